import Verif.Nom.Core
import Verif.Spl.Ast
/-
The non-recursive part of /repo/src/spl/parser.rs: whitespace helpers, tokens,
quoted strings, numbers, time spans, addresses, constants.
Line references are to /repo/src/spl/parser.rs unless another file is named.
-/
namespace Verif

namespace P
variable {R : Type} [Env R] {g c g₁ c₁ g₂ c₂ : Bool} {α β : Type}

/-- Change the indices of a parser to equal ones. -/
def recast {g' c' : Bool} (p : P R g c α) (hg : g = g') (hc : c = c') : P R g' c' α where
  run := p.run
  suf := p.suf
  con h := p.con (hc.trans h)
  grd := hg ▸ p.grd

/-- nom `multispace0` -/
def ms0 : P R true false Str := takeWhile0 isSpace

/-- nom `multispace1` -/
def ms1 : P R true true Str := takeWhile1 isSpace

/-- `ws`, 59-64 -/
def ws (p : P R g c α) : P R g c α :=
  (delim ms0 p ms0).recast (by cases g <;> cases c <;> rfl) (by cases c <;> rfl)

/-- `ws_left`, 67-72 -/
def wsLeft (p : P R g c α) : P R g c α :=
  (pre ms0 p).recast (by cases g <;> rfl) (by cases c <;> rfl)

/-- `ws_right`, 75-80 -/
def wsRight (p : P R g c α) : P R g c α :=
  (post p ms0).recast (by cases g <;> cases c <;> rfl) (by cases c <;> rfl)

/-- `parenthesized`, 83-88 -/
def parenthesized (p : P R g c α) : P R true true α :=
  (delim (wsRight (tag! "(")) p (wsLeft (tag! ")"))).recast
    (by cases g <;> cases c <;> rfl) (by cases c <;> rfl)

/-- Separator of `comma_separated_list0/1`, 101-116 -/
def commaSep : P R true true Str := ws (tag! ",")

/-- Separator of `comma_or_space_separated_list0/1`, 126-137 -/
def commaOrSpaceSep : P R true true Str := commaSep <||> ms1

/-- `comma_separated_list0`, 112-132 -/
def commaList0 (p : P R g c α) : P R g false (List α) :=
  (sepList0 commaSep p).recast (by cases g <;> rfl) rfl

/-- `comma_separated_list1`, 112-132 -/
def commaList1 (p : P R g c α) : P R g c (List α) :=
  (sepList1 commaSep p).recast (by cases g <;> rfl) rfl

/-- `space_separated_list1`, 112-130,133 -/
def spaceList1 (p : P R g c α) : P R g c (List α) :=
  (sepList1 ms1 p).recast (by cases g <;> rfl) rfl

/-- `comma_or_space_separated_list0`, 112-130,134-137 -/
def commaOrSpaceList0 (p : P R g c α) : P R g false (List α) :=
  (sepList0 commaOrSpaceSep p).recast (by cases g <;> rfl) rfl

/-- `comma_or_space_separated_list1`, 112-130,134-137 -/
def commaOrSpaceList1 (p : P R g c α) : P R g c (List α) :=
  (sepList1 commaOrSpaceSep p).recast (by cases g <;> rfl) rfl

/-- Run a lexer on text that has already been recognised: the second stage of
`literal` and `constant` (621-655).  The second lexer's remaining input is discarded. -/
def reparse (p : P R g c Str) (q : L c₂ β) : P R g c β :=
  filterMap (fun content => (q.run () content).map Prod.snd) p

end P

open P

namespace Lex

/-- `unit_normalizer!`, 146-157: any of the spellings, normalised name as the value. -/
def unit (name : Str) (p : L true Str) : L true Str := P.map (fun _ => name) p

/-- `seconds`, 171 -/
def seconds : L true Str := unit c!"seconds"
  (tagi! "seconds" <||> tagi! "second" <||> tagi! "secs" <||> tagi! "sec" <||> tagi! "s")

/-- `minutes`, 174 -/
def minutes : L true Str := unit c!"minutes"
  (tagi! "minutes" <||> tagi! "minute" <||> tagi! "mins" <||> tagi! "min" <||> tagi! "m")

/-- `hours`, 177 -/
def hours : L true Str := unit c!"hours"
  (tagi! "hours" <||> tagi! "hour" <||> tagi! "hrs" <||> tagi! "hr" <||> tagi! "h")

/-- `days`, 180 -/
def days : L true Str := unit c!"days" (tagi! "days" <||> tagi! "day" <||> tagi! "d")

/-- `weeks`, 183 -/
def weeks : L true Str := unit c!"weeks"
  (tagi! "weeks" <||> tagi! "week" <||> tagi! "w7" <||> tagi! "w0" <||> tagi! "w")

/-- `months`, 186 -/
def months : L true Str := unit c!"months" (tagi! "months" <||> tagi! "month" <||> tagi! "mon")

/-- `time_unit`, 189-191 -/
def timeUnit : L true Str := months <||> days <||> hours <||> minutes <||> weeks <||> seconds

/-- nom `digit1` -/
def digit1 : L true Str := takeWhile1 isDig

/-- Optional sign used by `int` and `double`. -/
def sign : L false (Option Str) := opt (tag! "+" <||> tag! "-")

/-- `int`, 583-594.  `str::parse::<i64>` of a digit string fails above `2^63 - 1`. -/
def int : L true Int :=
  P.map (fun x => if x.1 = some c!"-" then -(x.2 : Int) else (x.2 : Int))
    (seq sign (filterMap (fun ds => if digitsVal ds < 2 ^ 63 then some (digitsVal ds) else none) digit1))

/-- `double`, 602-614 (see `Dbl` for the simplification). -/
def double : L true Dbl :=
  P.map (fun x => { neg := decide (x.1 = some c!"-"), whole := x.2.1, frac := x.2.2 })
    (seq sign (sepPair digit1 (tag! ".") digit1))

/-- `time_span`, 196-201 -/
def timeSpan : L true TimeSpan :=
  P.map (fun x => { value := x.1, scale := x.2 }) (seq int timeUnit)

/-- `time_span_one`, 208-215 -/
def timeSpanOne : L true TimeSpan :=
  P.map (fun x => { value := if x.1.isSome then -1 else 1, scale := x.2 })
    (seq (opt (tag! "-")) timeUnit)

/-- `_relative_time_fmt`, 219-233 -/
def relativeTimeFmt : L true SnapTime :=
  P.map (fun x => { span := x.1, snap := x.2.2.1, snapOffset := x.2.2.2 })
    (seq (opt (timeSpan <||> timeSpanOne)) (seq (tag! "@") (seq timeUnit (opt timeSpan))))

/-- `relative_time`, 235-240 -/
def relativeTime : L true SnapTime :=
  relativeTimeFmt <||> delim (tag! "\"") relativeTimeFmt (tag! "\"")

/-- The list in `_is_not_reserved_word`, 346-408. -/
def reserved : List Str := [
  c!"AFTER", c!"AND", c!"APPLY", c!"AS", c!"ASC", c!"BEFORE", c!"BETWEEN", c!"BIN", c!"BRANCH",
  c!"BY", c!"DEDUP", c!"DISTINCT", c!"EVENTSTATS", c!"EXISTS", c!"EXPORT", c!"FIT", c!"FROM",
  c!"FUNCTION", c!"GROUP", c!"GROUPBY", c!"HAVING", c!"HEAD", c!"HISTPERC", c!"IMPORT", c!"IN",
  c!"INNER", c!"INTO", c!"IS", c!"JOIN", c!"LIKE", c!"LIMIT", c!"LOOKUP", c!"NOT", c!"OFFSET",
  c!"ON", c!"ONCHANGE", c!"OR", c!"ORDER", c!"ORDERBY", c!"OUTER", c!"OUTPUTNEW", c!"RENAME",
  c!"RESET", c!"RETURN", c!"REX", c!"SEARCH", c!"SELECT", c!"SORT", c!"STATS", c!"STREAMSTATS",
  c!"THRU", c!"THROUGH", c!"TIMECHART", c!"TIMEWRAP", c!"UNION", c!"WHERE", c!"WHILE", c!"XOR"]

/-- `_is_not_reserved_word`, 346-408 -/
def notReserved (s : Str) : Bool := !(reserved.contains (upper s))

/-- ASCII alphanumeric or one of underscore, star, colon, slash, hyphen, percent, braces, at sign; 412-415. -/
def isTokenChar (x : Char) : Bool :=
  isAlnum x || x == '_' || x == '*' || x == ':' || x == '/' || x == '-' || x == '%' ||
  x == '{' || x == '}' || x == '@'

/-- Token character, backslash, dollar or dot; 423-426. -/
def isExtraChar (x : Char) : Bool := isTokenChar x || x == '\\' || x == '$' || x == '.'

/-- One step of `token`: a token character, or a backslash and any character.  (The code
takes a maximal run of alphanumerics in one step; under `recognize(many1(..))` the
result is the same.) -/
def tokenStep : L true Str :=
  recognize (satisfy isTokenChar) <||> recognize (seq (tag! "\\") (satisfy fun _ => true))

/-- `token`, 410-419 -/
def token : L true Str := verify notReserved (recognize (many1 tokenStep))

/-- `token_with_extras`, 421-430.  The alternative `"\\" take(1)` is dead, as a
backslash is already one of the single characters. -/
def tokenExtras : L true Str := verify notReserved (recognize (many1 (satisfy isExtraChar)))

/-- `bool_`, 433-446 -/
def bool_ : L true Bool :=
  post (P.map (fun _ => true) (tagi! "true") <||> P.map (fun _ => true) (tagi! "t") <||>
        P.map (fun _ => false) (tagi! "false") <||> P.map (fun _ => false) (tagi! "f"))
    (peek (eof <||> ms1.weak <||>
      (recognize (satisfy fun x => x == '(' || x == ')' || x == '.' || x == ':')).weak))

/-- One step inside a quoted string delimited by `q`: backslash and any character, or a
character other than `q` and backslash. -/
def quotedStep (q : Char) : L true Str :=
  recognize (seq (tag! "\\") (satisfy fun _ => true)) <||>
  recognize (satisfy fun x => x != q && x != '\\')

/-- `_double_quoted_content`, 449-455 -/
def dqContent : L false Str := ws (recognize (many0 (quotedStep '"')))

/-- `double_quoted`, 457-466 -/
def doubleQuoted : L true Str :=
  delim (tag! "\"") (recognize (seq (tag! "\"") (seq dqContent (tag! "\"")))) (tag! "\"") <||>
  delim (tag! "\"") dqContent (tag! "\"")

/-- `single_quoted`, 468-477 -/
def singleQuoted : L true Str :=
  delim (tag! "'") (ws (recognize (many0 (quotedStep '\'')))) (tag! "'")

/-- `wildcard`, 481-488 -/
def wildcard : L true Str := verify (fun s => s.contains '*') (doubleQuoted <||> tokenExtras)

/-- One step of `double_quoted_alt`. -/
def dqAltStep : L true Str :=
  tag! "\\\"" <||> tag! "\\\\" <||> recognize (satisfy fun x => x != '"' && x != '\\')

/-- `double_quoted_alt`, 492-502 -/
def doubleQuotedAlt : L true Str :=
  delim (tag! "\"") (ws (recognize (many0 dqAltStep))) (tag! "\"")

/-- `_token_not_t_f`, 509-511 -/
def tokenNotTF : L true Str := verify (fun s => s != c!"t" && s != c!"f") token

/-- `_field_fmt`, 514-522 -/
def fieldFmt : L true Str := recognize (sepList1 (tag! ".") (tokenNotTF <||> doubleQuoted))

/-- `field`, 524-526 -/
def field : L true Str := fieldFmt <||> singleQuoted

/-- `string`, 528-533 -/
def string : L true Str :=
  doubleQuoted <||> recognize (many1 (token <||> tag! "." <||> tag! ":"))

/-- `variable`, 537-541 -/
def variable_ : L true Str := delim (tag! "$") tokenNotTF (tag! "$")

/-- `byte`, 544-546 -/
def byte : L true Str := recognize (verify (fun s => decide (s.length ≤ 3)) digit1)

/-- `ipv4_addr`, 549-559 -/
def ipv4Addr : L true Str :=
  recognize (seq byte (seq (tag! ".") (seq byte (seq (tag! ".") (seq byte (seq (tag! ".") byte))))))

/-- `ipv4_cidr`, 561-566 -/
def ipv4Cidr : L true Str := recognize (sepPair ipv4Addr (ws (tag! "/")) byte)

/-- Rust's `read_number(16, Some(4), true)` on a digit string: one to four hexadecimal
digits.  Only decimal digits can occur here (`ipv6Addr`). -/
def ip6Number (s : Str) : Option Str :=
  let ds := s.takeWhile isDig
  if ds.isEmpty || decide (4 < ds.length) then none else some (s.dropWhile isDig)

/-- Rust's `read_groups(limit)` of the IPv6 parser: number of groups read and the rest.
No dotted IPv4 tail can occur here. -/
def ip6Groups : Nat → Nat → Str → Nat × Str
  | 0, i, s => (i, s)
  | n + 1, i, s =>
    match (if i = 0 then some s else stripPrefix? c!":" s) with
    | none => (i, s)
    | some s' => match ip6Number s' with
      | none => (i, s)
      | some r => ip6Groups n (i + 1) r

/-- `str::parse::<Ipv6Addr>().is_ok()` (Rust standard library) for text made of decimal
digits and colons. -/
def ip6Valid (s : Str) : Bool :=
  match ip6Groups 8 0 s with
  | (n, r) =>
    if n = 8 then r.isEmpty
    else match stripPrefix? c!"::" r with
      | none => false
      | some r' => (ip6Groups (7 - n) 0 r').2.isEmpty

/-- `ipv6_addr`, 568-577.  The groups are digit strings that fit `u16`. -/
def ipv6Addr : L false Str :=
  verify ip6Valid (recognize (sepList1 (tag! ":")
    (opt (filterMap (fun ds => if digitsVal ds < 2 ^ 16 then some ds else none) digit1))))

/-- The text handed to the second stage of `literal` and `constant`, 619-620. -/
def rawConstant : L true Str := recognize (doubleQuoted <||> singleQuoted <||> tokenExtras)

/-- Second stage of `literal`, 621-634 -/
def literalOf : L false Constant :=
  P.map .ipv4cidr (allConsuming ipv4Cidr) <||>
  P.map .str (allConsuming ipv4Addr) <||>
  P.map .str (allConsuming ipv6Addr) <||>
  P.map .wildcard (allConsuming wildcard) <||>
  P.map .str (allConsuming doubleQuoted) <||>
  P.map .variable (allConsuming variable_) <||>
  P.map .snapTime (allConsuming relativeTime) <||>
  P.map .timeSpan (allConsuming timeSpan) <||>
  P.map .double (allConsuming double) <||>
  P.map .int (allConsuming int) <||>
  P.map .bool (allConsuming bool_) <||>
  P.map .str (allConsuming string)

/-- `literal`, 618-636 -/
def literal : L true Constant := reparse rawConstant literalOf

/-- Second stage of `constant`, 641-654 -/
def constantOf : L false Constant :=
  P.map .ipv4cidr (allConsuming ipv4Cidr) <||>
  P.map .str (allConsuming ipv4Addr) <||>
  P.map .str (allConsuming ipv6Addr) <||>
  P.map .snapTime (allConsuming relativeTime) <||>
  P.map .timeSpan (allConsuming timeSpan) <||>
  P.map .wildcard (allConsuming wildcard) <||>
  P.map .str (allConsuming doubleQuoted) <||>
  P.map .variable (allConsuming variable_) <||>
  P.map .double (allConsuming double) <||>
  P.map .int (allConsuming int) <||>
  P.map .field (allConsuming field) <||>
  P.map .bool (allConsuming bool_)

/-- `constant`, 638-656 -/
def constant : L true Constant := reparse rawConstant constantOf

/-- `field_and_value`, 660-668 -/
def fieldAndValue : L true (Str × Str) := sepPair token (ws (tag! "=")) (doubleQuoted <||> token)

/-- `field_and_constant`, 671-678 -/
def fieldAndConstant : L true (Str × Constant) := sepPair token (ws (tag! "=")) constant

/-- `command_options`, 712-716 -/
def commandOptions : L false (List (Str × Constant)) := many0 (ws fieldAndConstant)

/-- `field_list0`, 719-721 -/
def fieldList0 : L false (List Str) := commaOrSpaceList0 field

/-- `field_list1`, 723-725 -/
def fieldList1 : L true (List Str) := commaOrSpaceList1 field

/-- `comparison_operator`, 743-767: the canonical symbol, not the text written. -/
def comparisonOperator : L true Str :=
  tag! "<=" <||> tag! "<" <||> tag! ">=" <||> tag! ">" <||> tag! "==" <||>
  (P.map (fun _ => c!"=") (tag! "=" <||> tag! "::")) <||> tag! "!="

/-- `field_in`, 878-893 -/
def fieldIn : L true (Str × List Constant) :=
  sepPair field (ws (tagi! "IN")) (parenthesized (commaOrSpaceList0 constant))

/-- `term_call`, 909-919 -/
def termCall : L true Str := pre (tagi! "TERM") (parenthesized (takeWhile0 fun x => x != ')'))

/-- `aliased_field`, 1124-1132 -/
def aliasedField : L true (Str × Str) := sepPair field (ws (tagi! "AS")) (token <||> doubleQuoted)

/-- `maybe_spanned_field`, commands/stats_utils.rs:87-102 -/
def spField : L true SpField :=
  P.map (fun x => { field := x.1, span := some x.2 })
    (sepPair field ms1 (pre (ws (tagi! "span=")) timeSpan)) <||>
  P.map (fun f => { field := f, span := none }) field

/-- `maybe_spanned_field_list1`, commands/stats_utils.rs:104-106 -/
def spFieldList1 : L true (List SpField) := commaOrSpaceList1 spField

/-- `search_modifier`, 1388-1427 -/
def searchModifier : L true SearchModifier :=
  P.map .sourceType (pre (tagi! "sourcetype=") string) <||>
  P.map .host (pre (tagi! "host=") string) <||>
  P.map .hostTag (pre (tagi! "hosttag=") string) <||>
  P.map .eventType (pre (tagi! "eventtype=") string) <||>
  P.map .eventTypeTag (pre (tagi! "eventtypetag=") string) <||>
  P.map .savedSplunk (pre (tagi! "savedsearch=" <||> tagi! "savedsplunk=") string) <||>
  P.map .source (pre (tagi! "source=") string) <||>
  P.map .splunkServer (pre (tagi! "splunk_server=") string)

/-- `time_format`, 1451-1456 -/
def timeFormat : L false Str :=
  P.map (·.getD c!"%m/%d/%Y:%H:%M:%S.") (opt (pre (tagi! "timeformat=") doubleQuoted))

/-- `time_modifier`, 1460-1475 -/
def timeModifier : L true TimeModifier :=
  P.map .startTime (pre (tagi! "starttime=") doubleQuoted) <||>
  P.map .endTime (pre (tagi! "endtime=") doubleQuoted) <||>
  P.map .earliest (pre (tagi! "earliest=") relativeTime) <||>
  P.map .latest (pre (tagi! "latest=") relativeTime)

/-- `time_opts`, 1431-1446 -/
def timeOpts : L true (List FmtTimeModifier) :=
  P.map (fun x => x.2.map fun m => { format := x.1, modifier := m })
    (seq timeFormat (spaceList1 timeModifier))

end Lex
end Verif
