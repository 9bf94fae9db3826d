import Verif.Spec.Fragment
import Verif.Tr.Commands
/-
Specification: the queries that are claimed to be translated to readable Python.  Their words can be
written between quotes as they are, their functions have names that Python can read, and statements
are not needed inside expressions.  What is left out is left out because the translation is not Python
there, or reads differently from how it is meant (the theorems next to `C59_reads_partial` show this).
-/
namespace Verif.Spec

/-! ### words -/

/-- A text without quotes, backslashes and line ends. -/
def Word (s : Str) : Bool := s.all fun c => c != '\'' && c != '"' && c != '\\' && c != '\n' && c != '\r'

/-- an optional text -/
def word? : Option Str → Bool
  | none => true
  | some s => Word s

/-- The name of a keyword argument. -/
def kwOk (n : Str) : Bool := isIdent n && !(pyConsts.contains n)

/-- A pattern that can stand in a raw literal `r"..."`: no line end, a double quote only after a
backslash, and every backslash has a character after it. -/
def rawOk : Str → Bool
  | [] => true
  | c :: cs =>
    if c = '\\' then
      match cs with
      | [] => false
      | d :: ds => d != '\n' && d != '\r' && rawOk ds
    else c != '"' && c != '\n' && c != '\r' && rawOk cs

/-- a time span -/
def spanOk (t : TimeSpan) : Bool := Word t.scale && Word (upper t.scale)

/-- an optional time span -/
def span? : Option TimeSpan → Bool
  | none => true
  | some t => spanOk t

/-! ### expressions -/

/-- Constants.  `true` and `false` are translated to undefined names. -/
def plainK : Constant → Bool
  | .null | .int _ | .timeSpan _ => true
  | .bool _ => false
  | .double d => NumeralOk d
  | .str s | .field s | .wildcard s | .variable s | .ipv4cidr s => Word s
  | .snapTime t => span? t.span && span? t.snapOffset

/-- elements of `IN` lists; here `true` and `false` are fine -/
def plainElem : Expr → Bool
  | .const (.bool _) => true
  | .const k => plainK k
  | _ => true

/-- Operators that Python has, after the translation of `=`, `AND` and `OR`. -/
def plainOp (op : Str) : Bool := FragOp op || op == c!"and" || op == c!"or"

/-- The functions that call a method of their first argument (or hand it on): it must not be a
negation, as a method call binds stronger than `~`. -/
def methodFns : List Str :=
  [c!"bit_and", c!"bit_or", c!"bit_xor", c!"in", c!"tonumber", c!"tostring", c!"exact", c!"max", c!"min"]

/-- Function names: identifiers of Python, and the two keywords the translation takes care of. -/
def plainFn (name : Str) : Bool :=
  isIdent name || name == c!"if" || name == c!"in"

/-- A comparison with a wildcard is a method call. -/
def wildOk (l : Expr) (op : Str) (r : Expr) : Bool :=
  match r with
  | .const (.wildcard _) => !(FragWildOp op && isNegated l)
  | _ => true

mutual
/-- an expression -/
def plainE : Expr → Bool
  | .const k => plainK k
  | .binary l op r =>
    plainE l && plainE r && plainOp op && wildOk l op r
  | .unary _ r => plainE r
  | .fieldIn f es => Word f && es.all plainElem
  | .call name args => plainFn name && plainEs args && !(methodFns.contains name && args.any isNegated)
  | _ => true
/-- all of them -/
def plainEs : List Expr → Bool
  | [] => true
  | e :: es => plainE e && plainEs es
end

/-- an optional expression -/
def plainE? : Option Expr → Bool
  | none => true
  | some e => plainE e

/-! ### commands -/

/-- An aggregation: a call, possibly with a name; and a function name that is an identifier. -/
def plainAgg : Expr → Bool
  | .call name args => isIdent name && plainEs args
  | .alias e n => Word n && plainAgg e
  | _ => true

/-- the name of the column of an aggregation -/
def aggName : Expr → Option Str
  | .call name _ => some name
  | .alias _ n => some n
  | _ => none

/-- a field to group by -/
def plainBy (f : SpField) : Bool := Word f.field && span? f.span

/-- an optional list of fields to group by -/
def plainBy? : Option (List SpField) → Bool
  | none => true
  | some fs => fs.all plainBy

/-- Keyword arguments are named by identifiers, and no name is given twice. -/
def kwsOk (ns : List Str) : Bool := ns.all kwOk && ns.Nodup

/-- the terms of a conjunction -/
def conjuncts : Expr → List Expr
  | .binary l op r => if op = c!"AND" then conjuncts l ++ conjuncts r else [.binary l op r]
  | e => [e]

/-- The search fields with a keyword of their own. -/
def searchFields : List (Str × Str) :=
  [(c!"index", c!"index"), (c!"source", c!"source"), (c!"sourcetype", c!"source_type"), (c!"host", c!"host"),
   (c!"hosttag", c!"host_tag"), (c!"eventtype", c!"event_type"), (c!"eventtypetag", c!"event_type_tag"),
   (c!"savedsplunk", c!"saved_splunk"), (c!"splunk_server", c!"splunk_server")]

/-- the keyword of a search field -/
def keywordOf (f : Str) : Option Str := (searchFields.find? fun p => p.1 == f).map (·.2)

/-- is the operator an equality? -/
def isEq (op : Str) : Bool := op == c!"=" || op == c!"=="

/-- the keyword argument a term of a search is passed as, if it is -/
def termKw : Expr → List Str
  | .binary (.const (.field f)) op _ => if isEq op then [(keywordOf f).getD f] else []
  | _ => []

/-- a field name or a string -/
def isWord : Expr → Bool
  | .const (.field _) | .const (.str _) => true
  | _ => false

/-- a pattern -/
def isWild : Expr → Bool
  | .const (.wildcard _) => true
  | _ => false

/-- Can a term of a search be passed to the runtime?  Search fields have to be equal to a word, other
fields to something that is no wildcard; no wildcard can stand on the left. -/
def termRt : Expr → Bool
  | .binary (.const (.field f)) op r =>
    match keywordOf f with
    | some _ => isEq op && isWord r
    | none => !(isEq op && isWild r)
  | .binary (.const (.wildcard _)) _ _ | .binary (.const (.variable _)) _ _ => false
  | _ => true

/-- Is the command passed to the runtime library? -/
def usesRt (m : Mode) : Command → Bool
  | .eval _ | .stats .. | .tstats .. | .dataModel _ | .fillNull .. => m != .disallow
  | .search e => m != .disallow && (conjuncts e).all termRt
  | _ => false

mutual
/-- A command.  Sub-searches must not use the runtime. -/
def plainC (c : Ctx) : Command → Bool
  | .addTotals a => Word a.fieldName && a.fields.all Word
  | .bin a => Word (match a.field with | .field f => f | .alias _ n => n) && span? a.span
  | .convert t cs => Word t && cs.all fun f => Word f.field && word? f.alias && isIdent f.func
  | .dataModel a => word? a.dataModelName && word? a.datasetName && word? a.searchMode
  | .eval as => as.all (fun a => Word a.1 && plainE a.2) && (c.mode == .disallow || kwsOk (as.map (·.1)))
  | .fields _ fs | .table fs => fs.all Word && !fs.isEmpty
  | .fillNull v fs => Word v && (fs.getD []).all Word
  | .join _ fs sub => fs.all Word && plainP c sub && !(sub.any (usesRt c.mode))
  | .makeResults a => Word a.server && (!a.annotate || a.serverGroup == none)
  | .multiSearch ps => plainPs c ps
  | .rare a | .top a =>
    a.fields.all Word && (a.by_.getD []).all Word && Word a.countField && Word a.percentField
  | .regex i r => word? (i.map (·.1)) && rawOk r
  | .rename as => as.all fun a => Word a.1 && Word a.2
  | .rex a => Word a.field && rawOk a.regex &&
    (match c.ext.parseRe a.regex with | none => true | some t => (groupsOf t).all fun g => word? g.2)
  | .sort ks _ _ => !ks.isEmpty && ks.all fun k => plainE k.2
  | .spath p i o => Word p && Word i && word? o
  | .stats _ fs by_ _ => fs.all plainAgg && plainBy? by_ && !fs.isEmpty &&
    (c.mode == .disallow || kwsOk ((if by_.isSome then [c!"by"] else []) ++ fs.filterMap aggName))
  | .tstats o es dm nn w bf _ => es.all plainAgg && plainBy? bf && !es.isEmpty && word? dm && word? nn &&
    word? o.fillnullValue && plainE? w &&
    (c.mode == .disallow || kwsOk ([c!"from_"] ++ (if o.fillnullValue.isSome then [c!"fill_null_value"] else []) ++
      (if w.isSome then [c!"where"] else []) ++ (if bf.isSome then [c!"by"] else []) ++ es.filterMap aggName))
  | .where_ e => plainE e
  | .search e => plainE e && (!(usesRt c.mode (.search e)) || kwsOk ((conjuncts e).flatMap termKw))
  | _ => true
/-- a pipeline -/
def plainP (c : Ctx) : List Command → Bool
  | [] => true
  | a :: as => plainC c a && plainP c as
/-- searches of `multisearch` -/
def plainPs (c : Ctx) : List (List Command) → Bool
  | [] => true
  | p :: ps => plainP c p && !(p.any (usesRt c.mode)) && plainPs c ps
end

/-- What has been built so far: an expression, a variable, or an expression with statements before it. -/
inductive Stage
  | expr | var | mixed
deriving DecidableEq

/-- the stage after a command; a runtime command cannot follow statements and an expression -/
def Stage.next (s : Stage) (rt : Bool) : Option Stage :=
  match s, rt with
  | .mixed, true => none
  | _, true => some .var
  | .expr, false => some .expr
  | _, false => some .mixed

/-- No command for the runtime comes after one that is not, which comes after one that is. -/
def ordered (m : Mode) : Stage → List Command → Bool
  | _, [] => true
  | s, c :: cs =>
    match s.next (usesRt m c) with
    | none => false
    | some s' => ordered m s' cs

end Verif.Spec
