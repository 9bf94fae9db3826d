import Verif.Spec.Tree
import Verif.Spl.Ast
import Verif.Tr.Commands
/-
Specification: the expressions for which the code generated with the runtime library and the code
generated without it are meant to be interchangeable.
-/
namespace Verif.Spec
open Verif

/-- Eval functions the runtime library provides with the documented number of arguments, and whose
library version builds the same column as the standalone translation. -/
def sharedFns : List (Str × Nat) :=
  [ (c!"false", 0), (c!"null", 0), (c!"true", 0), (c!"now", 0), (c!"time", 0), (c!"pi", 0), (c!"random", 0),
    (c!"bit_not", 1), (c!"md5", 1), (c!"sha1", 1), (c!"sha256", 1), (c!"sha512", 1), (c!"isnotnull", 1),
    (c!"isnull", 1), (c!"json_keys", 1), (c!"json_valid", 1), (c!"abs", 1), (c!"ceiling", 1), (c!"exact", 1),
    (c!"exp", 1), (c!"floor", 1), (c!"ln", 1), (c!"sqrt", 1), (c!"mvcount", 1), (c!"max", 1), (c!"min", 1),
    (c!"len", 1), (c!"lower", 1), (c!"upper", 1), (c!"urldecode", 1), (c!"acos", 1), (c!"acosh", 1),
    (c!"asin", 1), (c!"asinh", 1), (c!"atan", 1), (c!"atanh", 1), (c!"cos", 1), (c!"cosh", 1), (c!"sin", 1),
    (c!"sinh", 1), (c!"tan", 1), (c!"tanh", 1),
    (c!"bit_or", 2), (c!"bit_xor", 2), (c!"like", 2), (c!"match", 2), (c!"nullif", 2), (c!"pow", 2),
    (c!"atan2", 2), (c!"hypot", 2),
    (c!"if", 3) ]

/-- The functions among them whose library version returns a column; the others return a wrapper
object, on which no operator of a column works. -/
def columnFns : List Str := [c!"len", c!"lower", c!"upper", c!"urldecode"]

/-- Is the value of the expression a column (rather than a wrapper object)? -/
def isColumn : Expr → Bool
  | .call name _ => columnFns.contains name
  | _ => true

/-- constants that denote a column -/
def columnK : Constant → Bool
  | .field _ | .int _ | .str _ | .ipv4cidr _ => true
  | .double d => d.whole.all isDig
  | _ => false

/-- operators -/
def sharedOps : List Str :=
  [c!"=", c!"==", c!"!=", c!"<", c!"<=", c!">", c!">=", c!"AND", c!"OR", c!"+", c!"-", c!"*", c!"/", c!"%"]

/-- elements of an `IN` list -/
def listElem : Expr → Bool
  | .const (.wildcard _) | .const (.bool _) => true
  | .const k => columnK k
  | _ => false

/-- The interchangeable expressions. -/
inductive Shared : Expr → Prop
  | const {k} (h : columnK k = true) : Shared (.const k)
  | binary {l op r} (ho : op ∈ sharedOps) (hl : Shared l) (hr : Shared r) (cl : isColumn l = true) (cr : isColumn r = true) :
    Shared (.binary l op r)
  | pattern {l op p} (hl : Shared l) (cl : isColumn l = true) (ho : op = c!"=" ∨ op = c!"==" ∨ op = c!"!=") :
    Shared (.binary l op (.const (.wildcard p)))
  | not {e} (he : Shared e) (ce : isColumn e = true) : Shared (.unary c!"NOT" e)
  | inList {f es} (h : es.all listElem = true) : Shared (.fieldIn f es)
  | call {name args} (hn : (name, args.length) ∈ sharedFns) (ha : ∀ a ∈ args, Shared a) :
    Shared (.call name args)
  | coalesce {args} (ha : ∀ a ∈ args, Shared a) : Shared (.call c!"coalesce" args)

/-- Documented eval functions whose call of the runtime library raises an exception whatever the
(translated) arguments are. -/
def brokenFns : List Str :=
  [ c!"memk", c!"rmcomma", c!"rmunit", c!"bit_shift_left", c!"bit_shift_right", c!"in", c!"strftime",
    c!"strptime", c!"sum", c!"mvappend", c!"mvindex", c!"mvzip", c!"split", c!"avg", c!"ltrim", c!"replace",
    c!"rtrim", c!"substr", c!"trim", c!"printf", c!"tonumber", c!"log" ]

/-- Functions whose library version rejects a second argument. -/
def brokenWithTwo : List Str := [c!"round", c!"max", c!"min", c!"relative_time"]

/-! ### commands -/

/-- Names of keyword arguments in Python (ASCII) -/
def Keyword (n : Str) : Prop := isIdent n = true ∧ n ∉ pyConsts

instance (n : Str) : Decidable (Keyword n) := inferInstanceAs (Decidable (_ ∧ _))

/-- Names that are not passed on as field names by the library's `search`. -/
def reservedFields : List Str :=
  [ c!"df", c!"index", c!"source", c!"sourcetype", c!"source_type", c!"host", c!"hosttag", c!"host_tag",
    c!"eventtype", c!"event_type", c!"eventtypetag", c!"event_type_tag", c!"savedsplunk", c!"saved_splunk",
    c!"splunk_server" ]

/-- constants a field is compared with -/
def filterK : Constant → Bool
  | .field n => n != c!"index"
  | .int _ | .str _ => true
  | .double d => d.whole.all isDig
  | _ => false

/-- Search conditions without bare terms: comparisons, `IN` lists, and their combinations. -/
inductive Filter : Expr → Prop
  | cmp {f op k} (hf : f ∉ reservedFields) (ho : op ∈ [c!"=", c!"==", c!"!=", c!"<", c!"<=", c!">", c!">="])
    (hk : filterK k = true) : Filter (.binary (.const (.field f)) op (.const k))
  | unlike {f p} (hf : f ∉ reservedFields) : Filter (.binary (.const (.field f)) c!"!=" (.const (.wildcard p)))
  | inList {f es} (h0 : es ≠ []) (h : es.all listElem = true) : Filter (.fieldIn f es)
  | not {e} (he : Filter e) : Filter (.unary c!"NOT" e)
  | or {l r} (hl : Filter l) (hr : Filter r) : Filter (.binary l c!"OR" r)
  | and {l r} (hl : Filter l) (hr : Filter r) : Filter (.binary l c!"AND" r)

/-- `index=x` in conjunction with such conditions -/
inductive Indexed (x : Str) : Expr → Prop
  | index {v} (hv : v = .const (.field x) ∨ v = .const (.str x)) (hx : x ≠ c!"index") :
    Indexed x (.binary (.const (.field c!"index")) c!"=" v)
  | left {l r} (hl : Indexed x l) (hr : Filter r) : Indexed x (.binary l c!"AND" r)
  | right {l r} (hl : Filter l) (hr : Indexed x r) : Indexed x (.binary l c!"AND" r)

/-- the fields of which the condition requires a value: the operands `f=v` of the outer conjunction -/
def testedFields : Expr → List Str
  | .binary l op r =>
    if op = c!"AND" then testedFields l ++ testedFields r
    else if op = c!"=" ∨ op = c!"==" then
      match l with
      | .const (.field f) => [f]
      | _ => []
    else []
  | _ => []

/-- Statistics of the runtime library that are the same as those of plain PySpark, with their number
of arguments. -/
def sharedStats : List (Str × Nat) :=
  [ (c!"count", 0), (c!"earliest_time", 0), (c!"latest_time", 0),
    (c!"avg", 1), (c!"estdc", 1), (c!"max", 1), (c!"mean", 1), (c!"min", 1), (c!"mode", 1), (c!"stdev", 1),
    (c!"var", 1), (c!"varp", 1), (c!"first", 1), (c!"last", 1), (c!"values", 1), (c!"earliest", 1),
    (c!"latest", 1), (c!"rate", 1) ]

/-- A statistic `name(args)` or `name(args) as label`. -/
inductive SharedStat : Expr → Str → Prop
  | plain {name args} (hn : (name, args.length) ∈ sharedStats) (ha : ∀ a ∈ args, Shared a) :
    SharedStat (.call name args) name
  | named {name args label} (hn : (name, args.length) ∈ sharedStats) (ha : ∀ a ∈ args, Shared a) :
    SharedStat (.alias (.call name args) label) label

/-- statistics with their labels -/
inductive SharedStats : List Expr → List Str → Prop
  | nil : SharedStats [] []
  | cons {e l es ls} (h : SharedStat e l) (t : SharedStats es ls) : SharedStats (e :: es) (l :: ls)

/-- the patterns the reader of regular expressions accepts -/
def Readable (x : Ext) (r : Str) : Prop := (x.parseRe r).isSome = true

/-- Commands that do the same with the runtime library and without; `first`: the command is the
first one of the query; `P`: the patterns the reader of regular expressions accepts. -/
inductive SharedCmd (P : Str → Prop) : Bool → Command → Prop
  | search {e} (h : Filter e) (hd : (testedFields e).Nodup) (hk : ∀ f ∈ testedFields e, Keyword f) : SharedCmd P false (.search e)
  | where_ {b e} (h : Shared e) (hc : isColumn e = true) : SharedCmd P b (.where_ e)
  | eval {fs : List (Str × Expr)} (h : ∀ p ∈ fs, Shared p.2) (hd : (fs.map (·.1)).Nodup) (hn : c!"df" ∉ fs.map (·.1))
    (hk : ∀ n ∈ fs.map (·.1), Keyword n) :
    SharedCmd P false (.eval fs)
  | stats {o fs ls bys dd} (h0 : fs ≠ []) (h : SharedStats fs ls) (hd : ls.Nodup) (h1 : c!"df" ∉ ls) (h2 : c!"by" ∉ ls)
    (hk : ∀ l ∈ ls, Keyword l) :
    SharedCmd P false (.stats o fs bys dd)
  | fields {b rm fs} : SharedCmd P b (.fields rm fs)
  | table {b fs} : SharedCmd P b (.table fs)
  | rename {b as} : SharedCmd P b (.rename as)
  | tail {b n} : SharedCmd P b (.tail n)
  | head {b n kl nl} : SharedCmd P b (.head (.const (.int n)) kl nl)
  | sort {b ks n d} (h : ∀ k ∈ ks, ∃ f, k.2 = .const (.field f) ∧ (k.1 = none ∨ k.1 = some c!"+" ∨ k.1 = some c!"-")) :
    SharedCmd P b (.sort ks n d)
  | spath {b p i o} : SharedCmd P b (.spath p i o)
  | addTotals {b a} : SharedCmd P b (.addTotals a)
  | bin {b a} : SharedCmd P b (.bin a)
  | convert {b t ks} (h : ∀ k ∈ ks, k.func = c!"memk" ∨ k.func = c!"rmunit" ∨ k.func = c!"rmcomma" ∨
    k.func = c!"ctime" ∧ t = c!"%m/%d/%Y %H:%M:%S") : SharedCmd P b (.convert t ks)
  | makeResults {b a} (h : a.annotate = true → a.serverGroup = none) : SharedCmd P b (.makeResults a)
  | regex {b i r} (h : ∀ f o, i = some (f, o) → o = c!"=" ∨ o = c!"!=") : SharedCmd P b (.regex i r)
  | rex {b a} (h1 : a.mode ≠ some c!"sed") (h2 : a.maxMatch = 1) (h : P a.regex) : SharedCmd P b (.rex a)

/-- A query: one that begins with a search of an index, or any other whose commands are shared. -/
inductive SharedQuery (P : Str → Prop) : Option Str → List Command → Prop
  | indexed {x e cs} (h : Indexed x e) (hd : (testedFields e).Nodup) (hk : ∀ f ∈ testedFields e, Keyword f) (hc : ∀ c ∈ cs, SharedCmd P false c) :
    SharedQuery P (some x) (.search e :: cs)
  | other {c cs} (h : SharedCmd P true c) (hc : ∀ c ∈ cs, SharedCmd P false c) : SharedQuery P none (c :: cs)

end Verif.Spec
