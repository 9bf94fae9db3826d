import Verif.Py.Tree
import Verif.Spec.Python
/-
Specification: the Python expression a column expression stands for.
-/
namespace Verif.Spec

/-- Text that can stand between two quotes `q` as it is. -/
def Plain (q : Char) (s : Str) : Bool := s.all fun c => c != q && c != '\\' && c != '\n' && c != '\r'

/-- An identifier that is no keyword. -/
def isIdent (s : Str) : Bool :=
  match s with
  | [] => false
  | c :: cs => isIdStart c && cs.all isIdChar && !(pyKeywords.contains (c :: cs))

/-- The literal or name a piece of verbatim code consists of. -/
def codeTree (c : Str) : Option PyE :=
  match pyString c with
  | some (v, []) => some (.str v)
  | _ =>
    match pyNumber c with
    | some (n, []) => some (.num n.1 n.2)
    | _ =>
      match c with
      | '-' :: d =>
        match pyNumber d with
        | some (n, []) => some (.neg (.num n.1 n.2))
        | _ => none
      | c => if isIdent c then some (.name c) else none

/-- `a.b.c` for a list of names -/
def pathTree : PyE → List Str → Option PyE
  | e, [] => some e
  | e, n :: ns => if isIdent n then pathTree (.attr e n) ns else none

/-- The function named in `ColumnLike::FunctionCall`: a dotted name as it is, any other name in the
module `F`. -/
def funcTree (f : Str) : Option PyE :=
  if f.contains '.' then
    match splitOnC '.' f with
    | n :: ns => if isIdent n then pathTree (.name n) ns else none
    | [] => none
  else pathTree (.name c!"F") [f]

/-- `F.f(args)` -/
def fCall (f : Str) (args : List PyE) : PyE := .call (.attr (.name c!"F") f) args

/-- The lambda expression a piece of verbatim code consists of: `lambda left_, right_: F.concat_ws(r"d", left_, right_)`, the only one. -/
def lamTree (c : Str) : Option PyE :=
  let d := (c.drop 36).take (c.length - 53)
  if c = c!"lambda left_, right_: F.concat_ws(r\"" ++ d ++ c!"\", left_, right_)" then
    match pyString (c!"r\"" ++ d ++ c!"\"") with
    | some (v, []) => some (.lam [c!"left_", c!"right_"] (fCall c!"concat_ws" [.str v, .name c!"left_", .name c!"right_"]))
    | _ => none
  else none

/-- Column expressions a method can be called on without parentheses: all but negations and
verbatim code. -/
def isReceiver : PE → Bool
  | .not _ => false
  | .py _ => false
  | _ => true

/-- a lambda expression, and nothing after it -/
def lastLam (e : PE) (es : List PE) : Option (List PyE) :=
  match e, es with
  | .py c, [] => (lamTree c).map fun t => [t]
  | _, _ => none

mutual
/-- The Python expression of a column expression: `F.col('n')`, `F.lit(code)`, `e.m(args)`,
`F.f(args)`, `e.alias('n')`, `l op r` and `~ e`, with the operands as written in the tree. -/
def pyTree : PE → Option PyE
  | .named n => if Plain '\'' n then some (fCall c!"col" [.str n]) else none
  | .lit c => (codeTree c).map fun v => fCall c!"lit" [v]
  | .method col f args =>
    if isReceiver col && isIdent f then
      match pyTree col, pyTrees args with
      | some t, some ts => some (.call (.attr t f) ts)
      | _, _ => none
    else none
  | .fn f args =>
    match funcTree f, pyTrees args with
    | some t, some ts => some (.call t ts)
    | some t, none => (lamTrees args).map (.call t)
    | _, _ => none
  | .aliased col n =>
    if isReceiver col && Plain '\'' n then (pyTree col).map fun t => .call (.attr t c!"alias") [.str n]
    else none
  | .bin op l r =>
    if (opLevel op).isSome then
      match pyTree l, pyTree r with
      | some a, some b => some (.bin op a b)
      | _, _ => none
    else none
  | .not r => (pyTree r).map .inv
  | .py c => codeTree c
/-- the expressions of an argument list -/
def pyTrees : List PE → Option (List PyE)
  | [] => some []
  | e :: es =>
    match pyTree e, pyTrees es with
    | some t, some ts => some (t :: ts)
    | _, _ => none
/-- the expressions of an argument list that ends with a lambda expression -/
def lamTrees : List PE → Option (List PyE)
  | [] => none
  | e :: es =>
    match pyTree e, lamTrees es with
    | some t, some ts => some (t :: ts)
    | none, _ => lastLam e es
    | _, _ => none
end

end Verif.Spec
