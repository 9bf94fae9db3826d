import Verif.Spec.Tree
/-
Specification: fields with several values, and arrays.

SPL: a field has a list of values; a field that is missing has none, and a single value is a list of one.  Spark: a column is
null, a text, or an array, and these are different types.
-/
namespace Verif.Spec

/-! ### SPL -/

/-- `mvcount`: how many values there are; missing if there are none. -/
def splMvcount (vs : List Str) : Option Nat := if vs = [] then none else some vs.length

/-- `mvappend`: the values of all fields. -/
def splMvappend (vss : List (List Str)) : List Str := vss.flatten

/-- `mvzip`: the first values joined by the delimiter, the second values, and so on ("similar to Python's zip"). -/
def splMvzip (d : Str) (a b : List Str) : List Str := List.zipWith (fun x y => x ++ d ++ y) a b

/-- `split`: the pieces of a text between the occurrences of a delimiter, found from the left. -/
inductive Pieces (d : Str) : Str → List Str → Prop
  | last {s : Str} : (∀ a b, s ≠ a ++ d ++ b) → Pieces d s [s]
  | cut {a b : Str} {l : List Str} : (∀ a' b', a ++ d ++ b = a' ++ d ++ b' → a.length ≤ a'.length) → Pieces d b l →
      Pieces d (a ++ d ++ b) (a :: l)

/-! ### Spark -/

/-- Values of a column: the elements of an array are texts or null. -/
inductive MV
  | null
  | text (s : Str)
  | array (l : List (Option Str))
  | number (n : Int)
deriving DecidableEq

/-- A column with the values of a field: none, a text that is the only one, or an array. -/
inductive Stands : MV → List Str → Prop
  | null : Stands .null []
  | text (s : Str) : Stands (.text s) [s]
  | array (l : List Str) : Stands (.array (l.map some)) l

/-- `size(array)`; what it is for null depends on the settings.  A text has no size. -/
def sparkSize (ofNull : MV) : MV → Option MV
  | .null => some ofNull
  | .array l => some (.number l.length)
  | _ => none

/-- all are texts -/
def allTexts : List MV → Option (List Str)
  | [] => some []
  | .text s :: vs => (allTexts vs).map (s :: ·)
  | _ :: _ => none

/-- all are arrays -/
def allArrays : List MV → Option (List (List (Option Str)))
  | [] => some []
  | .array l :: vs => (allArrays vs).map (l :: ·)
  | _ :: _ => none

/-- `concat`: of texts one text, of arrays one array, and null if one of them is null; texts and arrays cannot be mixed. -/
def sparkConcat (vs : List MV) : Option MV :=
  let there := vs.filter (· ≠ .null)
  match allTexts there, allArrays there with
  | some ts, _ => some (if .null ∈ vs then .null else .text ts.flatten)
  | none, some ls => some (if .null ∈ vs then .null else .array ls.flatten)
  | none, none => none

/-- characters with a meaning of their own in a regular expression -/
def regexMeta : Str := c!"\\^$.|?*+()[]{}"

/-- the line ends a dot does not match -/
def lineEnd (c : Char) : Bool := c = '\n' || c = '\r' || c = '\u0085' || c = '\u2028' || c = '\u2029'

/-- cut at every occurrence of a text; `acc` is the piece so far, reversed -/
def cutAt (d : Str) : Nat → Str → Str → List Str
  | 0, acc, s => [acc.reverse ++ s]
  | k + 1, acc, s =>
    match stripPrefix? d s, s with
    | some r, _ => acc.reverse :: cutAt d k [] r
    | none, [] => [acc.reverse]
    | none, c :: cs => cutAt d k (c :: acc) cs

/-- cut at every character that satisfies a condition -/
def cutWhere (p : Char → Bool) (acc : Str) : Str → List Str
  | [] => [acc.reverse]
  | c :: cs => if p c then acc.reverse :: cutWhere p [] cs else cutWhere p (c :: acc) cs

/-- `split(text, pattern)`, the pattern being a regular expression: characters without a meaning of their own stand for
themselves, a dot matches any character, and a bar the empty text, which is found before every character but the first, and
at the end.  `none`: outside the modelled part. -/
def sparkSplit (p s : Str) : Option (List Str) :=
  if p = [] then none
  else if p.all fun c => c ∉ regexMeta then some (cutAt p (s.length + 1) [] s)
  else if p = c!"." then some (cutWhere (fun c => !lineEnd c) [] s)
  else if p = c!"|" then some (s.map ([·]) ++ [[]])
  else none

/-- the text elements joined by a delimiter; those that are null are left out -/
def concatWs (d : Str) (xs : List (Option Str)) : Str := joinWith d (xs.filterMap id)

/-- `zip_with(a, b, f)`: `f` of the first elements, of the second ones, and so on; the shorter array is filled up with null. -/
def zipAll (f : Option Str → Option Str → Str) : List (Option Str) → List (Option Str) → List Str
  | [], bs => bs.map (f none)
  | a :: as, [] => f a none :: as.map fun a => f a none
  | a :: as, b :: bs => f a b :: zipAll f as bs

/-- The value of a lambda expression with the parameters `a` and `b`, `F.concat_ws(text, a, b)`. -/
def pairText (a b : Str) : PyE → Option (Option Str → Option Str → Str)
  | .call (.attr (.name m) f) [.str d, .name x, .name y] =>
    if m = c!"F" ∧ f = c!"concat_ws" ∧ x = a ∧ y = b ∧ a ≠ b then some fun l r => concatWs d [l, r] else none
  | _ => none

/-- `zip_with(a, b, f)`: null if one of them is null. -/
def sparkZip (f : Option Str → Option Str → Str) : MV → MV → Option MV
  | .null, _ => some .null
  | .array _, .null => some .null
  | .array la, .array lb => some (.array ((zipAll f la lb).map some))
  | _, _ => none

/-- Value of `F.size(..)`, `F.concat(..)`, `F.split(.., text)` and `F.zip_with(.., .., lambda a, b: F.concat_ws(text, a, b))`,
given the values of the columns they are called with. -/
def mvEval (ofNull : MV) (x : PyE → MV) : PyE → Option MV
  | .call (.attr (.name m) f) args =>
    if m = c!"F" then
      if f = c!"size" then (match args with | [t] => sparkSize ofNull (x t) | _ => none)
      else if f = c!"concat" then sparkConcat (args.map x)
      else if f = c!"split" then
        match args with
        | [t, .str p] =>
          match x t with
          | .null => some .null
          | .text s => (sparkSplit p s).map fun l => .array (l.map some)
          | _ => none
        | _ => none
      else if f = c!"zip_with" then
        match args with
        | [t, u, .lam [a, b] body] => (pairText a b body).bind fun f => sparkZip f (x t) (x u)
        | _ => none
      else none
    else none
  | _ => none

end Verif.Spec
