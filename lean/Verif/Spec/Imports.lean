import Verif.Spec.PyRun
/-
Specification: Python programs that begin with import statements.  Written from the Python language reference (7.11).
-/
namespace Verif.Spec

/-- one item of an import statement: `name` or `name as other`; the name that is bound -/
def importItem (ws : List Str) : Option Str :=
  match ws with
  | [n] => if isIdent n then some n else none
  | [n, a, m] => if isIdent n && a = c!"as" && isIdent m then some m else none
  | _ => none

/-- the items, separated by commas -/
def importItems : List Str → Option (List Str)
  | [] => some []
  | i :: is =>
    match importItem ((splitOnC ' ' i).filter (· ≠ [])), importItems is with
    | some n, some ns => some (n :: ns)
    | _, _ => none

/-- the names bound by a line `from module import items` -/
def importLine (l : Str) : Option (List Str) :=
  match splitOnC ' ' l with
  | f :: m :: i :: _ =>
    if f = c!"from" && (splitOnC '.' m).all isIdent && i = c!"import" then importItems (splitOnC ',' (l.drop (f.length + m.length + i.length + 3)))
    else none
  | _ => none

/-- The text consists of import statements, which bind the names, and the program. -/
inductive ReadsAs : Str → List Str → PyProg → Prop
  | prog {t q} (h : readProg t = some q) : ReadsAs t [] q
  | imports {l t ns ms q} (h : importLine l = some ns) (ht : ReadsAs t ms q) : ReadsAs (l ++ c!"\n" ++ t) (ns ++ ms) q

/-- What a program may use without defining it: the session, as in a notebook, and Python's constants. -/
def ambient : List Str := c!"spark" :: constNames

example : importLine c!"from pyspark.sql import functions as F" = some [c!"F"] ∧
    importLine c!"from a.b import c, d as e, f" = some [c!"c", c!"e", c!"f"] ∧
    importLine c!"import a" = none ∧ importLine c!"from a import b c" = none ∧ importLine c!"from a import 1" = none := by decide +kernel

end Verif.Spec
