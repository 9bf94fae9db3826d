import Verif.Py.Tree
import Verif.Rt.Library
import Verif.Rt.Udfs
/-
Specification: addresses and networks of version 4, by their bits; the value of a call of a user-defined function on a
row; and calls in SQL text.
-/
namespace Verif.Spec
open Verif

/-- four bytes -/
structure Addr where
  a : Fin 256
  b : Fin 256
  c : Fin 256
  d : Fin 256
deriving DecidableEq

/-- dotted decimal text -/
def Addr.text (x : Addr) : Str :=
  showNat x.a ++ '.' :: (showNat x.b ++ '.' :: (showNat x.c ++ '.' :: showNat x.d))

/-- the bits of an address, the most significant first -/
def Addr.bits (x : Addr) : List Bool :=
  [x.a, x.b, x.c, x.d].flatMap fun n => (List.range 8).map fun i => n.val.testBit (7 - i)

/-- an address is in a network if its first bits are those of the network -/
def inNet (x : Addr) (net : Addr) (len : Nat) : Prop := x.bits.take len = net.bits.take len

instance (x net : Addr) (len : Nat) : Decidable (inNet x net len) := inferInstanceAs (Decidable (_ = _))

/-- the text of a network -/
def netText (net : Addr) (len : Nat) : Str := net.text ++ '/' :: showNat len

/-- byte by byte -/
def Addr.and (x m : Addr) : Addr :=
  ⟨⟨x.a &&& m.a, Nat.lt_of_le_of_lt Nat.and_le_left x.a.isLt⟩, ⟨x.b &&& m.b, Nat.lt_of_le_of_lt Nat.and_le_left x.b.isLt⟩,
   ⟨x.c &&& m.c, Nat.lt_of_le_of_lt Nat.and_le_left x.c.isLt⟩, ⟨x.d &&& m.d, Nat.lt_of_le_of_lt Nat.and_le_left x.d.isLt⟩⟩

/-- The text an argument of a user-defined function stands for on a row; `none`: there is no such column, and the query
is refused. -/
def argText (row : Str → Option Str) : PE → Option Str
  | .named n => row n
  | .lit code => Rt.strOf code
  | _ => none

/-- a call of `cidr_match` of the library -/
def matchValue (v : Rt.V6) (row : Str → Option Str) : PE → Option Bool
  | .fn f [a, b] =>
    if f = c!"udfs.cidr_match" then
      match argText row a, argText row b with
      | some x, some y => some (Rt.cidrMatch v x y)
      | _, _ => none
    else none
  | _ => none

/-- a call of `ipmask` of the library; the inner `none` is a missing value -/
def maskValue (row : Str → Option Str) : PE → Option (Option Str)
  | .fn f [a, b] =>
    if f = c!"udfs.ipmask" then
      match argText row a, argText row b with
      | some x, some y => some (Rt.ipMask x y)
      | _, _ => none
    else none
  | _ => none

/-- a call `name('text', column)` in SQL: name, text and column -/
def sqlCall (s : Str) : Option (Str × Str × Str) :=
  let name := s.takeWhile (· != '(')
  match s.dropWhile (· != '(') with
  | '(' :: '\'' :: r =>
    let text := r.takeWhile (· != '\'')
    match r.dropWhile (· != '\'') with
    | '\'' :: ',' :: ' ' :: r =>
      match r.dropWhile (· != ')') with
      | [')'] => some (name, text, r.takeWhile (· != ')'))
      | _ => none
    | _ => none
  | _ => none

/-- the value of such a call, if the function of the library is registered in Spark under its name -/
def sqlMatch (v : Rt.V6) (row : Str → Option Str) (s : Str) : Option Bool :=
  match sqlCall s with
  | some (n, text, col) => if n = c!"cidr_match" then (row col).map fun x => Rt.cidrMatch v text x else none
  | none => none

end Verif.Spec
