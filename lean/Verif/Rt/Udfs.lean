import Verif.Basic.Text
/-
The user-defined functions of the runtime library, /repo/python/spl_transpiler/runtime/udfs/__init__.py:6-37, and the part
of Python's `ipaddress` (3.9.5 to 3.13) they use.

`ipaddress` tries version 4 first and version 6 next.  Version 6 is a parameter (`V6`): how such a text is read is not
modelled, only that a text with a stroke is never an address.
Simplification: `int` reads ASCII digits only (Python also takes those of other scripts).
-/
namespace Verif.Rt
open Verif

/-! ### ipaddress -/

/-- `_parse_octet`: one to three ASCII digits without a leading zero, at most 255 -/
def parseOctet (s : Str) : Option Nat :=
  if s.isEmpty then none
  else if !s.all isDig then none
  else if 3 < s.length then none
  else if s ≠ ['0'] && s.head? = some '0' then none
  else if 255 < digitsVal s then none
  else some (digitsVal s)

/-- `_ip_int_from_string` -/
def parseIPv4 (s : Str) : Option Nat :=
  match splitOnC '.' s with
  | [a, b, c, d] =>
    match parseOctet a, parseOctet b, parseOctet c, parseOctet d with
    | some a, some b, some c, some d => some (((a * 256 + b) * 256 + c) * 256 + d)
    | _, _, _, _ => none
  | _ => none

/-- all bits of an address -/
def allOnes : Nat := 2 ^ 32 - 1

/-- `_ip_int_from_prefix` -/
def prefixMask (p : Nat) : Nat := allOnes ^^^ (allOnes >>> p)

/-- `_prefix_from_ip_int`: the number of leading ones of a mask -/
def prefixOfMask (m : Nat) : Option Nat := (List.range 33).find? fun p => m == prefixMask p

/-- `_prefix_from_prefix_string` -/
def prefixOfDigits (s : Str) : Option Nat :=
  if !s.isEmpty && s.all isDig && decide (digitsVal s ≤ 32) then some (digitsVal s) else none

/-- `_prefix_from_ip_string`: a mask of the network, or of the hosts -/
def prefixOfDotted (s : Str) : Option Nat :=
  match parseIPv4 s with
  | none => none
  | some m => match prefixOfMask m with
    | some p => some p
    | none => prefixOfMask (m ^^^ allOnes)

/-- `_make_netmask` for a text -/
def prefixLength (s : Str) : Option Nat :=
  match prefixOfDigits s with
  | some p => some p
  | none => prefixOfDotted s

/-- the values for version 6 -/
structure V6 where
  /-- the value of an address without a stroke -/
  address : Str → Option Nat
  /-- the value and the mask of a network -/
  network : Str → Option (Nat × Nat)

/-- an address or network with its version -/
inductive IP (α : Type)
  | four (x : α)
  | six (x : α)

/-- `ip_address`: `none` is a `ValueError` -/
def ipAddress (v : V6) (s : Str) : Option (IP Nat) :=
  if '/' ∈ s then none
  else match parseIPv4 s with
    | some a => some (.four a)
    | none => (v.address s).map .six

/-- `IPv4Network(s, strict=False)`: the network address and its mask -/
def ipv4Network (s : Str) : Option (Nat × Nat) :=
  match splitOnC '/' s with
  | [a] => (parseIPv4 a).map fun n => (n, allOnes)
  | [a, m] => match parseIPv4 a, prefixLength m with
    | some n, some p => some (n &&& prefixMask p, prefixMask p)
    | _, _ => none
  | _ => none

/-- `ip_network(s, strict=False)` -/
def ipNetwork (v : V6) (s : Str) : Option (IP (Nat × Nat)) :=
  match ipv4Network s with
  | some n => some (.four n)
  | none => (v.network s).map .six

/-- `ip in network` -/
def inNetwork : IP Nat → IP (Nat × Nat) → Bool
  | .four a, .four (n, m) => (a &&& m) == n
  | .six a, .six (n, m) => (a &&& m) == n
  | _, _ => false

/-! ### udfs -/

/-- `cidr_match`, udfs/__init__.py:6-19 -/
def cidrMatch (v : V6) (ipAddr cidrRange : Str) : Bool :=
  match ipAddress v ipAddr with
  | none => false
  | some ip => match ipNetwork v cidrRange with
    | none => false
    | some network => inNetwork ip network

/-- digits of an `int` after the first: single underscores may separate them -/
def intDigits : Str → Option Str
  | [] => some []
  | '_' :: c :: cs => if isDig c then (intDigits cs).map (c :: ·) else none
  | c :: cs => if isDig c then (intDigits cs).map (c :: ·) else none

/-- blanks at the ends -/
def stripBlanks (s : Str) : Str := ((s.dropWhile isSpace).reverse.dropWhile isSpace).reverse

/-- digits without a sign -/
def natOfText : Str → Option Nat
  | [] => none
  | c :: cs => if isDig c then (intDigits cs).map fun ds => digitsVal (c :: ds) else none

/-- `int(text)` -/
def intOfText (s : Str) : Option Int :=
  match stripBlanks s with
  | '-' :: ds => (natOfText ds).map fun n => -(n : Int)
  | '+' :: ds => (natOfText ds).map fun n => (n : Int)
  | ds => (natOfText ds).map fun n => (n : Int)

/-- the text of an address -/
def showIPv4 (n : Nat) : Str :=
  showNat (n / 2 ^ 24 % 256) ++ '.' :: (showNat (n / 2 ^ 16 % 256) ++ '.' :: (showNat (n / 2 ^ 8 % 256) ++ '.' :: showNat (n % 256)))

/-- `ipmask`, udfs/__init__.py:22-37 -/
def ipMask (mask ip : Str) : Option Str :=
  match intOfText mask with
  | none => none
  | some m => (ipv4Network (ip ++ '/' :: showInt m)).map fun n => showIPv4 n.1

end Verif.Rt
