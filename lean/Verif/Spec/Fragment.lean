import Verif.Spec.Meaning
import Verif.Spec.Tree
import Verif.Tr.Funcs
/-
Specification: the expressions whose translation is claimed to keep their meaning.  What is left out
is left out because the translation fails, or because it is wrong (the theorems next to
`C21_meaning_partial` show this with examples), or because it is outside the modelled part of
PySpark.
-/
namespace Verif.Spec

/-- A string that Python reads between single quotes as it stands, and so on for double quotes:
`Plain`.  Patterns must in addition not contain the special characters of SQL `LIKE`. -/
def PlainPat (p : Str) : Bool := Plain '"' p && p.all fun c => c != '%' && c != '_'

/-- digits before and after the point -/
def NumeralOk (d : Dbl) : Bool := d.whole.all isDig && d.whole != [] && d.frac.all isDig

/-- Constants: fields, numbers and strings.  (The literals `true` and `false` are translated to
undefined Python names.) -/
def FragConst : Constant → Bool
  | .field n => Plain '\'' n
  | .int _ => true
  | .double d => NumeralOk d
  | .str s => Plain '\'' s
  | _ => false

/-- elements of `IN` lists -/
def FragElem : Expr → Bool
  | .const (.wildcard p) => PlainPat p
  | .const (.field s) => Plain '"' s
  | .const (.str s) => Plain '"' s
  | .const (.int _) => true
  | .const (.double d) => NumeralOk d
  | .const (.bool _) => true
  | _ => false

/-- Operators in the spelling the translation knows. -/
def FragOp (op : Str) : Bool :=
  op == c!"=" || op == c!"==" || op == c!"!=" || op == c!"<" || op == c!"<=" || op == c!">" || op == c!">=" ||
  op == c!"AND" || op == c!"OR" || op == c!"+" || op == c!"-" || op == c!"*" || op == c!"/"

/-- comparisons a wildcard can stand on the right of -/
def FragWildOp (op : Str) : Bool := op == c!"=" || op == c!"==" || op == c!"!="

/-- functions and the numbers of arguments they take -/
def FragFn (name : Str) (n : Nat) : Bool :=
  (name == c!"case" && n % 2 == 0 && n != 0) || (name == c!"validate" && n % 2 == 0 && n != 0) ||
  (name == c!"if" && n == 3) || (name == c!"true" && n == 0) || (name == c!"false" && n == 0) ||
  (name == c!"null" && n == 0) || (name == c!"coalesce" && n != 0) || (name == c!"isnull" && n == 1) ||
  (name == c!"isnotnull" && n == 1)

/-- Expressions that are translated to a negation. -/
def isNegated : Expr → Bool
  | .unary _ _ => true
  | .binary _ op (.const (.wildcard _)) => op == c!"!="
  | _ => false

/-- functions of one argument that both languages have -/
def prim1Names : List Str :=
  [ c!"abs", c!"ceiling", c!"ceil", c!"floor", c!"exp", c!"ln", c!"sqrt", c!"acos", c!"acosh", c!"asin", c!"asinh", c!"atan",
    c!"atanh", c!"cos", c!"cosh", c!"sin", c!"sinh", c!"tan", c!"tanh", c!"bit_not", c!"md5", c!"sha1", c!"sha256",
    c!"sha512", c!"len", c!"lower", c!"upper", c!"urldecode" ]

/-- functions of two arguments that both languages have; `log` is not among them -/
def prim2Names : List Str := [c!"pow", c!"atan2", c!"hypot", c!"like", c!"match", c!"nullif"]

/-- functions whose first argument becomes the receiver of a method -/
def primMethodNames : List (Str × Nat) :=
  [(c!"tonumber", 1), (c!"bit_and", 2), (c!"bit_or", 2), (c!"bit_xor", 2), (c!"in", 2)]

/-- functions whose second argument must be a whole number -/
def primIntNames : List Str := [c!"round", c!"bit_shift_left", c!"bit_shift_right"]

/-- a whole number -/
def isIntConst : Expr → Bool
  | .const (.int _) => true
  | _ => false

/-- Between double quotes, Python reads the text as it stands: a backslash is followed by no character it has a
meaning for. -/
def SelfText (s : Str) : Bool :=
  match codeTree (c!"\"" ++ s ++ c!"\"") with
  | some (.str t) => t == s
  | _ => false

/-- a quoted text that Python reads as it stands -/
def isPlainText : Expr → Bool
  | .const (.str s) => SelfText s
  | _ => false

/-- a replacement without references to groups -/
def isPlainNew : Expr → Bool
  | .const (.str s) => Plain '"' s && s.all fun c => c != '$'
  | _ => false

/-- calls of mathematical and text functions; a negation cannot be the receiver of a method -/
def FragPrim (name : Str) (args : List Expr) : Bool :=
  (prim1Names.contains name && args.length == 1) || (prim2Names.contains name && args.length == 2) ||
  (primMethodNames.contains (name, args.length) && args.head?.any fun a => !isNegated a) ||
  (name == c!"pi" && args.length == 0) ||
  ((name == c!"max" || name == c!"min") && decide (2 ≤ args.length)) ||
  (match args with
   | [_, b] => primIntNames.contains name && isIntConst b
   | [_, b, c] => (name == c!"substr" && isIntConst b && isIntConst c) || (name == c!"replace" && isPlainText b && isPlainNew c)
   | _ => false)

mutual
/-- the fragment; calls only without the runtime -/
def Frag (m : Mode) : Expr → Bool
  | .const k => FragConst k
  | .binary l op r =>
    match r with
    | .const (.wildcard p) => Frag m l && !isNegated l && FragWildOp op && PlainPat p
    | r => Frag m l && Frag m r && FragOp op
  | .unary op r => op == c!"NOT" && Frag m r
  | .fieldIn f es => Plain '\'' f && es.length != 0 && es.all FragElem
  | .call name args => m == .disallow && (FragFn name args.length || FragPrim name args) && Frags m args
  | _ => false
/-- all arguments are in the fragment -/
def Frags (m : Mode) : List Expr → Bool
  | [] => true
  | e :: es => Frag m e && Frags m es
end

end Verif.Spec
