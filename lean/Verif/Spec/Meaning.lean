import Verif.Spl.Ast
import Verif.Spec.Python
import Verif.Spec.Pattern
import Verif.Spec.JsonPath
/-
Specification: what an SPL expression and what a PySpark column expression evaluate to on a row.

Both sides share one notion of value and the primitive operations `Sem` (comparison, arithmetic,
truth and text of a value, and the mathematical and text functions `Prim` both languages have), over which every theorem quantifies: what is claimed is that the
generated code applies the same primitive operations to the same values in the same way.  The
logical connectives are the three-valued ones of SQL on both sides, as documented for the `where`
and `eval` commands and for Spark.
-/
namespace Verif.Spec

/-- Values; all numbers are of one kind, as in SPL. -/
inductive Val
  | null
  | bool (b : Bool)
  | num (q : Rat)
  | str (s : Str)
deriving DecidableEq

/-- Values of the fields of a row; a field that is absent is null. -/
abbrev Event := Str → Val

/-- binary operations -/
inductive Oper
  | eq | ne | lt | le | gt | ge | and | or | add | sub | mul | div | cat
deriving DecidableEq, Repr

/-- SQL truth values as values -/
def ofB : Option Bool → Val
  | some b => .bool b
  | none => .null

/-- The functions of numbers and texts that both languages have under some name. -/
inductive Prim
  | abs | ceil | floor | exp | ln | sqrt | round | pow | logBase
  | acos | acosh | asin | asinh | atan | atan2 | atanh | cos | cosh | hypot | sin | sinh | tan | tanh
  | bitNot | bitAnd | bitOr | bitXor | shiftLeft | shiftRight
  | md5 | sha1 | sha256 | sha512
  | length | lower | upper | urlDecode | substring | likePattern | regexFind | regexReplace
  | toNumber | toText | greater | smaller | jsonGet | now
deriving DecidableEq, Repr

/-- The primitive operations.  The only assumption: a truth value, used as a condition, is itself. -/
structure Sem where
  /-- the comparisons `eq`, `ne`, `lt`, `le`, `gt`, `ge`; `none` is "unknown" -/
  cmp : Oper → Val → Val → Option Bool
  /-- `add`, `sub`, `mul`, `div`, `cat` -/
  arith : Oper → Val → Val → Val
  /-- a value used as a condition -/
  truth : Val → Option Bool
  /-- the text a pattern is matched against -/
  text : Val → Option Str
  /-- the functions of numbers and texts -/
  prim : Prim → List Val → Val
  truth_ofB : ∀ b, truth (ofB b) = b

def and3 : Option Bool → Option Bool → Option Bool
  | some false, _ => some false
  | _, some false => some false
  | some true, some true => some true
  | _, _ => none

def or3 : Option Bool → Option Bool → Option Bool
  | some true, _ => some true
  | _, some true => some true
  | some false, some false => some false
  | _, _ => none

def not3 : Option Bool → Option Bool
  | some b => some (!b)
  | none => none

/-- A binary operation on values. -/
def Sem.op (S : Sem) (o : Oper) (a b : Val) : Val :=
  match o with
  | .and => ofB (and3 (S.truth a) (S.truth b))
  | .or => ofB (or3 (S.truth a) (S.truth b))
  | .add | .sub | .mul | .div | .cat => S.arith o a b
  | o => ofB (S.cmp o a b)

/-- negation of a value -/
def Sem.neg (S : Sem) (a : Val) : Val := ofB (not3 (S.truth a))

/-- a step of a path as a value -/
def PathStep.val : PathStep → Val
  | .key k => .str k
  | .index n => .num n
  | .every => .bool true

/-- The part of a JSON text a path leads to. -/
def Sem.jsonAt (S : Sem) (v : Val) (path : List PathStep) : Val := S.prim .jsonGet (v :: path.map PathStep.val)

/-! ### patterns -/

/-- elements of a pattern -/
inductive Tok1
  | any
  | one
  | lit (c : Char)
deriving DecidableEq

/-- Does a text match a pattern? -/
def tokMatch : List Tok1 → Str → Bool
  | [], s => s.isEmpty
  | .any :: p, s => tokMatch p s || (match s with | [] => false | _ :: s' => tokMatch (.any :: p) s')
  | .one :: p, s => match s with | [] => false | _ :: s' => tokMatch p s'
  | .lit c :: p, s => match s with | [] => false | d :: s' => c == d && tokMatch p s'
termination_by p s => (p.length, s.length)

/-- SPL wildcard pattern: `*` is any text, every other character stands for itself. -/
def wildToks : Str → List Tok1
  | [] => []
  | c :: cs => (if c = '*' then .any else .lit c) :: wildToks cs

/-- SQL LIKE pattern with the default escape character: `%` is any text, `_` any one character,
`\%`, `\_` and `\\` stand for `%`, `_` and `\`; any other use of `\` is an error. -/
def likeToks : Str → Option (List Tok1)
  | [] => some []
  | c :: cs =>
    if c = '\\' then
      match cs with
      | [] => none
      | d :: ds => if d = '%' || d = '_' || d = '\\' then (likeToks ds).map (.lit d :: ·) else none
    else (likeToks cs).map ((if c = '%' then .any else if c = '_' then .one else .lit c) :: ·)

/-- A value against a pattern. -/
def Sem.matches (S : Sem) (v : Val) (p : List Tok1) : Option Bool := (S.text v).map (tokMatch p)

/-! ### numbers -/

/-- value of the decimal numeral `whole.frac` -/
def numVal (whole frac : Str) : Rat := mkRat (digitsVal (whole ++ frac)) (10 ^ frac.length)

/-- value of a decimal literal -/
def dblVal (d : Dbl) : Rat := if d.neg then -numVal d.whole d.frac else numVal d.whole d.frac

/-! ### SPL -/

/-- Operators of SPL; `AND` and `OR` are recognised in any letter case, `::` is `=`. -/
def splOp (s : Str) : Option Oper :=
  if s = c!"=" ∨ s = c!"==" ∨ s = c!"::" then some .eq
  else if s = c!"!=" then some .ne
  else if s = c!"<" then some .lt
  else if s = c!"<=" then some .le
  else if s = c!">" then some .gt
  else if s = c!">=" then some .ge
  else if lower s = c!"and" then some .and
  else if lower s = c!"or" then some .or
  else if s = c!"+" then some .add
  else if s = c!"-" then some .sub
  else if s = c!"*" then some .mul
  else if s = c!"/" then some .div
  else if s = c!"." then some .cat
  else none

/-- value of a constant -/
def constVal (row : Event) : Constant → Option Val
  | .field n => some (row n)
  | .int n => some (.num n)
  | .double d => some (.num (dblVal d))
  | .str s => some (.str s)
  | .bool b => some (.bool b)
  | .null => some .null
  | _ => none

/-- One element of an `IN` list: words are texts, wildcards are matched. -/
def inTest (S : Sem) (v : Val) : Constant → Option (Option Bool)
  | .wildcard p => some (S.matches v (wildToks p))
  | .field s => some (S.cmp .eq v (.str s))
  | .str s => some (S.cmp .eq v (.str s))
  | .int n => some (S.cmp .eq v (.num n))
  | .double d => some (S.cmp .eq v (.num (dblVal d)))
  | .bool b => some (S.cmp .eq v (.bool b))
  | _ => none

/-- first value whose condition is true (`neg`: false), null if there is none -/
def pick (neg : Bool) : List (Option Bool × Val) → Val
  | [] => .null
  | (c, v) :: rest => if c = some (!neg) then v else pick neg rest

/-- conditions and values in alternation -/
def pairUp : List Val → Option (List (Val × Val))
  | [] => some []
  | c :: v :: rest => (pairUp rest).map ((c, v) :: ·)
  | [_] => none

/-- The functions of SPL that are a primitive, with the number of their arguments (SPL reference, evaluation
functions). -/
def splPrims : List (Str × Nat × Prim) :=
  [ (c!"abs", 1, .abs), (c!"ceiling", 1, .ceil), (c!"ceil", 1, .ceil), (c!"floor", 1, .floor), (c!"exp", 1, .exp),
    (c!"ln", 1, .ln), (c!"sqrt", 1, .sqrt), (c!"round", 2, .round), (c!"pow", 2, .pow), (c!"log", 2, .logBase),
    (c!"acos", 1, .acos), (c!"acosh", 1, .acosh), (c!"asin", 1, .asin), (c!"asinh", 1, .asinh), (c!"atan", 1, .atan),
    (c!"atan2", 2, .atan2), (c!"atanh", 1, .atanh), (c!"cos", 1, .cos), (c!"cosh", 1, .cosh), (c!"hypot", 2, .hypot),
    (c!"sin", 1, .sin), (c!"sinh", 1, .sinh), (c!"tan", 1, .tan), (c!"tanh", 1, .tanh),
    (c!"bit_not", 1, .bitNot), (c!"bit_and", 2, .bitAnd), (c!"bit_or", 2, .bitOr), (c!"bit_xor", 2, .bitXor),
    (c!"bit_shift_left", 2, .shiftLeft), (c!"bit_shift_right", 2, .shiftRight),
    (c!"md5", 1, .md5), (c!"sha1", 1, .sha1), (c!"sha256", 1, .sha256), (c!"sha512", 1, .sha512),
    (c!"len", 1, .length), (c!"lower", 1, .lower), (c!"upper", 1, .upper), (c!"urldecode", 1, .urlDecode),
    (c!"substr", 3, .substring), (c!"like", 2, .likePattern), (c!"match", 2, .regexFind), (c!"tonumber", 1, .toNumber) ]

/-- the largest (or smallest) of some values, two by two from the left -/
def foldVals (f : Val → Val → Val) : List Val → Option Val
  | [] => none
  | v :: vs => some (vs.foldl f v)

/-- The other functions: `max` and `min`, `nullif`, `in`, `pi`, `replace` (in the replacement `\1` is the text of the
first group; here without such references), `tostring` (truth values are written `True` and `False`) and `sum`. -/
def splPrimFn (S : Sem) (name : Str) (vs : List Val) : Option Val :=
  match splPrims.lookup name with
  | some (n, p) => if vs.length = n then some (S.prim p vs) else none
  | none =>
    if name = c!"max" then foldVals (fun a b => S.prim .greater [a, b]) vs
    else if name = c!"min" then foldVals (fun a b => S.prim .smaller [a, b]) vs
    else if name = c!"sum" then foldVals (fun a b => S.op .add a b) vs
    else if name = c!"nullif" then
      match vs with
      | [a, b] => some (if S.cmp .eq a b = some true then .null else a)
      | _ => none
    else if name = c!"in" then
      match vs with
      | v :: w :: ws => some (ofB ((w :: ws).foldr (fun w b => or3 (S.cmp .eq v w) b) (some false)))
      | _ => none
    else if name = c!"pi" then (if vs = [] then some (.num (mkRat 3141592653589793 1000000000000000)) else none)
    else if name = c!"replace" then
      match vs with
      | [v, .str re, .str new] => if '\\' ∈ new then none else some (S.prim .regexReplace [v, .str re, .str new])
      | _ => none
    else if name = c!"tostring" then
      match vs with
      | [.bool b] => some (.str (if b then c!"True" else c!"False"))
      | [v] => some (S.prim .toText [v])
      | _ => none
    else none

/-- The conditional functions: `case`, `validate`, `if`, `coalesce`, `isnull`, `isnotnull`,
`true`, `false`, `null`; then the others. -/
def splFn (S : Sem) (name : Str) (vs : List Val) : Option Val :=
  if name = c!"case" then
    if vs = [] then none else (pairUp vs).map fun ps => pick false (ps.map fun x => (S.truth x.1, x.2))
  else if name = c!"validate" then
    if vs = [] then none else (pairUp vs).map fun ps => pick true (ps.map fun x => (S.truth x.1, x.2))
  else if name = c!"if" then
    match vs with
    | [c, a, b] => some (if S.truth c = some true then a else b)
    | _ => none
  else if name = c!"true" then (if vs = [] then some (.bool true) else none)
  else if name = c!"false" then (if vs = [] then some (.bool false) else none)
  else if name = c!"null" then (if vs = [] then some .null else none)
  else if name = c!"coalesce" then some ((vs.find? (· ≠ .null)).getD .null)
  else if name = c!"isnull" then (match vs with | [v] => some (.bool (v = .null)) | _ => none)
  else if name = c!"isnotnull" then (match vs with | [v] => some (.bool (v ≠ .null)) | _ => none)
  else splPrimFn S name vs

mutual
/-- Value of an SPL expression on a row; `none`: outside the fragment. -/
def splEval (S : Sem) (row : Event) : Expr → Option Val
  | .const k => constVal row k
  | .binary l op r =>
    match r with
    | .const (.wildcard p) =>
      (splEval S row l).bind fun a =>
        if splOp op = some .eq then some (ofB (S.matches a (wildToks p)))
        else if splOp op = some .ne then some (ofB (not3 (S.matches a (wildToks p))))
        else none
    | r => (splOp op).bind fun o => (splEval S row l).bind fun a => (splEval S row r).map fun b => S.op o a b
  | .unary op r => if lower op = c!"not" then (splEval S row r).map S.neg else none
  | .fieldIn f es => (splIn S (row f) es).map ofB
  | .call name args => (splEvals S row args).bind (splFn S name)
  | _ => none
/-- values of a list of expressions -/
def splEvals (S : Sem) (row : Event) : List Expr → Option (List Val)
  | [] => some []
  | e :: es => (splEval S row e).bind fun v => (splEvals S row es).map (v :: ·)
/-- a value against the elements of an `IN` list: a disjunction, false for no elements -/
def splIn (S : Sem) (v : Val) : List Expr → Option (Option Bool)
  | [] => some (some false)
  | .const k :: es => (inTest S v k).bind fun a => (splIn S v es).map fun b => or3 a b
  | _ :: _ => none
end

/-! ### PySpark -/

/-- What a Python expression evaluates to: a Python value, a column (its value on the row), or a
column made of `when` branches to which further branches can be added. -/
inductive Obj
  | const (v : Val)
  | column (v : Val)
  | branches (bs : List (Option Bool × Val))

/-- value of a column; a Python value used where a column is expected is a literal column -/
def Obj.val : Obj → Val
  | .const v => v
  | .column v => v
  | .branches bs => pick false bs

/-- is it a column? -/
def Obj.isColumn : Obj → Bool
  | .const _ => false
  | _ => true

/-- Operators of `pyspark.sql.Column`; the words `and` and `or` are not among them (a column has no
truth value in Python). -/
def pyOp (s : Str) : Option Oper :=
  if s = c!"==" then some .eq
  else if s = c!"!=" then some .ne
  else if s = c!"<" then some .lt
  else if s = c!"<=" then some .le
  else if s = c!">" then some .gt
  else if s = c!">=" then some .ge
  else if s = c!"&" then some .and
  else if s = c!"|" then some .or
  else if s = c!"+" then some .add
  else if s = c!"-" then some .sub
  else if s = c!"*" then some .mul
  else if s = c!"/" then some .div
  else none

/-- Functions of `pyspark.sql.functions` that are a primitive of their columns. -/
def sparkPrims : List (Str × Nat × Prim) :=
  [ (c!"abs", 1, .abs), (c!"ceil", 1, .ceil), (c!"floor", 1, .floor), (c!"exp", 1, .exp), (c!"log", 1, .ln),
    (c!"sqrt", 1, .sqrt), (c!"pow", 2, .pow),
    (c!"acos", 1, .acos), (c!"acosh", 1, .acosh), (c!"asin", 1, .asin), (c!"asinh", 1, .asinh), (c!"atan", 1, .atan),
    (c!"atan2", 2, .atan2), (c!"atanh", 1, .atanh), (c!"cos", 1, .cos), (c!"cosh", 1, .cosh), (c!"hypot", 2, .hypot),
    (c!"sin", 1, .sin), (c!"sinh", 1, .sinh), (c!"tan", 1, .tan), (c!"tanh", 1, .tanh), (c!"bitwise_not", 1, .bitNot),
    (c!"md5", 1, .md5), (c!"sha1", 1, .sha1),
    (c!"length", 1, .length), (c!"lower", 1, .lower), (c!"upper", 1, .upper), (c!"url_decode", 1, .urlDecode),
    (c!"like", 2, .likePattern), (c!"regexp_like", 2, .regexFind), (c!"greatest", 2, .greater), (c!"least", 2, .smaller),
    (c!"current_timestamp", 0, .now) ]

/-- Functions of `pyspark.sql.functions` some of whose arguments are Python values, and those that are no primitive
of their columns.  `log(a, b)` is the logarithm of `b` to base `a`; `sum` is an aggregate and has no value on a row. -/
def sparkFn (S : Sem) (f : Str) (args : List Obj) : Option Obj :=
  match sparkPrims.find? fun x => x.1 == f && x.2.1 == args.length with
  | some (_, _, p) => if args.all Obj.isColumn then some (.column (S.prim p (args.map Obj.val))) else none
  | none =>
    match args with
    | [a, .const v] =>
      if a.isColumn then
        if f = c!"sha2" then
          if v = .num 256 then some (.column (S.prim .sha256 [a.val]))
          else if v = .num 512 then some (.column (S.prim .sha512 [a.val])) else none
        else if f = c!"shiftleft" then some (.column (S.prim .shiftLeft [a.val, v]))
        else if f = c!"shiftright" then some (.column (S.prim .shiftRight [a.val, v]))
        else if f = c!"round" then some (.column (S.prim .round [a.val, v]))
        else if f = c!"get_json_object" then
          match v with
          | .str p => (sparkPath p).map fun ks => .column (S.jsonAt a.val ks)
          | _ => none
        else none
      else none
    | [a, .const v, .const w] =>
      if a.isColumn then
        if f = c!"substring" then some (.column (S.prim .substring [a.val, v, w]))
        else if f = c!"regexp_replace" then
          match w with
          | .str new => if '$' ∈ new ∨ '\\' ∈ new then none else some (.column (S.prim .regexReplace [a.val, v, w]))
          | _ => none
        else if f = c!"regexp_extract" then
          match v, w with
          | .str p, .num k =>
            match S.text a.val with
            | none => some (.column .null)
            | some t => (extractGroup p k.num.toNat t).map fun g => .column (.str g)
          | _, _ => none
        else none
      else none
    | [a, b] =>
      if a.isColumn && b.isColumn then
        if f = c!"log" then some (.column (S.prim .logBase [b.val, a.val]))
        else if f = c!"nullif" then some (.column (if S.cmp .eq a.val b.val = some true then .null else a.val))
        else none
      else none
    | _ => none

/-- Functions of `pyspark.sql.functions` in the fragment. -/
def fFn (S : Sem) (row : Event) (f : Str) (args : List Obj) : Option Obj :=
  if f = c!"col" then (match args with | [.const (.str n)] => some (.column (row n)) | _ => none)
  else if f = c!"lit" then (match args with | [.const v] => some (.column v) | _ => none)
  else if f = c!"when" then
    match args with
    | [c, v] => if c.isColumn then some (.branches [(S.truth c.val, v.val)]) else none
    | _ => none
  else if f = c!"coalesce" then
    if args.all Obj.isColumn then some (.column (((args.map Obj.val).find? (· ≠ .null)).getD .null)) else none
  else if f = c!"isnull" then
    (match args with | [a] => if a.isColumn then some (.column (.bool (a.val = .null))) else none | _ => none)
  else if f = c!"isnotnull" then
    (match args with | [a] => if a.isColumn then some (.column (.bool (a.val ≠ .null))) else none | _ => none)
  else sparkFn S f args

/-- Methods of `pyspark.sql.Column` in the fragment.  `ilike` compares both sides in lower case; letters outside ASCII are
left as they are here. -/
def colMethod (S : Sem) (o : Obj) (f : Str) (args : List Obj) : Option Obj :=
  if o.isColumn then
    if f = c!"alias" then (match args with | [.const (.str _)] => some (.column o.val) | _ => none)
    else if f = c!"like" then
      match args with
      | [.const (.str p)] => (likeToks p).map fun ts => .column (ofB (S.matches o.val ts))
      | _ => none
    else if f = c!"when" then
      match o, args with
      | .branches bs, [c, v] => if c.isColumn then some (.branches (bs ++ [(S.truth c.val, v.val)])) else none
      | _, _ => none
    else if f = c!"otherwise" then
      match o, args with
      | .branches bs, [v] => some (.column (pick false (bs ++ [(some true, v.val)])))
      | _, _ => none
    else if f = c!"cast" then
      match args with
      | [.const (.str t)] =>
        if t = c!"double" then some (.column (S.prim .toNumber [o.val]))
        else if t = c!"string" then
          some (.column (match o.val with | .bool b => .str (if b then c!"true" else c!"false") | v => S.prim .toText [v]))
        else none
      | _ => none
    else
      match args with
      | [b] =>
        if b.isColumn then
          if f = c!"bitwiseAND" then some (.column (S.prim .bitAnd [o.val, b.val]))
          else if f = c!"bitwiseOR" then some (.column (S.prim .bitOr [o.val, b.val]))
          else if f = c!"bitwiseXOR" then some (.column (S.prim .bitXor [o.val, b.val]))
          else if f = c!"isin" then some (.column (ofB (S.cmp .eq o.val b.val)))
          else none
        else if f = c!"ilike" then
          match b with
          | .const (.str p) => (likeToks (lower p)).map fun ts => .column (ofB ((S.text o.val).map fun t => tokMatch ts (lower t)))
          | _ => none
        else none
      | [] => if f = c!"isNotNull" then some (.column (.bool (o.val ≠ .null))) else none
      | _ => none
  else none

mutual
/-- Value of a Python expression on a row, with the usual import
`from pyspark.sql import functions as F`; `none`: an error, or outside the fragment. -/
def pyEval (S : Sem) (row : Event) : PyE → Option Obj
  | .name n =>
    if n = c!"True" then some (.const (.bool true))
    else if n = c!"False" then some (.const (.bool false))
    else if n = c!"None" then some (.const .null)
    else none
  | .num w f => some (.const (.num (numVal w f)))
  | .neg (.num w f) => some (.const (.num (-numVal w f)))
  | .str s => some (.const (.str s))
  | .call (.attr (.name m) f) args =>
    if m = c!"F" then (pyEvals S row args).bind (fFn S row f) else none
  | .call (.attr e f) args =>
    (pyEval S row e).bind fun o => (pyEvals S row args).bind (colMethod S o f)
  | .bin op l r =>
    (pyOp op).bind fun o => (pyEval S row l).bind fun a => (pyEval S row r).bind fun b =>
      if a.isColumn || b.isColumn then some (.column (S.op o a.val b.val)) else none
  | .inv e => (pyEval S row e).bind fun a => if a.isColumn then some (.column (S.neg a.val)) else none
  | _ => none
/-- values of a list of expressions -/
def pyEvals (S : Sem) (row : Event) : List PyE → Option (List Obj)
  | [] => some []
  | e :: es => (pyEval S row e).bind fun v => (pyEvals S row es).map (v :: ·)
end

/-- Value on a row of the column written in a Python text. -/
def textEval (S : Sem) (row : Event) (text : Str) : Option Val :=
  (readPy text).bind fun t => (pyEval S row t).bind fun o => if o.isColumn then some o.val else none

end Verif.Spec
