import Verif.Basic.Text
/-
Specification: how Python reads an expression.  Written from the Python language reference
(lexical analysis 2.4, expressions 6), independently of the printer of the model.

The reader covers names, numbers, string literals (with the usual escapes, and raw strings),
parentheses, list and dictionary displays, attribute access, calls with positional and keyword arguments, lambda
expressions with plain parameters as arguments and items, the prefix operators `~` and `-`, and the binary operators with their precedence.  Text outside this
fragment (conditional expressions, chained comparisons, `**`, `is`, `in`, ...) is not read
(`none`), so a claim `readPy s = some t` is a claim about Python.
-/
namespace Verif.Spec

/-- Python expression trees. -/
inductive PyE
  | name (n : Str)
  | num (whole frac : Str)
  | str (s : Str)
  | attr (e : PyE) (n : Str)
  | call (f : PyE) (args : List PyE)
  | kwarg (n : Str) (e : PyE)
  | list (es : List PyE)
  /-- the keys and values in turn -/
  | dict (kvs : List PyE)
  | inv (e : PyE)
  | neg (e : PyE)
  | bin (op : Str) (l r : PyE)
  /-- `lambda a, b: body` -/
  | lam (params : List Str) (body : PyE)
deriving Repr, Inhabited

/-- letters and underscore (ASCII) -/
def isIdStart (c : Char) : Bool := ('a' ≤ c && c ≤ 'z') || ('A' ≤ c && c ≤ 'Z') || c == '_'

/-- characters of an identifier (ASCII) -/
def isIdChar (c : Char) : Bool := isIdStart c || ('0' ≤ c && c ≤ '9')

/-- Python 3 keywords, except the constants `True`, `False` and `None`. -/
def pyKeywords : List Str :=
  [c!"and", c!"as", c!"assert", c!"async", c!"await", c!"break", c!"class", c!"continue", c!"def",
   c!"del", c!"elif", c!"else", c!"except", c!"finally", c!"for", c!"from", c!"global", c!"if",
   c!"import", c!"in", c!"is", c!"lambda", c!"nonlocal", c!"not", c!"or", c!"pass", c!"raise",
   c!"return", c!"try", c!"while", c!"with", c!"yield"]

/-- longest prefix of characters satisfying `p`, and the rest -/
def spanC (p : Char → Bool) : Str → Str × Str
  | [] => ([], [])
  | c :: cs => if p c then ((c :: (spanC p cs).1), (spanC p cs).2) else ([], c :: cs)

/-- an identifier that is not a keyword -/
def pyName (s : Str) : Option (Str × Str) :=
  match s with
  | [] => none
  | c :: _ =>
    if isIdStart c then
      let w := spanC isIdChar s
      if w.1 ∈ pyKeywords then none else some w
    else none

/-- blanks between tokens of one logical line (inside brackets also line ends) -/
def skipB (s : Str) : Str := (spanC isSpace s).2

/-- Value of the escape sequence `\c`; `none` for the numeric, named and line-joining escapes,
which are outside the fragment.  An unknown escape stands for itself. -/
def escapeC (c : Char) : Option Str :=
  if c = '\\' then some ['\\']
  else if c = '\'' then some ['\'']
  else if c = '"' then some ['"']
  else if c = 'n' then some ['\n']
  else if c = 't' then some ['\t']
  else if c = 'r' then some ['\r']
  else if c = 'a' then some ['\x07']
  else if c = 'b' then some ['\x08']
  else if c = 'f' then some ['\x0c']
  else if c = 'v' then some ['\x0b']
  else if c = '\n' || c = '\r' || c = 'x' || c = 'u' || c = 'U' || c = 'N' || ('0' ≤ c && c ≤ '7') then none
  else some ['\\', c]

/-- The rest of a one-line string literal after its opening quote `q`. -/
def strTail (raw : Bool) (q : Char) : Str → Option (Str × Str)
  | [] => none
  | c :: cs =>
    if c = q then some ([], cs)
    else if c = '\n' || c = '\r' then none
    else if c = '\\' then
      match cs with
      | [] => none
      | d :: ds =>
        match if raw then (if d = '\n' || d = '\r' then none else some ['\\', d]) else escapeC d with
        | none => none
        | some v => (strTail raw q ds).map fun x => (v ++ x.1, x.2)
    else (strTail raw q cs).map fun x => (c :: x.1, x.2)

/-- The opening of a string literal: whether it is raw, its quote, and what follows. -/
def openQuote (s : Str) : Option (Bool × Char × Str) :=
  match s with
  | [] => none
  | c :: cs =>
    if c = '"' || c = '\'' then some (false, c, cs)
    else if c = 'r' then
      match cs with
      | [] => none
      | d :: ds => if d = '"' || d = '\'' then some (true, d, ds) else none
    else none

/-- A string literal.  Three quotes open a triple-quoted string, which is outside the fragment. -/
def pyString (s : Str) : Option (Str × Str) :=
  match openQuote s with
  | none => none
  | some (raw, q, cs) => if cs.take 2 = [q, q] then none else strTail raw q cs

/-- A number is not directly followed by a letter, a digit, an underscore or another point. -/
def numEnds (r : Str) : Bool :=
  match r with
  | [] => true
  | c :: _ => !(isIdChar c || c == '.')

/-- An integer other than zero has no leading zero. -/
def intOk (w : Str) : Bool := w.head? != some '0' || w.all (· == '0')

/-- A decimal integer or a fraction `d.d`. -/
def pyNumber (s : Str) : Option ((Str × Str) × Str) :=
  let w := spanC isDig s
  if w.1 = [] then none
  else if w.2.head? = some '.' then
    let f := spanC isDig w.2.tail
    if f.1 ≠ [] ∧ numEnds f.2 = true then some ((w.1, f.1), f.2) else none
  else if numEnds w.2 = true ∧ intOk w.1 = true then some ((w.1, []), w.2) else none

/-- Binding strength of the binary operators, weakest first (language reference 6.17); `not` (level
2) and the prefix operators (level 9) are no binary operators. -/
def opLevel (op : Str) : Option Nat :=
  if op = c!"or" then some 0
  else if op = c!"and" then some 1
  else if op = c!"==" || op = c!"!=" || op = c!"<" || op = c!"<=" || op = c!">" || op = c!">=" then some 3
  else if op = c!"|" then some 4
  else if op = c!"^" then some 5
  else if op = c!"&" then some 6
  else if op = c!"<<" || op = c!">>" then some 7
  else if op = c!"+" || op = c!"-" then some 8
  else if op = c!"*" || op = c!"/" || op = c!"//" || op = c!"%" then some 9
  else none

/-- characters of the symbolic operators -/
def isOpC (c : Char) : Bool :=
  c == '=' || c == '!' || c == '<' || c == '>' || c == '|' || c == '^' || c == '&' || c == '+' ||
  c == '-' || c == '*' || c == '/' || c == '%'

/-- The two-character operators; symbolic operators are read greedily. -/
def opTwo : List Str :=
  [c!"==", c!"!=", c!"<=", c!">=", c!"<<", c!">>", c!"**", c!"//", c!"+=", c!"-=", c!"*=", c!"/=",
   c!"%=", c!"&=", c!"|=", c!"^=", c!"->"]

/-- the next operator token -/
def opTok (s : Str) : Option (Str × Str) :=
  match s with
  | c :: d :: r =>
    if [c, d] ∈ opTwo then some ([c, d], r)
    else if isOpC c then some ([c], d :: r)
    else if isIdStart c then some (spanC isIdChar s)
    else none
  | [c] => if isOpC c then some ([c], []) else none
  | [] => none

/-- What is being read. -/
inductive Goal
  /-- an expression of level `k` -/
  | lev (k : Nat) (s : Str)
  /-- the rest of a chain of operators of level `k` -/
  | loop (k : Nat) (l : PyE) (s : Str)
  /-- an atom with its trailers -/
  | prim (s : Str)
  /-- further trailers `.name` and `(args)` -/
  | post (e : PyE) (s : Str)
  /-- the items up to the closing bracket `close`, `acc` already read -/
  | items (close : Char) (acc : List PyE) (s : Str)
  /-- one item: an expression, `name=expr` or a lambda expression -/
  | item (s : Str)
  /-- the entries `key: value` up to the closing brace -/
  | entries (acc : List PyE) (s : Str)

/-- wrap the result of an item list -/
abbrev Res := List PyE × Str

/-- result of reading one expression -/
def one (e : PyE) (s : Str) : Option Res := some ([e], s)

/-- use the single expression of a result -/
def Res.elim (r : Option Res) (f : PyE → Str → Option Res) : Option Res :=
  match r with
  | some ([e], s) => f e s
  | _ => none

/-- Names that cannot be assigned to. -/
def pyConsts : List Str := [c!"True", c!"False", c!"None"]

/-- keyword argument of a call -/
def isKw : PyE → Bool
  | .kwarg _ _ => true
  | _ => false

/-- name of a keyword argument -/
def kwOf : PyE → Option Str
  | .kwarg n _ => some n
  | _ => none

/-- Arguments Python accepts: positional ones first, no keyword twice. -/
def argsOk : List PyE → Bool
  | [] => true
  | .kwarg n _ :: as => as.all isKw && !(as.any fun a => kwOf a == some n) && argsOk as
  | _ :: as => argsOk as

/-- `name=` in front of a keyword argument -/
def kwName (s : Str) : Option (Str × Str) :=
  match pyName s with
  | none => none
  | some (n, r) =>
    match skipB r with
    | [] => none
    | c :: r => if c = '=' ∧ r.head? ≠ some '=' ∧ n ∉ pyConsts then some (n, r) else none

/-- The parameters of a lambda expression up to the colon, `acc` already read; the first argument bounds their number. -/
def lamParams : Nat → List Str → Str → Option (List Str × Str)
  | 0, _, _ => none
  | n + 1, acc, s =>
    match pyName (skipB s) with
    | none => none
    | some (p, r) =>
      if p ∈ pyConsts ∨ p ∈ acc then none
      else match skipB r with
        | [] => none
        | c :: r =>
          if c = ':' then some ((p :: acc).reverse, r)
          else if c = ',' then lamParams n (p :: acc) r
          else none

/-- `lambda a, b:`: the parameters, and what follows -/
def lamHead (s : Str) : Option (List Str × Str) :=
  let w := spanC isIdChar s
  if w.1 = c!"lambda" then lamParams w.2.length [] w.2 else none

/-- `close` must come next -/
def closed (close : Char) (s : Str) (f : Str → Option Res) : Option Res :=
  match skipB s with
  | [] => none
  | c :: r => if c = close then f r else none

/-- One step of the reader; `rec` reads the parts. -/
def rdStep (rec : Goal → Option Res) : Goal → Option Res
  | .lev k s =>
    -- `not` (level 2) is outside the fragment
    if k = 2 then rec (.lev 3 s)
    else if k < 10 then Res.elim (rec (.lev (k + 1) s)) fun e r => rec (.loop k e r)
    else match skipB s with
      | [] => none
      | c :: r =>
        if c = '~' then Res.elim (rec (.lev 10 r)) fun e r => one (.inv e) r
        else if c = '-' then Res.elim (rec (.lev 10 r)) fun e r => one (.neg e) r
        else rec (.prim (c :: r))
  | .loop k l s =>
    match opTok (skipB s) with
    | some (op, r) =>
      if opLevel op = some k then
        Res.elim (rec (.lev (k + 1) r)) fun e r =>
          if k = 3 then one (.bin op l e) r else rec (.loop k (.bin op l e) r)
      else one l s
    | none => one l s
  | .prim s =>
    match pyString s with
    | some (v, r) => rec (.post (.str v) r)
    | none =>
      match pyNumber s with
      | some (n, r) => rec (.post (.num n.1 n.2) r)
      | none =>
        match pyName s with
        | some (n, r) => rec (.post (.name n) r)
        | none =>
          match s with
          | [] => none
          | c :: r =>
            if c = '(' then Res.elim (rec (.lev 0 r)) fun e r => closed ')' r fun r => rec (.post e r)
            else if c = '[' then
              match rec (.items ']' [] r) with
              | some (es, r) => if es.any isKw then none else rec (.post (.list es) r)
              | none => none
            else if c = '{' then
              match rec (.entries [] r) with
              | some (es, r) => rec (.post (.dict es) r)
              | none => none
            else none
  | .post e s =>
    match skipB s with
    | [] => one e s
    | c :: r =>
      if c = '.' then
        match pyName (skipB r) with
        | some (n, r) => rec (.post (.attr e n) r)
        | none => none
      else if c = '(' then
        match rec (.items ')' [] r) with
        | some (as, r) => if argsOk as then rec (.post (.call e as) r) else none
        | none => none
      else one e s
  | .items close acc s =>
    match skipB s with
    | [] => none
    | c :: r =>
      if c = close then some (acc.reverse, r)
      else Res.elim (rec (.item (c :: r))) fun e r =>
        match skipB r with
        | [] => none
        | d :: r =>
          if d = ',' then rec (.items close (e :: acc) r)
          else if d = close then some ((e :: acc).reverse, r)
          else none
  | .item s =>
    match kwName s with
    | some (n, r) => Res.elim (rec (.lev 0 r)) fun e r => one (.kwarg n e) r
    | none =>
      match lamHead s with
      | some (ps, r) => Res.elim (rec (.lev 0 r)) fun e r => one (.lam ps e) r
      | none => rec (.lev 0 s)
  | .entries acc s =>
    match skipB s with
    | [] => none
    | c :: r =>
      if c = '}' then some (acc.reverse, r)
      else Res.elim (rec (.lev 0 (c :: r))) fun k r => closed ':' r fun r =>
        Res.elim (rec (.lev 0 r)) fun v r =>
          match skipB r with
          | [] => none
          | d :: r =>
            if d = ',' then rec (.entries (v :: k :: acc) r)
            else if d = '}' then some ((v :: k :: acc).reverse, r)
            else none

/-- The reader; the first argument bounds the number of nested steps. -/
def rd : Nat → Goal → Option Res
  | 0, _ => none
  | n + 1, g => rdStep (rd n) g

/-- The Python expression written in a text, if it is one of the fragment. -/
def readPy (s : Str) : Option PyE :=
  match rd (40 * s.length + 40) (.lev 0 s) with
  | some ([e], r) => if skipB r = [] then some e else none
  | _ => none

/-! ### the reader reads Python -/

mutual
/-- Boolean equality of trees -/
def PyE.same : PyE → PyE → Bool
  | .name a, .name b => a == b
  | .num a b, .num c d => a == c && b == d
  | .str a, .str b => a == b
  | .attr a b, .attr c d => PyE.same a c && b == d
  | .call a b, .call c d => PyE.same a c && PyE.sameL b d
  | .kwarg a b, .kwarg c d => a == c && PyE.same b d
  | .list a, .list b => PyE.sameL a b
  | .dict a, .dict b => PyE.sameL a b
  | .inv a, .inv b => PyE.same a b
  | .neg a, .neg b => PyE.same a b
  | .bin a b c, .bin d e f => a == d && PyE.same b e && PyE.same c f
  | .lam a b, .lam c d => a == c && PyE.same b d
  | _, _ => false
/-- Boolean equality of lists of trees -/
def PyE.sameL : List PyE → List PyE → Bool
  | [], [] => true
  | a :: as, b :: bs => PyE.same a b && PyE.sameL as bs
  | _, _ => false
end

mutual
theorem PyE.same_sound : ∀ {a b : PyE}, PyE.same a b = true → a = b
  | .name a, b, h => by cases b <;> simp_all [PyE.same]
  | .num a c, b, h => by cases b <;> simp_all [PyE.same]
  | .str a, b, h => by cases b <;> simp_all [PyE.same]
  | .attr a c, b, h => by
    cases b <;> simp only [PyE.same, Bool.and_eq_true, beq_iff_eq, Bool.false_eq_true] at h
    rw [PyE.same_sound h.1, h.2]
  | .call a c, b, h => by
    cases b <;> simp only [PyE.same, Bool.and_eq_true, Bool.false_eq_true] at h
    rw [PyE.same_sound h.1, PyE.sameL_sound h.2]
  | .kwarg a c, b, h => by
    cases b <;> simp only [PyE.same, Bool.and_eq_true, beq_iff_eq, Bool.false_eq_true] at h
    rw [PyE.same_sound h.2, h.1]
  | .list a, b, h => by
    cases b <;> simp only [PyE.same, Bool.false_eq_true] at h
    rw [PyE.sameL_sound h]
  | .dict a, b, h => by
    cases b <;> simp only [PyE.same, Bool.false_eq_true] at h
    rw [PyE.sameL_sound h]
  | .inv a, b, h => by
    cases b <;> simp only [PyE.same, Bool.false_eq_true] at h
    rw [PyE.same_sound h]
  | .neg a, b, h => by
    cases b <;> simp only [PyE.same, Bool.false_eq_true] at h
    rw [PyE.same_sound h]
  | .bin a c d, b, h => by
    cases b <;> simp only [PyE.same, Bool.and_eq_true, beq_iff_eq, Bool.false_eq_true] at h
    rw [PyE.same_sound h.1.2, PyE.same_sound h.2, h.1.1]
  | .lam a c, b, h => by
    cases b <;> simp only [PyE.same, Bool.and_eq_true, beq_iff_eq, Bool.false_eq_true] at h
    rw [PyE.same_sound h.2, h.1]
theorem PyE.sameL_sound : ∀ {a b : List PyE}, PyE.sameL a b = true → a = b
  | [], b, h => by cases b <;> simp_all [PyE.sameL]
  | a :: as, b, h => by
    cases b <;> simp only [PyE.sameL, Bool.and_eq_true, Bool.false_eq_true] at h
    rw [PyE.same_sound h.1, PyE.sameL_sound h.2]
end

mutual
theorem PyE.same_refl : ∀ a : PyE, PyE.same a a = true
  | .name _ | .num _ _ | .str _ => by simp [PyE.same]
  | .attr a _ | .kwarg _ a | .inv a | .neg a | .lam _ a => by simp [PyE.same, PyE.same_refl a]
  | .call a c => by simp [PyE.same, PyE.same_refl a, PyE.sameL_refl c]
  | .list a => by simp [PyE.same, PyE.sameL_refl a]
  | .dict a => by simp [PyE.same, PyE.sameL_refl a]
  | .bin _ a b => by simp [PyE.same, PyE.same_refl a, PyE.same_refl b]
theorem PyE.sameL_refl : ∀ a : List PyE, PyE.sameL a a = true
  | [] => rfl
  | a :: as => by simp [PyE.sameL, PyE.same_refl a, PyE.sameL_refl as]
end

instance : DecidableEq PyE := fun a b =>
  if h : PyE.same a b = true then isTrue (PyE.same_sound h)
  else isFalse fun e => h (e ▸ PyE.same_refl a)

/-- `a | b & c == d` is `(a | (b & c)) == d`: comparisons bind weakest. -/
example : readPy c!"a | b & c == d" =
    some (.bin c!"==" (.bin c!"|" (.name c!"a") (.bin c!"&" (.name c!"b") (.name c!"c"))) (.name c!"d")) := by
  decide +kernel

/-- operators of one level associate to the left -/
example : readPy c!"a - b - c * d" =
    some (.bin c!"-" (.bin c!"-" (.name c!"a") (.name c!"b")) (.bin c!"*" (.name c!"c") (.name c!"d"))) := by
  decide +kernel

/-- `~` is weaker than attribute access and calls -/
example : readPy c!"~F.col('a').cast(\"int\", x=-1)" =
    some (.inv (.call (.attr (.call (.attr (.name c!"F") c!"col") [.str c!"a"]) c!"cast")
      [.str c!"int", .kwarg c!"x" (.neg (.num c!"1" []))])) := by
  decide +kernel

/-- lambda expressions; the parameters are different names -/
example : readPy c!"f(x, lambda a, b: g(a, b) + 1, k=2)" =
      some (.call (.name c!"f") [.name c!"x", .lam [c!"a", c!"b"] (.bin c!"+" (.call (.name c!"g") [.name c!"a", .name c!"b"]) (.num c!"1" [])),
        .kwarg c!"k" (.num c!"2" [])]) ∧
    readPy c!"f(lambda a, a: 1)" = none ∧ readPy c!"f(lambda if: 1)" = none ∧ readPy c!"f(lambdas)" = some (.call (.name c!"f") [.name c!"lambdas"]) ∧
    readPy c!"f(1 + lambda a: a)" = none := by
  decide +kernel

/-- escapes, lists, trailing commas and line breaks -/
example : readPy c!"f([1, 2.50,], 'it\\'s \\d',\n  (True),)" =
    some (.call (.name c!"f") [.list [.num c!"1" [], .num c!"2" c!"50"], .str c!"it's \\d", .name c!"True"]) := by
  decide +kernel

/-- dictionaries -/
example : readPy c!"f({ \"a\": None, 'b': [1] }, {})" =
    some (.call (.name c!"f") [.dict [.str c!"a", .name c!"None", .str c!"b", .list [.num c!"1" []]], .dict []]) := by
  decide +kernel

/-- no expression: unbalanced, adjacent, `::`, an integer with a leading zero, a keyword -/
example : readPy c!"(a" = none ∧ readPy c!"a b" = none ∧ readPy c!"a :: b" = none ∧
    readPy c!"007" = none ∧ readPy c!"F.in(x)" = none ∧ readPy c!"a == b == c" = none ∧
    readPy c!"'it's'" = none := by
  decide +kernel

/-- no call: a keyword given twice, a positional argument after a keyword, a keyword in a list -/
example : readPy c!"f(a, x=1, y=2, x=3)" = none ∧ readPy c!"f(x=1, a)" = none ∧ readPy c!"f(True=1)" = none ∧
    readPy c!"[x=1]" = none ∧ (readPy c!"f(a, x=1, y=2)").isSome = true := by
  decide +kernel

end Verif.Spec
