import Verif.Spec.Tree
/-
Specification: how Python reads a program of assignments and a final expression, and the program a
data-frame expression stands for.
-/
namespace Verif.Spec

/-! ### programs -/

/-- Assignments to variables, and the expression the program ends with. -/
structure PyProg where
  stmts : List (Str × PyE)
  result : PyE
deriving DecidableEq

/-- a line `name = expression` -/
def readStmt (l : Str) : Option (Str × PyE) :=
  match kwName l with
  | none => none
  | some (n, r) => (readPy r).map fun e => (n, e)

/-- a line that is an expression; a line that begins with a blank is indented, which is an error -/
def readExprLine (l : Str) : Option PyE :=
  match l with
  | [] => none
  | c :: _ => if isSpace c then none else readPy l

/-- Statements, one on each line, and the final expression. -/
def readLines : List Str → Option PyProg
  | [] => none
  | [l] => (readExprLine l).map fun e => ⟨[], e⟩
  | l :: ls =>
    match readStmt l, readLines ls with
    | some s, some p => some ⟨s :: p.stmts, p.result⟩
    | _, _ => none

/-- The program written in a text.  Only programs with every statement on a line of its own are
read; carriage returns, which Python takes for line ends, are not. -/
def readProg (t : Str) : Option PyProg :=
  if t.contains '\r' then none else readLines (splitOnC '\n' t)

/-! ### variables -/

mutual
/-- the variables of an expression -/
def vars : PyE → List Str
  | .name n => [n]
  | .num _ _ | .str _ => []
  | .attr e _ => vars e
  | .call f as => vars f ++ varsL as
  | .kwarg _ e => vars e
  | .list es => varsL es
  | .dict es => varsL es
  | .inv e => vars e
  | .neg e => vars e
  | .bin _ l r => vars l ++ vars r
  | .lam ps e => (vars e).filter fun n => !ps.contains n
/-- the variables of a list of expressions -/
def varsL : List PyE → List Str
  | [] => []
  | e :: es => vars e ++ varsL es
end

/-- Every variable is known where it is used: one of `known`, or assigned by an earlier statement. -/
def inScope (known : List Str) : List (Str × PyE) → PyE → Bool
  | [], r => (vars r).all known.contains
  | (n, e) :: ss, r => (vars e).all known.contains && inScope (n :: known) ss r

/-- a call `commands.f(...)` -/
def isCommand : PyE → Bool
  | .call (.attr (.name m) _) _ => m == c!"commands"
  | _ => false

/-- The session and the modules the generated code relies on, and the constants of Python. -/
def globals : List Str :=
  [c!"spark", c!"F", c!"functions", c!"commands", c!"None", c!"True", c!"False"]

/-- assignment before use, carriage returns, indentation, a second expression -/
example : readProg c!"a = f(1)\nb = g(a, x=2)\nb.h('y')" = some
    ⟨[(c!"a", .call (.name c!"f") [.num c!"1" []]), (c!"b", .call (.name c!"g") [.name c!"a", .kwarg c!"x" (.num c!"2" [])])],
      .call (.attr (.name c!"b") c!"h") [.str c!"y"]⟩ ∧
    readProg c!"a = f(1)\r\na" = none ∧ readProg c!"a = f(1)\n a" = none ∧ readProg c!"f(1)\na" = none ∧
    readProg c!"a = f(b = 1\nb, 2)\na" = none ∧
    inScope [c!"f", c!"g"] [(c!"a", .call (.name c!"f") []), (c!"b", .call (.name c!"g") [.name c!"a"])] (.name c!"b") = true ∧
    inScope [c!"f", c!"g"] [(c!"a", .call (.name c!"f") [.name c!"b"]), (c!"b", .call (.name c!"g") [.name c!"a"])] (.name c!"b") = false := by
  decide +kernel

/-! ### the program of a data frame -/

/-- an argument of a runtime command -/
def argTree : RE → Option PyE
  | .expr e => pyTree e
  | .list es => (pyTrees es).map .list
  | .dict kvs => (dictTrees kvs).map .dict
where
  /-- keys and values in turn -/
  dictTrees : List (Str × PE) → Option (List PyE)
    | [] => some []
    | (k, e) :: kvs =>
      match Plain '"' k, pyTree e, dictTrees kvs with
      | true, some t, some ts => some (.str k :: t :: ts)
      | _, _, _ => none

/-- positional arguments -/
def argTrees : List RE → Option (List PyE)
  | [] => some []
  | a :: as =>
    match argTree a, argTrees as with
    | some t, some ts => some (t :: ts)
    | _, _ => none

/-- keyword arguments: the names are identifiers -/
def kwTrees : List (Str × RE) → Option (List PyE)
  | [] => some []
  | (n, a) :: ks =>
    match isIdent n && !(pyConsts.contains n), argTree a, kwTrees ks with
    | true, some t, some ts => some (.kwarg n t :: ts)
    | _, _, _ => none

/-- `e.f(args)` -/
def mCall (e : PyE) (f : Str) (args : List PyE) : PyE := .call (.attr e f) args

/-- a grouping column -/
def cnTree : CN → Option PyE
  | .col c => pyTree c
  | .name n => if Plain '"' n then some (.str n) else none

def cnTrees : List CN → Option (List PyE)
  | [] => some []
  | c :: cs =>
    match cnTree c, cnTrees cs with
    | some t, some ts => some (t :: ts)
    | _, _ => none

/-- the columns of a call; there is at least one, as `f(,)` is no call -/
def colTrees (cs : List PE) : Option (List PyE) := if cs.isEmpty then none else pyTrees cs

/-- `spark.range(0, n, 1)`, the only source given as code -/
def rangeTree (c : Str) : Option PyE :=
  let k := (c.drop 15).take (c.length - 19)
  if c = c!"spark.range(0, " ++ k ++ c!", 1)" then
    (codeTree k).map fun v => mCall (.name c!"spark") c!"range" [.num c!"0" [], v, .num c!"1" []]
  else none

/-- the decimal digits of a number -/
def natTree (n : Nat) : PyE := .num (showNat n) []

/-- is the frame a variable? -/
def isVar : DF → Bool
  | .runtimeRoot .. | .runtime .. | .named .. => true
  | _ => false

/-- A call of the runtime library. -/
def cmdTree (func : Str) (src : PyE) (args : List RE) (kwargs : List (Str × RE)) : Option PyE :=
  match isIdent func, argTrees args, kwTrees kwargs with
  | true, some as, some ks =>
    if argsOk ks then some (mCall (.name c!"commands") func (src :: (as ++ ks))) else none
  | _, _, _ => none

/-- apply a method to the final expression -/
def onResult (p : Option PyProg) (f : PyE → Option PyE) : Option PyProg :=
  match p with
  | none => none
  | some p => (f p.result).map fun e => ⟨p.stmts, e⟩

/-- add a statement and end with its variable -/
def addStmt (n : Str) (ok : Bool) (p : Option PyProg) (f : PyE → Option PyE) : Option PyProg :=
  match p with
  | none => none
  | some p =>
    if isIdent n && !(pyConsts.contains n) && (ok || p.stmts.isEmpty) then
      (f p.result).map fun e => ⟨p.stmts ++ [(n, e)], .name n⟩
    else none

/-- an operand that is an expression -/
def operand (p : Option PyProg) : Option PyE :=
  match p with
  | some ⟨[], e⟩ => some e
  | _ => none

/-- The program a data frame stands for: a runtime command is an assignment, every other frame a
method call on the frame it is made from.  Where a frame with statements of its own would have to
be an argument there is none. -/
def progTree : DF → Option PyProg
  | .source n => if Plain '\'' n then some ⟨[], mCall (.name c!"spark") c!"table" [.str n]⟩ else none
  | .rawSource c => (rangeTree c).map fun e => ⟨[], e⟩
  | .runtimeRoot n f as ks => addStmt n true (some ⟨[], .name c!"None"⟩) fun e => cmdTree f e as ks
  | .runtime n src f as ks => addStmt n (isVar src) (progTree src) fun e => cmdTree f e as ks
  | .named src n => addStmt n (isVar src) (progTree src) some
  | .select src cols => onResult (progTree src) fun e => (colTrees cols).map fun ts => mCall e c!"select" ts
  | .where_ src c => onResult (progTree src) fun e => (pyTree c).map fun t => mCall e c!"where" [t]
  | .groupBy src cols => onResult (progTree src) fun e => (cnTrees cols).map fun ts => mCall e c!"groupBy" [.list ts]
  | .agg src cols => onResult (progTree src) fun e => (colTrees cols).map fun ts => mCall e c!"agg" ts
  | .withColumn src c n => onResult (progTree src) fun e =>
      if Plain '\'' n then (pyTree c).map fun t => mCall e c!"withColumn" [.str n, t] else none
  | .withColumnRenamed src o n => onResult (progTree src) fun e =>
      if Plain '\'' o && Plain '\'' n then some (mCall e c!"withColumnRenamed" [.str o, .str n]) else none
  | .orderBy src cols => onResult (progTree src) fun e => (colTrees cols).map fun ts => mCall e c!"orderBy" ts
  | .unionByName src other => onResult (progTree src) fun e => (operand (progTree other)).map fun t =>
      mCall e c!"unionByName" [t, .kwarg c!"allowMissingColumns" (.name c!"True")]
  | .limit src n => onResult (progTree src) fun e => some (mCall e c!"limit" [natTree n])
  | .tail src n => onResult (progTree src) fun e => some (mCall e c!"tail" [natTree n])
  | .join src other c ty => onResult (progTree src) fun e =>
      match operand (progTree other), pyTree c, Plain '\'' ty with
      | some t, some k, true => some (mCall e c!"join" [t, k, .str ty])
      | _, _, _ => none
  | .alias src n => onResult (progTree src) fun e =>
      if Plain '\'' n then some (mCall e c!"alias" [.str n]) else none
  | .arbitraryMethod src m ps => onResult (progTree src) fun e =>
      if isIdent m then (colTrees ps).map fun ts => mCall e m ts else none

end Verif.Spec
