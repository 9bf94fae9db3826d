import Verif.Spec.PyRun
import Verif.Tr.Commands
/-
Model of the notebook command `%%spl`: python/spl_transpiler/runtime/utils.py and runtime/magic.py.

Taken as given: Python itself (`Spec/PyRun`: the value of an expression under `exec` and `eval` with two dictionaries), `ast.parse`
(a parameter; only assignments to one variable and expressions occur in generated programs, C59, so the branches for other
assignments are left out), `ast.unparse` (the program is run as it was parsed), `argparse`, the display of the code, logging, and
the entry `__builtins__` that `exec` adds to a dictionary of global variables that has none.
-/
namespace Verif
open Spec

/-- statements -/
inductive Stmt
  | assign (target : Str) (value : PyE)
  | expr (e : PyE)

/-- `exec` of statements with the dictionaries `g` and `l`: variables are assigned in `l`. -/
def execAll {V : Type} (O : PyOps V) (g : PyEnv V) : PyEnv V → List Stmt → Option (PyEnv V)
  | l, [] => some l
  | l, .assign n e :: ss => (evalPy O g l PyEnv.none e).bind fun v => execAll O g (l.set n v) ss
  | l, .expr e :: ss => (evalPy O g l PyEnv.none e).bind fun _ => execAll O g l ss

/-- `exec_with_return`, runtime/utils.py:9-24: the value of the last statement if it is an expression, of its variable if it is an
assignment, and `None` if there is none. -/
def execWithReturn {V : Type} (O : PyOps V) (astParse : Str → Option (List Stmt)) (code : Str) (g l : PyEnv V) : Option V :=
  match astParse code with
  | none => none
  | some body =>
    let (main, last) := match body.getLast? with
      | some (.expr e) => (body.dropLast, some e)
      | some (.assign n _) => (body, some (.name n))
      | none => (body, none)
    match execAll O g l main with
    | none => none
    | some l' =>
      match last with
      | some e => evalPy O g l' PyEnv.none e
      | none => some (O.const c!"None")

/-- The options of `%%spl`, magic.py:24-55; `--print-code` only shows the code. -/
structure MagicArgs where
  dryRun : Bool := false
  useRuntime : Bool := true
  formatCode : Bool := true
  printCode : Bool := true
  varName : Str := c!"df"

/-- the mode of a cell -/
def MagicArgs.mode (a : MagicArgs) : Mode := if a.useRuntime then .allow else .disallow

/-- `spl`, magic.py:17-79: the variables of the notebook afterwards; `none` is an exception, which leaves them as they are.
`parse`, `x` and `fmt` as in `convertSpl`. -/
def splMagic {V : Type} (O : PyOps V) (m : Modules V) (parse : Str → Option Pipeline) (x : Ext) (fmt : Str → Option Str)
    (astParse : Str → Option (List Stmt)) (args : MagicArgs) (cell : Str) (ns : PyEnv V) : Option (PyEnv V) :=
  match convertSpl parse x fmt cell args.useRuntime args.formatCode with
  | none => none
  | some code =>
    if args.dryRun then some ns
    else (execWithReturn O astParse code ns m.env).map fun v => ns.set args.varName v

end Verif
