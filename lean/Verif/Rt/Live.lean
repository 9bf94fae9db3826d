import Verif.Tr.Commands
/-
Model of the interactive translator: python/spl_transpiler/live_translator.py, class `SPLApp`.

Taken as given: the widgets of `textual` (a text area reports its changes, a switch its toggles, handlers run one after the other),
the drawing of the syntax tree (`ASTTree.set_ast`, the pane is represented by the tree it shows) and the wording of the log.
-/
namespace Verif

/-- which of the two steps failed -/
inductive LiveFailure
  | parsing | rendering
deriving DecidableEq

/-- What the application shows, live_translator.py:35-55,105-134. -/
structure Live where
  /-- the text in the editor -/
  spl : Str := []
  /-- the two switches, both on at the start (128, 130) -/
  useRuntime : Bool := true
  addImports : Bool := true
  /-- the program in the lower text area -/
  program : Str := []
  /-- the tree in the side panel -/
  tree : Option Pipeline := none
  /-- is the style `error` set on the side panel, on the program? -/
  treeMarked : Bool := false
  programMarked : Bool := false
  /-- what the log says -/
  log : Option LiveFailure := none

/-- the text shown for a program, live_translator.py:186-193 -/
def Live.shownText (s : Live) (code : Str) : Str :=
  if s.addImports then
    joinWith c!"\n" ([c!"from pyspark.sql import functions as F"] ++
      (if s.useRuntime then [c!"from spl_transpiler.runtime import commands, functions"] else []) ++ [code])
  else code

/-- `SPLApp.update_pyspark_code`, live_translator.py:158-193 -/
def Live.update (parse : Str → Option Pipeline) (x : Ext) (fmt : Str → Option Str) (s : Live) : Live :=
  match parse s.spl with
  | none => { s with log := some .parsing, treeMarked := true }
  | some p =>
    let s := { s with log := none, treeMarked := false, tree := some p }
    match renderPyspark x fmt p s.useRuntime true with
    | none => { s with log := some .rendering, programMarked := true }
    | some code => { s with programMarked := false, program := s.shownText code }

/-- what the person at the keyboard does -/
inductive LiveEvent
  | edit (text : Str) | toggleRuntime | toggleImports

/-- the handlers, live_translator.py:30-33,136-140,151-156 -/
def Live.step (parse : Str → Option Pipeline) (x : Ext) (fmt : Str → Option Str) (s : Live) : LiveEvent → Live
  | .edit t => { s with spl := t }.update parse x fmt
  | .toggleRuntime => { s with useRuntime := !s.useRuntime }.update parse x fmt
  | .toggleImports => { s with addImports := !s.addImports }.update parse x fmt

/-- `SPLApp.run`: the state after the events -/
def Live.run (parse : Str → Option Pipeline) (x : Ext) (fmt : Str → Option Str) (s : Live) (es : List LiveEvent) : Live :=
  es.foldl (Live.step parse x fmt) s

/-- `action_copy_pyspark`, live_translator.py:142-149: the text put on the clipboard -/
def Live.copied (s : Live) : Str := s.program

end Verif
