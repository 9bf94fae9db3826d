import Verif.Spl.PyClasses
import Verif.Props.UnknownCommands
/-
C111: the module `ast` has the class of every command of a parsed query.
-/
namespace Verif.Props
open Verif Verif.Spec Verif.Spl

/-- the commands whose classes the module lacks, by the names they are written with -/
def withoutClass : List Str := [c!"datamodel", c!"rare", c!"spath", c!"tail", c!"top", c!"tstats"]

theorem class_of_body {b : Bool} {kw s : Str} {c : Command} (h : Body b kw c s) : commandClass c ∈ astClasses ↔ kw ∉ withoutClass := by
  cases h <;> simp only [commandClass] <;> try decide
  rename_i hk
  revert kw
  decide

/-- **C111.** A stage that is written with the name of a command, after any query: the class of the command read from it is in
the module `ast` exactly when the name is none of `datamodel`, `rare`, `spath`, `tail`, `top` and `tstats`.  So the claim
holds for the other commands, in every form and letter case, and is false for these six, for all arguments.
Missing: `join`, `map` and `multisearch`, whose sub-searches are written otherwise (see `C111_subsearches`). -/
theorem C111_stage_partial {b b' : Bool} {cs : List Command} {c : Command} {q kw k g s g₁ g₂ : Str} (hq : PipeText b cs q) (hg₁ : Gap g₁) (hg₂ : Blanks g₂)
    (hb : Body b' kw c s) (hk : lower k = kw) (hs : s ≠ []) (hg : Gap g) :
    parse (q ++ (g₁ ++ '|' :: (g₂ ++ (k ++ (g ++ s))))) = some (cs ++ [c]) ∧ (commandClass c ∈ astClasses ↔ kw ∉ withoutClass) :=
  ⟨C90_command_partial hq hg₁ hg₂ (.named hb hk hs hg), class_of_body hb⟩

/-- The commands with sub-searches, and every search, have their classes. -/
theorem C111_subsearches (o : JoinOpts) (fs : List Str) (sub : List Command) (n : Int) (ps : List (List Command)) (e : Expr) :
    commandClass (.join o fs sub) ∈ astClasses ∧ commandClass (.map sub n) ∈ astClasses ∧ commandClass (.multiSearch ps) ∈ astClasses ∧
      commandClass (.search e) ∈ astClasses := by
  refine ⟨?_, ?_, ?_, ?_⟩ <;> (simp only [commandClass]; decide)

/-- Different commands have different classes: the class of the value tells the command. -/
theorem C111_class_tells {c d : Command} (h : commandClass c = commandClass d) : c.ctorIdx = d.ctorIdx := by
  cases c <;> cases d <;> first | rfl | (exact absurd h (by simp only [commandClass]; decide))

/-- `index=web | tail 5`: the parsed query has a command whose class is not in the module. -/
theorem C111_tail : ∃ cs, parse c!"index=web | tail 5" = some cs ∧ ∃ c ∈ cs, commandClass c ∉ astClasses := by
  have h := C111_stage_partial web_pipe (g₁ := c!" ") (g₂ := c!" ") (k := c!"tail") (g := c!" ") ⟨by decide, by decide⟩ (.inr ⟨by decide, by decide⟩)
    (.tail (n := 5) (s := c!"5") (.mk (n := 5) ⟨by decide, by decide⟩)) (by decide) (by decide) ⟨by decide, by decide⟩
  exact ⟨_, h.1, .tail 5, by simp, fun hc => absurd (h.2.1 hc) (by decide)⟩

/-- The expressions whose classes the module lacks are the time modifiers and the search modifiers. -/
theorem C111_expressions (e : Expr) : exprClass e ∈ astClasses ↔ (∀ m, e ≠ .timeModifier m) ∧ ∀ m, e ≠ .searchModifier m := by
  cases e with
  | const c => cases c <;> (simp only [exprClass, constantClass]; simp; decide)
  | _ => simp only [exprClass]; simp; try decide

/-- The classes of constants tell the constants apart. -/
theorem C111_constant_tells {c d : Constant} (h : constantClass c = constantClass d) : c.ctorIdx = d.ctorIdx := by
  cases c <;> cases d <;> first | rfl | (exact absurd h (by simp only [constantClass]; decide))

/-- A parsed query with a time modifier, whose class is not in the module. -/
theorem C111_start_time : ((parse c!"| tstats count where starttime=\"x\"").map fun cs => cs.map fun c => match c with
    | .tstats _ _ _ _ (some e) _ _ => decide (exprClass e ∈ astClasses)
    | _ => true) = some [false] := by
  decide +kernel

example : parse c!"index=web | TABLE x" = some ([.search (.binary (.const (.field c!"index")) c!"=" (.const (.field c!"web")))] ++ [.table [c!"x"]]) ∧
    (commandClass (.table [c!"x"]) ∈ astClasses ↔ c!"table" ∉ withoutClass) :=
  C111_stage_partial web_pipe (g₁ := c!" ") (g₂ := c!" ") (k := c!"TABLE") (g := c!" ") ⟨by decide, by decide⟩ (.inr ⟨by decide, by decide⟩)
    (.table (s := c!"x") (.one ⟨rfl, .inl (.one ⟨by decide, by decide, by decide⟩)⟩)) (by decide) (by decide)
    ⟨by decide, by decide⟩

end Verif.Props
