import Verif.Spl.Fix
/-
C01: parsing terminates with one answer.
-/
namespace Verif.Props
open Verif Spl

/-- `σ` is a meaning of the recursive parser functions: each function's answer is what its body
gives when its recursive calls are answered by `σ`. -/
def Solves (σ : Rec) : Prop := ∀ n i, σ.run n i = (gram n).run σ i

/-- What `parse` reports when the recursive functions mean `σ`: success exactly when the pipeline
function succeeds and nothing is left. -/
def answer (σ : Rec) (s : Str) : Option Pipeline :=
  match σ.run .pipe s with
  | some ([], p) => some p
  | _ => none

/-- **C01** The recursive grammar has a solution, only one, and `parse` computes it. -/
theorem C01_unique_answer :
    (∃ σ, Solves σ) ∧ ∀ σ, Solves σ → ∀ s, parse s = answer σ s := by
  refine ⟨⟨fix, fix_eq⟩, fun σ h s => ?_⟩
  unfold parse answer
  rw [fix_unique σ h .pipe s]
  rfl

/-- **C01** Recursion depth: evaluating with calls nested at most `k` deep, where deeper calls are
answered arbitrarily (by `ρ`), gives the same answer for every `k` above the length of the text;
so no evaluation ever nests deeper than that, whatever the text. -/
theorem C01_bounded_depth (ρ : Rec) (s : Str) (k : Nat) (hk : s.length < k) :
    answer (levelFrom ρ k) s = parse s := by
  unfold parse answer
  rw [levelFrom_eq_fix ρ .pipe s k hk]
  rfl

/-- **C01** Two meanings of the parser functions agree on every function and every text. -/
theorem C01_functions_unique (σ τ : Rec) (hσ : Solves σ) (hτ : Solves τ) (n : NT) (i : Str) :
    σ.run n i = τ.run n i := by
  rw [fix_unique σ hσ, fix_unique τ hτ]

/-- A search inside a call inside a sub-search has an answer, and depth 60 suffices. -/
example : (answer (levelFrom (level 0) 60) c!"join x [search a=len(b) | eval y=(1+(2+(3)))]").isSome = true ∧
    (parse c!"join x [search a=len(b) | eval y=(1+(2+(3)))]").isSome = true := by
  constructor <;> decide +kernel

/-- and a text that is not a query has the answer "error". -/
example : (parse c!"| | x").isNone = true := by decide +kernel

end Verif.Props
