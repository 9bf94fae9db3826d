import Verif.Props.UnknownCommands
import Verif.Props.Program
/-
C113: a value of words with dots between them, such as the name of a host or of a file, is read as one value.
-/
namespace Verif.Props
open Verif Verif.Spec

/-- **C113.** A comparison of a field with a value that is written without quotes, words with dots between them of which none is reserved,
after `search`: the value is read whole, whatever the number of words.
Missing: words that begin with digits; values with a reserved word, for which the claim is false (`C113_reserved_last`). -/
theorem C113_value_partial {k f w g : Str} (hk : lower k = c!"search") (hg : Gap g) (hf : FieldText f) (hw : FieldText w) :
    parse (k ++ (g ++ (f ++ '=' :: w))) = some [.search (.binary (.const (.field f)) c!"=" (.const (.field w)))] := by
  have h2 : ∀ {v : Str}, FieldText v → Written 2 (.const (.field v)) v := fun h => .value (.field h)
  have h5 : Written 5 (.const (.field f)) f := .up (.up (.up (h2 hf) (by omega)) (by omega)) (by omega)
  have h6 : Written 6 (.const (.field w)) w := .up (.up (.up (.up (h2 hw) (by omega)) (by omega)) (by omega)) (by omega)
  have h9 : Written 9 (.binary (.const (.field f)) c!"=" (.const (.field w))) (f ++ '=' :: w) := by
    have := Written.up (.up (.up (.op (g₁ := []) (g₂ := []) .eq (.inl rfl) (.inl rfl) (.inl (by decide)) h5 h6) (by omega)) (by omega)) (by omega)
    simpa using this
  have hq := QueryText.direct (g₁ := []) (g₂ := []) (.inl rfl)
    (.one (.named (.search (es := []) (.one h9)) hk (by simp) hg)) (.inl rfl)
  have := C69_read_partial hq
  simpa [joinLeft] using this

/-- `search host=` and the value -/
def hostSearch (v : Str) : Str := c!"search host=" ++ v

/-- Disagreement: the whole query is refused when the last word of the value is reserved, for each of the reserved words
(`host=example.in`, `host=example.is`, `host=mail.by`), also with more terms after it. -/
theorem C113_reserved_last : ∀ r ∈ reservedWords, parse (hostSearch (c!"example." ++ lower r)) = none ∧
    parse (hostSearch (c!"example." ++ lower r ++ c!" status=500")) = none := by
  have h : ∀ r ∈ reservedWords, (parse (hostSearch (c!"example." ++ lower r))).isNone = true ∧
      (parse (hostSearch (c!"example." ++ lower r ++ c!" status=500"))).isNone = true := by decide +kernel
  exact fun r hr => ⟨Option.isNone_iff_eq_none.1 (h r hr).1, Option.isNone_iff_eq_none.1 (h r hr).2⟩

/-- The same when the first word is reserved (`host=search.example`). -/
theorem C113_reserved_first : ∀ r ∈ reservedWords, parse (hostSearch (lower r ++ c!".example")) = none := by
  have h : ∀ r ∈ reservedWords, (parse (hostSearch (lower r ++ c!".example"))).isNone = true := by decide +kernel
  exact fun r hr => Option.isNone_iff_eq_none.1 (h r hr)

/-- In the condition of `tstats` such a value is cut before the reserved word, which is then read as an operator:
`host=a.or source=b` has the host `a.` and an alternative. -/
theorem C113_cut : ((parse c!"| tstats count where host=a.or source=b").map fun cs => cs.map fun c => match c with
    | .tstats _ _ _ _ (some (.binary (.searchModifier m) op _)) _ _ => some (m, op)
    | _ => none) = some [some (.host c!"a.", c!"OR")] := by
  decide +kernel

example : parse (c!"search" ++ (c!" " ++ (c!"host" ++ '=' :: c!"example.com"))) =
    some [.search (.binary (.const (.field c!"host")) c!"=" (.const (.field c!"example.com")))] := by
  have nm : ∀ w ∈ [c!"host", c!"example", c!"com"], IsField w := by
    intro w hw
    refine ⟨⟨?_, ?_, ?_, ?_⟩, ?_, ?_⟩
    all_goals (rcases (by simpa using hw : w = c!"host" ∨ w = c!"example" ∨ w = c!"com") with rfl | rfl | rfl) <;>
      first | decide +kernel | (intro c s h; cases h; decide)
  exact C113_value_partial (by decide) ⟨by decide, by decide⟩ (.one (nm _ (by simp))) (.dot (w := c!"example") (p := c!"com") (nm _ (by simp)) (.one (nm _ (by simp))))

/-- between quotes the same value is accepted -/
example : (parse c!"search host=\"example.in\"").isSome = true := by decide +kernel

end Verif.Props
