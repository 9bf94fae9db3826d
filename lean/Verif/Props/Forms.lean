import Verif.Lemmas.Every
import Verif.Lemmas.Shape
import Verif.Lemmas.Run
/-
C57: documented forms that can not be written.
-/
namespace Verif
open Spl Spec

/-- OUTPUTNEW after `lookup` is documented and provided for, but in no query, at any depth, is it ever read:
the parser takes OUTPUT for it and then fails at NEW. -/
theorem C57_lookup_outputnew {q : Str} {p : Pipeline} (h : parse q = some p) :
    everyP (fun _ => True) (fun c => ∀ a o, c = .lookup a → a.output = some o → lower o.kv ≠ c!"outputnew") p :=
  everyP_mono (fun _ _ => trivial) (fun c hc => by
    rintro a o rfl ho e
    have : lower o.kv = c!"output" := hc o ho
    rw [this] at e
    exact absurd e (by decide)) p (parse_shape h)

/-- BY PREFIX(field) after `tstats` is documented and provided for, but in no query is it ever read. -/
theorem C57_tstats_prefix {q : Str} {p : Pipeline} (h : parse q = some p) :
    everyP (fun _ => True) (fun c => ∀ o es m n w b x, c = .tstats o es m n w b x → x = none) p :=
  everyP_mono (fun _ _ => trivial) (fun c hc => by
    rintro o es m n w b x rfl
    exact hc.2.1) p (parse_shape h)

/-- The documented functions `in`, `like` and `lookup` have translations, but in no query are they ever called:
their names are reserved words. -/
theorem C57_reserved_functions {q : Str} {p : Pipeline} (h : parse q = some p) :
    everyP (fun e => ∀ n a as, e = .call n (a :: as) → lower n ∉ [c!"in", c!"like", c!"lookup"]) (fun _ => True) p :=
  everyP_mono (fun e he => by
    rintro n a as rfl hn
    have : ¬ Reserved n := he (by simp)
    refine this ?_
    rw [Reserved, ← Lemmas.upper_lower]
    exact (by decide : ∀ w ∈ [c!"in", c!"like", c!"lookup"], upper w ∈ reservedWords) _ hn) (fun _ _ => trivial) p (parse_shape h)

/-- documented forms of commands -/
def refusedForms : List Str := [
  c!"lookup users uid OUTPUTNEW name",
  c!"lookup users.csv uid OUTPUT name",
  c!"inputlookup users.csv",
  c!"tstats count by PREFIX(x)",
  c!"tstats count where index=a by PREFIX(x)",
  c!"tstats count x sum(y) from datamodel=A",
  c!"tstats count AS \"x y\" from datamodel=A",
  c!"tstats count from datamodel = A",
  c!"tstats count(x) AS n, sum(y) from datamodel=A",
  c!"tstats count() where index=a",
  c!"stats count by a dedup_splitvals=true",
  c!"stats count(x) AS \"My Count\"",
  c!"bin _time span=5m",
  c!"dedup a, b",
  c!"dedup a keepempty=true",
  c!"sort - x",
  c!"head 5 keeplast=true|table a",
  c!"spath input=a path=b output=c",
  c!"where like(a, \"b%\")",
  c!"eval x=if(in(a, \"b\"), 1, 2)"]

/-- the same with the nearest form that can be written -/
def acceptedForms : List Str := [
  c!"lookup users uid OUTPUT name",
  c!"inputlookup users",
  c!"tstats count by x",
  c!"tstats count where index=a by x",
  c!"tstats count sum(y) from datamodel=A",
  c!"tstats count AS xy from datamodel=A",
  c!"tstats count from datamodel=A",
  c!"tstats count(x) AS n sum(y) from datamodel=A",
  c!"tstats count where index=a",
  c!"stats count by a",
  c!"stats count AS \"My Count\"",
  c!"bin span=5m _time",
  c!"dedup a b",
  c!"dedup keepempty=true a",
  c!"sort -x",
  c!"head 5 keeplast=true |table a",
  c!"spath input=a output=c path=b",
  c!"where match(a, \"b\")",
  c!"eval x=if(a=\"b\", 1, 2)"]

/-- Documented forms of commands that are refused. -/
theorem C57_forms_refused : (∀ q ∈ refusedForms, parse q = none) ∧ ∀ q ∈ acceptedForms, (parse q).isSome = true := by
  have h1 : ∀ q ∈ refusedForms, (parse q).isNone = true := by decide +kernel
  exact ⟨fun q hq => Option.isNone_iff_eq_none.1 (h1 q hq), by decide +kernel⟩

example : ∃ p, parse c!"lookup users uid OUTPUT name" = some p := Option.isSome_iff_exists.1 (C57_forms_refused.2 _ (by decide))

end Verif
