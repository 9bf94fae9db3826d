import Verif.Rt.Live
import Verif.Spec.Imports
import Verif.Props.Program
import Verif.Spl.Eq
/-
C100: the interactive translator shows the translation of the text in the editor.
-/
namespace Verif.Props
open Verif Verif.Spec Verif.Lemmas

variable {parse : Str → Option Pipeline} {x : Ext} {fmt : Str → Option Str}

/-- Every handler ends with an update. -/
theorem live_last (s : Live) (es : List LiveEvent) (e : LiveEvent) :
    ∃ r : Live, s.run parse x fmt (es ++ [e]) = r.update parse x fmt ∧
      r.programMarked = (s.run parse x fmt es).programMarked ∧ r.program = (s.run parse x fmt es).program := by
  unfold Live.run
  rw [List.foldl_append, List.foldl_cons, List.foldl_nil]
  cases e <;> exact ⟨_, rfl, rfl, rfl⟩

theorem update_settings (r : Live) : (r.update parse x fmt).spl = r.spl ∧ (r.update parse x fmt).useRuntime = r.useRuntime ∧
    (r.update parse x fmt).addImports = r.addImports := by
  unfold Live.update
  split
  · exact ⟨rfl, rfl, rfl⟩
  · simp only
    split <;> exact ⟨rfl, rfl, rfl⟩

/-- what is put in front of the program -/
def importText (s : Live) : Str :=
  if s.addImports then
    c!"from pyspark.sql import functions as F\n" ++
      if s.useRuntime then c!"from spl_transpiler.runtime import commands, functions\n" else []
  else []

/-- **C100 (partial).** After any sequence of edits and switches: if the text in the editor has a translation with the chosen options,
the program shown is this translation, after the imports if they are asked for, the tree is that of the text, and nothing is marked.
If it has none, the tree or the program is marked and the log tells which step failed.  Missing, because false: that the program is
marked whenever it is not the translation of the text (`C100_stale_program`). -/
theorem C100_shows_partial (es : List LiveEvent) (e : LiveEvent) :
    let s := Live.run parse x fmt {} (es ++ [e])
    (∀ code, convertSpl parse x fmt s.spl s.useRuntime true = some code →
      s.program = importText s ++ code ∧ s.copied = importText s ++ code ∧ s.tree = parse s.spl ∧
      s.treeMarked = false ∧ s.programMarked = false ∧ s.log = none) ∧
    (convertSpl parse x fmt s.spl s.useRuntime true = none →
      (s.treeMarked = true ∨ s.programMarked = true) ∧
      s.log = some (if (parse s.spl).isSome then .rendering else .parsing)) := by
  intro s
  obtain ⟨r, hs, -, -⟩ := live_last (parse := parse) (x := x) (fmt := fmt) {} es e
  have hs : s = r.update parse x fmt := hs
  obtain ⟨h1, h2, h3⟩ := update_settings (parse := parse) (x := x) (fmt := fmt) r
  have hi : importText (r.update parse x fmt) = importText r := by rw [importText, importText, h2, h3]
  rw [hs, hi, h1, h2]
  unfold convertSpl Live.update Live.copied
  cases hp : parse r.spl with
  | none => exact ⟨fun code h => by simp at h, fun _ => ⟨.inl rfl, rfl⟩⟩
  | some p =>
    cases hr : renderPyspark x fmt p r.useRuntime true with
    | none => exact ⟨fun code h => by simp [hr] at h, fun _ => ⟨.inr (by simp [hr]), by simp [hr]⟩⟩
    | some code =>
      refine ⟨fun c h => ?_, fun h => by simp [hr] at h⟩
      simp only [hr, Option.some.injEq] at h
      subst h
      simp only [hr]
      have : ∀ r : Live, r.shownText code = importText r ++ code := fun r => by
        unfold Live.shownText importText
        cases r.addImports <;> cases r.useRuntime <;> rfl
      exact ⟨this _, this _, trivial, trivial, trivial, trivial⟩

/-- a session: a query that translates, one that cannot be parsed, one that cannot be translated without the library -/
def session : List LiveEvent :=
  [.edit c!"search a=1", .toggleImports, .edit c!"search a=(", .edit c!"map search=\"x\""]

/-- the translator with the real parser and no formatter -/
def liveRun (es : List LiveEvent) : Live := Live.run Verif.parse Tests.ext (fun _ => none) {} es

example : (liveRun (session.take 1)).program = c!"from pyspark.sql import functions as F\nfrom spl_transpiler.runtime import commands, functions\ndf_1 = commands.search(None, a=F.lit(1))\ndf_1" ∧
    (liveRun (session.take 2)).program = c!"df_1 = commands.search(None, a=F.lit(1))\ndf_1" ∧
    (liveRun (session.take 3)).log = some .parsing ∧ (liveRun session).log = some .rendering ∧ (liveRun session).programMarked = true := by
  decide +kernel

/-- **C100 (refutation).** A text that cannot be parsed leaves an unmarked program as it was, whatever it was and whatever the text was that it is the
translation of. -/
theorem C100_stale_program (es : List LiveEvent) (t : Str) (ht : parse t = none) :
    let s := Live.run parse x fmt {} es
    let s' := Live.run parse x fmt {} (es ++ [.edit t])
    s'.programMarked = s.programMarked ∧ s'.program = s.program ∧ s'.copied = s.copied ∧ s'.spl = t := by
  intro s s'
  have h : s' = { s with spl := t, log := some .parsing, treeMarked := true } := by
    show Live.run parse x fmt {} (es ++ [.edit t]) = _
    unfold Live.run
    rw [List.foldl_append, List.foldl_cons, List.foldl_nil]
    show Live.update parse x fmt { s with spl := t } = _
    unfold Live.update
    rw [ht]
  rw [h]
  exact ⟨rfl, rfl, rfl, rfl⟩

/-- the program of an earlier text, unmarked, which is also what is copied -/
example : let s := liveRun (session.take 3)
    s.spl = c!"search a=(" ∧ s.programMarked = false ∧ s.copied = c!"df_1 = commands.search(None, a=F.lit(1))\ndf_1" := by
  decide +kernel

/-! ### the names the program uses -/

/-- With the library, the names of a shown program are bound by its imports. -/
theorem names_bound {ss : List (Str × PyE)} {r : PyE} : ∀ {k k' : List Str}, (∀ n ∈ k, n ∈ k') → inScope k ss r = true → inScope k' ss r = true := by
  induction ss with
  | nil =>
    intro k k' hk h
    rw [inScope, List.all_eq_true] at h ⊢
    intro v hv
    have := h v hv
    simp only [List.contains_iff_mem] at this ⊢
    exact hk v this
  | cons a ss ih =>
    intro k k' hk h
    obtain ⟨n, e⟩ := a
    rw [inScope, Bool.and_eq_true, List.all_eq_true] at h ⊢
    refine ⟨fun v hv => ?_, ih (fun m hm => ?_) h.2⟩
    · have := h.1 v hv
      simp only [List.contains_iff_mem] at this ⊢
      exact hk v this
    · rcases List.mem_cons.1 hm with rfl | hm
      · exact List.mem_cons_self
      · exact List.mem_cons_of_mem _ (hk m hm)

/-- **C100 (partial), imports.** The program shown for a plain query with both switches on, as they are at the start, reads as import
statements and a program that uses, apart from what it defines before, only the imported names, the session and Python's constants;
whatever was done before.  The formatter is one that leaves the program the same.  Missing: the full claim has no condition on the
query (`C59`, `C100_undefined_name`). -/
theorem C100_imports_partial (hx : Arranges x) (hf : ∀ t t', fmt t = some t' → readProg t' = readProg t)
    (es : List LiveEvent) (e : LiveEvent) :
    let s := Live.run parse x fmt {} (es ++ [e])
    s.useRuntime = true → s.addImports = true → ∀ p, parse s.spl = some p → plainP ⟨.allow, x⟩ p = true →
      ordered .allow .expr p = true → ∀ txt, renderPipeline ⟨.allow, x⟩ p = some txt → txt ≠ [] →
      ∃ ns q, ReadsAs s.program ns q ∧ inScope (ns ++ ambient) q.stmts q.result = true := by
  intro s hu hi p hp hpl ho txt ht hne
  obtain ⟨_, _, q, _, _, h1, _, h2, _⟩ := plain_reads (c := ⟨.allow, x⟩) hx hpl ho ht hne
  have hc : convertSpl parse x fmt s.spl s.useRuntime true = some ((fmt txt).getD txt) := by
    unfold convertSpl renderPyspark
    rw [hp, hu]
    simp only [if_true, ht, Option.map_some]
    cases fmt txt <;> rfl
  have hq : readProg ((fmt txt).getD txt) = some q := by
    cases h : fmt txt with
    | none => exact h1
    | some t => rw [Option.getD_some, hf _ _ h, h1]
  have := ((C100_shows_partial (parse := parse) (x := x) (fmt := fmt) es e).1 _ hc).1
  refine ⟨[c!"F"] ++ ([c!"commands", c!"functions"] ++ []), q, ?_, names_bound (fun n hn => ?_) h2⟩
  · rw [show s.program = _ from this, importText, hi, hu]
    exact .imports (l := c!"from pyspark.sql import functions as F") (by decide +kernel)
      (.imports (l := c!"from spl_transpiler.runtime import commands, functions") (by decide +kernel) (.prog hq))
  · revert n
    decide

/-- a query that meets the conditions -/
example : plainText .allow c!"index=main x=1 | eval y=x+1 | stats count by y | fields y" = true ∧
    (outOf .allow c!"index=main x=1 | eval y=x+1 | stats count by y | fields y").map (· ≠ []) = some True ∧
    (liveRun [.edit c!"index=main x=1 | eval y=x+1 | stats count by y | fields y"]).useRuntime = true := by
  refine ⟨by decide +kernel, ?_, by decide +kernel⟩
  have : outOf .allow c!"index=main x=1 | eval y=x+1 | stats count by y | fields y" ≠ some [] ∧
      (outOf .allow c!"index=main x=1 | eval y=x+1 | stats count by y | fields y").isSome = true := by decide +kernel
  cases h : outOf .allow c!"index=main x=1 | eval y=x+1 | stats count by y | fields y" with
  | none => rw [h] at this; simp at this
  | some t =>
    rw [h] at this
    simpa using this.1

/-- **C100 (refutation).** The program shown for a comparison with `true` uses a name that neither it nor its imports define. -/
theorem C100_undefined_name :
    (liveRun [.edit c!"where a=true"]).program = c!"from pyspark.sql import functions as F\nfrom spl_transpiler.runtime import commands, functions\nspark.table('main').where((F.col('a') == F.lit(true)),)" ∧
    ((readProg c!"spark.table('main').where((F.col('a') == F.lit(true)),)").map fun q =>
      (inScope ([c!"F", c!"commands", c!"functions"] ++ ambient) q.stmts q.result, vars q.result)) =
      some (false, [c!"spark", c!"F", c!"F", c!"true"]) := by
  decide +kernel

end Verif.Props
