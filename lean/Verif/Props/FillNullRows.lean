import Verif.Spec.FillNull
import Verif.Props.QueryRows
import Verif.Props.Shapes
import Verif.Props.Program
/-
C96: fillnull leaves no missing values in the fields it fills.
-/
namespace Verif.Props
open Verif Spl Spec Lemmas

theorem fill_program (x : Ext) (hx : Arranges x) (colsOf : Str → List Str) (q : List Command) (ordered : Bool) (cols : List Str)
    (h : fitsQuery colsOf q = some (ordered, cols)) {v : Str} (hv : Plain '"' v = true) (fs : Option (List Str)) :
    ∃ text, renderPipeline ⟨.disallow, x⟩ (q ++ [.fillNull v fs]) = some text ∧
      ∀ (S : Sem) (A : Aggs) (O O' : Arrangement) (T T' : Str → Frame), (∀ i, (T i).cols = colsOf i) → (∀ i, SameTable (T i) (T' i)) →
        Definite S A O T q →
        ∃ F F', splQuery S A O T q = some F ∧ Same ordered F F' ∧ F.cols = cols ∧
          ∀ ty, fillRows S A O' T' ty text = some (sparkFill ty v F') := by
  obtain ⟨e, h1, h2⟩ := translates_query x hx colsOf q ordered cols h
  obtain ⟨s, k1, k2, k3⟩ := h1 1
  have hp : progTree (.arbitraryMethod s.cur c!"fillna" [pyStr v]) = some ⟨[], mCall e c!"fillna" [.str v]⟩ := by
    have hc : colTrees [pyStr v] = some [.str v] := by
      show pyTrees [.py (c!"\"" ++ v ++ c!"\"")] = _
      simp only [pyTrees, pyTree, show codeTree (c!"\"" ++ v ++ c!"\"") = some (.str v) from codeTree_dquote hv]
    simp only [progTree, k3, onResult, hc, show isIdent c!"fillna" = true by decide +kernel, if_true, Option.map_some]
  refine ⟨(DF.arbitraryMethod s.cur c!"fillna" [pyStr v]).render.text, ?_, fun S A O O' T T' hc hs hd => ?_⟩
  · rw [renderPipeline, runCmds_append, k1]
    rfl
  · obtain ⟨F, F', g1, g2, g3, g4⟩ := h2 S A O O' T T' hc hs hd
    refine ⟨F, F', g1, g3, g4, fun ty => ?_⟩
    rw [fillRows, read_prog hp]
    simp only [mCall, if_true, g2, Option.map_some]

theorem fillRow_congr {p p' : Str → Bool} {v : Val} {r : Event} (h : ∀ n, p n = p' n) : fillRow p v r = fillRow p' v r := by
  funext n
  simp only [fillRow, h]

/-- **C96** (partial).  After any query of the fragment of C75, `fillnull` without a list of fields replaces the missing values as described, if
all columns are of the type text.
Missing: columns of other types (`C96_number_stays_null`), lists of fields (`C96_list_ignored`). -/
theorem C96_text_columns_partial (x : Ext) (hx : Arranges x) (colsOf : Str → List Str) (q : List Command) (ordered : Bool) (cols : List Str)
    (h : fitsQuery colsOf q = some (ordered, cols)) {v : Str} (hv : Plain '"' v = true) :
    ∃ text, renderPipeline ⟨.disallow, x⟩ (q ++ [.fillNull v none]) = some text ∧
      ∀ (S : Sem) (A : Aggs) (O O' : Arrangement) (T T' : Str → Frame), (∀ i, (T i).cols = colsOf i) → (∀ i, SameTable (T i) (T' i)) →
        Definite S A O T q → ∀ ty : Str → Kind, (∀ n ∈ cols, ty n = .text) →
        ∃ F F', splQuery S A O T q = some F ∧ fillRows S A O' T' ty text = some F' ∧ SameTable (splFill v none F) F' ∧
          (ordered = true → F'.rows = (splFill v none F).rows) := by
  obtain ⟨text, h1, h2⟩ := fill_program x hx colsOf q ordered cols h hv none
  refine ⟨text, h1, fun S A O O' T T' hc hs hd ty hty => ?_⟩
  obtain ⟨F, F', g1, g2, g3, g4⟩ := h2 S A O O' T T' hc hs hd
  have e : (sparkFill ty v F').rows = F'.rows.map (fillRow F.cols.contains (.str v)) := by
    simp only [sparkFill]
    refine List.map_congr_left fun r _ => fillRow_congr fun n => ?_
    rw [g2.1]
    by_cases hn : n ∈ F.cols
    · simp [hn, hty n (g3 ▸ hn)]
    · simp [hn]
  refine ⟨F, _, g1, g4 ty, ⟨g2.1, ?_⟩, fun ho => ?_⟩
  · rw [e]; exact g2.2.1.map _
  · rw [e, g2.2.2 ho]; rfl

/-- Disagreement, for all queries of the fragment and all values: a column that is not of the type text keeps its missing
values, though `fillnull` replaces them. -/
theorem C96_number_stays_null (x : Ext) (hx : Arranges x) (colsOf : Str → List Str) (q : List Command) (ordered : Bool) (cols : List Str)
    (h : fitsQuery colsOf q = some (ordered, cols)) {v : Str} (hv : Plain '"' v = true) {n : Str} (hn : n ∈ cols) :
    ∃ text, renderPipeline ⟨.disallow, x⟩ (q ++ [.fillNull v none]) = some text ∧
      ∀ (S : Sem) (A : Aggs) (O O' : Arrangement) (T T' : Str → Frame), (∀ i, (T i).cols = colsOf i) → (∀ i, SameTable (T i) (T' i)) →
        Definite S A O T q → ∀ ty : Str → Kind, ty n ≠ .text →
        ∃ F F', splQuery S A O T q = some F ∧ fillRows S A O' T' ty text = some F' ∧
          (F'.rows.map fun r => r n).Perm (F.rows.map fun r => r n) ∧ ∀ r ∈ (splFill v none F).rows, r n ≠ .null := by
  obtain ⟨text, h1, h2⟩ := fill_program x hx colsOf q ordered cols h hv none
  refine ⟨text, h1, fun S A O O' T T' hc hs hd ty hty => ?_⟩
  obtain ⟨F, F', g1, g2, g3, g4⟩ := h2 S A O O' T T' hc hs hd
  refine ⟨F, _, g1, g4 ty, ?_, fun r hr => ?_⟩
  · have e : ((sparkFill ty v F').rows.map fun r => r n) = F'.rows.map fun r => r n := by
      simp only [sparkFill, List.map_map]
      refine List.map_congr_left fun r _ => ?_
      simp [fillRow, hty]
    rw [e]
    exact g2.2.1.map _
  · simp only [splFill, List.mem_map] at hr
    obtain ⟨r', _, rfl⟩ := hr
    have : F.cols.contains n = true := by simpa [g3] using hn
    simp only [fillRow, this, true_and]
    split
    · simp
    · assumption

/-- Disagreement, for all queries of the fragment, values and lists: with a list of fields the missing values of the other columns of the
type text are replaced too, though `fillnull` leaves them. -/
theorem C96_list_ignored (x : Ext) (hx : Arranges x) (colsOf : Str → List Str) (q : List Command) (ordered : Bool) (cols : List Str)
    (h : fitsQuery colsOf q = some (ordered, cols)) {v : Str} (hv : Plain '"' v = true) {n : Str} (hn : n ∈ cols) {fs : List Str} (hf : n ∉ fs) :
    ∃ text, renderPipeline ⟨.disallow, x⟩ (q ++ [.fillNull v (some fs)]) = some text ∧
      ∀ (S : Sem) (A : Aggs) (O O' : Arrangement) (T T' : Str → Frame), (∀ i, (T i).cols = colsOf i) → (∀ i, SameTable (T i) (T' i)) →
        Definite S A O T q → ∀ ty : Str → Kind, ty n = .text →
        ∃ F F', splQuery S A O T q = some F ∧ fillRows S A O' T' ty text = some F' ∧ (∀ r ∈ F'.rows, r n ≠ .null) ∧
          (splFill v (some fs) F).rows.map (fun r => r n) = F.rows.map fun r => r n := by
  obtain ⟨text, h1, h2⟩ := fill_program x hx colsOf q ordered cols h hv (some fs)
  refine ⟨text, h1, fun S A O O' T T' hc hs hd ty hty => ?_⟩
  obtain ⟨F, F', g1, g2, g3, g4⟩ := h2 S A O O' T T' hc hs hd
  refine ⟨F, _, g1, g4 ty, fun r hr => ?_, ?_⟩
  · simp only [sparkFill, List.mem_map] at hr
    obtain ⟨r', _, rfl⟩ := hr
    have : F'.cols.contains n = true := by rw [g2.1]; simpa [g3] using hn
    simp only [fillRow, this, hty, decide_true, Bool.and_self, true_and]
    split
    · simp
    · assumption
  · simp only [splFill, List.map_map]
    refine List.map_congr_left fun r _ => ?_
    simp [fillRow, hf]

/-- Queries in the fragment, the programs, and a table of numbers on which nothing is filled. -/
theorem C96_query :
    outOf .disallow c!"table host, bytes | fillnull" = some c!"spark.table('main').select(F.col('host'), F.col('bytes'),).fillna(\"0\",)" ∧
    parse c!"table host, bytes | fillnull" = some [.table [c!"host", c!"bytes"], .fillNull c!"0" none] ∧
    (fitsQuery webCols [.table [c!"host", c!"bytes"]] = some (false, [c!"host", c!"bytes"])) ∧
    (sparkFill (fun n => if n = c!"bytes" then .number else .text) c!"0" ⟨[c!"host", c!"bytes"], [fun _ => .null]⟩).rows.map
      (fun r => (r c!"host", r c!"bytes")) = [(.str c!"0", .null)] :=
  ⟨by decide +kernel, isParse_sound (by decide +kernel), by decide +kernel, by decide +kernel⟩

example : Plain '"' c!"0" = true ∧ c!"bytes" ∈ [c!"host", c!"bytes"] ∧ c!"host" ∉ [c!"bytes"] ∧
    Typed (fun n => if n = c!"bytes" then .number else .text) ⟨[c!"host", c!"bytes"], [fun _ => .null]⟩ := by
  refine ⟨by decide, by decide, by decide, fun r hr n _ => ?_⟩
  simp only [List.mem_singleton] at hr
  subst hr
  cases (if n = c!"bytes" then Kind.number else Kind.text) <;> rfl

end Verif.Props
