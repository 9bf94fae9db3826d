import Verif.Spec.Indexes
import Verif.Props.QueryRows
import Verif.Props.Program
/-
C99: a search describes the events of the indexes its condition selects.
-/
namespace Verif.Props
open Verif Spl Spec Lemmas

/-- The index does not matter for conditions on other fields. -/
theorem frag_index (S : Sem) (j : Str) (r : Event) : ∀ e, SearchFrag true e = true →
    SearchFrag true e = true → splSearch S (fromIndex j r) e = splSearch S r e ∧ ∃ b, splSearch S r e = some b := by
  have hne : ∀ f, f ≠ c!"index" → fromIndex j r f = r f := fun f h => if_neg h
  refine searchFrag_cases ?_ ?_ ?_ ?_ ?_
  · intro f op p hf pf ho pp _
    obtain ⟨b, _, hb⟩ := splSearch_eval S r (.binary (.const (.field f)) op (.const (.wildcard p))) (by simp [SearchFrag, hf, pf, ho, pp])
    refine ⟨?_, _, hb⟩
    have h1 := searchField_ne hf
    simp only [splSearch, hne f h1.1]
  · intro f op k hf pf ho hk h
    have h1 := searchField_ne hf
    have h0 : SearchFrag false (.binary (.const (.field f)) op (.const k)) = true := by cases k <;> exact h
    obtain ⟨b, _, hb⟩ := splSearch_eval S r _ h0
    refine ⟨?_, _, hb⟩
    cases k with
    | field s => cases hk
    | _ => simp only [splSearch, hne f h1.1, if_neg h1.2, constVal]
  · intro l op q ho hl hr h1 h2 _
    obtain ⟨a1, a, a2⟩ := h1 hl
    obtain ⟨b1, b, b2⟩ := h2 hr
    rw [splSearch_conn S _ op (searchFrag_notConst hl), splSearch_conn S r op (searchFrag_notConst hl), a1, b1, a2, b2]
    refine ⟨rfl, ?_⟩
    rcases ho with rfl | rfl
    · exact ⟨_, by rw [if_pos (by decide)]; rfl⟩
    · exact ⟨_, by rw [if_neg (by decide), if_pos (by decide)]; rfl⟩
  · intro q _ hq h _
    obtain ⟨a1, a, a2⟩ := h hq
    rw [splSearch, splSearch, a1, a2]
    exact ⟨rfl, !a, by rw [if_pos (by decide)]; rfl⟩
  · intro f es pf hes he h
    have hf : f ≠ c!"index" := by
      simp only [SearchFrag, Bool.and_eq_true, bne_iff_ne] at h
      exact h.1.1.1
    obtain ⟨b, _, hb⟩ := splSearch_eval S r (.fieldIn f es) (by simpa [SearchFrag] using h)
    refine ⟨?_, _, hb⟩
    simp only [splSearch, hne f hf]

/-- the test of the index -/
theorem index_eval (S : Sem) (hS : EqTexts S) (j : Str) (r : Event) {k : Constant} {i : Str} (hk : k = .field i ∨ k = .str i) :
    splSearch S (fromIndex j r) (.binary (.const (.field c!"index")) c!"=" (.const k)) = some (i == j) := by
  have hv : fromIndex j r c!"index" = .str j := by simp [fromIndex, setField]
  have hd : (some (decide (j = i)) == some true) = (i == j) := by
    by_cases h : j = i
    · subst h; simp
    · have : ¬ i = j := fun h' => h h'.symm
      simp [h, this]
  have ho : splOp c!"=" = some .eq := by decide
  rcases hk with rfl | rfl
  · simp only [splSearch, if_neg (show c!"index" ∉ boundWords by decide), ho, Option.bind_some, Option.map_some, hv]
    rw [if_pos (by decide), hS, hd]
  · simp only [splSearch, if_neg (show c!"index" ∉ boundWords by decide), ho, Option.bind_some, constVal, Option.map_some, hv]
    rw [if_pos (by decide), hS, hd]

theorem first_index_base (S : Sem) (j : Str) (r : Event) : ∀ e, SearchFrag true e = true →
    ∃ b, splSearchAll S r ((searchTerms e).filter fun t => (indexValue t).isNone) = some b ∧
      splSearch S (fromIndex j r) e = some (b && ((searchTerms e).filterMap indexValue).all (· == j)) := by
  intro e h
  obtain ⟨h1, b, h2⟩ := frag_index S j r e h h
  have h3 := (searchFrag_terms e h).1
  refine ⟨b, ?_, ?_⟩
  · rw [filter_isNone h3, splSearchAll_terms S r e h, h2]
  · rw [h3, h1, h2]; simp

/-- A first search is true of an event of the index `j` if its other conditions are and `j` is each index it names. -/
theorem first_index (S : Sem) (hS : EqTexts S) (j : Str) (r : Event) : ∀ e, FirstFrag e = true →
    ∃ b, splSearchAll S r ((searchTerms e).filter fun t => (indexValue t).isNone) = some b ∧
      splSearch S (fromIndex j r) e = some (b && ((searchTerms e).filterMap indexValue).all (· == j))
  | .binary l op q, h => by
    rw [FirstFrag] at h
    simp only [Bool.or_eq_true, Bool.and_eq_true, beq_iff_eq] at h
    rcases h with (h | h) | ⟨⟨rfl, hl⟩, hr⟩
    · exact first_index_base S j r _ h
    · rw [Option.any_eq_true] at h
      obtain ⟨i, hi, hp⟩ := h
      have hi' := hi
      unfold indexValue at hi
      split at hi
      · rename_i f op' k heq
        cases heq
        split at hi
        · rename_i hc
          obtain ⟨rfl, rfl⟩ := hc
          have ht : searchTerms (.binary (.const (.field c!"index")) c!"=" (.const k)) = [.binary (.const (.field c!"index")) c!"=" (.const k)] := by
            rw [searchTerms, if_neg (by decide)]
          refine ⟨true, by rw [ht]; simp [hi', splSearchAll], ?_⟩
          rw [ht]
          have hk : k = .field i ∨ k = .str i := by
            split at hi
            · cases hi; exact .inl rfl
            · cases hi; exact .inr rfl
            · cases hi
          rw [index_eval S hS j r hk]
          simp [hi']
        · cases hi
      · cases hi
    · obtain ⟨a, a1, a2⟩ := first_index S hS j r l hl
      obtain ⟨b, b1, b2⟩ := first_index S hS j r q hr
      have nc : ∀ k, l ≠ .const k := (first_split l hl).choose_spec.2.2.1
      have ht : searchTerms (.binary l c!"AND" q) = searchTerms l ++ searchTerms q := by rw [searchTerms, if_pos rfl]
      rw [ht, List.filter_append, List.filterMap_append, splSearchAll_append, a1, b1]
      refine ⟨a && b, rfl, ?_⟩
      rw [splSearch_conn S _ _ nc, if_pos (by decide), a2, b2, List.all_append, Option.bind_some, Option.map_some]
      congr 1
      cases a <;> cases b <;> simp
  | .unary .., h | .fieldIn .., h | .const _, h | .fv .., h | .fb .., h | .fc .., h | .call .., h | .alias .., h | .aliasedField .., h
  | .searchModifier .., h | .subSearch .., h | .timeModifier .., h => first_index_base S j r _ h

/-- No event is in two indexes. -/
theorem selected_two (S : Sem) (hS : EqTexts S) (T : Str → Frame) {e : Expr} (he : FirstFrag e = true) {i k : Str}
    (hi : i ∈ (searchTerms e).filterMap indexValue) (hk : k ≠ i) : selected S e T k = some [] := by
  unfold selected
  rw [keepIf_filter (g := fun _ => false)]
  · simp
  intro r _
  obtain ⟨b, _, h2⟩ := first_index S hS k r e he
  rw [h2]
  have : ((searchTerms e).filterMap indexValue).all (· == k) = false := by
    rw [List.all_eq_false]
    exact ⟨i, hi, by simpa using fun h => hk h.symm⟩
  rw [this, Bool.and_false]

/-- **C99** (partial).  A search of the fragment of C75 that names one index: the program computes exactly the events of all indexes on
which the condition, with its test of the index, is true.
Missing: conditions that name more than one index (`C99_two_indexes_fail`), patterns (`C99_pattern_fails`), and tests of the index under
NOT (`C99_not_index_fails`) or in a list (`C99_list_fails`); under OR and with `!=` the search is refused (C28). -/
theorem C99_one_index_partial (x : Ext) (hx : Arranges x) (colsOf : Str → List Str) {e : Expr} {ordered : Bool} {cols : List Str}
    (h : fitsQuery colsOf [.search e] = some (ordered, cols)) {i : Str} (hi : (searchTerms e).filterMap indexValue = [i]) :
    ∃ text, renderPipeline ⟨.disallow, x⟩ [.search e] = some text ∧
      ∀ (S : Sem), EqTexts S → ∀ (A : Aggs) (O O' : Arrangement) (T T' : Str → Frame), (∀ i, (T i).cols = colsOf i) →
        (∀ i, SameTable (T i) (T' i)) → Definite S A O T [.search e] →
        ∃ F' rows, textRows S A O' T' text = some F' ∧ F'.cols = colsOf i ∧ selected S e T i = some rows ∧ F'.rows.Perm rows ∧
          ∀ k, k ≠ i → selected S e T k = some [] := by
  have he : FirstFrag e = true := by
    simp only [fitsQuery, hi] at h
    split at h
    · rename_i hc
      simp only [Bool.and_eq_true] at hc
      exact hc.1.2
    · cases h
  obtain ⟨text, h1, h2⟩ := C75_rows_partial x hx colsOf _ _ _ h
  refine ⟨text, h1, fun S hS A O O' T T' hc hs hd => ?_⟩
  obtain ⟨F, F', f1, f2, f3, f4, _⟩ := h2 S A O O' T T' hc hs hd
  have hsel : selected S e T i = keepIf (fun r => splSearchAll S r ((searchTerms e).filter fun t => (indexValue t).isNone)) (T i).rows := by
    unfold selected
    congr 1
    funext r
    obtain ⟨b, b1, b2⟩ := first_index S hS i r e he
    rw [b1, b2, hi]
    simp
  simp only [splQuery, hi, splRun] at f1
  rw [← hsel] at f1
  cases hr : selected S e T i with
  | none => rw [hr] at f1; cases f1
  | some rows =>
    rw [hr] at f1
    cases f1
    exact ⟨F', rows, f2, by rw [f4.1]; exact hc i, rfl, f4.2, fun k hk => selected_two S hS T he (by rw [hi]; simp) hk⟩

/-- Disagreement, for all conditions of the fragment that name two indexes: no event is described, as none is in two indexes, but the
program reads each of the tables. -/
theorem C99_two_indexes_fail (x : Ext) (hx : Arranges x) {e : Expr} (he : FirstFrag e = true) {i j : Str}
    (hi : i ∈ (searchTerms e).filterMap indexValue) (hj : j ∈ (searchTerms e).filterMap indexValue) (hij : i ≠ j) :
    ∃ s, transform ⟨.disallow, x⟩ (.search e) ⟨1, none⟩ = some s ∧ i ∈ tablesRead s.cur ∧ j ∈ tablesRead s.cur ∧
      ∀ (S : Sem), EqTexts S → ∀ (T : Str → Frame) (k : Str), selected S e T k = some [] := by
  obtain ⟨cond, c1, _, _, c3⟩ := first_split e he
  have hs : ∃ s, transform ⟨.disallow, x⟩ (.search e) ⟨1, none⟩ = some s := by
    cases cond with
    | none => exact ⟨_, by simp only [transform, dispatch, searchStandalone, c1]; rfl⟩
    | some c =>
      obtain ⟨p, _, hp, _⟩ := frag_means .disallow c (searchFrag_frag .disallow c c3.1)
      exact ⟨_, by simp only [transform, dispatch, searchStandalone, c1, hp]; rfl⟩
  obtain ⟨s, hs⟩ := hs
  have hr : requiredIndexes e = (searchTerms e).filterMap indexValue := (split_true (fun _ => true) (by simp) e _ _ c1).1.symm
  obtain ⟨d, rest, _, h2, _, h4⟩ := C28_index_split x hx e _ _ hs
  rw [hr] at h2
  obtain ⟨_, h2⟩ := h2 (List.ne_nil_of_mem hi)
  have ht : tablesRead s.cur = tablesRead d := by
    cases rest with
    | none => rw [show s.cur = d from h4]
    | some c =>
      obtain ⟨p, _, hp⟩ := h4
      rw [hp, tablesRead]
  refine ⟨s, hs, by rw [ht]; exact (h2 i).2 hi, by rw [ht]; exact (h2 j).2 hj, fun S hS T k => ?_⟩
  by_cases hk : k = i
  · exact selected_two S hS T he hj (by rw [hk]; exact hij)
  · exact selected_two S hS T he hi hk

/-- `index=a index=b` -/
def twoIndexes : Expr :=
  .binary (.binary (.const (.field c!"index")) c!"=" (.const (.field c!"a"))) c!"AND" (.binary (.const (.field c!"index")) c!"=" (.const (.field c!"b")))

example : parse c!"search index=a index=b" = some [.search twoIndexes] ∧ FirstFrag twoIndexes = true ∧
    (searchTerms twoIndexes).filterMap indexValue = [c!"a", c!"b"] ∧
    outOf .disallow c!"search index=a index=b" = some c!"spark.table('a').unionByName(spark.table('b'), allowMissingColumns=True,)" :=
  ⟨isParse_sound (by decide +kernel), by decide +kernel, by decide +kernel, by decide +kernel⟩

/-- Disagreement, for all patterns: `index=web*` stands for the events of all indexes that match; the program reads a table with the
pattern as its name. -/
theorem C99_pattern_fails (x : Ext) (hx : Arranges x) (p : Str) :
    renderPipeline ⟨.disallow, x⟩ [.search (.binary (.const (.field c!"index")) c!"=" (.const (.wildcard p)))] = some (c!"spark.table('" ++ p ++ c!"')") ∧
      ∀ (S : Sem) (T : Str → Frame) (k : Str), S.matches (.str k) (wildToks p) = some true →
        selected S (.binary (.const (.field c!"index")) c!"=" (.const (.wildcard p))) T k = some (T k).rows := by
  have ho : x.order [p] = [p] := List.perm_singleton.1 (hx [p])
  refine ⟨?_, fun S T k hk => ?_⟩
  · have : splitConditions true (.binary (.const (.field c!"index")) c!"=" (.const (.wildcard p))) = some (none, [p]) := by
      simp [splitConditions, isIndex, Expr.asString]
    simp only [renderPipeline, runCmds, transform, dispatch, searchStandalone, this, dedupStr, List.filter_nil, ho, unionSources,
      List.foldl_nil, Option.getD_some]
    rfl
  · unfold selected
    rw [keepIf_filter (g := fun _ => true)]
    · simp
    intro r _
    have hv : fromIndex k r c!"index" = .str k := by simp [fromIndex, setField]
    simp only [splSearch, if_neg (show c!"index" ∉ boundWords by decide), show splOp c!"=" = some .eq by decide, if_true, hv, hk]
    rfl

example : parse c!"search index=web*" = some [.search (.binary (.const (.field c!"index")) c!"=" (.const (.wildcard c!"web*")))] ∧
    plainSem.matches (.str c!"web1") (wildToks c!"web*") = some true :=
  ⟨isParse_sound (by decide +kernel), by simp [Sem.matches, plainSem, wildToks, tokMatch]⟩

/-- what a search reads that has no test of the index on its conjunctive spine -/
theorem reads_main (x : Ext) (hx : Arranges x) {e : Expr} (hr : requiredIndexes e = []) {s : St}
    (h : transform ⟨.disallow, x⟩ (.search e) ⟨1, none⟩ = some s) : tablesRead s.cur = [c!"main"] := by
  obtain ⟨d, rest, h1, _, _, h4⟩ := C28_index_split x hx e _ _ h
  rw [h1 hr] at h4
  cases rest with
  | none => rw [show s.cur = _ from h4]; rfl
  | some c =>
    obtain ⟨p, _, hp⟩ := h4
    rw [hp]; rfl

/-- Disagreement, for all indexes: `NOT index=i` stands for all events of the other indexes; the program reads none of their tables but
`main`. -/
theorem C99_not_index_fails (x : Ext) (hx : Arranges x) {k : Constant} {i : Str} (hk : k = .field i ∨ k = .str i) :
    ∃ s, transform ⟨.disallow, x⟩ (.search (.unary c!"NOT" (.binary (.const (.field c!"index")) c!"=" (.const k)))) ⟨1, none⟩ = some s ∧
      tablesRead s.cur = [c!"main"] ∧
      ∀ (S : Sem), EqTexts S → ∀ (T : Str → Frame) (j : Str), j ≠ i →
        selected S (.unary c!"NOT" (.binary (.const (.field c!"index")) c!"=" (.const k))) T j = some (T j).rows := by
  have hs : ∃ s, transform ⟨.disallow, x⟩ (.search (.unary c!"NOT" (.binary (.const (.field c!"index")) c!"=" (.const k)))) ⟨1, none⟩ = some s := by
    rcases hk with rfl | rfl
    · exact ⟨_, rfl⟩
    · exact ⟨_, rfl⟩
  obtain ⟨s, hs⟩ := hs
  refine ⟨s, hs, reads_main x hx rfl hs, fun S hS T j hj => ?_⟩
  unfold selected
  rw [keepIf_filter (g := fun _ => true)]
  · simp
  intro r _
  rw [splSearch, index_eval S hS j r hk, if_pos (by decide)]
  have : ¬ i = j := fun h => hj h.symm
  simp [this]

/-- Disagreement, for all lists of names: `index IN (a, b)` stands for the events of all indexes listed; the program reads `main`. -/
theorem C99_list_fails (x : Ext) (hx : Arranges x) (is : List Str) {s : St}
    (h : transform ⟨.disallow, x⟩ (.search (.fieldIn c!"index" (is.map fun i => .const (.field i)))) ⟨1, none⟩ = some s) :
    tablesRead s.cur = [c!"main"] ∧
      ∀ (S : Sem), EqTexts S → ∀ (T : Str → Frame), ∀ j ∈ is,
        selected S (.fieldIn c!"index" (is.map fun i => .const (.field i))) T j = some (T j).rows := by
  refine ⟨reads_main x hx rfl h, fun S hS T j hj => ?_⟩
  unfold selected
  rw [keepIf_filter (g := fun _ => true)]
  · simp
  intro r _
  have hv : fromIndex j r c!"index" = .str j := by simp [fromIndex, setField]
  have : splIn S (.str j) (is.map fun i => .const (.field i)) = some (some (is.contains j)) := by
    clear hj h
    induction is with
    | nil => rfl
    | cons i is ih =>
      rw [List.map_cons, splIn, ih]
      have h1 : inTest S (.str j) (.field i) = some (some (decide (j = i))) := by rw [inTest, hS]
      rw [h1, Option.bind_some, Option.map_some, List.contains_cons]
      have h2 : (j == i) = decide (j = i) := by by_cases h : j = i <;> simp [h]
      rw [h2]
      cases is.contains j <;> cases decide (j = i) <;> rfl
  rw [splSearch, hv, this, List.contains_iff_mem.2 hj]
  rfl

/-- The queries are read and translated. -/
example :
    parse c!"search NOT index=a" = some [.search (.unary c!"NOT" (.binary (.const (.field c!"index")) c!"=" (.const (.field c!"a"))))] ∧
    outOf .disallow c!"search NOT index=a" = some c!"spark.table('main').where(~(F.col('index') == F.col('a')),)" ∧
    parse c!"search index IN (a, b)" = some [.search (.fieldIn c!"index" [.const (.field c!"a"), .const (.field c!"b")])] ∧
    outOf .disallow c!"search index IN (a, b)" =
      some c!"spark.table('main').where(((F.col('index') == \"a\") | (F.col('index') == \"b\")),)" :=
  ⟨isParse_sound (by decide +kernel), by decide +kernel, isParse_sound (by decide +kernel), by decide +kernel⟩

/-- The conditions of `C99_one_index_partial` hold, and there is an interpretation in which texts are equal when they are the same. -/
example : fitsQuery webCols [.search (.binary (.binary (.const (.field c!"index")) c!"=" (.const (.field c!"web"))) c!"AND"
      (.binary (.const (.field c!"status")) c!">=" (.const (.int 400))))] = some (false, webCols []) ∧
    (searchTerms (.binary (.binary (.const (.field c!"index")) c!"=" (.const (.field c!"web"))) c!"AND"
      (.binary (.const (.field c!"status")) c!">=" (.const (.int 400))))).filterMap indexValue = [c!"web"] ∧ EqTexts plainSem :=
  ⟨by decide +kernel, by decide +kernel, fun a b => by simp [plainSem]⟩

end Verif.Props
