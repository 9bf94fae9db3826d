import Verif.Lemmas.RowSteps
import Verif.Props.Query
import Verif.Props.Convert
/-
C75: the rows a translated query computes.
-/
namespace Verif.Props
open Verif Spl Spec Lemmas

theorem searchFrag_terms {neg : Bool} : ∀ e, SearchFrag neg e = true → (searchTerms e).filterMap indexValue = [] ∧
    ∀ f ∈ exprFields e, ∃ t ∈ searchTerms e, f ∈ exprFields t := by
  have one : ∀ e, searchTerms e = [e] → indexValue e = none → (searchTerms e).filterMap indexValue = [] ∧
      ∀ f ∈ exprFields e, ∃ t ∈ searchTerms e, f ∈ exprFields t := by
    intro e h1 h2
    rw [h1]
    simp [h2]
  refine searchFrag_cases ?_ ?_ ?_ ?_ ?_
  · intro f op p hf _ ho _
    have hf : f ≠ c!"index" := (searchField_ne hf).1
    refine one _ ?_ ?_
    · rw [searchTerms, if_neg (by intro e; subst e; simp [FragWildOp] at ho)]
    · simp [indexValue, hf]
  · intro f op k hf _ ho _
    have hf : f ≠ c!"index" := (searchField_ne hf).1
    refine one _ ?_ ?_
    · rw [searchTerms, if_neg (by intro e; subst e; simp [searchOps] at ho)]
    · simp [indexValue, hf]
  · intro l op r ho hl hr i1 i2
    by_cases ha : op = c!"AND"
    · rw [searchTerms, if_pos ha, List.filterMap_append, i1.1, i2.1]
      refine ⟨rfl, fun f hf => ?_⟩
      rw [exprFields, List.mem_append] at hf
      rcases hf with hf | hf
      · obtain ⟨t, h1, h2⟩ := i1.2 f hf
        exact ⟨t, List.mem_append_left _ h1, h2⟩
      · obtain ⟨t, h1, h2⟩ := i2.2 f hf
        exact ⟨t, List.mem_append_right _ h1, h2⟩
    · refine one _ ?_ ?_
      · rw [searchTerms, if_neg ha]
      · unfold indexValue
        split
        · rename_i heq
          cases heq
          exact absurd rfl (searchFrag_notConst hl _)
        · rfl
  · intro r _ _ _
    exact one _ rfl rfl
  · intro f es _ _ _
    exact one _ rfl rfl

theorem filter_isNone {l : List Expr} (h : l.filterMap indexValue = []) : (l.filter fun t => (indexValue t).isNone) = l := by
  rw [List.filter_eq_self]
  intro a ha
  have := List.filterMap_eq_nil_iff.1 h a ha
  simp [this]

/-- The condition that is left of a first search. -/
def FirstSplit (e : Expr) : Prop := ∃ cond, splitConditions true e = some (cond, (searchTerms e).filterMap indexValue) ∧
    (∀ i ∈ (searchTerms e).filterMap indexValue, Plain '\'' i = true) ∧ (∀ k, e ≠ .const k) ∧
    match cond with
    | none => ∀ S row, splSearchAll S row ((searchTerms e).filter fun t => (indexValue t).isNone) = some true
    | some c => SearchFrag true c = true ∧
        (∀ f ∈ exprFields c, ∃ t ∈ (searchTerms e).filter fun t => (indexValue t).isNone, f ∈ exprFields t) ∧
        (∀ S row, splSearchAll S row ((searchTerms e).filter fun t => (indexValue t).isNone) = splSearch S row c) ∧
        ∀ S row, (∀ t ∈ (searchTerms e).filter fun t => (indexValue t).isNone, NotsDecided S row t = true) → NotsDecided S row c = true

theorem nots_terms (S : Sem) (row : Event) : ∀ e, (∀ t ∈ searchTerms e, NotsDecided S row t = true) → NotsDecided S row e = true
  | .binary l op r, h => by
    rw [searchTerms] at h
    split at h
    · simp only [NotsDecided, nots_terms S row l fun t ht => h t (List.mem_append_left _ ht),
        nots_terms S row r fun t ht => h t (List.mem_append_right _ ht), Bool.and_self]
    · exact h _ (List.mem_singleton.2 rfl)
  | .unary .., h | .fieldIn .., h | .const _, h | .fv .., h | .fb .., h | .fc .., h | .call .., h | .alias .., h | .aliasedField .., h
  | .searchModifier .., h | .subSearch .., h | .timeModifier .., h => h _ (List.mem_singleton.2 rfl)

theorem first_base : ∀ e, SearchFrag true e = true → FirstSplit e := by
    intro e h
    obtain ⟨h1, h2⟩ := searchFrag_terms e h
    refine ⟨some e, by rw [split_searchFrag e h true, h1], by rw [h1]; simp, searchFrag_notConst h, h, ?_, ?_, ?_⟩
    · rw [filter_isNone h1]; exact h2
    · intro S row
      rw [filter_isNone h1]
      exact splSearchAll_terms S row e h
    · intro S row
      rw [filter_isNone h1]
      exact nots_terms S row e

theorem first_split : ∀ e, FirstFrag e = true → FirstSplit e
  | .binary l op r, h => by
    rw [FirstFrag] at h
    simp only [Bool.or_eq_true, Bool.and_eq_true, beq_iff_eq] at h
    rcases h with (h | h) | ⟨⟨rfl, hl⟩, hr⟩
    · exact first_base _ h
    · rw [Option.any_eq_true] at h
      obtain ⟨i, hi, hp⟩ := h
      simp only [Bool.and_eq_true, bne_iff_ne, ne_eq] at hp
      have hi' := hi
      unfold indexValue at hi
      split at hi
      · rename_i f op' k heq
        cases heq
        split at hi
        · rename_i hc
          obtain ⟨rfl, rfl⟩ := hc
          have ht : searchTerms (.binary (.const (.field c!"index")) c!"=" (.const k)) = [.binary (.const (.field c!"index")) c!"=" (.const k)] := by
            rw [searchTerms, if_neg (by decide)]
          have hs : splitConditions true (.binary (.const (.field c!"index")) c!"=" (.const k)) = some (none, [i]) := by
            split at hi
            · cases hi
              have : isIndex (.const (.field i)) = false := by simp [isIndex, hp.1]
              simp [splitConditions, isIndex, hp.1, Expr.asString]
            · cases hi
              simp [splitConditions, isIndex, Expr.asString]
            · cases hi
          refine ⟨none, ?_, ?_, (by intro k; simp), ?_⟩
          · rw [hs, ht]; simp [hi']
          · rw [ht]; simp [hi', hp.2]
          · intro S row
            rw [ht]
            simp [hi', splSearchAll]
        · cases hi
      · cases hi
    · obtain ⟨c1, a1, a2, a3, a4⟩ := first_split l hl
      obtain ⟨c2, b1, b2, b3, b4⟩ := first_split r hr
      have i1 : isIndex l = false := by cases l <;> first | rfl | exact absurd rfl (a3 _)
      have i2 : isIndex r = false := by cases r <;> first | rfl | exact absurd rfl (b3 _)
      have ht : searchTerms (.binary l c!"AND" r) = searchTerms l ++ searchTerms r := by rw [searchTerms, if_pos rfl]
      have hsp : ∀ c, recombine c1 c!"AND" c2 = some c → splitConditions true (.binary l c!"AND" r) =
          some (c, (searchTerms l).filterMap indexValue ++ (searchTerms r).filterMap indexValue) := by
        intro c hc
        simp [splitConditions, i1, i2, a1, b1, hc]
      unfold FirstSplit
      rw [ht, List.filterMap_append, List.filter_append]
      have hpl : ∀ i ∈ (searchTerms l).filterMap indexValue ++ (searchTerms r).filterMap indexValue, Plain '\'' i = true := by
        intro i hi
        rcases List.mem_append.1 hi with hi | hi
        · exact a2 i hi
        · exact b2 i hi
      cases c1 with
      | none =>
        cases c2 with
        | none =>
          refine ⟨none, hsp _ rfl, hpl, (by intro k; simp), fun S row => ?_⟩
          rw [splSearchAll_append, a4 S row, b4 S row]; rfl
        | some c2 =>
          refine ⟨some c2, hsp _ rfl, hpl, (by intro k; simp), b4.1, fun f hf => ?_, fun S row => ?_,
            fun S row ht => b4.2.2.2 S row fun t hm => ht t (List.mem_append_right _ hm)⟩
          · obtain ⟨t, h1, h2⟩ := b4.2.1 f hf
            exact ⟨t, List.mem_append_right _ h1, h2⟩
          · rw [splSearchAll_append, a4 S row, b4.2.2.1 S row]
            simp
      | some c1 =>
        cases c2 with
        | none =>
          refine ⟨some c1, hsp _ rfl, hpl, (by intro k; simp), a4.1, fun f hf => ?_, fun S row => ?_,
            fun S row ht => a4.2.2.2 S row fun t hm => ht t (List.mem_append_left _ hm)⟩
          · obtain ⟨t, h1, h2⟩ := a4.2.1 f hf
            exact ⟨t, List.mem_append_left _ h1, h2⟩
          · rw [splSearchAll_append, b4 S row, a4.2.2.1 S row]
            simp only [Option.map_some, Bool.and_true]
            cases splSearch S row c1 <;> rfl
        | some c2 =>
          refine ⟨some (.binary c1 c!"AND" c2), hsp _ rfl, hpl, (by intro k; simp), ?_, fun f hf => ?_, fun S row => ?_,
            fun S row ht => ?_⟩
          · have n1 := searchFrag_notConst a4.1
            rw [SearchFrag.eq_3 _ _ _ _ (fun f p e => absurd e (n1 _)) (fun f k e => absurd e (n1 _)), a4.1, b4.1]
            rfl
          · rw [exprFields, List.mem_append] at hf
            rcases hf with hf | hf
            · obtain ⟨t, h1, h2⟩ := a4.2.1 f hf
              exact ⟨t, List.mem_append_left _ h1, h2⟩
            · obtain ⟨t, h1, h2⟩ := b4.2.1 f hf
              exact ⟨t, List.mem_append_right _ h1, h2⟩
          · rw [splSearchAll_append, a4.2.2.1 S row, b4.2.2.1 S row, splSearch_conn S row _ (searchFrag_notConst a4.1), if_pos (by decide)]
          · simp only [NotsDecided, a4.2.2.2 S row fun t hm => ht t (List.mem_append_left _ hm),
              b4.2.2.2 S row fun t hm => ht t (List.mem_append_right _ hm), Bool.and_self]
  | .unary .., h | .fieldIn .., h | .const _, h | .fv .., h | .fb .., h | .fc .., h | .call .., h | .alias .., h | .aliasedField .., h
  | .searchModifier .., h | .subSearch .., h | .timeModifier .., h => first_base _ h

/-- What has to be shown of a query: one text, and on all tables the rows described. -/
def ComputesRows (x : Ext) (colsOf : Str → List Str) (q : List Command) (ordered : Bool) (cols : List Str) (text : Str) : Prop :=
  renderPipeline ⟨.disallow, x⟩ q = some text ∧
    ∀ (S : Sem) (A : Aggs) (O O' : Arrangement) (T T' : Str → Frame), (∀ i, (T i).cols = colsOf i) → (∀ i, SameTable (T i) (T' i)) →
      Definite S A O T q →
      ∃ F F', splQuery S A O T q = some F ∧ textRows S A O' T' text = some F' ∧ F.cols = cols ∧ SameTable F F' ∧
        (ordered = true → F'.rows = F.rows)

theorem query_of_steps (x : Ext) {d : DF} {e : PyE} {q cs : List Command} {s : St} (hr : runCmds ⟨.disallow, x⟩ q ⟨1, none⟩ = some s)
    (hd : s.df = some d) (ht : progTree d = some ⟨[], e⟩) :
    ∃ text, renderPipeline ⟨.disallow, x⟩ q = some text ∧ ∀ S A O T, textRows S A O T text = frameEval S A O T e := by
  refine ⟨d.render.text, ?_, fun S A O T => ?_⟩
  · simp only [renderPipeline, hr, Option.map_some, hd]
  · rw [textRows, read_prog ht]

/-- A query that is translated, from any state, to one program that computes the rows described. -/
def Translates (x : Ext) (colsOf : Str → List Str) (q : List Command) (ordered : Bool) (cols : List Str) : Prop :=
  ∃ e, (∀ n, ∃ s, runCmds ⟨.disallow, x⟩ q ⟨n, none⟩ = some s ∧ s.df = some s.cur ∧ progTree s.cur = some ⟨[], e⟩) ∧
    ∀ (S : Sem) (A : Aggs) (O O' : Arrangement) (T T' : Str → Frame), (∀ i, (T i).cols = colsOf i) → (∀ i, SameTable (T i) (T' i)) →
      Definite S A O T q →
      ∃ F F', splQuery S A O T q = some F ∧ frameEval S A O' T' e = some F' ∧ Same ordered F F' ∧ F.cols = cols

theorem Translates.computes {x : Ext} {colsOf : Str → List Str} {q : List Command} {o : Bool} {cols : List Str}
    (h : Translates x colsOf q o cols) : ∃ text, ComputesRows x colsOf q o cols text := by
  obtain ⟨e, h1, h2⟩ := h
  obtain ⟨s, k1, k2, k3⟩ := h1 1
  refine ⟨s.cur.render.text, ?_, fun S A O O' T T' hc hs hd => ?_⟩
  · simp only [renderPipeline, k1, Option.map_some, k2]
  · obtain ⟨F, F', g1, g2, g3, g4⟩ := h2 S A O O' T T' hc hs hd
    exact ⟨F, F', g1, by rw [textRows, read_prog k3]; exact g2, g4, ⟨g3.1, g3.2.1⟩, g3.2.2⟩

theorem main_start (x : Ext) (hx : Arranges x) {colsOf : Str → List Str} {q : List Command} {o : Bool} {cols : List Str}
    (hq : q ≠ []) (hg : goodCols (colsOf c!"main") = true) (h : fitsCmds false (colsOf c!"main") q = some (o, cols)) :
    ∃ e, (∀ n, ∃ s, runCmds ⟨.disallow, x⟩ q ⟨n, none⟩ = some s ∧ s.df = some s.cur ∧ progTree s.cur = some ⟨[], e⟩) ∧
      ∀ (S : Sem) (A : Aggs) (O O' : Arrangement) (T T' : Str → Frame), (∀ i, (T i).cols = colsOf i) → (∀ i, SameTable (T i) (T' i)) →
        definiteCmds S A O q (T c!"main") →
        ∃ F F', splRun S A O q (T c!"main") = some F ∧ frameEval S A O' T' e = some F' ∧ Same o F F' ∧ F.cols = cols := by
  obtain ⟨tr, h1, h2⟩ := cmds_steps x hx q hg h
  refine ⟨_, fun n => h1 ⟨n, none⟩ (mCall (.name c!"spark") c!"table" [.str c!"main"]) ?_ (Or.inr hq), fun S A O O' T T' hc hs hd => ?_⟩
  · show progTree (.source c!"main") = _
    simp only [progTree, show Plain '\'' c!"main" = true by decide +kernel, if_true]
  have hF : frameEval S A O' T' (mCall (.name c!"spark") c!"table" [.str c!"main"]) = some (T' c!"main") := by
    have : ColsOk (T' c!"main").cols = true := by rw [(hs _).1, hc]; exact goodCols_ok hg
    simp only [mCall, frameEval, and_self, if_true, okFrame, this]
  exact h2 S A O O' T' _ (T c!"main") (T' c!"main") hF ⟨(hs _).1, (hs _).2, by simp⟩ (hc _) hd

theorem index_start (x : Ext) (hx : Arranges x) {colsOf : Str → List Str} {e : Expr} {cs : List Command} {o : Bool} {cols : List Str} {i : Str}
    (hi : (searchTerms e).filterMap indexValue = [i]) (hg : goodCols (colsOf i) = true) (he : FirstFrag e = true)
    (hr : ((searchTerms e).filter fun t => (indexValue t).isNone).all (readsOnly (colsOf i)) = true)
    (h : fitsCmds false (colsOf i) cs = some (o, cols)) :
    Translates x colsOf (.search e :: cs) o cols := by
  obtain ⟨cond, c1, c2, _, c3⟩ := first_split e he
  rw [hi] at c1 c2
  have hpi := c2 i (List.mem_singleton.2 rfl)
  obtain ⟨tr, h1, h2⟩ := cmds_steps x hx cs hg h
  have ho : x.order [i] = [i] := List.perm_singleton.1 (hx [i])
  have hsrc : progTree (.source i) = some ⟨[], mCall (.name c!"spark") c!"table" [.str i]⟩ := by
    simp only [progTree, hpi, if_true]
  have hT : ∀ S A O' (T T' : Str → Frame), (∀ i, (T i).cols = colsOf i) → (∀ i, SameTable (T i) (T' i)) →
      frameEval S A O' T' (mCall (.name c!"spark") c!"table" [.str i]) = some (T' i) := by
    intro S A O' T T' hc hs
    have : ColsOk (T' i).cols = true := by rw [(hs _).1, hc]; exact goodCols_ok hg
    simp only [mCall, frameEval, and_self, if_true, okFrame, this]
  cases cond with
  | none =>
    have ht : ∀ n, transform ⟨.disallow, x⟩ (.search e) ⟨n, none⟩ = some ⟨n, some (.source i)⟩ := by
      intro n
      simp only [transform, dispatch, searchStandalone, c1, dedupStr, List.filter_nil, ho, unionSources, List.foldl_nil, Option.getD_some]
      rfl
    refine ⟨tr (mCall (.name c!"spark") c!"table" [.str i]), fun n => ?_, fun S A O O' T T' hc hs hd => ?_⟩
    · obtain ⟨s', k1, k2, k3⟩ := h1 ⟨n, some (.source i)⟩ _ hsrc (Or.inl rfl)
      exact ⟨s', by simp only [runCmds, ht, k1], k2, k3⟩
    have hk : keepIf (fun r => splSearchAll S r ((searchTerms e).filter fun t => (indexValue t).isNone)) (T i).rows = some (T i).rows := by
      rw [keepIf_filter (g := fun _ => true) fun r _ => c3 S r]
      simp
    simp only [Definite, hi] at hd
    obtain ⟨G, G', g1, g2, g3, g4⟩ := h2 S A O O' T' _ (T i) (T' i) (hT S A O' T T' hc hs) ⟨(hs _).1, (hs _).2, by simp⟩ (hc _) (hd.2 _ hk)
    refine ⟨G, G', ?_, g2, g3, g4⟩
    simp only [splQuery, hi, hk, Option.bind_some]
    exact g1
  | some c =>
    have hrc : readsOnly (colsOf i) c = true := by
      rw [readsOnly, List.all_eq_true]
      intro f hf
      obtain ⟨t, h3, h4⟩ := c3.2.1 f hf
      exact List.all_eq_true.1 (List.all_eq_true.1 hr t h3) f h4
    obtain ⟨p, t, hp, htr, hk, hv⟩ := search_col c3.1 hrc
    have ht : ∀ n, transform ⟨.disallow, x⟩ (.search e) ⟨n, none⟩ = some ⟨n, some (.where_ (.source i) (intoSearch p).unalias)⟩ := by
      intro n
      simp only [transform, dispatch, searchStandalone, c1, dedupStr, List.filter_nil, ho, unionSources, List.foldl_nil, Option.getD_some, hp,
        Option.map_some, DF.mkWhere]
      rfl
    have hs1 : progTree (.where_ (.source i) (intoSearch p).unalias) =
        some ⟨[], mCall (mCall (.name c!"spark") c!"table" [.str i]) c!"where" [t]⟩ := by
      rw [progTree, hsrc]
      simp only [onResult, htr, Option.map_some]
    refine ⟨tr (mCall (mCall (.name c!"spark") c!"table" [.str i]) c!"where" [t]), fun n => ?_, fun S A O O' T T' hc hs hd => ?_⟩
    · obtain ⟨s', k1, k2, k3⟩ := h1 ⟨n, some (.where_ (.source i) (intoSearch p).unalias)⟩ _ hs1 (Or.inl rfl)
      exact ⟨s', by simp only [runCmds, ht, k1], k2, k3⟩
    simp only [Definite, hi] at hd
    let g : Event → Bool := fun r => (splSearch S r c).getD false
    have hg : ∀ r ∈ (T i).rows, splSearch S r c = some (g r) ∧ ((colValue S t r).map fun v => S.truth v == some true) = some (g r) := fun r hr => by
      obtain ⟨b, h1, h2⟩ := hv S r (c3.2.2.2 S r (hd.1 r hr))
      simp only [g, h1, h2, Option.getD_some, and_self]
    have hkeep : keepIf (fun r => splSearchAll S r ((searchTerms e).filter fun t => (indexValue t).isNone)) (T i).rows = some ((T i).rows.filter g) :=
      keepIf_filter fun r hr => by rw [c3.2.2.1 S r]; exact (hg r hr).1
    have hF : frameEval S A O' T' (mCall (mCall (.name c!"spark") c!"table" [.str i]) c!"where" [t]) = some ⟨(T i).cols, (T' i).rows.filter g⟩ := by
      rw [frameEval_method _ (hT S A O' T T' hc hs) (by decide)]
      unfold frameMethod
      rw [if_pos rfl]
      simp only [(hs i).1, hc, hk, if_true, keepIf_filter fun r hr => (hg r ((hs i).2.mem_iff.1 hr)).2]
      rfl
    obtain ⟨G, G', g1, g2, g3, g4⟩ := h2 S A O O' T' _ ⟨(T i).cols, (T i).rows.filter g⟩ _ hF
      ⟨rfl, (hs i).2.filter g, by simp⟩ (hc i) (hd.2 _ hkeep)
    refine ⟨G, G', ?_, g2, g3, g4⟩
    simp only [splQuery, hi, hkeep, Option.bind_some]
    exact g1

theorem translates_query (x : Ext) (hx : Arranges x) (colsOf : Str → List Str) (q : List Command) (ordered : Bool) (cols : List Str)
    (h : fitsQuery colsOf q = some (ordered, cols)) : Translates x colsOf q ordered cols := by
  unfold fitsQuery at h
  split at h
  · cases h
  · rename_i e cs
    split at h
    · rename_i hi
      split at h
      · rename_i hg
        obtain ⟨text, h1, h2⟩ := main_start x hx (q := .search e :: cs) (by simp) hg h
        refine ⟨text, h1, fun S A O O' T T' hc hs hd => ?_⟩
        simp only [Definite, hi] at hd
        simp only [splQuery, hi]
        exact h2 S A O O' T T' hc hs hd
      · cases h
    · rename_i i hi
      split at h
      · rename_i hc
        simp only [Bool.and_eq_true] at hc
        exact index_start x hx hi hc.1.1 hc.1.2 hc.2 h
      · cases h
    · cases h
  · rename_i h1 h2
    split at h
    · rename_i hg
      obtain ⟨text, h3, h4⟩ := main_start x hx (q := q) h1 hg h
      refine ⟨text, h3, fun S A O O' T T' hc hs hd => ?_⟩
      have e1 : Definite S A O T q = definiteCmds S A O q (T c!"main") := by
        unfold Definite
        split
        · exact absurd rfl (h2 _ _)
        · rfl
      have e2 : splQuery S A O T q = splRun S A O q (T c!"main") := by
        unfold splQuery
        split
        · exact absurd rfl (h2 _ _)
        · simp [fitsCmds, fitsCmd] at h
        · rfl
      rw [e1] at hd
      rw [e2]
      exact h4 S A O O' T T' hc hs hd
    · cases h

/-- **C75** (partial).  Every query made of `search`, `where`, `eval`, `rename`, `fields`, `table`, `head`, `sort`, `stats`,
`addtotals` and `spath` in the fragment (`fitsQuery`): the generated program computes, on all tables with the given columns, the columns and the
rows the query describes, in the order described where there is one.
Missing: what `fitsQuery` leaves out, see the disagreements below; `Definite`: rows that are tied in a sort, and rows that
lack a field grouped by. -/
theorem C75_rows_partial (x : Ext) (hx : Arranges x) (colsOf : Str → List Str) (q : List Command) (ordered : Bool) (cols : List Str)
    (h : fitsQuery colsOf q = some (ordered, cols)) : ∃ text, ComputesRows x colsOf q ordered cols text :=
  (translates_query x hx colsOf q ordered cols h).computes

/-- **C75** (partial), from the text of the query. -/
theorem C75_text_partial (x : Ext) (hx : Arranges x) (colsOf : Str → List Str) {q : List Command} {query : Str} (ht : QueryText q query)
    (ordered : Bool) (cols : List Str) (h : fitsQuery colsOf q = some (ordered, cols)) :
    ∃ text, (parse query).bind (renderPipeline ⟨.disallow, x⟩) = some text ∧ ComputesRows x colsOf q ordered cols text := by
  obtain ⟨text, h1, h2⟩ := C75_rows_partial x hx colsOf q ordered cols h
  exact ⟨text, by rw [C69_read_partial ht, Option.bind_some, h1], h1, h2⟩

/-- The columns `_time host status bytes`. -/
def webCols : Str → List Str := fun _ => [c!"_time", c!"host", c!"status", c!"bytes"]

/-- a query in the fragment -/
def webQuery : List Command :=
  [ .search (.binary (.binary (.const (.field c!"index")) c!"=" (.const (.field c!"web"))) c!"AND"
      (.binary (.const (.field c!"status")) c!">=" (.const (.int 400)))),
    .eval [(c!"kb", .binary (.const (.field c!"bytes")) c!"/" (.const (.int 1024)))],
    .where_ (.binary (.const (.field c!"kb")) c!">" (.const (.int 1))),
    .stats ⟨1, false, c!" "⟩ [.call c!"count" [], .alias (.call c!"sum" [.const (.field c!"kb")]) c!"total"] (some [⟨c!"host", none⟩]) false,
    .sort [(some c!"-", .const (.field c!"total"))] 10000 false, .head (.const (.int 5)) false false,
    .rename [(c!"total", c!"kilobytes")], .table [c!"host", c!"kilobytes"] ]

example : parse c!"search index=web status>=400 | eval kb=bytes / 1024 | where kb>1 | stats count sum(kb) AS total BY host | sort -total | head 5 | rename total AS kilobytes | table host, kilobytes" =
      some webQuery ∧
    fitsQuery webCols webQuery = some (true, [c!"host", c!"kilobytes"]) :=
  ⟨isParse_sound (by decide +kernel), by decide +kernel⟩

/-- with NOT, in the first search and later -/
def notQuery : List Command :=
  [ .search (.binary (.binary (.const (.field c!"index")) c!"=" (.const (.field c!"web"))) c!"AND"
      (.unary c!"NOT" (.binary (.const (.field c!"status")) c!"=" (.const (.str c!"OK"))))),
    .search (.binary (.binary (.const (.field c!"bytes")) c!">" (.const (.int 10))) c!"OR"
      (.unary c!"NOT" (.binary (.const (.field c!"host")) c!"=" (.const (.str c!"a"))))),
    .table [c!"host"] ]

example : parse c!"search index=web NOT status=\"OK\" | search bytes>10 OR NOT host=\"a\" | table host" = some notQuery ∧
    fitsQuery webCols notQuery = some (false, [c!"host"]) :=
  ⟨isParse_sound (by decide +kernel), by decide +kernel⟩

/-- Numbers in their order, everything else before them; all aggregates count. -/
def countAggs : Aggs where
  agg _ vs := .num vs.length
  le a b := decide (valKey a ≤ valKey b)
  agg_perm _ _ _ _ h := by rw [h.length_eq]
  le_total a b := by simp only [Bool.or_eq_true, decide_eq_true_eq]; exact Rat.le_total
  le_trans a b c := by simp only [decide_eq_true_eq]; exact Rat.le_trans
where
  /-- the place of a value in the order -/
  valKey : Val → Rat
  | .num n => n
  | _ => 0

/-- and rows that have the fields under NOT, and not all the others -/
example (O : Arrangement) : Definite plainSem countAggs O
    (fun _ => ⟨[c!"host", c!"status", c!"bytes"], [fun f => if f = c!"bytes" then .null else if f = c!"status" then .str c!"DENIED" else .str c!"b"]⟩)
    notQuery := by
  refine ⟨by decide +kernel, fun rows hr => ⟨fun r hm => ?_, fun _ _ => ⟨trivial, fun _ _ => trivial⟩⟩⟩
  have : rows = [fun f => if f = c!"bytes" then .null else if f = c!"status" then .str c!"DENIED" else .str c!"b"] := (Option.some.inj hr).symm
  rw [this, List.mem_singleton] at hm
  subst hm
  decide +kernel

/-- rows on which a sort and a grouping are definite -/
example (O : Arrangement) :
    Definite plainSem countAggs O (fun _ => ⟨[c!"n"], [fun _ => .num 2, fun _ => .num 1]⟩)
      [.sort [(none, .const (.field c!"n"))] 0 false, .stats ⟨1, false, c!" "⟩ [.call c!"count" []] (some [⟨c!"n", none⟩]) false] := by
  have hp := fun F' (h : splCmd plainSem countAggs O ⟨[c!"n"], [fun _ => .num 2, fun _ => .num 1]⟩ (.sort [(none, .const (.field c!"n"))] 0 false) =
      some F') => (Option.some.inj h).symm
  refine ⟨fun ks hk => ?_, fun F' hF => ⟨fun ks hk r hr => ?_, fun _ _ => trivial⟩⟩
  · have := Option.some.inj hk
    subst this
    refine ⟨?_, by simp⟩
    intro a ha b hb
    simp only [List.mem_cons, List.not_mem_nil, or_false] at ha hb
    rcases ha with rfl | rfl <;> rcases hb with rfl | rfl <;> first | (intros; rfl) | (simp [rowLe, splLe, countAggs, countAggs.valKey]; done) | (intro h1 h2; exact absurd h1 (by decide +kernel)) | (intro h1 h2; exact absurd h2 (by decide +kernel))
  · rw [hp F' hF] at hr
    have hr : r ∈ [fun _ => Val.num 2, fun _ => Val.num 1] := ((List.mergeSort_perm _ _).trans (O.perm _)).mem_iff.1 hr
    simp only [List.mem_cons, List.not_mem_nil, or_false] at hr
    rcases hr with rfl | rfl <;> simp

/-! ### what is left out -/

theorem textRows_of {text : Str} {e : PyE} (h : readProg text = some ⟨[], e⟩) (S : Sem) (A : Aggs) (O : Arrangement) (T : Str → Frame) :
    textRows S A O T text = frameEval S A O T e := by
  rw [textRows, h]

/-- Disagreement: `stats ... BY` makes a group of the events that lack the field, which SPL leaves out. -/
theorem C75_null_group (S : Sem) (A : Aggs) (O O' : Arrangement) (T : Str → Frame) (hT : T c!"main" = ⟨[c!"host"], [fun _ => .null]⟩) :
    parse c!"stats count by host" = some [.stats ⟨1, false, c!" "⟩ [.call c!"count" []] (some [⟨c!"host", none⟩]) false] ∧
    renderPipeline ⟨.disallow, Tests.ext⟩ [.stats ⟨1, false, c!" "⟩ [.call c!"count" []] (some [⟨c!"host", none⟩]) false] =
      some c!"spark.table('main').groupBy([\"host\", ]).agg(F.count(F.lit(1)).alias('count'),)" ∧
    (∃ F, splQuery S A O T [.stats ⟨1, false, c!" "⟩ [.call c!"count" []] (some [⟨c!"host", none⟩]) false] = some F ∧ F.rows = []) ∧
    ∃ F', textRows S A O' T c!"spark.table('main').groupBy([\"host\", ]).agg(F.count(F.lit(1)).alias('count'),)" = some F' ∧ F'.rows.length = 1 := by
  refine ⟨isParse_sound (by decide +kernel), by decide +kernel, ?_, ?_⟩
  · refine ⟨⟨[c!"host", c!"count"], O.of []⟩, ?_, List.perm_nil.1 (O.perm [])⟩
    simp only [splQuery, splRun, splCmd, hT]
    rfl
  · rw [textRows_of (e := mCall (mCall (mCall (.name c!"spark") c!"table" [.str c!"main"]) c!"groupBy" [.list [.str c!"host"]]) c!"agg"
      [.call (.attr (fCall c!"count" [fCall c!"lit" [.num c!"1" []]]) c!"alias") [.str c!"count"]]) (by decide +kernel)]
    rw [frameEval_agg (F := ⟨[c!"host"], [fun _ => .null]⟩) _ _ (by
      simp only [mCall, frameEval, and_self, if_true, hT, okFrame]; rfl)]
    refine ⟨⟨[c!"host", c!"count"], O'.of [rowOf [(c!"host", .null), (c!"count", .num 1)]]⟩, rfl, ?_⟩
    exact (O'.perm _).length_eq

/-- Disagreement: `fields` keeps the time of the events, and the generated `select` does not. -/
theorem C75_internal_fields (S : Sem) (A : Aggs) (O O' : Arrangement) (T : Str → Frame) (hT : T c!"main" = ⟨[c!"_time", c!"host"], []⟩) :
    parse c!"fields host" = some [.fields false [c!"host"]] ∧
    renderPipeline ⟨.disallow, Tests.ext⟩ [.fields false [c!"host"]] = some c!"spark.table('main').select(F.col('host'),)" ∧
    splQuery S A O T [.fields false [c!"host"]] = some ⟨[c!"host", c!"_time"], []⟩ ∧
    textRows S A O' T c!"spark.table('main').select(F.col('host'),)" = some ⟨[c!"host"], []⟩ := by
  refine ⟨isParse_sound (by decide +kernel), by decide +kernel, ?_, ?_⟩
  · simp only [splQuery, splRun, splCmd, hT]
    rfl
  · rw [textRows_of (e := mCall (mCall (.name c!"spark") c!"table" [.str c!"main"]) c!"select" [fCall c!"col" [.str c!"host"]]) (by decide +kernel)]
    rw [frameEval_method (F := ⟨[c!"_time", c!"host"], []⟩) _ (by simp only [mCall, frameEval, and_self, if_true, hT, okFrame]; rfl) (by decide)]
    rfl

/-- Disagreement: an aggregate without a name given to it is called `sum(x)` in SPL, and `sum` by the generated code. -/
theorem C75_aggregate_names (S : Sem) (A : Aggs) (O O' : Arrangement) (T : Str → Frame) (hT : T c!"main" = ⟨[c!"x"], []⟩) :
    parse c!"stats sum(x)" = some [.stats ⟨1, false, c!" "⟩ [.call c!"sum" [.const (.field c!"x")]] none false] ∧
    renderPipeline ⟨.disallow, Tests.ext⟩ [.stats ⟨1, false, c!" "⟩ [.call c!"sum" [.const (.field c!"x")]] none false] =
      some c!"spark.table('main').groupBy([]).agg(F.sum(F.col('x')).alias('sum'),)" ∧
    (∃ F, splQuery S A O T [.stats ⟨1, false, c!" "⟩ [.call c!"sum" [.const (.field c!"x")]] none false] = some F ∧ F.cols = [c!"sum(x)"]) ∧
    ∃ F', textRows S A O' T c!"spark.table('main').groupBy([]).agg(F.sum(F.col('x')).alias('sum'),)" = some F' ∧ F'.cols = [c!"sum"] := by
  refine ⟨isParse_sound (by decide +kernel), by decide +kernel, ?_, ?_⟩
  · simp only [splQuery, splRun, splCmd, hT]
    exact ⟨_, rfl, rfl⟩
  · rw [textRows_of (e := mCall (mCall (mCall (.name c!"spark") c!"table" [.str c!"main"]) c!"groupBy" [.list []]) c!"agg"
      [.call (.attr (fCall c!"sum" [fCall c!"col" [.str c!"x"]]) c!"alias") [.str c!"sum"]]) (by decide +kernel)]
    rw [frameEval_agg (F := ⟨[c!"x"], []⟩) _ _ (by
      simp only [mCall, frameEval, and_self, if_true, hT, okFrame]; rfl)]
    exact ⟨_, rfl, rfl⟩

/-- Disagreement: in SPL a field no event has is missing everywhere; in Spark a column that is not there is an error. -/
theorem C75_unknown_field (S : Sem) (A : Aggs) (O O' : Arrangement) (T : Str → Frame) (rows : List Event) (hT : T c!"main" = ⟨[c!"b"], rows⟩) :
    parse c!"where isnull(a)" = some [.where_ (.call c!"isnull" [.const (.field c!"a")])] ∧
    renderPipeline ⟨.disallow, Tests.ext⟩ [.where_ (.call c!"isnull" [.const (.field c!"a")])] =
      some c!"spark.table('main').where(F.isnull(F.col('a')),)" ∧
    ((∀ r ∈ rows, r c!"a" = .null) → splQuery S A O T [.where_ (.call c!"isnull" [.const (.field c!"a")])] = some ⟨[c!"b"], rows⟩) ∧
    textRows S A O' T c!"spark.table('main').where(F.isnull(F.col('a')),)" = none := by
  refine ⟨isParse_sound (by decide +kernel), by decide +kernel, fun hr => ?_, ?_⟩
  · simp only [splQuery, splRun, splCmd, hT]
    rw [keepIf_filter (g := fun _ => true) fun r hm => by
      show (splEval S r (.call c!"isnull" [.const (.field c!"a")])).map _ = _
      have : splEval S r (.call c!"isnull" [.const (.field c!"a")]) = some (ofB (some true)) := by
        simp [splEval, splEvals, constVal, splFn, hr r hm, ofB]
      rw [this, Option.map_some, S.truth_ofB]; rfl]
    simp
  · rw [textRows_of (e := mCall (mCall (.name c!"spark") c!"table" [.str c!"main"]) c!"where" [fCall c!"isnull" [fCall c!"col" [.str c!"a"]]])
      (by decide +kernel)]
    rw [frameEval_method (F := ⟨[c!"b"], rows⟩) _ (by simp only [mCall, frameEval, and_self, if_true, hT, okFrame]; rfl) (by decide)]
    rfl

/-- Disagreement: renaming onto a field that is there replaces it in SPL; the generated code leaves two columns of that name
behind, which cannot be read afterwards (and are outside the modelled part). -/
theorem C75_rename_onto (S : Sem) (A : Aggs) (O O' : Arrangement) (T : Str → Frame) (rows : List Event) (hT : T c!"main" = ⟨[c!"a", c!"b"], rows⟩) :
    parse c!"rename a AS b" = some [.rename [(c!"a", c!"b")]] ∧
    renderPipeline ⟨.disallow, Tests.ext⟩ [.rename [(c!"a", c!"b")]] = some c!"spark.table('main').withColumnRenamed('a', 'b',)" ∧
    (∃ F, splQuery S A O T [.rename [(c!"a", c!"b")]] = some F ∧ F.cols = [c!"b"] ∧ F.rows.map (fun r => r c!"b") = rows.map fun r => r c!"a") ∧
    textRows S A O' T c!"spark.table('main').withColumnRenamed('a', 'b',)" = none := by
  refine ⟨isParse_sound (by decide +kernel), by decide +kernel, ?_, ?_⟩
  · simp only [splQuery, splRun, splCmd, hT]
    refine ⟨_, rfl, rfl, ?_⟩
    rw [List.map_map]
    rfl
  · rw [textRows_of (e := mCall (mCall (.name c!"spark") c!"table" [.str c!"main"]) c!"withColumnRenamed" [.str c!"a", .str c!"b"]) (by decide +kernel)]
    rw [frameEval_method (F := ⟨[c!"a", c!"b"], rows⟩) _ (by simp only [mCall, frameEval, and_self, if_true, hT, okFrame]; rfl) (by decide)]
    rfl

/-- Disagreement: SPL sorts the events that lack the field last; Spark sorts nulls first. -/
theorem C75_missing_key (S : Sem) (A : Aggs) (T : Str → Frame) (n : Int) (a b : Event) (ha : a c!"n" = .null) (hb : b c!"n" = .num n)
    (hT : T c!"main" = ⟨[c!"n"], [a, b]⟩) :
    parse c!"sort n" = some [.sort [(none, .const (.field c!"n"))] 10000 false] ∧
    renderPipeline ⟨.disallow, Tests.ext⟩ [.sort [(none, .const (.field c!"n"))] 10000 false] =
      some c!"spark.table('main').orderBy(F.col('n').asc(),).limit(10000,)" ∧
    splQuery S A ⟨id, fun _ => .refl _⟩ T [.sort [(none, .const (.field c!"n"))] 10000 false] = some ⟨[c!"n"], [b, a]⟩ ∧
    textRows S A ⟨id, fun _ => .refl _⟩ T c!"spark.table('main').orderBy(F.col('n').asc(),).limit(10000,)" = some ⟨[c!"n"], [a, b]⟩ := by
  refine ⟨isParse_sound (by decide +kernel), by decide +kernel, ?_, ?_⟩
  · have : rowLe (splLe A) [(false, c!"n")] a b = false := by simp [rowLe, splLe, ha, hb]
    have h2 : sortRows (splLe A) ⟨id, fun _ => .refl _⟩ [(false, c!"n")] [a, b] = [b, a] := by
      simp [sortRows, List.mergeSort, List.MergeSort.Internal.splitInTwo, this]
    simp only [splQuery, splRun, splCmd, hT]
    rw [show each (splSortKey false) [(none, Expr.const (.field c!"n"))] = some [(false, c!"n")] from rfl]
    simp only [Option.map_some, h2]
    rfl
  · have : rowLe (sparkLe A) [(false, c!"n")] a b = true := by simp [rowLe, sparkLe, ha, hb]
    have h2 : sortRows (sparkLe A) ⟨id, fun _ => .refl _⟩ [(false, c!"n")] [a, b] = [a, b] := by
      simp [sortRows, List.mergeSort, List.MergeSort.Internal.splitInTwo, this]
    rw [textRows_of (e := mCall (mCall (mCall (.name c!"spark") c!"table" [.str c!"main"]) c!"orderBy" [mCall (fCall c!"col" [.str c!"n"]) c!"asc" []]) c!"limit" [.num c!"10000" []])
      (by decide +kernel)]
    rw [frameEval_method (F := ⟨[c!"n"], [a, b]⟩) _ ?_ (by decide)]
    · rfl
    · rw [frameEval_method (F := ⟨[c!"n"], [a, b]⟩) _ (by simp only [mCall, frameEval, and_self, if_true, hT, okFrame]; rfl) (by decide)]
      unfold frameMethod
      rw [if_neg (by decide), if_neg (by decide), if_neg (by decide), if_neg (by decide), if_neg (by decide), if_pos rfl]
      rw [show each orderKey [mCall (fCall c!"col" [.str c!"n"]) c!"asc" []] = some [(false, c!"n")] from rfl, Option.bind_some, h2]
      rfl

end Verif.Props
