import Verif.Lemmas.RowOps
import Verif.Lemmas.Within
import Verif.Lemmas.ProgText
import Verif.Lemmas.ColumnValues
import Verif.Props.Runtime
/-
What each command of the fragment does to the rows, in SPL and in the generated program.
-/
namespace Verif.Lemmas
open Verif Spl Spec Props Col

/-- the same columns and rows, in the same order if it is known -/
def Same (ordered : Bool) (F F' : Frame) : Prop :=
  F'.cols = F.cols ∧ F'.rows.Perm F.rows ∧ (ordered = true → F'.rows = F.rows)

theorem same_map {o : Bool} {F F' : Frame} (h : Same o F F') (cols : List Str) (g : Event → Event) :
    Same o ⟨cols, F.rows.map g⟩ ⟨cols, F'.rows.map g⟩ :=
  ⟨rfl, h.2.1.map g, fun e => by rw [h.2.2 e]⟩

theorem same_filter {o : Bool} {F F' : Frame} (h : Same o F F') (cols : List Str) (g : Event → Bool) :
    Same o ⟨cols, F.rows.filter g⟩ ⟨cols, F'.rows.filter g⟩ :=
  ⟨rfl, h.2.1.filter g, fun e => by rw [h.2.2 e]⟩

theorem frameEval_method {S : Sem} {A : Aggs} {O : Arrangement} {T : Str → Frame} {e : PyE} {F : Frame} {f : Str} (args : List PyE)
    (he : frameEval S A O T e = some F) (hf : f ≠ c!"agg" ∧ f ≠ c!"unionByName") : frameEval S A O T (mCall e f args) = frameMethod S A O F f args := by
  have hc : ∃ e' g gs, e = .call (.attr e' g) gs := by
    cases e with
    | call c gs =>
      cases c with
      | attr e' g => exact ⟨e', g, gs, rfl⟩
      | _ => simp [frameEval] at he
    | _ => simp [frameEval] at he
  obtain ⟨e', g, gs, rfl⟩ := hc
  rw [mCall, frameEval.eq_def]
  simp only [hf.1, hf.2, and_false, if_false, he, Option.bind_some]

theorem frameEval_union {S : Sem} {A : Aggs} {O : Arrangement} {T : Str → Frame} {e t : PyE} {F G : Frame}
    (he : frameEval S A O T e = some F) (ht : frameEval S A O T t = some G) :
    frameEval S A O T (mCall e c!"unionByName" [t, .kwarg c!"allowMissingColumns" (.name c!"True")]) = okFrame (unionFrame F G) := by
  have hc : ∃ e' g gs, e = .call (.attr e' g) gs := by
    cases e with
    | call c gs =>
      cases c with
      | attr e' g => exact ⟨e', g, gs, rfl⟩
      | _ => simp [frameEval] at he
    | _ => simp [frameEval] at he
  obtain ⟨e', g, gs, rfl⟩ := hc
  rw [mCall, frameEval.eq_def]
  dsimp only
  rw [if_neg (by intro h; exact absurd h.2 (by decide)), if_pos rfl, if_pos ⟨rfl, rfl⟩, he, ht, Option.bind_some, Option.bind_some]

theorem frameEval_agg {S : Sem} {A : Aggs} {O : Arrangement} {T : Str → Frame} {e : PyE} {F : Frame} (ks args : List PyE)
    (he : frameEval S A O T e = some F) :
    frameEval S A O T (mCall (mCall e c!"groupBy" [.list ks]) c!"agg" args) =
      (each keyName ks).bind fun ks => (each aliasOf args).bind fun ns =>
          if ks.all F.cols.contains && args.all (known F.cols) then
            (groupRows O ks F.rows fun g => each (sparkNamed S A g) args).bind fun rows => okFrame ⟨ks ++ ns, rows⟩
          else none := by
  rw [mCall, mCall, frameEval.eq_def]; dsimp only; rw [ if_pos ⟨rfl, rfl⟩]
  simp only [he, Option.bind_some]

/-- An expression of the fragment, its code, and its value. -/
theorem frag_col {cols : List Str} {e : Expr} (h : Frag .disallow e = true) (hr : readsOnly cols e = true) :
    ∃ p t, exprTr .disallow e = some p ∧ pyTree p.unalias = some t ∧ known cols t = true ∧
      ∀ S row, ∃ v, splEval S row e = some v ∧ colValue S t row = some v := by
  obtain ⟨p, f, hp, ⟨⟨_, hm⟩, _, hs⟩⟩ := frag_means .disallow e h
  obtain ⟨t, ht, hv⟩ := hm
  refine ⟨p, t, hp, ht, ?_, fun S row => ⟨_, hs S row, ?_⟩⟩
  · rw [known, List.all_eq_true]
    intro c hc
    exact List.all_eq_true.1 hr c (refs_expr hp ht c hc)
  · obtain ⟨o, h1, h2, h3⟩ := hv S row
    rw [colValue, h1, Option.bind_some, if_pos h2, h3]

/-- A condition of a search, its code, and its value. -/
theorem search_col {cols : List Str} {e : Expr} (h : SearchFrag true e = true) (hr : readsOnly cols e = true) :
    ∃ p t, exprTr .disallow e = some p ∧ pyTree (intoSearch p).unalias = some t ∧ known cols t = true ∧
      ∀ S row, NotsDecided S row e = true → ∃ b, splSearch S row e = some b ∧ ((colValue S t row).map fun v => S.truth v == some true) = some b := by
  obtain ⟨p, t, hp, ht, hk, hv⟩ := frag_col (searchFrag_frag .disallow e h) hr
  have hf := searchFrag_fixed .disallow e h p hp
  refine ⟨p, t, hp, by rw [fixed_search hf, ← hf.1]; exact ht, hk, fun S row hn => ?_⟩
  obtain ⟨b, h1, h2⟩ := splSearch_nots S row e h hn
  obtain ⟨v, h3, h4⟩ := hv S row
  rw [h1] at h3
  refine ⟨_, h2, ?_⟩
  rw [h4, ← Option.some.inj h3, Option.map_some, S.truth_ofB]

theorem splSearchAll_append (S : Sem) (row : Event) : ∀ l r, splSearchAll S row (l ++ r) =
    (splSearchAll S row l).bind fun a => (splSearchAll S row r).map fun b => a && b
  | [], r => by simp only [List.nil_append, splSearchAll, Option.bind_some, Bool.true_and]; simp
  | e :: l, r => by
    rw [List.cons_append, splSearchAll, splSearchAll_append S row l r, splSearchAll]
    cases splSearch S row e <;> cases splSearchAll S row l <;> cases splSearchAll S row r <;> simp [Bool.and_assoc]

theorem splSearchAll_terms {neg : Bool} (S : Sem) (row : Event) : ∀ e, SearchFrag neg e = true →
    splSearchAll S row (searchTerms e) = splSearch S row e := by
  have one : ∀ e, splSearchAll S row [e] = splSearch S row e := by
    intro e
    simp only [splSearchAll, Option.map_some, Bool.and_true]
    cases splSearch S row e <;> rfl
  refine searchFrag_cases ?_ ?_ ?_ ?_ ?_
  · intro f op p _ _ ho _
    rw [searchTerms, if_neg (by intro e; subst e; simp [FragWildOp] at ho), one]
  · intro f op k _ _ ho _
    rw [searchTerms, if_neg (by intro e; subst e; simp [searchOps] at ho), one]
  · intro l op r ho hl hr i1 i2
    rw [searchTerms]
    by_cases ha : op = c!"AND"
    · subst ha
      rw [if_pos rfl, splSearchAll_append, i1, i2, splSearch_conn S row _ (searchFrag_notConst hl), if_pos (by decide)]
    · rw [if_neg ha, one]
  · intro r _ _ _
    exact one _
  · intro f es _ _ _
    exact one _

/-! ### commands -/

/-- A command of the fragment: what it makes of the program, and of the rows on both sides. -/
def Steps (x : Ext) (c : Command) (ordered : Bool) (cols : List Str) (ordered' : Bool) (cols' : List Str) : Prop :=
  (goodCols cols = true → goodCols cols' = true) ∧ ∃ tr : PyE → PyE,
    (∀ s e, progTree s.cur = some ⟨[], e⟩ → ∃ s', transform ⟨.disallow, x⟩ c s = some s' ∧ s'.df = some s'.cur ∧
      progTree s'.cur = some ⟨[], tr e⟩) ∧
    ∀ (S : Sem) (A : Aggs) (O O' : Arrangement) (T' : Str → Frame) (e : PyE) (F F' : Frame), frameEval S A O' T' e = some F' →
      Same ordered F F' → F.cols = cols → goodCols cols = true → definiteCmd S A F c →
      ∃ G G', splCmd S A O F c = some G ∧ frameEval S A O' T' (tr e) = some G' ∧ Same ordered' G G' ∧ G.cols = cols'

theorem where_steps (x : Ext) {o : Bool} {cols : List Str} {e : Expr} (h : Frag .disallow e = true) (hr : readsOnly cols e = true) :
    Steps x (.where_ e) o cols o cols := by
  obtain ⟨p, t, hp, ht, hk, hv⟩ := frag_col h hr
  refine ⟨id, fun e => mCall e c!"where" [t], fun s e he => ⟨s.put (.where_ s.cur p.unalias), ?_, rfl, ?_⟩, ?_⟩
  · simp only [transform, dispatch, whereTr, hp, Option.map_some, DF.mkWhere]
  · show progTree (.where_ s.cur p.unalias) = _
    simp only [progTree, he, onResult, ht, Option.map_some]
  · intro S A O O' T' e' F F' hF hs hc hg _
    have h1 : ∀ r, ∃ b, ((splEval S r e).map fun v => S.truth v == some true) = some b ∧
        ((colValue S t r).map fun v => S.truth v == some true) = some b := fun r => by
      obtain ⟨v, a, b⟩ := hv S r
      exact ⟨_, by rw [a, Option.map_some], by rw [b, Option.map_some]⟩
    let g : Event → Bool := fun r => (h1 r).choose
    refine ⟨⟨F.cols, F.rows.filter g⟩, ⟨F.cols, F'.rows.filter g⟩, ?_, ?_, same_filter hs _ g, hc⟩
    · rw [splCmd, keepIf_filter fun r _ => (h1 r).choose_spec.1]; rfl
    · rw [frameEval_method _ hF (by decide)]
      unfold frameMethod
      rw [if_pos rfl]
      simp only [hs.1, hc, hk, if_true, keepIf_filter fun r _ => (h1 r).choose_spec.2]; rfl

theorem search_steps (x : Ext) (hx : Arranges x) {o : Bool} {cols : List Str} {e : Expr} (h : SearchFrag true e = true)
    (hr : readsOnly cols e = true) (hsp : splitConditions true e = some (some e, [])) : Steps x (.search e) o cols o cols := by
  obtain ⟨p, t, hp, ht, hk, hv⟩ := search_col h hr
  have ho : x.order [] = [] := List.perm_nil.1 (hx [])
  refine ⟨id, fun e => mCall e c!"where" [t], fun s e he => ⟨s.put (.where_ s.cur (intoSearch p).unalias), ?_, rfl, ?_⟩, ?_⟩
  · simp only [transform, dispatch, searchStandalone, hsp, hp, Option.map_some, dedupStr, ho, unionSources, Option.getD_none, DF.mkWhere]
  · show progTree (.where_ s.cur (intoSearch p).unalias) = _
    simp only [progTree, he, onResult, ht, Option.map_some]
  · intro S A O O' T' e' F F' hF hs hc hg hd
    let g : Event → Bool := fun r => (splSearch S r e).getD false
    have hg : ∀ r ∈ F.rows, splSearch S r e = some (g r) ∧ ((colValue S t r).map fun v => S.truth v == some true) = some (g r) := fun r hr => by
      obtain ⟨b, h1, h2⟩ := hv S r (hd r hr)
      simp only [g, h1, h2, Option.getD_some, and_self]
    refine ⟨⟨F.cols, F.rows.filter g⟩, ⟨F.cols, F'.rows.filter g⟩, ?_, ?_, same_filter hs _ g, hc⟩
    · rw [splCmd, keepIf_filter fun r hr => by rw [splSearchAll_terms S r e h]; exact (hg r hr).1]; rfl
    · rw [frameEval_method _ hF (by decide)]
      unfold frameMethod
      rw [if_pos rfl]
      simp only [hs.1, hc, hk, if_true, keepIf_filter fun r hr => (hg r (hs.2.1.mem_iff.1 hr)).2]; rfl

theorem goodCols_ok {cols : List Str} (h : goodCols cols = true) : ColsOk cols = true := by
  simp only [goodCols, Bool.and_eq_true] at h
  exact h.1

theorem goodCols_plain {cols : List Str} (h : goodCols cols = true) {n : Str} (hn : n ∈ cols) :
    Plain '\'' n = true ∧ Plain '"' n = true := by
  simp only [goodCols, Bool.and_eq_true, List.all_eq_true] at h
  exact h.2 n hn

theorem mem_addCol (cols : List Str) (n : Str) : n ∈ addCol cols n := by
  unfold addCol
  split <;> simp_all

theorem assign_steps : ∀ (as : List (Str × Expr)) {cols cols' : List Str}, fitsAssign cols as = some cols' → goodCols cols = true →
    goodCols cols' = true ∧ ∃ tr : PyE → PyE,
      (∀ d e, progTree d = some ⟨[], e⟩ → ∃ d', evalLoop .disallow as d = some d' ∧ progTree d' = some ⟨[], tr e⟩) ∧
      ∀ (S : Sem) (A : Aggs) (O' : Arrangement) (T' : Str → Frame) (e : PyE) (o : Bool) (F F' : Frame),
        frameEval S A O' T' e = some F' → Same o F F' → F.cols = cols →
        ∃ G G', splAssign S as F = some G ∧ frameEval S A O' T' (tr e) = some G' ∧ Same o G G' ∧ G.cols = cols'
  | [], cols, cols', h, hg => by
    simp only [fitsAssign, Option.some.injEq] at h
    subst h
    exact ⟨hg, id, fun d e he => ⟨d, rfl, he⟩, fun S A O' T' e o F F' hF hs hc => ⟨F, F', rfl, hF, hs, hc⟩⟩
  | (n, e) :: rest, cols, cols', h, hg => by
    rw [fitsAssign] at h
    split at h
    · rename_i hf
      simp only [Bool.and_eq_true] at hf
      obtain ⟨⟨h1, h2⟩, h3⟩ := hf
      obtain ⟨g', tr, i1, i2⟩ := assign_steps rest h h3
      obtain ⟨p, t, hp, ht, hk, hv⟩ := frag_col h1 h2
      refine ⟨g', fun e => tr (mCall e c!"withColumn" [.str n, t]), fun d e he => ?_, ?_⟩
      · refine (i1 (d.mkWithColumn n p) (mCall e c!"withColumn" [.str n, t]) ?_).imp fun d' hd => ⟨?_, hd.2⟩
        · simp only [DF.mkWithColumn, progTree, he, onResult, ht, (goodCols_plain h3 (mem_addCol cols n)).1, if_true, Option.map_some]
        · rw [evalLoop]
          simp only [hp, exprTr_isCol hp, if_true]
          exact hd.1
      · intro S A O' T' e' o F F' hF hs hc
        let g : Event → Event := fun r => setField r n (hv S r).choose
        have hF' : frameEval S A O' T' (mCall e' c!"withColumn" [.str n, t]) = some ⟨addCol F.cols n, F'.rows.map g⟩ := by
          rw [frameEval_method _ hF (by decide)]
          unfold frameMethod
          rw [if_neg (by decide), if_pos rfl]
          simp only [hs.1, hc, hk, if_true]
          rw [each_map (g := g) fun r _ => by rw [(hv S r).choose_spec.2]; rfl, Option.bind_some, okFrame, if_pos (goodCols_ok h3)]
        obtain ⟨G, G', k1, k2, k3, k4⟩ := i2 S A O' T' _ o ⟨addCol F.cols n, F.rows.map g⟩ _ hF' (same_map hs _ g) (by rw [hc])
        refine ⟨G, G', ?_, k2, k3, k4⟩
        rw [splAssign, each_map (g := g) fun r _ => by rw [(hv S r).choose_spec.1]; rfl, Option.bind_some]
        exact k1
    · cases h

theorem eval_steps (x : Ext) {o : Bool} {as : List (Str × Expr)} {cols cols' : List Str} (h : fitsAssign cols as = some cols')
    : goodCols cols = true → Steps x (.eval as) o cols o cols' := by
  intro hg
  obtain ⟨g', tr, h1, h2⟩ := assign_steps as h hg
  refine ⟨fun _ => g', tr, fun s e he => ?_, ?_⟩
  · obtain ⟨d', h3, h4⟩ := h1 s.cur e he
    exact ⟨s.put d', by simp only [transform, dispatch, evalStandalone, h3, Option.map_some], rfl, h4⟩
  · intro S A O O' T' e F F' hF hs hc _ _
    obtain ⟨G, G', k1, k2, k3, k4⟩ := h2 S A O' T' e o F F' hF hs hc
    exact ⟨G, G', k1, k2, k3, k4⟩

theorem renamed_step {o n : Str} {rest : List (Str × Str)} (hon : o ≠ n)
    (h : ∀ a ∈ rest, a.1 ≠ o ∧ a.1 ≠ n ∧ a.2 ≠ o ∧ a.2 ≠ n) :
    (∀ c, renamedCol ((o, n) :: rest) c = renamedCol rest (if c = o then n else c)) ∧
    ∀ r, renamedRow ((o, n) :: rest) r = renamedRow rest fun m => if m = n then r o else if m = o then .null else r m := by
  have f1 : rest.find? (fun a => decide (a.1 = n)) = none := by
    rw [List.find?_eq_none]
    intro a ha
    simpa using (h a ha).2.1
  have f2 : rest.find? (fun a => decide (a.2 = n)) = none := by
    rw [List.find?_eq_none]
    intro a ha
    simpa using (h a ha).2.2.2
  have f3 : n ∉ rest.map Prod.fst := by
    intro hm
    obtain ⟨a, ha, e⟩ := List.mem_map.1 hm
    exact (h a ha).2.1 e
  refine ⟨fun c => ?_, fun r => funext fun m => ?_⟩
  · unfold renamedCol
    by_cases hc : c = o
    · subst hc
      simp [f1]
    · have : ¬ o = c := fun e => hc e.symm
      simp [hc, this]
  · unfold renamedRow
    by_cases hm : n = m
    · subst hm
      simp only [List.find?_cons, decide_true, f2, f3, if_true, if_false]
    · have hm' : ¬ m = n := fun e => hm e.symm
      simp only [List.find?_cons, hm, decide_false, List.map_cons, List.mem_cons, hm', if_false]
      cases hf : rest.find? fun a => decide (a.2 = m) with
      | some a =>
        have ha := h a (List.mem_of_find?_eq_some hf)
        simp only [ha.1, ha.2.1, if_false]
      | none =>
        by_cases h1 : m = o
        · simp [h1]
        · simp only [h1, false_or, if_false]

theorem rename_steps_aux : ∀ (as : List (Str × Str)) {cols cols' : List Str}, fitsRename cols as = some cols' → goodCols cols = true →
    goodCols cols' = true ∧ ∃ tr : PyE → PyE,
      (∀ d e, progTree d = some ⟨[], e⟩ → progTree (as.foldl (fun d a => .withColumnRenamed d a.1 a.2) d) = some ⟨[], tr e⟩) ∧
      cols' = cols.map (renamedCol as) ∧
      ∀ (S : Sem) (A : Aggs) (O' : Arrangement) (T' : Str → Frame) (e : PyE) (F' : Frame),
        frameEval S A O' T' e = some F' → F'.cols = cols →
        frameEval S A O' T' (tr e) = some ⟨cols', F'.rows.map (renamedRow as)⟩
  | [], cols, cols', h, hg => by
    simp only [fitsRename, Option.some.injEq] at h
    subst h
    refine ⟨hg, id, fun d e he => he, ?_, fun S A O' T' e F' hF hc => ?_⟩
    · rw [show renamedCol [] = id from rfl, List.map_id]
    · rw [show renamedRow [] = id from rfl, List.map_id, ← hc]
      exact hF
  | (o, n) :: rest, cols, cols', h, hg => by
    rw [fitsRename] at h
    split at h
    · rename_i hf
      simp only [Bool.and_eq_true, List.all_eq_true, bne_iff_ne, ne_eq, List.contains_iff_mem] at hf
      obtain ⟨⟨⟨h1, h2⟩, h3⟩, h4⟩ := hf
      obtain ⟨g', tr, i1, i2, i3⟩ := rename_steps_aux rest h h3
      obtain ⟨r1, r2⟩ := renamed_step (rest := rest) h2 fun a ha => by
        have := h4 a ha
        exact ⟨this.1.1.1, this.1.1.2, this.1.2, this.2⟩
      refine ⟨g', fun e => tr (mCall e c!"withColumnRenamed" [.str o, .str n]), fun d e he => ?_, ?_, ?_⟩
      · rw [List.foldl_cons]
        refine i1 _ _ ?_
        have hn : n ∈ cols.map (fun c => if c = o then n else c) := List.mem_map.2 ⟨o, h1, by simp⟩
        simp only [progTree, he, onResult, (goodCols_plain hg h1).1, (goodCols_plain h3 hn).1, Bool.and_self, if_true, Option.map_some]
      · rw [i2, List.map_map]
        refine List.map_congr_left fun c _ => ?_
        rw [r1]; rfl
      · intro S A O' T' e F' hF hc
        have hF' : frameEval S A O' T' (mCall e c!"withColumnRenamed" [.str o, .str n]) =
            some ⟨cols.map fun c => if c = o then n else c, F'.rows.map fun r m => if m = n then r o else if m = o then .null else r m⟩ := by
          rw [frameEval_method _ hF (by decide)]
          unfold frameMethod
          rw [if_neg (by decide), if_neg (by decide), if_pos rfl]
          simp only [hc, if_pos h1, okFrame, if_pos (goodCols_ok h3)]
        rw [i3 S A O' T' _ _ hF' rfl, List.map_map]
        congr 2
        refine List.map_congr_left fun r _ => ?_
        rw [r2]; rfl
    · cases h

theorem nodup_of_lower {l : List Str} (h : (l.map lower).Nodup) : l.Nodup := by
  induction l with
  | nil => exact List.nodup_nil
  | cons a l ih =>
    rw [List.map_cons, List.nodup_cons] at h
    rw [List.nodup_cons]
    exact ⟨fun ha => h.1 (List.mem_map_of_mem ha), ih h.2⟩

theorem new_of_nodup {o n : Str} (hon : o ≠ n) : ∀ {cols : List Str}, o ∈ cols → (cols.map fun c => if c = o then n else c).Nodup → n ∉ cols
  | [], _, _ => by simp
  | c :: cs, ho, hd => by
    rw [List.map_cons, List.nodup_cons] at hd
    rw [List.mem_cons] at ho ⊢
    rintro (e | e)
    · subst e
      have hc : o ∈ cs := ho.resolve_left hon
      refine hd.1 (List.mem_map.2 ⟨o, hc, ?_⟩)
      simp
    · rcases ho with rfl | ho
      · refine hd.1 (List.mem_map.2 ⟨n, e, ?_⟩)
        have : ¬ n = o := fun h => hon h.symm
        simp
      · exact new_of_nodup hon ho hd.2 e

theorem fitsRename_new : ∀ (as : List (Str × Str)) {cols cols' : List Str}, fitsRename cols as = some cols' → ∀ a ∈ as, a.2 ∉ cols
  | [], _, _, _ => by simp
  | (o, n) :: rest, cols, cols', h => by
    rw [fitsRename] at h
    split at h
    · rename_i hf
      simp only [Bool.and_eq_true, List.all_eq_true, bne_iff_ne, ne_eq, List.contains_iff_mem] at hf
      obtain ⟨⟨⟨h1, h2⟩, h3⟩, h4⟩ := hf
      have hok := goodCols_ok h3
      simp only [ColsOk, Bool.and_eq_true, decide_eq_true_eq] at hok
      intro a ha
      rcases List.mem_cons.1 ha with rfl | ha
      · exact new_of_nodup h2 h1 (nodup_of_lower hok.2)
      · intro hm
        refine fitsRename_new rest h a ha (List.mem_map.2 ⟨a.2, hm, ?_⟩)
        rw [if_neg (h4 a ha).1.2]
    · cases h

theorem renamedCols_new {as : List (Str × Str)} {cols : List Str} (h : ∀ a ∈ as, a.2 ∉ cols) : renamedCols as cols = cols.map (renamedCol as) := by
  unfold renamedCols
  congr 1
  rw [List.filter_eq_self]
  intro c hc
  have : c ∉ as.map Prod.snd := by
    intro hm
    obtain ⟨a, ha, rfl⟩ := List.mem_map.1 hm
    exact h a ha hc
  simp only [this, not_false_eq_true, or_true, decide_true]

theorem rename_steps (x : Ext) {o : Bool} {as : List (Str × Str)} {cols cols' : List Str} (h : fitsRename cols as = some cols')
    (hg : goodCols cols = true) : Steps x (.rename as) o cols o cols' := by
  obtain ⟨g', tr, h1, h2, h3⟩ := rename_steps_aux as h hg
  refine ⟨fun _ => g', tr, fun s e he => ⟨_, rfl, rfl, h1 s.cur e he⟩, ?_⟩
  intro S A O O' T' e F F' hF hs hc _ _
  have hn : renamedCols as F.cols = cols' := by rw [hc, renamedCols_new (fitsRename_new as h), h2]
  refine ⟨_, _, rfl, h3 S A O' T' e F' hF (by rw [hs.1, hc]), ?_, hn⟩
  rw [hn]
  exact same_map hs _ _

theorem pyTrees_named : ∀ {fs : List Str}, (∀ n ∈ fs, Plain '\'' n = true) →
    pyTrees (fs.map .named) = some (fs.map fun n => fCall c!"col" [.str n])
  | [], _ => rfl
  | n :: fs, h => by
    have := pyTrees_named fun m hm => h m (List.mem_cons_of_mem _ hm)
    simp only [List.map_cons, pyTrees, pyTree, h n (List.mem_cons_self ..), if_true, this]

theorem each_plainCol (fs : List Str) : each plainCol (fs.map fun n => fCall c!"col" [.str n]) = some fs := by
  induction fs with
  | nil => rfl
  | cons n fs ih =>
    rw [List.map_cons, each, ih]
    simp [fCall, plainCol]

theorem select_steps {x : Ext} {o : Bool} {cols fs : List Str} {c : Command} (h : fitsSelect cols fs = true)
    (ht : ∀ s, transform ⟨.disallow, x⟩ c s = some (s.put (.select s.cur (fs.map .named))))
    (hc : ∀ S A O (F : Frame), F.cols = cols → splCmd S A O F c = some ⟨fs, F.rows.map (onlyFields fs)⟩) :
    Steps x c o cols o fs := by
  simp only [fitsSelect, Bool.and_eq_true, bne_iff_ne, ne_eq] at h
  obtain ⟨⟨h1, h2⟩, h3⟩ := h
  refine ⟨fun _ => h3, fun e => mCall e c!"select" (fs.map fun n => fCall c!"col" [.str n]), fun s e he => ⟨_, ht s, rfl, ?_⟩, ?_⟩
  · show progTree (.select s.cur (fs.map .named)) = _
    have : (fs.map PE.named).isEmpty = false := by
      cases fs with
      | nil => exact absurd rfl h1
      | cons => rfl
    simp only [progTree, he, onResult, colTrees, this, pyTrees_named fun n hn => (goodCols_plain h3 hn).1, Option.map_some]
    rfl
  · intro S A O O' T' e F F' hF hs hcols _ _
    refine ⟨_, ⟨fs, F'.rows.map (onlyFields fs)⟩, hc S A O F hcols, ?_, same_map hs _ _, rfl⟩
    rw [frameEval_method _ hF (by decide)]
    unfold frameMethod
    rw [if_neg (by decide), if_neg (by decide), if_neg (by decide), if_pos rfl,
      each_plainCol, Option.bind_some, hs.1, hcols, if_pos h2, okFrame, if_pos (goodCols_ok h3)]

theorem fields_steps (x : Ext) {o : Bool} {cols fs : List Str} (h : fitsSelect cols fs = true)
    (hi : ∀ i ∈ internalFields, i ∉ cols ∨ i ∈ fs) : Steps x (.fields false fs) o cols o fs := by
  refine select_steps h (fun s => rfl) fun S A O F hc => ?_
  have : internalFields.filter (fun i => i ∈ F.cols ∧ i ∉ fs) = [] := by
    rw [List.filter_eq_nil_iff]
    intro i hm
    rw [hc]
    rcases hi i hm with h | h <;> simp [h]
  rw [splCmd, if_neg (by decide)]
  simp only [this, List.append_nil]

theorem table_steps (x : Ext) {o : Bool} {cols fs : List Str} (h : fitsSelect cols fs = true) : Steps x (.table fs) o cols o fs :=
  select_steps h (fun s => rfl) fun S A O F _ => rfl

theorem limit_eval {S : Sem} {A : Aggs} {O : Arrangement} {T : Str → Frame} {e : PyE} {F : Frame}
    (he : frameEval S A O T e = some F) (n : Nat) :
    frameEval S A O T (mCall e c!"limit" [natTree n]) = some ⟨F.cols, F.rows.take n⟩ := by
  rw [frameEval_method _ he (by decide)]
  unfold frameMethod
  rw [if_neg (by decide), if_neg (by decide), if_neg (by decide), if_neg (by decide),
    if_pos rfl]
  simp only [natTree, digitsVal_showNat]

theorem toU64_nat {n : Int} (h0 : 0 ≤ n) (h1 : n < 2 ^ 63) : toU64 n = n.toNat := by
  unfold toU64
  omega

theorem head_steps (x : Ext) {cols : List Str} {n : Int} (h0 : 0 ≤ n) (h1 : n < 2 ^ 63) (kl nl : Bool) :
    Steps x (.head (.const (.int n)) kl nl) true cols true cols := by
  refine ⟨id, fun e => mCall e c!"limit" [natTree n.toNat], fun s e he => ⟨s.put (.limit s.cur (toU64 n)), rfl, rfl, ?_⟩, ?_⟩
  · show progTree (.limit s.cur (toU64 n)) = _
    simp only [progTree, he, onResult, toU64_nat h0 h1, Option.map_some]
  · intro S A O O' T' e F F' hF hs hc hg _
    have hr := hs.2.2 rfl
    refine ⟨⟨F.cols, F.rows.take n.toNat⟩, _, ?_, limit_eval hF _, ?_, hc⟩
    · rw [splCmd, if_pos h0]
    · rw [hs.1, hr]
      exact ⟨rfl, List.Perm.refl _, fun _ => rfl⟩

/-! ### sort -/

theorem sortKeys_tree (reversed : Bool) : ∀ {keys : List (Option Str × Expr)} {ks : List RowKey},
    each (splSortKey reversed) keys = some ks → (∀ k ∈ ks, Plain '\'' k.2 = true) →
    ∃ cs, sortKeys reversed keys = some cs ∧ cs.length = ks.length ∧
      ∃ ts, pyTrees cs = some ts ∧ each orderKey ts = some ks
  | [], ks, h, _ => by
    simp only [each, Option.some.injEq] at h
    subst h
    exact ⟨[], rfl, rfl, [], rfl, rfl⟩
  | (sign, e) :: keys, ks, h, hp => by
    rw [each] at h
    cases hk : splSortKey reversed (sign, e) with
    | none => rw [hk] at h; cases h
    | some k =>
      rw [hk, Option.bind_some, Option.map_eq_some_iff] at h
      obtain ⟨ks', h1, rfl⟩ := h
      obtain ⟨cs, i1, i2, ts, i3, i4⟩ := sortKeys_tree reversed h1 fun k hk => hp k (List.mem_cons_of_mem _ hk)
      have hf : ∃ f d, e = .const (.field f) ∧ k = (d, f) ∧ sortDir (.named f) sign reversed = some (.method (.named f) (if d then c!"desc" else c!"asc") []) := by
        unfold splSortKey at hk
        split at hk
        · rename_i sg f heq
          cases heq
          split at hk
          · rename_i hs
            refine ⟨f, reversed, rfl, (Option.some.inj hk).symm, ?_⟩
            rcases hs with rfl | rfl
            · cases reversed <;> rfl
            · cases reversed <;> rfl
          · split at hk
            · rename_i hs
              subst hs
              refine ⟨f, !reversed, rfl, (Option.some.inj hk).symm, ?_⟩
              cases reversed <;> rfl
            · cases hk
        · cases hk
      obtain ⟨f, d, rfl, rfl, h4⟩ := hf
      refine ⟨_ :: cs, by rw [sortKeys]; simp only [sortExpr, h4, i1]; rfl, by simp [i2],
        .call (.attr (fCall c!"col" [.str f]) (if d then c!"desc" else c!"asc")) [] :: ts, ?_, ?_⟩
      · have hpl := hp _ (List.mem_cons_self ..)
        simp only at hpl
        have hi : isIdent (if d then c!"desc" else c!"asc") = true := by cases d <;> decide
        simp only [pyTrees, pyTree, isReceiver, hi, hpl, Bool.and_self, if_true, i3]
      · rw [each, i4]
        cases d <;> simp [orderKey, plainCol, fCall]

theorem sort_steps (x : Ext) {o : Bool} {cols : List Str} {keys : List (Option Str × Expr)} {ks : List RowKey} {count : Int} {reversed : Bool}
    (hk : each (splSortKey reversed) keys = some ks) (hne : ks ≠ []) (hc : ∀ k ∈ ks, k.2 ∈ cols) (h0 : 0 ≤ count) (h1 : count < 2 ^ 63)
    (hg : goodCols cols = true) : Steps x (.sort keys count reversed) o cols true cols := by
  obtain ⟨cs, i1, i2, ts, i3, i4⟩ := sortKeys_tree reversed hk fun k h => (goodCols_plain hg (hc k h)).1
  have hcs : cs.isEmpty = false := by
    cases cs with
    | nil => exact absurd (List.length_eq_zero_iff.1 i2.symm) hne
    | cons => rfl
  have hall : (ks.all fun k => cols.contains k.2) = true := by
    simpa [List.all_eq_true] using fun a b h => hc (a, b) h
  refine ⟨id, fun e => if count = 0 then mCall e c!"orderBy" ts else mCall (mCall e c!"orderBy" ts) c!"limit" [natTree count.toNat],
    fun s e he => ⟨s.put (if count ≠ 0 then .limit (.orderBy s.cur cs) (toU64 count) else .orderBy s.cur cs), by simp only [transform, dispatch, sortTr, i1, Option.map_some], rfl, ?_⟩, ?_⟩
  · have ho : progTree (.orderBy s.cur cs) = some ⟨[], mCall e c!"orderBy" ts⟩ := by
      simp only [progTree, he, onResult, colTrees, hcs, i3, Option.map_some]
      rfl
    by_cases hz : count = 0
    · simp only [hz, if_true, ne_eq, not_true_eq_false, if_false]
      exact ho
    · simp only [hz, if_false, ne_eq, not_false_eq_true, if_true]
      show progTree (.limit (.orderBy s.cur cs) (toU64 count)) = _
      rw [progTree, ho, toU64_nat h0 h1]
      rfl
  · intro S A O O' T' e F F' hF hs hcols _ hd
    have hu := hd ks hk
    have hso := sort_same A O O' ks hs.2.1 hu
    have ho : frameEval S A O' T' (mCall e c!"orderBy" ts) = some ⟨cols, sortRows (splLe A) O ks F.rows⟩ := by
      rw [frameEval_method _ hF (by decide)]
      unfold frameMethod
      rw [if_neg (by decide), if_neg (by decide), if_neg (by decide), if_neg (by decide), if_neg (by decide), if_pos rfl, i4,
        Option.bind_some, hs.1, hcols, if_pos hall, hso]
    let rows := if count = 0 then sortRows (splLe A) O ks F.rows else (sortRows (splLe A) O ks F.rows).take count.toNat
    refine ⟨⟨F.cols, rows⟩, ⟨cols, rows⟩, by rw [splCmd, if_pos h0, hk, Option.map_some], ?_, ⟨hcols.symm, List.Perm.refl _, fun _ => rfl⟩,
      hcols⟩
    by_cases hz : count = 0
    · simp only [rows, hz, if_true]
      exact ho
    · simp only [rows, hz, if_false]
      rw [limit_eval ho]

/-! ### stats -/

theorem agg_value {x : Str} (S : Sem) (rows : List Event) :
    each (colValue S (fCall c!"col" [.str x])) rows = some (rows.map fun r => r x) := by
  refine each_map fun r _ => ?_
  rfl

/-- An aggregate of a field: the translation, its tree, and its value. -/
theorem field_agg {f' : Str} {g : Agg} (hg : g.ordered = false) (hl : sparkAggs.lookup f' = some g) (hc : f' ≠ c!"count")
    (S : Sem) (A : Aggs) (x n : Str) {rows rows' : List Event} (hp : rows'.Perm rows) :
    sparkNamed S A rows' (.call (.attr (fCall f' [fCall c!"col" [.str x]]) c!"alias") [.str n]) =
      some (n, A.agg g (present (rows.map fun r => r x))) := by
  simp only [sparkNamed, fCall, true_and, if_true, sparkAggregate]
  have := agg_value (x := x) S rows'
  rw [fCall] at this
  rw [this, Option.bind_some, if_neg hc, hl, Option.map_some, Option.map_some]
  rw [A.agg_perm g (present (rows'.map fun r : Event => r x)) (present (rows.map fun r : Event => r x)) hg ((hp.map fun r : Event => r x).filter _)]

/-- what an aggregate of the fragment becomes -/
def AggSteps (cols : List Str) (e : Expr) : Prop :=
  ∃ p t n f as, (∀ d, statsExpr .disallow d e = some (d, p)) ∧ splAggName e = some (n, f, as) ∧ (Plain '\'' n = true → pyTree p = some t) ∧
    aliasOf t = some n ∧ known cols t = true ∧
    ∀ (S : Sem) (A : Aggs) (rows rows' : List Event), rows'.Perm rows → ∃ v, splNamed A rows e = some (n, v) ∧ sparkNamed S A rows' t = some (n, v)

theorem count_steps (cols : List Str) (e : Expr) (n : Str) (he : e = .alias (.call c!"count" []) n ∨ (e = .call c!"count" [] ∧ n = c!"count")) :
    AggSteps cols e := by
  refine ⟨.aliased (.fn c!"count" [.lit c!"1"]) n, .call (.attr (fCall c!"count" [fCall c!"lit" [.num c!"1" []]]) c!"alias") [.str n], n,
    c!"count", [], fun d => ?_, ?_, fun hn => ?_, ?_, ?_, ?_⟩
  · rcases he with rfl | ⟨rfl, rfl⟩ <;> rfl
  · rcases he with rfl | ⟨rfl, rfl⟩ <;> rfl
  · simp only [pyTree, hn, isReceiver, Bool.and_self, if_true]
    rfl
  · rfl
  · rfl
  · intro S A rows rows' hp
    refine ⟨.num rows.length, ?_, ?_⟩
    · rcases he with rfl | ⟨rfl, rfl⟩ <;> rfl
    · simp only [sparkNamed, fCall, true_and, if_true, sparkAggregate]
      have : each (colValue S (.call (.attr (.name c!"F") c!"lit") [.num c!"1" []])) rows' = some (rows'.map fun _ => .num 1) :=
        each_map fun r _ => by rfl
      rw [this, Option.bind_some, Option.map_some]
      have h2 : present (rows'.map fun _ => Val.num 1) = rows'.map fun _ => Val.num 1 := by
        unfold present
        rw [List.filter_eq_self]
        intro a ha
        obtain ⟨_, _, rfl⟩ := List.mem_map.1 ha
        decide
      rw [h2, List.length_map, hp.length_eq]

theorem countField_steps {cols : List Str} {x : Str} (n : Str) (hx : x ∈ cols) (hpx : Plain '\'' x = true) :
    AggSteps cols (.alias (.call c!"count" [.const (.field x)]) n) := by
  refine ⟨.aliased (.fn c!"count" [.named x]) n, .call (.attr (fCall c!"count" [fCall c!"col" [.str x]]) c!"alias") [.str n], n,
    c!"count", [.const (.field x)], fun d => rfl, rfl, fun hn => ?_, rfl, ?_, ?_⟩
  · simp only [pyTree, hn, isReceiver, Bool.and_self, if_true, pyTrees, hpx]
    rfl
  · simp [known, colRefs, colRefsL, fCall, textName, hx]
  · intro S A rows rows' hp
    refine ⟨.num (present (rows.map fun r => r x)).length, rfl, ?_⟩
    simp only [sparkNamed, fCall, true_and, if_true, sparkAggregate]
    have := agg_value (x := x) S rows'
    rw [fCall] at this
    rw [this, Option.bind_some, Option.map_some]
    have : (present (rows'.map fun r => r x)).length = (present (rows.map fun r => r x)).length :=
      ((hp.map fun r : Event => r x).filter _).length_eq
    rw [this]

theorem fieldAgg_steps {cols : List Str} {x f f' : Str} {g : Agg} (n : Str) (hx : x ∈ cols) (hpx : Plain '\'' x = true)
    (h1 : splAggs.lookup f = some g) (h2 : sparkAggs.lookup f' = some g) (ho : g.ordered = false) (hc : f ≠ c!"count")
    (hc' : f' ≠ c!"count") (hcol : f' ≠ c!"col") (hf : funcTree f' = some (.attr (.name c!"F") f'))
    (ht : ∀ d, statsExpr .disallow d (.alias (.call f [.const (.field x)]) n) = some (d, .aliased (.fn f' [.named x]) n)) :
    AggSteps cols (.alias (.call f [.const (.field x)]) n) := by
  refine ⟨.aliased (.fn f' [.named x]) n, .call (.attr (fCall f' [fCall c!"col" [.str x]]) c!"alias") [.str n], n,
    f, [.const (.field x)], ht, rfl, fun hn => ?_, rfl, ?_, ?_⟩
  · simp only [pyTree, hn, isReceiver, Bool.and_self, if_true, pyTrees, hpx, hf]
    rfl
  · simp [known, colRefs, colRefsL, fCall, textName, hx, hcol]
  · intro S A rows rows' hp
    refine ⟨A.agg g (present (rows.map fun r => r x)), ?_, field_agg ho h2 hc' S A x n hp⟩
    simp only [splNamed, splAggName, Option.bind_some, splAggregate, if_neg hc, h1, Option.map_some]

theorem fitsAgg_steps {cols : List Str} (hg : goodCols cols = true) {e : Expr} (h : fitsAgg cols e = true) : AggSteps cols e := by
  unfold fitsAgg at h
  split at h
  · simp only [beq_iff_eq] at h
    subst h
    exact count_steps cols _ c!"count" (Or.inr ⟨rfl, rfl⟩)
  · rename_i f args n
    split at h
    · simp only [beq_iff_eq] at h
      subst h
      exact count_steps cols _ n (Or.inl rfl)
    · rename_i x
      simp only [Bool.and_eq_true, Bool.or_eq_true, beq_iff_eq, List.contains_iff_mem] at h
      obtain ⟨hx, hf⟩ := h
      have hpx := (goodCols_plain hg hx).1
      by_cases hc : f = c!"count"
      · subst hc
        exact countField_steps n hx hpx
      · have hf := hf.resolve_left hc
        have key : ∀ g, splAggs.lookup f = some g → g.ordered = false →
            f = c!"avg" ∨ f = c!"mean" ∨ f = c!"dc" ∨ f = c!"distinct_count" ∨ f = c!"max" ∨ f = c!"min" ∨ f = c!"stdev" ∨ f = c!"stdevp" ∨
              f = c!"sum" ∨ f = c!"var" ∨ f = c!"varp" := by
          intro g hl ho
          unfold splAggs at hl
          simp only [List.lookup_cons, List.lookup_nil] at hl
          repeat' split at hl
          all_goals rename_i he
          all_goals first
            | cases hl; done
            | (simp only [beq_iff_eq] at he; simp only [he, true_or, or_true]; done)
            | (cases hl; cases ho)
        rw [Option.any_eq_true] at hf
        obtain ⟨g, hl, ho⟩ := hf
        have ho' : g.ordered = false := by simpa using ho
        rcases key g hl ho' with rfl | rfl | rfl | rfl | rfl | rfl | rfl | rfl | rfl | rfl | rfl
        all_goals
          have hg := Option.some.inj hl
          subst hg
        · exact fieldAgg_steps (f' := c!"avg") n hx hpx rfl rfl rfl (by decide) (by decide) (by decide) rfl fun d => rfl
        · exact fieldAgg_steps (f' := c!"avg") n hx hpx rfl rfl rfl (by decide) (by decide) (by decide) rfl fun d => rfl
        · exact fieldAgg_steps (f' := c!"count_distinct") n hx hpx rfl rfl rfl (by decide) (by decide) (by decide) rfl fun d => rfl
        · exact fieldAgg_steps (f' := c!"count_distinct") n hx hpx rfl rfl rfl (by decide) (by decide) (by decide) rfl fun d => rfl
        · exact fieldAgg_steps (f' := c!"max") n hx hpx rfl rfl rfl (by decide) (by decide) (by decide) rfl fun d => rfl
        · exact fieldAgg_steps (f' := c!"min") n hx hpx rfl rfl rfl (by decide) (by decide) (by decide) rfl fun d => rfl
        · exact fieldAgg_steps (f' := c!"stddev_samp") n hx hpx rfl rfl rfl (by decide) (by decide) (by decide) rfl fun d => rfl
        · exact fieldAgg_steps (f' := c!"stddev_pop") n hx hpx rfl rfl rfl (by decide) (by decide) (by decide) rfl fun d => rfl
        · exact fieldAgg_steps (f' := c!"sum") n hx hpx rfl rfl rfl (by decide) (by decide) (by decide) rfl fun d => rfl
        · exact fieldAgg_steps (f' := c!"var_samp") n hx hpx rfl rfl rfl (by decide) (by decide) (by decide) rfl fun d => rfl
        · exact fieldAgg_steps (f' := c!"var_pop") n hx hpx rfl rfl rfl (by decide) (by decide) (by decide) rfl fun d => rfl
    · cases h
  · cases h

theorem aggs_steps {cols : List Str} (hg : goodCols cols = true) : ∀ {es : List Expr} {ns : List (Str × Str × List Expr)},
    es.all (fitsAgg cols) = true → each splAggName es = some ns → (∀ n ∈ ns.map Prod.fst, Plain '\'' n = true) →
    ∃ ps ts, (∀ d, statsLoop .disallow es d = some (d, ps)) ∧ pyTrees ps = some ts ∧ ps.length = es.length ∧ each aliasOf ts = some (ns.map Prod.fst) ∧
      ts.all (known cols) = true ∧
      ∀ (S : Sem) (A : Aggs) (rows rows' : List Event), rows'.Perm rows → ∃ vs, each (splNamed A rows) es = some vs ∧ each (sparkNamed S A rows') ts = some vs
  | [], ns, _, hn, _ => by
    simp only [each, Option.some.injEq] at hn
    subst hn
    exact ⟨[], [], fun d => rfl, rfl, rfl, rfl, rfl, fun S A rows rows' _ => ⟨[], rfl, rfl⟩⟩
  | e :: es, ns, h, hn, hpl => by
    simp only [List.all_cons, Bool.and_eq_true] at h
    obtain ⟨p, t, n, f, as, a1, a2, a3, a4, a5, a6⟩ := fitsAgg_steps hg h.1
    rw [each, a2, Option.bind_some, Option.map_eq_some_iff] at hn
    obtain ⟨ns', h1, rfl⟩ := hn
    obtain ⟨ps, ts, i1, i2, i3, i4, i5, i6⟩ := aggs_steps hg h.2 h1 fun m hm => hpl m (by
      rw [List.map_cons]; exact List.mem_cons_of_mem _ hm)
    refine ⟨p :: ps, t :: ts, fun d => ?_, ?_, by simp [i3], ?_, ?_, ?_⟩
    · simp only [statsLoop, a1 d, i1 d]
    · simp only [pyTrees, a3 (hpl n (by simp)), i2]
    · rw [each, a4, i4]; rfl
    · simp only [List.all_cons, a5, i5, Bool.and_self]
    · intro S A rows rows' hp
      obtain ⟨v, b1, b2⟩ := a6 S A rows rows' hp
      obtain ⟨vs, b3, b4⟩ := i6 S A rows rows' hp
      exact ⟨(n, v) :: vs, by rw [each, b1, b3]; rfl, by rw [each, b2, b4]; rfl⟩

theorem by_tree : ∀ {fs : List SpField}, (fs.all fun f => f.span.isNone) = true → (∀ n ∈ fs.map SpField.field, Plain '"' n = true) →
    cnTrees (fs.map byField) = some ((fs.map SpField.field).map .str)
  | [], _, _ => rfl
  | f :: fs, h, hp => by
    simp only [List.all_cons, Bool.and_eq_true, Option.isNone_iff_eq_none] at h
    have ih := by_tree h.2 fun n hn => hp n (by rw [List.map_cons]; exact List.mem_cons_of_mem _ hn)
    have h1 := hp f.field (by simp)
    simp only [List.map_cons, cnTrees, byField, h.1, cnTree, h1, if_true, ih]

theorem each_keyName (ks : List Str) : each keyName (ks.map .str) = some ks := by
  induction ks with
  | nil => rfl
  | cons n ks ih => rw [List.map_cons, each, ih]; rfl

theorem stats_steps (x : Ext) {o : Bool} {cols ks : List Str} {so : StatsOpts} {es : List Expr} {by_ : Option (List SpField)} {dd : Bool}
    {ns : List (Str × Str × List Expr)} (hg : goodCols cols = true) (hb : byNames by_ = some ks) (hn : each splAggName es = some ns)
    (ha : so.allNum = false) (hne : es.isEmpty = false) (he : es.all (fitsAgg cols) = true) (hk : ks.all cols.contains = true)
    (hg' : goodCols (ks ++ ns.map Prod.fst) = true) :
    Steps x (.stats so es by_ dd) o cols (ks == []) (ks ++ ns.map Prod.fst) := by
  obtain ⟨ps, ts, i1, i2, i3, i4, i5, i6⟩ := aggs_steps hg he hn fun n h => (goodCols_plain hg' (List.mem_append_right _ h)).1
  have hct : cnTrees ((by_.getD []).map byField) = some (ks.map .str) := by
    cases by_ with
    | none => simp only [byNames, Option.some.injEq] at hb; subst hb; rfl
    | some fs =>
      simp only [byNames] at hb
      split at hb
      · rename_i hs
        simp only [Option.some.injEq] at hb
        subst hb
        exact by_tree hs fun n h => (goodCols_plain hg' (List.mem_append_left _ h)).2
      · cases hb
  have hps : ps.isEmpty = false := by
    cases ps with
    | nil => cases es with
      | nil => cases hne
      | cons => cases i3
    | cons => rfl
  refine ⟨fun _ => hg', fun e => mCall (mCall e c!"groupBy" [.list (ks.map .str)]) c!"agg" ts,
    fun s e h => ⟨s.put (.agg (.groupBy s.cur ((by_.getD []).map byField)) ps), ?_, rfl, ?_⟩, ?_⟩
  · simp only [transform, dispatch, statsStandalone, i1, Option.map_some]
  · show progTree (.agg (.groupBy s.cur ((by_.getD []).map byField)) ps) = _
    simp only [progTree, h, onResult, hct, Option.map_some, colTrees, hps, i2]
    rfl
  · intro S A O O' T' e F F' hF hs hcols _ hd
    have hnn := hd ks hb
    have hfl : F.rows.filter (fun r => ks.all fun k => r k ≠ .null) = F.rows := by
      rw [List.filter_eq_self]
      intro r hr
      rw [List.all_eq_true]
      intro k hk
      simpa using hnn r hr k hk
    obtain ⟨R, R', g1, g2, g3, g4⟩ := group_same O O' ks hs.2.1 (f := fun g => each (splNamed A g) es)
      (f' := fun g => each (sparkNamed S A g) ts) fun g g' hp => i6 S A g g' hp
    refine ⟨⟨ks ++ ns.map Prod.fst, R⟩, ⟨ks ++ ns.map Prod.fst, R'⟩, ?_, ?_, ⟨rfl, g3, fun e => g4 (by simpa using e)⟩, rfl⟩
    · simp only [splCmd, ha, hb, hn, Option.bind_some, hfl, g1, Option.map_some]
      rfl
    · rw [frameEval_agg _ _ hF, each_keyName, i4, Option.bind_some, Option.bind_some, hs.1, hcols, hk, i5, Bool.and_self, if_pos rfl,
        g2, Option.bind_some, okFrame, if_pos (goodCols_ok hg')]

/-! ### commands that add one column -/

theorem known_within {cols : List Str} {p : PE} {t : PyE} (hw : within cols.contains p = true) (ht : pyTree p = some t) : known cols t = true := by
  rw [known, List.all_eq_true]
  exact fun c hc => refs_within p t hw ht c hc

theorem column_steps {x : Ext} {o : Bool} {cols : List Str} {n : Str} {c : Command} {p : PE} {g : Sem → Event → Val}
    (hg' : goodCols (addCol cols n) = true) (hm : Means p g) (hw : within cols.contains p = true)
    (htr : ∀ s, transform ⟨.disallow, x⟩ c s = some (s.put (s.cur.mkWithColumn n p)))
    (hs : ∀ S A O (F : Frame), F.cols = cols → splCmd S A O F c = some ⟨addCol F.cols n, F.rows.map fun r => setField r n (g S r)⟩) :
    Steps x c o cols o (addCol cols n) := by
  obtain ⟨t, ht, hv⟩ := hm
  have hk := known_within hw ht
  refine ⟨fun _ => hg', fun e => mCall e c!"withColumn" [.str n, t], fun s e he => ⟨_, htr s, rfl, ?_⟩, ?_⟩
  · show progTree (s.cur.mkWithColumn n p) = _
    simp only [DF.mkWithColumn, progTree, he, onResult, unalias_of_within hw, ht, (goodCols_plain hg' (mem_addCol cols n)).1, if_true, Option.map_some]
  · intro S A O O' T' e F F' hF hss hc _ _
    have hval : ∀ r, colValue S t r = some (g S r) := fun r => by
      obtain ⟨o, h1, h2, h3⟩ := hv S r
      rw [colValue, h1, Option.bind_some, if_pos h2, h3]
    refine ⟨_, ⟨addCol F.cols n, F'.rows.map fun r => setField r n (g S r)⟩, hs S A O F hc, ?_, same_map hss _ _, by rw [hc]⟩
    rw [frameEval_method _ hF (by decide)]
    unfold frameMethod
    rw [if_neg (by decide), if_pos rfl]
    simp only [hss.1, hc, hk, if_true]
    rw [each_map (g := fun r => setField r n (g S r)) fun r _ => by rw [hval r]; rfl, Option.bind_some, okFrame, if_pos (goodCols_ok hg')]

theorem addTotals_steps (x : Ext) {o : Bool} {cols : List Str} {a : AddTotals} (hg : goodCols cols = true) (hr : a.row = true) (hc : a.col = false)
    (hne : a.fields.isEmpty = false) (hf : ∀ n ∈ a.fields, n ∈ cols) (hg' : goodCols (addCol cols a.fieldName) = true) :
    Steps x (.addTotals a) o cols o (addCol cols a.fieldName) := by
  have hne' : a.fields ≠ [] := by intro e; rw [e] at hne; cases hne
  obtain ⟨p, h1, h2, h3⟩ := means_total hne' fun n hn => (goodCols_plain hg (hf n hn)).1
  refine column_steps hg' h2 (h3 _ fun n hn => by simpa using hf n hn) (fun s => ?_) fun S A O F _ => ?_
  · simp only [transform, dispatch, addTotalsTr, h1, Option.getD_some]
  · simp only [splCmd, hne', hr, hc, if_false, Bool.not_false, Bool.and_self, if_true]

theorem spath_steps (x : Ext) {o : Bool} {cols : List Str} {path input : Str} {output : Option Str} (hg : goodCols cols = true)
    (hp : plainPath path = true) (hi : input ∈ cols) (hg' : goodCols (addCol cols (output.getD path)) = true) :
    Steps x (.spath path input output) o cols o (addCol cols (output.getD path)) := by
  simp only [plainPath, Bool.and_eq_true] at hp
  obtain ⟨ks, hk⟩ := Option.isSome_iff_exists.1 hp.1.1
  have hq : Plain '"' (c!"$." ++ path) = true := by
    have := hp.1.2
    simp only [Plain, List.all_append, Bool.and_eq_true] at this ⊢
    exact ⟨by decide, this⟩
  refine column_steps hg' (means_json (means_named (goodCols_plain hg hi).1) hq (path_same hp.2 hk)) ?_ (fun s => ?_) fun S A O F _ => ?_
  · simp [within, withinL, notCol, pyStr, hi]
  · rfl
  · simp only [splCmd, hk, Option.map_some]

/-! ### queries -/

theorem cmd_steps (x : Ext) (hx : Arranges x) {o o' : Bool} {cols cols' : List Str} {c : Command} (hg : goodCols cols = true)
    (h : fitsCmd o cols c = some (o', cols')) : Steps x c o cols o' cols' := by
  unfold fitsCmd at h
  split at h
  · split at h
    · rename_i hc
      simp only [Bool.and_eq_true] at hc
      cases h
      exact search_steps x hx hc.1 hc.2 (split_searchFrag _ hc.1 true)
    · cases h
  · split at h
    · rename_i hc
      simp only [Bool.and_eq_true] at hc
      cases h
      exact where_steps x hc.1 hc.2
    · cases h
  · rw [Option.map_eq_some_iff] at h
    obtain ⟨c', h1, h2⟩ := h
    cases h2
    exact eval_steps x h1 hg
  · rw [Option.map_eq_some_iff] at h
    obtain ⟨c', h1, h2⟩ := h
    cases h2
    exact rename_steps x h1 hg
  · split at h
    · rename_i rm fs hc
      simp only [Bool.and_eq_true, Bool.not_eq_true', List.all_eq_true] at hc
      cases h
      rw [hc.1.1]
      refine fields_steps x hc.1.2 fun i hi => ?_
      have := hc.2 i hi
      simpa using this
    · cases h
  · split at h
    · rename_i hc
      cases h
      exact table_steps x hc
    · cases h
  · split at h
    · rename_i hc
      simp only [Bool.and_eq_true, decide_eq_true_eq] at hc
      cases h
      rw [hc.1]
      exact head_steps x hc.2.1 hc.2.2 _ _
    · cases h
  · split at h
    · rename_i ks hk
      split at h
      · rename_i hc
        simp only [Bool.and_eq_true, decide_eq_true_eq, bne_iff_ne, ne_eq, List.all_eq_true, List.contains_iff_mem] at hc
        cases h
        exact sort_steps x hk hc.1.1 hc.1.2 hc.2.1 hc.2.2 hg
      · cases h
    · cases h
  · split at h
    · rename_i ks ns hb hn
      split at h
      · rename_i hc
        simp only [Bool.and_eq_true, Bool.not_eq_true'] at hc
        obtain ⟨⟨⟨⟨⟨h1, h2⟩, h3⟩, h4⟩, h5⟩, h6⟩ := hc
        cases h
        exact stats_steps x hg hb hn h1 h3 h4 h5 h6
      · cases h
    · cases h
  · split at h
    · rename_i hc
      simp only [Bool.and_eq_true, Bool.not_eq_true', List.all_eq_true, List.contains_iff_mem] at hc
      obtain ⟨⟨⟨⟨h1, h2⟩, h3⟩, h4⟩, h5⟩ := hc
      cases h
      exact addTotals_steps x hg h1 h2 h3 h4 h5
    · cases h
  · split at h
    · rename_i hc
      simp only [Bool.and_eq_true, List.contains_iff_mem] at hc
      obtain ⟨⟨h1, h2⟩, h3⟩ := hc
      cases h
      exact spath_steps x hg h1 h2 h3
    · cases h
  · cases h

/-- the commands of a query one after the other -/
theorem cmds_steps (x : Ext) (hx : Arranges x) : ∀ (cs : List Command) {o o' : Bool} {cols cols' : List Str}, goodCols cols = true →
    fitsCmds o cols cs = some (o', cols') → ∃ tr : PyE → PyE,
      (∀ s e, progTree s.cur = some ⟨[], e⟩ → (s.df = some s.cur ∨ cs ≠ []) → ∃ s', runCmds ⟨.disallow, x⟩ cs s = some s' ∧ s'.df = some s'.cur ∧
        progTree s'.cur = some ⟨[], tr e⟩) ∧
      ∀ (S : Sem) (A : Aggs) (O O' : Arrangement) (T' : Str → Frame) (e : PyE) (F F' : Frame), frameEval S A O' T' e = some F' →
        Same o F F' → F.cols = cols → definiteCmds S A O cs F →
        ∃ G G', splRun S A O cs F = some G ∧ frameEval S A O' T' (tr e) = some G' ∧ Same o' G G' ∧ G.cols = cols'
  | [], o, o', cols, cols', hg, h => by
    simp only [fitsCmds, Option.some.injEq, Prod.mk.injEq] at h
    obtain ⟨rfl, rfl⟩ := h
    refine ⟨id, fun s e he hd => ⟨s, rfl, hd.resolve_right (by simp), he⟩, ?_⟩
    intro S A O O' T' e F F' hF hs hc _
    exact ⟨F, F', rfl, hF, hs, hc⟩
  | c :: cs, o, o', cols, cols', hg, h => by
    rw [fitsCmds] at h
    cases hc : fitsCmd o cols c with
    | none => rw [hc] at h; cases h
    | some y =>
      obtain ⟨o1, cols1⟩ := y
      rw [hc, Option.bind_some] at h
      obtain ⟨hg1, tr1, a1, a2⟩ := cmd_steps x hx hg hc
      obtain ⟨tr2, b1, b2⟩ := cmds_steps x hx cs (hg1 hg) h
      refine ⟨fun e => tr2 (tr1 e), fun s e he _ => ?_, ?_⟩
      · obtain ⟨s1, k1, k2, k3⟩ := a1 s e he
        obtain ⟨s2, k4, k5, k6⟩ := b1 s1 _ k3 (Or.inl k2)
        exact ⟨s2, by simp only [runCmds, k1, k4], k5, k6⟩
      · intro S A O O' T' e F F' hF hs hcols hd
        obtain ⟨G, G', k1, k2, k3, k4⟩ := a2 S A O O' T' e F F' hF hs hcols hg hd.1
        obtain ⟨H, H', l1, l2, l3, l4⟩ := b2 S A O O' T' _ G G' k2 k3 k4 (hd.2 G k1)
        exact ⟨H, H', by rw [splRun, k1, Option.bind_some, l1], l2, l3, l4⟩

end Verif.Lemmas


