import Verif.Lemmas.Funcs
/-
C16: whatever translates without the runtime library also translates when it is allowed.
-/
namespace Verif.Props
open Verif Verif.Lemmas

theorem binTr_mono (l : Expr) (s : Str) (r : Expr) (a b a' b' : Option PE)
    (ha : a.isSome = true → a'.isSome = true) (hb : b.isSome = true → b'.isSome = true)
    (h : (binTr l s r a b).isSome = true) : (binTr l s r a' b').isSome = true := by
  have hg : ∀ op, (generalBin a op b).isSome = true → (generalBin a' op b').isSome = true := by
    intro op h
    cases a <;> cases b <;> simp [generalBin] at h ha hb ⊢
    obtain ⟨x, rfl⟩ := Option.isSome_iff_exists.mp ha
    obtain ⟨y, rfl⟩ := Option.isSome_iff_exists.mp hb
    rfl
  have hw : ∀ op p, (wildcardTr a op p).isSome = true → (wildcardTr a' op p).isSome = true := by
    intro op p h
    cases a with
    | none => simp [wildcardTr] at h
    | some a =>
      obtain ⟨x, rfl⟩ := Option.isSome_iff_exists.mp (ha rfl)
      simp only [wildcardTr] at h ⊢
      split
      · rfl
      · split
        · rfl
        · split
          · rfl
          · simp_all
  unfold binTr at h ⊢
  split at h
  · exact hw _ _ h
  · split at h
    · split at h
      · rename_i hc; rw [if_pos hc]; rfl
      · rename_i hc; rw [if_neg hc]; exact hg _ h
    · exact hg _ h
  · exact hg _ h

mutual
theorem exprTr_mono : ∀ e, (exprTr .disallow e).isSome = true → (exprTr .allow e).isSome = true := by
  intro e h
  match e with
  | .binary l s r =>
    rw [exprTr] at h ⊢
    exact binTr_mono _ _ _ _ _ _ _ (exprTr_mono l) (exprTr_mono r) h
  | .unary s r =>
    rw [exprTr] at h ⊢
    split at h
    · rename_i hs
      rw [if_pos hs]
      simp only [Option.isSome_map] at h ⊢
      exact exprTr_mono r h
    · simp at h
  | .const k => simpa only [exprTr] using h
  | .fieldIn f es => simpa only [exprTr] using h
  | .call n args =>
    rw [exprTr] at h ⊢
    simp only [evalFn] at h ⊢
    rw [orElse_isSome, evalFnBare_weaker (argsTr_weaker args) h, Bool.or_true]
  | .fv .. | .fb .. | .fc .. | .alias .. | .aliasedField .. | .searchModifier .. | .subSearch .. | .timeModifier .. =>
    simp [exprTr] at h
theorem argsTr_weaker : ∀ es, Weaker (argsTr .disallow es) (argsTr .allow es) := by
  intro es
  match es with
  | [] => simp only [argsTr]; exact .nil
  | e :: es =>
    simp only [argsTr]
    refine .cons rfl ?_ (argsTr_weaker es)
    simpa only [Option.isSome_map] using exprTr_mono e
end

/-! ### one command -/

theorem exprTr_isCol_bin {l s r a b p} (h : binTr l s r a b = some p) : p.isCol = true := by
  unfold binTr wildcardTr generalBin at h
  repeat' split at h
  all_goals first
    | (simp only [Option.some.injEq] at h; subst h; rfl)
    | simp at h

theorem withAlias_isCol (e : PE) (n : Str) : (e.withAlias n).isCol = true := rfl

theorem apply_isCol {f : FnSpec} {args p} (h : f.apply args = some p) : p.isCol = true := by
  unfold FnSpec.apply at h
  split at h
  · simp at h
  · simp only [Option.map_eq_some_iff] at h
    obtain ⟨o, _, rfl⟩ := h
    rfl

theorem passThrough_isCol {n args p} (h : passThrough n args = some p) : p.isCol = true := by
  simp only [passThrough, Option.map_eq_some_iff] at h
  obtain ⟨o, _, rfl⟩ := h
  rfl

theorem evalFnBare_isCol {n args p} (h : evalFnBare n args = some p) : p.isCol = true := by
  unfold evalFnBare at h
  split at h
  · exact apply_isCol h
  · split at h
    · simp at h
    · exact passThrough_isCol h

theorem evalFnRuntime_isCol {n args p} (h : evalFnRuntime n args = some p) : p.isCol = true := by
  unfold evalFnRuntime at h
  split at h
  · exact apply_isCol h
  · simp only [Option.map_eq_some_iff] at h
    obtain ⟨o, _, rfl⟩ := h
    rfl

theorem evalFn_isCol {m n args p} (h : evalFn m n args = some p) : p.isCol = true := by
  cases m with
  | disallow => exact evalFnBare_isCol h
  | require => exact evalFnRuntime_isCol h
  | allow =>
    simp only [evalFn, orElse] at h
    split at h
    · rename_i x hx
      simp only [Option.some.injEq] at h; subst h
      exact evalFnRuntime_isCol hx
    · exact evalFnBare_isCol h

theorem joinBinFrom_isCol {op : Str} : ∀ {ps : List PE} {x : PE}, x.isCol = true → (∀ p ∈ ps, p.isCol = true) →
    (joinBinFrom op x ps).isCol = true := by
  intro ps
  induction ps with
  | nil => intro x hx _; simpa [joinBinFrom] using hx
  | cons p ps ih =>
    intro x hx hp
    rw [joinBinFrom]
    exact ih rfl fun q hq => hp q (List.mem_cons_of_mem _ hq)

theorem fieldInCheck_isCol {f e p} (h : fieldInCheck f e = some p) : p.isCol = true := by
  unfold fieldInCheck at h
  repeat' split at h
  all_goals first
    | (simp only [Option.some.injEq] at h; subst h; rfl)
    | simp at h

theorem fieldInChecks_isCol {f es ps} (h : fieldInChecks f es = some ps) : ∀ p ∈ ps, p.isCol = true := by
  induction es generalizing ps with
  | nil => simp only [fieldInChecks, Option.some.injEq] at h; subst h; simp
  | cons e es ih =>
    rw [fieldInChecks] at h
    repeat' split at h
    · simp at h
    · simp at h
    · rename_i _ c hc _ cs hcs
      simp only [Option.some.injEq] at h; subst h
      intro p hp
      rcases List.mem_cons.mp hp with rfl | hp
      · exact fieldInCheck_isCol hc
      · exact ih hcs p hp

theorem exprTr_isCol {m e p} (h : exprTr m e = some p) : p.isCol = true := by
  match e with
  | .binary .. => rw [exprTr] at h; exact exprTr_isCol_bin h
  | .unary s r =>
    rw [exprTr] at h
    split at h
    · simp only [Option.map_eq_some_iff] at h
      obtain ⟨o, _, rfl⟩ := h
      rfl
    · simp at h
  | .const k =>
    rw [exprTr] at h
    unfold constTr at h
    split at h
    all_goals first
      | (simp only [Option.some.injEq] at h; subst h; rfl)
      | simp at h
  | .fieldIn f es =>
    rw [exprTr] at h
    simp only [fieldInTr, Option.map_eq_some_iff] at h
    obtain ⟨cs, hcs, rfl⟩ := h
    have := fieldInChecks_isCol hcs
    cases cs with
    | nil => rfl
    | cons c cs =>
      simp only [joinAsBinaries, Option.getD_some]
      exact joinBinFrom_isCol (this c (by simp)) fun p hp => this p (by simp [hp])
  | .call n args => rw [exprTr] at h; exact evalFn_isCol h
  | .fv .. | .fb .. | .fc .. | .alias .. | .aliasedField .. | .searchModifier .. | .subSearch ..
  | .timeModifier .. => simp [exprTr] at h

theorem exprTr_ok {e p} (h : exprTr .disallow e = some p) : ∃ q, exprTr .allow e = some q :=
  Option.isSome_iff_exists.mp (exprTr_mono e (by simp [h]))

theorem evalKwargs_mono {fs d d'} (h : evalLoop .disallow fs d = some d') :
    ∃ ks, evalKwargs .allow fs = some ks := by
  induction fs generalizing d with
  | nil => exact ⟨[], rfl⟩
  | cons f fs ih =>
    obtain ⟨n, e⟩ := f
    rw [evalLoop] at h
    split at h
    · simp at h
    · rename_i c hc
      split at h
      · obtain ⟨q, hq⟩ := exprTr_ok hc
        obtain ⟨ks, hks⟩ := ih h
        exact ⟨(n, .expr q.unalias) :: ks, by simp [evalKwargs, hq, exprTr_isCol hq, hks]⟩
      · simp at h

theorem statsExpr_mono {d d' e p} (d₂ : DF) (h : statsExpr .disallow d e = some (d', p)) :
    ∃ q, statsExpr .allow d₂ e = some q := by
  unfold statsExpr at h ⊢
  split at h
  · rename_i n args al hu
    simp only [Option.map_eq_some_iff] at h
    obtain ⟨⟨d1, c1⟩, hf, _⟩ := h
    simp only [statsFn, statsFnBare, Option.map_eq_some_iff] at hf
    obtain ⟨c, hc, _⟩ := hf
    have := statsFnBareCol_weaker (argsTr_weaker args) (n := n) (by simp [hc])
    obtain ⟨c', hc'⟩ := Option.isSome_iff_exists.mp this
    have h2 : (statsFn .allow n (argsTr .allow args) d₂).isSome = true := by
      simp only [statsFn, orElse_isSome, statsFnBare, hc', Option.map_some, Option.isSome_some,
        Bool.or_true]
    obtain ⟨q, hq⟩ := Option.isSome_iff_exists.mp h2
    exact ⟨(q.1, q.2.maybeAlias al), by simp [hq]⟩
  · simp at h

theorem statsLoop_mono {es d r} (d₂ : DF) (h : statsLoop .disallow es d = some r) :
    ∃ q, statsLoop .allow es d₂ = some q := by
  induction es generalizing d r d₂ with
  | nil => exact ⟨(d₂, []), rfl⟩
  | cons e es ih =>
    rw [statsLoop] at h
    split at h
    · simp at h
    · rename_i d' c hc
      split at h
      · simp at h
      · rename_i d'' cs hcs
        obtain ⟨⟨q1, q2⟩, hq⟩ := statsExpr_mono d₂ hc
        obtain ⟨⟨r1, r2⟩, hr⟩ := ih q1 hcs
        exact ⟨(r1, q2 :: r2), by simp [statsLoop, hq, hr]⟩

theorem whereStep_mono {w d r} (d₂ : DF) (h : whereStep .disallow w d = some r) :
    ∃ q, whereStep .allow w d₂ = some q := by
  cases w with
  | none => exact ⟨d₂, rfl⟩
  | some e =>
    simp only [whereStep, Option.map_eq_some_iff] at h ⊢
    obtain ⟨a, ha, _⟩ := h
    obtain ⟨q, hq⟩ := exprTr_ok ha
    exact ⟨_, q, hq, rfl⟩

/-- The result of a successful translation with a data frame, whichever branch produced it. -/
def Yields (o : Option St) : Prop := ∃ t, o = some t ∧ t.df.isSome = true

theorem yields_put (s : St) (d : DF) : Yields (some (s.put d)) := ⟨_, rfl, rfl⟩

theorem yields_runtime (s : St) (f : Str) (a : List RE) (k : List (Str × RE)) :
    Yields (some (s.putRuntime f a k)) := ⟨_, rfl, rfl⟩

theorem yields_map {α} {o : Option α} {g : α → St} (h : ∃ a, o = some a)
    (hg : ∀ a, (g a).df.isSome = true) : Yields (o.map g) := by
  obtain ⟨a, rfl⟩ := h; exact ⟨_, rfl, hg a⟩

theorem yields_dispatch_sa {rt sa : Option St} (hsa : Yields sa) (hrt : ∀ t, rt = some t → t.df.isSome = true) :
    Yields (dispatch .allow rt sa) := by
  cases rt with
  | none => exact hsa
  | some t => exact ⟨t, rfl, hrt t rfl⟩

theorem yields_dispatch_rt {rt sa : Option St} (h : Yields rt) : Yields (dispatch .allow rt sa) := by
  obtain ⟨t, rfl, ht⟩ := h; exact ⟨t, rfl, ht⟩

theorem map_runtime_df {α} {o : Option α} {g : α → St} (hg : ∀ a, (g a).df.isSome = true) :
    ∀ t, o.map g = some t → t.df.isSome = true := by
  intro t ht
  simp only [Option.map_eq_some_iff] at ht
  obtain ⟨a, _, rfl⟩ := ht
  exact hg a

theorem convertTr_put {t cs s r} (s' : St) (h : convertTr t cs s = some r) : Yields (convertTr t cs s') := by
  have key : ∀ cs d d', (convertLoop t cs d).isSome = true → (convertLoop t cs d').isSome = true := by
    intro cs
    induction cs with
    | nil => intros; rfl
    | cons c cs ih =>
      intro d d' h
      rw [convertLoop] at h ⊢
      split at h
      · simp at h
      · exact ih _ _ h
  unfold convertTr at h ⊢
  refine yields_map (Option.isSome_iff_exists.mp (key cs s.cur s'.cur ?_)) fun a => rfl
  simp only [Option.map_eq_some_iff] at h
  obtain ⟨a, ha, _⟩ := h
  simp [ha]

theorem searchStandalone_mono {x e s r} (s' : St) (h : searchStandalone ⟨.disallow, x⟩ e s = some r) :
    Yields (searchStandalone ⟨.allow, x⟩ e s') := by
  unfold searchStandalone at h ⊢
  split at h
  · simp at h
  · rename_i cond is hc
    cases cond with
    | none => exact yields_put _ _
    | some c =>
      simp only [Option.map_eq_some_iff] at h
      obtain ⟨p, hp, _⟩ := h
      exact yields_map (exprTr_ok hp) fun a => rfl

theorem tstatsStandalone_mono {o es dm nn w bf bp s r} (s' : St)
    (h : tstatsStandalone .disallow o es dm nn w bf bp s = some r) :
    Yields (tstatsStandalone .allow o es dm nn w bf bp s') := by
  unfold tstatsStandalone at h ⊢
  split at h
  · rename_i ho
    rw [if_pos ho]
    split at h
    · simp at h
    · split at h
      · simp at h
      · rename_i d hd
        split at h
        · simp at h
        · rename_i d2 aggs hl
          simp only [dataModelTr, dispatch, dataModelRuntime, orElse]
          obtain ⟨d3, hd3⟩ := whereStep_mono (St.cur (s'.putRuntime c!"data_model" []
            [ (c!"data_model_name", .expr (pyOptStr dm)),
              (c!"dataset_name", .expr (pyOptStr nn)),
              (c!"search_mode", .expr (pyOptStr (some c!"search"))),
              (c!"strict_fields", .expr (pyBool false)),
              (c!"allow_old_summaries", .expr (pyBool o.allowOldSummaries)),
              (c!"summaries_only", .expr (pyBool o.summariesOnly)) ])) hd
          rw [hd3]
          obtain ⟨⟨q1, q2⟩, hq⟩ := statsLoop_mono d3 hl
          simp only [hq]
          split at h
          · exact yields_put _ _
          · exact yields_put _ _
          · simp at h
  · simp at h

/-- A data frame in the first state means one in the second. -/
def R (s s' : St) : Prop := s.df.isSome = true → s'.df.isSome = true

mutual
theorem transform_mono (x : Ext) : ∀ (cmd : Command) (s s' t : St), R s s' →
    transform ⟨.disallow, x⟩ cmd s = some t → ∃ t', transform ⟨.allow, x⟩ cmd s' = some t' ∧ R t t' := by
  intro cmd s s' t hR h
  have fin : Yields (transform ⟨.allow, x⟩ cmd s') → ∃ t', transform ⟨.allow, x⟩ cmd s' = some t' ∧ R t t' :=
    fun ⟨t', h1, h2⟩ => ⟨t', h1, fun _ => h2⟩
  match cmd with
  | .collect .. | .dedup .. | .eventStats .. | .format .. | .inputLookup .. | .map .. | .mvCombine ..
  | .mvExpand .. | .return_ .. | .streamStats .. => simp [transform] at h
  | .addTotals a => exact fin (yields_put _ _)
  | .bin a => exact fin (yields_put _ _)
  | .convert tf cs => exact fin (convertTr_put s' h)
  | .dataModel a => exact fin (yields_runtime _ _ _ _)
  | .eval fs =>
    refine fin (yields_dispatch_rt ?_)
    have h' : (evalLoop .disallow fs s.cur).map s.put = some t := h
    simp only [Option.map_eq_some_iff] at h'
    obtain ⟨d, hd, _⟩ := h'
    exact yields_map (evalKwargs_mono hd) fun a => rfl
  | .fields rm fs => exact fin (yields_put _ _)
  | .fillNull v fs => exact fin (yields_runtime _ _ _ _)
  | .head e kl n =>
    have h' : (headLimit e kl).map _ = some t := h
    simp only [Option.map_eq_some_iff] at h'
    obtain ⟨d, hd, _⟩ := h'
    exact fin (yields_map (g := fun n => s'.put (.limit s'.cur (toU64 n))) ⟨d, hd⟩ fun a => rfl)
  | .lookup a =>
    refine fin ?_
    have h' : lookupTr a s = some t := h
    show Yields (lookupTr a s')
    unfold lookupTr at h' ⊢
    dsimp only at h' ⊢
    split at h'
    · simp at h'
    · exact yields_put _ _
  | .makeResults a => exact fin (yields_put _ _)
  | .rare a =>
    refine fin ?_
    have h' : topRareTr c!"asc" a s = some t := h
    show Yields (topRareTr c!"asc" a s')
    unfold topRareTr at h' ⊢
    split at h'
    · simp at h'
    · rename_i hu; rw [if_neg hu]; exact yields_put _ _
  | .top a =>
    refine fin ?_
    have h' : topRareTr c!"desc" a s = some t := h
    show Yields (topRareTr c!"desc" a s')
    unfold topRareTr at h' ⊢
    split at h'
    · simp at h'
    · rename_i hu; rw [if_neg hu]; exact yields_put _ _
  | .regex i r =>
    refine fin ?_
    have h' : regexTr i r s = some t := h
    show Yields (regexTr i r s')
    unfold regexTr at h' ⊢
    dsimp only at h' ⊢
    simp only [Option.map_eq_some_iff] at h'
    obtain ⟨d, hd, _⟩ := h'
    exact yields_map ⟨d, hd⟩ fun a => rfl
  | .rename as => exact fin (yields_put _ _)
  | .rex a =>
    refine fin ?_
    have h' : rexTr x a s = some t := h
    show Yields (rexTr x a s')
    unfold rexTr at h' ⊢
    split at h'
    · simp at h'
    · rename_i h1; rw [if_neg h1]
      split at h'
      · rename_i h2; rw [if_pos h2]
        simp only [Option.map_eq_some_iff] at h'
        obtain ⟨d, hd, _⟩ := h'
        exact yields_map ⟨d, hd⟩ fun a => rfl
      · simp at h'
  | .sort ks n d =>
    have h' : (sortKeys d ks).map _ = some t := h
    simp only [Option.map_eq_some_iff] at h'
    obtain ⟨k, hk, _⟩ := h'
    refine fin ?_
    show Yields ((sortKeys d ks).map _)
    exact yields_map ⟨k, hk⟩ fun a => rfl
  | .spath p i o => exact fin (yields_put _ _)
  | .stats sp fs by_ dd =>
    have h' : (statsLoop .disallow fs s.cur).map _ = some t := h
    simp only [Option.map_eq_some_iff] at h'
    obtain ⟨k, hk, _⟩ := h'
    refine fin (yields_dispatch_sa ?_ (map_runtime_df fun a => rfl))
    exact yields_map (statsLoop_mono _ hk) fun a => rfl
  | .table fs => exact fin (yields_put _ _)
  | .tail n => exact fin (yields_put _ _)
  | .tstats o es dm nn w bf bp =>
    refine fin (yields_dispatch_sa (tstatsStandalone_mono (s := s) s' h) ?_)
    intro u hu
    change tstatsRuntime .allow o es dm nn w bf s' = some u at hu
    unfold tstatsRuntime at hu
    split at hu
    · split at hu
      · simp at hu
      · exact map_runtime_df (fun a => rfl) u hu
    · simp at hu
  | .where_ e =>
    have h' : (exprTr .disallow e).map _ = some t := h
    simp only [Option.map_eq_some_iff] at h'
    obtain ⟨k, hk, _⟩ := h'
    refine fin ?_
    show Yields ((exprTr .allow e).map _)
    exact yields_map (exprTr_ok hk) fun a => rfl
  | .search e =>
    exact fin (yields_dispatch_sa (searchStandalone_mono (s := s) s' h) (map_runtime_df fun a => rfl))
  | .join o fs sub =>
    refine fin ?_
    have h' : joinTr o fs (runCmds ⟨.disallow, x⟩ sub ⟨s.next, none⟩) s = some t := by
      rw [transform] at h; exact h
    have goal : Yields (joinTr o fs (runCmds ⟨.allow, x⟩ sub ⟨s'.next, none⟩) s') := by
      unfold joinTr joinOutcome at h' ⊢
      split at h'
      · rename_i hm
        rw [if_pos hm]
        cases hr : runCmds ⟨.disallow, x⟩ sub ⟨s.next, none⟩ with
        | none => simp [hr, Outcome.toOption] at h'
        | some u =>
          obtain ⟨u', hu', hRu⟩ := runCmds_mono x sub _ ⟨s'.next, none⟩ u (by intro h; simp at h) hr
          simp only [hr] at h'
          simp only [hu']
          cases hd : u.df with
          | none => simp [hd, Outcome.toOption] at h'
          | some r =>
            obtain ⟨r', hr'⟩ := Option.isSome_iff_exists.mp (hRu (by simp [hd]))
            simp only [hd] at h'
            simp only [hr']
            split at h'
            · rename_i ht
              rw [if_pos ht]
              split at h'
              · simp [Outcome.toOption] at h'
              · exact ⟨_, rfl, rfl⟩
            · simp [Outcome.toOption] at h'
      · simp [Outcome.toOption] at h'
    rw [transform]; exact goal
  | .multiSearch ps =>
    cases ps with
    | nil =>
      refine ⟨s', by rw [transform]; rfl, ?_⟩
      have : s = t := by rw [transform] at h; exact Option.some.inj h
      exact this ▸ hR
    | cons p ps =>
      have h' : multiTr ⟨.disallow, x⟩ (p :: ps) s.next none = some t := by
        rw [transform] at h
        · exact h
        · simp
      obtain ⟨t', ht', hRt⟩ := multiTr_mono x (p :: ps) s.next s'.next none none t (by simp) h'
      refine ⟨t', ?_, hRt⟩
      rw [transform]
      · exact ht'
      · simp

theorem runCmds_mono (x : Ext) : ∀ (p : List Command) (s s' t : St), R s s' →
    runCmds ⟨.disallow, x⟩ p s = some t → ∃ t', runCmds ⟨.allow, x⟩ p s' = some t' ∧ R t t' := by
  intro p s s' t hR h
  match p with
  | [] =>
    rw [runCmds] at h
    refine ⟨s', by rw [runCmds], ?_⟩
    exact Option.some.inj h ▸ hR
  | c :: p =>
    rw [runCmds] at h
    split at h
    · simp at h
    · rename_i u hu
      obtain ⟨u', hu', hRu⟩ := transform_mono x c s s' u hR hu
      obtain ⟨t', ht', hRt⟩ := runCmds_mono x p u u' t hRu h
      exact ⟨t', by rw [runCmds, hu']; exact ht', hRt⟩

theorem multiTr_mono (x : Ext) : ∀ (ps : List (List Command)) (n n' : Nat) (a a' : Option DF) (t : St),
    (a.isSome = true → a'.isSome = true) → multiTr ⟨.disallow, x⟩ ps n a = some t →
    ∃ t', multiTr ⟨.allow, x⟩ ps n' a' = some t' ∧ R t t' := by
  intro ps n n' a a' t ha h
  match ps with
  | [] =>
    rw [multiTr] at h
    refine ⟨⟨n', a'⟩, by rw [multiTr], ?_⟩
    exact Option.some.inj h ▸ ha
  | p :: ps =>
    rw [multiTr] at h
    split at h
    · simp at h
    · rename_i u hu
      split at h
      · simp at h
      · rename_i d hd
        obtain ⟨u', hu', hRu⟩ := runCmds_mono x p _ ⟨n', none⟩ u (by intro h; simp at h) hu
        obtain ⟨d', hd'⟩ := Option.isSome_iff_exists.mp (hRu (by simp [hd]))
        obtain ⟨t', ht', hRt⟩ := multiTr_mono x ps u.next u'.next (some (unionStep a d))
          (some (unionStep a' d')) t (fun _ => rfl) h
        exact ⟨t', by rw [multiTr, hu']; simp only [hd']; exact ht', hRt⟩
end

/-- **C16** If the program renders without the runtime library, it also renders when the runtime
library is allowed (formatted or not). -/
theorem C16_runtime_accepts_more (x : Ext) (fmt : Str → Option Str) (p : Pipeline) (formatCode : Bool)
    (h : (renderPyspark x fmt p false formatCode).isSome = true) :
    (renderPyspark x fmt p true formatCode).isSome = true := by
  simp only [renderPyspark, renderPipeline, Option.isSome_map, Bool.false_eq_true, if_false, if_true] at h ⊢
  obtain ⟨t, ht⟩ := Option.isSome_iff_exists.mp h
  obtain ⟨t', ht', _⟩ := runCmds_mono x p _ ⟨1, none⟩ t (by intro h; simp at h) ht
  simp [ht']

/-- A pipeline that renders standalone: `eval x=len(y) | where z`. -/
example (x : Ext) : (renderPyspark x (fun _ => none)
    [.eval [(c!"x", .call c!"len" [.const (.field c!"y")])], .where_ (.const (.field c!"z"))]
    false false).isSome = true := rfl

/-- The converse fails: `typeof` has no standalone translation, but a runtime one. -/
theorem C16_strict (x : Ext) : ∃ p : Pipeline,
    (renderPyspark x (fun _ => none) p false false).isSome = false ∧
    (renderPyspark x (fun _ => none) p true false).isSome = true :=
  ⟨[.eval [(c!"x", .call c!"typeof" [.const (.field c!"y")])]], by rfl, by rfl⟩

end Verif.Props
