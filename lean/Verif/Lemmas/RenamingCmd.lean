import Verif.Lemmas.Renaming
/-
The translation of commands commutes with other names for the fields.
-/
namespace Verif.Lemmas
open Verif Spec

variable {ρ : Str → Str}

def renSt (ρ : Str → Str) (s : St) : St := ⟨s.next, s.df.map (renDF ρ)⟩

theorem ren_cur (s : St) : (renSt ρ s).cur = renDF ρ s.cur := by
  obtain ⟨n, d⟩ := s
  cases d <;> rfl

theorem ren_put (s : St) (d : DF) : (renSt ρ s).put (renDF ρ d) = renSt ρ (s.put d) := rfl

theorem ren_with (d : DF) (n : Str) (c : PE) : (renDF ρ d).mkWithColumn (ρ n) (renP ρ c) = renDF ρ (d.mkWithColumn n c) := by
  simp only [DF.mkWithColumn, renDF, ren_unalias]

theorem ren_where (d : DF) (c : PE) : (renDF ρ d).mkWhere (renP ρ c) = renDF ρ (d.mkWhere c) := by
  simp only [DF.mkWhere, renDF, ren_unalias]

theorem ren_names (fs : List Str) : (fs.map ρ).map PE.named = renPs ρ (fs.map .named) := by
  rw [renPs_map, List.map_map, List.map_map]; rfl

theorem ren_addTotals (a : AddTotals) (s : St) :
    addTotalsTr { a with fields := a.fields.map ρ, fieldName := ρ a.fieldName } (renSt ρ s) = (addTotalsTr a s).map (renSt ρ) := by
  have h : (a.fields.map ρ).map addTotalsCol = (a.fields.map addTotalsCol).map (renP ρ) := by
    rw [List.map_map, List.map_map]; rfl
  have h2 : (joinAsBinaries c!"+" ((a.fields.map ρ).map addTotalsCol)).getD (.lit c!"0.0") = renP ρ ((joinAsBinaries c!"+" (a.fields.map addTotalsCol)).getD (.lit c!"0.0")) := by
    rw [h, ren_join]
    cases joinAsBinaries c!"+" (a.fields.map addTotalsCol) <;> rfl
  unfold addTotalsTr
  simp only [h2, ren_cur, ren_with, ren_put, Option.map_some]

theorem ren_memk (x : PE) : memkFn (renP ρ x) = renP ρ (memkFn x) := by
  simp only [memkFn, PE.mkMethod, PE.mkBin, renP, renPs, PE.unalias, pyStr, pyInt]
theorem ren_rmunit (x : PE) : rmunitFn (renP ρ x) = renP ρ (rmunitFn x) := by
  simp only [rmunitFn, PE.mkMethod, renP, renPs, PE.unalias, pyStr, pyInt]
theorem ren_rmcomma (x : PE) : rmcommaFn (renP ρ x) = renP ρ (rmcommaFn x) := by
  simp only [rmcommaFn, PE.mkMethod, renP, renPs, PE.unalias, pyStr]

theorem ren_convertFn (t : Str) (c : FieldConversion) (h : ρ c.func = c.func) :
    convertFn t ⟨c.func, ρ c.field, c.alias.map ρ⟩ = (convertFn t c).map (renP ρ) := by
  unfold convertFn
  have e : PE.named (ρ c.field) = renP ρ (.named c.field) := rfl
  simp only [e, ren_memk, ren_rmunit, ren_rmcomma]
  split
  · unfold ctimeFn; cases convertTimeFormat t <;> rfl
  · split
    · rfl
    · split
      · rfl
      · split
        · rfl
        · simp [renP, renPs, h]

theorem ren_convertLoop (t : Str) : ∀ (cs : List FieldConversion) (d : DF), (∀ c ∈ cs, ρ c.func = c.func) →
    convertLoop t (cs.map fun c => ⟨c.func, ρ c.field, c.alias.map ρ⟩) (renDF ρ d) = (convertLoop t cs d).map (renDF ρ)
  | [], d, _ => rfl
  | c :: cs, d, h => by
    rw [List.map_cons, convertLoop, convertLoop, ren_convertFn t c (h c List.mem_cons_self)]
    cases convertFn t c with
    | none => rfl
    | some e =>
      have hn : (c.alias.map ρ).getD (ρ c.field) = ρ (c.alias.getD c.field) := by cases c.alias <;> rfl
      simp only [Option.map_some, hn, ren_with]
      exact ren_convertLoop t cs _ fun x hx => h x (List.mem_cons_of_mem _ hx)

theorem ren_evalLoop (m : Mode) (hk : ∀ n ∈ keptNames, ρ n = n) : ∀ (as : List (Str × Expr)) (d : DF), (∀ a ∈ as, opaqueE a.2 = true) → (∀ a ∈ as, ∀ n ∈ calledIn a.2, ρ n = n) →
    evalLoop m (as.map fun a => (ρ a.1, renE ρ a.2)) (renDF ρ d) = (evalLoop m as d).map (renDF ρ)
  | [], d, _, _ => rfl
  | (n, e) :: as, d, h, hc => by
    rw [List.map_cons, evalLoop, evalLoop, ren_expr m hk e (h _ List.mem_cons_self) (hc _ List.mem_cons_self)]
    cases exprTr m e with
    | none => rfl
    | some c =>
      simp only [Option.map_some, ren_isCol, ren_with]
      split
      · exact ren_evalLoop m hk as _ (fun a ha => h a (List.mem_cons_of_mem _ ha)) fun a ha => hc a (List.mem_cons_of_mem _ ha)
      · rfl

theorem ren_sortDir (c : PE) (g : Option Str) (b : Bool) : sortDir (renP ρ c) g b = (sortDir c g b).map (renP ρ) := by
  unfold sortDir
  have h : ∀ f, PE.mkMethod (renP ρ c) f [] = renP ρ (PE.mkMethod c f []) := fun f => ren_mkMethod c f []
  simp only [h, Option.map_map]
  rfl

theorem ren_sortExpr (e : Expr) : sortExpr (renE ρ e) = (sortExpr e).map (renP ρ) := by
  cases e with
  | const c => cases c <;> rfl
  | _ => rfl

theorem ren_sortKeys (b : Bool) : ∀ ks : List (Option Str × Expr), sortKeys b (ks.map fun k => (k.1, renE ρ k.2)) = (sortKeys b ks).map fun l => l.map (renP ρ)
  | [] => rfl
  | (g, e) :: ks => by
    rw [List.map_cons, sortKeys, sortKeys, ren_sortExpr, ren_sortKeys b ks]
    cases sortExpr e with
    | none => rfl
    | some c =>
      simp only [Option.map_some, ren_sortDir]
      cases sortDir c g b with
      | none => rfl
      | some k => cases sortKeys b ks <;> rfl

theorem ren_topRare (dir : Str) (hc : ρ c!"count" = c!"count") (a : TopRare) (s : St) :
    topRareTr dir { a with fields := a.fields.map ρ, by_ := a.by_.map fun l => l.map ρ, countField := ρ a.countField, percentField := ρ a.percentField } (renSt ρ s) = (topRareTr dir a s).map (renSt ρ) := by
  have hg : ((a.by_.map fun l => l.map ρ).getD (a.fields.map ρ)).map CN.name = ((a.by_.getD a.fields).map .name).map (renCN ρ) := by
    cases a.by_ <;> simp [renCN]
  unfold topRareTr
  split
  · rfl
  · simp only [hg, ren_cur, Option.map_some]
    congr 1
    have h1 : DF.agg (.groupBy (renDF ρ s.cur) (((a.by_.getD a.fields).map CN.name).map (renCN ρ))) [PE.withAlias (.fn c!"count" []) (ρ a.countField)] =
        renDF ρ (.agg (.groupBy s.cur ((a.by_.getD a.fields).map .name)) [PE.withAlias (.fn c!"count" []) a.countField]) := rfl
    have h2 : PE.mkBin (.named c!"count") c!"/" (.fn c!"sum" [.named c!"count"]) = renP ρ (PE.mkBin (.named c!"count") c!"/" (.fn c!"sum" [.named c!"count"])) := by
      simp [PE.mkBin, PE.unalias, renP, renPs, hc]
    have h3 : ∀ d : DF, DF.orderBy (renDF ρ d) [PE.mkMethod (.named c!"count") dir []] = renDF ρ (.orderBy d [PE.mkMethod (.named c!"count") dir []]) := by
      intro d; simp [renDF, PE.mkMethod, PE.unalias, renP, renPs, hc]
    rw [h1]
    by_cases hp : a.showPercent = true
    · simp only [hp, if_true]
      rw [h2, ren_with, ← h2, h3]
      split <;> rfl
    · simp only [hp, Bool.false_eq_true, if_false]
      rw [h3]
      split <;> rfl

/-! ### library functions -/

theorem ren_dispatch (m : Mode) {rt sa rt' sa' : Option St} (h : rt' = rt.map (renSt ρ)) (h' : sa' = sa.map (renSt ρ)) :
    dispatch m rt' sa' = (dispatch m rt sa).map (renSt ρ) := by
  subst h h'
  cases m with
  | disallow => rfl
  | require => rfl
  | allow => cases rt <;> rfl

theorem ren_putRuntime (s : St) (f : Str) (as : List RE) (ks : List (Str × RE)) :
    (renSt ρ s).putRuntime f (as.map (renRE ρ)) (ks.map (renKw ρ f)) = renSt ρ (s.putRuntime f as ks) := by
  obtain ⟨n, d⟩ := s
  cases d <;> rfl

theorem ren_evalKw (m : Mode) (hk : ∀ n ∈ keptNames, ρ n = n) : ∀ as : List (Str × Expr), (∀ a ∈ as, opaqueE a.2 = true) → (∀ a ∈ as, ∀ n ∈ calledIn a.2, ρ n = n) →
    evalKwargs m (as.map fun a => (ρ a.1, renE ρ a.2)) = (evalKwargs m as).map fun l => l.map (renKw ρ c!"eval")
  | [], _, _ => rfl
  | (n, e) :: as, h, hc => by
    rw [List.map_cons, evalKwargs, evalKwargs, ren_expr m hk e (h _ List.mem_cons_self) (hc _ List.mem_cons_self)]
    cases exprTr m e with
    | none => rfl
    | some c =>
      simp only [Option.map_some, ren_isCol, ren_evalKw m hk as (fun a ha => h a (List.mem_cons_of_mem _ ha)) fun a ha => hc a (List.mem_cons_of_mem _ ha)]
      split
      · cases evalKwargs m as with
        | none => rfl
        | some ks => simp [renKw, renRE, ren_unalias]
      · rfl

theorem ren_exprs (m : Mode) (hk : ∀ n ∈ keptNames, ρ n = n) : ∀ es : List Expr, opaqueEs es = true → (∀ n ∈ calledInL es, ρ n = n) →
    exprsTr m (renEs ρ es) = (exprsTr m es).map (renPs ρ)
  | [], _, _ => rfl
  | e :: es, h, hc => by
    rw [opaqueEs, Bool.and_eq_true] at h
    rw [calledInL] at hc
    rw [renEs, exprsTr, exprsTr, ren_expr m hk e h.1 (fun n hn => hc n (List.mem_append_left _ hn)), ren_exprs m hk es h.2 (fun n hn => hc n (List.mem_append_right _ hn))]
    cases exprTr m e with
    | none => rfl
    | some c => cases exprsTr m es <;> rfl

/-! ### `stats` -/

theorem opq_stats : ∀ x ∈ statsTable, Opq x.2 := by
  unfold statsTable
  simp only [List.forall_mem_cons, List.not_mem_nil, false_implies, implies_true, and_true]
  have ht : c!"_time" ∈ keptNames := by decide +kernel
  repeat' apply And.intro
  all_goals first
    | (refine opq_one _ _ fun ρ hk x => ?_; simp only [rateBody, timeCol, PE.mkMethod, PE.mkBin, renP, renPs, ren_unalias, PE.unalias, pyStr, pyInt, pyBool, hk _ ht]; done)
    | skip
  all_goals
    intro ρ hk vs args ms _
    first
    | (rcases ms with _ | ⟨_, _ | ⟨_, _⟩⟩ <;> rfl)
    | (simp only [timeCol, Option.map_some, renP, renPs, hk _ ht]; done)

theorem opq_percentile (al f n : Str) : Opq (percentileSpec al f n) := by
  intro ρ hk vs args ms _
  match vs with
  | [.e x] =>
    show ((parseU32 (replaceAll al [] n)).map fun p => PE.fn f [renP ρ x, .py (percentText p)]) = (((parseU32 (replaceAll al [] n)).map fun p => PE.fn f [x, .py (percentText p)])).map (renP ρ)
    cases parseU32 (replaceAll al [] n) <;> rfl
  | [] | [.i _] | [.s _] | .e _ :: _ :: _ | .i _ :: _ :: _ | .s _ :: _ :: _ => rfl

theorem stats_facts : ∀ x ∈ statsTable, x.2.params.contains .str = false ∧ x.2.alias ≠ c!"mvzip" := by
  have h : (statsTable.map fun x => (x.2.params, x.2.alias)).all (fun x => !x.1.contains .str && !(x.2 == c!"mvzip")) = true := by decide +kernel
  intro x hx
  rw [List.all_eq_true] at h
  have := h (x.2.params, x.2.alias) (List.mem_map.2 ⟨x, hx, rfl⟩)
  simpa using this

theorem ren_stats_spec (hk : ∀ n ∈ keptNames, ρ n = n) {name : Str} {f : FnSpec} (h : statsSpec name = some f) (as : List Arg) :
    f.apply (as.map (renA ρ)) = (f.apply as).map (renP ρ) := by
  unfold statsSpec at h
  have hp : ∀ al g, ρ al = al → al ≠ c!"mvzip" → (percentileSpec al g name).apply (as.map (renA ρ)) = ((percentileSpec al g name).apply as).map (renP ρ) := by
    intro al g ha hz
    refine apply_ren (opq_percentile al g name) hk ha (textsOk_of fun i a hi _ => ?_) fun h => absurd h hz
    rcases i with _ | i <;> simp [percentileSpec] at hi
  split at h
  · next f' hf =>
    cases h
    have hm := lookupFn_inTable hf
    have hs := stats_facts _ hm
    refine apply_ren (opq_stats _ hm) hk (hk _ ?_) (textsOk_of fun i a hi _ => ?_) fun h => absurd h hs.2
    · unfold keptNames
      exact List.mem_append_left _ (List.mem_append_right _ (List.mem_map.2 ⟨_, hm, rfl⟩))
    · have := hs.1
      have hi' := List.mem_of_getElem? hi
      rw [List.contains_eq_mem] at this
      simp only [decide_eq_false_iff_not] at this
      exact absurd hi' this
  · split at h
    · cases h; exact hp _ _ (hk _ (by decide +kernel)) (by decide)
    · split at h
      · cases h; exact hp _ _ (hk _ (by decide +kernel)) (by decide)
      · split at h
        · cases h; exact hp _ _ (hk _ (by decide +kernel)) (by decide)
        · cases h

theorem ren_statsCol (hk : ∀ n ∈ keptNames, ρ n = n) {name : Str} (hn : ρ name = name) (as : List Arg) :
    statsFnBareCol name (as.map (renA ρ)) = (statsFnBareCol name as).map (renP ρ) := by
  unfold statsFnBareCol
  cases hf : statsSpec name with
  | some f => exact ren_stats_spec hk hf as
  | none =>
    simp only
    split
    · rfl
    · unfold passThrough
      rw [ren_mapArgs]
      cases mapArgs as with
      | none => rfl
      | some xs => simp [renP, renPs_map, hn]

theorem ren_unaliasName : ∀ e : Expr, opaqueE e = true → (∀ n ∈ calledIn e, ρ n = n) →
    (∃ f as al, Expr.unaliasName e = (.call f as, al) ∧ Expr.unaliasName (renE ρ e) = (.call f (renEs ρ as), al.map ρ) ∧ ρ f = f ∧ opaqueEs as = true ∧ ∀ n ∈ calledInL as, ρ n = n) ∨
    ((∀ f as, (Expr.unaliasName e).1 ≠ .call f as) ∧ ∀ f as, (Expr.unaliasName (renE ρ e)).1 ≠ .call f as)
  | .call f as, h, hc => by
    rw [opaqueE, Bool.and_eq_true] at h
    rw [calledIn] at hc
    exact .inl ⟨f, as, none, rfl, rfl, hc f List.mem_cons_self, h.1, fun n hn => hc n (List.mem_cons_of_mem _ hn)⟩
  | .alias e n, h, hc => by
    rw [opaqueE] at h
    rw [calledIn] at hc
    rcases ren_unaliasName e h hc with ⟨f, as, al, h1, h2, h3⟩ | ⟨h1, h2⟩
    · exact .inl ⟨f, as, some n, by rw [Expr.unaliasName, h1], by rw [renE, Expr.unaliasName, h2]; rfl, h3⟩
    · exact .inr ⟨by rw [Expr.unaliasName]; exact h1, by rw [renE, Expr.unaliasName]; exact h2⟩
  | .const c, _, _ => .inr ⟨fun _ _ => by simp [Expr.unaliasName], fun _ _ => by cases c <;> simp [renE, Expr.unaliasName]⟩
  | .binary .., _, _ | .unary .., _, _ | .fieldIn .., _, _ => .inr ⟨fun _ _ => by simp [Expr.unaliasName], fun _ _ => by simp [renE, Expr.unaliasName]⟩
  | .aliasedField .., _, _ | .fv .., _, _ | .fb .., _, _ | .fc .., _, _ | .timeModifier _, _, _ | .searchModifier _, _, _ | .subSearch _, _, _ => .inr ⟨fun _ _ => by simp [Expr.unaliasName], fun _ _ => by simp [renE, Expr.unaliasName]⟩

theorem statsExpr_noCall {m : Mode} {d : DF} {e : Expr} (h : ∀ f as, (Expr.unaliasName e).1 ≠ .call f as) : statsExpr m d e = none := by
  unfold statsExpr
  split
  · next heq => exact absurd (by rw [heq]) (h _ _)
  · rfl

theorem ren_statsFnBare (hk : ∀ n ∈ keptNames, ρ n = n) {f : Str} (hf : ρ f = f) (as : List Arg) (d : DF) :
    statsFnBare f (as.map (renA ρ)) (renDF ρ d) = (statsFnBare f as d).map fun x => (renDF ρ x.1, renP ρ x.2) := by
  simp only [statsFnBare, ren_statsCol hk hf]
  cases statsFnBareCol f as with
  | none => rfl
  | some c =>
    simp only [Option.map_some, Option.some.injEq, Prod.mk.injEq, and_true]
    split
    · simp [renDF, PE.mkMethod, timeCol, PE.unalias, renPs, renP, hk c!"_time" (by decide +kernel)]
    · rfl

theorem ren_statsFnRuntime (f : Str) (as : List Arg) (d : DF) :
    statsFnRuntime f (as.map (renA ρ)) (renDF ρ d) = (statsFnRuntime f as d).map fun x => (renDF ρ x.1, renP ρ x.2) := by
  simp only [statsFnRuntime, ren_mapArgs]
  cases mapArgs as with
  | none => rfl
  | some xs => simp [renP, renPs_map]

theorem ren_statsFn (m : Mode) (hk : ∀ n ∈ keptNames, ρ n = n) {f : Str} (hf : ρ f = f) (as : List Arg) (d : DF) :
    statsFn m f (as.map (renA ρ)) (renDF ρ d) = (statsFn m f as d).map fun x => (renDF ρ x.1, renP ρ x.2) := by
  cases m <;> simp only [statsFn, ren_statsFnBare hk hf, ren_statsFnRuntime]
  cases statsFnRuntime f as d <;> rfl

theorem ren_statsExpr (m : Mode) (hk : ∀ n ∈ keptNames, ρ n = n) (d : DF) (e : Expr) (h : opaqueE e = true) (hc : ∀ n ∈ calledIn e, ρ n = n) :
    statsExpr m (renDF ρ d) (renE ρ e) = (statsExpr m d e).map fun x => (renDF ρ x.1, renP ρ x.2) := by
  rcases ren_unaliasName e h hc with ⟨f, as, al, h1, h2, h3, h4, h5⟩ | ⟨h1, h2⟩
  · unfold statsExpr
    rw [h1, h2]
    simp only [ren_args m hk as h4 h5, ren_statsFn m hk h3]
    cases statsFn m f (argsTr m as) d with
    | none => rfl
    | some c =>
      simp only [Option.map_some, Option.some.injEq, Prod.mk.injEq, true_and]
      cases al with
      | none => rfl
      | some a => exact ren_withAlias c.2 a
  · rw [statsExpr_noCall h1, statsExpr_noCall h2]; rfl

theorem ren_statsLoop (m : Mode) (hk : ∀ n ∈ keptNames, ρ n = n) : ∀ (es : List Expr) (d : DF), opaqueEs es = true → (∀ n ∈ calledInL es, ρ n = n) →
    statsLoop m (renEs ρ es) (renDF ρ d) = (statsLoop m es d).map fun x => (renDF ρ x.1, renPs ρ x.2)
  | [], d, _, _ => rfl
  | e :: es, d, h, hc => by
    rw [opaqueEs, Bool.and_eq_true] at h
    rw [calledInL] at hc
    rw [renEs, statsLoop, statsLoop, ren_statsExpr m hk d e h.1 fun n hn => hc n (List.mem_append_left _ hn)]
    cases statsExpr m d e with
    | none => rfl
    | some x =>
      simp only [Option.map_some, ren_statsLoop m hk es x.1 h.2 fun n hn => hc n (List.mem_append_right _ hn)]
      cases statsLoop m es x.1 <;> rfl

theorem ren_statsKw (m : Mode) {g : Str} (hg : g = c!"stats" ∨ g = c!"tstats") (hk : ∀ n ∈ keptNames, ρ n = n) : ∀ es : List Expr, opaqueEs es = true → (∀ n ∈ calledInL es, ρ n = n) →
    statsRuntimeExprs m (renEs ρ es) = (statsRuntimeExprs m es).map fun l => l.map (renKw ρ g)
  | [], _, _ => rfl
  | e :: es, h, hc => by
    rw [opaqueEs, Bool.and_eq_true] at h
    rw [calledInL] at hc
    have he : statsRuntimeExpr m (renE ρ e) = (statsRuntimeExpr m e).map (renKw ρ g) := by
      unfold statsRuntimeExpr
      rcases ren_unaliasName e h.1 (fun n hn => hc n (List.mem_append_left _ hn)) with ⟨f, as, al, h1, h2, h3, h4, h5⟩ | ⟨h1, h2⟩
      · rw [h1, h2]
        simp only [ren_exprs m hk as h4 h5]
        cases exprsTr m as with
        | none => rfl
        | some xs =>
          have ha : (al.map ρ).getD f = ρ (al.getD f) := by cases al <;> simp [h3]
          simp [renKw, renRE, renP, ha, hg]
      · split
        · next heq => exact absurd (by rw [heq]) (h2 _ _)
        · split
          · next heq => exact absurd (by rw [heq]) (h1 _ _)
          · rfl
    rw [renEs, statsRuntimeExprs, statsRuntimeExprs, he, ren_statsKw m hg hk es h.2 fun n hn => hc n (List.mem_append_right _ hn)]
    cases statsRuntimeExpr m e with
    | none => rfl
    | some k => cases statsRuntimeExprs m es <;> rfl

theorem ren_by (l : List SpField) (h : ∀ f ∈ l, f.span.isNone = true) : (l.map (renBy ρ)).map byField = (l.map byField).map (renCN ρ) := by
  rw [List.map_map, List.map_map]
  refine List.map_congr_left fun f hf => ?_
  obtain ⟨n, sp⟩ := f
  have := h _ hf
  cases sp with
  | none => rfl
  | some => simp at this

theorem ren_byKw {g : Str} (hg : g = c!"stats" ∨ g = c!"tstats") (hb : ρ c!"by" = c!"by") (by_ : Option (List SpField)) (h : ∀ f ∈ by_.getD [], f.span.isNone = true) :
    byKwarg (by_.map fun l => l.map (renBy ρ)) = (byKwarg by_).map (renKw ρ g) := by
  cases by_ with
  | none => rfl
  | some l =>
    have e : (l.map (renBy ρ)).map (fun f => (byField f).toPE) = renPs ρ (l.map fun f => (byField f).toPE) := by
      rw [renPs_map, List.map_map, List.map_map]
      refine List.map_congr_left fun f hf => ?_
      obtain ⟨n, sp⟩ := f
      have := h _ hf
      cases sp with
      | none => rfl
      | some => simp at this
    simp only [byKwarg, Option.map_some, e]
    simp [renKw, renRE, hb, hg]

theorem ren_quoted (fs : List Str) : (fs.map ρ).map pyStr = (fs.map pyStr).map (renQuoted ρ) := by
  rw [List.map_map, List.map_map]
  refine List.map_congr_left fun f _ => ?_
  show pyStr (ρ f) = pyStr (ρ (((c!"\"" ++ f ++ c!"\"").drop 1).dropLast))
  simp

theorem ren_union (l : List Str) : (unionSources l).map (renDF ρ) = unionSources l := by
  cases l with
  | nil => rfl
  | cons x xs =>
    simp only [unionSources, Option.map_some, Option.some.injEq]
    suffices h : ∀ d, renDF ρ (xs.foldl (fun d n => .unionByName d (.source n)) d) = xs.foldl (fun d n => .unionByName d (.source n)) (renDF ρ d) from h _
    induction xs with
    | nil => intro d; rfl
    | cons y ys ih => intro d; rw [List.foldl_cons, ih]; rfl

theorem ren_dataModel (m : Mode) (a : DataModel) (s : St) : dataModelTr m a (renSt ρ s) = (dataModelTr m a s).map (renSt ρ) := by
  simp only [dataModelTr]
  refine ren_dispatch m ?_ ?_
  · simp only [dataModelRuntime, Option.map_some, ← ren_putRuntime]
    cases a.dataModelName <;> cases a.datasetName <;> cases a.searchMode <;> cases a.strictFields <;> cases a.allowOldSummaries <;> cases a.summariesOnly <;> rfl
  unfold dataModelStandalone
  obtain ⟨n, d⟩ := s
  split
  · cases d with
    | none =>
      simp only [renSt, Option.map_none]
      cases dataModelTable a.dataModelName a.datasetName <;> rfl
    | some d =>
      simp only [renSt, Option.map_some]
      cases a.dataModelName <;> cases a.datasetName <;> rfl
  · rfl

theorem ren_whereStep (m : Mode) (hk : ∀ n ∈ keptNames, ρ n = n) (w : Option Expr) (d : DF) (h : w.all opaqueE = true) (hc : ∀ n ∈ (w.map calledIn).getD [], ρ n = n) :
    whereStep m (w.map (renE ρ)) (renDF ρ d) = (whereStep m w d).map (renDF ρ) := by
  cases w with
  | none => rfl
  | some e =>
    simp only [whereStep, Option.map_some, ren_expr m hk e h hc]
    cases exprTr m e with
    | none => rfl
    | some p => simp only [Option.map_some, ren_where]

theorem ren_whereKw (m : Mode) (hk : ∀ n ∈ keptNames, ρ n = n) (hw : ρ c!"where" = c!"where") (w : Option Expr) (h : w.all opaqueE = true)
    (hc : ∀ n ∈ (w.map calledIn).getD [], ρ n = n) : whereKwarg m (w.map (renE ρ)) = (whereKwarg m w).map fun l => l.map (renKw ρ c!"tstats") := by
  cases w with
  | none => rfl
  | some e =>
    simp only [whereKwarg, Option.map_some, ren_expr m hk e h hc]
    cases exprTr m e with
    | none => rfl
    | some p => simp [renKw, renRE, hw]

theorem ren_tstatsRuntime (m : Mode) (hk : ∀ n ∈ keptNames, ρ n = n) (hb : ∀ n ∈ libraryNames, ρ n = n) (o : TStatsOpts) (es : List Expr) (dm nn : Option Str)
    (w : Option Expr) (by_ : Option (List SpField)) (s : St) (h1 : opaqueEs es = true) (h2 : w.all opaqueE = true) (h3 : ∀ f ∈ by_.getD [], f.span.isNone = true)
    (hc : ∀ n ∈ calledInL es, ρ n = n) (hw : ∀ n ∈ (w.map calledIn).getD [], ρ n = n) :
    tstatsRuntime m o (renEs ρ es) dm nn (w.map (renE ρ)) (by_.map fun l => l.map (renBy ρ)) (renSt ρ s) = (tstatsRuntime m o es dm nn w by_ s).map (renSt ρ) := by
  unfold tstatsRuntime
  split
  · rw [ren_whereKw m hk (hb _ (by decide)) w h2 hw, ren_statsKw m (.inr rfl) hk es h1 hc, ren_byKw (.inr rfl) (hb _ (by decide)) by_ h3]
    cases whereKwarg m w with
    | none => rfl
    | some wk =>
      cases statsRuntimeExprs m es with
      | none => rfl
      | some ks =>
        simp only [Option.map_some, Option.some.injEq, ← ren_putRuntime, List.map_append, List.map_nil]
        congr 1
        have e1 : ∀ v, renKw ρ c!"tstats" (c!"fill_null_value", .expr (pyStr v)) = (c!"fill_null_value", .expr (pyStr v)) := by
          intro v; simp [renKw, renRE, renP, pyStr, hb c!"fill_null_value" (by decide)]
        have e2 : renKw ρ c!"tstats" (c!"from_", .dict [(c!"datamodel", pyOptStr dm), (c!"nodename", pyOptStr nn)]) =
            (c!"from_", .dict [(c!"datamodel", pyOptStr dm), (c!"nodename", pyOptStr nn)]) := by
          cases dm <;> cases nn <;> simp [renKw, renRE, renP, pyStr, pyOptStr, hb c!"from_" (by decide)]
        cases o.fillnullValue with
        | none => simp only [List.map_cons, List.map_nil, e2]
        | some v => simp only [List.map_cons, List.map_nil, e2, e1]
  · rfl

theorem ren_tstatsStandalone (m : Mode) (hk : ∀ n ∈ keptNames, ρ n = n) (o : TStatsOpts) (es : List Expr) (dm nn : Option Str)
    (w : Option Expr) (by_ : Option (List SpField)) (p : Option Str) (s : St) (h1 : opaqueEs es = true) (h2 : w.all opaqueE = true)
    (h3 : ∀ f ∈ by_.getD [], f.span.isNone = true) (hc : ∀ n ∈ calledInL es, ρ n = n) (hw : ∀ n ∈ (w.map calledIn).getD [], ρ n = n) :
    tstatsStandalone m o (renEs ρ es) dm nn (w.map (renE ρ)) (by_.map fun l => l.map (renBy ρ)) p (renSt ρ s) = (tstatsStandalone m o es dm nn w by_ p s).map (renSt ρ) := by
  unfold tstatsStandalone
  split
  · rw [ren_dataModel]
    cases dataModelTr m ⟨dm, nn, some c!"search", false, o.allowOldSummaries, o.summariesOnly⟩ s with
    | none => rfl
    | some s1 =>
      simp only [Option.map_some, ren_cur, ren_whereStep m hk w _ h2 hw]
      cases whereStep m w s1.cur with
      | none => rfl
      | some d =>
        simp only [Option.map_some, ren_statsLoop m hk es d h1 hc]
        cases statsLoop m es d with
        | none => rfl
        | some r =>
          cases by_ with
          | none => cases p <;> rfl
          | some l =>
            cases p with
            | none =>
              have := ren_by (ρ := ρ) l h3
              simp only [Option.map_some, this]
              rfl
            | some => rfl
  · rfl

/-- One command without searches in it. -/
theorem ren_flat {m : Mode} (hk : ∀ n ∈ keptNames, ρ n = n) (hb : m = .disallow ∨ ∀ n ∈ libraryNames, ρ n = n) (x : Ext) (c : Command) (s : St) (hf : ∀ ps, c ≠ .multiSearch ps) (h : opaqueC c = true) (hc : ∀ n ∈ calledInC c, ρ n = n) :
    transform ⟨m, x⟩ (renCmd ρ c) (renSt ρ s) = (transform ⟨m, x⟩ c s).map (renSt ρ) := by
  have hcount := hk c!"count" (by decide +kernel)
  cases c with
  | addTotals a => exact ren_dispatch m rfl (ren_addTotals a s)
  | convert t cs =>
    simp only [renCmd, transform]; refine ren_dispatch m rfl ?_; simp only [convertTr, ren_cur]
    rw [ren_convertLoop t cs _ fun c hm => hc _ (List.mem_map.2 ⟨c, hm, rfl⟩)]
    cases convertLoop t cs s.cur <;> rfl
  | dataModel a => exact ren_dataModel m a s
  | eval as =>
    simp only [opaqueC, List.all_eq_true] at h
    simp only [renCmd, transform]
    refine ren_dispatch m ?_ ?_
    · simp only [evalRuntime]
      rw [ren_evalKw m hk as h fun a ha n hn => hc n (List.mem_flatMap.2 ⟨a, ha, hn⟩)]
      cases evalKwargs m as with
      | none => rfl
      | some ks => exact congrArg some (ren_putRuntime s c!"eval" [] ks)
    · simp only [evalStandalone, ren_cur]
      rw [ren_evalLoop m hk as _ h fun a ha n hn => hc n (List.mem_flatMap.2 ⟨a, ha, hn⟩)]
      cases evalLoop m as s.cur <;> rfl
  | fields r fs => simp only [renCmd, transform]; refine ren_dispatch m rfl ?_; simp only [fieldsTr, ren_cur, ren_names]; rfl
  | fillNull v fs =>
    simp only [renCmd, transform]
    refine ren_dispatch m ?_ ?_
    · cases fs with
      | none => exact congrArg some (ren_putRuntime s c!"fill_null" [] [(c!"value", .expr (pyStr v)), (c!"fields", .expr (.py c!"None"))])
      | some fs =>
        have := ren_putRuntime (ρ := ρ) s c!"fill_null" [] [(c!"value", .expr (pyStr v)), (c!"fields", .list (fs.map pyStr))]
        simp only [fillNullRuntime, Option.map_some, ren_quoted]
        exact congrArg some this
    · simp only [fillNullStandalone, ren_cur]; rfl
  | head e k n =>
    simp only [renCmd, transform]; refine ren_dispatch m rfl ?_; simp only [headTr, ren_cur]
    cases headLimit e k <;> rfl
  | makeResults a =>
    have hk' : ∀ n, n ∈ keptNames → ∀ (d : DF) (p : PE), renDF ρ (d.mkWithColumn n p) = (renDF ρ d).mkWithColumn n (renP ρ p) := by
      intro n hn d p
      have := ren_with (ρ := ρ) d n p
      rw [hk n hn] at this
      exact this.symm
    simp only [renCmd, transform]; refine ren_dispatch m rfl ?_; simp only [makeResultsTr, Option.map_some, Option.some.injEq]
    rw [← ren_put]
    congr 1
    split
    · rw [hk' _ (by decide +kernel), hk' _ (by decide +kernel), hk' _ (by decide +kernel), hk' _ (by decide +kernel), hk' _ (by decide +kernel), hk' _ (by decide +kernel), hk' _ (by decide +kernel)]
      cases a.serverGroup <;> rfl
    · rw [hk' _ (by decide +kernel)]; rfl
  | rare a => exact ren_dispatch m rfl (ren_topRare _ hcount a s)
  | top a => exact ren_dispatch m rfl (ren_topRare _ hcount a s)
  | regex i r =>
    have hw : ∀ (n : Str) (b : Bool), (renDF ρ s.cur).mkWhere (if b then PE.mkNot (.fn c!"regexp_like" [.named (ρ n), pyRaw r]) else .fn c!"regexp_like" [.named (ρ n), pyRaw r]) =
        renDF ρ (s.cur.mkWhere (if b then PE.mkNot (.fn c!"regexp_like" [.named n, pyRaw r]) else .fn c!"regexp_like" [.named n, pyRaw r])) := by
      intro n b
      rw [← ren_where]
      cases b <;> rfl
    cases i with
    | none =>
      have := hw c!"_raw" false
      rw [hk c!"_raw" (by decide +kernel)] at this
      simp only [renCmd, transform]; refine ren_dispatch m rfl ?_; simp only [regexTr, ren_cur, Option.map_some]
      rw [this]
      rfl
    | some y =>
      obtain ⟨f, op⟩ := y
      simp only [renCmd, transform]; refine ren_dispatch m rfl ?_; simp only [regexTr, ren_cur]
      split
      · exact congrArg (fun d => some ((renSt ρ s).put d)) (hw f false)
      · split
        · exact congrArg (fun d => some ((renSt ρ s).put d)) (hw f true)
        · rfl
  | rename as =>
    simp only [renCmd, transform]; refine ren_dispatch m rfl ?_; simp only [renameTr, ren_cur, Option.map_some, Option.some.injEq]
    rw [← ren_put]
    congr 1
    suffices hh : ∀ d, (as.map fun a => (ρ a.1, ρ a.2)).foldl (fun d a => DF.withColumnRenamed d a.1 a.2) (renDF ρ d) = renDF ρ (as.foldl (fun d a => .withColumnRenamed d a.1 a.2) d) from hh _
    induction as with
    | nil => intro d; rfl
    | cons a as ih => intro d; rw [List.map_cons, List.foldl_cons, List.foldl_cons, ← ih (by simp) h (fun _ hn => by simp [calledInC] at hn)]; rfl
  | sort ks n d =>
    simp only [renCmd, transform]; refine ren_dispatch m rfl ?_; simp only [sortTr, ren_cur, ren_sortKeys]
    cases sortKeys d ks with
    | none => rfl
    | some l =>
      simp only [Option.map_some, ← renPs_map]
      split <;> rfl
  | spath p i o =>
    cases o with
    | none => simp [opaqueC] at h
    | some o =>
      simp only [renCmd, transform]; refine ren_dispatch m rfl ?_; simp only [spathTr, ren_cur, Option.getD_some, Option.map_some]
      rw [show PE.fn c!"get_json_object" [.named (ρ i), pyStr (c!"$." ++ p)] = renP ρ (.fn c!"get_json_object" [.named i, pyStr (c!"$." ++ p)]) from rfl, ren_with]
      rfl
  | stats o es by_ d =>
    simp only [opaqueC, Bool.and_eq_true, List.all_eq_true] at h
    simp only [renCmd, transform]
    by_cases hm : m = .disallow
    case' neg =>
      have hb := hb.resolve_left hm
      refine ren_dispatch m ?_ ?_
      · simp only [statsRuntime]
        rw [ren_statsKw m (.inl rfl) hk es h.1 hc, ren_byKw (.inl rfl) (hb _ (by decide)) by_ h.2]
        cases statsRuntimeExprs m es with
        | none => rfl
        | some ks =>
          have := ren_putRuntime (ρ := ρ) s c!"stats" [] (byKwarg by_ ++ ks)
          rw [List.map_append] at this
          exact congrArg some this
    case' pos =>
      subst hm
      simp only [dispatch]
    all_goals simp only [statsStandalone, ren_cur]
    all_goals rw [ren_statsLoop _ hk es _ h.1 hc]
    all_goals cases statsLoop _ es s.cur with
    | none => rfl
    | some r =>
      simp only [Option.map_some]
      have hb : (((by_.map fun l => l.map (renBy ρ))).getD []).map byField = ((by_.getD []).map byField).map (renCN ρ) := by
        cases by_ with
        | none => rfl
        | some l => exact ren_by l h.2
      rw [hb]
      rfl
  | tstats o es dm nn w by_ p =>
    simp only [opaqueC, Bool.and_eq_true, List.all_eq_true] at h
    simp only [calledInC] at hc
    have hc1 := fun n hn => hc n (List.mem_append_left _ hn)
    have hc2 := fun n hn => hc n (List.mem_append_right _ hn)
    simp only [renCmd, transform]
    by_cases hm : m = .disallow
    · subst hm
      exact ren_tstatsStandalone .disallow hk o es dm nn w by_ p s h.1.1 h.1.2 h.2 hc1 hc2
    · exact ren_dispatch m (ren_tstatsRuntime m hk (hb.resolve_left hm) o es dm nn w by_ s h.1.1 h.1.2 h.2 hc1 hc2)
        (ren_tstatsStandalone m hk o es dm nn w by_ p s h.1.1 h.1.2 h.2 hc1 hc2)
  | multiSearch ps => exact absurd rfl (hf ps)
  | table fs => simp only [renCmd, transform]; refine ren_dispatch m rfl ?_; simp only [tableTr, ren_cur, ren_names]; rfl
  | tail n => simp only [renCmd, transform]; refine ren_dispatch m rfl ?_; simp only [tailTr, ren_cur]; rfl
  | where_ e =>
    simp only [renCmd, transform]; refine ren_dispatch m rfl ?_; simp only [whereTr, ren_cur]
    rw [ren_expr m hk e h hc]
    cases exprTr m e with
    | none => rfl
    | some p => simp only [Option.map_some, ren_where]; rfl
  | search e =>
    match e, h with
    | .binary (.const (.field f)) op (.const (.field v)), h =>
      simp only [opaqueC, Bool.and_eq_true, beq_iff_eq] at h
      obtain ⟨rfl, rfl⟩ := h
      simp only [renCmd, transform]
      refine ren_dispatch m ?_ ?_
      · exact congrArg some (ren_putRuntime s c!"search" [] [(c!"index", .expr (pyStr v))])
      simp only [searchStandalone]
      cases hs : splitConditions true (.binary (.const (.field c!"index")) c!"=" (.const (.field v))) with
      | none => rfl
      | some y =>
        obtain ⟨cond, is⟩ := y
        have hcond : cond = none := by
          unfold splitConditions at hs
          by_cases hv : v = c!"index"
          · subst hv; simp [isIndex] at hs
          · simp [isIndex, hv, Expr.asString] at hs
            exact hs.1.symm
        subst hcond
        simp only [Option.map_some, ren_cur]
        rw [← ren_put]
        have := ren_union (ρ := ρ) (x.order (dedupStr is))
        cases hu : unionSources (x.order (dedupStr is)) with
        | none => rfl
        | some d =>
          rw [hu] at this
          simp only [Option.map_some, Option.some.injEq] at this
          simp [this]
  | _ => simp [opaqueC] at h

theorem ren_unionStep (acc : Option DF) (d : DF) : unionStep (acc.map (renDF ρ)) (renDF ρ d) = renDF ρ (unionStep acc d) := by
  cases acc <;> rfl

mutual
/-- One command. -/
theorem ren_cmd {m : Mode} (hk : ∀ n ∈ keptNames, ρ n = n) (hb : m = .disallow ∨ ∀ n ∈ libraryNames, ρ n = n) (x : Ext) : ∀ (c : Command) (s : St),
    opaqueC c = true → (∀ n ∈ calledInC c, ρ n = n) → transform ⟨m, x⟩ (renCmd ρ c) (renSt ρ s) = (transform ⟨m, x⟩ c s).map (renSt ρ)
  | .multiSearch [], s, _, _ => ren_dispatch m rfl rfl
  | .multiSearch (p :: ps), s, h, hc => ren_dispatch m rfl (ren_subs hk hb x (p :: ps) s.next none h hc)
  | .addTotals .., _, h, hc => ren_flat hk hb x _ _ (by simp) h hc
  | .bin .., _, h, hc => ren_flat hk hb x _ _ (by simp) h hc
  | .collect .., _, h, hc => ren_flat hk hb x _ _ (by simp) h hc
  | .convert .., _, h, hc => ren_flat hk hb x _ _ (by simp) h hc
  | .dataModel .., _, h, hc => ren_flat hk hb x _ _ (by simp) h hc
  | .dedup .., _, h, hc => ren_flat hk hb x _ _ (by simp) h hc
  | .eval .., _, h, hc => ren_flat hk hb x _ _ (by simp) h hc
  | .eventStats .., _, h, hc => ren_flat hk hb x _ _ (by simp) h hc
  | .fields .., _, h, hc => ren_flat hk hb x _ _ (by simp) h hc
  | .fillNull .., _, h, hc => ren_flat hk hb x _ _ (by simp) h hc
  | .format .., _, h, hc => ren_flat hk hb x _ _ (by simp) h hc
  | .head .., _, h, hc => ren_flat hk hb x _ _ (by simp) h hc
  | .inputLookup .., _, h, hc => ren_flat hk hb x _ _ (by simp) h hc
  | .lookup .., _, h, hc => ren_flat hk hb x _ _ (by simp) h hc
  | .makeResults .., _, h, hc => ren_flat hk hb x _ _ (by simp) h hc
  | .map .., _, h, hc => ren_flat hk hb x _ _ (by simp) h hc
  | .mvCombine .., _, h, hc => ren_flat hk hb x _ _ (by simp) h hc
  | .mvExpand .., _, h, hc => ren_flat hk hb x _ _ (by simp) h hc
  | .rare .., _, h, hc => ren_flat hk hb x _ _ (by simp) h hc
  | .regex .., _, h, hc => ren_flat hk hb x _ _ (by simp) h hc
  | .rename .., _, h, hc => ren_flat hk hb x _ _ (by simp) h hc
  | .return_ .., _, h, hc => ren_flat hk hb x _ _ (by simp) h hc
  | .rex .., _, h, hc => ren_flat hk hb x _ _ (by simp) h hc
  | .sort .., _, h, hc => ren_flat hk hb x _ _ (by simp) h hc
  | .spath .., _, h, hc => ren_flat hk hb x _ _ (by simp) h hc
  | .stats .., _, h, hc => ren_flat hk hb x _ _ (by simp) h hc
  | .streamStats .., _, h, hc => ren_flat hk hb x _ _ (by simp) h hc
  | .table .., _, h, hc => ren_flat hk hb x _ _ (by simp) h hc
  | .tail .., _, h, hc => ren_flat hk hb x _ _ (by simp) h hc
  | .top .., _, h, hc => ren_flat hk hb x _ _ (by simp) h hc
  | .tstats .., _, h, hc => ren_flat hk hb x _ _ (by simp) h hc
  | .where_ .., _, h, hc => ren_flat hk hb x _ _ (by simp) h hc
  | .search .., _, h, hc => ren_flat hk hb x _ _ (by simp) h hc
  | .join .., _, h, hc => ren_flat hk hb x _ _ (by simp) h hc

/-- Several commands. -/
theorem ren_cmds {m : Mode} (hk : ∀ n ∈ keptNames, ρ n = n) (hb : m = .disallow ∨ ∀ n ∈ libraryNames, ρ n = n) (x : Ext) : ∀ (p : List Command) (s : St),
    opaqueCs p = true → (∀ n ∈ calledInCs p, ρ n = n) → runCmds ⟨m, x⟩ (renCmds ρ p) (renSt ρ s) = (runCmds ⟨m, x⟩ p s).map (renSt ρ)
  | [], s, _, _ => by rw [renCmds, runCmds, runCmds]; rfl
  | c :: p, s, h, hc => by
    rw [opaqueCs, Bool.and_eq_true] at h
    rw [calledInCs] at hc
    rw [renCmds, runCmds, runCmds, ren_cmd hk hb x c s h.1 fun n hn => hc n (List.mem_append_left _ hn)]
    cases transform ⟨m, x⟩ c s with
    | none => rfl
    | some t => exact ren_cmds hk hb x p t h.2 fun n hn => hc n (List.mem_append_right _ hn)

/-- Several searches. -/
theorem ren_subs {m : Mode} (hk : ∀ n ∈ keptNames, ρ n = n) (hb : m = .disallow ∨ ∀ n ∈ libraryNames, ρ n = n) (x : Ext) : ∀ (ps : List (List Command)) (n : Nat)
    (acc : Option DF), opaqueSubs ps = true → (∀ n ∈ calledInSubs ps, ρ n = n) →
    multiTr ⟨m, x⟩ (renSubs ρ ps) n (acc.map (renDF ρ)) = (multiTr ⟨m, x⟩ ps n acc).map (renSt ρ)
  | [], n, acc, _, _ => by rw [renSubs, multiTr, multiTr]; rfl
  | p :: ps, n, acc, h, hc => by
    rw [opaqueSubs, Bool.and_eq_true] at h
    rw [calledInSubs] at hc
    have e := ren_cmds hk hb x p ⟨n, none⟩ h.1 fun n hn => hc n (List.mem_append_left _ hn)
    have e0 : renSt ρ ⟨n, none⟩ = ⟨n, none⟩ := rfl
    rw [e0] at e
    rw [renSubs, multiTr, multiTr, e]
    cases runCmds ⟨m, x⟩ p ⟨n, none⟩ with
    | none => rfl
    | some s =>
      obtain ⟨k, d⟩ := s
      cases d with
      | none => rfl
      | some d =>
        simp only [Option.map_some, renSt, ren_unionStep]
        exact ren_subs hk hb x ps k (some (unionStep acc d)) h.2 fun n hn => hc n (List.mem_append_right _ hn)
end

end Verif.Lemmas
