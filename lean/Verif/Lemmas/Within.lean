import Verif.Props.Alias
import Verif.Spec.Rows
import Verif.Lemmas.Python
/-
Shape of translated columns: aliases occur at the top only, and every function that is applied is
acceptable.
-/
namespace Verif.Lemmas.Col
open Verif Verif.Lemmas Verif.Props Verif.Spec

/-- not the function that names a column -/
def notCol (f : Str) : Bool := f != c!"col" && f != c!"F.col"

mutual
/-- No alias anywhere, and `ok` holds of every column that is named. -/
def within (ok : Str → Bool) : PE → Bool
  | .named n => ok n
  | .lit _ | .py _ => true
  | .method c _ args => within ok c && withinL ok args
  | .fn f args => (notCol f || args.all PE.isCol) && withinL ok args
  | .aliased _ _ => false
  | .bin _ l r => within ok l && within ok r
  | .not r => within ok r

/-- all within -/
def withinL (ok : Str → Bool) : List PE → Bool
  | [] => true
  | e :: es => within ok e && withinL ok es
end

/-- Clean but possibly for one alias at the top. -/
def topWithin (ok : Str → Bool) : PE → Bool
  | .aliased c _ => c.isCol && within ok c
  | e => within ok e

theorem withinL_iff (ok : Str → Bool) (es : List PE) : withinL ok es = true ↔ ∀ e ∈ es, within ok e = true := by
  induction es with
  | nil => simp [withinL]
  | cons e es ih => simp [withinL, ih]

theorem unalias_of_within {ok : Str → Bool} {e : PE} (h : within ok e = true) : e.unalias = e := by
  cases e <;> first | rfl | simp [within] at h

theorem within_unalias_of_top {ok : Str → Bool} {e : PE} (h : topWithin ok e = true) : within ok e.unalias = true := by
  cases e with
  | aliased c n =>
    have hc : (c.isCol && within ok c) = true := h
    cases c <;> first | (simp [within, PE.isCol] at hc; done) | skip
    all_goals simpa [PE.unalias, PE.isCol] using hc
  | _ => simpa [PE.unalias, topWithin] using h

theorem topWithin_of_within {ok : Str → Bool} {e : PE} (h : within ok e = true) : topWithin ok e = true := by
  cases e <;> first | exact h | simp [within] at h

theorem within_mkMethod {ok : Str → Bool} {c : PE} {f : Str} {args : List PE} (hc : within ok c = true)
    (ha : withinL ok args = true) : within ok (PE.mkMethod c f args) = true := by
  simp [PE.mkMethod, within, unalias_of_within hc, hc, ha]

theorem within_mkBin {ok : Str → Bool} {l r : PE} {op : Str} (hl : within ok l = true)
    (hr : within ok r = true) : within ok (PE.mkBin l op r) = true := by
  simp [PE.mkBin, within, unalias_of_within hl, unalias_of_within hr, hl, hr]

theorem within_mkNot {ok : Str → Bool} {r : PE} (hr : within ok r = true) : within ok (PE.mkNot r) = true := by
  simp [PE.mkNot, within, unalias_of_within hr, hr]

/-- all bound columns are within -/
def ValsWithin (ok : Str → Bool) (vs : List ArgVal) : Prop := ∀ x, ArgVal.e x ∈ vs → within ok x = true

/-- none of the columns is bare code -/
def colsOnly (es : List PE) : Prop := ∀ e ∈ es, e.isCol = true

/-- A body that turns within columns into within columns, never into bare code; functions outside
the runtime library are always acceptable. -/
def Withins (f : FnSpec) : Prop :=
  ∀ ok : Str → Bool,   ∀ vs args ms r, ValsWithin ok vs → withinL ok ms = true → colsOnly ms → f.body vs args ms = some r →
    within ok r = true ∧ r.isCol = true

/-- The table arms apply `f` to their columns. -/
theorem withins_one (a : Str) (f : PE → PE)
    (hf : ∀ ok : Str → Bool,       ∀ x, within ok x = true → within ok (f x) = true ∧ (f x).isCol = true) : Withins (.one a f) := by
  intro ok vs args ms r hv hm hcol h
  unfold FnSpec.one at h
  dsimp only at h
  split at h
  · simp only [Option.some.injEq] at h; subst h
    exact hf ok _ (hv _ (by simp))
  · simp at h

theorem withins_two (a : Str) (f : PE → PE → PE)
    (hf : ∀ ok : Str → Bool,       ∀ x y, within ok x = true → within ok y = true → within ok (f x y) = true ∧ (f x y).isCol = true) :
    Withins (.two a f) := by
  intro ok vs args ms r hv hm hcol h
  unfold FnSpec.two at h
  dsimp only at h
  split at h
  · simp only [Option.some.injEq] at h; subst h
    exact hf ok _ _ (hv _ (by simp)) (hv _ (by simp))
  · simp at h

theorem withins_nullary (a : Str) (e : PE)
    (he : ∀ ok : Str → Bool,       within ok e = true ∧ e.isCol = true) : Withins (.nullary a e) := by
  intro ok vs args ms r hv hm hcol h
  simp only [FnSpec.nullary, Option.some.injEq] at h; subst h
  exact he ok

section
variable {ok : Str → Bool}

theorem caseFrom_within (neg : Bool) : ∀ (ms : List PE) (acc : PE), withinL ok ms = true → within ok acc = true →
    acc.isCol = true → within ok (caseFrom neg acc ms) = true ∧ (caseFrom neg acc ms).isCol = true
  | [], acc, _, ha, hc => by simp [caseFrom, ha, hc]
  | [_], acc, _, ha, hc => by simp [caseFrom, ha, hc]
  | c :: v :: rest, acc, hm, ha, _ => by
    rw [caseFrom]
    simp only [withinL, Bool.and_eq_true] at hm
    refine caseFrom_within neg rest _ hm.2.2 (within_mkMethod ha ?_) rfl
    cases neg
    · simp [withinL, hm.1, hm.2.1]
    · simp [withinL, within_mkNot hm.1, hm.2.1]

theorem caseBody_within {neg : Bool} {ms : List PE} {r : PE} (hm : withinL ok ms = true)
    (h : caseBody neg ms = some r) : within ok r = true ∧ r.isCol = true := by
  unfold caseBody at h
  split at h
  · split at h
    · simp only [Option.some.injEq] at h; subst h
      simp only [withinL, Bool.and_eq_true] at hm
      refine caseFrom_within neg _ _ hm.2.2 ?_ rfl
      cases neg
      · simp [within, withinL, hm.1, hm.2.1, notCol]
      · simp [within, withinL, within_mkNot hm.1, hm.2.1, notCol]
    · simp at h
  · simp at h

theorem foldArgs_within {f : PE → PE → PE} {ms : List PE} {r : PE}
    (hf : ∀ a b, within ok a = true → within ok b = true → within ok (f a b) = true)
    (hm : withinL ok ms = true) (h : foldArgs f ms = some r) : within ok r = true := by
  cases ms with
  | nil => simp [foldArgs] at h
  | cons x xs =>
    simp only [foldArgs, Option.some.injEq] at h
    subst h
    simp only [withinL, Bool.and_eq_true] at hm
    obtain ⟨hx, hm⟩ := hm
    induction xs generalizing x with
    | nil => exact hx
    | cons y ys ih =>
      simp only [withinL, Bool.and_eq_true] at hm
      exact ih _ (hf _ _ hx hm.1) hm.2

theorem offsetTime_within {t : PE} (o : TimeSpan) (h : within ok t = true) : within ok (offsetTime t o) = true :=
  within_mkBin h (by simp [within, withinL, pyStr, notCol])

theorem relativeTimeBody_within {t : PE} {s : SnapTime} {r : PE} (ht : within ok t = true)
    (h : relativeTimeBody t s = some r) : within ok r = true ∧ r.isCol = true := by
  have h0 : within ok (PE.fn c!"to_timestamp" [t]) = true := by
    simp [within, withinL, ht, notCol]
  have h1 : ∀ u x, within ok x = true → within ok (PE.fn c!"date_trunc" [pyStr u, x]) = true := by
    intro u x hx
    simp [within, withinL, pyStr, hx, notCol]
  unfold relativeTimeBody roundTime at h
  dsimp only at h
  cases hr : roundUnit s.snap with
  | none => simp [hr] at h
  | some u =>
    simp only [hr, Option.map_some, Option.some.injEq] at h
    subst h
    cases s.span <;> cases s.snapOffset
    · exact ⟨h1 _ _ h0, rfl⟩
    · exact ⟨offsetTime_within _ (h1 _ _ h0), rfl⟩
    · exact ⟨h1 _ _ (offsetTime_within _ h0), rfl⟩
    · exact ⟨offsetTime_within _ (h1 _ _ (offsetTime_within _ h0)), rfl⟩

theorem relativeTimeArgs_within {t : PE} {args : List Arg} {r : PE} (ht : within ok t = true)
    (h : relativeTimeArgs t args = some r) : within ok r = true ∧ r.isCol = true := by
  unfold relativeTimeArgs at h
  split at h
  · exact relativeTimeBody_within ht h
  · simp at h

theorem mvindexBody_within {x : PE} {n : Int} {args : List Arg} {r : PE} (hx : within ok x = true)
    (h : mvindexBody x n args = some r) : within ok r = true ∧ r.isCol = true := by
  unfold mvindexBody at h
  split at h
  · simp only [Option.some.injEq] at h; subst h
    simp [within, withinL, hx, pyInt, PE.isCol, notCol]
  · split at h
    · simp at h
    · simp only [Option.some.injEq] at h; subst h
      simp [within, withinL, hx, pyInt, PE.isCol, notCol]

theorem mvzipBody_within {x y : PE} {args : List Arg} {r : PE} (hx : within ok x = true) (hy : within ok y = true)
    (h : mvzipBody x y args = some r) : within ok r = true ∧ r.isCol = true := by
  unfold mvzipBody at h
  split at h
  · simp at h
  · simp only [Option.some.injEq] at h; subst h
    simp [within, withinL, hx, hy, PE.isCol, notCol]

end

theorem foldArgs_isCol {f : PE → PE → PE} {ms : List PE} {r : PE} (hf : ∀ a b, (f a b).isCol = true)
    (hm : colsOnly ms) (h : foldArgs f ms = some r) : r.isCol = true := by
  cases ms with
  | nil => simp [foldArgs] at h
  | cons x xs =>
    simp only [foldArgs, Option.some.injEq] at h
    subst h
    have hx : x.isCol = true := hm x (by simp)
    clear hm
    induction xs generalizing x with
    | nil => exact hx
    | cons y ys ih => exact ih _ (hf _ _)

theorem withins_eval : ∀ x ∈ evalTable, Withins x.2 := by
  unfold evalTable
  simp only [List.forall_mem_cons, List.not_mem_nil, false_implies, implies_true, and_true]
  repeat' apply And.intro
  all_goals first
    | (refine withins_one _ _ ?_; intro ok x hx; refine ⟨?_, rfl⟩)
    | (refine withins_two _ _ ?_; intro ok x y hx hy; refine ⟨?_, rfl⟩)
    | (refine withins_nullary _ _ ?_; intro ok; refine ⟨?_, rfl⟩)
    | skip
  all_goals try (exact within_mkMethod hx (by simp [withinL, within, pyStr, *]))
  all_goals try (simp_all [within, withinL, pyStr, pyInt, PE.mkMethod, unalias_of_within, notCol, memkFn, rmunitFn, rmcommaFn, PE.mkBin, PE.unalias]; done)
  all_goals
    intro ok vs args ms r hv hm hcol h
    dsimp only at h
    first
      | exact caseBody_within hm h
      | (simp only [Option.some.injEq] at h; subst h; simp [within, PE.isCol, hm, notCol]; done)
      | skip
  all_goals try
    (split at h
     · first
         | exact relativeTimeArgs_within (hv _ (by simp)) h
         | exact mvindexBody_within (hv _ (by simp)) h
         | exact mvzipBody_within (hv _ (by simp)) (hv _ (by simp)) h
         | (simp only [Option.some.injEq] at h; subst h
            simp_all [ValsWithin, within, withinL, pyStr, pyInt, notCol, PE.isCol, PE.mkMethod, PE.unalias, unalias_of_within]; done)
         | (simp only [Option.some.injEq] at h; subst h
            exact ⟨within_mkMethod (hv _ (by simp)) (by simp [withinL, within, pyStr]), rfl⟩)
         | (simp only [Option.map_eq_some_iff] at h
            obtain ⟨t, _, rfl⟩ := h
            simp_all [ValsWithin, within, withinL, pyStr, pyInt, notCol, PE.isCol, PE.mkMethod, PE.unalias, unalias_of_within]; done)
     · simp at h; done)
  · simp only [Option.map_eq_some_iff] at h
    obtain ⟨o, ho, rfl⟩ := h
    have := foldArgs_within (f := fun v c => PE.mkBin v c!"+" c) (fun a b => within_mkBin) hm ho
    exact ⟨within_mkBin this (by simp [within, pyInt]), rfl⟩
  · refine ⟨foldArgs_within (f := fun v c => .fn c!"greatest" [v, c]) (fun a b ha hb => ?_) hm h,
      foldArgs_isCol (fun _ _ => rfl) hcol h⟩
    simp [within, withinL, ha, hb, notCol]
  · refine ⟨foldArgs_within (f := fun v c => .fn c!"least" [v, c]) (fun a b ha hb => ?_) hm h,
      foldArgs_isCol (fun _ _ => rfl) hcol h⟩
    simp [within, withinL, ha, hb, notCol]

/-- The columns of an argument list are within. -/
def ArgsWithin (ok : Str → Bool) (as : List Arg) : Prop :=
  ∀ a ∈ as, ∀ x, a.col = some x → within ok x = true ∧ x.isCol = true

theorem ArgsWithin.drop {ok : Str → Bool} {as : List Arg} (h : ArgsWithin ok as) (n : Nat) :
    ArgsWithin ok (as.drop n) := fun a ha => h a (List.mem_of_mem_drop ha)

theorem mapArgs_within {ok : Str → Bool} {as : List Arg} {xs : List PE} (ha : ArgsWithin ok as)
    (h : mapArgs as = some xs) : withinL ok xs = true ∧ colsOnly xs := by
  induction as generalizing xs with
  | nil =>
    simp only [mapArgs, Option.some.injEq] at h
    subst h
    exact ⟨rfl, by simp [colsOnly]⟩
  | cons a as ih =>
    rw [mapArgs] at h
    split at h
    · simp at h
    · rename_i x hx
      split at h
      · simp at h
      · rename_i ys hys
        simp only [Option.some.injEq] at h; subst h
        obtain ⟨h1, h2⟩ := ih (fun b hb => ha b (List.mem_cons_of_mem _ hb)) hys
        obtain ⟨h3, h4⟩ := ha a (by simp) x hx
        refine ⟨by simp [withinL, h1, h3], fun e he => ?_⟩
        rcases List.mem_cons.mp he with rfl | he
        · exact h4
        · exact h2 e he

theorem bindParams_within {ok : Str → Bool} {ps : List PK} {as : List Arg} {vs : List ArgVal}
    (ha : ArgsWithin ok as) (h : bindParams ps as = some vs) : ValsWithin ok vs := by
  induction ps generalizing as vs with
  | nil =>
    simp only [bindParams, Option.some.injEq] at h
    subst h; intro x hx; simp at hx
  | cons p ps ih =>
    cases as with
    | nil => simp [bindParams] at h
    | cons a as =>
      rw [bindParams] at h
      split at h
      · simp at h
      · rename_i v hv
        split at h
        · simp at h
        · rename_i vs0 hvs
          simp only [Option.some.injEq] at h; subst h
          intro x hx
          rcases List.mem_cons.mp hx with rfl | hx
          · cases p with
            | expr =>
              simp only [bindParam, Option.map_eq_some_iff] at hv
              obtain ⟨y, hy, he⟩ := hv
              cases he
              exact (ha a (by simp) _ hy).1
            | int => simp [bindParam] at hv
            | str => simp [bindParam] at hv
          · exact ih (fun b hb => ha b (List.mem_cons_of_mem _ hb)) hvs x hx

theorem apply_within {ok : Str → Bool} {f : FnSpec}
    (hf : ∀ vs args ms r, ValsWithin ok vs → withinL ok ms = true → colsOnly ms → f.body vs args ms = some r →
      within ok r = true ∧ r.isCol = true) {as : List Arg} {r : PE} (ha : ArgsWithin ok as)
    (h : f.apply as = some r) : ∃ c, r = .aliased c f.alias ∧ within ok c = true ∧ c.isCol = true := by
  unfold FnSpec.apply at h
  split at h
  · simp at h
  · rename_i vs hvs
    simp only [Option.map_eq_some_iff] at h
    obtain ⟨o, ho, rfl⟩ := h
    have key : within ok o = true ∧ o.isCol = true := by
      have hv := bindParams_within ha hvs
      cases hr : f.rest with
      | exact =>
        simp only [hr] at ho
        split at ho
        · exact hf _ _ _ _ hv rfl (by simp [colsOnly]) ho
        · simp at ho
      | ignored => simp only [hr] at ho; exact hf _ _ _ _ hv rfl (by simp [colsOnly]) ho
      | mapped =>
        simp only [hr] at ho
        split at ho
        · simp at ho
        · rename_i ms hms
          obtain ⟨h1, h2⟩ := mapArgs_within (ha.drop _) hms
          exact hf _ _ _ _ hv h1 h2 ho
    exact ⟨o, by rw [PE.withAlias, unalias_of_within key.1], key.1, key.2⟩

section
variable {ok : Str → Bool}
variable {m : Mode}

theorem binTr_within {l s r a b p} (ha : ∀ x, a = some x → topWithin ok x = true)
    (hb : ∀ x, b = some x → topWithin ok x = true) (h : binTr l s r a b = some p) :
    within ok p = true := by
  have hg : ∀ op, generalBin a op b = some p → within ok p = true := by
    intro op h
    unfold generalBin at h
    split at h
    · simp only [Option.some.injEq] at h; subst h
      simp only [PE.mkBin, within, Bool.and_eq_true]
      exact ⟨within_unalias_of_top (ha _ rfl), within_unalias_of_top (hb _ rfl)⟩
    · simp at h
  have hl : ∀ x q, topWithin ok x = true → within ok (likeTest x q) = true := by
    intro x q hx
    simp [likeTest, PE.mkMethod, within, within_unalias_of_top hx, withinL, pyStr]
  have hw : ∀ op q, wildcardTr a op q = some p → within ok p = true := by
    intro op q h
    unfold wildcardTr at h
    split at h
    · simp at h
    · repeat' split at h
      · simp only [Option.some.injEq] at h; subst h; exact hl _ _ (ha _ rfl)
      · simp only [Option.some.injEq] at h; subst h; exact hl _ _ (ha _ rfl)
      · simp only [Option.some.injEq] at h; subst h; exact within_mkNot (hl _ _ (ha _ rfl))
      · simp at h
  unfold binTr at h
  split at h
  · exact hw _ _ h
  · split at h
    · split at h
      · simp only [Option.some.injEq] at h; subst h
        simp [within, withinL, pyStr, notCol]
      · exact hg _ h
    · exact hg _ h
  · exact hg _ h

theorem fieldInCheck_within {f e p} (hf : ok f = true) (h : fieldInCheck f e = some p) : within ok p = true := by
  unfold fieldInCheck at h
  repeat' split at h
  all_goals first
    | (simp only [Option.some.injEq] at h; subst h
       first
         | exact within_mkMethod (by simp [within, hf]) (by simp [within, withinL, pyStr])
         | exact within_mkBin (by simp [within, hf]) (by simp [within, pyStr, pyInt, pyBool]))
    | simp at h

theorem fieldInChecks_within {f es ps} (hf : ok f = true) (h : fieldInChecks f es = some ps) : withinL ok ps = true := by
  induction es generalizing ps with
  | nil => simp only [fieldInChecks, Option.some.injEq] at h; subst h; simp [withinL]
  | cons e es ih =>
    rw [fieldInChecks] at h
    repeat' split at h
    · simp at h
    · simp at h
    · rename_i _ c hc _ cs hcs
      simp only [Option.some.injEq] at h; subst h
      simp [withinL, fieldInCheck_within hf hc, ih hcs]

theorem joinBinFrom_within {op : Str} : ∀ {ps : List PE} {x : PE}, within ok x = true → withinL ok ps = true →
    within ok (joinBinFrom op x ps) = true := by
  intro ps
  induction ps with
  | nil => intro x hx _; simpa [joinBinFrom] using hx
  | cons p ps ih =>
    intro x hx hp
    rw [joinBinFrom]
    simp only [withinL, Bool.and_eq_true] at hp
    exact ih (by simp [within, hx, hp.1]) hp.2

theorem fieldInTr_within {f es p} (hf : ok f = true) (h : fieldInTr f es = some p) : within ok p = true := by
  simp only [fieldInTr, Option.map_eq_some_iff] at h
  obtain ⟨cs, hcs, rfl⟩ := h
  have := fieldInChecks_within (ok := ok) hf hcs
  cases cs with
  | nil => rfl
  | cons c cs =>
    simp only [withinL, Bool.and_eq_true] at this
    simpa only [joinAsBinaries, Option.getD_some] using joinBinFrom_within this.1 this.2

theorem passThrough_within {n : Str} {as : List Arg} {p : PE} (ha : ArgsWithin ok as)
    (h : passThrough n as = some p) : topWithin ok p = true := by
  simp only [passThrough, Option.map_eq_some_iff] at h
  obtain ⟨xs, hxs, rfl⟩ := h
  have h := mapArgs_within ha hxs
  have h2 : xs.all PE.isCol = true := List.all_eq_true.2 h.2
  simp only [topWithin, PE.isCol, within, h.1, h2, Bool.or_true, Bool.and_true]

theorem evalFnBare_within {n : Str} {as : List Arg} {p : PE} (ha : ArgsWithin ok as)
    (h : evalFnBare n as = some p) : topWithin ok p = true := by
  unfold evalFnBare at h
  split at h
  · rename_i f hf
    obtain ⟨c, rfl, h1, h2⟩ := apply_within (withins_eval _ (lookupFn_mem hf) ok) ha h
    simp [topWithin, h1, h2]
  · split at h
    · simp at h
    · exact passThrough_within ha h

theorem evalFnRuntime_within {n : Str} {as : List Arg} {p : PE} (ha : ArgsWithin ok as)
    (h : evalFnRuntime n as = some p) : topWithin ok p = true := by
  unfold evalFnRuntime at h
  split at h
  · obtain ⟨c, rfl, h1, h2⟩ := apply_within (f := cidrmatchRuntime) (ok := ok) (fun vs args ms r hv hm hc h => by
      unfold cidrmatchRuntime at h
      dsimp only at h
      split at h
      · simp only [Option.some.injEq] at h; subst h
        have := hv _ (List.mem_cons_of_mem _ (List.mem_singleton.mpr rfl))
        simp [PE.isCol, within, withinL, pyStr, this, notCol]
      · simp at h) ha h
    simp [topWithin, h1, h2]
  · simp only [Option.map_eq_some_iff] at h
    obtain ⟨xs, hxs, rfl⟩ := h
    simp [topWithin, within, notCol, (mapArgs_within ha hxs).1]


theorem evalFn_within {n : Str} {as : List Arg} {p : PE} (ha : ArgsWithin ok as)
    (h : evalFn m n as = some p) : topWithin ok p = true := by
  cases m with
  | disallow => exact evalFnBare_within ha h
  | require => exact evalFnRuntime_within ha h
  | allow =>
    simp only [evalFn, orElse] at h
    split at h
    · rename_i x hx
      simp only [Option.some.injEq] at h; subst h
      exact evalFnRuntime_within ha hx
    · exact evalFnBare_within ha h

mutual
theorem exprTr_topWithin : ∀ (e : Expr) (p : PE), (∀ n ∈ exprFields e, ok n = true) → exprTr m e = some p →
    topWithin ok p = true := by
  intro e p hf h
  match e with
  | .binary l s r =>
    rw [exprTr] at h
    rw [exprFields] at hf
    exact topWithin_of_within (binTr_within
      (fun x hx => exprTr_topWithin l x (fun n h => hf n (List.mem_append_left _ h)) hx)
      (fun x hx => exprTr_topWithin r x (fun n h => hf n (List.mem_append_right _ h)) hx) h)
  | .unary s r =>
    rw [exprTr] at h
    rw [exprFields] at hf
    split at h
    · simp only [Option.map_eq_some_iff] at h
      obtain ⟨o, ho, rfl⟩ := h
      have := within_unalias_of_top (exprTr_topWithin r o hf ho)
      simpa [PE.mkNot, topWithin, within] using this
    · simp at h
  | .const k =>
    rw [exprTr] at h
    unfold constTr at h
    split at h
    all_goals first
      | (simp only [Option.some.injEq] at h; subst h; simp [topWithin, within]; done)
      | (simp only [Option.some.injEq] at h; subst h; exact hf _ (by simp [exprFields]))
      | simp at h
  | .fieldIn f es => rw [exprTr] at h; exact topWithin_of_within (fieldInTr_within (hf _ (by simp [exprFields])) h)
  | .call n args =>
    rw [exprTr] at h
    rw [exprFields] at hf
    exact evalFn_within
      (argsTr_within args hf) h
  | .fv .. | .fb .. | .fc .. | .alias .. | .aliasedField .. | .searchModifier .. | .subSearch ..
  | .timeModifier .. => simp [exprTr] at h

theorem argsTr_within : ∀ (es : List Expr), (∀ n ∈ exprFieldsL es, ok n = true) → ArgsWithin ok (argsTr m es) := by
  intro es hf
  match es with
  | [] => simp [argsTr, ArgsWithin]
  | e :: es =>
    rw [argsTr]
    rw [exprFieldsL] at hf
    intro a ha x hx
    rcases List.mem_cons.mp ha with rfl | ha
    · simp only [Option.map_eq_some_iff] at hx
      obtain ⟨o, ho, rfl⟩ := hx
      have ht := exprTr_topWithin e o (fun n h => hf n (List.mem_append_left _ h)) ho
      refine ⟨within_unalias_of_top ht, ?_⟩
      have hc := exprTr_isCol ho
      cases o with
      | aliased c n =>
        have : (c.isCol && within ok c) = true := ht
        cases c <;> simp_all [PE.unalias, PE.isCol, within]
      | _ => simpa [PE.unalias] using hc
    · exact argsTr_within es (fun n h => hf n (List.mem_append_right _ h)) a ha x hx
end
end


/-! ### The columns read by the Python expression -/

theorem path_deep : ∀ {ns : List Str} {e : PyE} {a b : Str} {t : PyE}, pathTree (.attr (.attr e a) b) ns = some t →
    ∀ x y, t ≠ .attr (.name x) y
  | [], e, a, b, t, h, x, y => by
    simp only [pathTree, Option.some.injEq] at h; subst h; simp
  | n :: ns, e, a, b, t, h, x, y => by
    simp only [pathTree] at h
    split at h
    · exact path_deep h x y
    · simp at h

theorem path_refs : ∀ {ns : List Str} {e t : PyE}, pathTree e ns = some t → colRefs e = [] → colRefs t = []
  | [], e, t, h, he => by simp only [pathTree, Option.some.injEq] at h; subst h; exact he
  | n :: ns, e, t, h, he => by
    simp only [pathTree] at h
    split at h
    · exact path_refs h (by simp [colRefs, he])
    · simp at h

theorem func_refs {f : Str} {t : PyE} (h : funcTree f = some t) : colRefs t = [] := by
  obtain ⟨n, ns, _, hp, _, _⟩ := func_shape h
  exact path_refs hp (by simp [colRefs])

theorem func_notCol {f : Str} {t : PyE} (hf : notCol f = true) (h : funcTree f = some t) :
    t ≠ .attr (.name c!"F") c!"col" := by
  rintro rfl
  obtain ⟨n, ns, _, hp, ht, hne⟩ := func_shape h
  match ns with
  | [] => exact hne rfl
  | [a] =>
    simp only [pathTree] at hp
    split at hp
    · simp only [Option.some.injEq, PyE.attr.injEq, PyE.name.injEq] at hp
      obtain ⟨rfl, rfl⟩ := hp
      have hc : funcText f = c!"F.col" := by rw [ht]; rfl
      unfold funcText at hc
      simp only [notCol, Bool.and_eq_true, bne_iff_ne, ne_eq] at hf
      split at hc
      · exact hf.2 hc
      · have := List.append_cancel_left (as := c!"F.") (bs := f) (cs := c!"col") hc
        exact hf.1 this
    · simp at hp
  | a :: b :: ns =>
    simp only [pathTree] at hp
    split at hp
    · split at hp
      · exact path_deep hp _ _ rfl
      · simp at hp
    · simp at hp

theorem code_refs {c : Str} {t : PyE} (h : codeTree c = some t) : colRefs t = [] := by
  unfold codeTree at h
  repeat' split at h
  all_goals first
    | (simp only [Option.some.injEq] at h; subst h; simp [colRefs]; done)
    | simp at h

theorem receiver_name {p : PE} {t : PyE} (hr : isReceiver p = true) (h : pyTree p = some t) (x : Str) : t ≠ .name x := by
  rintro rfl
  cases p with
  | not r => simp [isReceiver] at hr
  | py c => simp [isReceiver] at hr
  | _ =>
    simp only [pyTree] at h
    repeat' split at h
    all_goals first
      | (simp [fCall] at h; done)
      | (simp at h; done)

theorem col_noStr {p : PE} {t : PyE} (hc : p.isCol = true) (h : pyTree p = some t) (x : Str) : t ≠ .str x := by
  rintro rfl
  cases p with
  | py c => simp [PE.isCol] at hc
  | _ =>
    simp only [pyTree] at h
    repeat' split at h
    all_goals first
      | (simp [fCall] at h; done)
      | (simp at h; done)

theorem cols_noStr : ∀ (ps : List PE) (ts : List PyE), ps.all PE.isCol = true → pyTrees ps = some ts →
    ts.filterMap textName = []
  | [], ts, _, h => by simp only [pyTrees, Option.some.injEq] at h; subst h; rfl
  | p :: ps, ts, hc, h => by
    simp only [pyTrees] at h
    rw [List.all_cons, Bool.and_eq_true] at hc
    split at h
    · rename_i a b ha hb
      simp only [Option.some.injEq] at h; subst h
      have h1 := col_noStr hc.1 ha
      have h2 := cols_noStr ps b hc.2 hb
      rw [List.filterMap_cons]
      cases a <;> first | exact h2 | exact absurd rfl (h1 _)
    · simp at h

theorem lams_notCols : ∀ (ps : List PE) (ts : List PyE), lamTrees ps = some ts → ps.all PE.isCol = false
  | [], _, h => by simp [lamTrees] at h
  | p :: ps, ts, h => by
    rcases lams_cases h with ⟨t, us, _, hu, _⟩ | ⟨c, t, rfl, _, _, _⟩
    · rw [List.all_cons, lams_notCols ps us hu, Bool.and_false]
    · rfl

mutual
theorem refs_within {ok : Str → Bool} : ∀ (p : PE) (t : PyE), within ok p = true → pyTree p = some t →
    ∀ c ∈ colRefs t, ok c = true := by
  intro p t hw h
  match p with
  | .named n =>
    simp only [pyTree] at h
    split at h
    · simp only [Option.some.injEq] at h; subst h
      intro c hc
      simp only [fCall, colRefs, if_true, textName, List.filterMap_cons, List.filterMap_nil, List.mem_singleton] at hc
      subst hc
      simpa [within] using hw
    · simp at h
  | .lit c =>
    simp only [pyTree, Option.map_eq_some_iff] at h
    obtain ⟨v, hv, rfl⟩ := h
    intro c hc
    rw [fCall, colRefs, if_neg (by simp)] at hc
    simp [colRefs, colRefsL, code_refs hv] at hc
  | .method col f args =>
    simp only [within, Bool.and_eq_true] at hw
    simp only [pyTree] at h
    split at h
    · rename_i hr
      simp only [Bool.and_eq_true] at hr
      split at h
      · rename_i a b ha hb
        simp only [Option.some.injEq] at h; subst h
        intro c hc
        rw [colRefs, if_neg (by simpa using fun e => absurd e (receiver_name hr.1 ha _))] at hc
        rcases List.mem_append.1 hc with hc | hc
        · exact refs_within col a hw.1 ha c (by simpa [colRefs] using hc)
        · exact refs_withinL args b hw.2 hb c hc
      · simp at h
    · simp at h
  | .fn f args =>
    simp only [within, Bool.and_eq_true] at hw
    obtain ⟨a, b, ha, hb, rfl⟩ := fn_tree h
    have hr : ∀ c ∈ colRefsL b, ok c = true := hb.elim (refs_withinL args b hw.2) (refs_withinLam args b hw.2)
    intro c hc
    rcases Bool.or_eq_true _ _ ▸ hw.1 with h1 | h1
    · rw [colRefs, if_neg (func_notCol h1 ha), func_refs ha] at hc
      exact hr c (by simpa using hc)
    · rw [colRefs] at hc
      split at hc
      · rcases hb with hb | hb
        · rw [cols_noStr args b h1 hb] at hc
          simp at hc
        · exact absurd h1 (by rw [lams_notCols args b hb]; decide)
      · rw [func_refs ha] at hc
        exact hr c (by simpa using hc)
  | .aliased c n => simp [within] at hw
  | .bin op l r =>
    simp only [within, Bool.and_eq_true] at hw
    simp only [pyTree] at h
    split at h
    · split at h
      · rename_i a b ha hb
        simp only [Option.some.injEq] at h; subst h
        intro c hc
        rw [colRefs] at hc
        rcases List.mem_append.1 hc with hc | hc
        · exact refs_within l a hw.1 ha c hc
        · exact refs_within r b hw.2 hb c hc
      · simp at h
    · simp at h
  | .not r =>
    simp only [within] at hw
    simp only [pyTree, Option.map_eq_some_iff] at h
    obtain ⟨v, hv, rfl⟩ := h
    intro c hc
    rw [colRefs] at hc
    exact refs_within r v hw hv c hc
  | .py c =>
    simp only [pyTree] at h
    intro c hc
    rw [code_refs h] at hc
    simp at hc

theorem refs_withinLam {ok : Str → Bool} : ∀ (ps : List PE) (ts : List PyE), withinL ok ps = true → lamTrees ps = some ts →
    ∀ c ∈ colRefsL ts, ok c = true := by
  intro ps ts hw h
  match ps with
  | [] => simp [lamTrees] at h
  | p :: ps =>
    simp only [withinL, Bool.and_eq_true] at hw
    intro c hc
    rcases lams_cases h with ⟨t, us, ht, hu, rfl⟩ | ⟨d, t, rfl, rfl, ht, rfl⟩
    · rw [colRefsL] at hc
      rcases List.mem_append.1 hc with hc | hc
      · exact refs_within p t hw.1 ht c hc
      · exact refs_withinLam ps us hw.2 hu c hc
    · obtain ⟨d, v, _, _, rfl⟩ := lam_cases ht
      simp [colRefsL, colRefs, fCall] at hc

theorem refs_withinL {ok : Str → Bool} : ∀ (ps : List PE) (ts : List PyE), withinL ok ps = true → pyTrees ps = some ts →
    ∀ c ∈ colRefsL ts, ok c = true := by
  intro ps ts hw h
  match ps with
  | [] => simp only [pyTrees, Option.some.injEq] at h; subst h; simp [colRefsL]
  | p :: ps =>
    simp only [withinL, Bool.and_eq_true] at hw
    simp only [pyTrees] at h
    split at h
    · rename_i a b ha hb
      simp only [Option.some.injEq] at h; subst h
      intro c hc
      rw [colRefsL] at hc
      rcases List.mem_append.1 hc with hc | hc
      · exact refs_within p a hw.1 ha c hc
      · exact refs_withinL ps b hw.2 hb c hc
    · simp at h
end

/-- A translated column without its alias reads only columns named in the expression. -/
theorem refs_expr {m : Mode} {e : Expr} {p : PE} {t : PyE} (h : exprTr m e = some p) (ht : pyTree p.unalias = some t) : ∀ c ∈ colRefs t, c ∈ exprFields e := by
  have := exprTr_topWithin (ok := fun n => decide (n ∈ exprFields e)) e p (by simp) h
  intro c hc
  simpa using refs_within _ _ (within_unalias_of_top this) ht c hc

end Verif.Lemmas.Col
