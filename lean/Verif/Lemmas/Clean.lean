import Verif.Lemmas.Funcs
/-
Shape of translated columns: aliases occur at the top only, and every function that is applied is
acceptable.
-/
namespace Verif.Lemmas
open Verif

mutual
/-- No alias anywhere, and `ok` holds of every applied function. -/
def clean (ok : Str → Bool) : PE → Bool
  | .named _ | .lit _ | .py _ => true
  | .method c _ args => clean ok c && cleanL ok args
  | .fn f args => ok f && cleanL ok args
  | .aliased _ _ => false
  | .bin _ l r => clean ok l && clean ok r
  | .not r => clean ok r

/-- all clean -/
def cleanL (ok : Str → Bool) : List PE → Bool
  | [] => true
  | e :: es => clean ok e && cleanL ok es
end

/-- Clean but possibly for one alias at the top. -/
def topClean (ok : Str → Bool) : PE → Bool
  | .aliased c _ => c.isCol && clean ok c
  | e => clean ok e

theorem cleanL_iff (ok : Str → Bool) (es : List PE) : cleanL ok es = true ↔ ∀ e ∈ es, clean ok e = true := by
  induction es with
  | nil => simp [cleanL]
  | cons e es ih => simp [cleanL, ih]

theorem unalias_of_clean {ok : Str → Bool} {e : PE} (h : clean ok e = true) : e.unalias = e := by
  cases e <;> first | rfl | simp [clean] at h

theorem clean_unalias_of_top {ok : Str → Bool} {e : PE} (h : topClean ok e = true) : clean ok e.unalias = true := by
  cases e with
  | aliased c n =>
    have hc : (c.isCol && clean ok c) = true := h
    cases c <;> first | (simp [clean, PE.isCol] at hc; done) | skip
    all_goals simpa [PE.unalias, PE.isCol] using hc
  | _ => simpa [PE.unalias, topClean] using h

theorem topClean_of_clean {ok : Str → Bool} {e : PE} (h : clean ok e = true) : topClean ok e = true := by
  cases e <;> first | exact h | simp [clean] at h

theorem clean_mkMethod {ok : Str → Bool} {c : PE} {f : Str} {args : List PE} (hc : clean ok c = true)
    (ha : cleanL ok args = true) : clean ok (PE.mkMethod c f args) = true := by
  simp [PE.mkMethod, clean, unalias_of_clean hc, hc, ha]

theorem clean_mkBin {ok : Str → Bool} {l r : PE} {op : Str} (hl : clean ok l = true)
    (hr : clean ok r = true) : clean ok (PE.mkBin l op r) = true := by
  simp [PE.mkBin, clean, unalias_of_clean hl, unalias_of_clean hr, hl, hr]

theorem clean_mkNot {ok : Str → Bool} {r : PE} (hr : clean ok r = true) : clean ok (PE.mkNot r) = true := by
  simp [PE.mkNot, clean, unalias_of_clean hr, hr]

/-- all bound columns are clean -/
def ValsClean (ok : Str → Bool) (vs : List ArgVal) : Prop := ∀ x, ArgVal.e x ∈ vs → clean ok x = true

/-- none of the columns is bare code -/
def colsL (es : List PE) : Prop := ∀ e ∈ es, e.isCol = true

/-- A body that turns clean columns into clean columns, never into bare code; functions outside
the runtime library are always acceptable. -/
def Cleans (f : FnSpec) : Prop :=
  ∀ ok : Str → Bool, (∀ g, (c!"functions.").isPrefixOf g = false → ok g = true) →
  ∀ vs args ms r, ValsClean ok vs → cleanL ok ms = true → colsL ms → f.body vs args ms = some r →
    clean ok r = true ∧ r.isCol = true

/-- The table arms apply `f` to their columns. -/
theorem cleans_one (a : Str) (f : PE → PE)
    (hf : ∀ ok : Str → Bool, (∀ g, (c!"functions.").isPrefixOf g = false → ok g = true) →
      ∀ x, clean ok x = true → clean ok (f x) = true ∧ (f x).isCol = true) : Cleans (.one a f) := by
  intro ok hok vs args ms r hv hm hcol h
  unfold FnSpec.one at h
  dsimp only at h
  split at h
  · simp only [Option.some.injEq] at h; subst h
    exact hf ok hok _ (hv _ (by simp))
  · simp at h

theorem cleans_two (a : Str) (f : PE → PE → PE)
    (hf : ∀ ok : Str → Bool, (∀ g, (c!"functions.").isPrefixOf g = false → ok g = true) →
      ∀ x y, clean ok x = true → clean ok y = true → clean ok (f x y) = true ∧ (f x y).isCol = true) :
    Cleans (.two a f) := by
  intro ok hok vs args ms r hv hm hcol h
  unfold FnSpec.two at h
  dsimp only at h
  split at h
  · simp only [Option.some.injEq] at h; subst h
    exact hf ok hok _ _ (hv _ (by simp)) (hv _ (by simp))
  · simp at h

theorem cleans_nullary (a : Str) (e : PE)
    (he : ∀ ok : Str → Bool, (∀ g, (c!"functions.").isPrefixOf g = false → ok g = true) →
      clean ok e = true ∧ e.isCol = true) : Cleans (.nullary a e) := by
  intro ok hok vs args ms r hv hm hcol h
  simp only [FnSpec.nullary, Option.some.injEq] at h; subst h
  exact he ok hok

section
variable {ok : Str → Bool} (hok : ∀ g, (c!"functions.").isPrefixOf g = false → ok g = true)
include hok

omit hok in
theorem caseFrom_clean (neg : Bool) : ∀ (ms : List PE) (acc : PE), cleanL ok ms = true → clean ok acc = true →
    acc.isCol = true → clean ok (caseFrom neg acc ms) = true ∧ (caseFrom neg acc ms).isCol = true
  | [], acc, _, ha, hc => by simp [caseFrom, ha, hc]
  | [_], acc, _, ha, hc => by simp [caseFrom, ha, hc]
  | c :: v :: rest, acc, hm, ha, _ => by
    rw [caseFrom]
    simp only [cleanL, Bool.and_eq_true] at hm
    refine caseFrom_clean neg rest _ hm.2.2 (clean_mkMethod ha ?_) rfl
    cases neg
    · simp [cleanL, hm.1, hm.2.1]
    · simp [cleanL, clean_mkNot hm.1, hm.2.1]

theorem caseBody_clean {neg : Bool} {ms : List PE} {r : PE} (hm : cleanL ok ms = true)
    (h : caseBody neg ms = some r) : clean ok r = true ∧ r.isCol = true := by
  unfold caseBody at h
  split at h
  · split at h
    · simp only [Option.some.injEq] at h; subst h
      simp only [cleanL, Bool.and_eq_true] at hm
      refine caseFrom_clean neg _ _ hm.2.2 ?_ rfl
      cases neg
      · simp [clean, cleanL, hm.1, hm.2.1, hok c!"when" rfl]
      · simp [clean, cleanL, clean_mkNot hm.1, hm.2.1, hok c!"when" rfl]
    · simp at h
  · simp at h

omit hok in
theorem foldArgs_clean {f : PE → PE → PE} {ms : List PE} {r : PE}
    (hf : ∀ a b, clean ok a = true → clean ok b = true → clean ok (f a b) = true)
    (hm : cleanL ok ms = true) (h : foldArgs f ms = some r) : clean ok r = true := by
  cases ms with
  | nil => simp [foldArgs] at h
  | cons x xs =>
    simp only [foldArgs, Option.some.injEq] at h
    subst h
    simp only [cleanL, Bool.and_eq_true] at hm
    obtain ⟨hx, hm⟩ := hm
    induction xs generalizing x with
    | nil => exact hx
    | cons y ys ih =>
      simp only [cleanL, Bool.and_eq_true] at hm
      exact ih _ (hf _ _ hx hm.1) hm.2

theorem offsetTime_clean {t : PE} (o : TimeSpan) (h : clean ok t = true) : clean ok (offsetTime t o) = true :=
  clean_mkBin h (by simp [clean, cleanL, pyStr, hok c!"expr" rfl])

theorem relativeTimeBody_clean {t : PE} {s : SnapTime} {r : PE} (ht : clean ok t = true)
    (h : relativeTimeBody t s = some r) : clean ok r = true ∧ r.isCol = true := by
  have h0 : clean ok (PE.fn c!"to_timestamp" [t]) = true := by
    simp [clean, cleanL, ht, hok c!"to_timestamp" rfl]
  have h1 : ∀ u x, clean ok x = true → clean ok (PE.fn c!"date_trunc" [pyStr u, x]) = true := by
    intro u x hx
    simp [clean, cleanL, pyStr, hx, hok c!"date_trunc" rfl]
  unfold relativeTimeBody roundTime at h
  dsimp only at h
  cases hr : roundUnit s.snap with
  | none => simp [hr] at h
  | some u =>
    simp only [hr, Option.map_some, Option.some.injEq] at h
    subst h
    cases s.span <;> cases s.snapOffset
    · exact ⟨h1 _ _ h0, rfl⟩
    · exact ⟨offsetTime_clean hok _ (h1 _ _ h0), rfl⟩
    · exact ⟨h1 _ _ (offsetTime_clean hok _ h0), rfl⟩
    · exact ⟨offsetTime_clean hok _ (h1 _ _ (offsetTime_clean hok _ h0)), rfl⟩

theorem relativeTimeArgs_clean {t : PE} {args : List Arg} {r : PE} (ht : clean ok t = true)
    (h : relativeTimeArgs t args = some r) : clean ok r = true ∧ r.isCol = true := by
  unfold relativeTimeArgs at h
  split at h
  · exact relativeTimeBody_clean hok ht h
  · simp at h

theorem mvindexBody_clean {x : PE} {n : Int} {args : List Arg} {r : PE} (hx : clean ok x = true)
    (h : mvindexBody x n args = some r) : clean ok r = true ∧ r.isCol = true := by
  unfold mvindexBody at h
  split at h
  · simp only [Option.some.injEq] at h; subst h
    simp [clean, cleanL, hx, pyInt, PE.isCol, hok c!"get" rfl]
  · split at h
    · simp at h
    · simp only [Option.some.injEq] at h; subst h
      simp [clean, cleanL, hx, pyInt, PE.isCol, hok c!"slice" rfl]

theorem mvzipBody_clean {x y : PE} {args : List Arg} {r : PE} (hx : clean ok x = true) (hy : clean ok y = true)
    (h : mvzipBody x y args = some r) : clean ok r = true ∧ r.isCol = true := by
  unfold mvzipBody at h
  split at h
  · simp at h
  · simp only [Option.some.injEq] at h; subst h
    simp [clean, cleanL, hx, hy, PE.isCol, hok c!"zip_with" rfl]

end

theorem foldArgs_isCol {f : PE → PE → PE} {ms : List PE} {r : PE} (hf : ∀ a b, (f a b).isCol = true)
    (hm : colsL ms) (h : foldArgs f ms = some r) : r.isCol = true := by
  cases ms with
  | nil => simp [foldArgs] at h
  | cons x xs =>
    simp only [foldArgs, Option.some.injEq] at h
    subst h
    have hx : x.isCol = true := hm x (by simp)
    clear hm
    induction xs generalizing x with
    | nil => exact hx
    | cons y ys ih => exact ih _ (hf _ _)

theorem cleans_eval : ∀ x ∈ evalTable, Cleans x.2 := by
  unfold evalTable
  simp only [List.forall_mem_cons, List.not_mem_nil, false_implies, implies_true, and_true]
  repeat' apply And.intro
  all_goals first
    | (refine cleans_one _ _ ?_; intro ok hok x hx; refine ⟨?_, rfl⟩)
    | (refine cleans_two _ _ ?_; intro ok hok x y hx hy; refine ⟨?_, rfl⟩)
    | (refine cleans_nullary _ _ ?_; intro ok hok; refine ⟨?_, rfl⟩)
    | skip
  all_goals try (exact clean_mkMethod hx (by simp [cleanL, clean, pyStr, *]))
  all_goals try (simp_all [clean, cleanL, pyStr, pyInt, PE.mkMethod, unalias_of_clean, List.isPrefixOf, memkFn, rmunitFn, rmcommaFn, PE.mkBin, PE.unalias]; done)
  all_goals
    intro ok hok vs args ms r hv hm hcol h
    dsimp only at h
    first
      | exact caseBody_clean hok hm h
      | (simp only [Option.some.injEq] at h; subst h; simp [clean, PE.isCol, hm, hok, List.isPrefixOf]; done)
      | skip
  all_goals try
    (split at h
     · first
         | exact relativeTimeArgs_clean hok (hv _ (by simp)) h
         | exact mvindexBody_clean hok (hv _ (by simp)) h
         | exact mvzipBody_clean hok (hv _ (by simp)) (hv _ (by simp)) h
         | (simp only [Option.some.injEq] at h; subst h
            simp_all [ValsClean, clean, cleanL, pyStr, pyInt, List.isPrefixOf, PE.isCol, PE.mkMethod, PE.unalias, unalias_of_clean]; done)
         | (simp only [Option.some.injEq] at h; subst h
            exact ⟨clean_mkMethod (hv _ (by simp)) (by simp [cleanL, clean, pyStr]), rfl⟩)
         | (simp only [Option.map_eq_some_iff] at h
            obtain ⟨t, _, rfl⟩ := h
            simp_all [ValsClean, clean, cleanL, pyStr, pyInt, List.isPrefixOf, PE.isCol, PE.mkMethod, PE.unalias, unalias_of_clean]; done)
     · simp at h; done)
  · simp only [Option.map_eq_some_iff] at h
    obtain ⟨o, ho, rfl⟩ := h
    have := foldArgs_clean (f := fun v c => PE.mkBin v c!"+" c) (fun a b => clean_mkBin) hm ho
    exact ⟨clean_mkBin this (by simp [clean, pyInt]), rfl⟩
  · refine ⟨foldArgs_clean (f := fun v c => .fn c!"greatest" [v, c]) (fun a b ha hb => ?_) hm h,
      foldArgs_isCol (fun _ _ => rfl) hcol h⟩
    simp [clean, cleanL, ha, hb, hok c!"greatest" rfl]
  · refine ⟨foldArgs_clean (f := fun v c => .fn c!"least" [v, c]) (fun a b ha hb => ?_) hm h,
      foldArgs_isCol (fun _ _ => rfl) hcol h⟩
    simp [clean, cleanL, ha, hb, hok c!"least" rfl]

theorem cleans_stats : ∀ x ∈ statsTable, Cleans x.2 := by
  unfold statsTable
  simp only [List.forall_mem_cons, List.not_mem_nil, false_implies, implies_true, and_true]
  repeat' apply And.intro
  all_goals first
    | (refine cleans_one _ _ ?_; intro ok hok x hx; refine ⟨?_, rfl⟩)
    | (refine cleans_two _ _ ?_; intro ok hok x y hx hy; refine ⟨?_, rfl⟩)
    | skip
  all_goals try (simp [clean, cleanL, unalias_of_clean hx, hx, PE.mkBin, PE.unalias, hok, List.isPrefixOf]; done)
  all_goals try (simp_all [clean, cleanL, pyBool, List.isPrefixOf, PE.mkBin, PE.unalias, rateBody, timeCol]; done)
  all_goals
    intro ok hok vs args ms r hv hm hcol h
    dsimp only at h
  · split at h
    · simp only [Option.some.injEq] at h; subst h; simp [clean, cleanL, PE.isCol, hok, List.isPrefixOf]
    · simp only [Option.some.injEq] at h; subst h; simp_all [clean, cleanL, PE.isCol, List.isPrefixOf]
    · simp at h
  · simp only [Option.some.injEq] at h; subst h; simp [clean, cleanL, PE.isCol, timeCol, hok, List.isPrefixOf]
  · simp only [Option.some.injEq] at h; subst h; simp [clean, cleanL, PE.isCol, timeCol, hok, List.isPrefixOf]

theorem cleans_percentile (a f n : Str) (hf : (c!"functions.").isPrefixOf f = false) :
    Cleans (percentileSpec a f n) := by
  intro ok hok vs args ms r hv hm hcol h
  unfold percentileSpec at h
  dsimp only at h
  split at h
  · simp only [Option.map_eq_some_iff] at h
    obtain ⟨t, _, rfl⟩ := h
    simp [clean, cleanL, hv _ (List.mem_singleton.mpr rfl), PE.isCol, hok f hf]
  · simp at h

theorem cleans_statsSpec {n : Str} {f : FnSpec} (h : statsSpec n = some f) : Cleans f := by
  unfold statsSpec at h
  split at h
  · rename_i g hg
    simp only [Option.some.injEq] at h; subst h
    exact cleans_stats _ (lookupFn_mem hg)
  · repeat (split at h; · (simp only [Option.some.injEq] at h; subst h; exact cleans_percentile _ _ _ rfl))
    simp at h

/-- The columns of an argument list are clean. -/
def ArgsClean (ok : Str → Bool) (as : List Arg) : Prop :=
  ∀ a ∈ as, ∀ x, a.col = some x → clean ok x = true ∧ x.isCol = true

theorem ArgsClean.drop {ok : Str → Bool} {as : List Arg} (h : ArgsClean ok as) (n : Nat) :
    ArgsClean ok (as.drop n) := fun a ha => h a (List.mem_of_mem_drop ha)

theorem mapArgs_clean {ok : Str → Bool} {as : List Arg} {xs : List PE} (ha : ArgsClean ok as)
    (h : mapArgs as = some xs) : cleanL ok xs = true ∧ colsL xs := by
  induction as generalizing xs with
  | nil =>
    simp only [mapArgs, Option.some.injEq] at h
    subst h
    exact ⟨rfl, by simp [colsL]⟩
  | cons a as ih =>
    rw [mapArgs] at h
    split at h
    · simp at h
    · rename_i x hx
      split at h
      · simp at h
      · rename_i ys hys
        simp only [Option.some.injEq] at h; subst h
        obtain ⟨h1, h2⟩ := ih (fun b hb => ha b (List.mem_cons_of_mem _ hb)) hys
        obtain ⟨h3, h4⟩ := ha a (by simp) x hx
        refine ⟨by simp [cleanL, h1, h3], fun e he => ?_⟩
        rcases List.mem_cons.mp he with rfl | he
        · exact h4
        · exact h2 e he

theorem bindParams_clean {ok : Str → Bool} {ps : List PK} {as : List Arg} {vs : List ArgVal}
    (ha : ArgsClean ok as) (h : bindParams ps as = some vs) : ValsClean ok vs := by
  induction ps generalizing as vs with
  | nil =>
    simp only [bindParams, Option.some.injEq] at h
    subst h; intro x hx; simp at hx
  | cons p ps ih =>
    cases as with
    | nil => simp [bindParams] at h
    | cons a as =>
      rw [bindParams] at h
      split at h
      · simp at h
      · rename_i v hv
        split at h
        · simp at h
        · rename_i vs0 hvs
          simp only [Option.some.injEq] at h; subst h
          intro x hx
          rcases List.mem_cons.mp hx with rfl | hx
          · cases p with
            | expr =>
              simp only [bindParam, Option.map_eq_some_iff] at hv
              obtain ⟨y, hy, he⟩ := hv
              cases he
              exact (ha a (by simp) _ hy).1
            | int => simp [bindParam] at hv
            | str => simp [bindParam] at hv
          · exact ih (fun b hb => ha b (List.mem_cons_of_mem _ hb)) hvs x hx

theorem apply_clean {ok : Str → Bool} {f : FnSpec}
    (hf : ∀ vs args ms r, ValsClean ok vs → cleanL ok ms = true → colsL ms → f.body vs args ms = some r →
      clean ok r = true ∧ r.isCol = true) {as : List Arg} {r : PE} (ha : ArgsClean ok as)
    (h : f.apply as = some r) : ∃ c, r = .aliased c f.alias ∧ clean ok c = true ∧ c.isCol = true := by
  unfold FnSpec.apply at h
  split at h
  · simp at h
  · rename_i vs hvs
    simp only [Option.map_eq_some_iff] at h
    obtain ⟨o, ho, rfl⟩ := h
    have key : clean ok o = true ∧ o.isCol = true := by
      have hv := bindParams_clean ha hvs
      cases hr : f.rest with
      | exact =>
        simp only [hr] at ho
        split at ho
        · exact hf _ _ _ _ hv rfl (by simp [colsL]) ho
        · simp at ho
      | ignored => simp only [hr] at ho; exact hf _ _ _ _ hv rfl (by simp [colsL]) ho
      | mapped =>
        simp only [hr] at ho
        split at ho
        · simp at ho
        · rename_i ms hms
          obtain ⟨h1, h2⟩ := mapArgs_clean (ha.drop _) hms
          exact hf _ _ _ _ hv h1 h2 ho
    exact ⟨o, by rw [PE.withAlias, unalias_of_clean key.1], key.1, key.2⟩

end Verif.Lemmas
