import Verif.Tr.Commands
/-
Facts about the function tables that hold for every arm: whether an arm succeeds depends only on
the shape of its arguments, and an arm whose column arguments carry no alias yields a column
without inner aliases.
-/
namespace Verif.Lemmas
open Verif

/-- Bound parameters of the same kind; integers and texts are equal. -/
inductive Shape : ArgVal → ArgVal → Prop
  | e (x y : PE) : Shape (.e x) (.e y)
  | i (n : Int) : Shape (.i n) (.i n)
  | s (t : Str) : Shape (.s t) (.s t)

/-- pointwise `Shape` -/
inductive Shapes : List ArgVal → List ArgVal → Prop
  | nil : Shapes [] []
  | cons {a b as bs} : Shape a b → Shapes as bs → Shapes (a :: as) (b :: bs)

/-- Success of the body depends on the shape of the arguments only. -/
def Uniform (f : FnSpec) : Prop :=
  ∀ vs vs' args args' ms ms', Shapes vs vs' → args.map Arg.src = args'.map Arg.src →
    ms.length = ms'.length → (f.body vs args ms).isSome = true → (f.body vs' args' ms').isSome = true

theorem uniform_one (a : Str) (f : PE → PE) : Uniform (.one a f) := by
  intro vs vs' args args' ms ms' hv _ _ h
  cases hv with
  | nil => simp [FnSpec.one] at h
  | cons ha hb => cases ha <;> cases hb <;> simp [FnSpec.one] at h ⊢

theorem uniform_two (a : Str) (f : PE → PE → PE) : Uniform (.two a f) := by
  intro vs vs' args args' ms ms' hv _ _ h
  cases hv with
  | nil => simp [FnSpec.two] at h
  | cons ha hb =>
    cases hb with
    | nil => cases ha <;> simp [FnSpec.two] at h
    | cons hb hc => cases ha <;> cases hb <;> cases hc <;> simp [FnSpec.two] at h ⊢

theorem uniform_nullary (a : Str) (e : PE) : Uniform (.nullary a e) := by
  intro vs vs' args args' ms ms' hv _ _ h
  rfl

theorem uniform_rest (a : Str) (b : List PE → Option PE)
    (hb : ∀ ms ms', ms.length = ms'.length → (b ms).isSome = true → (b ms').isSome = true) :
    Uniform ⟨a, [], .mapped, fun _ _ ms => b ms⟩ := by
  intro vs vs' args args' ms ms' hv _ hm h
  exact hb ms ms' hm h

theorem caseBody_isSome (neg : Bool) (ms : List PE) :
    (caseBody neg ms).isSome = (decide (ms.length % 2 = 0) && decide (ms.length ≠ 0)) := by
  unfold caseBody
  match ms with
  | [] => rfl
  | [_] => rfl
  | a :: b :: r =>
    by_cases h : (a :: b :: r).length % 2 = 0
    · rw [if_pos h]; simp only [h, Option.isSome_some]; simp
    · rw [if_neg h]; simp only [h, Option.isSome_none]; simp

theorem foldArgs_isSome (f : PE → PE → PE) (ms : List PE) :
    (foldArgs f ms).isSome = decide (ms.length ≠ 0) := by
  cases ms <;> simp [foldArgs]

theorem getElem?_src {args args' : List Arg} (h : args.map Arg.src = args'.map Arg.src) (n : Nat) :
    (args[n]?).map Arg.src = (args'[n]?).map Arg.src := by
  have := congrArg (fun l => l[n]?) h
  simpa using this

theorem relativeTimeBody_isSome (t : PE) (s : SnapTime) :
    (relativeTimeBody t s).isSome = (roundUnit s.snap).isSome := by
  unfold relativeTimeBody roundTime
  cases roundUnit s.snap <;> rfl

theorem relativeTimeArgs_isSome (t t' : PE) {args args' : List Arg}
    (h : args.map Arg.src = args'.map Arg.src) (hs : (relativeTimeArgs t args).isSome = true) :
    (relativeTimeArgs t' args').isSome = true := by
  unfold relativeTimeArgs at hs ⊢
  rw [← getElem?_src h 1]
  split at hs
  · rename_i s hx
    simpa only [relativeTimeBody_isSome] using hs
  · simp at hs

theorem mvindexBody_isSome (x x' : PE) (n : Int) {args args' : List Arg}
    (h : args.map Arg.src = args'.map Arg.src) (hs : (mvindexBody x n args).isSome = true) :
    (mvindexBody x' n args').isSome = true := by
  have h2 := getElem?_src h 2
  unfold mvindexBody at hs ⊢
  cases ha : args[2]? with
  | none => rw [ha] at h2; cases hb : args'[2]? with
    | none => rfl
    | some b => simp [hb] at h2
  | some a =>
    rw [ha] at h2 hs
    cases hb : args'[2]? with
    | none => rfl
    | some b =>
      simp only [hb, Option.map_some, Option.some.injEq] at h2
      simp only [h2] at hs ⊢
      cases hc : b.src.asInt with
      | none => simp [hc] at hs
      | some _ => rfl

theorem mvzipBody_isSome (x x' y y' : PE) {args args' : List Arg}
    (h : args.map Arg.src = args'.map Arg.src) (hs : (mvzipBody x y args).isSome = true) :
    (mvzipBody x' y' args').isSome = true := by
  have h2 := getElem?_src h 2
  unfold mvzipBody at hs ⊢
  cases ha : args[2]? with
  | none => rw [ha] at h2; cases hb : args'[2]? with
    | none => rfl
    | some b => simp [hb] at h2
  | some a =>
    rw [ha] at h2 hs
    cases hb : args'[2]? with
    | none => rfl
    | some b =>
      simp only [hb, Option.map_some, Option.some.injEq] at h2
      simp only [h2] at hs ⊢
      cases hc : b.src.asString with
      | none => simp [hc] at hs
      | some _ => rfl

/-- Every arm of the eval table is uniform. -/
theorem uniform_eval : ∀ x ∈ evalTable, Uniform x.2 := by
  unfold evalTable
  simp only [List.forall_mem_cons, List.not_mem_nil, false_implies, implies_true, and_true]
  repeat' constructor
  all_goals first
    | exact uniform_one _ _
    | exact uniform_two _ _
    | exact uniform_nullary _ _
    | skip
  all_goals
    intro vs vs' args args' ms ms' hv ha hm h
    first
      | (simp only [caseBody_isSome, hm, foldArgs_isSome, Option.isSome_map] at h ⊢; exact h)
      | skip
  all_goals try (rfl)
  all_goals
    dsimp only at h ⊢
    split at h
    · rcases hv with _ | ⟨⟨⟩, _ | ⟨⟨⟩, _ | ⟨⟨⟩, ⟨⟩⟩⟩⟩
      first
        | rfl
        | exact relativeTimeArgs_isSome _ _ ha h
        | exact mvindexBody_isSome _ _ _ ha h
        | exact mvzipBody_isSome _ _ _ _ ha h
        | (simpa only [Option.isSome_map] using h)
        | (rw [List.length_nil] at hm; rw [List.eq_nil_of_length_eq_zero hm.symm]; rfl)
    · simp at h

theorem uniform_percentile (a f n : Str) : Uniform (percentileSpec a f n) := by
  intro vs vs' args args' ms ms' hv ha hm h
  unfold percentileSpec at h ⊢
  dsimp only at h ⊢
  split at h
  · rcases hv with _ | ⟨⟨⟩, _ | ⟨⟨⟩, _ | ⟨⟨⟩, ⟨⟩⟩⟩⟩
    simpa only [Option.isSome_map] using h
  · simp at h

theorem uniform_stats : ∀ x ∈ statsTable, Uniform x.2 := by
  unfold statsTable
  simp only [List.forall_mem_cons, List.not_mem_nil, false_implies, implies_true, and_true]
  repeat' constructor
  all_goals first
    | exact uniform_one _ _
    | exact uniform_two _ _
    | exact uniform_nullary _ _
    | skip
  all_goals
    intro vs vs' args args' ms ms' hv ha hm h
    try rfl
  match ms, ms', hm with
  | [], [], _ => rfl
  | [_], [_], _ => rfl
  | _ :: _ :: _, _, _ => simp at h

theorem lookupFn_mem {name : Str} {t : List (Str × FnSpec)} {f : FnSpec}
    (h : lookupFn name t = some f) : (name, f) ∈ t := by
  induction t with
  | nil => simp [lookupFn] at h
  | cons a t ih =>
    obtain ⟨n, g⟩ := a
    rw [lookupFn] at h
    split at h
    · simp_all
    · exact List.mem_cons_of_mem _ (ih h)

/-- A later argument list succeeds wherever an earlier one does. -/
inductive Weaker : List Arg → List Arg → Prop
  | nil : Weaker [] []
  | cons {a b as bs} : a.src = b.src → (a.col.isSome = true → b.col.isSome = true) →
      Weaker as bs → Weaker (a :: as) (b :: bs)

theorem Weaker.src {as bs : List Arg} (h : Weaker as bs) : as.map Arg.src = bs.map Arg.src := by
  induction h with
  | nil => rfl
  | cons h1 _ _ ih => simp [h1, ih]

theorem Weaker.length {as bs : List Arg} (h : Weaker as bs) : as.length = bs.length := by
  have := congrArg List.length h.src
  simpa using this

theorem Weaker.drop {as bs : List Arg} (h : Weaker as bs) (n : Nat) : Weaker (as.drop n) (bs.drop n) := by
  induction h generalizing n with
  | nil => simpa using Weaker.nil
  | cons h1 h2 h3 ih =>
    cases n with
    | zero => exact .cons h1 h2 h3
    | succ n => simpa using ih n

theorem bindParam_weaker {p : PK} {a b : Arg} {v : ArgVal} (hs : a.src = b.src)
    (hc : a.col.isSome = true → b.col.isSome = true) (h : bindParam p a = some v) :
    ∃ v', bindParam p b = some v' ∧ Shape v v' := by
  cases p with
  | expr =>
    simp only [bindParam, Option.map_eq_some_iff] at h ⊢
    obtain ⟨x, hx, rfl⟩ := h
    rw [hx] at hc
    obtain ⟨y, hy⟩ := Option.isSome_iff_exists.mp (hc rfl)
    exact ⟨_, ⟨y, hy, rfl⟩, .e x y⟩
  | int =>
    simp only [bindParam, ← hs] at h ⊢
    refine ⟨v, h, ?_⟩
    simp only [Option.map_eq_some_iff] at h
    obtain ⟨x, _, rfl⟩ := h
    exact .i x
  | str =>
    simp only [bindParam, ← hs] at h ⊢
    refine ⟨v, h, ?_⟩
    simp only [Option.map_eq_some_iff] at h
    obtain ⟨x, _, rfl⟩ := h
    exact .s x

theorem bindParams_weaker {ps : List PK} {as bs : List Arg} {vs : List ArgVal} (hw : Weaker as bs)
    (h : bindParams ps as = some vs) : ∃ vs', bindParams ps bs = some vs' ∧ Shapes vs vs' := by
  induction ps generalizing as bs vs with
  | nil =>
    simp only [bindParams, Option.some.injEq] at h
    subst h
    exact ⟨[], by simp [bindParams], .nil⟩
  | cons p ps ih =>
    cases hw with
    | nil => simp [bindParams] at h
    | cons h1 h2 h3 =>
      rw [bindParams] at h
      split at h
      · simp at h
      · rename_i v hv
        split at h
        · simp at h
        · rename_i vs0 hvs
          obtain ⟨v', hv', hsh⟩ := bindParam_weaker h1 h2 hv
          obtain ⟨vs', hvs', hshs⟩ := ih h3 hvs
          simp only [Option.some.injEq] at h
          subst h
          exact ⟨v' :: vs', by rw [bindParams, hv', hvs'], .cons hsh hshs⟩

theorem mapArgs_weaker {as bs : List Arg} {xs : List PE} (hw : Weaker as bs)
    (h : mapArgs as = some xs) : ∃ ys, mapArgs bs = some ys ∧ xs.length = ys.length := by
  induction hw generalizing xs with
  | nil =>
    simp only [mapArgs, Option.some.injEq] at h
    exact ⟨[], rfl, by simp [← h]⟩
  | cons h1 h2 h3 ih =>
    rw [mapArgs] at h
    split at h
    · simp at h
    · rename_i x hx
      split at h
      · simp at h
      · rename_i xs0 hxs
        rw [hx] at h2
        obtain ⟨y, hy⟩ := Option.isSome_iff_exists.mp (h2 rfl)
        obtain ⟨ys, hys, hl⟩ := ih hxs
        simp only [Option.some.injEq] at h
        subst h
        exact ⟨y :: ys, by rw [mapArgs, hy, hys], by simp [hl]⟩

theorem apply_weaker {f : FnSpec} (hu : Uniform f) {as bs : List Arg} (hw : Weaker as bs)
    (h : (f.apply as).isSome = true) : (f.apply bs).isSome = true := by
  unfold FnSpec.apply at h ⊢
  cases hb : bindParams f.params as with
  | none => simp [hb] at h
  | some vs =>
    obtain ⟨vs', hvs', hsh⟩ := bindParams_weaker hw hb
    simp only [hb, Option.isSome_map] at h
    simp only [hvs', Option.isSome_map]
    cases hr : f.rest with
    | exact =>
      simp only [hr] at h ⊢
      rw [← hw.length]
      split at h
      · rename_i hl; rw [if_pos hl]; exact hu _ _ _ _ _ _ hsh hw.src rfl h
      · simp at h
    | ignored =>
      simp only [hr] at h ⊢
      exact hu _ _ _ _ _ _ hsh hw.src rfl h
    | mapped =>
      simp only [hr] at h ⊢
      cases hm : mapArgs (as.drop f.params.length) with
      | none => simp [hm] at h
      | some ms =>
        obtain ⟨ms', hms', hl⟩ := mapArgs_weaker (hw.drop _) hm
        simp only [hm] at h
        simp only [hms']
        exact hu _ _ _ _ _ _ hsh hw.src hl h

theorem passThrough_weaker {n : Str} {as bs : List Arg} (hw : Weaker as bs)
    (h : (passThrough n as).isSome = true) : (passThrough n bs).isSome = true := by
  unfold passThrough at h ⊢
  simp only [Option.isSome_map] at h ⊢
  obtain ⟨xs, hx⟩ := Option.isSome_iff_exists.mp h
  obtain ⟨ys, hy, _⟩ := mapArgs_weaker hw hx
  simp [hy]

theorem evalFnBare_weaker {n : Str} {as bs : List Arg} (hw : Weaker as bs)
    (h : (evalFnBare n as).isSome = true) : (evalFnBare n bs).isSome = true := by
  unfold evalFnBare at h ⊢
  split at h
  · rename_i f hf
    exact apply_weaker (uniform_eval _ (lookupFn_mem hf)) hw h
  · split at h
    · simp at h
    · rename_i hn; rw [if_neg hn]; exact passThrough_weaker hw h

theorem uniform_statsSpec {n : Str} {f : FnSpec} (h : statsSpec n = some f) : Uniform f := by
  unfold statsSpec at h
  split at h
  · rename_i g hg
    simp only [Option.some.injEq] at h; subst h
    exact uniform_stats _ (lookupFn_mem hg)
  · repeat (split at h; · (simp only [Option.some.injEq] at h; subst h; exact uniform_percentile _ _ _))
    simp at h

theorem statsFnBareCol_weaker {n : Str} {as bs : List Arg} (hw : Weaker as bs)
    (h : (statsFnBareCol n as).isSome = true) : (statsFnBareCol n bs).isSome = true := by
  unfold statsFnBareCol at h ⊢
  split at h
  · rename_i f hf
    exact apply_weaker (uniform_statsSpec hf) hw h
  · split at h
    · simp at h
    · rename_i hn; rw [if_neg hn]; exact passThrough_weaker hw h

theorem orElse_isSome {α} (a b : Option α) : (orElse a b).isSome = (a.isSome || b.isSome) := by
  cases a <;> simp [orElse]

end Verif.Lemmas
