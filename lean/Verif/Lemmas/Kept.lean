import Verif.Lemmas.Meaning
/-
Constants, IN lists and the conditional functions are translated to columns of the same value.
-/
namespace Verif.Lemmas
open Verif Spec

/-- What is shown of an expression `e` and its translation `p`. -/
def Kept1 (e : Expr) (p : PE) (f : Sem → Event → Val) : Prop :=
  (Means p f ∧ Means p.unalias f) ∧ (isNegated e = false → isReceiver p.unalias = true) ∧
    ∀ S row, splEval S row e = some (f S row)

theorem op_pyOp {op : Str} (h : FragOp op = true) : ∃ o, splOp op = some o ∧ pyOp (mapOp op) = some o ∧
    (opLevel (mapOp op)).isSome = true := by
  simp only [FragOp, Bool.or_eq_true, beq_iff_eq] at h
  rcases h with (((((((((((h | h) | h) | h) | h) | h) | h) | h) | h) | h) | h) | h) | h <;> subst h
  · exact ⟨.eq, by decide +kernel, by decide +kernel, by decide +kernel⟩
  · exact ⟨.eq, by decide +kernel, by decide +kernel, by decide +kernel⟩
  · exact ⟨.ne, by decide +kernel, by decide +kernel, by decide +kernel⟩
  · exact ⟨.lt, by decide +kernel, by decide +kernel, by decide +kernel⟩
  · exact ⟨.le, by decide +kernel, by decide +kernel, by decide +kernel⟩
  · exact ⟨.gt, by decide +kernel, by decide +kernel, by decide +kernel⟩
  · exact ⟨.ge, by decide +kernel, by decide +kernel, by decide +kernel⟩
  · exact ⟨.and, by decide +kernel, by decide +kernel, by decide +kernel⟩
  · exact ⟨.or, by decide +kernel, by decide +kernel, by decide +kernel⟩
  · exact ⟨.add, by decide +kernel, by decide +kernel, by decide +kernel⟩
  · exact ⟨.sub, by decide +kernel, by decide +kernel, by decide +kernel⟩
  · exact ⟨.mul, by decide +kernel, by decide +kernel, by decide +kernel⟩
  · exact ⟨.div, by decide +kernel, by decide +kernel, by decide +kernel⟩

theorem const_means {k : Constant} (h : FragConst k = true) :
    ∃ p f, constTr k = some p ∧ Kept1 (.const k) p f := by
  cases k with
  | field n => exact ⟨_, _, rfl, ⟨means_named h, means_named h⟩, fun _ => rfl, fun _ _ => rfl⟩
  | int n => exact ⟨_, _, rfl, ⟨means_lit (int_const n), means_lit (int_const n)⟩, fun _ => rfl, fun _ _ => rfl⟩
  | double d => exact ⟨_, _, rfl, ⟨means_lit (dbl_const h), means_lit (dbl_const h)⟩, fun _ => rfl, fun _ _ => rfl⟩
  | str s => exact ⟨_, _, rfl, ⟨means_lit (plain_const h), means_lit (plain_const h)⟩, fun _ => rfl, fun _ _ => rfl⟩
  | _ => cases h

/-! ### IN lists -/

theorem elem_means {f : Str} {e : Expr} (hf : Plain '\'' f = true) (h : FragElem e = true) :
    ∃ (k : Constant) (p : PE) (g : Sem → Event → Option Bool), e = .const k ∧ fieldInCheck f e = some p ∧ Means p (fun S row => ofB (g S row)) ∧ isReceiver p = true ∧
      p.unalias = p ∧ ∀ S row, inTest S (row f) k = some (g S row) := by
  cases e with
  | const k =>
    have hn := means_named hf
    have h1 : pyOp c!"==" = some .eq := by decide +kernel
    have h2 : (opLevel c!"==").isSome = true := by decide +kernel
    cases k with
    | wildcard p => exact ⟨_, _, _, rfl, rfl, means_like hn rfl h, rfl, rfl, fun _ _ => rfl⟩
    | field s => exact ⟨_, _, _, rfl, rfl, means_bin_py hn (plain_dconst h) h1 h2, rfl, rfl, fun _ _ => rfl⟩
    | str s => exact ⟨_, _, _, rfl, rfl, means_bin_py hn (plain_dconst h) h1 h2, rfl, rfl, fun _ _ => rfl⟩
    | int n => exact ⟨_, _, _, rfl, rfl, means_bin_py hn (int_const n) h1 h2, rfl, rfl, fun _ _ => rfl⟩
    | double d => exact ⟨_, _, _, rfl, rfl, means_bin_py hn (dbl_const h) h1 h2, rfl, rfl, fun _ _ => rfl⟩
    | bool b => exact ⟨_, _, _, rfl, rfl, means_bin_py hn (bool_const b) h1 h2, rfl, rfl, fun _ _ => rfl⟩
    | _ => cases h
  | _ => cases h

/-- checks and their outcomes -/
def ChecksL : List PE → List (Sem → Event → Option Bool) → Prop
  | [], [] => True
  | p :: ps, g :: gs => Means p (fun S row => ofB (g S row)) ∧ ChecksL ps gs
  | _, _ => False

theorem elems_means {f : Str} (hf : Plain '\'' f = true) : ∀ {es : List Expr}, es.all FragElem = true →
    ∃ ps gs, fieldInChecks f es = some ps ∧ ChecksL ps gs ∧ ps.length = es.length ∧
      (∀ p ∈ ps, isReceiver p = true ∧ p.unalias = p) ∧
      ∀ S row, splIn S (row f) es = some (gs.foldr (fun g b => or3 (g S row) b) (some false))
  | [], _ => ⟨[], [], rfl, trivial, rfl, by simp, fun _ _ => rfl⟩
  | e :: es, h => by
    rw [List.all_cons, Bool.and_eq_true] at h
    obtain ⟨k, p, g, he, hp, hm, hr, hu, ht⟩ := elem_means hf h.1
    obtain ⟨ps, gs, hps, hc, hl, hrs, hsp⟩ := elems_means hf h.2
    refine ⟨p :: ps, g :: gs, ?_, ⟨hm, hc⟩, by simp [hl], ?_, fun S row => ?_⟩
    · simp only [fieldInChecks, hp, hps]
    · intro q hq
      rcases List.mem_cons.1 hq with rfl | hq
      · exact ⟨hr, hu⟩
      · exact hrs q hq
    · subst he
      simp only [splIn, ht, hsp, Option.bind_some, Option.map_some, List.foldr_cons]

theorem op_or (S : Sem) (a b : Option Bool) : S.op .or (ofB a) (ofB b) = ofB (or3 a b) := by
  simp only [Sem.op, S.truth_ofB]

theorem join_means : ∀ {ps : List PE} {gs : List (Sem → Event → Option Bool)} {p : PE} {g : Sem → Event → Option Bool},
    Means p (fun S row => ofB (g S row)) → ChecksL ps gs →
    Means (joinBinFrom c!"|" p ps)
      (fun S row => ofB (or3 (g S row) (gs.foldr (fun g b => or3 (g S row) b) (some false))))
  | [], [], p, g, h, _ => means_congr h (fun S row => by simp only [List.foldr_nil, or3_false])
  | q :: ps, k :: gs, p, g, h, hc => by
    have h1 : pyOp c!"|" = some .or := by decide +kernel
    have h2 : (opLevel c!"|").isSome = true := by decide +kernel
    have hb := means_bin h hc.1 h1 h2
    have hb' : Means (.bin c!"|" p q) (fun S row => ofB (or3 (g S row) (k S row))) :=
      means_congr hb (fun S row => op_or S _ _)
    have := join_means hb' hc.2
    rw [joinBinFrom]
    refine means_congr this (fun S row => ?_)
    rw [List.foldr_cons, or3_assoc]
  | [], _ :: _, _, _, _, hc => hc.elim
  | _ :: _, [], _, _, _, hc => hc.elim

theorem join_unalias : ∀ {ps : List PE} {p : PE}, p.unalias = p → isReceiver p = true →
    (joinBinFrom c!"|" p ps).unalias = joinBinFrom c!"|" p ps ∧ isReceiver (joinBinFrom c!"|" p ps) = true
  | [], _, h, h' => ⟨h, h'⟩
  | _ :: ps, _, _, _ => by rw [joinBinFrom]; exact join_unalias rfl rfl

theorem in_means {f : Str} {es : List Expr} (hf : Plain '\'' f = true) (hne : es.length ≠ 0)
    (h : es.all FragElem = true) : ∃ p g, fieldInTr f es = some p ∧ Kept1 (.fieldIn f es) p g := by
  obtain ⟨ps, gs, hps, hc, hl, hrs, hsp⟩ := elems_means hf h
  match ps, gs, hc with
  | [], _, _ => exact absurd hl.symm hne
  | p :: ps, g :: gs, hc =>
    have hm := join_means hc.1 hc.2
    have hp := hrs p (List.mem_cons_self ..)
    have hu := join_unalias (ps := ps) hp.2 hp.1
    refine ⟨joinBinFrom c!"|" p ps, _, ?_, ⟨hm, by rw [hu.1]; exact hm⟩, fun _ => by rw [hu.1]; exact hu.2,
      fun S row => ?_⟩
    · simp only [fieldInTr, hps, Option.map_some, joinAsBinaries, Option.getD_some]
    · simp only [splEval, hsp, List.foldr_cons, Option.map_some]

/-! ### functions -/

theorem kept_alias {e : Expr} {b : PE} {f : Sem → Event → Val} {n : Str} (hm : Means b f) (hr : isReceiver b = true)
    (hu : b.unalias = b) (hn : Plain '\'' n = true) (he : ∀ S row, splEval S row e = some (f S row)) :
    Kept1 e (b.withAlias n) f := by
  have h1 : b.withAlias n = .aliased b n := by unfold PE.withAlias; rw [hu]
  have h2 : (PE.aliased b n).unalias = b := by
    rw [PE.unalias]
    · exact hu
    · intro c h; subst h; cases hr
  rw [h1]
  exact ⟨⟨means_alias hm hr hn, by rw [h2]; exact hm⟩, fun _ => by rw [h2]; exact hr, he⟩

theorem evalFn_known {name : Str} {spec : FnSpec} (h : lookupFn name evalTable = some spec) (args : List Arg) :
    evalFn .disallow name args = spec.apply args := by
  simp only [evalFn, evalFnBare, h]

theorem apply_mapped (a : Str) (b : List PE → Option PE) (args : List Arg) {ms : List PE} (h : mapArgs args = some ms) :
    FnSpec.apply ⟨a, [], .mapped, fun _ _ ms => b ms⟩ args = (b ms).map fun o => o.withAlias a := by
  simp only [FnSpec.apply, bindParams, List.length_nil, List.drop_zero, h]

theorem mapArgs_length : ∀ {args : List Arg} {ms : List PE}, mapArgs args = some ms → ms.length = args.length
  | [], ms, h => by rw [mapArgs] at h; injection h with h; subst h; rfl
  | a :: as, ms, h => by
    rw [mapArgs] at h
    cases ha : a.col with
    | none => rw [ha] at h; cases h
    | some x =>
      cases hs : mapArgs as with
      | none => rw [ha, hs] at h; cases h
      | some xs =>
        rw [ha, hs] at h
        injection h with h
        subst h
        simp [mapArgs_length hs]

/-- All the call cases at once. -/
theorem call_means {name : Str} {es : List Expr} {args : List Arg} {ms : List PE} {fs : List (Sem → Event → Val)}
    (hfn : FragFn name es.length = true) (hmap : mapArgs args = some ms) (hlen : ms.length = es.length)
    (hms : MeansL ms fs) (hev : ∀ S row, splEvals S row es = some (fs.map fun f => f S row)) :
    ∃ p f, evalFn .disallow name args = some p ∧ Kept1 (.call name es) p f := by
  have hfl := meansL_length hms
  have hal := mapArgs_length hmap
  simp only [FragFn, Bool.or_eq_true, Bool.and_eq_true, beq_iff_eq, bne_iff_ne] at hfn
  rcases hfn with (((((((hfn | hfn) | hfn) | hfn) | hfn) | hfn) | hfn) | hfn) | hfn
  · obtain ⟨⟨rfl, h2⟩, h0⟩ := hfn
    have hne : ms ≠ [] := by intro e; rw [e] at hlen; exact h0 hlen.symm
    obtain ⟨p, hp, hb⟩ := case_body false hms (by omega) hne
    have hk : evalFn .disallow c!"case" args = some (p.withAlias c!"case") := by
      rw [evalFn_known (spec := ⟨c!"case", [], .mapped, fun _ _ ms => caseBody false ms⟩) rfl,
        apply_mapped _ _ _ hmap, hp]; rfl
    refine ⟨_, _, hk, kept_alias (means_branches hb) hb.1 hb.2.1 (by decide +kernel) fun S row => ?_⟩
    simp only [splEval, hev, Option.bind_some]
    have : fs.map (fun f => f S row) ≠ [] := by
      intro e; rw [List.map_eq_nil_iff] at e; rw [e] at hfl; exact hne (List.length_eq_zero_iff.1 hfl)
    unfold splFn
    rw [if_pos rfl, if_neg this, pair_up fs S row (by omega), Option.map_some, List.map_map]
    rfl
  · obtain ⟨⟨rfl, h2⟩, h0⟩ := hfn
    have hne : ms ≠ [] := by intro e; rw [e] at hlen; exact h0 hlen.symm
    obtain ⟨p, hp, hb⟩ := case_body true hms (by omega) hne
    have hk : evalFn .disallow c!"validate" args = some (p.withAlias c!"validate") := by
      rw [evalFn_known (spec := ⟨c!"validate", [], .mapped, fun _ _ ms => caseBody true ms⟩) rfl,
        apply_mapped _ _ _ hmap, hp]; rfl
    refine ⟨_, _, hk, kept_alias (means_branches hb) hb.1 hb.2.1 (by decide +kernel) fun S row => ?_⟩
    simp only [splEval, hev, Option.bind_some]
    have : fs.map (fun f => f S row) ≠ [] := by
      intro e; rw [List.map_eq_nil_iff] at e; rw [e] at hfl; exact hne (List.length_eq_zero_iff.1 hfl)
    unfold splFn
    rw [if_neg (by decide), if_pos rfl, if_neg this, pair_up fs S row (by omega), Option.map_some, List.map_map]
    rw [← pick_neg, List.map_map]
    rfl
  · obtain ⟨rfl, h3⟩ := hfn
    rw [h3] at hlen
    match ms, fs, hms with
    | [c, t, e], [f, g, k], hms =>
      obtain ⟨⟨hc, uc⟩, ⟨ht, ut⟩, ⟨he, ue⟩, _⟩ := hms
      match args, hmap, hal with
      | [a1, a2, a3], hmap, _ =>
        have hcols : a1.col = some c ∧ a2.col = some t ∧ a3.col = some e := by
          simp only [mapArgs] at hmap
          cases h1 : a1.col <;> cases h2 : a2.col <;> cases h3 : a3.col <;> simp [h1, h2, h3] at hmap ⊢
          exact hmap
        have hk : evalFn .disallow c!"if" [a1, a2, a3] =
            some ((PE.mkMethod (.fn c!"when" [c, t]) c!"otherwise" [e]).withAlias c!"if") := by
          rw [evalFn_known (spec := ⟨c!"if", [.expr, .expr, .expr], .exact,
            fun | [.e c, .e t, .e e], _, _ => some (PE.mkMethod (.fn c!"when" [c, t]) c!"otherwise" [e])
                | _, _, _ => none⟩) rfl]
          simp only [FnSpec.apply, bindParams, bindParam, hcols.1, hcols.2.1, hcols.2.2, Option.map_some,
            List.length_cons, List.length_nil]
          rfl
        refine ⟨_, _, hk, kept_alias (means_otherwise (branches_fn hc ht) he) rfl rfl (by decide +kernel) fun S row => ?_⟩
        simp only [splEval, hev, Option.bind_some, List.map_cons, List.map_nil]
        unfold splFn
        rw [if_neg (by decide), if_neg (by decide), if_pos rfl]
        simp only [List.cons_append, List.nil_append, pick, Bool.not_false, if_true]
  · obtain ⟨rfl, h0⟩ := hfn
    have : ms = [] := List.length_eq_zero_iff.1 (by omega)
    subst this
    match fs, hms with
    | [], _ =>
      have hargs : args = [] := List.length_eq_zero_iff.1 hal.symm
      subst hargs
      refine ⟨_, _, rfl, kept_alias (means_lit (bool_const true)) rfl rfl (by decide +kernel) fun S row => ?_⟩
      simp only [splEval, hev, Option.bind_some, List.map_nil]
      rfl
  · obtain ⟨rfl, h0⟩ := hfn
    have : ms = [] := List.length_eq_zero_iff.1 (by omega)
    subst this
    match fs, hms with
    | [], _ =>
      have hargs : args = [] := List.length_eq_zero_iff.1 hal.symm
      subst hargs
      refine ⟨_, _, rfl, kept_alias (means_lit (bool_const false)) rfl rfl (by decide +kernel) fun S row => ?_⟩
      simp only [splEval, hev, Option.bind_some, List.map_nil]
      rfl
  · obtain ⟨rfl, h0⟩ := hfn
    have : ms = [] := List.length_eq_zero_iff.1 (by omega)
    subst this
    match fs, hms with
    | [], _ =>
      have hargs : args = [] := List.length_eq_zero_iff.1 hal.symm
      subst hargs
      refine ⟨_, _, rfl, kept_alias (means_lit none_const) rfl rfl (by decide +kernel) fun S row => ?_⟩
      simp only [splEval, hev, Option.bind_some, List.map_nil]
      rfl
  · obtain ⟨rfl, h0⟩ := hfn
    have hk : evalFn .disallow c!"coalesce" args = some ((PE.fn c!"coalesce" ms).withAlias c!"coalesce") := by
      rw [evalFn_known (spec := ⟨c!"coalesce", [], .mapped, fun _ _ ms => some (.fn c!"coalesce" ms)⟩) rfl,
        apply_mapped _ _ _ hmap]; rfl
    have hm : Means (.fn c!"coalesce" ms)
        (fun S row => ((fs.map fun f => f S row).find? (· ≠ .null)).getD .null) := by
      refine means_fn (by decide +kernel) hms (fun S row os ho hv => ?_)
      unfold fFn
      rw [if_neg (by decide), if_neg (by decide), if_neg (by decide), if_pos rfl, if_pos ho, hv]
      exact ⟨_, rfl, rfl, rfl⟩
    refine ⟨_, _, hk, kept_alias hm rfl rfl (by decide +kernel) fun S row => ?_⟩
    simp only [splEval, hev, Option.bind_some]
    rfl
  · obtain ⟨rfl, h1⟩ := hfn
    rw [h1] at hlen
    match ms, fs, hms with
    | [c], [f], hms =>
      match args, hmap, hal with
      | [a1], hmap, _ =>
        have hcol : a1.col = some c := by
          simp only [mapArgs] at hmap
          cases h1 : a1.col <;> simp [h1] at hmap ⊢
          exact hmap
        have hk : evalFn .disallow c!"isnull" [a1] = some ((PE.fn c!"isnull" [c]).withAlias c!"isnull") := by
          rw [evalFn_known (spec := fn1 c!"isnull" c!"isnull") rfl]
          simp only [fn1, FnSpec.one, FnSpec.apply, bindParams, bindParam, hcol, Option.map_some,
            List.length_cons, List.length_nil]
          rfl
        have hm : Means (.fn c!"isnull" [c]) (fun S row => .bool (f S row = .null)) := by
          refine means_fn (by decide +kernel) hms (fun S row os ho hv => ?_)
          have hl : os.length = 1 := by have := congrArg List.length hv; simpa using this
          obtain ⟨o, rfl⟩ := List.length_eq_one_iff.1 hl
          simp only [List.map_cons, List.map_nil, List.cons.injEq, and_true] at hv
          simp only [List.all_cons, List.all_nil, Bool.and_true] at ho
          unfold fFn
          rw [if_neg (by decide), if_neg (by decide), if_neg (by decide), if_neg (by decide), if_pos rfl]
          simp only [ho, if_true, hv]
          exact ⟨_, rfl, rfl, rfl⟩
        refine ⟨_, _, hk, kept_alias hm rfl rfl (by decide +kernel) fun S row => ?_⟩
        simp only [splEval, hev, Option.bind_some, List.map_cons, List.map_nil]
        rfl
  · obtain ⟨rfl, h1⟩ := hfn
    rw [h1] at hlen
    match ms, fs, hms with
    | [c], [f], hms =>
      match args, hmap, hal with
      | [a1], hmap, _ =>
        have hcol : a1.col = some c := by
          simp only [mapArgs] at hmap
          cases h1 : a1.col <;> simp [h1] at hmap ⊢
          exact hmap
        have hk : evalFn .disallow c!"isnotnull" [a1] = some ((PE.fn c!"isnotnull" [c]).withAlias c!"isnotnull") := by
          rw [evalFn_known (spec := fn1 c!"isnotnull" c!"isnotnull") rfl]
          simp only [fn1, FnSpec.one, FnSpec.apply, bindParams, bindParam, hcol, Option.map_some,
            List.length_cons, List.length_nil]
          rfl
        have hm : Means (.fn c!"isnotnull" [c]) (fun S row => .bool (f S row ≠ .null)) := by
          refine means_fn (by decide +kernel) hms (fun S row os ho hv => ?_)
          have hl : os.length = 1 := by have := congrArg List.length hv; simpa using this
          obtain ⟨o, rfl⟩ := List.length_eq_one_iff.1 hl
          simp only [List.map_cons, List.map_nil, List.cons.injEq, and_true] at hv
          simp only [List.all_cons, List.all_nil, Bool.and_true] at ho
          unfold fFn
          rw [if_neg (by decide), if_neg (by decide), if_neg (by decide), if_neg (by decide), if_neg (by decide),
            if_pos rfl]
          simp only [ho, if_true, hv]
          exact ⟨_, rfl, rfl, rfl⟩
        refine ⟨_, _, hk, kept_alias hm rfl rfl (by decide +kernel) fun S row => ?_⟩
        simp only [splEval, hev, Option.bind_some, List.map_cons, List.map_nil]
        rfl

end Verif.Lemmas
