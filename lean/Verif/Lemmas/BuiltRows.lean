import Verif.Spec.Built
import Verif.Lemmas.RowSteps
import Verif.Lemmas.LibraryCmd
/-
The frames the library builds have the rows of those built without it.
-/
namespace Verif.Lemmas
open Verif Spl Spec Props Library Rt

variable {S : Sem} {A : Aggs} {O : Arrangement} {T : Str → Frame}

/-- a frame with the rows of another one, if that has any -/
def RowsOf (d e : DF) : Prop := ∀ S A O T F, builtRows S A O T e = some F → builtRows S A O T d = some F

theorem built_prog {d : DF} {F : Frame} (h : builtRows S A O T d = some F) : ∃ t, progTree d = some ⟨[], t⟩ ∧ frameEval S A O T t = some F := by
  unfold builtRows at h
  split at h
  · rename_i e he
    exact ⟨e, he, h⟩
  · cases h

theorem built_of {d : DF} {t : PyE} (h : progTree d = some ⟨[], t⟩) : builtRows S A O T d = frameEval S A O T t := by
  rw [builtRows, h]

theorem onResult_nil {p : Option PyProg} {f : PyE → Option PyE} {t : PyE} (h : onResult p f = some ⟨[], t⟩) :
    ∃ e, p = some ⟨[], e⟩ ∧ f e = some t := by
  cases p with
  | none => cases h
  | some p =>
    obtain ⟨ss, e⟩ := p
    simp only [onResult, Option.map_eq_some_iff, PyProg.mk.injEq] at h
    obtain ⟨e', h1, h2, h3⟩ := h
    exact ⟨e, by rw [h2], h3 ▸ h1⟩

/-- the methods that are not a method of a data frame with a value of its own -/
theorem method_inv {t : PyE} {f : Str} {args : List PyE} {F : Frame} (hf : f ≠ c!"agg" ∧ f ≠ c!"unionByName" ∧ f ≠ c!"table" ∧ f ≠ c!"range")
    (h : frameEval S A O T (mCall t f args) = some F) : ∃ G, frameEval S A O T t = some G ∧ frameMethod S A O G f args = some F := by
  rw [mCall, frameEval.eq_def] at h
  split at h
  · rename_i heq
    cases heq
    exfalso
    split at h
    · split at h
      · rename_i hc; exact hf.2.2.1 hc.2
      · cases h
    · split at h
      · rename_i hc; exact hf.2.2.2 hc.2.1
      · cases h
    · cases h
  · rename_i heq
    cases heq
    simp only [hf.1, hf.2.1, and_false, if_false] at h
    cases hg : frameEval S A O T _ with
    | none => rw [hg] at h; cases h
    | some G =>
      rw [hg, Option.bind_some] at h
      exact ⟨G, rfl, h⟩
  · cases h

/-- one method call on top -/
theorem rowsOf_method {d e d' e' : DF} {f : Str} (k : PyE → Option PyE)
    (hf : f ≠ c!"agg" ∧ f ≠ c!"unionByName" ∧ f ≠ c!"table" ∧ f ≠ c!"range")
    (hk : ∃ args : Option (List PyE), ∀ t, k t = args.map fun as => mCall t f as)
    (hd : progTree d' = onResult (progTree d) k) (he : progTree e' = onResult (progTree e) k) (h : RowsOf d e) : RowsOf d' e' := by
  intro S A O T F hF
  obtain ⟨t, h1, h2⟩ := built_prog hF
  rw [he] at h1
  obtain ⟨u, h3, h4⟩ := onResult_nil h1
  obtain ⟨args, hk⟩ := hk
  rw [hk] at h4
  cases args with
  | none => cases h4
  | some as =>
    have h4 := (Option.some.inj h4).symm
    subst h4
    obtain ⟨G, h5, h6⟩ := method_inv hf h2
    obtain ⟨v, h7, h8⟩ := built_prog (h S A O T G (by rw [built_of h3, h5]))
    rw [built_of (t := mCall v f as) (by rw [hd, h7, onResult, hk]; rfl), frameEval_method _ h8 ⟨hf.1, hf.2.1⟩, h6]

/-- is the condition true? -/
def holds (S : Sem) (r : Event) (t : PyE) : Option Bool := (pyEval S r t).map fun o => S.truth o.val == some true

theorem and_true (S : Sem) (a b : Val) :
    (S.truth (S.op .and a b) == some true) = ((S.truth a == some true) && (S.truth b == some true)) := by
  simp only [Sem.op, S.truth_ofB]
  generalize S.truth a = x
  generalize S.truth b = y
  rcases x with _ | _ | _ <;> rcases y with _ | _ | _ <;> rfl

theorem tree_and {a b : PE} {t : PyE} (h : pyTree (.bin c!"&" a b) = some t) :
    ∃ u v, pyTree a = some u ∧ pyTree b = some v ∧ t = .bin c!"&" u v := by
  simp only [pyTree] at h
  rw [if_pos (by decide)] at h
  split at h
  · rename_i u v h1 h2
    exact ⟨u, v, h1, h2, (Option.some.inj h).symm⟩
  · cases h

theorem eval_and {S : Sem} {r : Event} {u v : PyE} {o : Obj} (h : pyEval S r (.bin c!"&" u v) = some o) :
    ∃ a b, pyEval S r u = some a ∧ pyEval S r v = some b ∧ o = .column (S.op .and a.val b.val) := by
  rw [pyEval, show pyOp c!"&" = some .and from rfl, Option.bind_some] at h
  cases hu : pyEval S r u with
  | none => rw [hu] at h; cases h
  | some a =>
    cases hv : pyEval S r v with
    | none => rw [hu, hv] at h; cases h
    | some b =>
      rw [hu, hv, Option.bind_some, Option.bind_some] at h
      split at h
      · exact ⟨a, b, rfl, rfl, (Option.some.inj h).symm⟩
      · cases h

theorem holds_and {S : Sem} {r : Event} {u v : PyE} {b : Bool} (h : holds S r (.bin c!"&" u v) = some b) :
    ∃ x y, holds S r u = some x ∧ holds S r v = some y ∧ b = (x && y) := by
  rw [holds, Option.map_eq_some_iff] at h
  obtain ⟨o, h1, h2⟩ := h
  obtain ⟨a, c, k1, k2, rfl⟩ := eval_and h1
  refine ⟨_, _, by rw [holds, k1, Option.map_some], by rw [holds, k2, Option.map_some], ?_⟩
  rw [← h2]
  exact and_true S _ _

/-- the parts of a condition that has a value -/
theorem and_parts {q : PE} {xs : List PE} (h : AndOf q xs) : ∀ {t}, pyTree q = some t →
    (∀ p ∈ xs, ∃ u, pyTree p = some u) ∧
    (∀ cols, known cols t = true → ∀ p ∈ xs, ∀ u, pyTree p = some u → known cols u = true) ∧
    ∀ S r b, holds S r t = some b → (∀ p ∈ xs, ∀ u, pyTree p = some u → ∃ x, holds S r u = some x) ∧
      (b = true ↔ ∀ p ∈ xs, ∀ u, pyTree p = some u → holds S r u = some true) := by
  induction h with
  | one q =>
    intro t ht
    refine ⟨?_, fun cols hk p hp u hu => ?_, fun S r b hb => ⟨fun p hp u hu => ?_, ?_⟩⟩
    · intro p hp; rw [List.mem_singleton.1 hp]; exact ⟨t, ht⟩
    · rw [List.mem_singleton.1 hp, ht] at hu; exact Option.some.inj hu ▸ hk
    · rw [List.mem_singleton.1 hp, ht] at hu; exact ⟨b, Option.some.inj hu ▸ hb⟩
    · constructor
      · intro hb' p hp u hu
        rw [List.mem_singleton.1 hp, ht] at hu
        rw [← Option.some.inj hu, hb, hb']
      · intro h
        have := h q (List.mem_singleton.2 rfl) t ht
        rw [hb] at this
        exact Option.some.inj this
  | @both a b xs ys ha hb iha ihb =>
    intro t ht
    obtain ⟨u, v, hu, hv, rfl⟩ := tree_and ht
    obtain ⟨a1, a2, a3⟩ := iha hu
    obtain ⟨b1, b2, b3⟩ := ihb hv
    refine ⟨fun p hp => ?_, fun cols hk p hp => ?_, fun S r c hc => ?_⟩
    · rcases List.mem_append.1 hp with hp | hp
      · exact a1 p hp
      · exact b1 p hp
    · simp only [known, colRefs, List.all_append, Bool.and_eq_true] at hk
      rcases List.mem_append.1 hp with hp | hp
      · exact a2 cols hk.1 p hp
      · exact b2 cols hk.2 p hp
    · obtain ⟨x, y, h1, h2, rfl⟩ := holds_and hc
      obtain ⟨c1, c2⟩ := a3 S r x h1
      obtain ⟨d1, d2⟩ := b3 S r y h2
      refine ⟨fun p hp => ?_, ?_⟩
      · rcases List.mem_append.1 hp with hp | hp
        · exact c1 p hp
        · exact d1 p hp
      · rw [Bool.and_eq_true, c2, d2]
        constructor
        · rintro ⟨h, k⟩ p hp
          rcases List.mem_append.1 hp with hp | hp
          · exact h p hp
          · exact k p hp
        · intro h
          exact ⟨fun p hp => h p (List.mem_append_left _ hp), fun p hp => h p (List.mem_append_right _ hp)⟩

/-- parts joined one after the other -/
theorem all_parts : ∀ (cs : List PE) {a : PE} {ta : PyE}, pyTree a = some ta → (∀ p ∈ cs, ∃ u, pyTree p = some u) →
    ∃ t, pyTree (cs.foldl (fun a c => .bin c!"&" a c) a) = some t ∧
      (∀ cols, known cols ta = true → (∀ p ∈ cs, ∀ u, pyTree p = some u → known cols u = true) → known cols t = true) ∧
      ∀ S r v, colValue S ta r = some v → (∀ p ∈ cs, ∀ u, pyTree p = some u → ∃ x, holds S r u = some x) →
        ∃ w, colValue S t r = some w ∧ ((S.truth w == some true) = true ↔ (S.truth v == some true) = true ∧
          ∀ p ∈ cs, ∀ u, pyTree p = some u → holds S r u = some true)
  | [], a, ta, ha, _ => ⟨ta, ha, fun _ h _ => h, fun S r v hv _ => ⟨v, hv, by simp⟩⟩
  | c :: cs, a, ta, ha, h => by
    obtain ⟨tc, hc⟩ := h c List.mem_cons_self
    have hb : pyTree (.bin c!"&" a c) = some (.bin c!"&" ta tc) := by
      simp only [pyTree, ha, hc]
      rw [if_pos (by decide)]
    obtain ⟨t, h1, h2, h3⟩ := all_parts cs hb fun p hp => h p (List.mem_cons_of_mem _ hp)
    refine ⟨t, h1, fun cols ka kc => h2 cols ?_ fun p hp => kc p (List.mem_cons_of_mem _ hp), fun S r v hv hx => ?_⟩
    · have := kc c List.mem_cons_self tc hc
      simp only [known, colRefs, List.all_append, Bool.and_eq_true] at ka this ⊢
      exact ⟨ka, this⟩
    · obtain ⟨x, hx1⟩ := hx c List.mem_cons_self tc hc
      rw [colValue] at hv
      cases hp : pyEval S r ta with
      | none => rw [hp] at hv; cases hv
      | some o =>
        rw [hp, Option.bind_some] at hv
        split at hv
        · rename_i hcol
          have hv := Option.some.inj hv
          have hx1' := hx1
          rw [holds, Option.map_eq_some_iff] at hx1'
          obtain ⟨o', k1, k2⟩ := hx1'
          have hval : colValue S (.bin c!"&" ta tc) r = some (S.op .and o.val o'.val) := by
            rw [colValue, pyEval, show pyOp c!"&" = some .and from rfl, Option.bind_some, hp, k1, Option.bind_some, Option.bind_some,
              hcol, Bool.true_or, if_pos rfl]
            rfl
          obtain ⟨w, w1, w2⟩ := h3 S r _ hval fun p hp => hx p (List.mem_cons_of_mem _ hp)
          refine ⟨w, w1, ?_⟩
          rw [w2, and_true, Bool.and_eq_true, hv]
          constructor
          · rintro ⟨⟨e1, e2⟩, e3⟩
            refine ⟨e1, fun p hp u hu => ?_⟩
            rcases List.mem_cons.1 hp with rfl | hp
            · rw [hc] at hu
              rw [← Option.some.inj hu, hx1, ← k2, e2]
            · exact e3 p hp u hu
          · rintro ⟨e1, e2⟩
            refine ⟨⟨e1, ?_⟩, fun p hp => e2 p (List.mem_cons_of_mem _ hp)⟩
            have := e2 c List.mem_cons_self tc hc
            rw [hx1, ← k2] at this
            exact Option.some.inj this
        · cases hv

theorem true_tree : pyTree (.lit c!"True") = some (fCall c!"lit" [.name c!"True"]) := by decide +kernel

theorem true_value (S : Sem) (r : Event) : colValue S (fCall c!"lit" [.name c!"True"]) r = some (.bool true) := rfl

theorem truth_true (S : Sem) : (S.truth (.bool true) == some true) = true := by
  have := S.truth_ofB (some true)
  rw [show ofB (some true) = .bool true from rfl] at this
  rw [this]; rfl

theorem where_inv {F G : Frame} {t : PyE} (h : frameMethod S A O G c!"where" [t] = some F) :
    known G.cols t = true ∧ (keepIf (fun r => (colValue S t r).map fun v => S.truth v == some true) G.rows).map
      (fun rows => (⟨G.cols, rows⟩ : Frame)) = some F := by
  unfold frameMethod at h
  rw [if_pos rfl] at h
  simp only at h
  split at h
  · rename_i hk
    exact ⟨hk, h⟩
  · cases h

theorem where_of {G : Frame} {t : PyE} (hk : known G.cols t = true) : frameMethod S A O G c!"where" [t] =
    (keepIf (fun r => (colValue S t r).map fun v => S.truth v == some true) G.rows).map fun rows => (⟨G.cols, rows⟩ : Frame) := by
  unfold frameMethod
  rw [if_pos rfl]
  simp only [hk, if_true]

theorem keepIf_congr {f g : Event → Option Bool} : ∀ {rs rs' : List Event}, (∀ r b, f r = some b → g r = some b) → keepIf f rs = some rs' →
    keepIf g rs = some rs'
  | [], _, _, h => h
  | r :: rs, rs', hfg, h => by
    rw [keepIf] at h ⊢
    cases hf : f r with
    | none => rw [hf] at h; cases h
    | some b =>
      rw [hf, Option.bind_some, Option.map_eq_some_iff] at h
      obtain ⟨l, h1, h2⟩ := h
      rw [hfg r b hf, Option.bind_some, keepIf_congr hfg h1, Option.map_some, h2]

theorem rowsOf_conj {d e : DF} {q : PE} {cs : List PE} (h : RowsOf d e) (hc : Conj q cs) : RowsOf (.where_ d (allOf cs)) (.where_ e q) := by
  obtain ⟨xs, hx, hp⟩ := hc
  intro S A O T F hF
  obtain ⟨t, h1, h2⟩ := built_prog hF
  obtain ⟨u, h3, h4⟩ := onResult_nil (p := progTree e) (f := fun e => (pyTree q).map fun t => mCall e c!"where" [t]) h1
  rw [Option.map_eq_some_iff] at h4
  obtain ⟨tq, hq, rfl⟩ := h4
  obtain ⟨G, h5, h6⟩ := method_inv (by decide) h2
  obtain ⟨v, h7, h8⟩ := built_prog (h S A O T G (by rw [built_of h3, h5]))
  obtain ⟨a1, a2, a3⟩ := and_parts hx hq
  obtain ⟨tc, b1, b2, b3⟩ := all_parts cs true_tree fun p hm => a1 p (hp.mem_iff.2 hm)
  obtain ⟨k1, k2⟩ := where_inv h6
  have hk : known G.cols tc = true := b2 G.cols (by rfl) fun p hm => a2 G.cols k1 p (hp.mem_iff.2 hm)
  have hd : progTree (.where_ d (allOf cs)) = some ⟨[], mCall v c!"where" [tc]⟩ := by
    rw [progTree, h7, allOf, b1]; rfl
  rw [built_of hd, frameEval_method _ h8 (by decide), where_of hk]
  rw [Option.map_eq_some_iff] at k2 ⊢
  obtain ⟨rows, k2, k3⟩ := k2
  refine ⟨rows, keepIf_congr (fun r b hb => ?_) k2, k3⟩
  rw [Option.map_eq_some_iff] at hb
  obtain ⟨w, w1, w2⟩ := hb
  have hh : holds S r tq = some b := by
    rw [colValue] at w1
    rw [holds]
    cases hp : pyEval S r tq with
    | none => rw [hp] at w1; cases w1
    | some o =>
      rw [hp, Option.bind_some] at w1
      split at w1
      · rw [Option.map_some, Option.some.inj w1, w2]
      · cases w1
  obtain ⟨c1, c2⟩ := a3 S r b hh
  obtain ⟨z, z1, z2⟩ := b3 S r _ (true_value S r) fun p hm => c1 p (hp.mem_iff.2 hm)
  rw [z1, Option.map_some]
  congr 1
  rw [Bool.eq_iff_iff, z2, c2]
  constructor
  · intro h p hm; exact h.2 p (hp.mem_iff.1 hm)
  · intro h; exact ⟨truth_true S, fun p hm => h p (hp.mem_iff.2 hm)⟩

theorem rowsOf_empty {d e : DF} (h : RowsOf d e) : RowsOf (.where_ d (allOf [])) e := by
  intro S A O T F hF
  obtain ⟨v, h7, h8⟩ := built_prog (h S A O T F hF)
  have hd : progTree (.where_ d (allOf [])) = some ⟨[], mCall v c!"where" [fCall c!"lit" [.name c!"True"]]⟩ := by
    rw [progTree, h7, allOf, List.foldl_nil, true_tree]; rfl
  rw [built_of hd, frameEval_method _ h8 (by decide), where_of (by rfl)]
  rw [keepIf_filter (g := fun _ => true) fun r _ => by rw [true_value, Option.map_some, truth_true], List.filter_eq_self.2 fun _ _ => rfl]
  rfl

/-- keys given as columns instead of names -/
theorem keys_tree : ∀ {ks : List CN} {ts : List PyE} {ns : List Str}, (∀ n, CN.name n ∈ ks → Plain '\'' n = true) → cnTrees ks = some ts →
    each keyName ts = some ns → ∃ us, cnTrees ((ks.map CN.toPE).map .col) = some us ∧ each keyName us = some ns
  | [], ts, ns, _, h, hn => ⟨ts, h, hn⟩
  | k :: ks, ts, ns, hk, h, hn => by
    rw [cnTrees] at h
    split at h
    · rename_i t ts' h1 h2
      have h := Option.some.inj h
      subst h
      rw [each] at hn
      cases hx : keyName t with
      | none => rw [hx] at hn; cases hn
      | some n =>
        rw [hx, Option.bind_some, Option.map_eq_some_iff] at hn
        obtain ⟨ns', h3, rfl⟩ := hn
        obtain ⟨us, u1, u2⟩ := keys_tree (fun n hn => hk n (List.mem_cons_of_mem _ hn)) h2 h3
        cases k with
        | col c =>
          refine ⟨t :: us, ?_, by rw [each, hx, u2]; rfl⟩
          rw [cnTree] at h1
          simp only [List.map_cons, cnTrees, cnTree, CN.toPE, h1, u1]
        | name m =>
          have hm := hk m List.mem_cons_self
          rw [cnTree] at h1
          split at h1
          · have h1 := Option.some.inj h1
            subst h1
            have := Option.some.inj hx
            subst this
            refine ⟨fCall c!"col" [.str m] :: us, ?_, by rw [each, u2]; rfl⟩
            simp only [List.map_cons, cnTrees, cnTree, CN.toPE, pyTree, hm, if_true, u1]
          · cases h1
    · cases h

theorem agg_inv {t : PyE} {ks args : List PyE} {F : Frame}
    (h : frameEval S A O T (mCall (mCall t c!"groupBy" [.list ks]) c!"agg" args) = some F) :
    ∃ G, frameEval S A O T t = some G ∧ ∃ ns, each keyName ks = some ns := by
  rw [mCall, mCall, frameEval.eq_def] at h
  dsimp only at h
  rw [if_pos ⟨rfl, rfl⟩] at h
  cases hg : frameEval S A O T t with
  | none => rw [hg] at h; cases h
  | some G =>
    rw [hg, Option.bind_some] at h
    refine ⟨G, rfl, ?_⟩
    cases hk : each keyName ks with
    | none => rw [hk] at h; cases h
    | some ns => exact ⟨ns, rfl⟩

theorem rowsOf_groups {d e : DF} {ks : List CN} {cs : List PE} (h : RowsOf d e) (hn : ∀ n, CN.name n ∈ ks → Plain '\'' n = true) :
    RowsOf (.agg (.groupBy d ((ks.map CN.toPE).map .col)) cs) (.agg (.groupBy e ks) cs) := by
  intro S A O T F hF
  obtain ⟨t, h1, h2⟩ := built_prog hF
  obtain ⟨u, h3, h4⟩ := onResult_nil (p := progTree (.groupBy e ks)) (f := fun e => (colTrees cs).map fun ts => mCall e c!"agg" ts) h1
  obtain ⟨w, h5, h6⟩ := onResult_nil (p := progTree e) (f := fun e => (cnTrees ks).map fun ts => mCall e c!"groupBy" [.list ts]) h3
  rw [Option.map_eq_some_iff] at h4 h6
  obtain ⟨ts, h4, rfl⟩ := h4
  obtain ⟨kt, h6, rfl⟩ := h6
  obtain ⟨G, h7, ns, h8⟩ := agg_inv h2
  obtain ⟨us, u1, u2⟩ := keys_tree hn h6 h8
  obtain ⟨v, v1, v2⟩ := built_prog (h S A O T G (by rw [built_of h5, h7]))
  have hd : progTree (.agg (.groupBy d ((ks.map CN.toPE).map .col)) cs) =
      some ⟨[], mCall (mCall v c!"groupBy" [.list us]) c!"agg" ts⟩ := by
    simp only [progTree, v1, onResult, u1, h4, Option.map_some]
  rw [built_of hd, frameEval_agg _ _ v2, u2, ← h2, frameEval_agg _ _ h7, h8]

/-- The commands keep the rows. -/
theorem rowsOf_closed : Closed (fun n => Plain '\'' n = true) RowsOf where
  source _ _ _ _ _ _ h := h
  rawSource _ _ _ _ _ _ h := h
  withColumn {d e c n} h := rowsOf_method _ (f := c!"withColumn") (by decide)
    ⟨if Plain '\'' n then (pyTree c).map fun t => [.str n, t] else none, fun t => by
      by_cases hp : Plain '\'' n = true
      · simp only [hp, if_true, Option.map_map]; rfl
      · simp only [hp, if_false]; rfl⟩ rfl rfl h
  renamed {d e o n} h := rowsOf_method _ (f := c!"withColumnRenamed") (by decide)
    ⟨if Plain '\'' o && Plain '\'' n then some [.str o, .str n] else none, fun t => by
      by_cases hp : (Plain '\'' o && Plain '\'' n) = true
      · simp only [hp, if_true]; rfl
      · simp only [hp, if_false]; rfl⟩ rfl rfl h
  select h := rowsOf_method _ (f := c!"select") (by decide) ⟨_, fun t => rfl⟩ rfl rfl h
  where_ {d e c} h := rowsOf_method _ (f := c!"where") (by decide) ⟨(pyTree c).map fun t => [t], fun t => by simp only [Option.map_map]; rfl⟩ rfl rfl h
  orderBy h := rowsOf_method _ (f := c!"orderBy") (by decide) ⟨_, fun t => rfl⟩ rfl rfl h
  limit {d e n} h := rowsOf_method _ (f := c!"limit") (by decide) ⟨some [natTree n], fun t => rfl⟩ rfl rfl h
  tail {d e n} h := rowsOf_method _ (f := c!"tail") (by decide) ⟨some [natTree n], fun t => rfl⟩ rfl rfl h
  conj := rowsOf_conj
  empty := rowsOf_empty
  groups h hn _ := rowsOf_groups h hn

end Verif.Lemmas
