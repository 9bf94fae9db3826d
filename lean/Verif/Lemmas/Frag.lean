import Verif.Lemmas.Prim
/-
Every expression of the fragment is translated to a column of the same value.
-/
namespace Verif.Lemmas
open Verif Spec

theorem unalias_eq_of_means {p : PE} : p.unalias.unalias = p.unalias := unalias_idem p

theorem wild_means {m : Mode} {l : Expr} {op p : Str} {q : PE} {f : Sem → Event → Val} (hq : exprTr m l = some q)
    (hk : Kept1 l q f) (hn : isNegated l = false) (ho : FragWildOp op = true) (hp : PlainPat p = true) :
    ∃ p' f', exprTr m (.binary l op (.const (.wildcard p))) = some p' ∧
      Kept1 (.binary l op (.const (.wildcard p))) p' f' := by
  obtain ⟨⟨_, hu⟩, hr, hs⟩ := hk
  have hm := means_like hu (hr hn) hp
  simp only [FragWildOp, Bool.or_eq_true, beq_iff_eq] at ho
  rcases ho with (ho | ho) | ho <;> subst ho
  · refine ⟨_, _, by simp only [exprTr, binTr, hq, wildcardTr]; rfl, ⟨hm, hm⟩, fun _ => rfl, fun S row => ?_⟩
    simp only [splEval, hs, Option.bind_some]
    rfl
  · refine ⟨_, _, by simp only [exprTr, binTr, hq, wildcardTr]; rfl, ⟨hm, hm⟩, fun _ => rfl, fun S row => ?_⟩
    simp only [splEval, hs, Option.bind_some]
    rfl
  · refine ⟨_, _, by simp only [exprTr, binTr, hq, wildcardTr]; rfl, ⟨means_not hm, means_not hm⟩,
      fun h => by simp [isNegated] at h, fun S row => ?_⟩
    simp only [splEval, hs, Option.bind_some, Sem.neg, S.truth_ofB]
    rfl

theorem bin_means {m : Mode} {l r : Expr} {op : Str} {p q : PE} {f g : Sem → Event → Val}
    (hw : ∀ w, r ≠ .const (.wildcard w)) (hi : ∀ w, r ≠ .const (.ipv4cidr w))
    (hp : exprTr m l = some p) (hq : exprTr m r = some q) (hk : Kept1 l p f) (hk' : Kept1 r q g)
    (ho : FragOp op = true) :
    ∃ p' f', exprTr m (.binary l op r) = some p' ∧ Kept1 (.binary l op r) p' f' := by
  obtain ⟨o, h1, h2, h3⟩ := op_pyOp ho
  obtain ⟨⟨_, hu⟩, _, hs⟩ := hk
  obtain ⟨⟨_, hu'⟩, _, hs'⟩ := hk'
  have hm := means_bin hu hu' h2 h3
  have ht : exprTr m (.binary l op r) = some (PE.mkBin p (mapOp op) q) := by
    rw [exprTr, hp, hq]
    unfold binTr
    split
    · exact absurd rfl (hw _)
    · exact absurd rfl (hi _)
    · rfl
  refine ⟨_, _, ht, ⟨hm, hm⟩, fun _ => rfl, fun S row => ?_⟩
  rw [splEval.eq_3]
  · simp only [h1, hs, hs', Option.bind_some, Option.map_some]
  · exact hw

mutual
theorem frag_means (m : Mode) : ∀ (e : Expr), Frag m e = true → ∃ p f, exprTr m e = some p ∧ Kept1 e p f
  | .const k, h => by
    rw [Frag] at h
    obtain ⟨p, f, hp, hk⟩ := const_means h
    exact ⟨p, f, by rw [exprTr]; exact hp, hk⟩
  | .binary l op r, h => by
    by_cases hw : ∃ w, r = .const (.wildcard w)
    · obtain ⟨w, rfl⟩ := hw
      rw [Frag] at h
      simp only [Bool.and_eq_true, Bool.not_eq_true'] at h
      obtain ⟨⟨⟨h1, h2⟩, h3⟩, h4⟩ := h
      obtain ⟨p, f, hp, hk⟩ := frag_means m l h1
      exact wild_means hp hk h2 h3 h4
    · rw [Frag.eq_3 m l op r (fun w e => hw ⟨w, e⟩)] at h
      simp only [Bool.and_eq_true] at h
      obtain ⟨⟨h1, h2⟩, h3⟩ := h
      obtain ⟨p, f, hp, hk⟩ := frag_means m l h1
      obtain ⟨q, g, hq, hk'⟩ := frag_means m r h2
      refine bin_means (fun w e => hw ⟨w, e⟩) (fun w e => ?_) hp hq hk hk' h3
      subst e
      cases h2
  | .unary op r, h => by
    rw [Frag] at h
    simp only [Bool.and_eq_true, beq_iff_eq] at h
    obtain ⟨rfl, h1⟩ := h
    obtain ⟨p, f, hp, ⟨_, hu⟩, _, hs⟩ := frag_means m r h1
    have hm := means_not hu
    refine ⟨_, _, by simp only [exprTr, hp, if_true, Option.map_some]; rfl, ⟨hm, hm⟩, fun h => (by cases h), fun S row => ?_⟩
    have : lower c!"NOT" = c!"not" := by decide +kernel
    simp only [splEval, hs, Option.map_some, this, if_true]
  | .fieldIn f es, h => by
    rw [Frag] at h
    simp only [Bool.and_eq_true, bne_iff_ne] at h
    obtain ⟨p, g, hp, hk⟩ := in_means h.1.1 h.1.2 h.2
    exact ⟨p, g, by rw [exprTr]; exact hp, hk⟩
  | .call name es, h => by
    rw [Frag] at h
    simp only [Bool.and_eq_true, beq_iff_eq] at h
    obtain ⟨⟨hm, hfn⟩, hes⟩ := h
    obtain ⟨ms, fs, h1, h2, h3, h4, h5⟩ := frags_means m es hes
    subst hm
    rw [Bool.or_eq_true] at hfn
    obtain ⟨p, f, hp, hk⟩ := hfn.elim (fun hfn => call_means hfn h1 h3 h2 h4) (fun hfn => prim_means hfn h1 h3 h2 h4 h5)
    exact ⟨p, f, by rw [exprTr]; exact hp, hk⟩
theorem frags_means (m : Mode) : ∀ (es : List Expr), Frags m es = true →
    ∃ ms fs, mapArgs (argsTr m es) = some ms ∧ MeansL ms fs ∧ ms.length = es.length ∧
      (∀ S row, splEvals S row es = some (fs.map fun f => f S row)) ∧
      ∀ a as q qs, es = a :: as → ms = q :: qs → isNegated a = false → isReceiver q = true
  | [], _ => ⟨[], [], rfl, trivial, rfl, fun _ _ => rfl, fun _ _ _ _ h => by cases h⟩
  | e :: es, h => by
    rw [Frags] at h
    simp only [Bool.and_eq_true] at h
    obtain ⟨p, f, hp, ⟨_, hu⟩, hr, hs⟩ := frag_means m e h.1
    obtain ⟨ms, fs, h1, h2, h3, h4, _⟩ := frags_means m es h.2
    refine ⟨p.unalias :: ms, f :: fs, ?_, ⟨⟨hu, unalias_idem p⟩, h2⟩, by simp [h3], fun S row => ?_, ?_⟩
    · simp only [argsTr, hp, mapArgs, Option.map_some, h1]
    · simp only [splEvals, hs, h4, Option.bind_some, Option.map_some, List.map_cons]
    · intro a as q qs e1 e2 hn
      rw [← (List.cons.inj e2).1]
      exact hr (by rw [(List.cons.inj e1).1]; exact hn)
end

end Verif.Lemmas
