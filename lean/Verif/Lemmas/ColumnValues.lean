import Verif.Lemmas.Prim
import Verif.Lemmas.Within
import Verif.Spec.RowsFragment
import Verif.Tr.Commands
/-
Values of the columns made by `addtotals` and `spath`.
-/
namespace Verif.Lemmas
open Verif Spec Col

theorem means_double {c : PE} {f : Sem → Event → Val} (h : Means c f) (hr : isReceiver c = true) :
    Means (.method c c!"cast" [pyStr c!"double"]) (fun S row => S.prim .toNumber [f S row]) := by
  obtain ⟨t, ht, et⟩ := h
  have hi : isIdent c!"cast" = true := by decide +kernel
  refine ⟨.call (.attr t c!"cast") [.str c!"double"], ?_, fun S row => ?_⟩
  · simp only [pyTree, ht, hr, hi, Bool.and_self, if_true, pyTrees, pyStr]
    rfl
  · obtain ⟨o, ho, co, vo⟩ := et S row
    refine ⟨.column (S.prim .toNumber [o.val]), ?_, rfl, by rw [Obj.val, vo]⟩
    rw [eval_method _ _ ho co]
    simp only [pyEvals, pyEval, Option.bind_some, Option.map_some]
    unfold colMethod
    rw [if_pos co]
    rfl

theorem means_isNotNull {c : PE} {f : Sem → Event → Val} (h : Means c f) (hr : isReceiver c = true) :
    Means (.method c c!"isNotNull" []) (fun S row => .bool (f S row ≠ .null)) := by
  obtain ⟨t, ht, et⟩ := h
  have hi : isIdent c!"isNotNull" = true := by decide +kernel
  refine ⟨.call (.attr t c!"isNotNull") [], ?_, fun S row => ?_⟩
  · simp only [pyTree, ht, hr, hi, Bool.and_self, if_true, pyTrees]
  · obtain ⟨o, ho, co, vo⟩ := et S row
    refine ⟨.column (.bool (o.val ≠ .null)), ?_, rfl, by rw [Obj.val, vo]⟩
    rw [eval_method _ _ ho co]
    simp only [pyEvals, Option.bind_some]
    unfold colMethod
    rw [if_pos co]
    rfl

/-- One summand of `addtotals`. -/
theorem means_summand {n : Str} (h : Plain '\'' n = true) : Means (addTotalsCol n) (fun S row => summand S (row n)) := by
  have h0 : IsConst c!"0.0" (.num 0) := ⟨.num c!"0" c!"0", by decide +kernel, fun S row => by
    rw [pyEval, show numVal c!"0" c!"0" = 0 from by decide +kernel]⟩
  have hb := branches_fn (means_isNotNull (means_double (means_named h) rfl) rfl) (means_named h)
  refine means_congr (means_otherwise hb (means_lit h0)) fun S row => ?_
  have ht : S.truth (.bool (S.prim .toNumber [row n] ≠ .null)) = some (decide (S.prim .toNumber [row n] ≠ .null)) := S.truth_ofB (some _)
  simp only [summand, List.singleton_append, pick, ht]
  by_cases hz : S.prim .toNumber [row n] = .null <;> simp [hz]

theorem means_sum : ∀ (ns : List Str) {p : PE} {f : Sem → Event → Val}, (∀ n ∈ ns, Plain '\'' n = true) → Means p f →
    Means (joinBinFrom c!"+" p (ns.map addTotalsCol)) (fun S row => (ns.map fun n => summand S (row n)).foldl (fun a b => S.op .add a b) (f S row))
  | [], p, f, _, hp => hp
  | n :: ns, p, f, h, hp => by
    have h1 := means_bin (op := c!"+") hp (means_summand (h n (List.mem_cons_self ..))) (o := .add) (by decide) (by decide)
    exact means_congr (means_sum ns (fun m hm => h m (List.mem_cons_of_mem _ hm)) h1) fun S row => rfl

theorem within_summand {ok : Str → Bool} {n : Str} (h : ok n = true) : within ok (addTotalsCol n) = true := by
  simp [addTotalsCol, PE.mkMethod, within, withinL, PE.unalias, h, pyStr, notCol]

theorem within_sum {ok : Str → Bool} : ∀ (ns : List Str) {p : PE}, (∀ n ∈ ns, ok n = true) → within ok p = true →
    within ok (joinBinFrom c!"+" p (ns.map addTotalsCol)) = true
  | [], p, _, hp => hp
  | n :: ns, p, h, hp => by
    refine within_sum ns (fun m hm => h m (List.mem_cons_of_mem _ hm)) ?_
    simp [within, hp, within_summand (h n (List.mem_cons_self ..))]

/-- The column of `addtotals` with at least one field. -/
theorem means_total {fs : List Str} (hne : fs ≠ []) (h : ∀ n ∈ fs, Plain '\'' n = true) :
    ∃ p, joinAsBinaries c!"+" (fs.map addTotalsCol) = some p ∧ Means p (fun S row => splTotal S fs row) ∧
      ∀ ok : Str → Bool, (∀ n ∈ fs, ok n = true) → within ok p = true := by
  cases fs with
  | nil => exact absurd rfl hne
  | cons n fs =>
    refine ⟨_, rfl, means_congr (means_sum fs (fun m hm => h m (List.mem_cons_of_mem _ hm)) (means_summand (h n (List.mem_cons_self ..))))
      fun S row => rfl, fun ok hok => within_sum fs (fun m hm => hok m (List.mem_cons_of_mem _ hm)) (within_summand (hok n (List.mem_cons_self ..)))⟩

/-! ### paths -/

theorem mem_dotParts : ∀ {p q : Str}, q ∈ dotParts p → ∀ c ∈ q, c ∈ p
  | [], q, h, c, hc => by
    simp only [dotParts, List.mem_singleton] at h
    subst h; cases hc
  | a :: p, q, h, c, hc => by
    rw [dotParts] at h
    split at h
    · rcases List.mem_cons.1 h with rfl | h
      · cases hc
      · exact List.mem_cons_of_mem _ (mem_dotParts h c hc)
    · split at h
      · rename_i q' qs hq
        rcases List.mem_cons.1 h with rfl | h
        · rcases List.mem_cons.1 hc with rfl | hc
          · exact List.mem_cons_self ..
          · exact List.mem_cons_of_mem _ (mem_dotParts (q := q') (by rw [hq]; exact List.mem_cons_self ..) c hc)
        · exact List.mem_cons_of_mem _ (mem_dotParts (q := q) (by rw [hq]; exact List.mem_cons_of_mem _ h) c hc)
      · simp only [List.mem_singleton] at h
        subst h
        simp only [List.mem_singleton] at hc
        subst hc
        exact List.mem_cons_self ..

theorem takeWhile_ne {a : Char} : ∀ {q : Str}, a ∉ q → q.takeWhile (· != a) = q ∧ q.dropWhile (· != a) = []
  | [], _ => ⟨rfl, rfl⟩
  | c :: q, h => by
    simp only [List.mem_cons, not_or] at h
    have := takeWhile_ne h.2
    have hc : (c != a) = true := by simpa using fun e => h.1 e.symm
    simp [hc, this]

theorem keyed_plain {o c : Char} {all bad q : Str} (ho : o ∉ q) : keyed o c all bad q = if q = [] ∨ q.any bad.contains then none else some [.key q] := by
  simp only [keyed, (takeWhile_ne ho).1, (takeWhile_ne ho).2, indexes, Option.map_some]

theorem allSteps_eq {f g : Str → Option (List PathStep)} : ∀ {ps : List Str}, (∀ q ∈ ps, ∀ v, f q = some v → g q = some v) →
    ∀ {ks}, allSteps f ps = some ks → allSteps g ps = some ks
  | [], _, ks, h => h
  | p :: ps, hfg, ks, h => by
    rw [allSteps, Option.bind_eq_some_iff] at h
    obtain ⟨a, h1, h2⟩ := h
    rw [Option.map_eq_some_iff] at h2
    obtain ⟨b, h2, rfl⟩ := h2
    rw [allSteps, hfg p (List.mem_cons_self ..) a h1, Option.bind_some, allSteps_eq (fun q hq => hfg q (List.mem_cons_of_mem _ hq)) h2]
    rfl

/-- A plain path leads to the same place in Spark. -/
theorem path_same {p : Str} (h : p.all (fun c => c != '{' && c != '[' && c != '*') = true) {ks : List PathStep} (hk : splPath p = some ks) :
    sparkPath ('$' :: '.' :: p) = some ks := by
  rw [List.all_eq_true] at h
  unfold splPath at hk
  have hd : dotParts ('.' :: p) = [] :: dotParts p := by rw [dotParts, if_pos rfl]
  simp only [sparkPath, hd, indexes, Option.bind_some]
  rw [allSteps_eq (g := keyed '[' ']' ['*'] ['*']) _ hk]
  · rfl
  · intro q hq v hv
    have hc : ∀ c ∈ q, c ≠ '{' ∧ c ≠ '[' ∧ c ≠ '*' := fun c hcq => by
      have := h c (mem_dotParts hq c hcq)
      simpa [and_assoc] using this
    rw [keyed_plain fun hm => (hc _ hm).1 rfl] at hv
    rw [keyed_plain fun hm => (hc _ hm).2.1 rfl]
    split at hv
    · cases hv
    · rename_i hb
      rw [if_neg, hv]
      rintro (e | e)
      · exact hb (Or.inl e)
      · rw [List.any_eq_true] at e
        obtain ⟨c, hcq, e⟩ := e
        have : c = '*' := by simpa using e
        exact (hc c hcq).2.2 this

/-- The column of `spath`. -/
theorem means_json {c : PE} {f : Sem → Event → Val} {p : Str} {ks : List PathStep} (h : Means c f) (hp : Plain '"' p = true)
    (hk : sparkPath p = some ks) : Means (.fn c!"get_json_object" [c, pyStr p]) (fun S row => S.jsonAt (f S row) ks) := by
  refine means_mixed (cs := [c!"\"" ++ p ++ c!"\""]) (vs := [.str p]) (by decide +kernel) h rfl (by
    intro x hx
    simp only [List.zip_cons_cons, List.zip_nil_right, List.mem_singleton] at hx
    subst hx
    exact plain_dconst hp) ?_
  intro S row o ho hv
  rw [fFn_tail (by decide +kernel)]
  refine ⟨.column (S.jsonAt o.val ks), ?_, rfl, by rw [Obj.val, hv]⟩
  have : sparkFn S c!"get_json_object" [o, .const (.str p)] = (sparkPath p).map fun ks => .column (S.jsonAt o.val ks) := by
    unfold sparkFn
    rw [show (sparkPrims.find? fun x => x.1 == c!"get_json_object" && x.2.1 == [o, Obj.const (.str p)].length) = none from rfl]
    simp only [ho, if_true]
    rfl
  rw [List.map_singleton, this, hk, Option.map_some]

end Verif.Lemmas
