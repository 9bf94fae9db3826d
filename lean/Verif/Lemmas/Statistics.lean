import Verif.Spec.Stats
import Verif.Lemmas.RowOps
/-
Statistics of a list of numbers do not depend on its order.
-/
namespace Verif.Lemmas
open Verif.Spec

theorem total_perm {l l' : List Rat} (h : l'.Perm l) : total l' = total l := by
  induction h with
  | nil => rfl
  | cons a _ ih => simp only [total, List.foldr_cons] at ih ⊢; rw [ih]
  | swap a b l => simp only [total, List.foldr_cons]; rw [← Rat.add_assoc, ← Rat.add_assoc, Rat.add_comm a b]
  | trans _ _ h1 h2 => rw [h1, h2]

theorem meanOf_perm {l l' : List Rat} (h : l'.Perm l) : meanOf l' = meanOf l := by
  rw [meanOf, meanOf, total_perm h, h.length_eq]

theorem deviation_perm {l l' : List Rat} (h : l'.Perm l) : deviation l' = deviation l := by
  rw [deviation, deviation, meanOf_perm h]
  exact total_perm (h.map _)

theorem insertAsc_perm (q : Rat) : ∀ l : List Rat, (insertAsc q l).Perm (q :: l)
  | [] => .refl _
  | a :: l => by
    rw [insertAsc]
    split
    · exact .refl _
    · exact ((insertAsc_perm q l).cons a).trans (.swap q a l)

theorem insertAsc_sorted (q : Rat) : ∀ {l : List Rat}, l.Pairwise (· ≤ ·) → (insertAsc q l).Pairwise (· ≤ ·)
  | [], _ => List.pairwise_singleton _ _
  | a :: l, h => by
    rw [insertAsc]
    rw [List.pairwise_cons] at h
    split
    · rename_i hq
      refine List.pairwise_cons.2 ⟨fun b hb => ?_, List.pairwise_cons.2 h⟩
      rcases List.mem_cons.1 hb with rfl | hb
      · exact hq
      · exact Rat.le_trans hq (h.1 b hb)
    · rename_i hq
      refine List.pairwise_cons.2 ⟨fun b hb => ?_, insertAsc_sorted q h.2⟩
      rcases List.mem_cons.1 ((insertAsc_perm q l).mem_iff.1 hb) with rfl | hb
      · exact (Rat.le_total (a := b) (b := a)).resolve_left hq
      · exact h.1 b hb

theorem ascending_self (l : List Rat) : (ascending l).Perm l := by
  induction l with
  | nil => exact .refl _
  | cons a l ih => exact (insertAsc_perm a _).trans (ih.cons a)

theorem ascending_sorted (l : List Rat) : (ascending l).Pairwise (· ≤ ·) := by
  induction l with
  | nil => exact .nil
  | cons a l ih => exact insertAsc_sorted a ih

theorem ascending_perm {l l' : List Rat} (h : l'.Perm l) : ascending l' = ascending l :=
  List.Perm.eq_of_pairwise (le := (· ≤ ·)) (fun _ _ _ _ h1 h2 => Rat.le_antisymm h1 h2) (ascending_sorted l') (ascending_sorted l)
    ((ascending_self l').trans (h.trans (ascending_self l).symm))

theorem distinctOf_perm {α} [DecidableEq α] {l l' : List α} (h : l'.Perm l) : (distinctOf l').Perm (distinctOf l) := by
  refine (List.perm_ext_iff_of_nodup (nodup_distinctOf _) (nodup_distinctOf _)).2 fun a => ?_
  rw [mem_distinctOf, mem_distinctOf, h.mem_iff]

theorem nearestRank_perm {l l' : List Rat} (p : Rat) (h : l'.Perm l) : nearestRank p l' = nearestRank p l := by
  rw [nearestRank, nearestRank, ascending_perm h, h.length_eq]

theorem ofSome_perm {f : List Rat → Rat} (hf : ∀ l l' : List Rat, l'.Perm l → f l' = f l) {l l' : List Rat} (h : l'.Perm l) :
    ofSome f l' = ofSome f l := by
  have : (l' = []) ↔ (l = []) := by
    rw [← List.length_eq_zero_iff, ← List.length_eq_zero_iff, h.length_eq]
  simp only [ofSome, this, hf l l' h]

theorem sparkStats_perm (root : Rat → Rat) {f : Str} {g : List Rat → Val} (h : (sparkStats root).lookup f = some g)
    {l l' : List Rat} (hp : l'.Perm l) : g l' = g l := by
  unfold sparkStats at h
  simp only [List.lookup_cons, List.lookup_nil] at h
  repeat' split at h
  all_goals first
    | cases h; done
    | skip
  all_goals
    have hg := Option.some.inj h
    subst hg
  · exact ofSome_perm (fun _ _ h => meanOf_perm h) hp
  · exact ofSome_perm (fun _ _ h => meanOf_perm h) hp
  · simp only [(distinctOf_perm hp).length_eq]
  · simp only [ascending_perm hp]
  · simp only [ascending_perm hp]
  · simp only [deviation_perm hp, hp.length_eq]
  · exact ofSome_perm (fun _ _ h => by rw [deviation_perm h, h.length_eq]) hp
  · exact ofSome_perm (fun _ _ h => total_perm h) hp
  · simp only [deviation_perm hp, hp.length_eq]
  · exact ofSome_perm (fun _ _ h => by rw [deviation_perm h, h.length_eq]) hp

theorem asNumbers_iff : ∀ (vs : List Val) (l : List Rat), asNumbers vs = some l ↔ vs = l.map .num
  | [], l => by cases l <;> simp [asNumbers, each]
  | v :: vs, l => by
    have ih := asNumbers_iff vs
    unfold asNumbers at ih ⊢
    cases v with
    | num q =>
      simp only [each, Option.bind_some, Option.map_eq_some_iff]
      constructor
      · rintro ⟨l', h1, rfl⟩
        rw [(ih l').1 h1]; rfl
      · intro h
        cases l with
        | nil => cases h
        | cons r l =>
          simp only [List.map_cons, List.cons.injEq, Val.num.injEq] at h
          exact ⟨l, (ih l).2 h.2, by rw [h.1]⟩
    | null => cases l <;> simp [each]
    | bool => cases l <;> simp [each]
    | str => cases l <;> simp [each]

theorem filterMap_self {α} {f : α → Option α} : ∀ {l : List α}, (∀ a ∈ l, f a = some a) → l.filterMap f = l
  | [], _ => rfl
  | a :: l, h => by
    rw [List.filterMap_cons, h a (by simp)]
    show a :: l.filterMap f = a :: l
    rw [filterMap_self fun b hb => h b (List.mem_cons_of_mem _ hb)]

/-- Values in another order are the same numbers in another order. -/
theorem asNumbers_perm {vs vs' : List Val} {l : List Rat} (h : vs'.Perm vs) (hn : asNumbers vs = some l) :
    ∃ l', asNumbers vs' = some l' ∧ l'.Perm l := by
  rw [asNumbers_iff] at hn
  subst hn
  let back : Val → Option Rat := fun v => match v with | .num q => some q | _ => none
  have e : (l.map Val.num).filterMap back = l := by
    rw [List.filterMap_map]
    exact List.filterMap_some
  refine ⟨vs'.filterMap back, ?_, ?_⟩
  · rw [asNumbers_iff, List.map_filterMap]
    symm
    have : ∀ v ∈ vs', Option.map Val.num (back v) = some v := by
      intro v hv
      obtain ⟨q, _, rfl⟩ := List.mem_map.1 (h.mem_iff.1 hv)
      rfl
    exact filterMap_self this
  · have := h.filterMap back
    rw [e] at this
    exact this

theorem fieldValues_perm {rows rows' : List Event} (x : Str) (h : rows'.Perm rows) : (fieldValues x rows').Perm (fieldValues x rows) :=
  (h.map _).filter _

end Verif.Lemmas
