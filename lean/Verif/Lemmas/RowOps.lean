import Verif.Lemmas.SearchFrag
/-
Operations on rows: lists without missing values, sorting, and grouping.
-/
namespace Verif.Lemmas
open Verif Spl Spec

theorem each_map {α β} {f : α → Option β} {g : α → β} : ∀ {l : List α}, (∀ a ∈ l, f a = some (g a)) → each f l = some (l.map g)
  | [], _ => rfl
  | a :: as, h => by
    rw [each, h a (List.mem_cons_self ..), Option.bind_some, each_map fun b hb => h b (List.mem_cons_of_mem _ hb)]
    rfl

theorem keepIf_filter {f : Event → Option Bool} {g : Event → Bool} : ∀ {l : List Event}, (∀ r ∈ l, f r = some (g r)) →
    keepIf f l = some (l.filter g)
  | [], _ => rfl
  | a :: as, h => by
    rw [keepIf, h a (List.mem_cons_self ..), Option.bind_some, keepIf_filter fun b hb => h b (List.mem_cons_of_mem _ hb)]
    simp only [Option.map_some, List.filter_cons]

/-! ### sorting -/

/-- a total order, up to ties -/
structure Ord (le : Bool → Val → Val → Bool) : Prop where
  total : ∀ d a b, (le d a b || le d b a) = true
  trans : ∀ d a b c, le d a b = true → le d b c = true → le d a c = true

theorem ord_spl (A : Aggs) : Ord (splLe A) := by
  refine ⟨fun d a b => ?_, fun d a b c h1 h2 => ?_⟩
  · unfold splLe
    have t1 : A.le a b = true ∨ A.le b a = true := by simpa using A.le_total a b
    have t2 := t1.symm
    by_cases ha : a = .null <;> by_cases hb : b = .null <;> cases d <;> simp [ha, hb] <;> assumption
  · unfold splLe at *
    by_cases ha : a = .null <;> by_cases hb : b = .null <;> by_cases hc : c = .null <;> cases d <;> simp_all
    · exact A.le_trans _ _ _ h1 h2
    · exact A.le_trans _ _ _ h2 h1

theorem ord_spark (A : Aggs) : Ord (sparkLe A) := by
  refine ⟨fun d a b => ?_, fun d a b c h1 h2 => ?_⟩
  · unfold sparkLe
    have t1 : A.le a b = true ∨ A.le b a = true := by simpa using A.le_total a b
    have t2 := t1.symm
    by_cases ha : a = .null <;> by_cases hb : b = .null <;> cases d <;> simp [ha, hb] <;> assumption
  · unfold sparkLe at *
    by_cases ha : a = .null <;> by_cases hb : b = .null <;> by_cases hc : c = .null <;> cases d <;> simp_all
    · exact A.le_trans _ _ _ h1 h2
    · exact A.le_trans _ _ _ h2 h1

theorem rowLe_total {le : Bool → Val → Val → Bool} (h : Ord le) : ∀ ks a b, (rowLe le ks a b || rowLe le ks b a) = true
  | [], _, _ => rfl
  | (d, n) :: ks, a, b => by
    have := h.total d (a n) (b n)
    have ih := rowLe_total h ks a b
    unfold rowLe
    cases h1 : le d (a n) (b n) <;> cases h2 : le d (b n) (a n) <;> simp_all

theorem rowLe_trans {le : Bool → Val → Val → Bool} (h : Ord le) : ∀ ks a b c, rowLe le ks a b = true → rowLe le ks b c = true →
    rowLe le ks a c = true
  | [], _, _, _ => fun _ _ => rfl
  | (d, n) :: ks, a, b, c => by
    intro h1 h2
    have ih := rowLe_trans h ks a b c
    unfold rowLe at h1 h2 ⊢
    have e1 : le d (a n) (b n) = true := by
      refine Classical.byContradiction fun hn => ?_
      simp [hn] at h1
    have e2 : le d (b n) (c n) = true := by
      refine Classical.byContradiction fun hn => ?_
      simp [hn] at h2
    have e3 := h.trans _ _ _ _ e1 e2
    by_cases e4 : le d (c n) (a n) = true
    · have e5 := h.trans _ _ _ _ e2 e4
      have e6 := h.trans _ _ _ _ e4 e1
      simp only [e1, e5, Bool.and_self, if_true] at h1
      simp only [e2, e6, Bool.and_self, if_true] at h2
      simp only [e3, e4, Bool.and_self, if_true]
      exact ih h1 h2
    · simp [e3, e4]

/-- without missing values the two orders are the same -/
theorem rowLe_same (A : Aggs) : ∀ ks a b, (∀ k ∈ ks, a k.2 ≠ .null) → (∀ k ∈ ks, b k.2 ≠ .null) →
    rowLe (sparkLe A) ks a b = rowLe (splLe A) ks a b
  | [], _, _, _, _ => rfl
  | (d, n) :: ks, a, b, ha, hb => by
    have ih := rowLe_same A ks a b (fun k hk => ha k (List.mem_cons_of_mem _ hk)) (fun k hk => hb k (List.mem_cons_of_mem _ hk))
    have h1 := ha _ (List.mem_cons_self ..)
    have h2 := hb _ (List.mem_cons_self ..)
    have e : ∀ a b : Val, a ≠ .null → b ≠ .null → sparkLe A d a b = splLe A d a b := by
      intro a b na nb
      unfold sparkLe splLe
      cases d <;> simp [na, nb]
    unfold rowLe
    rw [ih, e _ _ h1 h2, e _ _ h2 h1]

/-- Both languages sort untied rows in the same way, whatever order they come in. -/
theorem sort_same (A : Aggs) (O O' : Arrangement) (ks : List RowKey) {rows rows' : List Event} (hp : rows'.Perm rows)
    (hu : Untied A ks rows) : sortRows (sparkLe A) O' ks rows' = sortRows (splLe A) O ks rows := by
  have p1 : (sortRows (sparkLe A) O' ks rows').Perm rows := ((List.mergeSort_perm _ _).trans (O'.perm _)).trans hp
  have p2 : (sortRows (splLe A) O ks rows).Perm rows := (List.mergeSort_perm _ _).trans (O.perm _)
  have s2 : (sortRows (splLe A) O ks rows).Pairwise fun a b => rowLe (splLe A) ks a b = true :=
    List.pairwise_mergeSort (rowLe_trans (ord_spl A) ks) (rowLe_total (ord_spl A) ks) _
  have s1 : (sortRows (sparkLe A) O' ks rows').Pairwise fun a b => rowLe (sparkLe A) ks a b = true :=
    List.pairwise_mergeSort (rowLe_trans (ord_spark A) ks) (rowLe_total (ord_spark A) ks) _
  have s1' : (sortRows (sparkLe A) O' ks rows').Pairwise fun a b => rowLe (splLe A) ks a b = true := by
    refine List.Pairwise.imp_of_mem ?_ s1
    intro a b ha hb h
    rw [← rowLe_same A ks a b (hu.2 a (p1.mem_iff.1 ha)) (hu.2 b (p1.mem_iff.1 hb))]
    exact h
  refine List.Perm.eq_of_pairwise ?_ s1' s2 (p1.trans p2.symm)
  intro a b ha hb h1 h2
  exact hu.1 a (p1.mem_iff.1 ha) b (p2.mem_iff.1 hb) h1 h2

/-! ### grouping -/

theorem mem_distinctOf {α} [DecidableEq α] {x : α} : ∀ {l : List α}, x ∈ distinctOf l ↔ x ∈ l
  | [] => by simp [distinctOf]
  | a :: as => by
    simp only [distinctOf, List.mem_cons, List.mem_filter, mem_distinctOf, decide_eq_true_eq]
    by_cases h : x = a <;> simp [h]

theorem nodup_distinctOf {α} [DecidableEq α] : ∀ l : List α, (distinctOf l).Nodup
  | [] => by simp [distinctOf]
  | a :: as => by
    simp only [distinctOf, List.nodup_cons, List.mem_filter, decide_eq_true_eq]
    exact ⟨fun h => h.2 rfl, (nodup_distinctOf as).filter _⟩

theorem groupKeys_perm (ks : List Str) {rows rows' : List Event} (hp : rows'.Perm rows) :
    (groupKeys ks rows').Perm (groupKeys ks rows) := by
  unfold groupKeys
  by_cases h : ks = []
  · simp [h]
  · rw [if_neg h, if_neg h]
    refine (List.perm_ext_iff_of_nodup (nodup_distinctOf _) (nodup_distinctOf _)).2 fun k => ?_
    rw [mem_distinctOf, mem_distinctOf]
    exact (hp.map _).mem_iff

theorem group_same (O O' : Arrangement) (ks : List Str) {rows rows' : List Event} (hp : rows'.Perm rows)
    {f f' : List Event → Option (List (Str × Val))} (h : ∀ g g' : List Event, g'.Perm g → ∃ v, f g = some v ∧ f' g' = some v) :
    ∃ R R', groupRows O ks rows f = some R ∧ groupRows O' ks rows' f' = some R' ∧ R'.Perm R ∧ (ks = [] → R' = R) := by
  have hv : ∀ g, ∃ v, f g = some v := fun g => (h g g (List.Perm.refl _)).imp fun v hv => hv.1
  let F : List Val → Event := fun k => rowOf (ks.zip k ++ (hv (groupOf ks rows k)).choose)
  have h1 : ∀ k, (f (groupOf ks rows k)).map (fun as => rowOf (ks.zip k ++ as)) = some (F k) := fun k => by
    rw [(hv (groupOf ks rows k)).choose_spec]; rfl
  have h2 : ∀ k, (f' (groupOf ks rows' k)).map (fun as => rowOf (ks.zip k ++ as)) = some (F k) := fun k => by
    obtain ⟨v, a, b⟩ := h (groupOf ks rows k) (groupOf ks rows' k) (hp.filter _)
    rw [b, ← a, h1]
  refine ⟨O.of ((groupKeys ks rows).map F), O'.of ((groupKeys ks rows').map F), ?_, ?_, ?_, ?_⟩
  · unfold groupRows
    rw [each_map fun k _ => h1 k]; rfl
  · unfold groupRows
    rw [each_map fun k _ => h2 k]; rfl
  · exact ((O'.perm _).trans ((groupKeys_perm ks hp).map F)).trans (O.perm _).symm
  · intro e
    have e1 : groupKeys ks rows = [[]] := by simp [groupKeys, e]
    have e2 : groupKeys ks rows' = [[]] := by simp [groupKeys, e]
    rw [e1, e2]
    have p1 := O.perm ([[]].map F)
    have p2 := O'.perm ([[]].map F)
    simp only [List.map_cons, List.map_nil] at p1 p2 ⊢
    rw [List.perm_singleton.1 p1, List.perm_singleton.1 p2]

end Verif.Lemmas
