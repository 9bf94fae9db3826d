import Verif.Spl.Grammar
/-
Lemmas about the fixpoint of the grammar.
-/
namespace Verif.Spl
open P

/-- Nesting depth `k` with an arbitrary answer `ρ` for calls nested deeper. -/
def levelFrom (ρ : Rec) : Nat → Rec
  | 0 => ρ
  | k + 1 => { run := fun n i => (gram n).run (levelFrom ρ k) i,
               suf := fun n i r a h => (gram n).suf (levelFrom ρ k) i r a h }

theorem levelFrom_agree (ρ σ : Rec) : ∀ m k l, m ≤ k → m ≤ l → ∀ n i, i.length < m →
    (levelFrom ρ k).run n i = (levelFrom σ l).run n i := by
  intro m
  induction m with
  | zero => intro k l _ _ n i h; omega
  | succ m ih =>
    intro k l hk hl n i hi
    obtain ⟨k, rfl⟩ : ∃ k', k = k' + 1 := ⟨k - 1, by omega⟩
    obtain ⟨l, rfl⟩ : ∃ l', l = l' + 1 := ⟨l - 1, by omega⟩
    simp only [levelFrom]
    apply (gram n).grd
    intro n' j hj
    simp only [bound] at hj
    exact ih k l (by omega) (by omega) n' j (by simp at hj; omega)

theorem level_eq_levelFrom (k : Nat) : level k = levelFrom (level 0) k := by
  induction k with
  | zero => rfl
  | succ k ih => simp only [level, levelFrom, ih]

/-- The fixpoint satisfies the recursive equations. -/
theorem fix_eq (n : NT) (i : Str) : fix.run n i = (gram n).run fix i := by
  change (gram n).run (level i.length) i = _
  apply (gram n).grd
  intro n' j hj
  simp only [bound, if_true] at hj
  change _ = (level (j.length + 1)).run n' j
  rw [level_eq_levelFrom, level_eq_levelFrom (j.length + 1)]
  exact levelFrom_agree _ _ (j.length + 1) _ _ (by omega) (by omega) n' j (by omega)

theorem levelFrom_eq_fix (ρ : Rec) (n : NT) (i : Str) (k : Nat) (hk : i.length < k) :
    (levelFrom ρ k).run n i = fix.run n i := by
  change _ = (level (i.length + 1)).run n i
  rw [level_eq_levelFrom]
  exact levelFrom_agree _ _ (i.length + 1) _ _ (by omega) (by omega) n i (by omega)

theorem fix_unique (σ : Rec) (h : ∀ n i, σ.run n i = (gram n).run σ i) :
    ∀ n i, σ.run n i = fix.run n i := by
  have key : ∀ k n i, i.length < k → σ.run n i = fix.run n i := by
    intro k
    induction k with
    | zero => intro n i hi; omega
    | succ k ih =>
      intro n i hi
      rw [h, fix_eq]
      apply (gram n).grd
      intro n' j hj
      simp only [bound, if_true] at hj
      exact ih n' j (by omega)
  intro n i
  exact key (i.length + 1) n i (by omega)

end Verif.Spl
