import Verif.Basic.Text
/-
Facts about decimal notation.
-/
namespace Verif.Lemmas
open Verif

theorem digitC_val (d : Nat) (h : d < 10) : (digitC d).toNat - 48 = d := by
  have : ∀ d : Fin 10, (digitC d.val).toNat - 48 = d.val := by decide
  exact this ⟨d, h⟩

theorem digitC_isDig (d : Nat) (h : d < 10) : isDig (digitC d) = true := by
  have : ∀ d : Fin 10, isDig (digitC d.val) = true := by decide
  exact this ⟨d, h⟩

theorem showNatAux_val (f n : Nat) (acc : Str) (h : n < f) :
    digitsVal (showNatAux f n acc) = acc.foldl (fun a c => a * 10 + (c.toNat - 48)) n := by
  induction f generalizing n acc with
  | zero => omega
  | succ f ih =>
    rw [showNatAux]
    split
    · rename_i h10
      simp [digitsVal, digitC_val n h10]
    · rename_i h10
      rw [ih _ _ (by omega), List.foldl_cons, digitC_val _ (by omega)]
      congr 1; omega

/-- Reading the decimal text of a number back gives the number. -/
theorem digitsVal_showNat (n : Nat) : digitsVal (showNat n) = n := by
  unfold showNat; rw [showNatAux_val _ _ _ (Nat.lt_succ_self n)]; rfl

theorem showNat_inj {a b : Nat} (h : showNat a = showNat b) : a = b := by
  rw [← digitsVal_showNat a, h, digitsVal_showNat]

theorem showNatAux_digits (f n : Nat) (acc : Str) (ha : ∀ c ∈ acc, isDig c = true) :
    ∀ c ∈ showNatAux f n acc, isDig c = true := by
  induction f generalizing n acc with
  | zero => exact ha
  | succ f ih =>
    rw [showNatAux]
    split
    · rename_i h10
      intro c hc
      rcases List.mem_cons.mp hc with rfl | hc
      · exact digitC_isDig n h10
      · exact ha c hc
    · apply ih
      intro c hc
      rcases List.mem_cons.mp hc with rfl | hc
      · exact digitC_isDig _ (by omega)
      · exact ha c hc

/-- The decimal text of a number consists of digits. -/
theorem showNat_digits (n : Nat) : ∀ c ∈ showNat n, isDig c = true :=
  showNatAux_digits _ _ _ (by simp)

theorem showNatAux_ne_nil (f n : Nat) (acc : Str) (h : f ≠ 0 ∨ acc ≠ []) : showNatAux f n acc ≠ [] := by
  induction f generalizing n acc with
  | zero => simpa [showNatAux] using h
  | succ f ih =>
    rw [showNatAux]
    split
    · simp
    · exact ih _ _ (.inr (by simp))

theorem showNat_ne_nil (n : Nat) : showNat n ≠ [] := showNatAux_ne_nil _ _ _ (.inl (by omega))

theorem upperC_lowerC (c : Char) : upperC (lowerC c) = upperC c := by
  unfold lowerC
  split
  · rename_i hc
    have h1 : 65 ≤ c.toNat := hc.1
    have h2 : c.toNat ≤ 90 := hc.2
    have key : ∀ n : Fin 26, upperC (Char.ofNat (n.val + 65 + 32)) = upperC (Char.ofNat (n.val + 65)) := by decide
    have := key ⟨c.toNat - 65, by omega⟩
    simpa only [show c.toNat - 65 + 65 = c.toNat by omega, Char.ofNat_toNat] using this
  · rfl

theorem upper_lower (s : Str) : upper (lower s) = upper s := by
  simp [upper, lower, upperC_lowerC]

end Verif.Lemmas
