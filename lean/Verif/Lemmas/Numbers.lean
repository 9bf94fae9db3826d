import Verif.Lemmas.Text
import Verif.Lemmas.Python
import Verif.Spec.Meaning
import Verif.Tr.Utils
/-
How the decimal text of numbers is read and what it is worth.
-/
namespace Verif.Lemmas
open Verif Spec

theorem digitsVal_from (ds : Str) (a : Nat) :
    ds.foldl (fun a c => a * 10 + (c.toNat - 48)) a = a * 10 ^ ds.length + digitsVal ds := by
  induction ds generalizing a with
  | nil => simp [digitsVal]
  | cons c cs ih =>
    have e : digitsVal (c :: cs) = (c.toNat - 48) * 10 ^ cs.length + digitsVal cs := by
      rw [digitsVal, List.foldl_cons, ih, Nat.zero_mul, Nat.zero_add]
    rw [List.foldl_cons, ih, e]
    simp only [List.length_cons, Nat.pow_succ]
    rw [Nat.add_mul, Nat.mul_assoc, Nat.mul_comm 10]
    omega

theorem digitsVal_append (a b : Str) : digitsVal (a ++ b) = digitsVal a * 10 ^ b.length + digitsVal b := by
  rw [show digitsVal (a ++ b) = b.foldl (fun a c => a * 10 + (c.toNat - 48)) (digitsVal a) from by
    unfold digitsVal; rw [List.foldl_append]]
  exact digitsVal_from _ _

theorem digitsVal_zeros (k : Nat) : digitsVal (List.replicate k '0') = 0 := by
  induction k with
  | zero => rfl
  | succ k ih =>
    rw [List.replicate_succ, show '0' :: List.replicate k '0' = ['0'] ++ List.replicate k '0' from rfl,
      digitsVal_append, ih]
    simp [digitsVal]

theorem strip_lead_val : ∀ s : Str, digitsVal (stripLeadingZeros s) = digitsVal s
  | [] => rfl
  | [c] => rfl
  | c :: d :: ds => by
    rw [stripLeadingZeros]
    · split
      · rename_i h
        subst h
        rw [strip_lead_val (d :: ds), show '0' :: d :: ds = ['0'] ++ d :: ds from rfl, digitsVal_append]
        simp [digitsVal]
      · rfl
    · simp

theorem strip_lead_digits : ∀ {s : Str}, s.all isDig = true → (stripLeadingZeros s).all isDig = true
  | [], _ => by decide
  | [c], h => h
  | c :: d :: ds, h => by
    rw [stripLeadingZeros]
    · split
      · exact strip_lead_digits (s := d :: ds) (by rw [List.all_cons, Bool.and_eq_true] at h; exact h.2)
      · exact h
    · simp

theorem strip_lead_ok : ∀ s : Str, intOk (stripLeadingZeros s) = true ∧ stripLeadingZeros s ≠ []
  | [] => by decide
  | [c] => by
    simp only [stripLeadingZeros]
    unfold intOk
    refine ⟨?_, by simp⟩
    by_cases h : c = '0'
    · subst h; decide
    · simp [h]
  | c :: d :: ds => by
    rw [stripLeadingZeros]
    · split
      · exact strip_lead_ok (d :: ds)
      · rename_i h
        unfold intOk
        simp [h]
    · simp

theorem strip_trail (s : Str) : ∃ k, s = stripTrailingZeros s ++ List.replicate k '0' := by
  have key : ∀ r : Str, ∃ k, r = List.replicate k '0' ++ r.dropWhile (· == '0') := by
    intro r
    induction r with
    | nil => exact ⟨0, rfl⟩
    | cons c cs ih =>
      rw [List.dropWhile_cons]
      split
      · rename_i h
        obtain ⟨k, hk⟩ := ih
        refine ⟨k + 1, ?_⟩
        rw [List.replicate_succ, List.cons_append, ← hk, show c = '0' from by simpa using h]
      · exact ⟨0, rfl⟩
  obtain ⟨k, hk⟩ := key s.reverse
  refine ⟨k, ?_⟩
  have := congrArg List.reverse hk
  rw [List.reverse_reverse, List.reverse_append, List.reverse_replicate] at this
  exact this

theorem strip_trail_digits {s : Str} (h : s.all isDig = true) : (stripTrailingZeros s).all isDig = true := by
  obtain ⟨k, hk⟩ := strip_trail s
  rw [hk, List.all_append, Bool.and_eq_true] at h
  exact h.1

/-- Dropping leading zeros of the whole part and trailing zeros of the fraction keeps the value. -/
theorem numVal_strip (w f : Str) : numVal (stripLeadingZeros w) (stripTrailingZeros f) = numVal w f := by
  unfold numVal
  obtain ⟨k, hk⟩ := strip_trail f
  generalize stripTrailingZeros f = g at hk
  subst hk
  rw [digitsVal_append, strip_lead_val, digitsVal_append, digitsVal_append, digitsVal_zeros,
    List.length_append, List.length_replicate, Nat.pow_add, Nat.add_zero, ← Nat.mul_assoc, ← Nat.add_mul,
    Int.natCast_mul, Rat.mkRat_mul_right]
  exact Nat.pos_iff_ne_zero.1 (Nat.pow_pos (by decide))

theorem spanC_run {p : Char → Bool} : ∀ {s r : Str}, s.all p = true → (∀ c cs, r = c :: cs → p c = false) →
    spanC p (s ++ r) = (s, r)
  | [], r, _, hr => by
    cases r with
    | nil => rfl
    | cons c cs => rw [List.nil_append, spanC, hr c cs rfl]; rfl
  | c :: cs, r, h, hr => by
    rw [List.all_cons, Bool.and_eq_true] at h
    rw [List.cons_append, spanC, h.1, spanC_run h.2 hr]; rfl

theorem number_int {s : Str} (h : s.all isDig = true) (h1 : s ≠ []) (h2 : intOk s = true) :
    pyNumber s = some ((s, []), []) := by
  have e : spanC isDig s = (s, []) := by
    have := spanC_run (r := []) h (by intro c cs e; cases e)
    rwa [List.append_nil] at this
  unfold pyNumber
  rw [e]
  simp [h1, h2, numEnds]

theorem number_frac {w f : Str} (h : w.all isDig = true) (h1 : w ≠ []) (hf : f.all isDig = true) (hf1 : f ≠ []) :
    pyNumber (w ++ '.' :: f) = some ((w, f), []) := by
  have e : spanC isDig (w ++ '.' :: f) = (w, '.' :: f) :=
    spanC_run h (by intro c cs e; injection e with e _; subst e; decide)
  have e' : spanC isDig f = (f, []) := by
    have := spanC_run (r := []) hf (by intro c cs e; cases e)
    rwa [List.append_nil] at this
  unfold pyNumber
  rw [e]
  simp only [List.head?_cons, List.tail_cons, e']
  simp [h1, hf1, numEnds]

theorem digit_string {s : Str} (h : s.all isDig = true) (h1 : s ≠ []) (r : Str) : pyString (s ++ r) = none := by
  cases s with
  | nil => exact absurd rfl h1
  | cons c cs =>
    rw [List.all_cons, Bool.and_eq_true] at h
    have := dig_quote h.1
    exact pyString_none ⟨this.1, this.2.1⟩ (fun e => absurd e this.2.2.1)

/-- literal of a natural number -/
theorem code_nat {s : Str} (h : s.all isDig = true) (h1 : s ≠ []) (h2 : intOk s = true) :
    codeTree s = some (.num s []) := by
  have e := digit_string h h1 []
  rw [List.append_nil] at e
  unfold codeTree
  rw [e, number_int h h1 h2]

theorem minus_string (s : Str) : pyString ('-' :: s) = none := pyString_none (by decide) (fun e => absurd e (by decide))

theorem minus_number (s : Str) : pyNumber ('-' :: s) = none := pyNumber_none (by decide)

theorem code_neg {s : Str} {n : Str × Str} (h : pyNumber s = some (n, [])) :
    codeTree ('-' :: s) = some (.neg (.num n.1 n.2)) := by
  unfold codeTree
  rw [minus_string, minus_number]
  simp only []
  rw [h]

theorem showNat_ok (n : Nat) : (showNat n).all isDig = true ∧ showNat n ≠ [] ∧ intOk (showNat n) = true := by
  refine ⟨by rw [List.all_eq_true]; exact showNat_digits n, showNat_ne_nil n, ?_⟩
  have key : ∀ (f n : Nat) (acc : Str), n < f → (n = 0 → acc = []) →
      intOk (showNatAux f n acc) = true := by
    intro f
    induction f with
    | zero => intro n acc h; omega
    | succ f ih =>
      intro n acc h h0
      rw [showNatAux]
      split
      · rename_i h10
        by_cases hz : n = 0
        · rw [h0 hz, hz]; decide
        · have : digitC n ≠ '0' := by
            have : ∀ d : Fin 10, d.val ≠ 0 → digitC d.val ≠ '0' := by decide
            exact this ⟨n, h10⟩ hz
          simp [intOk, this]
      · exact ih _ _ (by omega) (by omega)
  exact key _ _ _ (Nat.lt_succ_self n) (fun _ => rfl)

/-- the Python expression of an integer -/
def intE : Int → PyE
  | .ofNat n => .num (showNat n) []
  | .negSucc n => .neg (.num (showNat (n + 1)) [])

theorem code_int (n : Int) : codeTree (showInt n) = some (intE n) := by
  cases n with
  | ofNat n => have := showNat_ok n; exact code_nat this.1 this.2.1 this.2.2
  | negSucc n => have := showNat_ok (n + 1); exact code_neg (number_int this.1 this.2.1 this.2.2)

theorem numVal_nat (n : Nat) : numVal (showNat n) [] = n := by
  unfold numVal
  rw [List.append_nil, digitsVal_showNat]
  exact Rat.mkRat_one n

theorem eval_int (S : Sem) (row : Event) (n : Int) : pyEval S row (intE n) = some (.const (.num n)) := by
  cases n with
  | ofNat n =>
    simp only [intE, pyEval, numVal_nat]
    rfl
  | negSucc n =>
    simp only [intE, pyEval, numVal_nat]
    rw [Int.negSucc_eq]
    simp only [Rat.intCast_neg]
    rfl

/-- A numeral as the lexer delivers it: digits before and after the point. -/
def dblOk (d : Dbl) : Bool := d.whole.all isDig && d.whole != [] && d.frac.all isDig

/-- the Python expression of a decimal numeral -/
def dblE (d : Dbl) : PyE :=
  if d.neg then .neg (.num (stripLeadingZeros d.whole) (stripTrailingZeros d.frac))
  else .num (stripLeadingZeros d.whole) (stripTrailingZeros d.frac)

theorem code_dbl {d : Dbl} (h : dblOk d = true) : codeTree d.text = some (dblE d) := by
  unfold dblOk at h
  simp only [Bool.and_eq_true] at h
  obtain ⟨⟨h1, h2⟩, h3⟩ := h
  have hw := strip_lead_digits h1
  have ho := strip_lead_ok d.whole
  have hf := strip_trail_digits h3
  have hn : pyNumber (stripLeadingZeros d.whole ++
      (if stripTrailingZeros d.frac = [] then [] else '.' :: stripTrailingZeros d.frac)) =
      some ((stripLeadingZeros d.whole, stripTrailingZeros d.frac), []) := by
    by_cases he : stripTrailingZeros d.frac = []
    · rw [if_pos he, he, List.append_nil]; exact number_int hw ho.2 ho.1
    · rw [if_neg he]; exact number_frac hw ho.2 hf he
  unfold Dbl.text dblE
  cases d.neg with
  | true => exact code_neg hn
  | false =>
    simp only [Bool.false_eq_true, if_false, List.nil_append]
    unfold codeTree
    rw [digit_string hw ho.2, hn]

theorem eval_dbl (S : Sem) (row : Event) (d : Dbl) : pyEval S row (dblE d) = some (.const (.num (dblVal d))) := by
  unfold dblE dblVal
  cases d.neg <;> simp [pyEval, numVal_strip]

end Verif.Lemmas
