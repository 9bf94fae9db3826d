import Verif.Spec.Convert
/-
What the matcher of Spec/Pattern.lean finds.
-/
namespace Verif.Lemmas
open Verif Spec

theorem firstDown_isSome {α : Type} (f : Nat → Option α) (least : Nat) : ∀ n, (firstDown f least n).isSome = true ↔
    ∃ k, least ≤ k ∧ k ≤ n ∧ (f k).isSome = true
  | 0 => by
    rw [firstDown]
    split
    · rename_i h
      subst h
      exact ⟨fun h => ⟨0, Nat.le_refl _, Nat.le_refl _, h⟩, fun ⟨k, _, h1, h2⟩ => by rw [Nat.le_zero.1 h1] at h2; exact h2⟩
    · rename_i h
      exact ⟨fun h => (by cases h), fun ⟨k, h0, h1, _⟩ => absurd (by omega) h⟩
  | n + 1 => by
    rw [firstDown]
    split
    · rename_i h
      exact ⟨fun h => (by cases h), fun ⟨k, h0, h1, _⟩ => (by omega)⟩
    · rename_i h
      rw [Option.isSome_or, Bool.or_eq_true, firstDown_isSome f least n]
      constructor
      · rintro (h1 | ⟨k, h1, h2, h3⟩)
        · exact ⟨n + 1, by omega, Nat.le_refl _, h1⟩
        · exact ⟨k, h1, by omega, h3⟩
      · rintro ⟨k, h1, h2, h3⟩
        by_cases hk : k = n + 1
        · subst hk; exact .inl h3
        · exact .inr ⟨k, h1, by omega, h3⟩

/-- the first try succeeds -/
theorem firstDown_top {α : Type} {f : Nat → Option α} {least n : Nat} {a : α} (hl : least ≤ n) (h : f n = some a) : firstDown f least n = some a := by
  cases n with
  | zero => rw [firstDown, if_pos (Nat.le_zero.1 hl), h]
  | succ n => rw [firstDown, if_neg (by omega), h]; rfl

/-- the first try fails -/
theorem firstDown_next {α : Type} {f : Nat → Option α} {least n : Nat} (hl : least ≤ n + 1) (h : f (n + 1) = none) :
    firstDown f least (n + 1) = firstDown f least n := by
  rw [firstDown, if_neg (by omega), h]; rfl

/-- no try -/
theorem firstDown_short {α : Type} {f : Nat → Option α} {least n : Nat} (hl : n < least) : firstDown f least n = none := by
  cases n with
  | zero => rw [firstDown, if_neg (by omega)]
  | succ n => rw [firstDown, if_pos hl]

/-- The texts at whose front the parts match. -/
inductive Fits (ac : Bool) : List Part → Str → Prop
  | done {s : Str} : Fits ac [] s
  | opens {ps : List Part} {s : Str} : Fits ac ps s → Fits ac (.opens :: ps) s
  | closes {ps : List Part} {s : Str} : Fits ac ps s → Fits ac (.closes :: ps) s
  | ends {ps : List Part} {s : Str} : atEnd s = true → Fits ac ps s → Fits ac (.ends :: ps) s
  | item {ps : List Part} {cs : Chars} {least : Nat} {most : Option Nat} {a b : Str} : (∀ c ∈ a, cs.has ac c = true) → least ≤ a.length →
      (∀ m, most = some m → a.length ≤ m) → Fits ac ps b → Fits ac (.some cs least most :: ps) (a ++ b)

theorem takeWhile_take {p : Char → Bool} : ∀ {s : Str} {k : Nat}, k ≤ (s.takeWhile p).length → ∀ c ∈ s.take k, p c = true
  | [], _, _, c, hc => by simp at hc
  | x :: s, 0, _, c, hc => by simp at hc
  | x :: s, k + 1, h, c, hc => by
    rw [List.takeWhile_cons] at h
    cases hx : p x with
    | false => rw [hx] at h; simp at h
    | true =>
      rw [hx] at h
      simp only [if_true, List.length_cons] at h
      rw [List.take_succ_cons, List.mem_cons] at hc
      rcases hc with rfl | hc
      · exact hx
      · exact takeWhile_take (by omega) c hc

theorem takeWhile_app {p : Char → Bool} : ∀ {a b : Str}, (∀ c ∈ a, p c = true) → a.length ≤ ((a ++ b).takeWhile p).length
  | [], _, _ => Nat.zero_le _
  | x :: a, b, h => by
    rw [List.cons_append, List.takeWhile_cons, h x (List.mem_cons_self ..)]
    simp only [if_true, List.length_cons]
    exact Nat.succ_le_succ (takeWhile_app fun c hc => h c (List.mem_cons_of_mem _ hc))

/-- a run of characters followed by none of them -/
theorem takeRun {p : Char → Bool} : ∀ {a b : Str}, (∀ c ∈ a, p c = true) → (∀ c t, b = c :: t → p c = false) → (a ++ b).takeWhile p = a
  | [], [], _, _ => rfl
  | [], c :: b, _, h => by rw [List.nil_append, List.takeWhile_cons, h c b rfl]; rfl
  | x :: a, b, h, hb => by
    rw [List.cons_append, List.takeWhile_cons, h x (List.mem_cons_self ..)]
    simp only [if_true]
    rw [takeRun (fun c hc => h c (List.mem_cons_of_mem _ hc)) hb]

/-- A match is found exactly on those texts. -/
theorem matchHere_fits (ac : Bool) : ∀ (ps : List Part) (cur : Str) (gs : List Str) (s : Str), (matchHere ac ps cur gs s).isSome = true ↔ Fits ac ps s
  | [], _, _, _ => ⟨fun _ => .done, fun _ => rfl⟩
  | .opens :: ps, cur, gs, s => by
    rw [matchHere, matchHere_fits ac ps]
    exact ⟨.opens, fun h => by cases h; assumption⟩
  | .closes :: ps, cur, gs, s => by
    rw [matchHere, matchHere_fits ac ps]
    exact ⟨.closes, fun h => by cases h; assumption⟩
  | .ends :: ps, cur, gs, s => by
    rw [matchHere]
    constructor
    · intro h
      split at h
      · rename_i he
        exact .ends he ((matchHere_fits ac ps _ _ _).1 h)
      · cases h
    · intro h
      cases h with
      | ends he h => rw [if_pos he]; exact (matchHere_fits ac ps _ _ _).2 h
  | .some cs least most :: ps, cur, gs, s => by
    rw [matchHere, firstDown_isSome]
    constructor
    · rintro ⟨k, h1, h2, h3⟩
      have hf := (matchHere_fits ac ps _ _ _).1 h3
      have hr : k ≤ (s.takeWhile (cs.has ac)).length := by
        unfold reach at h2
        cases most with
        | none => exact h2
        | some m => exact Nat.le_trans h2 (Nat.min_le_right ..)
      have hl : k ≤ s.length := Nat.le_trans hr (List.takeWhile_prefix _).length_le
      have hlt : (s.take k).length = k := by rw [List.length_take]; omega
      have := Fits.item (ac := ac) (cs := cs) (least := least) (most := most) (a := s.take k) (takeWhile_take hr) (by omega)
        (fun m hm => by subst hm; rw [hlt]; exact Nat.le_trans h2 (Nat.min_le_left ..)) hf
      rwa [List.take_append_drop] at this
    · intro h
      cases h with
      | @item _ _ _ _ a b ha hl hm hf =>
        refine ⟨a.length, hl, ?_, ?_⟩
        · unfold reach
          have := takeWhile_app (b := b) ha
          cases most with
          | none => exact this
          | some m => exact Nat.le_min.2 ⟨hm m rfl, this⟩
        · rw [List.drop_left]
          exact (matchHere_fits ac ps _ _ _).2 hf

/-- nothing is found -/
theorem findMatch_none {p : Pattern} (ha : p.atStart = true) {s : Str} (h : ¬ Fits p.anyCase p.parts s) : findMatch p s = none := by
  have hm : matchHere p.anyCase p.parts [] [] s = none := by
    cases hx : matchHere p.anyCase p.parts [] [] s with
    | none => rfl
    | some gs => exact absurd ((matchHere_fits _ _ [] [] s).1 (by rw [hx]; rfl)) h
  cases s with
  | nil => exact hm
  | cons c s => rw [findMatch, hm, if_pos ha]; rfl

/-- something is found at the start -/
theorem findMatch_some {p : Pattern} {s : Str} {gs : List Str} (h : matchHere p.anyCase p.parts [] [] s = some gs) : findMatch p s = some gs := by
  cases s with
  | nil => exact h
  | cons c s => rw [findMatch, h]; rfl

/-! ### numerals -/

/-- the parts `(\d*\.?\d+)` -/
def numParts : List Part := [.opens, .some .digit 0 none, .some (.these ['.']) 0 (some 1), .some .digit 1 none, .closes]

/-- what can follow a numeral: no digit, no point -/
def AfterNum (r : Str) : Prop := ∀ c t, r = c :: t → isDig c = false ∧ c ≠ '.'

theorem dot_not_dig : isDig '.' = false := by decide

theorem item_all {ac : Bool} {cs : Chars} {least : Nat} {ps : List Part} {cur : Str} {gs : List Str} {a b : Str} {out : List Str}
    (ha : ∀ c ∈ a, cs.has ac c = true) (hb : ∀ c t, b = c :: t → cs.has ac c = false) (hl : least ≤ a.length)
    (h : matchHere ac ps (cur ++ a) gs b = some out) : matchHere ac (.some cs least none :: ps) cur gs (a ++ b) = some out := by
  rw [matchHere]
  have hr : reach (cs.has ac) none (a ++ b) = a.length := by rw [reach, takeRun ha hb]
  rw [hr]
  exact firstDown_top hl (by rw [List.take_left, List.drop_left]; exact h)

theorem dot_absent {ac : Bool} {ps : List Part} {cur : Str} {gs : List Str} {s : Str} (hb : ∀ c t, s = c :: t → c ≠ '.') :
    matchHere ac (.some (.these ['.']) 0 (some 1) :: ps) cur gs s = matchHere ac ps cur gs s := by
  have hr : reach ((Chars.these ['.']).has ac) (some 1) s = 0 := by
    cases s with
    | nil => rfl
    | cons c t =>
      have : (Chars.these ['.']).has ac c = false := by
        have hc := hb c t rfl
        have hd : lowerC c ≠ '.' := by
          unfold lowerC
          split
          · rename_i h
            intro e
            have hall : ∀ n : Nat, n < 91 → 65 ≤ n → Char.ofNat (n + 32) ≠ '.' := by decide
            exact hall c.toNat (Nat.lt_succ_of_le h.2) h.1 e
          · exact hc
        simp [Chars.has, hc, hd, show lowerC '.' = '.' from rfl]
      rw [reach, List.takeWhile_cons, this]
      rfl
  rw [matchHere, hr, firstDown, if_pos rfl, List.take_zero, List.drop_zero, List.append_nil]

/-- The group `(\d*\.?\d+)` takes a whole numeral. -/
theorem num_group {ac : Bool} {w f : Str} {ps : List Part} {gs : List Str} {r : Str} {out : List Str} (hw : ∀ c ∈ w, isDig c = true)
    (hf : ∀ c ∈ f, isDig c = true) (hne : w ≠ [] ∨ f ≠ []) (hr : AfterNum r) (h : matchHere ac ps [] (gs ++ [numText w f]) r = some out) :
    matchHere ac (numParts ++ ps) [] gs (numText w f ++ r) = some out := by
  have hrd : ∀ c t, r = c :: t → (Chars.digit).has ac c = false := fun c t e => (hr c t e).1
  unfold numParts numText at *
  by_cases hfe : f = []
  · subst hfe
    rw [if_pos rfl] at h ⊢
    have hwe : w ≠ [] := by rcases hne with h | h; exact h; exact absurd rfl h
    obtain ⟨v, d, rfl⟩ : ∃ v d, w = v ++ [d] := ⟨_, _, (List.dropLast_concat_getLast hwe).symm⟩
    show matchHere ac (.opens :: .some .digit 0 none :: _) [] gs (v ++ [d] ++ r) = _
    rw [matchHere, matchHere]
    have hreach : reach ((Chars.digit).has ac) none (v ++ [d] ++ r) = v.length + 1 := by
      rw [reach, takeRun (p := (Chars.digit).has ac) hw hrd, List.length_append, List.length_singleton]
    rw [hreach]
    have t1 : (v ++ [d] ++ r).take (v.length + 1) = v ++ [d] := List.take_left' (by simp)
    have t2 : (v ++ [d] ++ r).drop (v.length + 1) = r := List.drop_left' (by simp)
    have t3 : (v ++ [d] ++ r).take v.length = v := by rw [List.append_assoc]; exact List.take_left
    have t4 : (v ++ [d] ++ r).drop v.length = [d] ++ r := by rw [List.append_assoc]; exact List.drop_left
    have hd : isDig d = true := hw d (by simp)
    have hda : ∀ c ∈ [d], (Chars.digit).has ac c = true := by intro c hc; rw [List.mem_singleton] at hc; rw [hc]; exact hd
    rw [firstDown_next (Nat.zero_le _)]
    · refine firstDown_top (Nat.zero_le _) ?_
      rw [t3, t4, List.nil_append]
      have hnd : ∀ c t, [d] ++ r = c :: t → c ≠ '.' := by
        intro c t e
        injection e with e1 e2
        rw [← e1]
        rintro rfl
        rw [dot_not_dig] at hd
        cases hd
      show matchHere ac (.some (.these ['.']) 0 (some 1) :: _) v gs ([d] ++ r) = _
      rw [dot_absent hnd]
      refine item_all hda hrd (Nat.le_refl _) ?_
      show matchHere ac (.closes :: ps) _ _ _ = _
      rw [matchHere]
      exact h
    · rw [t1, t2]
      show matchHere ac (.some (.these ['.']) 0 (some 1) :: _) _ gs r = _
      rw [dot_absent (fun c t e => (hr c t e).2)]
      show matchHere ac (.some .digit 1 none :: _) _ gs r = _
      rw [matchHere]
      refine firstDown_short ?_
      rw [reach]
      cases r with
      | nil => exact Nat.zero_lt_one
      | cons c t => rw [List.takeWhile_cons, hrd c t rfl]; exact Nat.zero_lt_one
  · rw [if_neg hfe] at h ⊢
    rw [List.append_assoc]
    show matchHere ac (.opens :: .some .digit 0 none :: _) [] gs (w ++ ('.' :: f ++ r)) = _
    rw [matchHere]
    refine item_all hw (fun c t e => ?_) (Nat.zero_le _) ?_
    · injection e with e1 e2
      rw [← e1]
      exact dot_not_dig
    · rw [List.nil_append]
      show matchHere ac (.some (.these ['.']) 0 (some 1) :: _) w gs ('.' :: (f ++ r)) = _
      rw [matchHere]
      have hdot : (Chars.these ['.']).has ac '.' = true := by simp [Chars.has]
      have hreach : reach ((Chars.these ['.']).has ac) (some 1) ('.' :: (f ++ r)) = 1 := by
        rw [reach, List.takeWhile_cons, hdot]
        simp only [if_true, List.length_cons]
        omega
      rw [hreach]
      refine firstDown_top (Nat.zero_le _) ?_
      rw [List.take_succ_cons, List.take_zero, List.drop_succ_cons, List.drop_zero]
      refine item_all hf hrd (by cases f with | nil => exact absurd rfl hfe | cons => simp) ?_
      show matchHere ac (.closes :: ps) _ _ _ = _
      rw [matchHere]
      have : w ++ ['.'] ++ f = w ++ '.' :: f := by simp
      rw [this]
      exact h

end Verif.Lemmas
