import Verif.Nom.Bytes
import Verif.Nom.Core
/-
C112: matching a keyword does not panic.
-/
namespace Verif.Props
open Verif

/-- the Kelvin sign, the only character outside ASCII whose lower case is an ASCII letter -/
def kelvin : Char := Char.ofNat 0x212A

/-- What is used of Rust's `char::to_lowercase`. -/
structure RustLower (low : Char → Str) : Prop where
  ascii : ∀ c : Char, c.val < 128 → low c = [lowerC c]
  kelvin : low kelvin = ['k']
  other : ∀ c : Char, ¬ c.val < 128 → c ≠ Props.kelvin → ∀ d : Char, d.val < 128 → low c ≠ [d]

/-- all characters are ASCII -/
def Ascii (t : Str) : Prop := ∀ c ∈ t, c.val < 128

theorem lowerC_ascii {c : Char} (h : c.val < 128) : (lowerC c).val < 128 := by
  have key : ∀ n : Fin 128, (lowerC (Char.ofNat n)).val < 128 := by decide +kernel
  have h' : c.toNat < 128 := h
  have := key ⟨c.toNat, h'⟩
  simpa using this

theorem lowerC_high {c : Char} (h : ¬ c.val < 128) : lowerC c = c := by
  unfold lowerC
  rw [if_neg]
  rintro ⟨_, h2⟩
  have : c.val ≤ 'Z'.val := h2
  refine h ?_
  rw [UInt32.lt_iff_toNat_lt]
  rw [UInt32.le_iff_toNat_le] at this
  have h3 : 'Z'.val.toNat = 90 := by decide
  have h4 : (128 : UInt32).toNat = 128 := by decide
  omega

theorem utf8_ascii {c : Char} (h : c.val < 128) : c.utf8Size = 1 := by
  have h' : c.val ≤ 0x7f := by
    have := UInt32.lt_iff_toNat_lt.1 h
    rw [UInt32.le_iff_toNat_le]
    simp at this ⊢
    omega
  simp [Char.utf8Size, h']

theorem utf8Len_ascii {t : Str} (h : Ascii t) : utf8Len t = t.length := by
  induction t with
  | nil => rfl
  | cons c t ih =>
    simp only [utf8Len, utf8_ascii (h c List.mem_cons_self), ih (fun d hd => h d (List.mem_cons_of_mem _ hd)), List.length_cons]
    omega

/-- characters of the text and of the keyword are compared as ASCII letters -/
theorem folds {low : Char → Str} (hl : RustLower low) {a b : Char} (hb : b.val < 128) (h : a ≠ kelvin ∨ lowerC b ≠ 'k') :
    low a = low b ↔ lowerC b = lowerC a := by
  rw [hl.ascii b hb]
  by_cases ha : a.val < 128
  · rw [hl.ascii a ha]
    simp [eq_comm]
  · rw [lowerC_high ha]
    have h2 : lowerC b ≠ a := fun e => ha (e ▸ lowerC_ascii hb)
    refine iff_of_false ?_ h2
    by_cases hk : a = kelvin
    · subst hk
      rw [hl.kelvin]
      rcases h with h | h
      · exact absurd rfl h
      · simpa [eq_comm] using h
    · exact hl.other a ha hk _ (lowerC_ascii hb)

theorem tag_parts {low : Char → Str} : ∀ {t i : Str}, Ascii t → (∀ a ∈ i, ∀ b ∈ t, (low a = low b ↔ lowerC b = lowerC a)) →
    (sameFolded low i t = true → (∃ m r, stripPrefixCI? t i = some (m, r) ∧ splitBytes t.length i = some (m, r) ∧ t.length ≤ utf8Len i) ∨
      (stripPrefixCI? t i = none ∧ utf8Len i < t.length)) ∧ (sameFolded low i t = false → stripPrefixCI? t i = none)
  | [], i, _, _ => by
    refine ⟨fun _ => .inl ⟨[], i, rfl, by cases i <;> rfl, Nat.zero_le _⟩, fun h => ?_⟩
    cases i <;> simp [sameFolded] at h
  | b :: t, [], _, _ => ⟨fun _ => .inr ⟨rfl, by simp [utf8Len]⟩, fun _ => rfl⟩
  | b :: t, a :: i, ht, hf => by
    have hb := ht b List.mem_cons_self
    have hab := hf a List.mem_cons_self b List.mem_cons_self
    obtain ⟨h1, h2⟩ := tag_parts (low := low) (t := t) (i := i) (fun c hc => ht c (List.mem_cons_of_mem _ hc))
      (fun x hx y hy => hf x (List.mem_cons_of_mem _ hx) y (List.mem_cons_of_mem _ hy))
    by_cases he : lowerC b = lowerC a
    · have ha : a.val < 128 := by
        refine Decidable.byContradiction fun hn => ?_
        rw [lowerC_high hn] at he
        exact hn (he ▸ lowerC_ascii hb)
      have hs : sameFolded low (a :: i) (b :: t) = sameFolded low i t := by simp [sameFolded, hab.2 he]
      rw [hs]
      refine ⟨fun h => ?_, fun h => by simp [stripPrefixCI?, he, h2 h]⟩
      rcases h1 h with ⟨m, r, k1, k2, k3⟩ | ⟨k1, k2⟩
      · refine .inl ⟨a :: m, r, by simp [stripPrefixCI?, he, k1], ?_, ?_⟩
        · simp [splitBytes, utf8_ascii ha, k2]
        · simp only [utf8Len, utf8_ascii ha, List.length_cons]; omega
      · refine .inr ⟨by simp [stripPrefixCI?, he, k1], ?_⟩
        simp only [utf8Len, utf8_ascii ha, List.length_cons]; omega
    · have hs : sameFolded low (a :: i) (b :: t) = false := by
        simp [sameFolded, mt hab.1 he]
      rw [hs]
      exact ⟨fun h => by simp at h, fun _ => by simp [stripPrefixCI?, he]⟩

theorem strip_complete : ∀ {t m r : Str}, lower m = lower t → stripPrefixCI? t (m ++ r) = some (m, r)
  | [], [], _, _ => by simp [stripPrefixCI?]
  | [], _ :: _, _, h => by simp [lower] at h
  | _ :: _, [], _, h => by simp [lower] at h
  | b :: t, a :: m, r, h => by
    simp only [lower, List.map_cons, List.cons.injEq] at h
    simp [stripPrefixCI?, h.1, strip_complete (t := t) (m := m) (r := r) h.2]

/-- **C112.** A keyword of ASCII characters on any text, when the text has no Kelvin sign or the keyword no `k`: there is no
panic, the keyword is accepted exactly when the text begins with its letters up to ASCII case, and as many characters
are taken as the keyword has.  So the model of `tag_no_case` with ASCII letters (`Nom/Core.lean`) is exact there.
Missing: keywords with `k` on texts with a Kelvin sign, where the claim is false (`C112_panics`), and the parsers
around the keywords. -/
theorem C112_keyword_partial {low : Char → Str} (hl : RustLower low) {t i : Str} (ht : Ascii t) (h : kelvin ∉ i ∨ 'k' ∉ lower t) :
    tagNoCaseRs low t i ≠ .panic ∧ ∀ m r, tagNoCaseRs low t i = .ok r m ↔ i = m ++ r ∧ lower m = lower t := by
  have hf : ∀ a ∈ i, ∀ b ∈ t, (low a = low b ↔ lowerC b = lowerC a) := fun a ha b hb => folds hl (ht b hb) <| by
    rcases h with h | h
    · exact .inl fun e => h (e ▸ ha)
    · exact .inr fun e => h (by rw [← e]; exact List.mem_map_of_mem hb)
  obtain ⟨h1, h2⟩ := tag_parts ht hf
  have hs : tagNoCaseRs low t i = match stripPrefixCI? t i with | some (m, r) => .ok r m | none => .refuse := by
    unfold tagNoCaseRs
    rw [utf8Len_ascii ht]
    cases hc : sameFolded low i t with
    | false => simp [h2 hc]
    | true =>
      rcases h1 hc with ⟨m, r, k1, k2, k3⟩ | ⟨k1, k2⟩
      · simp [k1, k2, k3]
      · simp [k1, Nat.not_le.2 k2]
  rw [hs]
  refine ⟨by cases stripPrefixCI? t i <;> simp, fun m r => ⟨fun h => ?_, fun h => ?_⟩⟩
  · cases hp : stripPrefixCI? t i with
    | none => simp [hp] at h
    | some x =>
      obtain ⟨m', r'⟩ := x
      simp only [hp, Res.ok.injEq] at h
      obtain ⟨rfl, rfl⟩ := h
      exact ⟨(stripPrefixCI?_spec hp).1, (stripPrefixCI?_spec hp).2.2⟩
  · obtain ⟨rfl, hm⟩ := h
    rw [strip_complete hm]

theorem split_append {m s : Str} {n : Nat} (hm : Ascii m) : splitBytes (m.length + n) (m ++ s) = (splitBytes n s).map fun x => (m ++ x.1, x.2) := by
  induction m with
  | nil => cases h : splitBytes n s <;> simp [h]
  | cons c m ih =>
    have hc := utf8_ascii (hm c List.mem_cons_self)
    have := ih fun d hd => hm d (List.mem_cons_of_mem _ hd)
    rw [show (c :: m).length + n = (m.length + n) + 1 by simp only [List.length_cons]; omega]
    simp only [List.cons_append, splitBytes, hc, Nat.add_sub_cancel, this]
    cases splitBytes n s <;> simp

theorem same_append {low : Char → Str} (hl : RustLower low) : ∀ {u m : Str} {s v : Str}, Ascii u → Ascii m → lower m = lower u →
    sameFolded low (m ++ s) (u ++ v) = sameFolded low s v
  | [], [], _, _, _, _, _ => rfl
  | [], _ :: _, _, _, _, _, h => by simp [lower] at h
  | _ :: _, [], _, _, _, _, h => by simp [lower] at h
  | b :: u, a :: m, s, v, hu, hm, h => by
    simp only [lower, List.map_cons, List.cons.injEq] at h
    have := same_append hl (u := u) (m := m) (s := s) (v := v) (fun c hc => hu c (List.mem_cons_of_mem _ hc)) (fun c hc => hm c (List.mem_cons_of_mem _ hc)) h.2
    simp [sameFolded, hl.ascii a (hm a List.mem_cons_self), hl.ascii b (hu b List.mem_cons_self), h.1, this]

theorem utf8Len_append (s t : Str) : utf8Len (s ++ t) = utf8Len s + utf8Len t := by
  induction s with
  | nil => simp [utf8Len]
  | cons c s ih => simp only [List.cons_append, utf8Len, ih]; omega

theorem length_of_lower {m u : Str} (h : lower m = lower u) : m.length = u.length := by
  have := congrArg List.length h
  simpa [lower] using this

theorem kelvin_size : kelvin.utf8Size = 3 := by decide

/-- A Kelvin sign for a `k` that is the last letter of a keyword or the one before it makes the program panic, whatever
follows the keyword, and also when the text ends with the Kelvin sign and is one letter shorter than the keyword. -/
theorem C112_panics {low : Char → Str} (hl : RustLower low) {u m v s : Str} {k : Char} (hu : Ascii u) (hm : Ascii m) (hv : Ascii v)
    (h : lower m = lower u) (hk : lowerC k = 'k') (hka : k.val < 128) (h1 : v.length ≤ 1) (hs : ∀ a b s' v', s = a :: s' → v = b :: v' → low a = low b) :
    tagNoCaseRs low (u ++ k :: v) (m ++ kelvin :: s) = .panic := by
  have ht : Ascii (u ++ k :: v) := by
    intro c hc
    simp only [List.mem_append, List.mem_cons] at hc
    rcases hc with hc | rfl | hc
    · exact hu c hc
    · exact hka
    · exact hv c hc
  have hs : sameFolded low s v = true := by
    match s, v, h1, hs with
    | [], _, _, _ => simp [sameFolded]
    | _ :: _, [], _, _ => simp [sameFolded]
    | a :: s, [b], _, hs => cases s <;> simp [sameFolded, hs a b _ [] rfl rfl]
  have e1 : sameFolded low (m ++ kelvin :: s) (u ++ k :: v) = true := by
    rw [same_append hl hu hm h]
    simp [sameFolded, hl.kelvin, hl.ascii k hka, hk, hs]
  have hlen := length_of_lower h
  have e2 : utf8Len (u ++ k :: v) = m.length + (v.length + 1) := by
    rw [utf8Len_ascii ht, List.length_append, List.length_cons, hlen]
  have e3 : utf8Len (m ++ kelvin :: s) = m.length + (3 + utf8Len s) := by
    rw [utf8Len_append, utf8Len_ascii hm, utf8Len, kelvin_size]
  have e4 : splitBytes (m.length + (v.length + 1)) (m ++ kelvin :: s) = none := by
    rw [split_append hm]
    simp only [splitBytes, kelvin_size]
    rw [if_neg (by omega)]
    rfl
  unfold tagNoCaseRs
  rw [if_pos e1, e2, e3, if_pos (by omega), e4]

/-- A Kelvin sign for an earlier `k`: the keyword is accepted, but its last two letters are left to be read again. -/
theorem C112_reads_short {low : Char → Str} (hl : RustLower low) {u m v w s : Str} {k a b a' b' : Char} (hu : Ascii u) (hm : Ascii m)
    (hv : Ascii (v ++ [a, b])) (hw : Ascii (w ++ [a', b'])) (h : lower m = lower u) (hk : lowerC k = 'k') (hka : k.val < 128)
    (h2 : lower (w ++ [a', b']) = lower (v ++ [a, b])) :
    tagNoCaseRs low (u ++ k :: (v ++ [a, b])) (m ++ kelvin :: (w ++ [a', b'] ++ s)) = .ok (a' :: b' :: s) (m ++ kelvin :: w) := by
  have ht : Ascii (u ++ k :: (v ++ [a, b])) := by
    intro c hc
    rw [List.mem_append, List.mem_cons] at hc
    rcases hc with hc | rfl | hc
    · exact hu c hc
    · exact hka
    · exact hv c hc
  have e1 : sameFolded low (m ++ kelvin :: (w ++ [a', b'] ++ s)) (u ++ k :: (v ++ [a, b])) = true := by
    rw [same_append hl hu hm h]
    have := same_append hl (s := s) (v := []) hv hw h2
    simp only [List.append_nil] at this
    simp only [sameFolded, hl.kelvin, hl.ascii k hka, hk, this]
    cases s <;> simp
  have hlen := length_of_lower h
  have hlen2 := length_of_lower h2
  simp only [List.length_append, List.length_cons, List.length_nil] at hlen2
  have e2 : utf8Len (u ++ k :: (v ++ [a, b])) = m.length + (w.length + 3) := by
    rw [utf8Len_ascii ht]
    simp only [List.length_append, List.length_cons, List.length_nil]
    omega
  have e3 : utf8Len (m ++ kelvin :: (w ++ [a', b'] ++ s)) = m.length + (3 + (w.length + 2 + utf8Len s)) := by
    rw [utf8Len_append, utf8Len_ascii hm, utf8Len, kelvin_size, utf8Len_append, utf8Len_ascii hw]
    simp
  have hw' : Ascii w := fun c hc => hw c (by simp [hc])
  have e4 : splitBytes (m.length + (w.length + 3)) (m ++ kelvin :: (w ++ [a', b'] ++ s)) = some (m ++ kelvin :: w, a' :: b' :: s) := by
    rw [split_append hm]
    simp only [splitBytes, kelvin_size]
    rw [if_pos (by omega), show w.length + 2 + 1 - 3 = w.length + 0 by omega, List.append_assoc, split_append hw']
    simp [splitBytes]
  unfold tagNoCaseRs
  rw [if_pos e1, e2, e3, if_pos (by omega), e4]

/-- A time unit that is written `wee` and a Kelvin sign panics, whatever follows it: `earliest=-1wee`, a Kelvin sign and anything. -/
theorem C112_week {low : Char → Str} (hl : RustLower low) (s : Str) : timeUnitRs low (c!"wee" ++ kelvin :: s) = .panic := by
  have hw : low 'w' = ['w'] := hl.ascii _ (by decide)
  have no : ∀ t : Str, ∀ c, low c ≠ ['w'] → tagNoCaseRs low (c :: t) (c!"wee" ++ kelvin :: s) = .refuse := by
    intro t c h
    simp [tagNoCaseRs, sameFolded, hw, Ne.symm h]
  have hM : low 'm' ≠ ['w'] := by rw [hl.ascii _ (by decide)]; decide
  have hD : low 'd' ≠ ['w'] := by rw [hl.ascii _ (by decide)]; decide
  have hH : low 'h' ≠ ['w'] := by rw [hl.ascii _ (by decide)]; decide
  by_cases hs : sameFolded low s c!"s" = true
  · have := C112_panics hl (u := c!"wee") (m := c!"wee") (v := c!"s") (s := s) (k := 'k') (by unfold Ascii; decide) (by unfold Ascii; decide)
      (by unfold Ascii; decide) rfl (by decide) (by decide) (by decide) (by
        rintro a b s' v' rfl hv
        cases hv
        simpa [sameFolded] using hs)
    simp only [timeUnitRs, unitSpellings, List.map_cons, no _ _ hM, no _ _ hD, no _ _ hH, altRs]
    rw [show c!"weeks" = c!"wee" ++ 'k' :: c!"s" from rfl, this]
    rfl
  · have h5 : tagNoCaseRs low c!"weeks" (c!"wee" ++ kelvin :: s) = .refuse := by
      have : sameFolded low (c!"wee" ++ kelvin :: s) c!"weeks" = false := by
        simp only [Bool.not_eq_true] at hs
        simp [sameFolded, hl.kelvin, hl.ascii 'k' (by decide)]
        intro _; exact hs
      unfold tagNoCaseRs
      rw [if_neg (by rw [this]; decide)]
    have := C112_panics hl (u := c!"wee") (m := c!"wee") (v := []) (s := s) (k := 'k') (by unfold Ascii; decide) (by unfold Ascii; decide)
      (by unfold Ascii; decide) rfl (by decide) (by decide) (by decide) (by simp)
    simp only [timeUnitRs, unitSpellings, List.map_cons, no _ _ hM, no _ _ hD, no _ _ hH, altRs, h5]
    rw [show c!"week" = c!"wee" ++ 'k' :: [] from rfl, this]
    rfl

/-- Without a Kelvin sign a time unit never panics. -/
theorem C112_unit {low : Char → Str} (hl : RustLower low) {i : Str} (h : kelvin ∉ i) : timeUnitRs low i ≠ .panic := by
  have ha : ∀ t ∈ unitSpellings, Ascii t := by unfold Ascii; decide
  have key : ∀ rs : List Res, (∀ r ∈ rs, r ≠ .panic) → altRs rs ≠ .panic := by
    intro rs
    induction rs with
    | nil => simp [altRs]
    | cons r rs ih =>
      intro hr
      have h1 := hr r List.mem_cons_self
      cases r with
      | ok => simp [altRs]
      | refuse => exact ih fun r h => hr r (List.mem_cons_of_mem _ h)
      | panic => exact absurd rfl h1
  refine key _ fun r hr => ?_
  obtain ⟨t, ht, rfl⟩ := List.mem_map.1 hr
  exact (C112_keyword_partial hl (ha t ht) (.inl h)).1

/-- a lower-casing with the three facts, for the examples -/
def lowSample (c : Char) : Str := if c = kelvin then ['k'] else [lowerC c]

theorem lowSample_ok : RustLower lowSample where
  ascii c h := by
    have : c ≠ kelvin := by rintro rfl; exact absurd h (by decide)
    simp [lowSample, this]
  kelvin := by decide
  other c h hk d hd e := by
    simp only [lowSample, hk, if_false, List.cons.injEq, and_true] at e
    rw [lowerC_high h] at e
    exact h (e ▸ hd)

example : tagNoCaseRs lowSample c!"lookup" c!"LookUp x" = .ok c!" x" c!"LookUp" :=
  ((C112_keyword_partial lowSample_ok (by unfold Ascii; decide) (.inl (by decide))).2 _ _).2 ⟨rfl, by decide⟩

example : tagNoCaseRs lowSample c!"lookup" (c!"loo" ++ kelvin :: ([] ++ c!"up" ++ c!" x")) = .ok c!"up x" (c!"loo" ++ [kelvin]) :=
  C112_reads_short lowSample_ok (u := c!"loo") (k := 'k') (v := []) (a := 'u') (b := 'p') (by unfold Ascii; decide) (by unfold Ascii; decide)
    (by unfold Ascii; decide) (by unfold Ascii; decide) rfl (by decide) (by decide) rfl

example : tagNoCaseRs lowSample c!"weeks" (c!"wee" ++ [kelvin]) = .panic :=
  C112_panics lowSample_ok (u := c!"wee") (k := 'k') (v := c!"s") (by unfold Ascii; decide) (by unfold Ascii; decide) (by unfold Ascii; decide) rfl
    (by decide) (by decide) (by decide) (by simp)

example : timeUnitRs lowSample (c!"wee" ++ kelvin :: c!"s@d") = .panic := C112_week lowSample_ok _

example : timeUnitRs lowSample c!"weeks@d" = .ok c!"@d" c!"weeks" := by decide +kernel

end Verif.Props
