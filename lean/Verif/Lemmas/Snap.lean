import Verif.Spec.Values
import Verif.Props.Literals
/-
Time specifiers with an at sign: which texts are read, and as what.
-/
namespace Verif
open P Lex Spl Spec Lemmas

namespace Snap

/-- small letters -/
def isSmall (c : Char) : Bool := 'a' ≤ c && c ≤ 'z'

theorem longer : ∀ y ∈ unitSpellings, ∀ x ∈ unitSpellings, y.1 = x.1.take y.1.length →
    (x.1[y.1.length]?).all (fun d => isSmall d || (y.1 == c!"w" && (d == '0' || d == '7'))) = true := by decide

/-- A unit is read whole if no letter follows it. -/
theorem unit_read {s n m u : Str} (hs : (s, n) ∈ unitSpellings) (hm : lower m = s)
    (hl : ∀ c t, u = c :: t → isSmall (lowerC c) = false) (hw : s = c!"w" → ∀ c t, u = c :: t → c ≠ '0' ∧ c ≠ '7') :
    timeUnit.run () (m ++ u) = some (u, n) := by
  refine ((C47_unit (m ++ u)).1 u n).2 ⟨s, m, hs, rfl, hm, ?_⟩
  rintro x hx ⟨m', r', e, e'⟩
  apply Nat.le_of_not_lt
  intro hlt
  have hlen : m'.length = x.1.length := by rw [← e']; simp [lower]
  have hml : m.length = s.length := by rw [← hm]; simp [lower]
  rcases List.append_eq_append_iff.1 e with ⟨a, h1, h2⟩ | ⟨a, h1, h2⟩
  · cases a with
    | nil => rw [h1] at hlen; simp at hlen; omega
    | cons c a =>
      have hx1 : x.1 = s ++ (lowerC c :: lower a) := by rw [← e', h1, ← hm]; simp [lower]
      have := longer _ hs x hx (by simp only [hx1]; rw [List.take_left' rfl])
      simp only [hx1] at this
      rw [List.getElem?_append_right (Nat.le_refl _)] at this
      have hc := hl c (a ++ r') (by rw [h2]; rfl)
      simp only [Nat.sub_self, List.getElem?_cons_zero, Option.all_some, hc, Bool.false_or, Bool.and_eq_true, beq_iff_eq,
        Bool.or_eq_true] at this
      obtain ⟨e1, e2⟩ := this
      have h0 := hw e1 c (a ++ r') (by rw [h2]; rfl)
      have key : ∀ d : Char, (d = '0' ∨ d = '7') → lowerC c = d → c = d := by
        rintro d hd rfl
        unfold lowerC at hd ⊢
        split
        · rename_i hc'
          rw [if_pos hc'] at hd
          have hb1 : 65 ≤ c.toNat := hc'.1
          have hb2 : c.toNat ≤ 90 := hc'.2
          have key : ∀ n : Fin 26, ¬ (Char.ofNat (n.val + 65 + 32) = '0' ∨ Char.ofNat (n.val + 65 + 32) = '7') := by decide
          have := key ⟨c.toNat - 65, by omega⟩
          rw [show c.toNat - 65 + 65 + 32 = c.toNat + 32 by omega] at this
          exact absurd hd this
        · rfl
      rcases e2 with e2 | e2
      · exact h0.1 (key _ (.inl rfl) e2)
      · exact h0.2 (key _ (.inr rfl) e2)
  · have := congrArg List.length h1
    simp at this; omega

theorem spelling_letter : ∀ x ∈ unitSpellings, x.1.head?.any (fun c => isSmall c) = true := by decide

/-- a unit begins with a letter -/
theorem unit_head {s n m : Str} (hs : (s, n) ∈ unitSpellings) (hm : lower m = s) : ∃ c t, m = c :: t ∧ isSmall (lowerC c) = true := by
  have := spelling_letter _ hs
  cases m with
  | nil => rw [← hm] at this; simp [lower] at this
  | cons c t => rw [← hm] at this; exact ⟨c, t, rfl, by simpa [lower] using this⟩

theorem lowerC_lt {c : Char} (h : c.toNat < 65) : lowerC c = c := by
  unfold lowerC
  rw [if_neg]
  rintro ⟨h1, -⟩
  have h1 : 65 ≤ c.toNat := h1
  omega

theorem small_ge {c : Char} (h : isSmall (lowerC c) = true) : 65 ≤ c.toNat := by
  apply Nat.le_of_not_lt
  intro hlt
  rw [lowerC_lt hlt] at h
  simp only [isSmall, Bool.and_eq_true, decide_eq_true_eq] at h
  have h1 : 97 ≤ c.toNat := h.1
  omega

theorem small_dig {c : Char} (h : isSmall (lowerC c) = true) : isDig c = false := by
  have h1 := small_ge h
  cases hd : isDig c with
  | false => rfl
  | true =>
    simp only [isDig, Bool.and_eq_true, decide_eq_true_eq] at hd
    have h2 : c.toNat ≤ 57 := hd.2
    omega

theorem dig_small {c : Char} (h : isDig c = true) : isSmall (lowerC c) = false := by
  cases hs : isSmall (lowerC c) with
  | false => rfl
  | true => rw [small_dig hs] at h; cases h

theorem unit_ne {s n m : Str} (hs : (s, n) ∈ unitSpellings) (hm : lower m = s) {u : Str} {q : Char} (hq : q.toNat < 65) :
    ∀ c t, m ++ u = c :: t → c ≠ q := by
  obtain ⟨c, t, rfl, hc⟩ := unit_head hs hm
  rintro d r e rfl
  simp only [List.cons_append, List.cons.injEq] at e
  have := small_ge hc
  rw [e.1] at this; omega

theorem unit_stops {s n m : Str} (hs : (s, n) ∈ unitSpellings) (hm : lower m = s) {u : Str} : Stops isDig (m ++ u) := by
  obtain ⟨c, t, rfl, hc⟩ := unit_head hs hm
  exact Stops.cons (small_dig hc)

theorem at_small {u : Str} : ∀ c t, '@' :: u = c :: t → isSmall (lowerC c) = false := by
  intro c t e
  simp only [List.cons.injEq] at e
  rw [← e.1]; decide

theorem at_w {u : Str} : ∀ c t, '@' :: u = c :: t → c ≠ '0' ∧ c ≠ '7' := by
  intro c t e
  simp only [List.cons.injEq] at e
  rw [← e.1]; decide

theorem span_read {x : TimeSpan} {t u : Str} (h : SpanText x t) (hl : ∀ c t, u = c :: t → isSmall (lowerC c) = false)
    (hw : ∀ c t, u = c :: t → c ≠ '0' ∧ c ≠ '7') : timeSpan.run () (t ++ u) = some (u, x) := by
  cases h with
  | @plain ds m s n hd hv hs hm =>
    rw [List.append_assoc, timeSpan, run_map, run_seq, show ds ++ (m ++ u) = [] ++ (ds ++ (m ++ u)) from rfl,
      run_int .none ⟨hd.ne, hd.digits⟩ (unit_stops hs hm), if_pos hv, Option.bind_some, unit_read hs hm hl (fun _ => hw)]
    rfl
  | @plus ds m s n hd hv hs hm =>
    rw [List.cons_append, List.append_assoc, timeSpan, run_map, run_seq, show '+' :: (ds ++ (m ++ u)) = c!"+" ++ (ds ++ (m ++ u)) from rfl,
      run_int .plus ⟨hd.ne, hd.digits⟩ (unit_stops hs hm), if_pos hv, Option.bind_some, unit_read hs hm hl (fun _ => hw)]
    rfl
  | @minus ds m s n hd hv hs hm =>
    rw [List.cons_append, List.append_assoc, timeSpan, run_map, run_seq, show '-' :: (ds ++ (m ++ u)) = c!"-" ++ (ds ++ (m ++ u)) from rfl,
      run_int .minus ⟨hd.ne, hd.digits⟩ (unit_stops hs hm), if_pos hv, Option.bind_some, unit_read hs hm hl (fun _ => hw)]
    rfl

theorem int_none' {i : Str} (h1 : ∀ c t, i = c :: t → c ≠ '+') (h2 : ∀ c t, i = c :: t → c ≠ '-') (h3 : Stops isDig i) :
    int.run () i = none := by
  rw [int, run_map, run_seq, sign, run_opt, run_alt, tag_none h1, tag_none h2, Option.or_none, Option.elim_none, Option.bind_some,
    run_filterMap, digit1, takeWhile1_none h3]
  rfl

theorem int_minus_none {i : Str} (h3 : Stops isDig i) : int.run () ('-' :: i) = none := by
  rw [int, run_map, run_seq, sign, run_opt, run_alt, tag_ne (by decide), tag_same, Option.none_or, Option.elim_some, Option.bind_some,
    run_filterMap, digit1, takeWhile1_none h3]
  rfl

theorem shift_read {x : Option TimeSpan} {t u : Str} (h : ShiftText x t) :
    (opt (timeSpan <||> timeSpanOne)).run () (t ++ '@' :: u) = some ('@' :: u, x) := by
  cases h with
  | none =>
    rw [List.nil_append, run_opt, run_alt, timeSpan, run_map, run_seq, int_none' (by simp) (by simp) (Stops.cons (by decide)),
      timeSpanOne, run_map, run_seq, run_opt, tag_ne (by decide), Option.elim_none, Option.bind_some, timeUnit_none (by
        intro c s e; simp only [List.cons.injEq] at e; rw [← e.1]; decide)]
    rfl
  | amount h => rw [run_opt, run_alt, span_read h at_small at_w]; rfl
  | @one m s n hs hm =>
    rw [run_opt, run_alt, timeSpan, run_map, run_seq, int_none' (unit_ne hs hm (by decide)) (unit_ne hs hm (by decide)) (unit_stops hs hm),
      timeSpanOne, run_map, run_seq, run_opt, tag_none (unit_ne hs hm (by decide)), Option.elim_none, Option.bind_some,
      unit_read hs hm at_small (fun _ => at_w)]
    rfl
  | @minusOne m s n hs hm =>
    rw [List.cons_append, run_opt, run_alt, timeSpan, run_map, run_seq, int_minus_none (unit_stops hs hm),
      timeSpanOne, run_map, run_seq, run_opt, tag_same, Option.elim_some, Option.bind_some,
      unit_read hs hm at_small (fun _ => at_w)]
    rfl

/-- a time specifier before a quote is read whole -/
theorem snap_read {x : SnapTime} {t u : Str} (h : SnapText x t) : relativeTimeFmt.run () (t ++ '"' :: u) = some ('"' :: u, x) := by
  obtain ⟨ha, hs, hm, hb, hw⟩ := h
  rename_i a m s n b x y
  have hq1 : ∀ c t, '"' :: u = c :: t → isSmall (lowerC c) = false := by
    intro c t e; simp only [List.cons.injEq] at e; rw [← e.1]; decide
  have hq2 : ∀ c t, '"' :: u = c :: t → c ≠ '0' ∧ c ≠ '7' := by
    intro c t e; simp only [List.cons.injEq] at e; rw [← e.1]; decide
  have hbu : (∀ c t, b ++ '"' :: u = c :: t → isSmall (lowerC c) = false) ∧
      (s = c!"w" → ∀ c t, b ++ '"' :: u = c :: t → c ≠ '0' ∧ c ≠ '7') := by
    cases hb with
    | none => exact ⟨hq1, fun _ => hq2⟩
    | amount h =>
      have hh : ∃ c t, b = c :: t ∧ isSmall (lowerC c) = false := by
        cases h with
        | plain hd =>
          obtain ⟨c, t, rfl⟩ := List.exists_cons_of_ne_nil hd.ne
          exact ⟨c, _, rfl, dig_small (hd.digits c (by simp))⟩
        | plus => exact ⟨_, _, rfl, by decide⟩
        | minus => exact ⟨_, _, rfl, by decide⟩
      obtain ⟨c, t, rfl, hc⟩ := hh
      refine ⟨?_, fun e => ?_⟩
      · intro d r e; simp only [List.cons_append, List.cons.injEq] at e; rw [← e.1]; exact hc
      · intro d r e'; simp only [List.cons_append, List.cons.injEq] at e'; rw [← e'.1]; exact hw e c t rfl
  have hlast : (opt timeSpan).run () (b ++ '"' :: u) = some ('"' :: u, y) := by
    rw [run_opt]
    cases hb with
    | none =>
      rw [List.nil_append, timeSpan, run_map, run_seq, int_none' (by simp) (by simp) (Stops.cons (by decide))]; rfl
    | amount h => rw [span_read h hq1 hq2]; rfl
  rw [relativeTimeFmt, run_map, run_seq, List.append_assoc, List.cons_append, List.append_assoc, shift_read ha, Option.bind_some,
    run_seq, tag_same, Option.bind_some, run_seq, unit_read hs hm hbu.1 hbu.2, Option.bind_some, hlast]
  rfl

theorem int_text {i r : Str} {n : Int} (h : int.run () i = some (r, n)) : ∃ sgn neg ds, Sgn sgn neg ∧ IsDigits ds ∧ digitsVal ds < 2 ^ 63 ∧
    n = withSign neg (digitsVal ds) ∧ i = sgn ++ (ds ++ r) := by
  rw [int, run_map, Option.map_eq_some_iff] at h
  obtain ⟨⟨r', o, k⟩, h, e⟩ := h
  simp only [Prod.mk.injEq] at e
  obtain ⟨rfl, rfl⟩ := e
  rw [run_seq] at h
  obtain ⟨⟨r1, o'⟩, h1, h2⟩ := Option.bind_eq_some_iff.1 h
  obtain ⟨⟨r2, k'⟩, h3, e⟩ := Option.map_eq_some_iff.1 h2
  simp only [Prod.mk.injEq] at e
  obtain ⟨rfl, rfl, rfl⟩ := e
  rw [run_filterMap] at h3
  obtain ⟨⟨r3, ds⟩, h4, h5⟩ := Option.bind_eq_some_iff.1 h3
  simp only at h5
  split at h5
  case isFalse => simp at h5
  rename_i hv
  simp only [Option.map_some, Option.some.injEq, Prod.mk.injEq] at h5
  obtain ⟨rfl, rfl⟩ := h5
  obtain ⟨rfl, hne, hd, -⟩ := takeWhile1_some h4
  rw [sign, run_opt, run_alt, run_tag, run_tag] at h1
  have hm : ∀ {c : Char} {i r : Str}, stripPrefix? [c] i = some r → i = c :: r := fun h => stripPrefix?_some.1 h
  cases hp : stripPrefix? c!"+" i with
  | some r' =>
    rw [hp] at h1
    simp only [Option.map_some, Option.some_or, Option.elim_some, Option.some.injEq, Prod.mk.injEq] at h1
    obtain ⟨rfl, rfl⟩ := h1
    exact ⟨c!"+", false, ds, .plus, ⟨hne, hd⟩, hv, by simp [withSign], hm hp⟩
  | none =>
    cases hq : stripPrefix? c!"-" i with
    | some r' =>
      rw [hp, hq] at h1
      simp only [Option.map_some, Option.map_none, Option.none_or, Option.elim_some, Option.some.injEq, Prod.mk.injEq] at h1
      obtain ⟨rfl, rfl⟩ := h1
      exact ⟨c!"-", true, ds, .minus, ⟨hne, hd⟩, hv, by simp [withSign], hm hq⟩
    | none =>
      rw [hp, hq] at h1
      simp only [Option.map_none, Option.none_or, Option.elim_none, Option.some.injEq, Prod.mk.injEq] at h1
      obtain ⟨rfl, rfl⟩ := h1
      exact ⟨[], false, ds, .none, ⟨hne, hd⟩, hv, by simp [withSign], rfl⟩

theorem unit_text {i r u : Str} (h : timeUnit.run () i = some (r, u)) : ∃ s m, (s, u) ∈ unitSpellings ∧ i = m ++ r ∧ lower m = s ∧
    (s = c!"w" → ∀ c t, r = c :: t → c ≠ '0' ∧ c ≠ '7') := by
  obtain ⟨s, m, h1, h2, h3, h4⟩ := ((C47_unit i).1 r u).1 h
  refine ⟨s, m, h1, h2, h3, ?_⟩
  rintro rfl c t rfl
  constructor
  · rintro rfl
    have := h4 (c!"w0", c!"weeks") (by decide) ⟨m ++ c!"0", t, by simp [h2], by rw [lower, List.map_append]; rw [lower] at h3; rw [h3]; rfl⟩
    simp at this
  · rintro rfl
    have := h4 (c!"w7", c!"weeks") (by decide) ⟨m ++ c!"7", t, by simp [h2], by rw [lower, List.map_append]; rw [lower] at h3; rw [h3]; rfl⟩
    simp at this

theorem span_text {i r : Str} {x : TimeSpan} (h : timeSpan.run () i = some (r, x)) : ∃ t, i = t ++ r ∧ SpanText x t := by
  rw [timeSpan, run_map, Option.map_eq_some_iff] at h
  obtain ⟨⟨r', n, u⟩, h, e⟩ := h
  simp only [Prod.mk.injEq] at e
  obtain ⟨rfl, rfl⟩ := e
  rw [run_seq] at h
  obtain ⟨⟨r1, n'⟩, h1, h2⟩ := Option.bind_eq_some_iff.1 h
  obtain ⟨⟨r2, u'⟩, h3, e⟩ := Option.map_eq_some_iff.1 h2
  simp only [Prod.mk.injEq] at e
  obtain ⟨rfl, rfl, rfl⟩ := e
  obtain ⟨sgn, neg, ds, hs, hd, hv, rfl, rfl⟩ := int_text h1
  obtain ⟨s, m, hu, rfl, hm, -⟩ := unit_text h3
  cases hs with
  | none => exact ⟨ds ++ m, by simp, .plain hd hv hu hm⟩
  | plus => exact ⟨'+' :: (ds ++ m), by simp, .plus hd hv hu hm⟩
  | minus => exact ⟨'-' :: (ds ++ m), by simp, .minus hd hv hu hm⟩

theorem one_text {i r : Str} {x : TimeSpan} (h : timeSpanOne.run () i = some (r, x)) : ∃ t, i = t ++ r ∧ ShiftText (some x) t := by
  rw [timeSpanOne, run_map, Option.map_eq_some_iff] at h
  obtain ⟨⟨r', o, u⟩, h, e⟩ := h
  simp only [Prod.mk.injEq] at e
  obtain ⟨rfl, rfl⟩ := e
  rw [run_seq] at h
  obtain ⟨⟨r1, o'⟩, h1, h2⟩ := Option.bind_eq_some_iff.1 h
  obtain ⟨⟨r2, u'⟩, h3, e⟩ := Option.map_eq_some_iff.1 h2
  simp only [Prod.mk.injEq] at e
  obtain ⟨rfl, rfl, rfl⟩ := e
  obtain ⟨s, m, hu, rfl, hm, -⟩ := unit_text h3
  rw [run_opt, run_tag] at h1
  cases hp : stripPrefix? c!"-" i with
  | some r' =>
    rw [hp] at h1
    simp only [Option.map_some, Option.elim_some, Option.some.injEq, Prod.mk.injEq] at h1
    obtain ⟨rfl, rfl⟩ := h1
    exact ⟨'-' :: m, by rw [stripPrefix?_some.1 hp]; rfl, .minusOne hu hm⟩
  | none =>
    rw [hp] at h1
    simp only [Option.map_none, Option.elim_none, Option.some.injEq, Prod.mk.injEq] at h1
    obtain ⟨rfl, rfl⟩ := h1
    exact ⟨m, rfl, .one hu hm⟩

/-- what is read as a time specifier is one -/
theorem snap_text {i r : Str} {x : SnapTime} (h : relativeTimeFmt.run () i = some (r, x)) : ∃ t, i = t ++ r ∧ SnapText x t := by
  rw [relativeTimeFmt, run_map, Option.map_eq_some_iff] at h
  obtain ⟨⟨r', x1, z, x2, x3⟩, h, e⟩ := h
  simp only [Prod.mk.injEq] at e
  obtain ⟨rfl, rfl⟩ := e
  rw [run_seq] at h
  obtain ⟨⟨r1, o1⟩, h1, h2⟩ := Option.bind_eq_some_iff.1 h
  obtain ⟨⟨r2, y2⟩, h3, e⟩ := Option.map_eq_some_iff.1 h2
  simp only [Prod.mk.injEq] at e
  obtain ⟨rfl, rfl, rfl⟩ := e
  rw [run_seq] at h3
  obtain ⟨⟨r3, o3⟩, h4, h5⟩ := Option.bind_eq_some_iff.1 h3
  obtain ⟨⟨r4, y4⟩, h6, e⟩ := Option.map_eq_some_iff.1 h5
  simp only [Prod.mk.injEq] at e
  obtain ⟨rfl, rfl, rfl⟩ := e
  rw [run_seq] at h6
  obtain ⟨⟨r5, o5⟩, h7, h8⟩ := Option.bind_eq_some_iff.1 h6
  obtain ⟨⟨r6, y6⟩, h9, e⟩ := Option.map_eq_some_iff.1 h8
  simp only [Prod.mk.injEq] at e
  obtain ⟨rfl, rfl, rfl⟩ := e
  rw [run_tag] at h4
  obtain ⟨r7, h10, e⟩ := Option.map_eq_some_iff.1 h4
  simp only [Prod.mk.injEq] at e
  obtain ⟨rfl, -⟩ := e
  have hr1 : r1 = '@' :: r7 := stripPrefix?_some.1 h10
  subst hr1
  obtain ⟨s, m, hu, rfl, hm, hw⟩ := unit_text h7
  have hb : ∃ b, r5 = b ++ r6 ∧ AfterText y6 b := by
    rw [run_opt] at h9
    cases ht : timeSpan.run () r5 with
    | none =>
      rw [ht] at h9
      simp only [Option.elim_none, Option.some.injEq, Prod.mk.injEq] at h9
      obtain ⟨rfl, rfl⟩ := h9
      exact ⟨[], rfl, .none⟩
    | some v =>
      rw [ht] at h9
      simp only [Option.elim_some, Option.some.injEq, Prod.mk.injEq] at h9
      obtain ⟨rfl, rfl⟩ := h9
      obtain ⟨t, e, h⟩ := span_text (r := v.1) (x := v.2) ht
      exact ⟨t, e, .amount h⟩
  obtain ⟨b, rfl, hb⟩ := hb
  have ha : ∃ a, i = a ++ '@' :: (m ++ (b ++ r6)) ∧ ShiftText o1 a := by
    rw [run_opt, run_alt] at h1
    cases ht : timeSpan.run () i with
    | some v =>
      rw [ht] at h1
      simp only [Option.some_or, Option.elim_some, Option.some.injEq, Prod.mk.injEq] at h1
      obtain ⟨e1, rfl⟩ := h1
      obtain ⟨t, e, h⟩ := span_text (r := v.1) (x := v.2) ht
      exact ⟨t, by rw [e, e1], .amount h⟩
    | none =>
      rw [ht, Option.none_or] at h1
      cases ho : timeSpanOne.run () i with
      | some v =>
        rw [ho] at h1
        simp only [Option.elim_some, Option.some.injEq, Prod.mk.injEq] at h1
        obtain ⟨e1, rfl⟩ := h1
        obtain ⟨t, e, h⟩ := one_text (r := v.1) (x := v.2) ho
        exact ⟨t, by rw [e, e1], h⟩
      | none =>
        rw [ho] at h1
        simp only [Option.elim_none, Option.some.injEq, Prod.mk.injEq] at h1
        obtain ⟨rfl, rfl⟩ := h1
        exact ⟨[], rfl, .none⟩
  obtain ⟨a, rfl, ha⟩ := ha
  refine ⟨a ++ '@' :: (m ++ b), by simp, .mk ha hu hm hb fun e c t hc => ?_⟩
  exact hw e c (t ++ r6) (by rw [hc]; rfl)

end Snap

end Verif
