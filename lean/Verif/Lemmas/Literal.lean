import Verif.Spec.Logical
import Verif.Lemmas.Ladder
/-
The constants on the right of comparisons, on text written as in `Spec.LitText`.
-/
namespace Verif
open P Lex Spl Spec Lemmas

theorem literalOf_number {sgn : Str} {neg : Bool} (hs : Sgn sgn neg) (hp : sgn ≠ c!"+") {ds : Str} (hd : Digits ds)
    (hv : digitsVal ds < 2 ^ 63) : literalOf.run () (sgn ++ (ds ++ [])) = some ([], .int (withSign neg (digitsVal ds))) := by
  have hn : ∀ f, Stops f [] := Stops.nil
  have q1 := number_ipv4_none hs hp hd (hn isDig) (hn _)
  have q2 := number_ipv6_none hs hp hd (hn isDig) (hn _)
  have q3 := timeSpan_number_none hs hd
  have q4 := relativeTime_none q3 (timeSpanOne_number_none hs hd)
    (number_head_ne hs hp hd (by decide) (by decide)) (number_head_ne hs hp hd (by decide) (by decide))
  have hne : sgn ++ (ds ++ []) ≠ [] := by
    obtain ⟨d, t, rfl, _⟩ := hd.head; simp
  have hdq := doubleQuoted_none (number_head_ne hs hp hd (u := []) (x := '"') (by decide) (by decide))
  have hvar := variable_none (number_head_ne hs hp hd (u := []) (x := '$') (by decide) (by decide))
  have hstar : (sgn ++ (ds ++ [])).contains '*' = false := by
    rw [List.contains_eq_mem, decide_eq_false_iff_not]
    intro hm
    rcases List.mem_append.1 hm with hm | hm
    · cases hs <;> simp at hm
    · rw [List.append_nil] at hm
      have := hd.dig _ hm
      simp [isDig] at this
  have hwild : wildcard.run () (sgn ++ (ds ++ [])) = none := by
    have ht := run_tokenExtras hne (number_extra hs hp hd) (hn _) (digits_notReserved hs hd)
    rw [List.append_nil (sgn ++ (ds ++ []))] at ht
    rw [wildcard, run_verify, run_alt, hdq, Option.none_or, ht, Option.filter, if_neg]
    rw [hstar]; simp
  have hdbl := double_number_none hs hd (hn isDig) (hn _)
  simp only [literalOf, run_alt, run_map, allConsuming_none q1, allConsuming_none (ipv4Cidr_none q1),
    allConsuming_none q2, allConsuming_none q3, allConsuming_none q4, allConsuming_none hwild,
    allConsuming_none hdq, allConsuming_none hvar, allConsuming_none hdbl, Option.map_none, Option.none_or]
  rw [run_allConsuming, run_int hs hd (hn _)]
  simp [hv, Option.filter]


theorem literal_number (n : Int) (h : isI64 n) {rest : Str} (hr : Stops isExtraChar rest) :
    literal.run () (showInt n ++ rest) = some (rest, .int n) := by
  have main : ∀ {sgn neg m}, Sgn sgn neg → sgn ≠ c!"+" → m < 2 ^ 63 →
      literal.run () (sgn ++ showNat m ++ rest) = some (rest, .int (withSign neg m)) := by
    intro sgn neg m hs hp hm
    have hd : Digits (showNat m) := ⟨showNat_ne_nil m, showNat_digits m⟩
    have hne : sgn ++ showNat m ≠ [] := by simp [showNat_ne_nil m]
    have hx := number_extra hs hp hd
    have hres := digits_notReserved hs hd (u := [])
    have hk := literalOf_number hs hp hd (by rw [digitsVal_showNat]; exact hm)
    rw [List.append_nil] at hx hres hk
    rw [literal, reparse, run_filterMap, run_rawConstant hne hx hr hres, Option.bind_some, hk, digitsVal_showNat]
    rfl
  obtain ⟨h1, h2⟩ := h
  cases n with
  | ofNat m => exact main .none (by decide) (by have : (Int.ofNat m) = (m : Int) := rfl; omega)
  | negSucc m =>
    have := main .minus (m := m + 1) (by decide) (by have : Int.negSucc m = -((m : Int) + 1) := rfl; omega)
    rw [show withSign true (m + 1) = Int.negSucc m from rfl] at this
    exact this


/-- The alternatives before truth values and words do not apply to a text that begins like a name. -/
theorem literalOf_word {w : Str} {x : Char} {xs : Str} (ex : w = x :: xs) (hx1 : isNameChar x = true) (hx2 : isDig x = false)
    (hc : ∀ c ∈ w, isNameChar c = true ∨ c = '.') (hres : Lex.notReserved w = true) :
    literalOf.run () w = ((P.map Constant.bool (allConsuming bool_) : L true Constant).run () w).or
      ((P.map Constant.str (allConsuming string) : L true Constant).run () w) := by
  have hne : w ≠ [] := by rw [ex]; simp
  have hn : ∀ {q : Char}, isNameChar q = false → ∀ c t, w = c :: t → c ≠ q := by
    intro q hq c t e
    rw [ex] at e
    simp only [List.cons.injEq] at e
    rw [← e.1]; exact nameChar_ne hx1 hq
  have hx : ∀ c ∈ w, isExtraChar c = true := fun c h => extra_of_name (hc c h)
  have hnot : ∀ {q : Char}, isNameChar q = false → q ≠ '.' → q ∉ w := fun hq hd hm => by
    rcases hc _ hm with h | h
    · rw [hq] at h; simp at h
    · exact hd h
  have hdig : Stops isDig w := by rw [ex]; exact Stops.cons hx2
  have q1 : ipv4Addr.run () w = none :=
    ipv4Addr_none (ds := []) (by simp) hdig fun c t e => by have := hn (q := '.') (by decide) c t e; simpa using this
  have q2 : ipv6Addr.run () w = none :=
    ipv6Addr_none (ds := []) (by simp) hdig fun c t e => by have := hn (q := ':') (by decide) c t e; simpa using this
  have q3 : relativeTime.run () w = none := by
    rw [relativeTime, run_alt, run_delim, tag_none (hn (by decide)), Option.bind_none, Option.or_none]
    cases h' : relativeTimeFmt.run () w with
    | none => rfl
    | some x => exact absurd (at_needed h') (hnot (by decide) (by decide))
  have q4 := int_none (hn (q := '+') (by decide)) (hn (by decide)) hdig
  have q5 : timeSpan.run () w = none := by rw [timeSpan, run_map, run_seq, q4]; rfl
  have q6 := doubleQuoted_none (hn (q := '"') (by decide))
  have q7 : wildcard.run () w = none := by
    have := run_tokenExtras (rest := []) hne hx (Stops.nil _) hres
    rw [List.append_nil] at this
    rw [wildcard, run_verify, run_alt, q6, Option.none_or, this]
    have := hnot (q := '*') (by decide) (by decide)
    simp [Option.filter, this]
  have q8 := variable_none (hn (q := '$') (by decide))
  have q9 := double_none (hn (q := '+') (by decide)) (hn (by decide)) hdig
  rw [literalOf]
  simp only [run_alt, run_map, allConsuming_none q1, allConsuming_none (ipv4Cidr_none q1), allConsuming_none q2,
    allConsuming_none q3, allConsuming_none q4, allConsuming_none q5, allConsuming_none q6, allConsuming_none q7,
    allConsuming_none q8, allConsuming_none q9, Option.map_none, Option.none_or]

/-- A truth value has one of the known spellings. -/
theorem bool_words {w r : Str} {b : Bool} (h : bool_.run () w = some (r, b)) :
    ∃ m, w = m ++ r ∧ (if b then lower m ∈ trueWords else lower m ∈ falseWords) := by
  have key : ∀ {t : Char} {ts r' : Str} {m : Str}, (tagNoCaseL t ts : L true Str).run () w = some (r', m) → w = m ++ r' ∧ lower m = lower (t :: ts) := by
    intro t ts r' m h
    rw [run_tagi] at h
    cases hs : stripPrefixCI? (t :: ts) w with
    | none => rw [hs] at h; simp at h
    | some x =>
      obtain ⟨h1, _, h3⟩ := stripPrefixCI?_spec (m := x.1) (r := x.2) hs
      rw [hs] at h
      simp only [Option.map_some, Option.some.injEq, Prod.mk.injEq] at h
      rw [← h.1, ← h.2]; exact ⟨h1, h3⟩
  rw [bool_, run_post] at h
  cases h1 : (P.map (fun _ => true) (tagi! "true") <||> P.map (fun _ => true) (tagi! "t") <||>
        P.map (fun _ => false) (tagi! "false") <||> P.map (fun _ => false) (tagi! "f") : L true Bool).run () w with
  | none => rw [h1] at h; simp at h
  | some x =>
    obtain ⟨r1, b1⟩ := x
    rw [h1, Option.bind_some] at h
    have hr : r1 = r ∧ b1 = b := by
      cases h2 : (peek (eof <||> ms1.weak <||>
          (recognize (satisfy fun x => x == '(' || x == ')' || x == '.' || x == ':')).weak) : L false _).run () r1 with
      | none => rw [h2] at h; simp at h
      | some y =>
        rw [h2] at h
        simp only [Option.map_some, Option.some.injEq, Prod.mk.injEq] at h
        refine ⟨?_, h.2⟩
        rw [← h.1]
        have h3 := h2
        simp only [peek] at h3
        split at h3
        · simp only [Option.some.injEq] at h3; rw [← h3]
        · simp at h3
    obtain ⟨rfl, rfl⟩ := hr
    simp only [run_alt, run_map] at h1
    cases a1 : (tagi! "true" : L true Str).run () w with
    | some y =>
      rw [a1] at h1
      simp only [Option.map_some, Option.some_or, Option.some.injEq, Prod.mk.injEq] at h1
      obtain ⟨e1, e2⟩ := key a1
      refine ⟨y.2, by rw [← h1.1]; exact e1, ?_⟩
      rw [← h1.2, if_pos rfl, e2]; decide
    | none =>
    cases a2 : (tagi! "t" : L true Str).run () w with
    | some y =>
      rw [a1, a2] at h1
      simp only [Option.map_none, Option.none_or, Option.map_some, Option.some_or, Option.some.injEq, Prod.mk.injEq] at h1
      obtain ⟨e1, e2⟩ := key a2
      refine ⟨y.2, by rw [← h1.1]; exact e1, ?_⟩
      rw [← h1.2, if_pos rfl, e2]; decide
    | none =>
    cases a3 : (tagi! "false" : L true Str).run () w with
    | some y =>
      rw [a1, a2, a3] at h1
      simp only [Option.map_none, Option.none_or, Option.map_some, Option.some_or, Option.some.injEq, Prod.mk.injEq] at h1
      obtain ⟨e1, e2⟩ := key a3
      refine ⟨y.2, by rw [← h1.1]; exact e1, ?_⟩
      rw [← h1.2, if_neg (by decide), e2]; decide
    | none =>
    cases a4 : (tagi! "f" : L true Str).run () w with
    | some y =>
      rw [a1, a2, a3, a4] at h1
      simp only [Option.map_none, Option.none_or, Option.map_some, Option.some.injEq, Prod.mk.injEq] at h1
      obtain ⟨e1, e2⟩ := key a4
      refine ⟨y.2, by rw [← h1.1]; exact e1, ?_⟩
      rw [← h1.2, if_neg (by decide), e2]; decide
    | none => rw [a1, a2, a3, a4] at h1; simp at h1

theorem single_lower {w : Str} {x : Char} (h : lower w = [x]) : ∃ c, w = [c] ∧ lowerC c = x := by
  obtain ⟨c, t, rfl, hc, ht⟩ := lower_cons h
  cases t with
  | nil => exact ⟨c, rfl, hc⟩
  | cons => simp [lower] at ht

/-- A truth value that stands alone is read. -/
theorem run_bool {w rest : Str} {b : Bool} (h : if b then lower w ∈ trueWords else lower w ∈ falseWords)
    (hr : rest = [] ∨ ∃ c s, rest = c :: s ∧ (isSpace c = true ∨ c = '(' ∨ c = ')' ∨ c = '.' ∨ c = ':')) :
    bool_.run () (w ++ rest) = some (rest, b) := by
  have hpk : ∃ m, (peek (eof <||> ms1.weak <||>
          (recognize (satisfy fun x => x == '(' || x == ')' || x == '.' || x == ':')).weak) : L false _).run () rest = some (rest, m) := by
    rcases hr with rfl | ⟨c, s, rfl, hc⟩
    · exact ⟨_, rfl⟩
    · rcases hc with hc | rfl | rfl | rfl | rfl
      · rcases space_cases hc with rfl | rfl | rfl | rfl <;> exact ⟨_, rfl⟩
      all_goals exact ⟨_, rfl⟩
  obtain ⟨m, hpk⟩ := hpk
  have hlet : Stops isLetter rest := by
    rcases hr with rfl | ⟨c, s, rfl, hc⟩
    · exact Stops.nil _
    · apply Stops.cons
      rcases hc with hc | rfl | rfl | rfl | rfl
      · exact space_all (f := fun c => isLetter c = false) (by decide) hc
      all_goals decide
  have hno : ∀ {t : Char} {ts x : Str}, lower w = x → (∀ c ∈ t :: ts, isLetter (lowerC c) = true) → (lower (t :: ts)).isPrefixOf x = false →
      (tagNoCaseL t ts : L true Str).run () (w ++ rest) = none := by
    intro t ts x hx hl hp
    rw [run_tagi]
    cases hs : stripPrefixCI? (t :: ts) (w ++ rest) with
    | none => rfl
    | some y =>
      exfalso
      obtain ⟨w', e1, e2, e3⟩ := ci_word (m := y.1) (r := y.2) hl hlet hs
      have : (lower (t :: ts)).isPrefixOf x = true := by
        rw [List.isPrefixOf_iff_prefix, ← hx, e1, ← e3]
        exact ⟨lower w', by simp [lower]⟩
      rw [this] at hp; simp at hp
  rw [bool_, run_post]
  cases b with
  | true =>
    simp only [if_true, trueWords, List.mem_cons, List.not_mem_nil, or_false] at h
    rcases h with h | h
    · simp only [run_alt, run_map, tagi_read (t := 't') (ts := c!"rue") h, Option.map_some, Option.some_or, Option.bind_some, hpk]
    · simp only [run_alt, run_map, hno (t := 't') (ts := c!"rue") h (by decide) (by decide), tagi_read (t := 't') (ts := []) h,
        Option.map_none, Option.none_or, Option.map_some, Option.some_or, Option.bind_some, hpk]
  | false =>
    simp only [Bool.false_eq_true, if_false, falseWords, List.mem_cons, List.not_mem_nil, or_false] at h
    rcases h with h | h
    · simp only [run_alt, run_map, hno (t := 't') (ts := c!"rue") h (by decide) (by decide), hno (t := 't') (ts := []) h (by decide) (by decide),
        tagi_read (t := 'f') (ts := c!"alse") h, Option.map_none, Option.none_or, Option.map_some, Option.some_or, Option.bind_some, hpk]
    · simp only [run_alt, run_map, hno (t := 't') (ts := c!"rue") h (by decide) (by decide), hno (t := 't') (ts := []) h (by decide) (by decide),
        hno (t := 'f') (ts := c!"alse") h (by decide) (by decide),
        tagi_read (t := 'f') (ts := []) h, Option.map_none, Option.none_or, Option.map_some, Option.bind_some, hpk]

/-- one step of `string` -/
def stringStep : L true Str := token <||> tag! "." <||> tag! ":"

theorem stringStep_loop {d : Str} (h : DotTail d) : ∀ n, d.length ≤ n → (manyLoop (stringStep.run ()) n d).1 = [] := by
  induction h with
  | nil => intro n _; cases n <;> rfl
  | @dot w d hw _ _ hd ih =>
    intro n hn
    have h1 : stringStep.run () ('.' :: (w ++ d)) = some (w ++ d, c!".") := by
      rw [stringStep, run_alt, token_none (Stops.cons (by decide)), Option.none_or, run_alt, tag_same]; rfl
    have h2 : stringStep.run () (w ++ d) = some (d, w) := by
      have := hd.token after_nil
      rw [List.append_nil] at this
      rw [stringStep, run_alt, run_token hw.ne hw.token this hw.res]; rfl
    have hwl : 0 < w.length := List.length_pos_iff.2 hw.ne
    simp only [List.length_cons, List.length_append] at hn
    cases n with
    | zero => omega
    | succ n =>
      cases n with
      | zero => omega
      | succ n =>
        simp only [manyLoop, h1, h2]
        exact ih n (by omega)

/-- Words separated by dots are read whole as a text. -/
theorem run_string {w : Str} (h : FieldText w) : string.run () w = some ([], w) := by
  obtain ⟨v, d, rfl, h', hd⟩ := fieldText_parts h
  have hw := name_lead h'.name
  have h2 : stringStep.run () (v ++ d) = some (d, v) := by
    have := hd.token after_nil
    rw [List.append_nil] at this
    rw [stringStep, run_alt, run_token hw.ne hw.token this hw.res]; rfl
  have : (recognize (many1 stringStep) : L true Str).run () (v ++ d) = some ([], v ++ d) := by
    rw [recognize_some]
    refine ⟨?_, by simp⟩
    rw [run_many1, h2, Option.map_some, stringStep_loop hd _ (Nat.le_refl _)]
    exact ⟨_, rfl⟩
  rw [string, run_alt, doubleQuoted_none (lead_ne hw (by decide)), Option.none_or]
  exact this

/-- A word with a star. -/
theorem literal_star {w rest : Str} (h : WildWord w) (hr : Stops isExtraChar rest) :
    literal.run () (w ++ rest) = some (rest, .wildcard w) := by
  have hl := star_lead h
  obtain ⟨x, xs, ex, hx1⟩ := hl.head
  have hh := h.head x xs ex
  have hx0 := h.chars x (by rw [ex]; simp)
  have hn : ∀ {q : Char}, isNameChar q = false → q ≠ '*' → ∀ c t, w = c :: t → c ≠ q := by
    intro q hq hs c t e
    rw [ex] at e
    simp only [List.cons.injEq] at e
    rw [← e.1]
    rcases hx0 with h0 | h0 | h0
    · exact nameChar_ne h0 hq
    · rw [h0]; exact fun e => hs e.symm
    · exact absurd h0 hh.2
  have hx : ∀ c ∈ w, isExtraChar c = true := fun c hc => by simp [isExtraChar, hl.token c hc]
  have hnot : '@' ∉ w := fun hm => by
    rcases h.chars _ hm with h | h | h <;> revert h <;> decide
  have hdig : Stops isDig w := by rw [ex]; exact Stops.cons hh.1
  have q1 : ipv4Addr.run () w = none :=
    ipv4Addr_none (ds := []) (by simp) hdig fun c t e => by have := hn (q := '.') (by decide) (by decide) c t e; simpa using this
  have q2 : ipv6Addr.run () w = none :=
    ipv6Addr_none (ds := []) (by simp) hdig fun c t e => by have := hn (q := ':') (by decide) (by decide) c t e; simpa using this
  have q3 : relativeTime.run () w = none := by
    rw [relativeTime, run_alt, run_delim, tag_none (hn (by decide) (by decide)), Option.bind_none, Option.or_none]
    cases h' : relativeTimeFmt.run () w with
    | none => rfl
    | some x => exact absurd (at_needed h') hnot
  have q4 := int_none (hn (q := '+') (by decide) (by decide)) (hn (by decide) (by decide)) hdig
  have q5 : timeSpan.run () w = none := by rw [timeSpan, run_map, run_seq, q4]; rfl
  have q6 := doubleQuoted_none (hn (q := '"') (by decide) (by decide))
  have q7 : wildcard.run () w = some ([], w) := by
    have := run_tokenExtras (rest := []) hl.ne hx (Stops.nil _) hl.res
    rw [List.append_nil] at this
    rw [wildcard, run_verify, run_alt, q6, Option.none_or, this]
    simp [Option.filter, h.star]
  have hk : literalOf.run () w = some ([], .wildcard w) := by
    rw [literalOf]
    simp only [run_alt, run_map, allConsuming_none q1, allConsuming_none (ipv4Cidr_none q1), allConsuming_none q2,
      allConsuming_none q3, allConsuming_none q5, Option.map_none, Option.none_or]
    rw [allConsuming_some.2 ⟨q7, rfl⟩]; rfl
  rw [literal, reparse, run_filterMap, run_rawConstant hl.ne hx hr hl.res, Option.bind_some, hk]
  rfl

/-- A constant on the right of a comparison. -/
theorem literal_read {v : Constant} {t rest : Str} (h : LitText v t) (hr : Stops isExtraChar rest) :
    literal.run () (t ++ rest) = some (rest, v) := by
  have words : ∀ {w : Str} {b : Bool}, (if b then lower w ∈ trueWords else lower w ∈ falseWords) →
      literal.run () (w ++ rest) = some (rest, .bool b) := by
    intro w b hb
    have hname : IsName w := by
      have hm : lower w ∈ trueWords ++ falseWords := by
        cases b with
        | true => exact List.mem_append_left _ hb
        | false => exact List.mem_append_right _ hb
      have hl : ∀ c ∈ w, isLetter c = true := fun c hc => by
        have : ∀ x ∈ trueWords ++ falseWords, ∀ c ∈ x, isLetter c = true := by decide
        exact lowerC_letter (this _ hm _ (List.mem_map_of_mem hc))
      have ha : ∀ c, isLetter c = true → isAlnum c = true ∧ isDig c = false := fun c h => by
        simp only [isLetter, Bool.or_eq_true, Bool.and_eq_true, decide_eq_true_eq] at h
        constructor
        · unfold isAlnum
          rcases h with h | h <;> simp [h]
        · cases hd : isDig c with
          | false => rfl
          | true =>
            exfalso
            have := dig_all (f := fun c => isLetter c = false) (by decide) hd
            simp only [isLetter, Bool.or_eq_false_iff, Bool.and_eq_false_iff, decide_eq_false_iff_not] at this
            rcases h with h | h
            · rcases this.1 with h' | h'
              · exact h' h.1
              · exact h' h.2
            · rcases this.2 with h' | h'
              · exact h' h.1
              · exact h' h.2
      refine ⟨?_, fun c hc => ?_, fun c s e => (ha c (hl c (by rw [e]; simp))).2, ?_⟩
      · rintro rfl; revert hm; decide
      · simp [isNameChar, (ha c (hl c hc)).1]
      · have : ∀ x ∈ trueWords ++ falseWords, ¬ Reserved x := by decide
        have := this _ hm
        unfold Reserved at this ⊢
        rw [upper_lower] at this; exact this
    obtain ⟨x, xs, ex⟩ := List.exists_cons_of_ne_nil hname.ne
    have hchars : ∀ c ∈ w, isNameChar c = true ∨ c = '.' := fun c hc => .inl (hname.chars c hc)
    have hk := literalOf_word ex (hname.chars x (by rw [ex]; simp)) (hname.head x xs ex) hchars (isName_res hname)
    have hb' := run_bool (rest := []) hb (.inl rfl)
    rw [List.append_nil] at hb'
    rw [run_map, allConsuming_some.2 ⟨hb', rfl⟩] at hk
    rw [literal, reparse, run_filterMap, run_rawConstant hname.ne (fun c hc => extra_of_name (hchars c hc)) hr (isName_res hname),
      Option.bind_some, hk]
    rfl
  cases h with
  | int hn => exact literal_number _ hn hr
  | @str s h h4 =>
    have := C06_literal_partial h.body h.ne rest
    rw [if_neg h4, quotable_drop h] at this
    rw [← this]; simp
  | @wild s h h4 =>
    have := C06_literal_partial h.body h.ne rest
    rw [if_pos h4, quotable_drop h] at this
    rw [← this]; simp
  | star h => exact literal_star h hr
  | word h h1 h2 =>
    obtain ⟨x, xs, ex, hx1, hx2⟩ := fieldText_head h
    have hk := literalOf_word ex hx1 hx2 (fieldText_chars h) (fieldText_res h)
    have hb : (allConsuming bool_).run () t = none := by
      cases hb : (allConsuming bool_).run () t with
      | none => rfl
      | some y =>
        exfalso
        obtain ⟨r, b⟩ := y
        obtain ⟨hb1, rfl⟩ := allConsuming_some.1 hb
        obtain ⟨m, e, hm⟩ := bool_words hb1
        rw [List.append_nil] at e
        subst e
        cases b with
        | true => exact h1 hm
        | false => exact h2 hm
    rw [run_map, hb, Option.map_none, Option.none_or, run_map, allConsuming_some.2 ⟨run_string h, rfl⟩] at hk
    rw [literal, reparse, run_filterMap, run_rawConstant (by rw [ex]; simp) (fun c hc => extra_of_name (fieldText_chars h c hc)) hr (fieldText_res h),
      Option.bind_some, hk]
    rfl
  | yes h => exact words (b := true) h
  | no h => exact words (b := false) h
  | dotted h => exact literal_dotted h hr

/-- how a constant on the right of a comparison begins -/
theorem literal_head {v : Constant} {t : Str} (h : LitText v t) : (∃ w d, t = w ++ d ∧ LeadWord w ∧ DotTail d) ∨ ∃ s, t = '"' :: s := by
  cases h with
  | @int n => exact .inl ⟨showInt n, [], by simp, number_lead n, .nil⟩
  | str => exact .inr ⟨_, rfl⟩
  | wild => exact .inr ⟨_, rfl⟩
  | star h => exact .inl ⟨_, [], by simp, star_lead h, .nil⟩
  | word h =>
    obtain ⟨w, d, e, h', hd⟩ := fieldText_parts h
    exact .inl ⟨w, d, e, name_lead h'.name, hd⟩
  | yes h =>
    simp only [trueWords, List.mem_cons, List.not_mem_nil, or_false] at h
    rcases h with h | h
    · exact .inl ⟨t, [], by simp, keyword_lead h (by decide) (by decide), .nil⟩
    · exact .inl ⟨t, [], by simp, keyword_lead h (by decide) (by decide), .nil⟩
  | no h =>
    simp only [falseWords, List.mem_cons, List.not_mem_nil, or_false] at h
    rcases h with h | h
    · exact .inl ⟨t, [], by simp, keyword_lead h (by decide) (by decide), .nil⟩
    · exact .inl ⟨t, [], by simp, keyword_lead h (by decide) (by decide), .nil⟩
  | dotted h => exact .inl (dotted_lead h)

end Verif
