import Verif.Spec.Values
import Verif.Lemmas.Dotted
/-
Reading names, fields, numbers, quoted texts and lists of constants.
-/
namespace Verif
open P Lex Spl Spec Lemmas

def isLetter (c : Char) : Bool := ('a' ≤ c && c ≤ 'z') || ('A' ≤ c && c ≤ 'Z')

theorem lowerC_letter {c : Char} (h : isLetter (lowerC c) = true) : isLetter c = true := by
  unfold lowerC at h
  split at h
  · rename_i hc; simp [isLetter, hc]
  · exact h

theorem gap_space {g : Str} (h : Gap g) : ∀ c ∈ g, isSpace c = true := by
  intro c hc
  rcases h.blank c hc with rfl | rfl | rfl | rfl <;> rfl

theorem gap_head {g : Str} (h : Gap g) : ∃ c t, g = c :: t ∧ isSpace c = true := by
  obtain ⟨c, t, rfl⟩ := List.exists_cons_of_ne_nil h.ne
  exact ⟨c, t, rfl, gap_space h c (by simp)⟩

theorem space_ne {c x : Char} (h : isSpace c = true) (hx : isSpace x = false) : c ≠ x := by
  rintro rfl; rw [h] at hx; simp at hx

theorem space_cases {c : Char} (h : isSpace c = true) : c = ' ' ∨ c = '\t' ∨ c = '\r' ∨ c = '\n' := by
  simp only [isSpace, Bool.or_eq_true, beq_iff_eq] at h
  rcases h with ((h | h) | h) | h <;> simp [h]

theorem space_all {f : Char → Prop} (h : f ' ' ∧ f '\t' ∧ f '\r' ∧ f '\n') {c : Char} (hc : isSpace c = true) : f c := by
  rcases space_cases hc with rfl | rfl | rfl | rfl
  · exact h.1
  · exact h.2.1
  · exact h.2.2.1
  · exact h.2.2.2

/-- A keyword cannot reach past the end of a word. -/
theorem ci_word {t w rest m r : Str} (ht : ∀ c ∈ t, isLetter (lowerC c) = true) (hr : Stops isLetter rest)
    (h : stripPrefixCI? t (w ++ rest) = some (m, r)) : ∃ w', w = m ++ w' ∧ r = w' ++ rest ∧ lower m = lower t := by
  obtain ⟨h1, _, h3⟩ := stripPrefixCI?_spec h
  rcases List.append_eq_append_iff.1 h1 with ⟨a, ha, hb⟩ | ⟨a, ha, hb⟩
  · cases a with
    | nil => exact ⟨[], by simpa using ha.symm, by simpa using hb.symm, h3⟩
    | cons c a =>
      have := hr c (a ++ r) (by rw [hb]; rfl)
      have hm : lowerC c ∈ lower t := by
        rw [← h3, ha]; simp [lower]
      obtain ⟨x, hx, e⟩ := List.mem_map.1 hm
      have h5 := ht x hx
      rw [e] at h5
      rw [lowerC_letter h5] at this
      simp at this
  · exact ⟨a, ha, hb, h3⟩

theorem drop_gap {g s : Str} (hg : Gap g) (hs : Stops isSpace s) : (g ++ s).dropWhile isSpace = s := by
  rw [dropWhile_append_of_blank (gap_space hg)]
  cases s with
  | nil => rfl
  | cons c s => rw [List.dropWhile_cons_of_neg]; rw [hs c s rfl]; simp

theorem lower_cons {op : Str} {x : Char} {xs : Str} (h : lower op = x :: xs) : ∃ c t, op = c :: t ∧ lowerC c = x ∧ lower t = xs := by
  cases op with
  | nil => simp [lower] at h
  | cons c t =>
    simp only [lower, List.map_cons, List.cons.injEq] at h
    exact ⟨c, t, rfl, h.1, h.2⟩

theorem drop_gap_tail {g s : Str} (hg : ∀ c ∈ g, isSpace c = true) (hs : Stops isSpace s) : (g ++ s).dropWhile isSpace = s := by
  rw [dropWhile_append_of_blank hg]
  cases s with
  | nil => rfl
  | cons c s => rw [List.dropWhile_cons_of_neg]; rw [hs c s rfl]; simp

theorem tagi_read {R : Type} [Env R] {ρ : R} {t : Char} {ts op s : Str} (h : lower op = lower (t :: ts)) :
    (tagNoCaseL t ts : P R true true Str).run ρ (op ++ s) = some (s, op) := by
  rw [run_tagi]
  have : ∀ (w op : Str), lower op = lower w → stripPrefixCI? w (op ++ s) = some (op, s) := by
    intro w
    induction w with
    | nil => intro op h; cases op with | nil => rfl | cons _ _ => simp [lower] at h
    | cons x w ih =>
      intro op h
      obtain ⟨c, t, rfl, hc, ht⟩ := lower_cons h
      have := ih t ht
      simp [stripPrefixCI?, hc, this]
  rw [this _ _ h]; rfl

theorem drop_stops {s : Str} (h : Stops isSpace s) : s.dropWhile isSpace = s := by
  have := drop_gap_tail (g := []) (by simp) h; simpa using this

theorem stops_append {f : Char → Bool} {s u : Str} (h : Stops f s) (hne : s ≠ []) : Stops f (s ++ u) := by
  obtain ⟨c, t, rfl⟩ := List.exists_cons_of_ne_nil hne
  exact Stops.cons (h c t rfl)

theorem blanks_space {g : Str} (h : Blanks g) : ∀ c ∈ g, isSpace c = true := by
  rcases h with rfl | h
  · simp
  · exact gap_space h

theorem drop_blanks {g s : Str} (hg : Blanks g) (hs : Stops isSpace s) : (g ++ s).dropWhile isSpace = s :=
  drop_gap_tail (blanks_space hg) hs

theorem blanks_stops {f : Char → Bool} (hf : ∀ c, isSpace c = true → f c = false) {g u : Str} (hg : Blanks g) (hu : Stops f u) :
    Stops f (g ++ u) := by
  rcases hg with rfl | hg
  · exact hu
  · obtain ⟨c, t, rfl, hc⟩ := gap_head hg
    exact Stops.cons (hf c hc)

/-! ### Words -/

/-- a word made of token characters -/
structure LeadWord (w : Str) : Prop where
  ne : w ≠ []
  token : ∀ c ∈ w, isTokenChar c = true
  notReserved : ¬ Reserved w

theorem nameChar_token {c : Char} (h : isNameChar c = true) : isTokenChar c = true := by
  simp only [isNameChar, Bool.or_eq_true] at h
  rcases h with h | h <;> simp [isTokenChar, h]

theorem tokenChar_ne {c x : Char} (h : isTokenChar c = true) (hx : isTokenChar x = false) : c ≠ x := by
  rintro rfl; rw [h] at hx; simp at hx

theorem nameChar_ne {c x : Char} (h : isNameChar c = true) (hx : isNameChar x = false) : c ≠ x := by
  rintro rfl; rw [h] at hx; simp at hx

theorem tokenChar_space {c : Char} (h : isTokenChar c = true) : isSpace c = false := by
  cases hc : isSpace c with
  | false => rfl
  | true =>
    exfalso
    revert h
    exact space_all (f := fun c => isTokenChar c = true → False) (by decide) hc

theorem LeadWord.res {w : Str} (h : LeadWord w) : Lex.notReserved w = true := by
  simp only [Lex.notReserved, Bool.not_eq_true', List.contains_eq_mem, decide_eq_false_iff_not]
  exact h.notReserved

theorem LeadWord.head {w : Str} (h : LeadWord w) : ∃ c t, w = c :: t ∧ isTokenChar c = true := by
  obtain ⟨c, t, rfl⟩ := List.exists_cons_of_ne_nil h.ne
  exact ⟨c, t, rfl, h.token c (by simp)⟩

theorem name_lead {w : Str} (h : IsName w) : LeadWord w :=
  ⟨h.ne, fun c hc => nameChar_token (h.chars c hc), h.notReserved⟩

theorem isName_res {w : Str} (h : IsName w) : Lex.notReserved w = true := (name_lead h).res

theorem digits_token {n : Nat} : ∀ c ∈ showNat n, isTokenChar c = true := fun c hc =>
  dig_all (f := fun c => isTokenChar c = true) (by decide) (showNat_digits n c hc)

theorem number_lead (n : Int) : LeadWord (showInt n) := by
  have hr : ∀ {sgn neg m}, Sgn sgn neg → ¬ Reserved (sgn ++ showNat m) := by
    intro sgn neg m hs
    have := digits_notReserved hs (ds := showNat m) ⟨showNat_ne_nil m, showNat_digits m⟩ (u := [])
    rw [List.append_nil] at this
    simp only [Lex.notReserved, Bool.not_eq_true', List.contains_eq_mem, decide_eq_false_iff_not] at this
    exact this
  cases n with
  | ofNat m => exact ⟨showNat_ne_nil m, digits_token, hr .none⟩
  | negSucc m =>
    refine ⟨by simp [showInt], ?_, hr .minus⟩
    intro c hc
    simp only [showInt, List.mem_cons] at hc
    rcases hc with rfl | hc
    · decide
    · exact digits_token c hc

theorem span_lead {n : Nat} {m s u : Str} (hu : (s, u) ∈ unitSpellings) (hm : lower m = s) : LeadWord (showNat n ++ m) := by
  refine ⟨by simp [showNat_ne_nil n], ?_, ?_⟩
  · intro c hc
    rcases List.mem_append.1 hc with hc | hc
    · exact digits_token c hc
    · simp [isTokenChar, unit_alnum hu hm c hc]
  · have := digits_notReserved .none (ds := showNat n) ⟨showNat_ne_nil n, showNat_digits n⟩ (u := m)
    simp only [Lex.notReserved, Bool.not_eq_true', List.contains_eq_mem, decide_eq_false_iff_not] at this
    exact this

/-- a character of no reserved word -/
theorem reserved_chars {w : Str} {x : Char} (hx : x ∈ w) (hu : upperC x = x) (hn : ∀ r ∈ reservedWords, x ∉ r) : ¬ Reserved w := by
  intro h
  exact hn _ h (by rw [upper, ← hu]; exact List.mem_map_of_mem hx)

theorem star_lead {w : Str} (h : WildWord w) : LeadWord w := by
  refine ⟨fun e => by have := h.star; rw [e] at this; simp at this, ?_, reserved_chars h.star (by decide) (by decide)⟩
  intro c hc
  rcases h.chars c hc with h | rfl | rfl
  · exact nameChar_token h
  · decide
  · decide

theorem name_ne {w u : Str} (hw : ∀ c ∈ w, isNameChar c = true) (hne : w ≠ []) {q : Char} (hq : isNameChar q = false) :
    ∀ c t, w ++ u = c :: t → c ≠ q := by
  intro c t e
  obtain ⟨x, xs, rfl⟩ := List.exists_cons_of_ne_nil hne
  simp only [List.cons_append, List.cons.injEq] at e
  rintro rfl
  have := hw x (by simp)
  rw [e.1, hq] at this; simp at this

theorem lead_ne {w u : Str} (hw : LeadWord w) {q : Char} (hq : isTokenChar q = false) : ∀ c t, w ++ u = c :: t → c ≠ q := by
  intro c t e
  obtain ⟨x, xs, rfl, hx⟩ := hw.head
  simp only [List.cons_append, List.cons.injEq] at e
  rw [← e.1]; exact tokenChar_ne hx hq

theorem lead_stops {w u : Str} (hw : LeadWord w) : Stops isSpace (w ++ u) := by
  obtain ⟨x, xs, rfl, hx⟩ := hw.head
  exact Stops.cons (tokenChar_space hx)

/-! ### Fields -/

/-- what follows a word -/
structure After (u : Str) : Prop where
  letter : Stops isLetter u
  token : Stops tokenCont u
  dot : Stops (· == '.') u

/-- the parts of a field after the first -/
inductive DotTail : Str → Prop
  | nil : DotTail []
  | dot {w d : Str} : LeadWord w → w ≠ c!"t" → w ≠ c!"f" → DotTail d → DotTail ('.' :: (w ++ d))

theorem dot_token : tokenCont '.' = false := by decide

theorem DotTail.token {d u : Str} (h : DotTail d) (hu : After u) : Stops tokenCont (d ++ u) := by
  cases h with
  | nil => exact hu.token
  | dot => exact Stops.cons (by decide)

theorem DotTail.letter {d u : Str} (h : DotTail d) (hu : After u) : Stops isLetter (d ++ u) := by
  cases h with
  | nil => exact hu.letter
  | dot => exact Stops.cons (by decide)

theorem dots_loop {u : Str} (hu : After u) {d : Str} (h : DotTail d) : ∀ n, (d ++ u).length ≤ n →
    (sepLoop ((tag! "." : L true Str).run ()) ((tokenNotTF <||> doubleQuoted : L true Str).run ()) n (d ++ u)).1 = u := by
  induction h with
  | nil =>
    intro n _
    cases n with
    | zero => rfl
    | succ n =>
      have htag : (tag! "." : L true Str).run () u = none :=
        tag_none fun c s e => by have := hu.dot c s e; simpa using this
      rw [List.nil_append, sepLoop, htag]
  | @dot w d hw ht hf hd ih =>
    intro n hn
    cases n with
    | zero => simp at hn
    | succ n =>
      rw [List.cons_append, sepLoop, tag_same]
      have : (tokenNotTF <||> doubleQuoted : L true Str).run () (w ++ d ++ u) = some (d ++ u, w) := by
        rw [List.append_assoc, run_alt, run_tokenNotTF hw.ne hw.token (hd.token hu) hw.res ht hf]; rfl
      simp only [this]
      exact ih n (by simp at hn ⊢; omega)

/-- A field is read whole. -/
theorem run_field_dots {w d u : Str} (hw : LeadWord w) (ht : w ≠ c!"t") (hf : w ≠ c!"f") (hd : DotTail d) (hu : After u) :
    field.run () (w ++ (d ++ u)) = some (u, w ++ d) := by
  rw [field, run_alt]
  have : fieldFmt.run () (w ++ (d ++ u)) = some (u, w ++ d) := by
    rw [fieldFmt, recognize_some]
    refine ⟨?_, by simp⟩
    rw [run_sepList1, run_alt, run_tokenNotTF hw.ne hw.token (hd.token hu) hw.res ht hf]
    refine ⟨w :: (sepLoop ((tag! "." : L true Str).run ()) ((tokenNotTF <||> doubleQuoted : L true Str).run ()) (d ++ u).length (d ++ u)).2, ?_⟩
    have := dots_loop hu hd _ (Nat.le_refl _)
    simp only [Option.some_or, Option.map_some]
    rw [this]
  rw [this]; rfl

/-- the first name of a field and the others -/
theorem fieldText_parts {p : Str} (h : FieldText p) : ∃ w d, p = w ++ d ∧ IsField w ∧ DotTail d := by
  induction h with
  | @one w h => exact ⟨w, [], by simp, h, .nil⟩
  | @dot w p h _ ih =>
    obtain ⟨w', d, rfl, h', hd⟩ := ih
    exact ⟨w, '.' :: (w' ++ d), rfl, h, .dot (name_lead h'.name) h'.notT h'.notF hd⟩

theorem run_fieldText {p u : Str} (h : FieldText p) (hu : After u) : field.run () (p ++ u) = some (u, p) := by
  obtain ⟨w, d, rfl, h', hd⟩ := fieldText_parts h
  rw [List.append_assoc]
  exact run_field_dots (name_lead h'.name) h'.notT h'.notF hd hu

theorem after_nil : After [] := ⟨Stops.nil _, Stops.nil _, Stops.nil _⟩

theorem fieldText_chars {p : Str} (h : FieldText p) : ∀ c ∈ p, isNameChar c = true ∨ c = '.' := by
  induction h with
  | one h => exact fun c hc => .inl (h.name.chars c hc)
  | dot h _ ih =>
    intro c hc
    rcases List.mem_append.1 hc with hc | hc
    · exact .inl (h.name.chars c hc)
    · rcases List.mem_cons.1 hc with rfl | hc
      · exact .inr rfl
      · exact ih c hc

theorem fieldText_head {p : Str} (h : FieldText p) : ∃ c t, p = c :: t ∧ isNameChar c = true ∧ isDig c = false := by
  obtain ⟨w, d, rfl, h', hd⟩ := fieldText_parts h
  obtain ⟨c, t, rfl⟩ := List.exists_cons_of_ne_nil h'.name.ne
  exact ⟨c, t ++ d, rfl, h'.name.chars c (by simp), h'.name.head c t rfl⟩

theorem fieldText_stops {p u : Str} (h : FieldText p) : Stops isSpace (p ++ u) := by
  obtain ⟨c, t, rfl, hc, _⟩ := fieldText_head h
  exact Stops.cons (tokenChar_space (nameChar_token hc))

theorem fieldText_res {p : Str} (h : FieldText p) : Lex.notReserved p = true := by
  simp only [Lex.notReserved, Bool.not_eq_true', List.contains_eq_mem, decide_eq_false_iff_not]
  cases h with
  | one h => exact h.name.notReserved
  | dot h _ => exact reserved_chars (x := '.') (by simp) (by decide) (by decide)

theorem int_none {s : Str} (h1 : ∀ c t, s = c :: t → c ≠ '+') (h2 : ∀ c t, s = c :: t → c ≠ '-') (h3 : Stops isDig s) :
    int.run () s = none := by
  rw [int, run_map, run_seq, sign, run_opt, run_alt, tag_none h1, tag_none h2, Option.or_none,
    Option.elim_none, Option.bind_some, run_filterMap, digit1, takeWhile1_none h3]
  rfl

theorem double_none {s : Str} (h1 : ∀ c t, s = c :: t → c ≠ '+') (h2 : ∀ c t, s = c :: t → c ≠ '-') (h3 : Stops isDig s) :
    double.run () s = none := by
  rw [double, run_map, run_seq, sign, run_opt, run_alt, tag_none h1, tag_none h2, Option.or_none,
    Option.elim_none, Option.bind_some, run_sepPair, digit1, takeWhile1_none h3]
  rfl

theorem extra_of_name {c : Char} (h : isNameChar c = true ∨ c = '.') : isExtraChar c = true := by
  rcases h with h | rfl
  · simp [isExtraChar, nameChar_token h]
  · decide

/-- A field as an operand. -/
theorem constant_field {w rest : Str} (h : FieldText w) (hr : Stops isExtraChar rest) :
    constant.run () (w ++ rest) = some (rest, .field w) := by
  obtain ⟨x, xs, ex, hx1, hx2⟩ := fieldText_head h
  have hne : w ≠ [] := by rw [ex]; simp
  have hn : ∀ {q : Char}, isNameChar q = false → ∀ c t, w = c :: t → c ≠ q := by
    intro q hq c t e
    rw [ex] at e
    simp only [List.cons.injEq] at e
    rw [← e.1]; exact nameChar_ne hx1 hq
  have hx : ∀ c ∈ w, isExtraChar c = true := fun c hc => extra_of_name (fieldText_chars h c hc)
  have hnot : ∀ {q : Char}, isNameChar q = false → q ≠ '.' → q ∉ w := fun hq hd hm => by
    rcases fieldText_chars h _ hm with h | h
    · rw [hq] at h; simp at h
    · exact hd h
  have hdig : Stops isDig w := by rw [ex]; exact Stops.cons hx2
  have q1 : ipv4Addr.run () w = none :=
    ipv4Addr_none (ds := []) (by simp) hdig fun c t e => by have := hn (q := '.') (by decide) c t e; simpa using this
  have q2 : ipv6Addr.run () w = none :=
    ipv6Addr_none (ds := []) (by simp) hdig fun c t e => by have := hn (q := ':') (by decide) c t e; simpa using this
  have q3 : relativeTime.run () w = none := by
    rw [relativeTime, run_alt, run_delim, tag_none (hn (by decide)), Option.bind_none, Option.or_none]
    cases h' : relativeTimeFmt.run () w with
    | none => rfl
    | some x => exact absurd (at_needed h') (hnot (by decide) (by decide))
  have q4 := int_none (hn (q := '+') (by decide)) (hn (by decide)) hdig
  have q5 : timeSpan.run () w = none := by rw [timeSpan, run_map, run_seq, q4]; rfl
  have q6 := doubleQuoted_none (hn (q := '"') (by decide))
  have q7 : wildcard.run () w = none := by
    have := run_tokenExtras (rest := []) hne hx (Stops.nil _) (fieldText_res h)
    rw [List.append_nil] at this
    rw [wildcard, run_verify, run_alt, q6, Option.none_or, this]
    have := hnot (q := '*') (by decide) (by decide)
    simp [Option.filter, this]
  have q8 := variable_none (hn (q := '$') (by decide))
  have q9 := double_none (hn (q := '+') (by decide)) (hn (by decide)) hdig
  have q10 := run_fieldText h after_nil
  rw [List.append_nil] at q10
  have hk : constantOf.run () w = some ([], .field w) := by
    rw [constantOf]
    simp only [run_alt, run_map, allConsuming_none q1, allConsuming_none (ipv4Cidr_none q1), allConsuming_none q2,
      allConsuming_none q3, allConsuming_none q4, allConsuming_none q5, allConsuming_none q6, allConsuming_none q7,
      allConsuming_none q8, allConsuming_none q9, Option.map_none, Option.none_or]
    rw [allConsuming_some.2 ⟨q10, rfl⟩]; rfl
  rw [constant, reparse, run_filterMap, run_rawConstant hne hx hr (fieldText_res h), Option.bind_some, hk]
  rfl

/-- A name is read as a field. -/
theorem constant_name {w rest : Str} (h : IsName w) (ht : w ≠ c!"t") (hf : w ≠ c!"f") (hr : Stops isExtraChar rest) :
    constant.run () (w ++ rest) = some (rest, .field w) := constant_field (.one ⟨h, ht, hf⟩) hr

/-- A word with a star. -/
theorem constant_star {w rest : Str} (h : WildWord w) (hr : Stops isExtraChar rest) :
    constant.run () (w ++ rest) = some (rest, .wildcard w) := by
  have hl := star_lead h
  obtain ⟨x, xs, ex, hx1⟩ := hl.head
  have hh := h.head x xs ex
  have hx0 := h.chars x (by rw [ex]; simp)
  have hn : ∀ {q : Char}, isNameChar q = false → q ≠ '*' → ∀ c t, w = c :: t → c ≠ q := by
    intro q hq hs c t e
    rw [ex] at e
    simp only [List.cons.injEq] at e
    rw [← e.1]
    rcases hx0 with h0 | h0 | h0
    · exact nameChar_ne h0 hq
    · rw [h0]; exact fun e => hs e.symm
    · exact absurd h0 hh.2
  have hx : ∀ c ∈ w, isExtraChar c = true := fun c hc => by simp [isExtraChar, hl.token c hc]
  have hnot : '@' ∉ w := fun hm => by
    rcases h.chars _ hm with h | h | h <;> revert h <;> decide
  have hdig : Stops isDig w := by rw [ex]; exact Stops.cons hh.1
  have q1 : ipv4Addr.run () w = none :=
    ipv4Addr_none (ds := []) (by simp) hdig fun c t e => by have := hn (q := '.') (by decide) (by decide) c t e; simpa using this
  have q2 : ipv6Addr.run () w = none :=
    ipv6Addr_none (ds := []) (by simp) hdig fun c t e => by have := hn (q := ':') (by decide) (by decide) c t e; simpa using this
  have q3 : relativeTime.run () w = none := by
    rw [relativeTime, run_alt, run_delim, tag_none (hn (by decide) (by decide)), Option.bind_none, Option.or_none]
    cases h' : relativeTimeFmt.run () w with
    | none => rfl
    | some x => exact absurd (at_needed h') hnot
  have q4 := int_none (hn (q := '+') (by decide) (by decide)) (hn (by decide) (by decide)) hdig
  have q5 : timeSpan.run () w = none := by rw [timeSpan, run_map, run_seq, q4]; rfl
  have q6 := doubleQuoted_none (hn (q := '"') (by decide) (by decide))
  have q7 : wildcard.run () w = some ([], w) := by
    have := run_tokenExtras (rest := []) hl.ne hx (Stops.nil _) hl.res
    rw [List.append_nil] at this
    rw [wildcard, run_verify, run_alt, q6, Option.none_or, this]
    simp [Option.filter, h.star]
  have hk : constantOf.run () w = some ([], .wildcard w) := by
    rw [constantOf]
    simp only [run_alt, run_map, allConsuming_none q1, allConsuming_none (ipv4Cidr_none q1), allConsuming_none q2,
      allConsuming_none q3, allConsuming_none q5, Option.map_none, Option.none_or]
    rw [allConsuming_some.2 ⟨q7, rfl⟩]; rfl
  rw [constant, reparse, run_filterMap, run_rawConstant hl.ne hx hr hl.res, Option.bind_some, hk]
  rfl

theorem quotable_drop {s : Str} (h : Quotable s) : s.dropWhile isSpace = s := drop_stops fun c u e => by
  cases hs : isSpace c with
  | false => rfl
  | true => exact absurd ((isSpace_iff c).1 hs) (h.head c u e)

/-- A constant is read whole. -/
theorem value_read {v : Constant} {t rest : Str} (h : OptValue v t) (hr : Stops isExtraChar rest) :
    constant.run () (t ++ rest) = some (rest, v) := by
  cases h with
  | field h => exact constant_field h hr
  | yes =>
    have h1 := run_rawConstant (w := c!"t") (by decide) (by decide) hr (by decide)
    rw [constant, reparse, run_filterMap, h1]; rfl
  | no =>
    have h1 := run_rawConstant (w := c!"f") (by decide) (by decide) hr (by decide)
    rw [constant, reparse, run_filterMap, h1]; rfl
  | int hn => exact C05_decimal _ hn.1 hn.2 hr
  | @str s h h3 h4 =>
    have := C06_constant_partial h.body h.ne h3 rest
    rw [if_neg h4, quotable_drop h] at this
    rw [← this]; simp
  | @wild s h h3 h4 =>
    have := C06_constant_partial h.body h.ne h3 rest
    rw [if_pos h4, quotable_drop h] at this
    rw [← this]; simp
  | star h => exact constant_star h hr
  | @span n m s u h1 h2 h3 =>
    have := C47_constant .none (by decide) (ds := showNat n) (showNat_ne_nil n)
      (fun c hc => by have := showNat_digits n c hc; simpa [isDig] using this)
      (by rw [digitsVal_showNat]; exact h1) h2 h3 hr
    rw [digitsVal_showNat] at this
    exact this
  | dotted h => exact constant_dotted h hr
  | snap h =>
    have := C06_time h rest
    rw [← this]; simp

theorem digits_lead {sgn : Str} {neg : Bool} (hs : Sgn sgn neg) (hp : sgn ≠ c!"+") {ds u : Str} (hd : IsDigits ds) (hu : ∀ c ∈ u, isTokenChar c = true) :
    LeadWord (sgn ++ (ds ++ u)) := by
  have h := digits_notReserved hs ⟨hd.ne, hd.digits⟩ (u := u)
  simp only [Lex.notReserved, Bool.not_eq_true', List.contains_eq_mem, decide_eq_false_iff_not] at h
  refine ⟨by simp [hd.ne], fun c hc => ?_, h⟩
  rcases List.mem_append.1 hc with hc | hc
  · cases hs with
    | none => simp at hc
    | plus => exact absurd rfl hp
    | minus => simp at hc; subst hc; decide
  · rcases List.mem_append.1 hc with hc | hc
    · exact dig_token (hd.digits c hc)
    · exact hu c hc

theorem digits_dot {ds u d : Str} (hd : IsDigits ds) (hu : ∀ c ∈ u, isTokenChar c = true) (h : DotTail d) : DotTail ('.' :: (ds ++ u ++ d)) := by
  have hl : LeadWord (ds ++ u) := digits_lead .none (by decide) hd hu
  obtain ⟨x, xs, rfl⟩ := List.exists_cons_of_ne_nil hd.ne
  have hx := hd.digits x (by simp)
  refine .dot hl ?_ ?_ h
  · intro e; simp only [List.cons_append, List.cons.injEq] at e; rw [e.1] at hx; simp [isDig] at hx
  · intro e; simp only [List.cons_append, List.cons.injEq] at e; rw [e.1] at hx; simp [isDig] at hx

theorem dotted_lead {v : Constant} {t : Str} (h : DottedText v t) : ∃ w d, t = w ++ d ∧ LeadWord w ∧ DotTail d := by
  have nil : ∀ c ∈ ([] : Str), isTokenChar c = true := by simp
  have key : ∀ {a b c d u : Str}, IsByte a → IsByte b → IsByte c → IsByte d → (∀ c ∈ u, isTokenChar c = true) →
      ∃ w e, a ++ '.' :: (b ++ '.' :: (c ++ '.' :: (d ++ u))) = w ++ e ∧ LeadWord w ∧ DotTail e := by
    intro a b c d u ha hb hc hd hu
    refine ⟨a, _, rfl, ?_, ?_⟩
    · simpa using digits_lead .none (by decide) ha.toIsDigits nil
    · have h1 := digits_dot hd.toIsDigits hu .nil
      have h2 := digits_dot hc.toIsDigits nil h1
      have h3 := digits_dot hb.toIsDigits nil h2
      simpa using h3
  cases h with
  | decimal neg hw hf =>
    refine ⟨_, _, (List.append_assoc _ _ _).symm, ?_, ?_⟩
    · cases neg with
      | true => simpa using digits_lead .minus (by decide) hw nil
      | false => simpa using digits_lead .none (by decide) hw nil
    · simpa using digits_dot hf nil .nil
  | address h =>
    obtain ⟨ha, hb, hc, hd⟩ := h
    simpa using key ha hb hc hd nil
  | network h hn =>
    obtain ⟨ha, hb, hc, hd⟩ := h
    have := key ha hb hc hd (u := '/' :: _) (fun c h => by
      rcases List.mem_cons.1 h with rfl | h
      · decide
      · exact dig_token (hn.digits c h))
    simpa using this

/-- how a constant begins: a word with dots, or a quoted text -/
theorem value_lead {v : Constant} {t : Str} (h : OptValue v t) :
    (∃ w d, t = w ++ d ∧ LeadWord w ∧ DotTail d) ∨ ∃ s, t = '"' :: (s ++ c!"\"") ∧ QuotedBody s ∧ s ≠ [] := by
  cases h with
  | field h =>
    obtain ⟨w, d, rfl, h', hd⟩ := fieldText_parts h
    exact .inl ⟨w, d, rfl, name_lead h'.name, hd⟩
  | yes => exact .inl ⟨c!"t", [], rfl, ⟨by decide, by decide, by decide⟩, .nil⟩
  | no => exact .inl ⟨c!"f", [], rfl, ⟨by decide, by decide, by decide⟩, .nil⟩
  | @int n hn => exact .inl ⟨showInt n, [], by simp, number_lead n, .nil⟩
  | @str s h _ _ => exact .inr ⟨s, rfl, h.body, h.ne⟩
  | @wild s h _ _ => exact .inr ⟨s, rfl, h.body, h.ne⟩
  | star h => exact .inl ⟨_, [], by simp, star_lead h, .nil⟩
  | @span n m s u _ hu hm => exact .inl ⟨showNat n ++ m, [], by simp, span_lead hu hm, .nil⟩
  | dotted h => exact .inl (dotted_lead h)
  | snap h => exact .inr ⟨_, rfl, (snap_quotable h).1, (snap_quotable h).2⟩

theorem value_stops {v : Constant} {t u : Str} (h : OptValue v t) : t ≠ [] ∧ Stops isSpace (t ++ u) := by
  rcases value_lead h with ⟨w, d, rfl, hw, _⟩ | ⟨s, rfl, _, _⟩
  · refine ⟨by simp [hw.ne], ?_⟩
    rw [List.append_assoc]; exact lead_stops hw
  · exact ⟨by simp, Stops.cons (by decide)⟩

/-! ### Lists of constants -/

theorem run_commaOrSpaceList0 {R : Type} [Env R] {ρ : R} {g c : Bool} {α : Type} (p : P R g c α) (i : Str) :
    (commaOrSpaceList0 p).run ρ i = some (match p.run ρ i with
      | none => (i, [])
      | some (r, a) => ((sepLoop ((commaOrSpaceSep : P R true true Str).run ρ) (p.run ρ) r.length r).1,
          a :: (sepLoop ((commaOrSpaceSep : P R true true Str).run ρ) (p.run ρ) r.length r).2)) := by
  rw [commaOrSpaceList0, run_recast, run_sepList0]
  cases p.run ρ i <;> rfl

theorem listSep_read {R : Type} [Env R] {ρ : R} {g s : Str} (h : ListSep g) (hs : Stops isSpace s) (hc : ∀ c t, s = c :: t → c ≠ ',') :
    ∃ m, (commaOrSpaceSep : P R true true Str).run ρ (g ++ s) = some (s, m) := by
  cases h with
  | @comma g₁ g₂ h1 h2 =>
    refine ⟨c!",", ?_⟩
    rw [commaOrSpaceSep, run_alt, commaSep, run_ws, List.append_assoc, List.cons_append, drop_blanks h1 (Stops.cons (by decide)), tag_same,
      Option.map_some, drop_blanks h2 hs]
    rfl
  | gap h =>
    obtain ⟨c, t, rfl, hb⟩ := gap_head h
    refine ⟨c :: (t ++ s).takeWhile isSpace, ?_⟩
    rw [commaOrSpaceSep, run_alt, commaSep, run_ws, drop_gap h hs, tag_none hc, Option.map_none, Option.none_or, List.cons_append,
      run_ms1]
    show (if _ then _ else _) = _
    rw [if_pos hb, drop_gap_tail (fun x hx => gap_space h x (by simp [hx])) hs]

theorem listSep_stops {f : Char → Bool} {g u : Str} (h : ListSep g) (hf : f ',' = false ∧ f ' ' = false ∧ f '\t' = false ∧ f '\r' = false ∧ f '\n' = false) :
    Stops f (g ++ u) := by
  cases h with
  | comma h1 h2 =>
    rw [List.append_assoc]
    exact blanks_stops (fun c hc => space_all (f := fun c => f c = false) hf.2 hc) h1 (Stops.cons hf.1)
  | gap h =>
    obtain ⟨c, t, rfl, hb⟩ := gap_head h
    exact Stops.cons (space_all (f := fun c => f c = false) hf.2 hb)

theorem listSep_ne {g : Str} (h : ListSep g) : g ≠ [] := by
  cases h with
  | comma => simp
  | gap h => exact h.ne

theorem value_comma {v : Constant} {t u : Str} (h : OptValue v t) : ∀ x y, t ++ u = x :: y → x ≠ ',' := by
  rcases value_lead h with ⟨w, d, rfl, hw, _⟩ | ⟨s, rfl, _, _⟩
  · rw [List.append_assoc]; exact lead_ne hw (by decide)
  · intro x y e
    simp only [List.cons_append, List.cons.injEq] at e
    rw [← e.1]; decide

theorem valueList_head {v : Constant} {vs : List Constant} {s u : Str} (h : ValueList (v :: vs) s) :
    s ≠ [] ∧ Stops isSpace (s ++ u) ∧ ∀ x y, s ++ u = x :: y → x ≠ ',' := by
  cases h with
  | one h => exact ⟨(value_stops h (u := u)).1, (value_stops h).2, value_comma h⟩
  | cons h _ _ =>
    refine ⟨by simp [(value_stops h (u := u)).1], ?_, ?_⟩
    · rw [List.append_assoc]; exact (value_stops h).2
    · rw [List.append_assoc]; exact value_comma h

theorem constant_close {s : Str} : constant.run () (')' :: s) = none := by
  rw [constant, reparse, run_filterMap, rawConstant, run_recognize, run_alt, run_alt, doubleQuoted_none (by simp), singleQuoted_none (by simp),
    tokenExtras, run_verify, run_recognize, run_many1]
  rfl

/-- no constant after the last one -/
theorem values_end {g rest : Str} (hg : Blanks g) : ∀ n, sepLoop ((commaOrSpaceSep : L true Str).run ()) (constant.run ()) n (g ++ ')' :: rest) =
    (g ++ ')' :: rest, []) := by
  intro n
  cases n with
  | zero => rfl
  | succ n =>
    rw [sepLoop]
    have h1 : (commaSep : L true Str).run () (g ++ ')' :: rest) = none := by
      rw [commaSep, run_ws, drop_blanks hg (Stops.cons (by decide)), tag_ne (by decide)]; rfl
    cases g with
    | nil =>
      have : (commaOrSpaceSep : L true Str).run () (')' :: rest) = none := by
        rw [commaOrSpaceSep, run_alt]
        simp only [List.nil_append] at h1
        rw [h1, run_ms1]; simp [isSpace]
      simp only [List.nil_append, this]
    | cons c g =>
      have hb := blanks_space hg
      have : (commaOrSpaceSep : L true Str).run () (c :: g ++ ')' :: rest) = some (')' :: rest, c :: (g ++ ')' :: rest).takeWhile isSpace) := by
        rw [commaOrSpaceSep, run_alt, h1, Option.none_or, List.cons_append, run_ms1]
        show (if _ then _ else _) = _
        rw [if_pos (hb c (by simp)), drop_gap_tail (fun x hx => hb x (by simp [hx])) (Stops.cons (by decide))]
      simp only [this, constant_close]

theorem values_loop {vs : List Constant} {s : Str} (h : ValueList vs s) {g rest : Str} (hg : Blanks g) :
    ∀ v vs', vs = v :: vs' → ∃ u, constant.run () (s ++ (g ++ ')' :: rest)) = some (u, v) ∧
      ∀ n, u.length ≤ n → sepLoop ((commaOrSpaceSep : L true Str).run ()) (constant.run ()) n u = (g ++ ')' :: rest, vs') := by
  have hst : Stops isExtraChar (g ++ ')' :: rest) :=
    blanks_stops (fun c hc => space_all (f := fun c => isExtraChar c = false) (by decide) hc) hg (Stops.cons (by decide))
  induction h with
  | nil => intro v vs' e; simp at e
  | @one v t h =>
    intro v' vs' e
    simp only [List.cons.injEq] at e
    obtain ⟨rfl, rfl⟩ := e
    exact ⟨_, value_read h hst, fun n _ => values_end hg n⟩
  | @cons v v' vs t g' s h hg' hl ih =>
    intro w ws' e
    simp only [List.cons.injEq] at e
    obtain ⟨rfl, rfl⟩ := e
    obtain ⟨u, h1, h2⟩ := ih v' vs rfl
    have hd := valueList_head (u := g ++ ')' :: rest) hl
    obtain ⟨m, hm⟩ := listSep_read (ρ := ()) hg' hd.2.1 hd.2.2
    refine ⟨g' ++ (s ++ (g ++ ')' :: rest)), ?_, ?_⟩
    · rw [List.append_assoc, List.append_assoc]
      exact value_read h (listSep_stops hg' (by decide))
    · intro n hn
      cases n with
      | zero =>
        have := listSep_ne hg'
        simp at hn
      | succ n =>
        rw [sepLoop, hm]
        have hu := (constant.suf _ _ _ _ h1).length_le
        have hgl : 0 < g'.length := List.length_pos_iff.2 (listSep_ne hg')
        have hlen : u.length ≤ n := by simp at hn hu; omega
        simp only [h1, h2 n hlen]

/-- A list of constants is read whole. -/
theorem values_read {vs : List Constant} {s g rest : Str} (h : ValueList vs s) (hg : Blanks g) :
    (commaOrSpaceList0 constant : L false (List Constant)).run () (s ++ (g ++ ')' :: rest)) = some (g ++ ')' :: rest, vs) ∨
      (s = [] ∧ vs = []) := by
  cases hv : vs with
  | nil =>
    right
    rw [hv] at h
    cases h
    exact ⟨rfl, rfl⟩
  | cons v vs' =>
    left
    obtain ⟨u, h1, h2⟩ := values_loop h hg (rest := rest) v vs' hv
    rw [run_commaOrSpaceList0, h1]
    simp only [h2 _ (Nat.le_refl _)]

end Verif
