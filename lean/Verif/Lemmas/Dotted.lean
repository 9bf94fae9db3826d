import Verif.Spec.Values
import Verif.Props.Quotes
/-
Reading numbers with a decimal point and network addresses.
-/
namespace Verif
open P Lex Spl Spec Lemmas

theorem run_byte {b rest : Str} (h : IsByte b) (hr : Stops isDig rest) : byte.run () (b ++ rest) = some (rest, b) := by
  rw [byte, run_recognize, run_verify, run_digit1 ⟨h.ne, h.digits⟩ hr]
  simp [Option.filter, h.short]

theorem stay {s : Str} (h : Stops isSpace s) : s.dropWhile isSpace = s := dropWhile_run (ds := []) (by simp) h

theorem dot_stop {u : Str} : Stops isDig ('.' :: u) := Stops.cons (by decide)

/-- An address is read whole. -/
theorem run_address {a rest : Str} (h : Address a) (hr : Stops isDig rest) : ipv4Addr.run () (a ++ rest) = some (rest, a) := by
  obtain ⟨ha, hb, hc, hd⟩ := h
  rw [ipv4Addr, recognize_some]
  refine ⟨?_, rfl⟩
  simp only [List.append_assoc, List.cons_append]
  simp only [run_seq, run_byte ha dot_stop, Option.bind_some, tag_same, run_byte hb dot_stop, run_byte hc dot_stop, run_byte hd hr, Option.map_some]
  exact ⟨_, rfl⟩

theorem address_dot {a : Str} (h : Address a) : ∃ w u, a = w ++ '.' :: u ∧ IsDigits w := by
  obtain ⟨ha, _, _, _⟩ := h
  exact ⟨_, _, rfl, ha.toIsDigits⟩

theorem address_chars {a : Str} (h : Address a) : ∀ c ∈ a, isDig c = true ∨ c = '.' := by
  obtain ⟨ha, hb, hc, hd⟩ := h
  intro x hx
  simp only [List.mem_append, List.mem_cons] at hx
  rcases hx with h | h | h | h | h | h | h
  · exact .inl (ha.digits x h)
  · exact .inr h
  · exact .inl (hb.digits x h)
  · exact .inr h
  · exact .inl (hc.digits x h)
  · exact .inr h
  · exact .inl (hd.digits x h)

/-- a number with a decimal point is not an address -/
theorem decimal_ipv4 {sgn w f : Str} {neg : Bool} (hs : Sgn sgn neg) (hp : sgn ≠ c!"+") (hw : IsDigits w) (hf : IsDigits f) :
    ipv4Addr.run () (sgn ++ (w ++ '.' :: f)) = none := by
  cases hs with
  | plus => exact absurd rfl hp
  | minus => exact ipv4Addr_none (ds := []) (by simp) (Stops.cons (by decide)) (Stops.cons (by decide))
  | none =>
    have hb : ∀ {d u : Str}, IsDigits d → Stops isDig u → byte.run () (d ++ u) = none ∨ byte.run () (d ++ u) = some (u, d) := by
      intro d u hd hu
      rw [byte, run_recognize, run_verify, run_digit1 ⟨hd.ne, hd.digits⟩ hu]
      by_cases hl : d.length ≤ 3
      · right; simp [Option.filter, hl]
      · left; simp [Option.filter, hl]
    rw [List.nil_append, ipv4Addr, run_recognize, run_seq]
    rcases hb hw (u := '.' :: f) dot_stop with h | h
    · rw [h]; rfl
    · rw [h, Option.bind_some, run_seq, tag_same, Option.bind_some, run_seq]
      have := hb hf (Stops.nil isDig)
      rw [List.append_nil] at this
      rcases this with h' | h'
      · rw [h']; rfl
      · rw [h', Option.bind_some, run_seq]; rfl

/-- what the lexers tried before numbers need -/
structure NoOther (t : Str) : Prop where
  v6 : ipv6Addr.run () t = none
  rel : relativeTime.run () t = none
  span : (allConsuming timeSpan).run () t = none
  quote : doubleQuoted.run () t = none
  wild : wildcard.run () t = none
  var : variable_.run () t = none

theorem noOther {sgn w u : Str} {neg : Bool} (hs : Sgn sgn neg) (hp : sgn ≠ c!"+") (hw : IsDigits w)
    (hu : ∀ c ∈ u, isDig c = true ∨ c = '.' ∨ c = '/') : NoOther (sgn ++ (w ++ '.' :: u)) ∧
      (∀ c ∈ sgn ++ (w ++ '.' :: u), isExtraChar c = true) ∧ notReserved (sgn ++ (w ++ '.' :: u)) = true ∧ sgn ++ (w ++ '.' :: u) ≠ [] := by
  have hd : Digits w := ⟨hw.ne, hw.digits⟩
  have hne : sgn ++ (w ++ '.' :: u) ≠ [] := by simp
  have hc : ∀ c ∈ sgn ++ (w ++ '.' :: u), isDig c = true ∨ c = '.' ∨ c = '/' ∨ c = '-' := by
    intro c h
    simp only [List.mem_append, List.mem_cons] at h
    rcases h with h | h | h | h
    · cases hs with
      | none => simp at h
      | plus => exact absurd rfl hp
      | minus => simp at h; exact .inr (.inr (.inr h))
    · exact .inl (hw.digits c h)
    · exact .inr (.inl h)
    · rcases hu c h with h | h | h
      · exact .inl h
      · exact .inr (.inl h)
      · exact .inr (.inr (.inl h))
  have hx : ∀ c ∈ sgn ++ (w ++ '.' :: u), isExtraChar c = true := by
    intro c h
    rcases hc c h with h | rfl | rfl | rfl
    · exact dig_extra h
    · decide
    · decide
    · decide
  have hnot : ∀ {q : Char}, isDig q = false → q ≠ '.' → q ≠ '/' → q ≠ '-' → q ∉ sgn ++ (w ++ '.' :: u) := by
    intro q h1 h2 h3 h4 hm
    rcases hc q hm with h | h | h | h
    · rw [h] at h1; cases h1
    · exact h2 h
    · exact h3 h
    · exact h4 h
  have hres := digits_notReserved hs hd (u := '.' :: u)
  have hdq := doubleQuoted_none (number_head_ne hs hp hd (u := '.' :: u) (x := '"') (by decide) (by decide))
  have hvar := variable_none (number_head_ne hs hp hd (u := '.' :: u) (x := '$') (by decide) (by decide))
  refine ⟨⟨number_ipv6_none hs hp hd dot_stop (Stops.cons (by decide)), ?_, ?_, hdq, ?_, hvar⟩, hx, hres, hne⟩
  · rw [relativeTime, run_alt, run_delim, tag_none (number_head_ne hs hp hd (u := '.' :: u) (x := '"') (by decide) (by decide)), Option.bind_none, Option.or_none]
    cases h' : relativeTimeFmt.run () (sgn ++ (w ++ '.' :: u)) with
    | none => rfl
    | some x => exact absurd (at_needed h') (hnot (by decide) (by decide) (by decide) (by decide))
  · apply allConsuming_none
    rw [timeSpan, run_map, run_seq, run_int hs hd dot_stop]
    have : timeUnit.run () ('.' :: u) = none := timeUnit_none fun c s e => by
      simp only [List.cons.injEq] at e; rw [← e.1]; decide
    split
    · rw [Option.bind_some, this]; rfl
    · rfl
  · have ht := run_tokenExtras (rest := []) hne hx (Stops.nil _) hres
    rw [List.append_nil (sgn ++ (w ++ '.' :: u))] at ht
    rw [wildcard, run_verify, run_alt, hdq, Option.none_or, ht, Option.filter, if_neg]
    have := hnot (q := '*') (by decide) (by decide) (by decide) (by decide)
    simpa using this

theorem run_decimal {sgn w f : Str} {neg : Bool} (hs : Sgn sgn neg) (hw : IsDigits w) (hf : IsDigits f) :
    double.run () (sgn ++ (w ++ '.' :: f)) = some ([], ⟨neg, w, f⟩) := by
  have hd : Digits w := ⟨hw.ne, hw.digits⟩
  obtain ⟨o, ho, hn⟩ := run_sign hs hd (rest := '.' :: f)
  have h2 := run_digit1 (rest := []) ⟨hf.ne, hf.digits⟩ (Stops.nil isDig)
  rw [List.append_nil] at h2
  rw [double, run_map, run_seq, ho, Option.bind_some, run_sepPair, run_digit1 hd dot_stop, Option.bind_some, tag_same, Option.bind_some, h2]
  simp only [Option.map_some, Option.some.injEq, Prod.mk.injEq, true_and, Dbl.mk.injEq, and_true]
  cases neg with
  | true => simp [hn.2 rfl]
  | false =>
    have : o ≠ some c!"-" := fun e => by have := hn.1 e; simp at this
    simp [this]

/-- What the second stages make of a text, and that the first stage takes it whole. -/
theorem dotted_all {v : Constant} {t : Str} (h : DottedText v t) : constantOf.run () t = some ([], v) ∧ literalOf.run () t = some ([], v) ∧
    (∀ c ∈ t, isExtraChar c = true) ∧ notReserved t = true ∧ t ≠ [] := by
  cases h with
  | @decimal neg w f hw hf =>
    have main : ∀ {sgn}, Sgn sgn neg → sgn ≠ c!"+" → constantOf.run () (sgn ++ (w ++ '.' :: f)) = some ([], .double ⟨neg, w, f⟩) ∧
        literalOf.run () (sgn ++ (w ++ '.' :: f)) = some ([], .double ⟨neg, w, f⟩) ∧
        (∀ c ∈ sgn ++ (w ++ '.' :: f), isExtraChar c = true) ∧ notReserved (sgn ++ (w ++ '.' :: f)) = true ∧ sgn ++ (w ++ '.' :: f) ≠ [] := by
      intro sgn hs hp
      obtain ⟨n, hx, hr, hne⟩ := noOther hs hp hw (u := _) (fun c h => .inl (hf.digits c h))
      have q1 := decimal_ipv4 hs hp hw hf
      have hdbl := allConsuming_some.2 ⟨run_decimal hs hw hf, rfl⟩
      refine ⟨?_, ?_, hx, hr, hne⟩
      · simp only [constantOf, run_alt, run_map, allConsuming_none q1, allConsuming_none (ipv4Cidr_none q1), allConsuming_none n.v6,
          allConsuming_none n.rel, n.span, allConsuming_none n.wild, allConsuming_none n.quote, allConsuming_none n.var, Option.map_none, Option.none_or, hdbl]
        rfl
      · simp only [literalOf, run_alt, run_map, allConsuming_none q1, allConsuming_none (ipv4Cidr_none q1), allConsuming_none n.v6,
          allConsuming_none n.rel, n.span, allConsuming_none n.wild, allConsuming_none n.quote, allConsuming_none n.var, Option.map_none, Option.none_or, hdbl]
        rfl
    cases neg with
    | true => exact main .minus (by decide)
    | false => exact main .none (by decide)
  | address h =>
    obtain ⟨w, u, e, hw⟩ := address_dot h
    have hu : ∀ c ∈ u, isDig c = true ∨ c = '.' ∨ c = '/' := fun c hc => by
      rcases address_chars h c (by rw [e]; simp [hc]) with h | h
      · exact .inl h
      · exact .inr (.inl h)
    obtain ⟨n, hx, hr, hne⟩ := noOther .none (by decide) hw hu
    rw [List.nil_append, ← e] at n hx hr hne
    have q0 := run_address h (Stops.nil isDig)
    rw [List.append_nil] at q0
    have q1 : ipv4Cidr.run () t = none := by
      rw [ipv4Cidr, run_recognize, run_sepPair, q0, Option.bind_some]; rfl
    have q2 := allConsuming_some.2 ⟨q0, rfl⟩
    refine ⟨?_, ?_, hx, hr, hne⟩
    · simp only [constantOf, run_alt, run_map, allConsuming_none q1, q2, Option.map_none, Option.none_or]; rfl
    · simp only [literalOf, run_alt, run_map, allConsuming_none q1, q2, Option.map_none, Option.none_or]; rfl
  | @network a b h hb =>
    obtain ⟨w, u, e, hw⟩ := address_dot h
    have hu : ∀ c ∈ u ++ '/' :: b, isDig c = true ∨ c = '.' ∨ c = '/' := fun c hc => by
      rcases List.mem_append.1 hc with hc | hc
      · rcases address_chars h c (by rw [e]; simp [hc]) with h | h
        · exact .inl h
        · exact .inr (.inl h)
      · rcases List.mem_cons.1 hc with hc | hc
        · exact .inr (.inr hc)
        · exact .inl (hb.digits c hc)
    obtain ⟨n, hx, hr, hne⟩ := noOther .none (by decide) hw hu
    have e' : [] ++ (w ++ '.' :: (u ++ '/' :: b)) = a ++ '/' :: b := by rw [e]; simp
    rw [e'] at n hx hr hne
    have q0 := run_address h (rest := '/' :: b) (Stops.cons (by decide))
    have hbs : b.dropWhile isSpace = b := stay (by
      obtain ⟨x, xs, rfl⟩ := List.exists_cons_of_ne_nil hb.ne
      exact Stops.cons (dig_all (f := fun d => isSpace d = false) (by decide) (hb.digits x (by simp))))
    have q1 : ipv4Cidr.run () (a ++ '/' :: b) = some ([], a ++ '/' :: b) := by
      have h2 := run_byte (rest := []) hb (Stops.nil isDig)
      rw [List.append_nil] at h2
      rw [ipv4Cidr, recognize_some]
      refine ⟨?_, by simp⟩
      rw [run_sepPair, q0, Option.bind_some, run_ws, stay (Stops.cons (by decide)), tag_same, Option.map_some, Option.bind_some, hbs, h2]
      exact ⟨_, rfl⟩
    have q2 := allConsuming_some.2 ⟨q1, rfl⟩
    refine ⟨?_, ?_, hx, hr, hne⟩
    · simp only [constantOf, run_alt, run_map, q2]; rfl
    · simp only [literalOf, run_alt, run_map, q2]; rfl

theorem constant_dotted {v : Constant} {t rest : Str} (h : DottedText v t) (hr : Stops isExtraChar rest) :
    constant.run () (t ++ rest) = some (rest, v) := by
  obtain ⟨h1, _, h3, h4, h5⟩ := dotted_all h
  rw [constant, reparse, run_filterMap, run_rawConstant h5 h3 hr h4, Option.bind_some, h1]
  rfl

theorem literal_dotted {v : Constant} {t rest : Str} (h : DottedText v t) (hr : Stops isExtraChar rest) :
    literal.run () (t ++ rest) = some (rest, v) := by
  obtain ⟨_, h2, h3, h4, h5⟩ := dotted_all h
  rw [literal, reparse, run_filterMap, run_rawConstant h5 h3 hr h4, Option.bind_some, h2]
  rfl

end Verif
