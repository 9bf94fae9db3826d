import Verif.Props.Literals
import Verif.Lemmas.Snap
/-
C06: quoted strings.
-/
namespace Verif
open P Lex Spl Spec Lemmas

theorem _root_.Verif.Spec.QuotedBody.of_plain {s : Str} (h : ∀ c ∈ s, c ≠ '"' ∧ c ≠ '\\') : QuotedBody s := by
  induction s with
  | nil => exact .nil
  | cons c s ih => exact .plain (h c (by simp)).1 (h c (by simp)).2 (ih fun x hx => h x (by simp [hx]))

theorem _root_.Verif.Spec.QuotedBody.head {c : Char} {s : Str} (h : QuotedBody (c :: s)) : c ≠ '"' := by
  cases h with
  | esc => decide
  | plain h _ _ => exact h

/-- without its leading blanks -/
theorem _root_.Verif.Spec.QuotedBody.trim {s : Str} (h : QuotedBody s) : QuotedBody (s.dropWhile isSpace) := by
  induction h with
  | nil => exact .nil
  | esc c hs _ =>
    rw [List.dropWhile_cons_of_neg (by decide)]
    exact .esc c hs
  | plain h1 h2 hs ih =>
    rw [List.dropWhile_cons]
    split
    · exact ih
    · exact .plain h1 h2 hs

theorem quotedStep_esc {q c : Char} {s : Str} : (quotedStep q).run () ('\\' :: c :: s) = some (s, ['\\', c]) := by
  rw [quotedStep, run_alt]
  have : (recognize (seq (tag! "\\") (satisfy fun _ => true)) : L true Str).run () ('\\' :: c :: s) = some (s, ['\\', c]) := by
    rw [recognize_some]
    refine ⟨⟨(['\\'], c), ?_⟩, rfl⟩
    rw [run_seq, tag_same]; rfl
  rw [this]; rfl

theorem quotedStep_plain {q c : Char} {s : Str} (h1 : c ≠ q) (h2 : c ≠ '\\') :
    (quotedStep q).run () (c :: s) = some (s, [c]) := by
  have hsat : (recognize (satisfy fun x => x != q && x != '\\') : L true Str).run () (c :: s) = some (s, [c]) := by
    rw [recognize_some]
    refine ⟨⟨c, ?_⟩, rfl⟩
    rw [run_satisfy, if_pos]; simp [h1, h2]
  have htag : (recognize (seq (tag! "\\") (satisfy fun _ => true)) : L true Str).run () (c :: s) = none := by
    rw [run_recognize, run_seq, tag_ne h2]; rfl
  rw [quotedStep, run_alt, htag, hsat]; rfl

theorem quotedStep_end {q : Char} (hq : q ≠ '\\') {s : Str} : (quotedStep q).run () (q :: s) = none := by
  have hsat : (recognize (satisfy fun x => x != q && x != '\\') : L true Str).run () (q :: s) = none := by
    rw [run_recognize, run_satisfy, if_neg]; · rfl
    · simp
  have htag : (recognize (seq (tag! "\\") (satisfy fun _ => true)) : L true Str).run () (q :: s) = none := by
    rw [run_recognize, run_seq, tag_ne hq]; rfl
  rw [quotedStep, run_alt, htag, hsat]; rfl

theorem manyLoop_quoted {s : Str} (h : QuotedBody s) (rest : Str) : ∀ n, (s ++ '"' :: rest).length ≤ n →
    (manyLoop ((quotedStep '"').run ()) n (s ++ '"' :: rest)).1 = '"' :: rest := by
  induction h with
  | nil =>
    intro n _
    cases n with
    | zero => rfl
    | succ n => rw [List.nil_append, manyLoop, quotedStep_end (by decide)]
  | esc c hs ih =>
    intro n hn
    cases n with
    | zero => simp at hn
    | succ n =>
      rw [List.cons_append, List.cons_append, manyLoop, quotedStep_esc]
      exact ih n (by simp at hn ⊢; omega)
  | plain h1 h2 hs ih =>
    intro n hn
    cases n with
    | zero => simp at hn
    | succ n =>
      rw [List.cons_append, manyLoop, quotedStep_plain h1 h2]
      exact ih n (by simpa using hn)

theorem run_many0 {R : Type} [Env R] {g : Bool} {α : Type} (p : P R g true α) (ρ : R) (i : Str) :
    (many0 p).run ρ i = some (manyLoop (p.run ρ) i.length i) := rfl

theorem run_dqContent {s : Str} (h : QuotedBody s) (rest : Str) :
    dqContent.run () (s ++ '"' :: rest) = some ('"' :: rest, s.dropWhile isSpace) := by
  have hd : (s ++ '"' :: rest).dropWhile isSpace = s.dropWhile isSpace ++ '"' :: rest := by
    clear h
    induction s with
    | nil => rfl
    | cons c s ih =>
      rw [List.cons_append, List.dropWhile_cons, List.dropWhile_cons]
      split
      · exact ih
      · rfl
  have hrec : (recognize (many0 (quotedStep '"')) : L false Str).run () (s.dropWhile isSpace ++ '"' :: rest) =
      some ('"' :: rest, s.dropWhile isSpace) := by
    rw [recognize_some]
    refine ⟨⟨(manyLoop ((quotedStep '"').run ()) (s.dropWhile isSpace ++ '"' :: rest).length
      (s.dropWhile isSpace ++ '"' :: rest)).2, ?_⟩, rfl⟩
    rw [run_many0]
    exact congrArg some (Prod.ext (manyLoop_quoted h.trim rest _ (Nat.le_refl _)) rfl)
  rw [dqContent, run_ws, hd, hrec]; rfl

/-- Between the quotes only leading blanks are lost. -/
theorem run_doubleQuoted {s : Str} (h : QuotedBody s) (hne : s ≠ []) (rest : Str) :
    doubleQuoted.run () ('"' :: (s ++ '"' :: rest)) = some (rest, s.dropWhile isSpace) := by
  have hfirst : (delim (tag! "\"") (recognize (seq (tag! "\"") (seq dqContent (tag! "\"")))) (tag! "\"") :
      L true Str).run () ('"' :: (s ++ '"' :: rest)) = none := by
    obtain ⟨c, t, rfl⟩ := List.exists_cons_of_ne_nil hne
    rw [run_delim, tag_same, Option.bind_some, run_recognize, run_seq, List.cons_append, tag_ne h.head]
    rfl
  rw [doubleQuoted, run_alt, hfirst, Option.none_or, run_delim, tag_same, Option.bind_some, run_dqContent h,
    Option.bind_some, tag_same]
  rfl

theorem at_needed {i r : Str} {t : SnapTime} (h : relativeTimeFmt.run () i = some (r, t)) : '@' ∈ i := by
  rw [relativeTimeFmt, run_map] at h
  obtain ⟨⟨r1, x⟩, h1, _⟩ := Option.map_eq_some_iff.1 h
  rw [run_seq] at h1
  obtain ⟨⟨r2, y⟩, h2, h3⟩ := Option.bind_eq_some_iff.1 h1
  obtain ⟨⟨r3, z⟩, h4, _⟩ := Option.map_eq_some_iff.1 h3
  rw [run_seq] at h4
  obtain ⟨⟨r5, w⟩, h5, _⟩ := Option.bind_eq_some_iff.1 h4
  rw [run_tag] at h5
  obtain ⟨r6, h6, _⟩ := Option.map_eq_some_iff.1 h5
  have hr2 : r2 = c!"@" ++ r6 := stripPrefix?_some.1 h6
  obtain ⟨p, hp⟩ := (opt (timeSpan <||> timeSpanOne)).suf _ _ _ _ h2
  rw [← hp, hr2]; simp

theorem relativeTimeFmt_quote (s : Str) : relativeTimeFmt.run () ('"' :: s) = none := by
  have h1 : timeSpan.run () ('"' :: s) = none := by
    rw [timeSpan, run_map, run_seq]
    have : int.run () ('"' :: s) = none := by
      rw [int, run_map, run_seq, sign, run_opt, run_alt, tag_ne (by decide), tag_ne (by decide), Option.or_none,
        Option.elim_none, Option.bind_some, run_filterMap, digit1, takeWhile1_none (Stops.cons (by decide))]
      rfl
    rw [this]; rfl
  have h2 : timeSpanOne.run () ('"' :: s) = none := by
    rw [timeSpanOne, run_map, run_seq, run_opt, tag_ne (by decide), Option.elim_none, Option.bind_some,
      timeUnit_none fun c t e => by simp only [List.cons.injEq] at e; rw [← e.1]; decide]
    rfl
  rw [relativeTimeFmt, run_map, run_seq, run_opt, run_alt, h1, h2, Option.or_none, Option.elim_none, Option.bind_some,
    run_seq, tag_ne (by decide)]
  rfl

theorem relativeTime_quoted {s : Str} (hat : NotTime s) : (allConsuming relativeTime).run () ('"' :: (s ++ c!"\"")) = none := by
  rw [run_allConsuming, relativeTime, run_alt, relativeTimeFmt_quote, Option.none_or, run_delim, tag_same, Option.bind_some]
  cases h : relativeTimeFmt.run () (s ++ c!"\"") with
  | none => rfl
  | some x =>
    obtain ⟨r, x⟩ := x
    rw [Option.bind_some]
    obtain ⟨t, e, ht⟩ := Snap.snap_text h
    cases hr : (tag! "\"" : L true Str).run () r with
    | none => rfl
    | some y =>
      rw [run_tag] at hr
      obtain ⟨r', h1, e1⟩ := Option.map_eq_some_iff.1 hr
      have h1 : r = '"' :: r' := stripPrefix?_some.1 h1
      subst h1; subst e1
      cases r' with
      | cons c r' => rfl
      | nil =>
        have : s = t := by simpa using e
        rw [this] at hat
        exact absurd ht (hat _)

theorem relativeTime_snap {x : SnapTime} {s : Str} (h : SnapText x s) :
    (allConsuming relativeTime).run () ('"' :: (s ++ c!"\"")) = some ([], x) := by
  rw [allConsuming_some, relativeTime, run_alt, relativeTimeFmt_quote, Option.none_or, run_delim, tag_same, Option.bind_some,
    Snap.snap_read h, Option.bind_some, tag_same]
  exact ⟨rfl, rfl⟩

theorem snap_quotable {x : SnapTime} {s : Str} (h : SnapText x s) : QuotedBody s ∧ s ≠ [] := by
  have hsp : ∀ x ∈ unitSpellings, ∀ c ∈ x.1, 48 ≤ c.toNat ∧ c.toNat ≤ 57 ∨ 97 ≤ c.toNat ∧ c.toNat ≤ 122 := by decide
  have huc : ∀ {s n m : Str}, (s, n) ∈ unitSpellings → lower m = s → ∀ c ∈ m, c ≠ '"' ∧ c ≠ '\\' := by
    intro s n m hs hm c hc
    have h1 := hsp _ hs (lowerC c) (by simp only [← hm]; exact List.mem_map_of_mem hc)
    constructor <;> (rintro rfl; revert h1; decide)
  have hdc : ∀ {ds : Str}, IsDigits ds → ∀ c ∈ ds, c ≠ '"' ∧ c ≠ '\\' := by
    intro ds hd c hc
    have := hd.digits c hc
    constructor <;> (rintro rfl; revert this; decide)
  have hspan : ∀ {x : TimeSpan} {t : Str}, SpanText x t → ∀ c ∈ t, c ≠ '"' ∧ c ≠ '\\' := by
    intro x t h c hc
    cases h with
    | plain hd _ hs hm =>
      rcases List.mem_append.1 hc with hc | hc
      · exact hdc hd c hc
      · exact huc hs hm c hc
    | plus hd _ hs hm =>
      rcases List.mem_cons.1 hc with rfl | hc
      · decide
      · rcases List.mem_append.1 hc with hc | hc
        · exact hdc hd c hc
        · exact huc hs hm c hc
    | minus hd _ hs hm =>
      rcases List.mem_cons.1 hc with rfl | hc
      · decide
      · rcases List.mem_append.1 hc with hc | hc
        · exact hdc hd c hc
        · exact huc hs hm c hc
  obtain ⟨ha, hs, hm, hb, -⟩ := h
  refine ⟨.of_plain fun c hc => ?_, by simp⟩
  rcases List.mem_append.1 hc with hc | hc
  · cases ha with
    | none => simp at hc
    | amount h => exact hspan h c hc
    | one hs hm => exact huc hs hm c hc
    | minusOne hs hm =>
      rcases List.mem_cons.1 hc with rfl | hc
      · decide
      · exact huc hs hm c hc
  · rcases List.mem_cons.1 hc with rfl | hc
    · decide
    · rcases List.mem_append.1 hc with hc | hc
      · exact huc hs hm c hc
      · cases hb with
        | none => simp at hc
        | amount h => exact hspan h c hc

theorem timeSpan_quote (s : Str) : timeSpan.run () ('"' :: s) = none := by
  rw [timeSpan, run_map, run_seq]
  have : int.run () ('"' :: s) = none := by
    rw [int, run_map, run_seq, sign, run_opt, run_alt, tag_ne (by decide), tag_ne (by decide), Option.or_none,
      Option.elim_none, Option.bind_some, run_filterMap, digit1, takeWhile1_none (Stops.cons (by decide))]
    rfl
  rw [this]; rfl

theorem star_trim (s : Str) : ('*' ∈ s.dropWhile isSpace) ↔ '*' ∈ s := by
  constructor
  · exact fun h => (List.dropWhile_sublist _).subset h
  · intro h
    rw [blank_split s] at h
    rcases List.mem_append.1 h with h | h
    · have := takeWhile_blank s _ h; simp [isSpace] at this
    · exact h

theorem raw_quoted {s : Str} (h : QuotedBody s) (hne : s ≠ []) (rest : Str) :
    rawConstant.run () ('"' :: (s ++ '"' :: rest)) = some (rest, '"' :: (s ++ c!"\"")) := by
  rw [rawConstant, recognize_some]
  refine ⟨⟨s.dropWhile isSpace, ?_⟩, by simp⟩
  rw [run_alt, run_alt, run_doubleQuoted h hne]; rfl

theorem wildcard_quoted {s : Str} (h : QuotedBody s) (hne : s ≠ []) :
    (allConsuming wildcard).run () ('"' :: (s ++ c!"\"")) =
      if '*' ∈ s then some ([], s.dropWhile isSpace) else none := by
  have := run_doubleQuoted h hne []
  rw [run_allConsuming, wildcard, run_verify, run_alt, this]
  by_cases hs : '*' ∈ s
  · simp [Option.filter, hs, (star_trim s).2 hs]
  · simp [Option.filter, hs, star_trim s]

/-- A quoted operand of an expression: the text between the quotes, with leading blanks removed, is the
string constant, or the wildcard pattern when it contains a star.  Time specifiers are the exception. -/
theorem C06_constant_partial {s : Str} (h : QuotedBody s) (hne : s ≠ []) (hat : NotTime s) (rest : Str) :
    constant.run () ('"' :: (s ++ '"' :: rest)) =
      some (rest, if '*' ∈ s then .wildcard (s.dropWhile isSpace) else .str (s.dropWhile isSpace)) := by
  have q1 : ipv4Addr.run () ('"' :: (s ++ c!"\"")) = none :=
    ipv4Addr_none (ds := []) (by simp) (Stops.cons (by decide)) (Stops.cons (by decide))
  have q2 : ipv6Addr.run () ('"' :: (s ++ c!"\"")) = none :=
    ipv6Addr_none (ds := []) (by simp) (Stops.cons (by decide)) (Stops.cons (by decide))
  have q3 := run_doubleQuoted h hne []
  have hk : (constantOf.run () ('"' :: (s ++ c!"\""))).map Prod.snd =
      some (if '*' ∈ s then .wildcard (s.dropWhile isSpace) else .str (s.dropWhile isSpace)) := by
    rw [constantOf]
    simp only [run_alt, run_map, allConsuming_none q1, allConsuming_none (ipv4Cidr_none q1),
      allConsuming_none q2, relativeTime_quoted hat, allConsuming_none (timeSpan_quote _),
      Option.map_none, Option.none_or, wildcard_quoted h hne]
    rw [allConsuming_some.2 ⟨q3, rfl⟩]
    by_cases hs : '*' ∈ s <;> simp [hs]
  rw [constant, reparse, run_filterMap, raw_quoted h hne, Option.bind_some, hk]
  rfl

example : constant.run () c!"\"a \\\"b\\\" c \" rest" = some (c!" rest", .str c!"a \\\"b\\\" c ") :=
  C06_constant_partial (s := c!"a \\\"b\\\" c ")
    (.plain (by decide) (by decide) (.plain (by decide) (by decide) (.esc _ (.plain (by decide) (by decide)
      (.esc _ (.of_plain (by decide))))))) (by decide) (.of_at (by decide)) c!" rest"

/-- The exception: exactly the texts that are time specifiers are read as times. -/
theorem C06_time {x : SnapTime} {s : Str} (h : SnapText x s) (rest : Str) :
    constant.run () ('"' :: (s ++ '"' :: rest)) = some (rest, .snapTime x) := by
  have q1 : ipv4Addr.run () ('"' :: (s ++ c!"\"")) = none :=
    ipv4Addr_none (ds := []) (by simp) (Stops.cons (by decide)) (Stops.cons (by decide))
  have q2 : ipv6Addr.run () ('"' :: (s ++ c!"\"")) = none :=
    ipv6Addr_none (ds := []) (by simp) (Stops.cons (by decide)) (Stops.cons (by decide))
  have hk : constantOf.run () ('"' :: (s ++ c!"\"")) = some ([], .snapTime x) := by
    rw [constantOf]
    simp only [run_alt, run_map, allConsuming_none q1, allConsuming_none (ipv4Cidr_none q1), allConsuming_none q2,
      Option.map_none, Option.none_or, relativeTime_snap h]
    rfl
  have hq := snap_quotable h
  rw [constant, reparse, run_filterMap, raw_quoted hq.1 hq.2, Option.bind_some, hk]
  rfl

example : constant.run () c!"\"-70m@Hour+2h\")" = some (c!")", .snapTime ⟨some ⟨-70, c!"minutes"⟩, c!"hours", some ⟨2, c!"hours"⟩⟩) :=
  C06_time (s := c!"-70m@Hour+2h") (.mk (a := c!"-70m") (m := c!"Hour") (b := c!"+2h")
    (.amount (.minus (ds := c!"70") (m := c!"m") ⟨by decide, by decide⟩ (by decide) (s := c!"m") (by decide) (by decide)))
    (s := c!"hour") (by decide) (by decide)
    (.amount (.plus (ds := c!"2") (m := c!"h") ⟨by decide, by decide⟩ (by decide) (s := c!"h") (by decide) (by decide))) (fun e => absurd e (by decide))) _

/-- The right side of a comparison in `where`: the same, and an at sign makes no difference. -/
theorem C06_literal_partial {s : Str} (h : QuotedBody s) (hne : s ≠ []) (rest : Str) :
    literal.run () ('"' :: (s ++ '"' :: rest)) =
      some (rest, if '*' ∈ s then .wildcard (s.dropWhile isSpace) else .str (s.dropWhile isSpace)) := by
  have q1 : ipv4Addr.run () ('"' :: (s ++ c!"\"")) = none :=
    ipv4Addr_none (ds := []) (by simp) (Stops.cons (by decide)) (Stops.cons (by decide))
  have q2 : ipv6Addr.run () ('"' :: (s ++ c!"\"")) = none :=
    ipv6Addr_none (ds := []) (by simp) (Stops.cons (by decide)) (Stops.cons (by decide))
  have q3 := run_doubleQuoted h hne []
  have hk : (literalOf.run () ('"' :: (s ++ c!"\""))).map Prod.snd =
      some (if '*' ∈ s then .wildcard (s.dropWhile isSpace) else .str (s.dropWhile isSpace)) := by
    rw [literalOf]
    simp only [run_alt, run_map, allConsuming_none q1, allConsuming_none (ipv4Cidr_none q1),
      allConsuming_none q2, Option.map_none, Option.none_or, wildcard_quoted h hne]
    rw [allConsuming_some.2 ⟨q3, rfl⟩]
    by_cases hs : '*' ∈ s <;> simp [hs]
  rw [literal, reparse, run_filterMap, raw_quoted h hne, Option.bind_some, hk]
  rfl

example : literal.run () c!"\"@d\")" = some (c!")", .str c!"@d") :=
  C06_literal_partial (s := c!"@d") (.of_plain (by decide)) (by decide) c!")"

/-- Leading blanks are lost. -/
theorem C06_leading_blank_lost :
    parse c!"eval x=\"  a \"" = some [.eval [(c!"x", .const (.str c!"a "))]] := isParse_sound (by decide +kernel)

/-- A quoted text that looks like a time is read as a time. -/
theorem C06_quoted_time :
    parse c!"eval x=\"@d\"" = some [.eval [(c!"x", .const (.snapTime ⟨none, c!"days", none⟩))]] :=
  isParse_sound (by decide +kernel)

/-- Two empty strings are read as one string made of what stands between them. -/
theorem C06_empty_strings_merge :
    parse c!"search x=\"\" y=\"\"" =
      some [.search (.binary (.const (.field c!"x")) c!"=" (.const (.str c!"\" y=\"")))] :=
  isParse_sound (by decide +kernel)

end Verif
