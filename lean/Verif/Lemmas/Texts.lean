import Verif.Lemmas.From
/-
Where the names and texts of a parsed query come from: lexers.
-/
namespace Verif.Lex
open Verif Verif.Spec P

/-- reserved words are made of letters -/
theorem reserved_letters {s : Str} (h : Reserved s) : ∀ c ∈ s, ('a' ≤ c ∧ c ≤ 'z') ∨ ('A' ≤ c ∧ c ≤ 'Z') := by
  have hw : ∀ w ∈ reservedWords, ∀ d ∈ w, 'A' ≤ d ∧ d ≤ 'Z' := by decide
  intro c hc
  have h1 := hw _ h (upperC c) (List.mem_map.2 ⟨c, hc, rfl⟩)
  unfold upperC at h1
  split at h1
  · rename_i h2; exact .inl h2
  · exact .inr h1

theorem reserved_ne_nil {s : Str} (h : Reserved s) : s ≠ [] := by
  rintro rfl
  revert h
  decide

theorem not_reserved_of_mem {s : Str} {c : Char} (h : c ∈ s) (hc : c = '.' ∨ c = '"' ∨ c = ':' ∨ isDig c = true) :
    ¬ Reserved s := by
  intro hr
  have h1 := reserved_letters hr c h
  rcases hc with rfl | rfl | rfl | hc
  · revert h1; decide
  · revert h1; decide
  · revert h1; decide
  · simp only [isDig, Bool.and_eq_true, decide_eq_true_eq] at hc
    have h9 : c ≤ '9' := hc.2
    rcases h1 with h1 | h1
    · exact absurd (Char.le_trans h1.1 h9) (by decide)
    · exact absurd (Char.le_trans h1.1 h9) (by decide)

variable {K : Prov}

theorem token_from : token.From K () (fun s => K.Q s ∧ ¬ Reserved s) :=
  (From.verify (Sub.recognize.from)).mono fun s hs => ⟨hs.1, by
    have h := hs.2
    simp only [notReserved, Bool.not_eq_true', List.contains_eq_mem, decide_eq_false_iff_not] at h
    exact h⟩

theorem token_name : token.From K () K.N := token_from.mono fun _ h => K.tok h.1 h.2

theorem token_sub : token.Sub () := Sub.verify Sub.recognize

theorem tag_eq {R : Type} [Env R] {ρ : R} {t : Char} {ts i r a : Str}
    (h : (P.tagL t ts : P R true true Str).run ρ i = some (r, a)) : i = (t :: ts) ++ r := by
  simp only [P.tagL] at h
  split at h
  · rename_i hs
    simp only [Option.some.injEq, Prod.mk.injEq] at h
    rw [stripPrefix?_some] at hs
    rw [hs, h.1]
  · simp at h

/-- text between quotes -/
theorem between {c : Bool} {q : Char} (hq : q = '\'' ∨ q = '"') {p : L c Str}
    (hp : ∀ i r s, p.run () i = some (r, s) → ∃ w₁ w₂, (∀ c ∈ w₁, isSpace c = true) ∧ (∀ c ∈ w₂, isSpace c = true) ∧
      i = w₁ ++ (s ++ (w₂ ++ r))) {i r s : Str}
    (h : (P.delim (P.tagL q []) p (P.tagL q [])).run () i = some (r, s)) : QuotedIn s i := by
  simp only [delim, pre, post, P.map, seq] at h
  cases h1 : (P.tagL q [] : L true Str).run () i with
  | none => simp [h1] at h
  | some x =>
    obtain ⟨r1, t1⟩ := x
    cases h2 : p.run () r1 with
    | none => simp [h1, h2] at h
    | some y =>
      obtain ⟨r2, s2⟩ := y
      cases h3 : (P.tagL q [] : L true Str).run () r2 with
      | none => simp [h1, h2, h3] at h
      | some z =>
        obtain ⟨r3, t3⟩ := z
        simp only [h1, h2, h3, Option.some.injEq, Prod.mk.injEq] at h
        obtain ⟨rfl, rfl⟩ := h
        obtain ⟨w₁, w₂, hw1, hw2, he⟩ := hp _ _ _ h2
        have e1 := tag_eq h1
        have e3 := tag_eq h3
        refine ⟨q, w₁, w₂, hq, hw1, hw2, ⟨[], r3, ?_⟩⟩
        rw [e1, he, e3]
        simp

theorem ws_recognize {c : Bool} {α : Type} {p : L c α} {i r s : Str} (h : (P.ws (recognize p)).run () i = some (r, s)) :
    ∃ w₁ w₂, (∀ c ∈ w₁, isSpace c = true) ∧ (∀ c ∈ w₂, isSpace c = true) ∧ i = w₁ ++ (s ++ (w₂ ++ r)) := by
  simp only [ws, P.recast, delim, pre, post, P.map, seq, ms0, P.takeWhile0] at h
  cases h2 : (recognize p).run () (i.dropWhile isSpace) with
  | none => simp [h2] at h
  | some y =>
    obtain ⟨r2, s2⟩ := y
    simp only [h2, Option.some.injEq, Prod.mk.injEq] at h
    obtain ⟨rfl, rfl⟩ := h
    refine ⟨i.takeWhile isSpace, r2.takeWhile isSpace, ?_, ?_, ?_⟩
    · exact List.all_eq_true.1 List.all_takeWhile
    · exact List.all_eq_true.1 List.all_takeWhile
    · rw [List.takeWhile_append_dropWhile, ← (recognize_eq h2).1, List.takeWhile_append_dropWhile]

theorem recognize_plain {c : Bool} {α : Type} {p : L c α} {i r s : Str} (h : (recognize p).run () i = some (r, s)) :
    ∃ w₁ w₂, (∀ c ∈ w₁, isSpace c = true) ∧ (∀ c ∈ w₂, isSpace c = true) ∧ i = w₁ ++ (s ++ (w₂ ++ r)) :=
  ⟨[], [], by simp, by simp, by simpa using (recognize_eq h).1⟩

theorem singleQuoted_quoted {i r s : Str} (h : singleQuoted.run () i = some (r, s)) : QuotedIn s i :=
  between (.inl rfl) (fun _ _ _ h => ws_recognize h) h

theorem doubleQuoted_quoted {i r s : Str} (h : doubleQuoted.run () i = some (r, s)) : QuotedIn s i := by
  simp only [doubleQuoted, P.alt] at h
  split at h
  · rename_i x hx
    exact between (.inr rfl) (fun _ _ _ h => recognize_plain h) (hx.trans h)
  · exact between (.inr rfl) (fun _ _ _ h => ws_recognize h) h

theorem doubleQuoted_name : doubleQuoted.From K () K.N := fun _ _ _ hi h => K.quo hi (doubleQuoted_quoted h)

theorem doubleQuoted_sub : doubleQuoted.Sub () :=
  Sub.alt (Sub.delim Sub.recognize) (Sub.delim (Sub.ws Sub.recognize))

theorem singleQuoted_sub : singleQuoted.Sub () := Sub.delim (Sub.ws Sub.recognize)

theorem tokenNotTF_name : tokenNotTF.From K () K.N := (From.verify token_name).mono fun _ h => h.1

/-- the text read by an element of a dotted name is its value, or contains a quote -/
def Segment {c : Bool} (p : L c Str) : Prop :=
  ∀ i r s, p.run () i = some (r, s) → ∀ t, i = t ++ r → (¬ Reserved t) ∨ '"' ∈ t

theorem token_segment : Segment token := by
  intro i r s h t ht
  simp only [token, verify, filterMap] at h
  split at h
  · rename_i r' a ha
    split at h
    · rename_i b hb
      simp only [Option.some.injEq, Prod.mk.injEq] at h
      obtain ⟨rfl, rfl⟩ := h
      split at hb
      · rename_i hn
        simp only [Option.some.injEq] at hb
        subst hb
        have he := (recognize_eq ha).1
        rw [ht] at he
        rw [List.append_cancel_right he]
        left
        simp only [notReserved, Bool.not_eq_true', List.contains_eq_mem, decide_eq_false_iff_not] at hn
        exact hn
      · simp at hb
    · simp at h
  · simp at h

theorem tokenNotTF_segment : Segment tokenNotTF := by
  intro i r s h t ht
  simp only [tokenNotTF, verify] at h
  rw [filterMap] at h
  simp only at h
  split at h
  · rename_i r' a ha
    split at h
    · simp only [Option.some.injEq, Prod.mk.injEq] at h
      obtain ⟨rfl, _⟩ := h
      exact token_segment _ _ _ ha _ ht
    · simp at h
  · simp at h

theorem doubleQuoted_segment : Segment doubleQuoted := by
  intro i r s h t ht
  right
  obtain ⟨q, hq, rest, he⟩ : ∃ q, q = '"' ∧ ∃ rest, i = q :: rest := by
    simp only [doubleQuoted, P.alt] at h
    have key : ∀ {c : Bool} {p : L c Str} {x : Str × Str}, (P.delim (P.tagL '"' []) p (P.tagL '"' [])).run () i = some x →
        ∃ rest, i = '"' :: rest := by
      intro c p x hx
      simp only [delim, pre, P.map, seq] at hx
      cases h1 : (P.tagL '"' [] : L true Str).run () i with
      | none => simp [h1] at hx
      | some y => exact ⟨y.1, by simpa using tag_eq h1⟩
    split at h
    · rename_i x hx
      exact ⟨_, rfl, key hx⟩
    · exact ⟨_, rfl, key h⟩
  subst hq
  have hc := doubleQuoted.con rfl _ _ _ _ h
  cases t with
  | nil => simp at ht; subst ht; simp at hc
  | cons d t =>
    rw [ht] at he
    simp only [List.cons_append, List.cons.injEq] at he
    simp [he.1]

theorem segment_alt {c₁ c₂ : Bool} {p : L c₁ Str} {q : L c₂ Str} (hp : Segment p) (hq : Segment q) :
    Segment (p <||> q) := by
  intro i r s h
  simp only [P.alt] at h
  split at h
  · rename_i x hx; exact hp _ _ _ (hx.trans h)
  · exact hq _ _ _ h

/-- a dotted name is not a reserved word -/
theorem dotted_not_reserved {c : Bool} {p : L c Str} (hp : Segment p) {i r s : Str}
    (h : (recognize (sepList1 (tag! ".") p)).run () i = some (r, s)) : ¬ Reserved s := by
  obtain ⟨he, as, ha⟩ := recognize_eq h
  simp only [P.sepList1] at ha
  split at ha
  · simp at ha
  · rename_i r1 a1 h1
    simp only [Option.some.injEq, Prod.mk.injEq] at ha
    obtain ⟨t, ht⟩ := p.suf _ _ _ _ h1
    rcases hr1 : r1 with _ | ⟨d, r1'⟩
    · subst hr1
      simp only [List.length_nil, sepLoop] at ha
      rw [← ha.1] at he
      rcases hp _ _ _ h1 s he with hs | hs
      · exact hs
      · exact not_reserved_of_mem hs (.inr (.inl rfl))
    · rw [hr1] at ha
      simp only [List.length_cons, sepLoop] at ha
      rw [← hr1] at ha
      cases hd : (P.tagL '.' [] : L true Str).run () r1 with
      | none =>
        simp only [hd] at ha
        rw [← ha.1] at he
        rcases hp _ _ _ h1 s he with hs | hs
        · exact hs
        · exact not_reserved_of_mem hs (.inr (.inl rfl))
      | some x =>
        obtain ⟨r2, t2⟩ := x
        have e2 := tag_eq hd
        simp only [hd] at ha
        cases h3 : p.run () r2 with
        | none =>
          simp only [h3] at ha
          rw [← ha.1] at he
          rcases hp _ _ _ h1 s he with hs | hs
          · exact hs
          · exact not_reserved_of_mem hs (.inr (.inl rfl))
        | some y =>
          obtain ⟨r3, a3⟩ := y
          simp only [h3] at ha
          have s1 := sepLoop_suf ((P.tagL '.' [] : L true Str).run ()) (p.run ()) ((P.tagL '.' [] : L true Str).suf ())
            (p.suf ()) r1'.length r3
          rw [ha.1] at s1
          obtain ⟨u, hu⟩ := s1
          obtain ⟨v, hv⟩ := p.suf _ _ _ _ h3
          have : i = (t ++ '.' :: (v ++ u)) ++ r := by
            rw [← ht, e2, ← hv, ← hu]; simp
          rw [he] at this
          rw [List.append_cancel_right this]
          exact not_reserved_of_mem (c := '.') (by simp) (.inl rfl)

theorem fieldFmt_name : fieldFmt.From K () K.N := fun _ _ _ hi h =>
  K.tok (K.sub (Sub.recognize _ _ _ h) hi)
    (dotted_not_reserved (segment_alt tokenNotTF_segment doubleQuoted_segment) h)

theorem field_name : field.From K () K.N :=
  From.alt fieldFmt_name fun _ _ _ hi h => K.quo hi (singleQuoted_quoted h)

theorem dotted_name : Spl.dotted.From K () K.N := fun _ _ _ hi h =>
  K.tok (K.sub (Sub.recognize _ _ _ h) hi) (dotted_not_reserved token_segment h)

theorem string_sub : string.Sub () := Sub.alt doubleQuoted_sub Sub.recognize
theorem string_text : string.From K () K.T := string_sub.text

theorem unit_text {n : Str} (hn : n ∈ defaultTexts) {p : L true Str} : (unit n p).From K () K.T :=
  From.map (From.of _ fun _ => K.defT _ hn)

theorem timeUnit_text : timeUnit.From K () K.T := by
  unfold timeUnit months days hours minutes weeks seconds
  repeat' first | exact unit_text (by decide) | apply From.alt

theorem timeSpan_text : timeSpan.From K () (textsSpan K.T) :=
  From.map ((From.seq (From.triv _) timeUnit_text).mono fun _ h => h.2)

theorem timeSpanOne_text : timeSpanOne.From K () (textsSpan K.T) :=
  From.map ((From.seq (From.triv _) timeUnit_text).mono fun _ h => h.2)

theorem span?_of {T : Str → Prop} {o : Option TimeSpan} (h : ∀ t, o = some t → textsSpan T t) : textsSpan? T o := by
  cases o with
  | none => trivial
  | some t => exact h t rfl

theorem optS_of {T : Str → Prop} {o : Option Str} (h : ∀ t, o = some t → T t) : optS T o := by
  cases o with
  | none => trivial
  | some t => exact h t rfl

theorem relativeTimeFmt_text : relativeTimeFmt.From K () (textsSnap K.T) := by
  apply From.map
  refine (From.seq (From.opt (From.alt timeSpan_text timeSpanOne_text)) (From.seq (From.triv _)
    (From.seq timeUnit_text (From.opt timeSpan_text)))).mono ?_
  rintro ⟨a, b, c, d⟩ ⟨h1, _, h2, h3⟩
  exact ⟨span?_of h1, h2, span?_of h3⟩

theorem relativeTime_text : relativeTime.From K () (textsSnap K.T) :=
  From.alt relativeTimeFmt_text (From.delim relativeTimeFmt_text)

theorem wildcard_text : wildcard.From K () K.T :=
  (Sub.verify (Sub.alt doubleQuoted_sub (Sub.verify Sub.recognize))).text

theorem double_text : double.From K () (fun d => K.T d.whole ∧ K.T d.frac) :=
  From.map ((From.seq (From.triv _) (From.sepPair Sub.takeWhile1.text Sub.takeWhile1.text)).mono fun _ h => h.2)

theorem variable_name : variable_.From K () K.N := From.delim tokenNotTF_name

theorem rawConstant_sub : rawConstant.Sub () := Sub.recognize

/-- `ipv4` texts contain dots -/
theorem ipv4Addr_name : ipv4Addr.From K () K.N := by
  intro i r s hi h
  refine K.tok (K.sub (Sub.recognize _ _ _ h) hi) ?_
  obtain ⟨he, a, ha⟩ := recognize_eq h
  refine not_reserved_of_mem (c := '.') ?_ (.inl rfl)
  simp only [seq] at ha
  split at ha
  · rename_i r1 a1 h1
    obtain ⟨t, ht⟩ := byte.suf _ _ _ _ h1
    split at ha
    · rename_i r2 a2 h2
      simp only [Option.some.injEq, Prod.mk.injEq] at ha
      split at h2
      · rename_i r3 a3 h3
        have e3 := tag_eq h3
        split at h2
        · rename_i r4 a4 h4
          simp only [Option.some.injEq, Prod.mk.injEq] at h2
          have s4 : r4 <:+ r3 := (seq byte (seq (tag! ".") (seq byte (seq (tag! ".") byte))) :
            L true _).suf () r3 r4 a4 h4
          obtain ⟨u, hu⟩ := s4
          have : i = (t ++ '.' :: u) ++ r := by
            rw [← ht, e3, ← hu, h2.1, ha.1]; simp
          rw [he] at this
          rw [List.append_cancel_right this]
          simp
        · simp at h2
      · simp at h2
    · simp at ha
  · simp at ha

theorem ip6Valid_not_reserved {s : Str} (h : ip6Valid s = true) : ¬ Reserved s := by
  intro hr
  have hl := reserved_letters hr
  cases s with
  | nil => exact reserved_ne_nil hr rfl
  | cons c cs =>
    have hd : isDig c = false := by
      cases hc : isDig c with
      | false => rfl
      | true => exact absurd hr (not_reserved_of_mem (c := c) (by simp) (.inr (.inr (.inr hc))))
    have hcol : c ≠ ':' := by
      rintro rfl
      exact absurd hr (not_reserved_of_mem (c := ':') (by simp) (.inr (.inr (.inl rfl))))
    have hg : ip6Groups 8 0 (c :: cs) = (0, c :: cs) := by
      simp [ip6Groups, ip6Number, hd]
    unfold ip6Valid at h
    rw [hg] at h
    have : stripPrefix? c!"::" (c :: cs) = none := by
      rw [stripPrefix?, if_neg (fun h => hcol h.symm)]
    simp [this] at h

theorem ipv6Addr_name : ipv6Addr.From K () K.N :=
  (From.verify Sub.recognize.from).mono fun _ h => K.tok h.1 (ip6Valid_not_reserved h.2)

/-- a value as the options of a command take them -/
def okV (K : Prov) (k : Constant) : Prop := textsK K.N K.T k ∧ ∀ s, k = .str s → K.N s

theorem constantOf_from : constantOf.From K () (okV K) := by
  unfold constantOf
  refine From.alt (From.map (From.allConsuming ?_)) (From.alt (From.map (From.allConsuming ?_))
    (From.alt (From.map (From.allConsuming ?_)) (From.alt (From.map (From.allConsuming ?_))
    (From.alt (From.map (From.allConsuming ?_)) (From.alt (From.map (From.allConsuming ?_))
    (From.alt (From.map (From.allConsuming ?_)) (From.alt (From.map (From.allConsuming ?_))
    (From.alt (From.map (From.allConsuming ?_)) (From.alt (From.map (From.allConsuming ?_))
    (From.alt (From.map (From.allConsuming ?_)) (From.map (From.allConsuming ?_))))))))))))
  · exact (Sub.recognize (p := sepPair ipv4Addr (ws (tag! "/")) byte)).text.mono fun _ h => ⟨h, by simp⟩
  · exact ipv4Addr_name.mono fun _ h => ⟨K.nt h, by simpa using h⟩
  · exact ipv6Addr_name.mono fun _ h => ⟨K.nt h, by simpa using h⟩
  · exact relativeTime_text.mono fun _ h => ⟨h, by simp⟩
  · exact timeSpan_text.mono fun _ h => ⟨h, by simp⟩
  · exact wildcard_text.mono fun _ h => ⟨h, by simp⟩
  · exact doubleQuoted_name.mono fun _ h => ⟨K.nt h, by simpa using h⟩
  · exact variable_name.mono fun _ h => ⟨h, by simp⟩
  · exact double_text.mono fun _ h => ⟨h, by simp⟩
  · exact From.of _ fun _ => ⟨trivial, by simp⟩
  · exact field_name.mono fun _ h => ⟨h, by simp⟩
  · exact From.of _ fun _ => ⟨trivial, by simp⟩

theorem constant_from : constant.From K () (okV K) := From.reparse rawConstant_sub constantOf_from

theorem literalOf_from : literalOf.From K () (textsK K.N K.T) := by
  unfold literalOf
  refine From.alt (From.map (From.allConsuming ?_)) (From.alt (From.map (From.allConsuming ?_))
    (From.alt (From.map (From.allConsuming ?_)) (From.alt (From.map (From.allConsuming ?_))
    (From.alt (From.map (From.allConsuming ?_)) (From.alt (From.map (From.allConsuming ?_))
    (From.alt (From.map (From.allConsuming ?_)) (From.alt (From.map (From.allConsuming ?_))
    (From.alt (From.map (From.allConsuming ?_)) (From.alt (From.map (From.allConsuming ?_))
    (From.alt (From.map (From.allConsuming ?_)) (From.map (From.allConsuming ?_))))))))))))
  · exact (Sub.recognize (p := sepPair ipv4Addr (ws (tag! "/")) byte)).text.mono fun _ h => h
  · exact ipv4Addr_name.mono fun _ h => K.nt h
  · exact ipv6Addr_name.mono fun _ h => K.nt h
  · exact wildcard_text.mono fun _ h => h
  · exact doubleQuoted_name.mono fun _ h => K.nt h
  · exact variable_name.mono fun _ h => h
  · exact relativeTime_text.mono fun _ h => h
  · exact timeSpan_text.mono fun _ h => h
  · exact double_text.mono fun _ h => h
  · exact From.of _ fun _ => trivial
  · exact From.of _ fun _ => trivial
  · exact string_text.mono fun _ h => h

theorem literal_from : literal.From K () (textsK K.N K.T) := From.reparse rawConstant_sub literalOf_from

theorem fieldAndValue_from : fieldAndValue.From K () (fun x => K.N x.1 ∧ K.N x.2) :=
  From.sepPair token_name (From.alt doubleQuoted_name token_name)

theorem commandOptions_from : commandOptions.From K () (fun l => ∀ kv ∈ l, okV K kv.2) :=
  From.many0 (From.ws ((From.sepPair (From.triv token) constant_from).mono fun _ h => h.2))

theorem fieldList0_from : fieldList0.From K () (fun l => ∀ f ∈ l, K.N f) := From.commaOrSpaceList0 field_name
theorem fieldList1_from : fieldList1.From K () (fun l => ∀ f ∈ l, K.N f) := From.commaOrSpaceList1 field_name

theorem comparisonOperator_text : comparisonOperator.From K () K.T := by
  unfold comparisonOperator
  repeat' first
    | exact From.map (From.of _ fun _ => K.defT _ (by decide))
    | exact Sub.tagL.text
    | apply From.alt

theorem fieldIn_from : fieldIn.From K () (fun x => K.N x.1 ∧ ∀ k ∈ x.2, textsK K.N K.T k) :=
  From.sepPair field_name (From.parenthesized (From.commaOrSpaceList0 (constant_from.mono fun _ h => h.1)))

theorem termCall_text : termCall.From K () K.T := (Sub.pre (Sub.parenthesized Sub.takeWhile0)).text

theorem aliasedField_from : aliasedField.From K () (fun x => K.N x.1 ∧ K.N x.2) :=
  From.sepPair field_name (From.alt token_name doubleQuoted_name)

theorem spField_from : spField.From K () (textsSF K.N K.T) := by
  refine From.alt (From.map ?_) (From.map ?_)
  · exact (From.sepPair field_name (From.pre timeSpan_text)).mono fun _ h => h
  · exact field_name.mono fun _ h => ⟨h, trivial⟩

theorem spFieldList1_from : spFieldList1.From K () (fun l => ∀ f ∈ l, textsSF K.N K.T f) :=
  From.commaOrSpaceList1 spField_from

theorem searchModifier_from : searchModifier.From K () (textsSM K.T) := by
  unfold searchModifier
  repeat' first
    | exact From.map ((From.pre string_text).mono fun _ h => h)
    | apply From.alt

theorem timeFormat_text : timeFormat.From K () K.T := by
  apply From.map
  refine (From.opt (From.pre doubleQuoted_sub.text)).mono ?_
  rintro (_ | f) h
  · exact K.defT _ (by decide)
  · exact h f rfl

theorem timeModifier_from : timeModifier.From K () (textsTM K.T) := by
  unfold timeModifier
  refine From.alt (From.map ?_) (From.alt (From.map ?_) (From.alt (From.map ?_) (From.map ?_)))
  · exact (From.pre doubleQuoted_sub.text).mono fun _ h => h
  · exact (From.pre doubleQuoted_sub.text).mono fun _ h => h
  · exact (From.pre relativeTime_text).mono fun _ h => h
  · exact (From.pre relativeTime_text).mono fun _ h => h

theorem timeOpts_from : timeOpts.From K () (fun l => ∀ m ∈ l, K.T m.format ∧ textsTM K.T m.modifier) := by
  apply From.map
  refine (From.seq timeFormat_text (From.spaceList1 timeModifier_from)).mono ?_
  rintro ⟨f, ms⟩ ⟨h1, h2⟩ m hm
  simp only [List.mem_map] at hm
  obtain ⟨t, ht, rfl⟩ := hm
  exact ⟨h1, h2 t ht⟩

end Verif.Lex
