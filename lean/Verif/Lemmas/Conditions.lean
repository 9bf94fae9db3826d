import Verif.Lemmas.Literal
/-
The conditions of `where`, on text written as in `Spec.Logical`.
-/
namespace Verif
open P Lex Spl Spec Lemmas

/-- A keyword that ends with `=` does not match a different name. -/
theorem keyword_none : ∀ {ts f : Str} {c : Char} {s : Str}, (∀ x ∈ ts, isLetter (lowerC x) = true) →
    (∀ x ∈ f, isNameChar x = true) → isLetter c = false → lower f ≠ lower ts ∨ c ≠ '=' → stripPrefixCI? (ts ++ c!"=") (f ++ c :: s) = none
  | [], [], c, s, _, _, _, h => by
    have hc : c ≠ '=' := h.resolve_left (fun h => h rfl)
    have : lowerC '=' ≠ lowerC c := by
      intro e
      apply hc
      have e2 : lowerC c = '=' := by rw [← e]; decide
      unfold lowerC at e2
      split at e2
      · rename_i hu
        exfalso
        have : ∀ n, n < 91 → 65 ≤ n → Char.ofNat (n + 32) ≠ '=' := by decide
        exact this c.toNat (by have : c.toNat ≤ ('Z' : Char).toNat := hu.2; have h2 : ('Z' : Char).toNat = 90 := rfl; omega)
          (show ('A' : Char).toNat ≤ c.toNat from hu.1) e2
      · exact e2
    simp [stripPrefixCI?, this]
  | [], x :: f, c, s, _, hf, _, _ => by
    have hx := hf x (by simp)
    have : lowerC '=' ≠ lowerC x := by
      intro e
      have e2 : lowerC x = '=' := by rw [← e]; decide
      have : x = '=' := by
        have e3 := upperC_lowerC x
        rw [e2] at e3
        unfold lowerC at e2
        split at e2
        · rename_i hu
          have h4 : upperC x = x := by
            unfold upperC; rw [if_neg]
            intro h5
            have h6 := Nat.le_trans (show ('a' : Char).toNat ≤ x.toNat from h5.1) (show x.toNat ≤ ('Z' : Char).toNat from hu.2)
            revert h6; decide
          rw [← h4, ← e3]; decide
        · exact e2
      rw [this] at hx; revert hx; decide
    show stripPrefixCI? ['='] (x :: (f ++ c :: s)) = none
    simp [stripPrefixCI?, this]
  | t :: ts, [], c, s, ht, _, hc, _ => by
    have : lowerC t ≠ lowerC c := by
      intro e
      have := ht t (by simp)
      rw [e] at this
      rw [lowerC_letter this] at hc; simp at hc
    simp [stripPrefixCI?, this]
  | t :: ts, x :: f, c, s, ht, hf, hc, h => by
    simp only [List.cons_append, stripPrefixCI?]
    split
    · rename_i e
      have h' : lower f ≠ lower ts ∨ c ≠ '=' := h.imp_left fun h => by
        intro e'; apply h; simp only [lower, List.map_cons] at e' ⊢; rw [e', e]
      rw [keyword_none (fun y hy => ht y (by simp [hy])) (fun y hy => hf y (by simp [hy])) hc h']
    · rfl


theorem timeOpts_none {f s : Str} {c : Char} (hf : ∀ x ∈ f, isNameChar x = true) (hc : isLetter c = false)
    (hn : lower f ∉ timeWords ∨ c ≠ '=') : timeOpts.run () (f ++ c :: s) = none := by
  have k : ∀ {t : Char} {ts : Str}, (∀ x ∈ t :: ts, isLetter (lowerC x) = true) → lower (t :: ts) ∈ timeWords →
      (tagNoCaseL t (ts ++ c!"=") : L true Str).run () (f ++ c :: s) = none := by
    intro t ts h1 h2
    rw [run_tagi, ← List.cons_append, keyword_none h1 hf hc (hn.imp_left fun h e => h (by rw [e]; exact h2))]; rfl
  have m : timeModifier.run () (f ++ c :: s) = none := by
    have e2 : (tagi! "starttime=" : L true Str).run () (f ++ c :: s) = none := k (t := 's') (ts := c!"tarttime") (by decide) (by decide)
    have e3 : (tagi! "endtime=" : L true Str).run () (f ++ c :: s) = none := k (t := 'e') (ts := c!"ndtime") (by decide) (by decide)
    have e4 : (tagi! "earliest=" : L true Str).run () (f ++ c :: s) = none := k (t := 'e') (ts := c!"arliest") (by decide) (by decide)
    have e5 : (tagi! "latest=" : L true Str).run () (f ++ c :: s) = none := k (t := 'l') (ts := c!"atest") (by decide) (by decide)
    simp only [timeModifier, run_alt, run_map, run_pre, e2, e3, e4, e5]; rfl
  have e1 : (tagi! "timeformat=" : L true Str).run () (f ++ c :: s) = none := k (t := 't') (ts := c!"imeformat") (by decide) (by decide)
  have e0 : timeFormat.run () (f ++ c :: s) = some (f ++ c :: s, c!"%m/%d/%Y:%H:%M:%S.") := by
    rw [timeFormat, run_map, run_opt, run_pre, e1]; rfl
  rw [timeOpts, run_map, run_seq, e0, Option.bind_some, spaceList1, run_recast, run_sepList1, m]
  rfl

theorem token_reserved {w rest : Str} (hw : ∀ c ∈ w, isTokenChar c = true) (hr : Stops tokenCont rest)
    (hres : notReserved w = false) : token.run () (w ++ rest) = none := by
  cases w with
  | nil => exact token_none hr
  | cons c w =>
    rw [token, run_verify]
    have : (recognize (many1 tokenStep) : L true Str).run () (c :: w ++ rest) = some (rest, c :: w) := by
      rw [recognize_some]
      refine ⟨?_, rfl⟩
      rw [run_many1, List.cons_append, tokenStep_char (hw c (by simp))]
      rw [Option.map_some, manyLoop_token w rest _ (Nat.le_refl _) (fun x hx => hw x (by simp [hx])) hr]
      exact ⟨_, rfl⟩
    rw [this]
    simp [Option.filter, hres]

theorem field_none {i : Str} (h1 : token.run () i = none) (h2 : ∀ c t, i = c :: t → c ≠ '"') (h3 : ∀ c t, i = c :: t → c ≠ '\'') :
    field.run () i = none := by
  rw [field, run_alt, fieldFmt, run_recognize, run_sepList1, run_alt, tokenNotTF, run_verify, h1, doubleQuoted_none h2,
    singleQuoted_none h3]
  rfl


/-- A condition does not begin with a reserved word such as OR or BY. -/
theorem lterm_word {op g s : Str} {x : Char} {xs : Str} (ho : lower op = x :: xs) (hl : ∀ c ∈ x :: xs, isLetter c = true)
    (hres : Reserved (x :: xs)) (hx : x ∉ c!"ntselh") (hg : Gap g) : lterm.run fix (op ++ (g ++ s)) = none := by
  obtain ⟨c, t, rfl, hc, ht⟩ := lower_cons ho
  have hlet : ∀ y ∈ c :: t, isLetter y = true := lower_all ho fun y hy => lowerC_letter (hl _ hy)
  obtain ⟨b, g, rfl, hb⟩ := gap_head hg
  have htok : token.run () (c :: t ++ (b :: g ++ s)) = none := by
    apply token_reserved
    · exact fun y hy => letter_token (hlet y hy)
    · exact Stops.cons (space_all (f := fun b => tokenCont b = false) (by decide) hb)
    · have : upper (c :: t) = upper (x :: xs) := by rw [← upper_lower, ho]
      simp only [notReserved, this, Bool.not_eq_false', List.contains_eq_mem, decide_eq_true_eq]
      exact hres
  have hct := letter_token (hlet c (by simp))
  have hh : ∀ q, isTokenChar q = false → ∀ x y, c :: t ++ (b :: g ++ s) = x :: y → x ≠ q := by
    intro q hq x y e
    simp only [List.cons_append, List.cons.injEq] at e
    rw [← e.1]; exact tokenChar_ne hct hq
  have hf := field_none htok (hh _ (by decide)) (hh _ (by decide))
  have tg : ∀ {R : Type} [Env R] {ρ : R} {t' : Char} {ts : Str}, lowerC t' ∈ c!"ntselh" →
      (tagNoCaseL t' ts : P R true true Str).run ρ (c :: t ++ (b :: g ++ s)) = none := by
    intro R _ ρ t' ts h
    exact tagi_ne (by rw [hc]; exact fun e => hx (by rw [← e]; exact h))
  have hdr : (c :: t ++ (b :: g ++ s)).dropWhile isSpace = c :: t ++ (b :: g ++ s) := drop_stops (Stops.cons (tokenChar_space hct))
  have e1 : (pre (ws (tagi! "NOT")) (callE .lterm) : G true Expr).run fix (c :: t ++ (b :: g ++ s)) = none := by
    rw [run_pre, run_ws, hdr, tg (by decide)]; rfl
  have e2 : timeOpts.run () (c :: t ++ (b :: g ++ s)) = none := by
    have m : timeModifier.run () (c :: t ++ (b :: g ++ s)) = none := by
      simp only [timeModifier, run_alt, run_map, run_pre, tg (show lowerC 's' ∈ c!"ntselh" by decide),
        tg (show lowerC 'e' ∈ c!"ntselh" by decide), tg (show lowerC 'l' ∈ c!"ntselh" by decide)]; rfl
    have e0 : timeFormat.run () (c :: t ++ (b :: g ++ s)) = some (c :: t ++ (b :: g ++ s), c!"%m/%d/%Y:%H:%M:%S.") := by
      rw [timeFormat, run_map, run_opt, run_pre, tg (by decide)]; rfl
    rw [timeOpts, run_map, run_seq, e0, Option.bind_some, spaceList1, run_recast, run_sepList1, m]; rfl
  have e3 : callExpr.run fix (c :: t ++ (b :: g ++ s)) = none := by
    rw [callExpr, run_map, callP, run_seq, run_lift, htok]; rfl
  have e4 : comparisonExpression.run fix (c :: t ++ (b :: g ++ s)) = none := by
    rw [comparisonExpression, run_alt, run_map, run_seq, run_lift, hf, fieldInExpr, run_map, run_lift, fieldIn, run_sepPair, hf]; rfl
  have e5 : searchModifier.run () (c :: t ++ (b :: g ++ s)) = none := by
    simp only [searchModifier, run_alt, run_map, run_pre, tg (show lowerC 's' ∈ c!"ntselh" by decide),
      tg (show lowerC 'h' ∈ c!"ntselh" by decide), tg (show lowerC 'e' ∈ c!"ntselh" by decide)]; rfl
  rw [lterm, run_alt, parenthesized_none _ (hh _ (by decide)), run_alt, run_map, e1, run_alt, run_map, run_lift, e2, run_alt, e3,
    run_alt, e4, run_map, run_lift, e5]
  rfl

/-- what may follow a condition, as far as its first character tells -/
def TermEnd (s : Str) : Prop := ∀ c t, s = c :: t → c ∈ c!")|] \t\r\n"

theorem TermEnd.head {s : Str} (h : TermEnd s) {f : Char → Bool} (hf : ∀ c ∈ c!")|] \t\r\n", f c = false) : Stops f s :=
  fun c t e => hf c (h c t e)

theorem TermEnd.after {s : Str} (h : TermEnd s) : After s := ⟨h.head (by decide), h.head (by decide), h.head (by decide)⟩

theorem TermEnd.noParen {s : Str} (h : TermEnd s) : ∀ c t, s = c :: t → c ≠ '(' := fun c t e => by
  have := h.head (f := (· == '(')) (by decide) c t e; simpa using this

theorem termEnd_nil : TermEnd [] := fun _ _ e => by simp at e
theorem termEnd_gap {g s : Str} (h : Gap g) : TermEnd (g ++ s) := by
  obtain ⟨c, t, rfl, hc⟩ := gap_head h
  intro c' t' e
  simp only [List.cons_append, List.cons.injEq] at e
  rw [← e.1]; exact space_all (f := fun c => c ∈ c!")|] \t\r\n") (by decide) hc
theorem termEnd_close {c : Char} {s : Str} (h : c ∈ c!")|]") : TermEnd (c :: s) := by
  intro c' t' e
  simp only [List.cons.injEq] at e
  rw [← e.1]; exact (by decide : ∀ c ∈ c!")|]", c ∈ c!")|] \t\r\n") c h

theorem comparison_read {op u : Str} (h : Op 6 op) (hu : ∀ c t, u = c :: t → c ≠ '=') (hne : u ≠ []) :
    comparisonOperator.run () (op ++ u) = some (u, op) := by
  obtain ⟨c, t, rfl⟩ := List.exists_cons_of_ne_nil hne
  have hc : ¬ '=' = c := fun e => hu c t rfl e.symm
  cases h <;> simp [comparisonOperator, run_alt, run_tag, run_map, stripPrefix?, hc]

theorem op6_head {op : Str} (h : Op 6 op) : ∃ c t, op = c :: t ∧ isSpace c = false ∧ isLetter c = false ∧ tokenCont c = false ∧
    (c == '.') = false ∧ c ≠ '(' := by
  cases h <;> exact ⟨_, _, rfl, by decide⟩


/-- the right side of a comparison -/
def rightP : G true Expr := callExpr <||> P.map (fun v => .const v) (lift literal)

theorem right_read {e : Expr} {t rest : Str} (h : CondRight e t) (hr : TermEnd rest) : rightP.run fix (t ++ rest) = some (rest, e) := by
  cases h with
  | @lit v t h =>
    have hl := literal_read h (hr.head (f := isExtraChar) (by decide))
    have hc : callExpr.run fix (t ++ rest) = none := by
      rcases literal_head h with ⟨w, d, rfl, hw, hd⟩ | ⟨s, rfl⟩
      · have hp : ∀ c t, d ++ rest = c :: t → c ≠ '(' := by
          cases hd with
          | nil => exact hr.noParen
          | dot => intro c t e; simp only [List.cons_append, List.cons.injEq] at e; rw [← e.1]; decide
        rw [List.append_assoc, callExpr, run_map, callP, run_seq, run_lift, run_token hw.ne hw.token (hd.token hr.after) hw.res,
          Option.bind_some, parenthesized_none _ hp]
        rfl
      · rfl
    rw [rightP, run_alt, hc, run_map, run_lift, hl]; rfl
  | @call f es g₁ g₂ s hf h1 h2 ha =>
    have := call_read (rest := rest) hf h1 h2 ha
    have e : f ++ '(' :: (g₁ ++ (s ++ (g₂ ++ c!")"))) ++ rest = f ++ '(' :: (g₁ ++ (s ++ (g₂ ++ ')' :: rest))) := by simp
    rw [e, rightP, run_alt, callExpr, run_map, this]; rfl

theorem right_head {e : Expr} {t : Str} (h : CondRight e t) : ∃ c u, t = c :: u ∧ isSpace c = false ∧ c ≠ '=' := by
  have key : ∀ {w u : Str}, LeadWord w → ∃ c v, w ++ u = c :: v ∧ isSpace c = false ∧ c ≠ '=' := fun {w u} hw => by
    obtain ⟨c, t, rfl, hc⟩ := hw.head
    exact ⟨c, _, rfl, tokenChar_space hc, tokenChar_ne hc (by decide)⟩
  cases h with
  | lit h =>
    rcases literal_head h with ⟨w, d, rfl, hw, hd⟩ | ⟨s, rfl⟩
    · exact key hw
    · exact ⟨_, _, rfl, by decide, by decide⟩
  | call hf _ _ _ => exact key (name_lead hf)

/-- The alternative for NOT does not apply to other words. -/
theorem notAlt2_none {w d u : Str} (hw : LeadWord w) (hn : lower ((w ++ d).take 3) ≠ c!"not") (hu : Stops isLetter (d ++ u)) :
    (pre (ws (tagi! "NOT")) (callE .lterm) : G true Expr).run fix (w ++ (d ++ u)) = none := by
  rw [run_pre, run_ws, drop_stops (lead_stops hw), run_tagi]
  cases h : stripPrefixCI? c!"NOT" (w ++ (d ++ u)) with
  | none => rfl
  | some y =>
    exfalso
    obtain ⟨m, r⟩ := y
    obtain ⟨w', e1, e2, e3⟩ := ci_word (by decide) hu h
    apply hn
    have hm : m.length = 3 := by have := congrArg List.length e3; simpa [lower] using this
    rw [e1, List.append_assoc, List.take_append_of_le_length (by omega), List.take_of_length_le (by omega), e3]; decide

/-- A condition that begins with a name is a call or a comparison. -/
theorem lterm_name {w d u : Str} (hw : IsName w) (hd : DotTail d) (hn : lower ((w ++ d).take 3) ≠ c!"not") (hu : ∃ c s, u = c :: s ∧ isLetter c = false)
    (ht : d ≠ [] ∨ lower w ∉ timeWords ∨ ∀ c s, u = c :: s → c ≠ '=') {r : Str} {e : Expr}
    (h : ((callExpr.run fix (w ++ (d ++ u))).or (comparisonExpression.run fix (w ++ (d ++ u)))) = some (r, e)) :
    lterm.run fix (w ++ (d ++ u)) = some (r, e) := by
  obtain ⟨c, s, rfl, hc⟩ := hu
  have hl := name_lead hw
  have hdu : ∃ c' s', d ++ c :: s = c' :: s' ∧ isLetter c' = false ∧ (lower w ∉ timeWords ∨ c' ≠ '=') := by
    cases hd with
    | nil => exact ⟨c, s, rfl, hc, (ht.resolve_left (by simp)).imp_right fun h => h c s rfl⟩
    | dot => exact ⟨'.', _, rfl, by decide, .inr (by decide)⟩
  obtain ⟨c', s', e', hc', ht'⟩ := hdu
  have e1 := notAlt2_none hl hn (by rw [e']; exact Stops.cons hc')
  have e2 : timeOpts.run () (w ++ (d ++ c :: s)) = none := by rw [e']; exact timeOpts_none hw.chars hc' ht'
  rw [lterm, run_alt, parenthesized_none _ (lead_ne hl (by decide)), run_alt, run_map, e1, run_alt, run_map, run_lift, e2, run_alt, run_alt,
    Option.map_none, Option.none_or, Option.map_none, Option.none_or, Option.none_or]
  cases h3 : callExpr.run fix (w ++ (d ++ c :: s)) with
  | some y => rw [h3, Option.some_or] at h; rw [← h]; rfl
  | none => rw [h3, Option.none_or] at h; rw [h]; rfl

/-- A comparison is read as one condition. -/
theorem lterm_cmp {f op g₁ g₂ t rest : Str} {r : Expr} (hf : CondName f) (ho : Op 6 op) (h1 : Blanks g₁) (h2 : Blanks g₂)
    (hn : CondRight r t) (hr : TermEnd rest) :
    lterm.run fix (f ++ (g₁ ++ (op ++ (g₂ ++ (t ++ rest))))) = some (rest, .binary (.const (.field f)) op r) := by
  obtain ⟨oc, ot, eo, o1, o2, o3, o4, o5⟩ := op6_head ho
  obtain ⟨nc, nt, en, hnc, hne⟩ := right_head hn
  have hafter : ∃ c s, g₁ ++ (op ++ (g₂ ++ (t ++ rest))) = c :: s ∧ isLetter c = false ∧ tokenCont c = false ∧
      (c == '.') = false ∧ c ≠ '(' := by
    rcases h1 with rfl | h1
    · exact ⟨oc, _, by rw [eo]; rfl, o2, o3, o4, o5⟩
    · obtain ⟨b, g, rfl, hb⟩ := gap_head h1
      exact ⟨b, _, rfl, space_all (f := fun c => isLetter c = false ∧ tokenCont c = false ∧ (c == '.') = false ∧ c ≠ '(') (by decide) hb⟩
  obtain ⟨ac, at_, ea, a1, a2, a3, a4⟩ := hafter
  have haft : After (g₁ ++ (op ++ (g₂ ++ (t ++ rest)))) := by rw [ea]; exact ⟨Stops.cons a1, Stops.cons a2, Stops.cons a3⟩
  have hos : Stops isSpace (op ++ (g₂ ++ (t ++ rest))) := by rw [eo]; exact Stops.cons o1
  have hns : Stops isSpace (t ++ rest) := by rw [en]; exact Stops.cons hnc
  have hd1 := drop_blanks h1 hos
  have hd2 := drop_blanks h2 hns
  have hcmp : comparisonOperator.run () (op ++ (g₂ ++ (t ++ rest))) = some (g₂ ++ (t ++ rest), op) := by
    apply comparison_read ho
    · intro c s e
      rcases h2 with rfl | h2
      · rw [en] at e
        simp only [List.nil_append, List.cons_append, List.cons.injEq] at e
        rw [← e.1]; exact hne
      · obtain ⟨b, g, rfl, hb⟩ := gap_head h2
        simp only [List.cons_append, List.cons.injEq] at e
        rw [← e.1]; exact space_ne hb (by decide)
    · simp [en]
  have hfield := run_fieldText hf.field haft
  have e4 : comparisonExpression.run fix (f ++ (g₁ ++ (op ++ (g₂ ++ (t ++ rest))))) = some (rest, .binary (.const (.field f)) op r) := by
    have := right_read hn hr
    rw [rightP] at this
    rw [comparisonExpression, run_alt, run_map, run_seq, run_lift, hfield, Option.bind_some, run_seq, run_lift, run_ws, hd1, hcmp,
      Option.map_some, hd2, Option.bind_some, this]
    rfl
  obtain ⟨hft, hnot, htime⟩ := hf
  obtain ⟨w, d, rfl, h', hd⟩ := fieldText_parts hft
  have hw := name_lead h'.name
  have e3 : callExpr.run fix (w ++ (d ++ (g₁ ++ (op ++ (g₂ ++ (t ++ rest)))))) = none := by
    rw [callExpr, run_map, callP, run_seq, run_lift, run_token hw.ne hw.token (hd.token haft) hw.res, Option.bind_some,
      parenthesized_none _ (fun c t e => ?_)]
    · rfl
    · cases hd with
      | nil => rw [List.nil_append, ea] at e; simp only [List.cons.injEq] at e; rw [← e.1]; exact a4
      | dot => simp only [List.cons_append, List.cons.injEq] at e; rw [← e.1]; decide
  rw [List.append_assoc] at e4 ⊢
  refine lterm_name h'.name hd hnot ⟨ac, at_, ea, a1⟩ ?_ (by rw [e3, Option.none_or, e4])
  by_cases hd0 : d = []
  · subst hd0; right; left; rw [List.append_nil] at htime; exact htime
  · exact .inl hd0

/-- A membership test is read as one condition. -/
theorem lterm_in {f g₁ k g₂ g₃ g₄ s rest : Str} {vs : List Constant} (hf : CondName f) (hg : Gap g₁) (hk : lower k = c!"in") (h2 : Blanks g₂)
    (h3 : Blanks g₃) (h4 : Blanks g₄) (hv : ValueList vs s) :
    lterm.run fix (f ++ (g₁ ++ (k ++ (g₂ ++ '(' :: (g₃ ++ (s ++ (g₄ ++ ')' :: rest))))))) = some (rest, .fieldIn f (vs.map .const)) := by
  obtain ⟨b, g, eg, hb⟩ := gap_head hg
  have haft : After (g₁ ++ (k ++ (g₂ ++ '(' :: (g₃ ++ (s ++ (g₄ ++ ')' :: rest)))))) := gap_after hg
  have hks : Stops isSpace (k ++ (g₂ ++ '(' :: (g₃ ++ (s ++ (g₄ ++ ')' :: rest))))) := by
    obtain ⟨c, t, rfl, hc, _⟩ := lower_cons hk
    exact Stops.cons (tokenChar_space (letter_token (lowerC_letter (by rw [hc]; decide))))
  have hfi : fieldIn.run () (f ++ (g₁ ++ (k ++ (g₂ ++ '(' :: (g₃ ++ (s ++ (g₄ ++ ')' :: rest))))))) = some (rest, f, vs) := by
    rw [fieldIn, run_sepPair, run_fieldText hf.field haft, Option.bind_some, run_ws, drop_gap hg hks,
      tagi_read (by rw [hk]; decide), Option.map_some, Option.bind_some, drop_blanks h2 (Stops.cons (by decide)),
      values_paren hv h3 h4]
    rfl
  have hcmp : comparisonOperator.run () (k ++ (g₂ ++ '(' :: (g₃ ++ (s ++ (g₄ ++ ')' :: rest))))) = none := by
    obtain ⟨c, t, rfl, hc, _⟩ := lower_cons hk
    have hne : ∀ q, lowerC q ≠ 'i' → c ≠ q := fun q hq e => hq (by rw [← e, hc])
    simp only [comparisonOperator, run_alt, run_map, List.cons_append, tag_ne (hne '<' (by decide)), tag_ne (hne '>' (by decide)),
      tag_ne (hne '=' (by decide)), tag_ne (hne ':' (by decide)), tag_ne (hne '!' (by decide))]
    rfl
  have e4 : comparisonExpression.run fix (f ++ (g₁ ++ (k ++ (g₂ ++ '(' :: (g₃ ++ (s ++ (g₄ ++ ')' :: rest))))))) =
      some (rest, .fieldIn f (vs.map .const)) := by
    rw [comparisonExpression, run_alt, run_map, run_seq, run_lift, run_fieldText hf.field haft, Option.bind_some, run_seq, run_lift, run_ws,
      drop_gap hg hks, hcmp, fieldInExpr, run_map, run_lift, hfi]
    rfl
  obtain ⟨hft, hnot, htime⟩ := hf
  obtain ⟨w, d, rfl, h', hd⟩ := fieldText_parts hft
  have hw := name_lead h'.name
  generalize hU : g₁ ++ (k ++ (g₂ ++ '(' :: (g₃ ++ (s ++ (g₄ ++ ')' :: rest))))) = U at *
  have eU : U = b :: (g ++ (k ++ (g₂ ++ '(' :: (g₃ ++ (s ++ (g₄ ++ ')' :: rest)))))) := by rw [← hU, eg]; rfl
  have e3 : callExpr.run fix (w ++ (d ++ U)) = none := by
    rw [callExpr, run_map, callP, run_seq, run_lift, run_token hw.ne hw.token (hd.token haft) hw.res, Option.bind_some,
      parenthesized_none _ (fun c t e => ?_)]
    · rfl
    · cases hd with
      | nil => rw [List.nil_append, eU] at e; simp only [List.cons.injEq] at e; rw [← e.1]; exact space_ne hb (by decide)
      | dot => simp only [List.cons_append, List.cons.injEq] at e; rw [← e.1]; decide
  rw [List.append_assoc] at e4 ⊢
  refine lterm_name h'.name hd hnot ⟨b, _, eU, space_all (f := fun c => isLetter c = false) (by decide) hb⟩ ?_ (by rw [e3, Option.none_or, e4])
  by_cases hd0 : d = []
  · subst hd0; right; left; rw [List.append_nil] at htime; exact htime
  · exact .inl hd0

/-- A call is read as one condition. -/
theorem lterm_call {f : Str} {es : List Expr} {g₁ g₂ s rest : Str} (hf : IsName f) (hn : lower (f.take 3) ≠ c!"not")
    (h1 : Blanks g₁) (h2 : Blanks g₂) (ha : WrittenArgs es s) :
    lterm.run fix (f ++ '(' :: (g₁ ++ (s ++ (g₂ ++ ')' :: rest)))) = some (rest, .call f es) := by
  have := call_read (rest := rest) hf h1 h2 ha
  have h := lterm_name (d := []) (u := '(' :: (g₁ ++ (s ++ (g₂ ++ ')' :: rest)))) (r := rest) (e := .call f es) hf .nil (by simpa using hn)
    ⟨'(', _, rfl, by decide⟩ (.inr (.inr fun c s e => by simp only [List.cons.injEq] at e; rw [← e.1]; decide))
    (by rw [List.nil_append, callExpr, run_map, this]; rfl)
  exact h

theorem cond_stops_append {s : Str} (h : s ≠ [] ∧ Stops isSpace s) (u : Str) : s ++ u ≠ [] ∧ Stops isSpace (s ++ u) :=
  ⟨by simp [h.1], stops_append h.2 h.1⟩

theorem word_stops {n : Str} {x : Char} {xs : Str} (h : lower n = x :: xs) (hx : ∀ b, isSpace b = true → lowerC b ≠ x) :
    n ≠ [] ∧ Stops isSpace n := by
  obtain ⟨c, t, rfl, hc, _⟩ := lower_cons h
  refine ⟨by simp, Stops.cons ?_⟩
  cases hs : isSpace c with
  | false => rfl
  | true => exact absurd hc (hx c hs)


theorem lead_cond {w u : Str} (hw : LeadWord w) : w ++ u ≠ [] ∧ Stops isSpace (w ++ u) := ⟨by simp [hw.ne], lead_stops hw⟩

theorem condTerm_stops {e : Expr} {s : Str} (h : CondTerm e s) : s ≠ [] ∧ Stops isSpace s := by
  have hfield : ∀ {f u : Str}, FieldText f → f ++ u ≠ [] ∧ Stops isSpace (f ++ u) := fun {f u} hf => by
    obtain ⟨c, t, rfl, _⟩ := fieldText_head hf
    exact ⟨by simp, fieldText_stops hf⟩
  cases h with
  | cmp hf _ _ _ _ => exact hfield hf.field
  | isIn hf _ _ _ _ _ _ => exact hfield hf.field
  | call hf _ _ _ _ => exact lead_cond (name_lead hf)
  | paren _ _ _ => exact ⟨by simp, Stops.cons (by decide)⟩
  | not hn _ _ =>
    rw [List.append_assoc]
    refine cond_stops_append (word_stops hn fun b hb => ?_) _
    exact space_all (f := fun b => lowerC b ≠ 'n') (by decide) hb
  | notParen hn _ _ _ =>
    refine cond_stops_append (word_stops hn fun b hb => ?_) _
    exact space_all (f := fun b => lowerC b ≠ 'n') (by decide) hb

theorem condAnds_stops {es : List Expr} {s : Str} (h : CondAnds es s) : s ≠ [] ∧ Stops isSpace s := by
  cases h with
  | one h => exact condTerm_stops h
  | cons h _ _ _ _ => simp only [List.append_assoc]; exact cond_stops_append (condTerm_stops h) _
  | next h _ _ _ => simp only [List.append_assoc]; exact cond_stops_append (condTerm_stops h) _

theorem condOrs_stops {es : List Expr} {s : Str} (h : CondOrs es s) : s ≠ [] ∧ Stops isSpace s := by
  cases h with
  | single h => exact condAnds_stops h
  | more h _ _ _ _ => simp only [List.append_assoc]; exact cond_stops_append (condAnds_stops h) _

theorem condOr_stops {e : Expr} {s : Str} (h : CondOr e s) : s ≠ [] ∧ Stops isSpace s := by
  cases h with
  | mk h => exact condOrs_stops h

/-- the separators of the two lists -/
def andSep : G true Str := ws (tagi! "AND") <||> ms1
def orSep : G true Str := ws (tagi! "OR")

/-- a list of `p` separated by `s` is read from `i`, leaving `rest` -/
def Chain {α : Type} (s : G true Str) (p : Str → PRes α) (as : List α) (i rest : Str) : Prop :=
  ∃ a as' u, as = a :: as' ∧ p i = some (u, a) ∧ ∀ n, u.length ≤ n → sepLoop (s.run fix) p n u = (rest, as')

theorem chain_one {α : Type} {s : G true Str} {p : Str → PRes α} {a : α} {i rest : Str} (h : p i = some (rest, a))
    (hs : ∀ r m, s.run fix rest = some (r, m) → p r = none) : Chain s p [a] i rest := by
  refine ⟨a, [], rest, rfl, h, fun n _ => ?_⟩
  cases n with
  | zero => rfl
  | succ n =>
    rw [sepLoop]
    cases h' : s.run fix rest with
    | none => rfl
    | some x => simp [hs x.1 x.2 h']

theorem chain_cons {α : Type} {s : G true Str} {p : Str → PRes α} {a : α} {as : List α} {i u v rest m : Str}
    (h : p i = some (u, a)) (hs : s.run fix u = some (v, m)) (hu : v.length < u.length) (hl : ∀ b w, p v = some (w, b) → w.length ≤ v.length)
    (hc : Chain s p as v rest) : Chain s p (a :: as) i rest := by
  obtain ⟨b, bs, w, rfl, hb, hw⟩ := hc
  refine ⟨a, b :: bs, u, rfl, h, fun n hn => ?_⟩
  cases n with
  | zero => omega
  | succ n =>
    have := hl b w hb
    rw [sepLoop]
    simp [hs, hb, hw n (by omega)]

theorem suf_length {c : Bool} {g : Bool} {α : Type} {p : P Rec g c α} {i r : Str} {a : α} (h : p.run fix i = some (r, a)) : r.length ≤ i.length :=
  (p.suf fix i r a h).length_le

theorem chain_list {g c : Bool} {α : Type} {s : G true Str} {p : P Rec g c α} {as : List α} {i rest : Str}
    (h : Chain s (p.run fix) as i rest) : (sepList1 s p).run fix i = some (rest, as) := by
  obtain ⟨a, as', u, rfl, h1, h2⟩ := h
  rw [run_sepList1, h1, Option.map_some, h2 _ (Nat.le_refl _)]


/-- no further condition can be read after blanks or AND -/
def AndStop (rest : Str) : Prop := TermEnd rest ∧ ∀ r m, andSep.run fix rest = some (r, m) → lterm.run fix r = none

/-- neither can a further group after OR -/
def OrStop (rest : Str) : Prop := AndStop rest ∧ ∀ r m, orSep.run fix rest = some (r, m) → lgroup.run fix r = none

theorem lterm_end {u : Str} (h : u = [] ∨ ∃ c s, u = c :: s ∧ c ∈ c!")|]") : lterm.run fix u = none := by
  rcases h with rfl | ⟨c, s, rfl, hc⟩
  · rfl
  · simp only [List.mem_cons, List.not_mem_nil, or_false] at hc
    rcases hc with rfl | rfl | rfl <;> rfl

theorem end_stops {u : Str} (h : u = [] ∨ ∃ c s, u = c :: s ∧ c ∈ c!")|]") : Stops isSpace u := by
  rcases h with rfl | ⟨c, s, rfl, hc⟩
  · exact Stops.nil _
  · exact Stops.cons ((by decide : ∀ c ∈ c!")|]", isSpace c = false) c hc)

/-- blanks and the end of the text or of the condition -/
theorem orStop_end {g u : Str} (hg : Blanks g) (h : u = [] ∨ ∃ c s, u = c :: s ∧ c ∈ c!")|]") : OrStop (g ++ u) := by
  have hd := drop_blanks hg (end_stops h)
  have h1 : TermEnd (g ++ u) := by
    rcases hg with rfl | hg
    · rcases h with rfl | ⟨c, s, rfl, hc⟩
      · exact termEnd_nil
      · exact termEnd_close hc
    · exact termEnd_gap hg
  have hAnd : (tagi! "AND" : G true Str).run fix u = none := by
    rcases h with rfl | ⟨c, s, rfl, hc⟩
    · rfl
    · exact tagi_ne ((by decide : ∀ c ∈ c!")|]", lowerC 'A' ≠ lowerC c) c hc)
  have hOr : (tagi! "OR" : G true Str).run fix u = none := by
    rcases h with rfl | ⟨c, s, rfl, hc⟩
    · rfl
    · exact tagi_ne ((by decide : ∀ c ∈ c!")|]", lowerC 'O' ≠ lowerC c) c hc)
  refine ⟨⟨h1, fun r m hr => ?_⟩, fun r m hr => ?_⟩
  · rw [andSep, run_alt, run_ws, hd, hAnd, Option.map_none, Option.none_or] at hr
    have : r = u := by
      rw [← hd]
      cases hgu : g ++ u with
      | nil => rw [hgu] at hr; simp [run_ms1] at hr
      | cons c t =>
        rw [hgu, run_ms1] at hr
        cases hc : isSpace c with
        | false => simp [hc] at hr
        | true => simp only [hc, if_true, Option.some.injEq, Prod.mk.injEq] at hr; rw [List.dropWhile_cons_of_pos hc, hr.1]
    rw [this]; exact lterm_end h
  · rw [orSep, run_ws, hd, hOr] at hr; simp at hr

theorem word_drop {g op x : Str} {t : Char} {ts : Str} (hg : Gap g) (h : lower op = t :: ts)
    (hx : ∀ b, isSpace b = true → lowerC b ≠ t) : (g ++ (op ++ x)).dropWhile isSpace = op ++ x :=
  drop_gap hg (cond_stops_append (word_stops h hx) x).2

theorem foldl_joinLeft (op : Str) : ∀ (es : List Expr) (e : Expr), combine op e es = joinLeft op e es
  | [], _ => rfl
  | x :: xs, e => foldl_joinLeft op xs (.binary e op x)

theorem and_read {op g₁ g₂ x : Str} (ho : lower op = c!"and") (h1 : Gap g₁) (h2 : Blanks g₂) (hx : Stops isSpace x) :
    andSep.run fix (g₁ ++ (op ++ (g₂ ++ x))) = some (x, op) := by
  have hd := word_drop (x := g₂ ++ x) h1 ho fun b hb => space_all (f := fun b => lowerC b ≠ 'a') (by decide) hb
  rw [andSep, run_alt, run_ws, hd, tagi_read (by rw [ho]; decide), Option.map_some, drop_blanks h2 hx]
  rfl

theorem or_read {op g₁ g₂ x : Str} (ho : lower op = c!"or") (h1 : Gap g₁) (h2 : Gap g₂) (hx : Stops isSpace x) :
    orSep.run fix (g₁ ++ (op ++ (g₂ ++ x))) = some (x, op) := by
  have hd := word_drop (x := g₂ ++ x) h1 ho fun b hb => space_all (f := fun b => lowerC b ≠ 'o') (by decide) hb
  rw [orSep, run_ws, hd, tagi_read (by rw [ho]; decide), Option.map_some, drop_gap h2 hx]

theorem gap_length {g : Str} (h : Gap g) : 0 < g.length := by
  obtain ⟨c, t, rfl, _⟩ := gap_head h; simp


theorem gap_ms1 {g u : Str} (hg : Gap g) (hu : Stops isSpace u) : ∃ m, (ms1 : G true Str).run fix (g ++ u) = some (u, m) := by
  obtain ⟨b, g', rfl, hb⟩ := gap_head hg
  have hd := drop_gap hg hu
  rw [List.cons_append] at hd ⊢
  rw [List.dropWhile_cons_of_pos hb] at hd
  refine ⟨b :: (g' ++ u).takeWhile isSpace, ?_⟩
  rw [run_ms1]
  simp only [hb, if_true, hd]

theorem next_read {g x : Str} (hg : Gap g) (hx : Stops isSpace x) (hn : lower (x.take 3) ≠ c!"and") : ∃ m, andSep.run fix (g ++ x) = some (x, m) := by
  obtain ⟨m, hm⟩ := gap_ms1 hg hx
  refine ⟨m, ?_⟩
  rw [andSep, run_alt, run_ws, drop_gap hg hx, tagi_take (t := 'A') (ts := c!"ND") hn, Option.map_none, Option.none_or, hm]

/-- blanks and a reserved word other than AND -/
theorem andStop_word {op g₁ g₂ s : Str} {x : Char} {xs : Str} (ho : lower op = x :: xs) (hl : ∀ c ∈ x :: xs, isLetter c = true)
    (hres : Reserved (x :: xs)) (hx : x ∉ c!"ntselha") (h1 : Gap g₁) (h2 : Gap g₂) : AndStop (g₁ ++ (op ++ (g₂ ++ s))) := by
  refine ⟨termEnd_gap h1, fun r m hr => ?_⟩
  obtain ⟨c, t, e, hc, _⟩ := lower_cons ho
  have hs : Stops isSpace (op ++ (g₂ ++ s)) := by
    rw [e]; exact Stops.cons (tokenChar_space (letter_token (lowerC_letter (by rw [hc]; exact hl x (by simp)))))
  have ht : (tagi! "AND" : G true Str).run fix (op ++ (g₂ ++ s)) = none := by
    subst e; exact tagi_ne (by rw [hc]; intro e'; apply hx; rw [← e']; decide)
  obtain ⟨m', hm⟩ := gap_ms1 h1 hs
  rw [andSep, run_alt, run_ws, drop_gap h1 hs, ht, Option.map_none, Option.none_or, hm] at hr
  simp only [Option.some.injEq, Prod.mk.injEq] at hr
  rw [← hr.1]
  exact lterm_word ho hl hres (fun h => hx ((by decide : ∀ c ∈ c!"ntselh", c ∈ c!"ntselha") x h)) h2

theorem andStop_or {op g₁ g₂ s : Str} (ho : lower op = c!"or") (h1 : Gap g₁) (h2 : Gap g₂) : AndStop (g₁ ++ (op ++ (g₂ ++ s))) :=
  andStop_word ho (by decide) (by decide) (by decide) h1 h2

theorem orStop_by {op g₁ g₂ s : Str} (ho : lower op = c!"by") (h1 : Gap g₁) (h2 : Gap g₂) : OrStop (g₁ ++ (op ++ (g₂ ++ s))) := by
  refine ⟨andStop_word ho (by decide) (by decide) (by decide) h1 h2, fun r m hr => ?_⟩
  obtain ⟨c, t, e, hc, _⟩ := lower_cons ho
  rw [orSep, run_ws, word_drop h1 ho fun b hb => space_all (f := fun b => lowerC b ≠ 'b') (by decide) hb] at hr
  rw [e, List.cons_append, tagi_ne (by rw [hc]; decide)] at hr
  simp at hr

def TermGood (e : Expr) (s : Str) : Prop := ∀ rest, TermEnd rest → lterm.run fix (s ++ rest) = some (rest, e)
def AndsGood (es : List Expr) (s : Str) : Prop := ∀ rest, AndStop rest → Chain andSep (lterm.run fix) es (s ++ rest) rest
def OrsGood (es : List Expr) (s : Str) : Prop := ∀ rest, OrStop rest → Chain orSep (lgroup.run fix) es (s ++ rest) rest

theorem cond_paren {e : Expr} {g₁ g₂ s rest : Str} (h1 : Blanks g₁) (h2 : Blanks g₂) (h : CondOr e s)
    (ih : ∀ rest, OrStop rest → lexpr.run fix (s ++ rest) = some (rest, e)) :
    (parenthesized (callE .lexpr)).run fix ('(' :: (g₁ ++ (s ++ (g₂ ++ ')' :: rest)))) = some (rest, e) := by
  have hs := condOr_stops h
  have : (callE .lexpr).run fix (s ++ (g₂ ++ ')' :: rest)) = some (g₂ ++ ')' :: rest, e) :=
    (fix_eq .lexpr _).trans (ih _ (orStop_end h2 (.inr ⟨')', rest, rfl, by decide⟩)))
  exact parenthesized_read h1 (cond_stops_append hs _).2 this (close_drop h2)

/-- NOT is recognised in front of any condition, with or without blanks between them -/
theorem lterm_not {n g s : Str} {e : Expr} (hn : lower n = c!"not") (hg : Blanks g) (h : CondTerm e s) (ih : TermGood e s) :
    TermGood (.unary c!"NOT" e) (n ++ g ++ s) := by
  intro rest hr
  have hs := condTerm_stops h
  obtain ⟨c, t, en, hc, _⟩ := lower_cons hn
  have hns := word_stops hn fun b hb => space_all (f := fun b => lowerC b ≠ 'n') (by decide) hb
  have hp : ∀ x y, n ++ g ++ s ++ rest = x :: y → x ≠ '(' := by
    intro x y e
    rw [en] at e
    simp only [List.cons_append, List.cons.injEq] at e
    rw [← e.1]; rintro rfl; revert hc; decide
  have hd : (n ++ g ++ s ++ rest).dropWhile isSpace = n ++ g ++ s ++ rest := by
    simp only [List.append_assoc]
    exact drop_stops (cond_stops_append hns _).2
  have hcall : (callE .lterm).run fix (s ++ rest) = some (rest, e) := (fix_eq .lterm _).trans (ih rest hr)
  have e1 : (pre (ws (tagi! "NOT")) (callE .lterm) : G true Expr).run fix (n ++ g ++ s ++ rest) = some (rest, e) := by
    rw [run_pre, run_ws, hd, List.append_assoc, List.append_assoc, tagi_read (by rw [hn]; decide), Option.map_some,
      drop_blanks hg (cond_stops_append hs _).2, Option.bind_some, hcall]
  rw [lterm, run_alt, parenthesized_none _ hp, run_alt, run_map, e1]
  rfl

mutual
theorem condTerm_good : ∀ {e : Expr} {s : Str}, CondTerm e s → TermGood e s
  | _, _, .cmp hf ho h1 h2 hn => by
    intro rest hr
    have := lterm_cmp hf ho h1 h2 hn hr
    simpa using this
  | _, _, .isIn hf hg hk h2 h3 h4 hv => by
    intro rest hr
    have := lterm_in (rest := rest) hf hg hk h2 h3 h4 hv
    simpa using this
  | _, _, .call hf hn h1 h2 ha => by
    intro rest hr
    have := lterm_call (rest := rest) hf hn h1 h2 ha
    simpa using this
  | _, _, @CondTerm.paren e g₁ g₂ s h1 h2 h => by
    have ih := condOr_good h
    intro rest hr
    have := cond_paren (rest := rest) h1 h2 h ih
    rw [lterm, run_alt, show '(' :: (g₁ ++ (s ++ (g₂ ++ c!")"))) ++ rest = '(' :: (g₁ ++ (s ++ (g₂ ++ ')' :: rest))) by simp, this]
    rfl
  | _, _, @CondTerm.not n g s e hn hg h => by
    have ih := condTerm_good h
    exact lterm_not hn (.inr hg) h ih
  | _, _, @CondTerm.notParen n g₁ g₂ s e hn h1 h2 h => by
    have ih := condOr_good h
    intro rest hr
    obtain ⟨c, t, en, hc, _⟩ := lower_cons hn
    have hns := word_stops hn fun b hb => space_all (f := fun b => lowerC b ≠ 'n') (by decide) hb
    have e0 : n ++ '(' :: (g₁ ++ (s ++ (g₂ ++ c!")"))) ++ rest = n ++ '(' :: (g₁ ++ (s ++ (g₂ ++ ')' :: rest))) := by simp
    have hp : ∀ x y, n ++ '(' :: (g₁ ++ (s ++ (g₂ ++ ')' :: rest))) = x :: y → x ≠ '(' := by
      intro x y e
      rw [en] at e
      simp only [List.cons_append, List.cons.injEq] at e
      rw [← e.1]; rintro rfl; revert hc; decide
    have hpar := cond_paren (rest := rest) h1 h2 h ih
    have hcall : (callE .lterm).run fix ('(' :: (g₁ ++ (s ++ (g₂ ++ ')' :: rest)))) = some (rest, e) :=
      (fix_eq .lterm _).trans (by show lterm.run fix _ = _; rw [lterm, run_alt, hpar]; rfl)
    have e1 : (pre (ws (tagi! "NOT")) (callE .lterm) : G true Expr).run fix (n ++ '(' :: (g₁ ++ (s ++ (g₂ ++ ')' :: rest)))) = some (rest, e) := by
      rw [run_pre, run_ws, drop_stops (cond_stops_append hns _).2, tagi_read (by rw [hn]; decide), Option.map_some,
        drop_stops (Stops.cons (by decide)), Option.bind_some, hcall]
    rw [e0, lterm, run_alt, parenthesized_none _ hp, run_alt, run_map, e1]
    rfl

theorem condAnds_good : ∀ {es : List Expr} {s : Str}, CondAnds es s → AndsGood es s
  | _, _, @CondAnds.one e s h => by
    have ih := condTerm_good h
    intro rest hr; exact chain_one (ih rest hr.1) hr.2
  | _, _, @CondAnds.cons e es op g₁ g₂ s t h ho h1 h2 ha => by
    have ih1 := condTerm_good h
    have ih2 := condAnds_good ha
    intro rest hr
    have ht := cond_stops_append (condAnds_stops ha) rest
    have := chain_cons (ih1 _ (termEnd_gap h1 (s := op ++ (g₂ ++ (t ++ rest))))) (and_read ho h1 (.inr h2) ht.2)
      (by have := gap_length h1; simp; omega) (fun b w h => suf_length h) (ih2 rest hr)
    simpa using this
  | _, _, @CondAnds.next e es g s t h hg hn ha => by
    have ih1 := condTerm_good h
    have ih2 := condAnds_good ha
    intro rest hr
    have ht := cond_stops_append (condAnds_stops ha) rest
    have hn' : lower ((t ++ rest).take 3) ≠ c!"and" := by
      intro e
      by_cases hl : 3 ≤ t.length
      · rw [List.take_append_of_le_length hl] at e; exact hn e
      · rw [List.take_append] at e
        have e2 : t.take 3 = t := List.take_of_length_le (by omega)
        rw [e2] at e
        cases hrest : rest with
        | nil => rw [hrest, List.take_nil, List.append_nil] at e; apply hn; rw [e2]; exact e
        | cons c u =>
          have hc := hr.1 c u hrest
          obtain ⟨k, hk⟩ : ∃ k, 3 - t.length = k + 1 := ⟨2 - t.length, by omega⟩
          rw [hrest, hk, List.take_succ_cons] at e
          have hm : lowerC c ∈ lower (t ++ c :: u.take k) := List.mem_map_of_mem (by simp)
          rw [e] at hm
          exact (by decide : ∀ c ∈ c!")|] \t\r\n", lowerC c ∉ c!"and") c hc hm
    obtain ⟨m, hm⟩ := next_read hg ht.2 hn'
    have := chain_cons (ih1 _ (termEnd_gap hg (s := t ++ rest))) hm
      (by have := gap_length hg; simp; omega) (fun b w h => suf_length h) (ih2 rest hr)
    simpa using this

theorem condOrs_good : ∀ {es : List Expr} {s : Str}, CondOrs es s → OrsGood es s
  | _, _, @CondOrs.single e es s h => by
    have ih := condAnds_good h
    intro rest hr
    refine chain_one ?_ hr.2
    have := chain_list (ih rest hr.1)
    rw [lgroup, run_map]
    rw [show (ws (tagi! "AND") <||> ms1 : G true Str) = andSep from rfl, this, ← foldl_joinLeft]; rfl
  | _, _, @CondOrs.more e es os op g₁ g₂ s t h ho h1 h2 ha => by
    have ih1 := condAnds_good h
    have ih2 := condOrs_good ha
    intro rest hr
    have ht := cond_stops_append (condOrs_stops ha) rest
    have hg : lgroup.run fix (s ++ (g₁ ++ (op ++ (g₂ ++ (t ++ rest))))) = some (g₁ ++ (op ++ (g₂ ++ (t ++ rest))), joinLeft c!"AND" e es) := by
      have := chain_list (ih1 _ (andStop_or ho h1 h2 (s := t ++ rest)))
      rw [lgroup, run_map]
      rw [show (ws (tagi! "AND") <||> ms1 : G true Str) = andSep from rfl, this, ← foldl_joinLeft]; rfl
    have := chain_cons hg (or_read ho h1 h2 ht.2)
      (by have := gap_length h1; simp; omega) (fun b w h => suf_length h) (ih2 rest hr)
    simpa using this

theorem condOr_good : ∀ {e : Expr} {s : Str}, CondOr e s → ∀ rest, OrStop rest → lexpr.run fix (s ++ rest) = some (rest, e)
  | _, _, @CondOr.mk e es s h => by
    have ih := condOrs_good h
    intro rest hr
    have := chain_list (ih rest hr)
    rw [lexpr, run_map]
    rw [show (ws (tagi! "OR") : G true Str) = orSep from rfl, this, ← foldl_joinLeft]; rfl
end

end Verif
