import Verif.Lemmas.Bodies2
/-
Reading what follows the name of a command: fillnull, inputlookup, mvcombine, mvexpand, regex, spath.
-/
namespace Verif
open P Lex Spl Spec Lemmas

/-! ### Keywords with an equals sign -/

theorem take_word {t rest kw : Str} (hr : Stops (fun c => kw.contains (lowerC c)) rest) (h : lower ((t ++ rest).take kw.length) = kw) :
    kw.length ≤ t.length ∧ lower (t.take kw.length) = kw := by
  by_cases hl : kw.length ≤ t.length
  · rw [List.take_append_of_le_length hl] at h; exact ⟨hl, h⟩
  · exfalso
    have hlen := congrArg List.length h
    simp only [lower, List.length_map, List.length_take, List.length_append] at hlen
    obtain ⟨n, hn⟩ : ∃ n, kw.length - t.length = n + 1 := ⟨kw.length - t.length - 1, by omega⟩
    cases hrest : rest with
    | nil => rw [hrest] at hlen; simp at hlen; omega
    | cons d u =>
      have hm : d ∈ (t ++ rest).take kw.length := by rw [List.take_append, hn, hrest, List.take_succ_cons]; simp
      have hm2 : lowerC d ∈ kw := by rw [← h]; exact List.mem_map.2 ⟨d, hm, rfl⟩
      have h1 := hr d u hrest
      simp [hm2] at h1

theorem column_chars {f : Str} (h : FieldText f ∨ WildWord f) : ∀ c ∈ f, isNameChar c = true ∨ c = '.' ∨ c = '*' ∨ c = '-' := by
  intro c hc
  rcases h with h | h
  · rcases fieldText_chars h c hc with h | h
    · exact .inl h
    · exact .inr (.inl h)
  · rcases h.chars c hc with h | h | h
    · exact .inl h
    · exact .inr (.inr (.inl h))
    · exact .inr (.inr (.inr h))

theorem lowerC_eq {c : Char} (h : lowerC c = '=') : c = '=' := by
  unfold lowerC at h
  split at h
  · rename_i hc
    exfalso
    have h1 : c.toNat ≤ 90 := hc.2
    have h2 : 65 ≤ c.toNat := hc.1
    have hall : ∀ n : Nat, n < 91 → 65 ≤ n → Char.ofNat (n + 32) ≠ '=' := by decide
    exact hall c.toNat (by omega) h2 h
  · exact h

theorem column_noEq {f : Str} (h : FieldText f ∨ WildWord f) : '=' ∉ f := by
  intro hm
  rcases column_chars h _ hm with h | h | h | h <;> revert h <;> decide

/-- A column does not begin with a keyword that has an equals sign. -/
theorem noKey {f x kw : Str} (hf : '=' ∉ f) (hx : Stops (fun c => kw.contains (lowerC c)) x) (he : '=' ∈ kw) : lower ((f ++ x).take kw.length) ≠ kw := by
  intro e
  obtain ⟨-, h2⟩ := take_word hx e
  rw [← h2] at he
  obtain ⟨c, hc, e⟩ := List.mem_map.1 he
  exact hf (lowerC_eq e ▸ List.mem_of_mem_take hc)

theorem gap_stops {f : Char → Bool} (hf : f ' ' = false ∧ f '\t' = false ∧ f '\r' = false ∧ f '\n' = false) {g u : Str} (h : Gap g) : Stops f (g ++ u) := by
  obtain ⟨c, t, rfl, hc⟩ := gap_head h
  exact Stops.cons (space_all (f := fun c => f c = false) hf hc)

theorem many1_none {g : Bool} {α R : Type} [Env R] {ρ : R} {p : P R g true α} {i : Str} (h : p.run ρ i = none) : (many1 p).run ρ i = none := by
  rw [run_many1, h]; rfl

theorem many1_ws {g : Bool} {α R : Type} [Env R] {ρ : R} {p : P R g true α} {i : Str} : (many1 (ws p)).run ρ i = (many1 (ws p)).run ρ (i.dropWhile isSpace) := by
  rw [run_many1, run_many1, run_ws, run_ws, dropWhile_idem]

/-! ### fillnull -/

theorem wordOrQuoted_read {v w u : Str} (h : WordOrQuoted v w) (hu : Stops tokenCont u) : (doubleQuoted <||> token : L true Str).run () (w ++ u) = some (u, v) := by
  rw [run_alt]
  cases h with
  | word h => rw [doubleQuoted_none (lead_ne (name_lead h) (by decide)), run_token h.ne (name_lead h).token hu (isName_res h)]; rfl
  | number h => rw [doubleQuoted_none (lead_ne (number_lead _) (by decide)), run_token (number_lead _).ne (number_lead _).token hu (number_lead _).res]; rfl
  | quoted h => rw [quotable_read h]; rfl

theorem wordOrQuoted_stops {v w u : Str} (h : WordOrQuoted v w) : Stops isSpace (w ++ u) := by
  cases h with
  | word h => exact lead_stops (name_lead h)
  | number h => exact lead_stops (number_lead _)
  | quoted h => exact Stops.cons (by decide)

/-- the value of `fillnull` -/
theorem value_some {v w u : Str} (h : WordOrQuoted v w) (hu : Stops tokenCont u) :
    (opt (pre (tag! "value=") (lift (doubleQuoted <||> token))) : G false (Option Str)).run fix (c!"value=" ++ (w ++ u)) = some (u, some v) := by
  rw [run_opt, run_pre, run_tag]
  simp only [List.cons_append, List.nil_append, stripPrefix?, if_true, beq_self_eq_true, Option.map_some, Option.bind_some]
  rw [run_lift, wordOrQuoted_read h hu]; rfl

theorem value_none {x : Str} (h : lower (x.take 6) ≠ c!"value=") :
    (opt (pre (tag! "value=") (lift (doubleQuoted <||> token))) : G false (Option Str)).run fix x = some (x, none) := by
  refine opt_none ?_
  rw [run_pre, run_tag]
  cases hs : stripPrefix? c!"value=" x with
  | none => rfl
  | some r =>
    rw [stripPrefix?_some] at hs
    exact absurd (by rw [hs]; rfl) h

theorem End.key {rest kw : Str} (h : End rest) (hk : ∀ c ∈ c!"|] \t\r\n", kw.contains (lowerC c) = false) : Stops (fun c => kw.contains (lowerC c)) rest := h.head hk

theorem fillnull_value {k : Str} (hk : lower k = c!"fillnull") {v w : Str} (h : WordOrQuoted v w) : Staged k false (.fillNull v none) (c!"value=" ++ w) := by
  refine stage 9 rfl (by decide) (by decide) (fun x => run_pre _ _ _ _) hk (bodyGood_of (nx := id) (Stops.cons (by decide)) (fun _ => rfl) fun rest he => ?_)
  rw [List.append_assoc, run_map, run_seq, value_some h he.token, Option.bind_some, opt_none (many1_none (ws_end (by rw [run_lift, (field_end he).2])))]; rfl

theorem fillnull_all {k : Str} (hk : lower k = c!"fillnull") : Staged k false (.fillNull c!"0" none) [] := by
  refine stage 9 rfl (by decide) (by decide) (fun x => run_pre _ _ _ _) hk (bodyGood_of (nx := id) (Stops.nil _) (fun _ => rfl) fun rest he => ?_)
  rw [List.nil_append, run_map, run_seq, value_none, Option.bind_some, opt_none (many1_none (ws_end (by rw [run_lift, (field_end he).2])))]
  · rfl
  · have := noKey (f := []) (kw := c!"value=") (by simp) (he.key (by decide)) (by decide)
    simpa using this

/-- what follows the first column of a list -/
theorem items_key {S : Str → Str → Prop} {fs : List Str} {t rest kw : Str} (h : Items S Column fs t) (hs : ∀ g t u, S g t → Stops (fun c => kw.contains (lowerC c)) (g ++ u))
    (hr : Stops (fun c => kw.contains (lowerC c)) rest) (he : '=' ∈ kw) : lower ((t ++ rest).take kw.length) ≠ kw := by
  cases h with
  | one h => obtain ⟨rfl, h⟩ := h; exact noKey (column_noEq h) hr he
  | cons h hg _ => obtain ⟨rfl, h⟩ := h; rw [List.append_assoc, List.append_assoc]; exact noKey (column_noEq h) (hs _ _ _ hg) he

theorem fillnull_in {k : Str} (hk : lower k = c!"fillnull") {v : Option Str} {fs : List Str} {t s : Str} (hf : Items byGap Column fs t)
    (h : MaybeThen (fun v u => ∃ w, WordOrQuoted v w ∧ u = c!"value=" ++ w) v t s) : Staged k false (.fillNull (v.getD c!"0") (some fs)) s := by
  have hst := fun u => (column_items hf u).1
  cases h with
  | none =>
    refine stage 9 rfl (by decide) (by decide) (fun x => run_pre _ _ _ _) hk (bodyGood_of (nx := List.dropWhile isSpace) (stops_self hst) dropWhile_idem fun rest he => ?_)
    rw [run_map, run_seq, value_none, Option.bind_some, opt_some (many_columns hf he.after (field_end he).2).2]
    · rfl
    · exact items_key (kw := c!"value=") hf (fun g t u hg => gap_stops (by decide) hg) (he.key (by decide)) (by decide)
  | @some a s g t ha hg =>
    obtain ⟨w, ha, rfl⟩ := ha
    refine stage 9 rfl (by decide) (by decide) (fun x => run_pre _ _ _ _) hk (bodyGood_of (nx := List.dropWhile isSpace) (Stops.cons (by decide)) dropWhile_idem fun rest he => ?_)
    simp only [List.append_assoc]
    rw [run_map, run_seq, value_some ha (gap_after hg).token, Option.bind_some, run_opt, many1_ws, drop_gap hg (hst rest), (many_columns hf he.after (field_end he).2).2]
    rfl

/-! ### mvcombine, mvexpand -/

theorem loose_read {α : Type} {c : Bool} {key : Str} {p : α → Str → Prop} {a : α} {s u : Str} {t : Char} {ts : Str} {q : L c α} (h : LooseSetting key p a s) (hkey : key = lower (t :: ts))
    (hp : ∀ {a w}, p a w → Stops isSpace (w ++ u) ∧ q.run () (w ++ u) = some (u, a)) (hs : ∀ b, isSpace b = true → lowerC b ≠ lowerC t) :
    Stops isSpace (s ++ u) ∧ (pre (seq (ws (tagNoCaseL t ts)) (ws (tag! "="))) (ws (lift q)) : G true α).run fix (s ++ u) = some (u.dropWhile isSpace, a) := by
  obtain ⟨hk, h1, h2, ht⟩ := h
  rename_i k g₁ g₂ w
  rw [hkey] at hk
  have hst : Stops isSpace (k ++ (g₁ ++ '=' :: (g₂ ++ (w ++ u)))) := by
    have := word_stops (x := lowerC t) hk hs
    exact stops_append this.2 this.1
  obtain ⟨hw, hq⟩ := hp ht
  simp only [List.append_assoc, List.cons_append]
  refine ⟨hst, ?_⟩
  rw [run_pre, run_seq, run_ws, drop_stops hst, tagi_read hk, Option.map_some, Option.bind_some, drop_blanks h1 (Stops.cons (by decide)),
    run_ws, drop_stops (Stops.cons (by decide)), tag_same, Option.map_some, Option.map_some, Option.bind_some, drop_blanks h2 hw, run_ws, drop_stops hw, run_lift, hq]
  rfl

theorem loose_none {α : Type} {gg c : Bool} {f rest : Str} {t : Char} {ts : Str} {q : P Rec gg c α} (hf : FieldText f ∨ WildWord f) (he : End rest) (hl : Letters (t :: ts)) :
    (pre (seq (ws (tagNoCaseL t ts)) (ws (tag! "="))) q : P Rec _ _ α).run fix (f ++ rest) = none := by
  rw [run_pre, run_seq, run_ws, drop_stops (column_stops hf), run_tagi, stripPrefixCI?_eq]
  split
  · rename_i h
    rw [letters_lower hl] at h
    have h2 := take_letters (he.head (by decide)) hl h.2
    simp only [Option.map_some, Option.bind_some]
    rw [List.drop_append_of_le_length h2.1, run_ws, dropWhile_idem, tag_none]
    · rfl
    · cases hd : f.drop (t :: ts).length with
      | nil => rw [List.nil_append]; exact he.drop_ne (by decide)
      | cons c u =>
        have hc : c ∈ f := List.mem_of_mem_drop (hd ▸ List.mem_cons_self)
        have hsp : isSpace c = false := by
          rcases column_chars hf c hc with h | rfl | rfl | rfl
          · exact tokenChar_space (nameChar_token h)
          all_goals decide
        rw [List.cons_append, drop_stops (Stops.cons hsp)]
        intro c' t' e
        simp only [List.cons.injEq] at e
        rw [← e.1]
        rintro rfl
        exact column_noEq hf hc
  · rfl

theorem mvcombine_good {k : Str} (hk : lower k = c!"mvcombine") {d : Option Str} {f s : Str} (hf : Column f f) (h : MaybeThen (LooseSetting c!"delim" QuotedText) d f s) :
    Staged k false (.mvCombine d f) s := by
  cases h with
  | none =>
    refine stage 18 rfl (by decide) (by decide) (fun x => run_pre _ _ _ _) hk (bodyGood_of (nx := id) (stops_self fun u => column_stops hf.2) (fun _ => rfl) fun rest he => ?_)
    rw [run_map, run_seq, opt_none (loose_none hf.2 he (by decide)), Option.bind_some, run_lift, column_read hf.2 he.after]; rfl
  | @some a s g t ha hg =>
    have key : ∀ u, _ := fun u => loose_read (u := u) (t := 'd') (ts := c!"elim") (q := doubleQuoted) ha (by decide) (fun hq => ⟨quoted_stops hq, quoted_read hq⟩)
      (fun b hb => space_all (f := fun b => lowerC b ≠ 'd') (by decide) hb)
    refine stage 18 rfl (by decide) (by decide) (fun x => run_pre _ _ _ _) hk (bodyGood_of (nx := id) (key _).1 (fun _ => rfl) fun rest he => ?_)
    simp only [List.append_assoc]
    rw [run_map, run_seq, run_opt, (key _).2, Option.elim_some, Option.bind_some, drop_gap hg (column_stops hf.2), run_lift, column_read hf.2 he.after]; rfl

theorem mvexpand_good {k : Str} (hk : lower k = c!"mvexpand") {n : Option Int} {f s : Str} (hf : Column f f) (h : ThenMaybe (LooseSetting c!"limit" IntText) n f s) :
    Staged k false (.mvExpand f n) s := by
  cases h with
  | none =>
    refine stage 19 rfl (by decide) (by decide) (fun x => run_pre _ _ _ _) hk (bodyGood_of (nx := List.dropWhile isSpace) (stops_self fun u => column_stops hf.2) dropWhile_idem fun rest he => ?_)
    rw [run_map, run_seq, run_ws, drop_stops (column_stops hf.2), run_lift, column_read hf.2 he.after, Option.map_some, Option.bind_some, opt_none]
    · rfl
    · rw [run_pre, run_seq, ws_end (tagi_take (t := 'l') (ts := c!"imit") (by rw [dropWhile_idem]; exact he.take (by decide)))]; rfl
  | @some a s g t hg ha =>
    have hst := column_stops (u := g ++ s) hf.2
    refine stage 19 rfl (by decide) (by decide) (fun x => run_pre _ _ _ _) hk (bodyGood_of (nx := List.dropWhile isSpace) hst dropWhile_idem fun rest he => ?_)
    have key := loose_read (u := rest) (t := 'l') (ts := c!"imit") (q := int) ha (by decide) (fun hq => ⟨(intText_stops hq).2, intText_read hq (he.head (by decide))⟩)
      (fun b hb => space_all (f := fun b => lowerC b ≠ 'l') (by decide) hb)
    simp only [List.append_assoc]
    rw [run_map, run_seq, run_ws, drop_stops (column_stops hf.2), run_lift, column_read hf.2 (gap_after hg), Option.map_some, Option.bind_some, run_opt, drop_gap hg key.1, key.2]; rfl

/-! ### regex -/

theorem regex_good {k : Str} (hk : lower k = c!"regex") {r s : Str} (h : QuotedText r s) : Staged k false (.regex none r) s := by
  refine stage 21 rfl (by decide) (by decide) (fun x => run_pre _ _ _ _) hk (bodyGood_of (nx := id) (stops_self fun u => quoted_stops h) (fun _ => rfl) fun rest he => ?_)
  rw [run_map, run_seq, opt_none, Option.bind_some, run_lift, quoted_read h]
  · rfl
  · obtain ⟨h⟩ := h
    rw [run_seq, run_ws, drop_stops (s := '"' :: (r ++ c!"\"") ++ rest) (Stops.cons (by decide)), run_lift, List.cons_append, List.append_assoc]
    rw [show c!"\"" ++ rest = '"' :: rest from rfl, field_quote h.body h.ne he.after, Option.map_some, Option.bind_some, run_ws, dropWhile_idem, run_alt, tag_none (he.drop_ne (by decide)),
      tag_none (he.drop_ne (by decide))]
    rfl

theorem regex_of {k : Str} (hk : lower k = c!"regex") {f op r g₁ g₂ s : Str} (hf : Column f f) (ho : op ∈ [c!"=", c!"!="]) (h1 : Blanks g₁) (h2 : Blanks g₂)
    (h : QuotedText r s) : Staged k false (.regex (some (f, op)) r) (f ++ (g₁ ++ (op ++ (g₂ ++ s)))) := by
  refine stage 21 rfl (by decide) (by decide) (fun x => run_pre _ _ _ _) hk (bodyGood_of (nx := id) (column_stops hf.2) (fun _ => rfl) fun rest he => ?_)
  simp only [List.append_assoc]
  simp only [List.mem_cons, List.not_mem_nil, or_false] at ho
  have hop : After (g₁ ++ (op ++ (g₂ ++ (s ++ rest)))) ∧ Stops isSpace (op ++ (g₂ ++ (s ++ rest))) ∧
      (tag! "=" <||> tag! "!=" : G true Str).run fix (op ++ (g₂ ++ (s ++ rest))) = some (g₂ ++ (s ++ rest), op) := by
    rcases ho with rfl | rfl
    · exact ⟨blanks_after h1 (by decide), Stops.cons (by decide), by rw [run_alt, List.cons_append, List.nil_append, tag_same]; rfl⟩
    · exact ⟨blanks_after h1 (by decide), Stops.cons (by decide), by rw [run_alt, List.cons_append, tag_ne (by decide)]; rfl⟩
  have hq : (seq (ws (lift field)) (ws (tag! "=" <||> tag! "!=")) : G true (Str × Str)).run fix (f ++ (g₁ ++ (op ++ (g₂ ++ (s ++ rest))))) = some (s ++ rest, f, op) := by
    rw [run_seq, run_ws, drop_stops (column_stops hf.2), run_lift, column_read hf.2 hop.1, Option.map_some, Option.bind_some,
      drop_blanks h1 hop.2.1, run_ws, drop_stops hop.2.1, hop.2.2, Option.map_some, drop_blanks h2 (quoted_stops h)]
    rfl
  rw [run_map, run_seq, opt_some hq, Option.bind_some, run_lift, quoted_read h]; rfl

/-! ### inputlookup -/

theorem inputlookup_good {k : Str} (hk : lower k = c!"inputlookup") {os : List (Str × Constant)} {a b : Bool} {m n : Int} {f : Str} {w : Option Expr} {t s : Str} (hf : IsName f ∨ WildWord f)
    (hw : ThenMaybe (Keyed c!"where" (Written 9)) w f t) (h : OptsThen os t s) (ho : OptsOf os (.inputLookup a b m n f w)) : Staged k false (.inputLookup a b m n f w) s := by
  obtain ⟨h1, h2, h3, h4⟩ := ho
  have hl : LeadWord f := hf.elim name_lead star_lead
  refine stage 12 rfl (by decide) (by decide) (fun x => run_pre _ _ _ _) hk ?_
  have hbl : ∀ b : Char, isSpace b = true → lowerC b ≠ 'w' := fun b hb => space_all (f := fun b => lowerC b ≠ 'w') (by decide) hb
  cases hw with
  | none =>
    refine optBody (x := (a, b, m, n)) (y := (f, none)) (nx := List.dropWhile isSpace) h ⟨stops_self fun u => lead_stops hl, fun rest he => word_notOpt hl he.noEq⟩ ?_ dropWhile_idem
      fun r he => ?_
    · simp only [getBoolean_of h1, getBoolean_of h2, getInt_of h3, getInt_of h4]; rfl
    · rw [run_seq, run_ws, drop_stops (lead_stops hl), run_lift, run_token hl.ne hl.token he.token hl.res, Option.map_some, Option.bind_some, run_ws, dropWhile_idem, opt_none]
      · simp only [Option.map_some, dropWhile_idem]
      · rw [run_pre, ws_end (tagi_take (t := 'w') (ts := c!"here") (by rw [dropWhile_idem]; exact he.take (by decide)))]; rfl
  | @some e s g t hg hw =>
    obtain ⟨hkw, hg2, hw⟩ := hw
    rename_i kk g₂ tt
    have hws := written_stops hw
    have hks : ∀ u, Stops isSpace (kk ++ u) := fun u => by
      have := word_stops (x := 'w') hkw hbl
      exact stops_append this.2 this.1
    refine optBody (x := (a, b, m, n)) (y := (f, some e)) (nx := List.dropWhile isSpace) h ⟨lead_stops hl, fun rest he => ?_⟩ ?_ dropWhile_idem fun r he => ?_
    · simp only [List.append_assoc]
      exact word_notOpt hl (gap_noEq hg (hks _) (letter_ne hkw rfl (by decide) _))
    · simp only [getBoolean_of h1, getBoolean_of h2, getInt_of h3, getInt_of h4]; rfl
    · simp only [List.append_assoc]
      have hq : (pre (ws (tagi! "where")) expr : G true Expr).run fix (kk ++ (g₂ ++ (tt ++ r))) = some (r, e) := by
        rw [run_pre, run_ws, drop_stops (hks _), tagi_read (by rw [hkw]; decide), Option.map_some, Option.bind_some, drop_gap hg2 (stops_append hws.2 hws.1), expr_read hw (he.follow 9)]
      rw [run_seq, run_ws, drop_stops (lead_stops hl), run_lift, run_token hl.ne hl.token (gap_after hg).token hl.res, Option.map_some, Option.bind_some, drop_gap hg (hks _),
        run_ws, drop_stops (hks _), opt_some hq]
      rfl

/-! ### spath -/

theorem stringStep_none {u : Str} (h : End u) : stringStep.run () u = none := by
  rw [stringStep, run_alt, run_alt, token_none h.token, tag_none (h.ne (by decide)), tag_none (h.ne (by decide))]; rfl

theorem stringStep_loop' {d u : Str} (h : DotTail d) (hu : End u) : ∀ n, (d ++ u).length ≤ n → (manyLoop (stringStep.run ()) n (d ++ u)).1 = u := by
  have hend : ∀ n, (manyLoop (stringStep.run ()) n u).1 = u := by
    intro n; cases n with
    | zero => rfl
    | succ n => simp only [manyLoop, stringStep_none hu]
  induction h with
  | nil => intro n _; exact hend n
  | @dot w d h _ _ hd ih =>
    intro n hn
    have hw := h
    have h1 : stringStep.run () ('.' :: (w ++ (d ++ u))) = some (w ++ (d ++ u), c!".") := by
      rw [stringStep, run_alt, run_alt, token_none (Stops.cons (by decide)), tag_same]; rfl
    have h2 : stringStep.run () (w ++ (d ++ u)) = some (d ++ u, w) := by
      rw [stringStep, run_alt, run_token hw.ne hw.token (hd.token hu.after) hw.res]; rfl
    have hwl : 0 < w.length := List.length_pos_iff.2 hw.ne
    simp only [List.cons_append, List.append_assoc] at hn ⊢
    simp only [List.length_cons, List.length_append] at hn
    cases n with
    | zero => omega
    | succ n =>
      cases n with
      | zero => omega
      | succ n =>
        simp only [manyLoop, h1, h2]
        exact ih n (by rw [List.length_append]; omega)

theorem string_read {p w u : Str} (h : PathText p w) (hu : End u) : string.run () (w ++ u) = some (u, p) := by
  cases h with
  | word h =>
    obtain ⟨v, d, rfl, h', hd⟩ := fieldText_parts h
    have hw := name_lead h'.name
    have h2 : stringStep.run () (v ++ (d ++ u)) = some (d ++ u, v) := by
      rw [stringStep, run_alt, run_token hw.ne hw.token (hd.token hu.after) hw.res]; rfl
    have : (recognize (many1 stringStep) : L true Str).run () (v ++ (d ++ u)) = some (u, v ++ d) := by
      rw [recognize_some]
      refine ⟨?_, by simp⟩
      rw [run_many1, h2, Option.map_some, stringStep_loop' hd hu _ (Nat.le_refl _)]
      exact ⟨_, rfl⟩
    rw [List.append_assoc, string, run_alt, doubleQuoted_none (lead_ne hw (by decide)), Option.none_or]
    exact this
  | quoted h => rw [string, run_alt, quotable_read h]; rfl

theorem pathText_stops {p w u : Str} (h : PathText p w) : Stops isSpace (w ++ u) := by
  cases h with
  | word h => exact fieldText_stops h
  | quoted h => exact Stops.cons (by decide)

theorem pathText_key {p w rest kw : Str} (h : PathText p w) (hk : '=' ∈ kw) (hq : ∀ x xs, kw = x :: xs → lowerC '"' ≠ x)
    (hr : Stops (fun c => kw.contains (lowerC c)) rest) : lower ((w ++ rest).take kw.length) ≠ kw := by
  cases h with
  | word h => exact noKey (column_noEq (.inl h)) hr hk
  | quoted h =>
    cases kw with
    | nil => simp at hk
    | cons x xs => intro e; simp only [List.length_cons, List.cons_append, List.take_succ_cons, lower, List.map_cons, List.cons.injEq] at e; exact hq _ _ rfl e.1

theorem setting_read {key f s u : Str} {t : Char} {ts : Str} (h : Setting key Column f s) (hkey : key ++ c!"=" = lower (t :: ts)) (hu : After u) (hs : ∀ b, isSpace b = true → lowerC b ≠ lowerC t) :
    Stops isSpace (s ++ u) ∧ (ws (pre (tagNoCaseL t ts) (lift field)) : G true Str).run fix (s ++ u) = some (u.dropWhile isSpace, f) := by
  obtain ⟨hk, hf⟩ := h
  rename_i k w
  obtain ⟨rfl, hf⟩ := hf
  have hk2 : lower (k ++ c!"=") = lower (t :: ts) := by
    rw [← hkey, ← hk]; unfold lower; rw [List.map_append]; rfl
  have hst : Stops isSpace ((k ++ c!"=") ++ (f ++ u)) := by
    have := word_stops (x := lowerC t) hk2 hs
    exact stops_append this.2 this.1
  have e : k ++ '=' :: f ++ u = (k ++ c!"=") ++ (f ++ u) := by simp
  rw [e]
  refine ⟨hst, ?_⟩
  rw [run_ws, drop_stops hst, run_pre, tagi_read hk2, Option.bind_some, run_lift, column_read hf hu]; rfl

theorem key_none {α : Type} {gg c : Bool} {q : P Rec gg c α} {x : Str} {t : Char} {ts : Str} (hx : Stops isSpace x) (h : lower (x.take (ts.length + 1)) ≠ lower (t :: ts)) :
    (ws (pre (tagNoCaseL t ts) q) : P Rec _ _ α).run fix x = none := by
  rw [run_ws, drop_stops hx, run_pre, tagi_take h]; rfl

theorem take_head {k u kw : Str} {x y : Char} {xs : Str} (hk : lower k = x :: xs) (hkw : kw = y :: kw.tail) (hne : x ≠ y) : lower ((k ++ u).take kw.length) ≠ kw := by
  obtain ⟨c, t, rfl, hc, -⟩ := lower_cons hk
  rw [hkw]
  intro e
  simp only [List.length_cons, List.cons_append, List.take_succ_cons, lower, List.map_cons, List.cons.injEq] at e
  exact hne (hc.symm.trans e.1)

theorem spath_good {k : Str} (hk : lower k = c!"spath") {i o : Option Str} {p w t u s : Str} (hp : PathText p w) (ht : t = w ∨ (∃ k, lower k = c!"path=" ∧ t = k ++ w))
    (ho : MaybeThen (Setting c!"output" Column) o t u) (hi : MaybeThen (Setting c!"input" Column) i u s) : Staged k false (.spath p (i.getD c!"_raw") o) s := by
  have hbl : ∀ x : Char, x ∈ c!"iop" → ∀ b : Char, isSpace b = true → lowerC b ≠ x := by
    intro x hx b hb
    simp only [List.mem_cons, List.not_mem_nil, or_false] at hx
    rcases hx with rfl | rfl | rfl <;> rcases space_cases hb with rfl | rfl | rfl | rfl <;> decide
  have hts : ∀ v, Stops isSpace (t ++ v) := fun v => by
    rcases ht with rfl | ⟨k, hk, rfl⟩
    · exact pathText_stops hp
    · have := word_stops (x := 'p') hk (hbl _ (by decide))
      rw [List.append_assoc]
      exact stops_append this.2 this.1
  -- the path
  have h3 : ∀ rest, End rest → (ws (pre (opt (tagi! "path=")) (lift string)) : G true Str).run fix (t ++ rest) = some (rest.dropWhile isSpace, p) := by
    intro rest he
    rw [run_ws, drop_stops (hts _), run_pre]
    rcases ht with rfl | ⟨k, hk, rfl⟩
    · rw [opt_none (tagi_take (t := 'p') (ts := c!"ath=") (pathText_key (kw := c!"path=") hp (by decide) (by intro x xs e; simp at e; rw [← e.1]; decide) (he.key (by decide)))), Option.bind_some, run_lift, string_read hp he]; rfl
    · rw [List.append_assoc, run_opt, tagi_read (by rw [hk]; decide), Option.elim_some, Option.bind_some, run_lift, string_read hp he]; rfl
  have ht6 : ∀ rest, End rest → lower ((t ++ rest).take 7) ≠ c!"output=" ∧ lower ((t ++ rest).take 6) ≠ c!"input=" := by
    intro rest he
    rcases ht with rfl | ⟨k, hk, rfl⟩
    · exact ⟨pathText_key (kw := c!"output=") hp (by decide) (by intro x xs e; simp at e; rw [← e.1]; decide) (he.key (by decide)),
        pathText_key (kw := c!"input=") hp (by decide) (by intro x xs e; simp at e; rw [← e.1]; decide) (he.key (by decide))⟩
    · rw [List.append_assoc]
      exact ⟨take_head (kw := c!"output=") hk rfl (by decide), take_head (kw := c!"input=") hk rfl (by decide)⟩
  -- the output and the path
  have h2 : Stops isSpace u ∧ ∀ rest, End rest → Stops isSpace (u ++ rest) ∧ lower ((u ++ rest).take 6) ≠ c!"input=" ∧ (seq (opt (ws (pre (tagi! "output=") (lift field)))) (ws (pre (opt (tagi! "path=")) (lift string))) : G true (Option Str × Str)).run fix
      (u ++ rest) = some (rest.dropWhile isSpace, o, p) := by
    cases ho with
    | none =>
      refine ⟨stops_self hts, fun rest he => ⟨hts _, (ht6 rest he).2, ?_⟩⟩
      rw [run_seq, opt_none (key_none (t := 'o') (ts := c!"utput=") (hts _) (ht6 rest he).1), Option.bind_some, h3 rest he]; rfl
    | @some a s g t ha hg =>
      have hr := fun v => setting_read (u := g ++ v) (t := 'o') (ts := c!"utput=") ha rfl (gap_after hg) (hbl _ (by decide))
      refine ⟨(hr _).1, fun rest he => ?_⟩
      rw [List.append_assoc, List.append_assoc]
      refine ⟨(hr _).1, ?_, ?_⟩
      · obtain ⟨hk, -⟩ := ha
        rw [List.append_assoc]
        exact take_head (kw := c!"input=") hk rfl (by decide)
      · rw [run_seq, run_opt, (hr _).2, Option.elim_some, Option.bind_some, drop_gap hg (hts _), h3 rest he]; rfl
  cases hi with
  | none =>
    refine stage 26 rfl (by decide) (by decide) (fun x => run_pre _ _ _ _) hk (bodyGood_of (nx := List.dropWhile isSpace) h2.1 dropWhile_idem fun rest he => ?_)
    rw [run_map, run_seq, opt_none (key_none (t := 'i') (ts := c!"nput=") (h2.2 rest he).1 (h2.2 rest he).2.1), Option.bind_some, (h2.2 rest he).2.2]; rfl
  | @some a s g t ha hg =>
    have hr := fun v => setting_read (u := g ++ v) (t := 'i') (ts := c!"nput=") ha rfl (gap_after hg) (hbl _ (by decide))
    refine stage 26 rfl (by decide) (by decide) (fun x => run_pre _ _ _ _) hk (bodyGood_of (nx := List.dropWhile isSpace) (hr _).1 dropWhile_idem fun rest he => ?_)
    rw [List.append_assoc, List.append_assoc, run_map, run_seq, run_opt, (hr _).2, Option.elim_some, Option.bind_some, drop_gap hg (h2.2 rest he).1, (h2.2 rest he).2.2]; rfl

end Verif
