import Verif.Lemmas.Opt
/-
Reading what follows the name of a command: addtotals, bin, collect, convert, datamodel, format, makeresults, rex.
-/
namespace Verif
open P Lex Spl Spec Lemmas

theorem many0_none {g : Bool} {α R : Type} [Env R] {ρ : R} {p : P R g true α} {i : Str} (h : p.run ρ i = none) : (many0 p).run ρ i = some (i, []) := by
  rw [run_many0]
  cases i.length with
  | zero => rfl
  | succ n => simp only [manyLoop, h]

theorem sepList0_none {g₁ g₂ c : Bool} {α γ R : Type} [Env R] {ρ : R} {sp : P R g₁ true γ} {p : P R g₂ c α} {i : Str} (h : p.run ρ i = none) :
    (sepList0 sp p).run ρ i = some (i, []) := by rw [run_sepList0, h]

theorem ws_end {g c : Bool} {α R : Type} [Env R] {ρ : R} {p : P R g c α} {r : Str} (h : p.run ρ (r.dropWhile isSpace) = none) : (ws p).run ρ r = none := by
  rw [run_ws, h]; rfl

theorem opt_none {g c : Bool} {α R : Type} [Env R] {ρ : R} {p : P R g c α} {i : Str} (h : p.run ρ i = none) : (opt p).run ρ i = some (i, none) := by
  rw [run_opt, h]; rfl

theorem opt_some {g c : Bool} {α R : Type} [Env R] {ρ : R} {p : P R g c α} {i : Str} {y : Str × α} (h : p.run ρ i = some y) : (opt p).run ρ i = some (y.1, some y.2) := by
  rw [run_opt, h]; rfl

theorem items0_gap {fs : List Str} {t : Str} (h : Items0 byGap Column fs t) : OptTail t := by
  rcases h with ⟨-, rfl⟩ | h
  · exact optTail_nil
  · exact ⟨stops_self fun u => (column_items h u).1, fun rest he => gapColumns_notOpt h he.noEq⟩

theorem items0_list {fs : List Str} {t : Str} (h : Items0 byList Column fs t) : OptTail t := by
  rcases h with ⟨-, rfl⟩ | h
  · exact optTail_nil
  · exact ⟨stops_self fun u => (column_items h u).1, fun rest he => columns_notOpt h he.noEq⟩

/-! ### addtotals, collect -/

theorem addtotals_good {k : Str} (hk : lower k = c!"addtotals") {os : List (Str × Constant)} {a : AddTotals} {t s : Str} (h : OptsThen os t s)
    (ho : OptsOf os (.addTotals a)) (hf : Items0 byGap Column a.fields t) : Staged k false (.addTotals a) s := by
  obtain ⟨h1, h2, h3, h4, h5⟩ := ho
  refine stage 0 rfl (by decide) (by decide) (fun x => run_pre _ _ _ _) hk ?_
  have ht := items0_gap hf
  rcases hf with ⟨hf, rfl⟩ | hf
  · refine optBody (x := { a with fields := [] }) (y := a.fields) (nx := id) h ht ?_ (fun _ => rfl) fun r he => ?_
    · simp only [getBoolean_of h1, getBoolean_of h2, getString_of h3, getStringOption_of h4, getString_of h5]; rfl
    · rw [List.nil_append, many0_none (ws_end (by rw [run_lift, (field_end he).2])), hf]; rfl
  · refine optBody (x := { a with fields := [] }) (y := a.fields) (nx := List.dropWhile isSpace) h ht ?_ dropWhile_idem fun r he => (many_columns hf he.after (field_end he).2).1
    simp only [getBoolean_of h1, getBoolean_of h2, getString_of h3, getStringOption_of h4, getString_of h5]; rfl

theorem collect_good {k : Str} (hk : lower k = c!"collect") {os : List (Str × Constant)} {a : Collect} {t s : Str} (h : OptsThen os t s)
    (ho : OptsOf os (.collect a)) (hf : Items0 byList Column a.fields t) : Staged k false (.collect a) s := by
  obtain ⟨h1, h2, h3, h4, h5, h6, h7, h8, h9, h10, h11⟩ := ho
  refine stage 2 rfl (by decide) (by decide) (fun x => run_pre _ _ _ _) hk ?_
  have ht := items0_list hf
  refine optBody (x := { a with fields := [] }) (y := a.fields) (nx := id) h ht ?_ (fun _ => rfl) fun r he => ?_
  · simp only [getStringOption_of h1, getBoolean_of h2, getStringOption_of h3, getStringOption_of h4, getStringOption_of h5, getString_of h6, getBoolean_of h7,
      getBoolean_of h8, getStringOption_of h9, getStringOption_of h10, getBoolean_of h11]; rfl
  · rw [run_lift]
    rcases hf with ⟨hf, rfl⟩ | hf
    · rw [List.nil_append, show fieldList0.run () r = some (r, []) from sepList0_none (field_end he).1, hf]; rfl
    · exact (columns_end hf he).2

/-! ### bin -/

theorem aliased_none {f x : Str} (h : FieldText f ∨ WildWord f) (hx : After x) (has : lower ((x.dropWhile isSpace).take 2) ≠ c!"as") : aliasedField.run () (f ++ x) = none := by
  rw [aliasedField, run_sepPair, column_read h hx, Option.bind_some, ws_end (tagi_take (t := 'A') (ts := c!"S") has)]; rfl

theorem End.take {rest : Str} (h : End rest) {n : Nat} {c : Char} {w : Str} (hc : c ≠ '|' ∧ c ≠ ']') : lower ((rest.dropWhile isSpace).take n) ≠ c :: w := by
  intro e
  cases hr : rest.dropWhile isSpace with
  | nil => rw [hr] at e; simp [lower] at e
  | cons d u =>
    rw [hr] at e
    cases n with
    | zero => simp [lower] at e
    | succ n =>
      simp only [List.take_succ_cons, lower, List.map_cons, List.cons.injEq] at e
      have := h.drop_head (f := fun d => lowerC d == c) (by
        have h1 : lowerC '|' = '|' := by decide
        have h2 : lowerC ']' = ']' := by decide
        rw [h1, h2]; simp [hc.1.symm, hc.2.symm]) d u hr
      simp [e.1] at this

theorem letter_ne {k kw : Str} {x : Char} {xs : Str} (hk : lower k = kw) (hkw : kw = x :: xs) {q : Char} (hq : lowerC q ≠ x) (u : Str) : ∀ c s, k ++ u = c :: s → c ≠ q := by
  subst hkw
  obtain ⟨c, t, rfl, hc, -⟩ := lower_cons hk
  intro c' s e
  simp only [List.cons_append, List.cons.injEq] at e
  rw [← e.1]
  rintro rfl
  exact hq hc

theorem renamed_notOpt {a : Str × Str} {s u : Str} (h : Renamed a s) : NotOpt (s ++ u) := by
  obtain ⟨hf, h1, hk, h2, hn⟩ := h
  simp only [List.append_assoc]
  refine column_notOpt hf (gap_noEq h1 ?_ (letter_ne hk rfl (by decide) _))
  have := word_stops hk (fun b hb => space_all (f := fun b => lowerC b ≠ 'a') (by decide) hb)
  exact stops_append this.2 this.1

theorem binField_tail {x : FieldOrAlias} {t : Str} (h : BinField x t) : OptTail t := by
  cases h with
  | plain h => exact ⟨stops_self fun u => column_stops h.2, fun rest he => column_notOpt h.2 he.noEq⟩
  | named h => exact ⟨stops_self fun u => renamed_stops h, fun rest he => renamed_notOpt h⟩

theorem binField_read {x : FieldOrAlias} {t r : Str} (h : BinField x t) (he : End r) : fieldOrAlias.run () (t ++ r) = some (r, x) := by
  rw [fieldOrAlias, run_alt, run_map, run_map]
  cases h with
  | plain h => rw [aliased_none h.2 he.after (he.take (by decide)), column_read h.2 he.after]; rfl
  | named h => rw [renamed_read h he.token]; rfl

theorem bin_good {k : Str} (hk : lower k = c!"bin" ∨ lower k = c!"bucket") {os : List (Str × Constant)} {a : Bin} {t s : Str} (h : OptsThen os t s)
    (ho : OptsOf os (.bin a)) (hf : BinField a.field t) : Staged k false (.bin a) s := by
  obtain ⟨h1, h2, h3, h4, h5, h6⟩ := ho
  refine stage_bin (fun x => run_pre _ _ _ _) hk ?_
  refine optBody (x := { a with field := .field [] }) (y := a.field) (nx := id) h (binField_tail hf) ?_ (fun _ => rfl) fun r he => ?_
  rotate_left
  · exact binField_read hf he
  simp only [getSpanOption_of h1, getSpanOption_of h2, getIntOption_of h3, getIntOption_of h4, getIntOption_of h5, getStringOption_of h6]; rfl

/-! ### convert -/

theorem conversion_stops {a : FieldConversion} {s u : Str} (h : Conversion a s) : Stops isSpace (s ++ u) := by
  cases h with
  | plain h => rw [List.append_assoc]; exact lead_stops (name_lead h)
  | named h => rw [List.append_assoc]; exact lead_stops (name_lead h)

theorem conversion_notOpt {a : FieldConversion} {s u : Str} (h : Conversion a s) : NotOpt (s ++ u) := by
  cases h with
  | plain h => rw [List.append_assoc, List.cons_append]; exact word_notOpt (name_lead h) (sign_noEq (by decide))
  | named h => rw [List.append_assoc, List.cons_append]; exact word_notOpt (name_lead h) (sign_noEq (by decide))

theorem lparen_column {x g₁ g₂ u : Str} (hx : Column x x) (h1 : Blanks g₁) (h2 : Blanks g₂) :
    (delim (tag! "(") (ws field) (tag! ")") : L true Str).run () ('(' :: (g₁ ++ (x ++ (g₂ ++ ')' :: u)))) = some (u, x) := by
  rw [run_delim, tag_same, Option.bind_some, run_ws, drop_blanks h1 (column_stops hx.2), column_read hx.2 (blanks_after h2 (by decide)), Option.map_some, Option.bind_some,
    drop_blanks h2 (Stops.cons (by decide)), tag_same]; rfl

theorem conversion_read {a : FieldConversion} {s u : Str} (h : Conversion a s) (ha : After u) (has : lower ((u.dropWhile isSpace).take 2) ≠ c!"as") :
    conversion.run () (s ++ u) = some (u.dropWhile isSpace, a) := by
  rw [conversion, run_map, run_ws, drop_stops (conversion_stops h)]
  cases h with
  | @plain f x g₁ g₂ h hx h1 h2 =>
    simp only [List.append_assoc, List.cons_append, List.nil_append]
    rw [run_seq, run_token h.ne (name_lead h).token (Stops.cons (by decide)) (isName_res h), Option.bind_some, run_seq, lparen_column hx h1 h2, Option.bind_some,
      run_ws, opt_none]
    · simp only [Option.map_some, dropWhile_idem]
    · rw [run_pre, run_ws, dropWhile_idem, tagi_take (t := 'A') (ts := c!"S") has]; rfl
  | @named f x n k g₁ g₂ g₃ g₄ h hx hn h1 h2 h3 hk h4 =>
    simp only [List.append_assoc, List.cons_append]
    rw [run_seq, run_token h.ne (name_lead h).token (Stops.cons (by decide)) (isName_res h), Option.bind_some, run_seq, lparen_column hx h1 h2, Option.bind_some,
      run_ws, word_drop h3 hk (by intro b hb; exact space_all (f := fun b => lowerC b ≠ 'a') (by decide) hb)]
    have : (pre (ws (tagi! "AS")) field : L true Str).run () (k ++ (g₄ ++ (n ++ u))) = some (u, n) := by
      have := as_read (ρ := ()) (g₁ := c!" ") ⟨by simp, by simp⟩ hk h4 (column_stops (u := u) hn.2)
      rw [run_ws, word_drop (g := c!" ") ⟨by simp, by simp⟩ hk (by intro b hb; exact space_all (f := fun b => lowerC b ≠ 'a') (by decide) hb)] at this
      rw [run_pre, run_ws, drop_stops, this]
      · exact column_read hn.2 ha
      · have := word_stops hk (fun b hb => space_all (f := fun b => lowerC b ≠ 'a') (by decide) hb)
        exact stops_append this.2 this.1
    rw [opt_some this]
    simp only [Option.map_some, dropWhile_idem]

theorem take_append_as {t rest : Str} (hr : End rest) (h : lower (t.take 2) ≠ c!"as") : lower ((t ++ rest).take 2) ≠ c!"as" := fun e =>
  h (take_letters (hr.head (by decide)) (kw := c!"as") (by decide) e).2

theorem convert_good {k : Str} (hk : lower k = c!"convert") {os : List (Str × Constant)} {f : Str} {cs : List FieldConversion} {t s : Str} (h : OptsThen os t s)
    (ho : OptsOf os (.convert f cs)) (hf : Items byGapNotAs Conversion cs t) : Staged k false (.convert f cs) s := by
  refine stage 3 rfl (by decide) (by decide) (fun x => run_pre _ _ _ _) hk ?_
  have hst := items_first (P' := Stops isSpace) (fun _ _ _ hc => conversion_stops hc) hf
  refine optBody (x := f) (y := cs) (nx := List.dropWhile isSpace) h ⟨stops_self hst, fun rest _ => items_first (P' := NotOpt) (fun _ _ _ hc => conversion_notOpt hc) hf rest⟩
    (getString_of ho) dropWhile_idem fun r he => ?_
  refine (many_read (ρ := fix) (p := lift conversion) (nx := List.dropWhile isSpace) (fun u => After u ∧ lower ((u.dropWhile isSpace).take 2) ≠ c!"as")
    (fun _ _ _ hi hu => conversion_read hi hu.1 hu.2) (fun g b bs t hg hl => ?_) ⟨he.after, he.take (by decide)⟩ ?_ hf).1
  · have hs := items_first (P' := Stops isSpace) (fun _ _ _ hc => conversion_stops hc) hl r
    have hd := drop_gap hg.1 hs
    exact ⟨⟨gap_after hg.1, by rw [hd]; exact take_append_as he hg.2⟩, hd⟩
  · rw [run_lift, conversion, run_map, run_ws, dropWhile_idem, run_seq, token_none he.drop.token]; rfl

/-! ### datamodel -/

theorem notKeyword_read {a u : Str} (h : Column a a) (hm : a ∉ modelModes) (hu : After u) :
    (ws (lift fieldNotKeyword) : G true Str).run fix (a ++ u) = some (u.dropWhile isSpace, a) := by
  rw [run_ws, drop_stops (column_stops h.2), run_lift, fieldNotKeyword, run_verify, column_read h.2 hu]
  simp only [modelModes, List.mem_cons, List.not_mem_nil, or_false, not_or] at hm
  simp [hm.1, hm.2.1, hm.2.2]

theorem notKeyword_none {r : Str} (h : field.run () (r.dropWhile isSpace) = none) : (ws (lift fieldNotKeyword) : G true Str).run fix r = none := by
  refine ws_end ?_
  rw [run_lift, fieldNotKeyword, run_verify, h]; rfl

theorem datamodel_good {k : Str} (hk : lower k = c!"datamodel") {os : List (Str × Constant)} {a : DataModel} {t s : Str} (h : OptsThen os t s)
    (ho : OptsOf os (.dataModel a)) (hm : ModelWords a.dataModelName a.datasetName a.searchMode t) : Staged k false (.dataModel a) s := by
  obtain ⟨h1, h2, h3⟩ := ho
  refine stage 4 rfl (by decide) (by decide) (fun x => run_pre _ _ _ _) hk ?_
  have hno : ∀ r, End r → (tagi! "search" <||> tagi! "flat" <||> tagi! "acceleration_search" : G true Str).run fix r = none := by
    intro r he
    have : ∀ (t : Char) (ts : Str), (∀ c ∈ c!"|] \t\r\n", lowerC c ≠ lowerC t) → (tagNoCaseL t ts : G true Str).run fix r = none := by
      intro t ts ht
      cases r with
      | nil => rfl
      | cons c u =>
        refine tagi_ne fun e => ?_
        have := he.head (f := fun c => lowerC c == lowerC t) (by intro c hc; simpa using ht c hc) c u rfl
        simp [e] at this
    rw [run_alt, run_alt, this _ _ (by decide), this _ _ (by decide), this _ _ (by decide)]; rfl
  obtain ⟨x, y, z, b1, b2, b3⟩ := a
  simp only at h1 h2 h3 hm
  cases hm with
  | none =>
    refine optBody (x := (⟨none, none, none, b1, b2, b3⟩ : DataModel)) (y := (none, none, none)) (nx := id) h optTail_nil
      (by simp only [getBoolean_of h1, getBoolean_of h2, getBoolean_of h3]; rfl) (fun _ => rfl) fun r he => ?_
    rw [List.nil_append, run_seq, opt_none (notKeyword_none (field_end he).2), Option.bind_some, run_seq, opt_none (notKeyword_none (field_end he).2), Option.bind_some, opt_none (hno r he)]; rfl
  | model ha hn =>
    refine optBody (x := (⟨none, none, none, b1, b2, b3⟩ : DataModel)) (y := (some _, none, none)) (nx := List.dropWhile isSpace) h
      ⟨stops_self fun u => column_stops ha.2, fun rest he => column_notOpt ha.2 he.noEq⟩ (by simp only [getBoolean_of h1, getBoolean_of h2, getBoolean_of h3]; rfl) dropWhile_idem fun r he => ?_
    rw [run_seq, opt_some (notKeyword_read ha hn he.after), Option.bind_some, run_seq, opt_none (notKeyword_none (field_end he.drop).2), Option.bind_some, opt_none (hno _ he.drop)]; rfl
  | dataset ha hn hg hb hn' =>
    refine optBody (x := (⟨none, none, none, b1, b2, b3⟩ : DataModel)) (y := (some _, some _, none)) (nx := List.dropWhile isSpace) h
      ⟨stops_append (stops_self fun u => column_stops ha.2) (column_nonempty ha.2), fun rest he => ?_⟩ (by simp only [getBoolean_of h1, getBoolean_of h2, getBoolean_of h3]; rfl) dropWhile_idem fun r he => ?_
    · rw [List.append_assoc, List.append_assoc]
      exact column_notOpt ha.2 (gap_noEq hg (column_stops hb.2) (column_ne hb.2 (by decide)))
    · rw [List.append_assoc, List.append_assoc, run_seq, opt_some (notKeyword_read ha hn (gap_after hg)), Option.bind_some, drop_gap hg (column_stops hb.2),
        run_seq, opt_some (notKeyword_read hb hn' he.after), Option.bind_some, opt_none (hno _ he.drop)]; rfl
  | @mode a b m g₁ g₂ ha hn hg hb hn' hg2 hm =>
    refine optBody (x := (⟨none, none, none, b1, b2, b3⟩ : DataModel)) (y := (some _, some _, some _)) (nx := id) h
      ⟨stops_append (stops_self fun u => column_stops ha.2) (column_nonempty ha.2), fun rest he => ?_⟩ (by simp only [getBoolean_of h1, getBoolean_of h2, getBoolean_of h3]; rfl) (fun _ => rfl) fun r he => ?_
    · rw [List.append_assoc, List.append_assoc, List.append_assoc]
      exact column_notOpt ha.2 (gap_noEq hg (column_stops hb.2) (column_ne hb.2 (by decide)))
    · have hmr : Stops isSpace (m ++ r) ∧ (tagi! "search" <||> tagi! "flat" <||> tagi! "acceleration_search" : G true Str).run fix (m ++ r) = some (r, m) := by
        simp only [modelModes, List.mem_cons, List.not_mem_nil, or_false] at hm
        rw [run_alt, run_alt]
        rcases hm with rfl | rfl | rfl
        · exact ⟨Stops.cons (by decide), by rw [tagi_read (by decide)]; rfl⟩
        · exact ⟨Stops.cons (by decide), by rw [tagi_read (t := 'f') (ts := c!"lat") (op := c!"flat") (by decide), List.cons_append, tagi_ne (t := 's') (ts := c!"earch") (by decide)]; rfl⟩
        · exact ⟨Stops.cons (by decide), by rw [tagi_read (t := 'a') (ts := c!"cceleration_search") (op := c!"acceleration_search") (by decide), List.cons_append,
            tagi_ne (t := 's') (ts := c!"earch") (by decide), tagi_ne (t := 'f') (ts := c!"lat") (by decide)]; rfl⟩
      simp only [List.append_assoc]
      rw [run_seq, opt_some (notKeyword_read ha hn (gap_after hg)), Option.bind_some, drop_gap hg (column_stops hb.2),
        run_seq, opt_some (notKeyword_read hb hn' (gap_after hg2)), Option.bind_some, drop_gap hg2 hmr.1, opt_some hmr.2]; rfl

/-! ### format, makeresults, rex -/

theorem quoted_read {a t u : Str} (h : QuotedText a t) : doubleQuoted.run () (t ++ u) = some (u, a) := by
  obtain ⟨h⟩ := h; exact quotable_read h

theorem quoted_head {a t : Str} (h : QuotedText a t) : ∃ x, t = '"' :: x := by
  obtain ⟨h⟩ := h; exact ⟨_, rfl⟩

theorem quoted_stops {a t u : Str} (h : QuotedText a t) : Stops isSpace (t ++ u) := by
  obtain ⟨x, rfl⟩ := quoted_head h; exact Stops.cons (by decide)

theorem quoted_notOpt {a t u : Str} (h : QuotedText a t) : NotOpt (t ++ u) := by
  obtain ⟨x, rfl⟩ := quoted_head h; exact sign_notOpt (by decide)

theorem quoted_ws {a t u : Str} (h : QuotedText a t) : (ws (lift doubleQuoted) : G true Str).run fix (t ++ u) = some (u.dropWhile isSpace, a) := by
  rw [run_ws, drop_stops (quoted_stops h), run_lift, quoted_read h]; rfl

theorem End.noQuote {r : Str} (h : End r) : doubleQuoted.run () (r.dropWhile isSpace) = none := doubleQuoted_none (h.drop_ne (by decide))

theorem format_good {k : Str} (hk : lower k = c!"format") {os : List (Str × Constant)} {a : Format} {s : Str} (h : OptsThen os [] s)
    (ho : OptsOf os (.format a)) (hd : (a.rowPrefix, a.colPrefix, a.colSep, a.colEnd, a.rowSep, a.rowEnd) = (c!"(", c!"(", c!"AND", c!")", c!"OR", c!")")) :
    Staged k false (.format a) s := by
  obtain ⟨h1, h2⟩ := ho
  obtain ⟨a1, a2, a3, a4, a5, a6, a7, a8⟩ := a
  simp only [Prod.mk.injEq] at hd
  obtain ⟨rfl, rfl, rfl, rfl, rfl, rfl⟩ := hd
  refine stage 10 rfl (by decide) (by decide) (fun x => run_pre _ _ _ _) hk ?_
  refine optBody (x := (_, _)) (y := none) (nx := id) h optTail_nil ?_ (fun _ => rfl) fun r he => ?_
  · simp only [getString_of h1, getInt_of h2]; rfl
  · rw [List.nil_append, opt_none]
    · rfl
    · rw [run_seq, ws_end (by rw [run_lift, he.noQuote])]; rfl

theorem format_with {k : Str} (hk : lower k = c!"format") {os : List (Str × Constant)} {a : Format} {t s : Str} (h : OptsThen os t s)
    (ho : OptsOf os (.format a)) (hi : Items byGap QuotedText [a.rowPrefix, a.colPrefix, a.colSep, a.colEnd, a.rowSep, a.rowEnd] t) :
    Staged k false (.format a) s := by
  obtain ⟨h1, h2⟩ := ho
  obtain ⟨a1, a2, a3, a4, a5, a6, a7, a8⟩ := a
  refine stage 10 rfl (by decide) (by decide) (fun x => run_pre _ _ _ _) hk ?_
  refine optBody (x := (_, _)) (y := some (a3, a4, a5, a6, a7, a8)) (nx := List.dropWhile isSpace) h
    ⟨stops_self (items_first (P' := Stops isSpace) (fun _ _ _ hc => quoted_stops hc) hi), fun rest _ => items_first (P' := NotOpt) (fun _ _ _ hc => quoted_notOpt hc) hi rest⟩
    ?_ dropWhile_idem fun r he => ?_
  · simp only [getString_of h1, getInt_of h2]; rfl
  · obtain _ | ⟨i1, g1, hi⟩ := hi
    obtain _ | ⟨i2, g2, hi⟩ := hi
    obtain _ | ⟨i3, g3, hi⟩ := hi
    obtain _ | ⟨i4, g4, hi⟩ := hi
    obtain _ | ⟨i5, g5, hi⟩ := hi
    obtain i6 | _ := hi
    simp only [List.append_assoc]
    rw [run_opt, run_seq, quoted_ws i1, Option.bind_some, drop_gap g1 (quoted_stops i2), run_seq, quoted_ws i2, Option.bind_some, drop_gap g2 (quoted_stops i3),
      run_seq, quoted_ws i3, Option.bind_some, drop_gap g3 (quoted_stops i4), run_seq, quoted_ws i4, Option.bind_some, drop_gap g4 (quoted_stops i5),
      run_seq, quoted_ws i5, Option.bind_some, drop_gap g5 (quoted_stops i6), quoted_ws i6]
    rfl

theorem makeresults_good {k : Str} (hk : lower k = c!"makeresults") {os : List (Str × Constant)} {a : MakeResults} {s : Str} (h : OptsThen os [] s)
    (ho : OptsOf os (.makeResults a)) : Staged k false (.makeResults a) s := by
  obtain ⟨h1, h2, h3, h4⟩ := ho
  refine stage 15 rfl (by decide) (by decide) (fun x => run_pre _ _ _ _) hk ⟨optsThen_stops h (Stops.nil _), fun rest he _ => ?_⟩
  obtain ⟨r, -, e2, -, e3⟩ := optsThen_read h optTail_nil he
  refine ⟨r, ?_, e2⟩
  rw [run_map, e3]
  simp only [getInt_of h1, getBoolean_of h2, getString_of h3, getStringOption_of h4]; rfl

theorem rex_good {k : Str} (hk : lower k = c!"rex") {os : List (Str × Constant)} {a : Rex} {t s : Str} (h : OptsThen os t s)
    (ho : OptsOf os (.rex a)) (hq : QuotedText a.regex t) : Staged k false (.rex a) s := by
  obtain ⟨h1, h2, h3, m, h4, h5, h6⟩ := ho
  refine stage 24 rfl (by decide) (by decide) (fun x => run_pre _ _ _ _) hk ?_
  refine optBody (x := { a with regex := [] }) (y := a.regex) (nx := id) h ⟨stops_self fun u => quoted_stops hq, fun rest _ => quoted_notOpt hq⟩ ?_ (fun _ => rfl)
    fun r he => ?_
  rotate_left
  · exact quoted_read hq
  simp only [getStringOption_of h4, getString_of h1, getInt_of h2, getStringOption_of h3]
  rw [h5] at h6
  have hg : (guard (m.map lower = none ∨ m.map lower = some c!"sed") : Option Unit) = some () := by
    rw [guard, if_pos h6]; rfl
  show (guard (m.map lower = none ∨ m.map lower = some c!"sed") : Option Unit).bind _ = _
  rw [hg, h5]; rfl

end Verif
