import Verif.Lemmas.Bodies3
/-
Reading what follows the name of a command: dedup, head, lookup, rare, return, sort, top.
-/
namespace Verif
open P Lex Spl Spec Lemmas

/-! ### Counts -/

theorem int_noCount {s : Str} (h1 : Stops isDig s) (h2 : ∀ c t, s = c :: t → c = '-' ∨ c = '+' → Stops isDig t) : int.run () s = none := by
  cases h : int.run () s with
  | none => rfl
  | some y =>
    exfalso
    obtain ⟨sgn, neg, ds, hs, hd, -, -, e, -⟩ := int_some h
    obtain ⟨d, t, rfl, hd'⟩ := hd.head
    cases hs with
    | none => exact absurd ((h1 _ _ e).symm.trans hd') (by decide)
    | plus => exact absurd ((h2 _ _ e (by decide) _ _ rfl).symm.trans hd') (by decide)
    | minus => exact absurd ((h2 _ _ e (by decide) _ _ rfl).symm.trans hd') (by decide)

theorem column_int {f u : Str} (h : FieldText f ∨ WildWord f) : int.run () (f ++ u) = none := by
  obtain ⟨c, t, e, -, hd⟩ := column_head h
  refine int_none (column_ne h (by decide)) (column_ne h (by decide)) ?_
  rw [e]; exact Stops.cons hd

theorem name_int {f u : Str} (h : IsName f) : int.run () (f ++ u) = none := by
  obtain ⟨c, t, e, hc⟩ := (name_lead h).head
  refine int_none (name_ne h.chars h.ne (by decide)) (name_ne h.chars h.ne (by decide)) ?_
  rw [e]; exact Stops.cons (h.head c t e)

theorem noCount_int {s rest : Str} (h : NoCount s) (hne : s ≠ []) (hr : Stops isDig rest) : int.run () (s ++ rest) = none := by
  obtain ⟨c, t, rfl⟩ := List.exists_cons_of_ne_nil hne
  refine int_noCount (Stops.cons (h.1 c t rfl)) fun c' t' e hc => ?_
  simp only [List.cons_append, List.cons.injEq] at e
  obtain ⟨rfl, rfl⟩ := e
  cases t with
  | nil => exact hr
  | cons d t => exact Stops.cons (h.2.1 c d t rfl hc)

theorem noCount_limit {s rest : Str} (h : NoCount s) (hr : Stops (fun c => (c!"limit=").contains (lowerC c)) rest) : lower ((s ++ rest).take 6) ≠ c!"limit=" :=
  fun e => h.2.2 (take_word (kw := c!"limit=") hr e).2

theorem many0_ws {g : Bool} {α R : Type} [Env R] {ρ : R} {p : P R g true α} {w i r : Str} {as : List α} (hw : Blanks w) (h : (many0 (ws p)).run ρ i = some (r, as)) :
    ∃ r', (many0 (ws p)).run ρ (w ++ i) = some (r', as) ∧ r'.dropWhile isSpace = r.dropWhile isSpace := by
  have hd : (w ++ i).dropWhile isSpace = i.dropWhile isSpace := dropWhile_append_of_blank (blanks_space hw) i
  have hp : (ws p).run ρ (w ++ i) = (ws p).run ρ i := by rw [run_ws, run_ws, hd]
  have hcon : ∀ i r x, (ws p).run ρ i = some (r, x) → r.length < i.length := fun i r x e => (ws p).con rfl _ _ _ _ e
  rw [run_many0] at h
  cases he : (ws p).run ρ i with
  | none =>
    have : manyLoop ((ws p).run ρ) i.length i = (i, []) := by cases i.length <;> simp [manyLoop, he]
    rw [this] at h
    simp only [Option.some.injEq, Prod.mk.injEq] at h
    obtain ⟨rfl, rfl⟩ := h
    exact ⟨_, many0_none (by rw [hp, he]), hd⟩
  | some y =>
    have l1 := hcon _ _ _ he
    obtain ⟨n, hn⟩ : ∃ n, i.length = n + 1 := ⟨i.length - 1, by omega⟩
    obtain ⟨m, hm⟩ : ∃ m, (w ++ i).length = m + 1 := ⟨(w ++ i).length - 1, by rw [List.length_append]; omega⟩
    have hmn : n ≤ m := by rw [List.length_append] at hm; omega
    refine ⟨r, ?_, rfl⟩
    rw [hn, manyLoop, he] at h
    rw [run_many0, hm, manyLoop, hp, he]
    simp only [manyLoop_fuel _ hcon m n y.1 (by omega) (by omega)]
    exact h

theorem options_ws {α : Type} {f : List (Str × Constant) → Option α} {w i r : Str} {x : α} (hw : Blanks w) (h : (options f).run fix i = some (r, x)) :
    ∃ r', (options f).run fix (w ++ i) = some (r', x) ∧ r'.dropWhile isSpace = r.dropWhile isSpace := by
  rw [options, run_filterMap, run_lift] at h
  obtain ⟨⟨r1, os⟩, h1, h2⟩ := Option.bind_eq_some_iff.1 h
  obtain ⟨r', h3, h4⟩ := many0_ws hw h1
  refine ⟨r', ?_, ?_⟩
  · rw [options, run_filterMap, run_lift, commandOptions, h3]
    simp only [Option.bind_some]
    obtain ⟨z, hz, e⟩ := Option.map_eq_some_iff.1 h2
    simp only [Prod.mk.injEq] at e
    rw [hz, e.2]; rfl
  · obtain ⟨z, hz, e⟩ := Option.map_eq_some_iff.1 h2
    simp only [Prod.mk.injEq] at e
    rw [h4, e.1]

/-- a count before the options -/
theorem optsThen_int {os : List (Str × Constant)} {t s : Str} (h : OptsThen os t s) (ht : ∀ u, int.run () (t ++ u) = none) (hne : t ≠ []) (u : Str) : int.run () (s ++ u) = none := by
  cases h with
  | none => exact ht u
  | only h => exact int_opts h u
  | both h _ _ => rw [List.append_assoc]; exact int_opts h _

/-! ### dedup -/

theorem dedupKey_read {a : Option Str × Str} {s u : Str} (h : DedupKey a s) (hu : After u) :
    Stops isSpace (s ++ u) ∧ (ws (seq (opt (tag! "+" <||> tag! "-")) (lift field)) : G true (Option Str × Str)).run fix (s ++ u) = some (u.dropWhile isSpace, a) := by
  cases h with
  | plain h =>
    refine ⟨column_stops h.2, ?_⟩
    rw [run_ws, drop_stops (column_stops h.2), run_seq, opt_none, Option.bind_some, run_lift, column_read h.2 hu]
    · rfl
    · rw [run_alt, tag_none (column_ne h.2 (by decide)), tag_none (column_ne h.2 (by decide))]; rfl
  | @up f h =>
    have hs : Stops isSpace ('+' :: f ++ u) := Stops.cons (by decide)
    refine ⟨hs, ?_⟩
    rw [run_ws, drop_stops hs, run_seq, run_opt, run_alt, List.cons_append, tag_same, Option.some_or, Option.elim_some, Option.bind_some, run_lift, column_read h.2 hu]; rfl
  | @down f h =>
    have hs : Stops isSpace ('-' :: f ++ u) := Stops.cons (by decide)
    refine ⟨hs, ?_⟩
    rw [run_ws, drop_stops hs, run_seq, run_opt, run_alt, List.cons_append, tag_ne (by decide), tag_same, Option.none_or, Option.elim_some, Option.bind_some, run_lift, column_read h.2 hu]; rfl

theorem keyword_field {k u kw : Str} {x : Char} {xs : Str} (hk : lower k = kw) (hkw : kw = x :: xs) (hl : ∀ c ∈ x :: xs, isLetter c = true) (hr : ¬ Reserved (x :: xs))
    (hlen : 2 ≤ kw.length) (hu : After u) : field.run () (k ++ u) = some (u, k) := by
  subst hkw
  have hw := keyword_lead hk hl hr
  have hkl : 2 ≤ k.length := by rw [← hk] at hlen; simpa [lower] using hlen
  exact run_field hw.ne hw.token hu.token hu.dot hw.res (by rintro rfl; simp at hkl) (by rintro rfl; simp at hkl)

theorem columnNot_read {kw f s u : Str} (h : ColumnNot kw f s) (hu : After u) :
    (verify (fun f => lower f != kw) field : L true Str).run () (s ++ u) = some (u, f) := by
  obtain ⟨⟨rfl, h⟩, hn⟩ := h
  rw [run_verify, column_read h hu]
  simp [hn]

/-- the fields of `dedup` and what follows them -/
theorem dedup_fields {fs : List Str} {ks : Option (List (Option Str × Str))} {u v rest : Str} (hf : Items byGap (ColumnNot c!"sortby") fs v)
    (hk : ThenMaybe (Keyed c!"sortby" (Items byGap DedupKey)) ks v u) (he : End rest) :
    (seq (many1 (ws (lift (verify (fun f => lower f != c!"sortby") field)))) (opt (pre (ws (tagi! "sortby"))
      (many1 (ws (seq (opt (tag! "+" <||> tag! "-")) (lift field)))))) : G true _).run fix (u ++ rest) = some (rest.dropWhile isSpace, fs, ks) := by
  have hcol : ∀ rest, After rest → field.run () (rest.dropWhile isSpace) = none ∨ (∃ r w, field.run () (rest.dropWhile isSpace) = some (r, w) ∧ lower w = c!"sortby") →
      (many1 (ws (lift (verify (fun f => lower f != c!"sortby") field))) : G true (List Str)).run fix (v ++ rest) = some (rest.dropWhile isSpace, fs) := by
    intro rest ha hn
    refine (many_read (ρ := fix) (nx := List.dropWhile isSpace) After (fun _ _ _ hi hu => ?_) (fun g b bs t hg hl => ⟨gap_after hg, drop_gap hg ?_⟩) ha ?_ hf).2
    · rw [run_ws, drop_stops, run_lift, columnNot_read hi hu]
      · rfl
      · obtain ⟨⟨rfl, h⟩, -⟩ := hi; exact column_stops h
    · exact items_first (P' := Stops isSpace) (fun _ _ _ hc => by obtain ⟨⟨rfl, h⟩, -⟩ := hc; exact column_stops h) hl _
    · rw [run_ws, dropWhile_idem, run_lift, run_verify]
      rcases hn with hn | ⟨r, w, hn, hw⟩
      · rw [hn]; rfl
      · rw [hn]; simp [hw]
  cases hk with
  | none =>
    rw [run_seq, hcol rest he.after (.inl (field_end he).2), Option.bind_some, opt_none]
    · rfl
    · rw [run_pre, ws_end (tagi_take (t := 's') (ts := c!"ortby") (by rw [dropWhile_idem]; exact he.take (by decide)))]; rfl
  | @some a s g t hg hk =>
    obtain ⟨hkw, hg2, hi⟩ := hk
    rename_i kk g₂ tt
    have hbl : ∀ b : Char, isSpace b = true → lowerC b ≠ 's' := fun b hb => space_all (f := fun b => lowerC b ≠ 's') (by decide) hb
    have hks : ∀ u, Stops isSpace (kk ++ u) := fun u => by
      have := word_stops (x := 's') hkw hbl
      exact stops_append this.2 this.1
    have hst := items_first (P' := Stops isSpace) (fun _ _ _ hc => by
      cases hc with
      | plain h => exact column_stops h.2
      | up h => exact Stops.cons (by decide)
      | down h => exact Stops.cons (by decide)) hi rest
    simp only [List.append_assoc]
    rw [run_seq, hcol _ (gap_after hg) (.inr ⟨_, kk, by rw [drop_gap hg (hks _)]; exact keyword_field hkw rfl (by decide) (by decide) (by decide) (gap_after hg2), hkw⟩), Option.bind_some,
      drop_gap hg (hks _)]
    have hq : (pre (ws (tagi! "sortby")) (many1 (ws (seq (opt (tag! "+" <||> tag! "-")) (lift field)))) : G true _).run fix (kk ++ (g₂ ++ (tt ++ rest))) = some (rest.dropWhile isSpace, a) := by
      rw [run_pre, run_ws, drop_stops (hks _), tagi_read (by rw [hkw]; decide), Option.map_some, Option.bind_some, drop_gap hg2 hst]
      refine (many_read (ρ := fix) (nx := List.dropWhile isSpace) After (fun _ _ _ hi hu => (dedupKey_read hi hu).2) (fun g b bs t hg hl => ⟨gap_after hg, drop_gap hg ?_⟩) he.after ?_ hi).2
      · exact items_first (P' := Stops isSpace) (fun _ _ _ hc => by
          cases hc with
          | plain h => exact column_stops h.2
          | up h => exact Stops.cons (by decide)
          | down h => exact Stops.cons (by decide)) hl _
      · rw [run_ws, dropWhile_idem, run_seq, opt_none, Option.bind_some, run_lift, (field_end he).2]
        · rfl
        · rw [run_alt, tag_none (he.drop_ne (by decide)), tag_none (he.drop_ne (by decide))]; rfl
    rw [opt_some hq]; rfl

theorem columnNot_column {kw : Str} {S : Str → Str → Prop} {fs : List Str} {v : Str} (h : Items S (ColumnNot kw) fs v) : Items S Column fs v := by
  induction h with
  | one h => exact .one h.1
  | cons h hg _ ih => exact .cons h.1 hg ih

/-- what follows columns: a keyword after blanks -/
theorem keyed_noEq {α : Type} {kw : Str} {p : α → Str → Prop} {a : α} {g s u : Str} {x : Char} {xs : Str} (hg : Gap g) (h : Keyed kw p a s) (hkw : kw = x :: xs) (hx : x ≠ '=')
    (hsp : ∀ b, isSpace b = true → lowerC b ≠ x) : NoEq (g ++ (s ++ u)) := by
  obtain ⟨hk, hg2, hp⟩ := h
  subst hkw
  have hks := word_stops hk hsp
  simp only [List.append_assoc]
  refine gap_noEq hg (stops_append hks.2 hks.1) (letter_ne hk rfl ?_ _)
  show lowerC '=' ≠ x
  exact fun e => hx (e.symm.trans (by decide))

theorem dedup_good {k : Str} (hk : lower k = c!"dedup") {os : List (Str × Constant)} {n : Option Int} {fs : List Str} {x y z : Bool} {ks : Option (List (Option Str × Str))} {s t u v : Str}
    (hf : Items byGap (ColumnNot c!"sortby") fs v) (hks : ThenMaybe (Keyed c!"sortby" (Items byGap DedupKey)) ks v u) (h : OptsThen os u t) (hn : MaybeThen IntText n t s)
    (ho : OptsOf os (.dedup (n.getD 1) fs x y z (ks.getD [(some c!"+", c!"_no")]))) :
    Staged k false (.dedup (n.getD 1) fs x y z (ks.getD [(some c!"+", c!"_no")])) s := by
  obtain ⟨h1, h2, h3⟩ := ho
  have hf' := columnNot_column hf
  have hv := fun u => (column_items hf' u).1
  have hint : ∀ w, int.run () (v ++ w) = none := items_first (P' := fun x => int.run () x = none) (fun _ _ _ hc => by obtain ⟨rfl, hc⟩ := hc; exact column_int hc) hf'
  have hvne : v ≠ [] := items_ne (fun _ _ hc => by obtain ⟨rfl, hc⟩ := hc; exact column_nonempty hc) hf'
  have hu : (∀ w, Stops isSpace (u ++ w)) ∧ u ≠ [] ∧ (∀ w, int.run () (u ++ w) = none) ∧ ∀ rest, End rest → NotOpt (u ++ rest) := by
    cases hks with
    | none => exact ⟨hv, hvne, hint, fun rest he => gapColumns_notOpt hf' he.noEq⟩
    | some hg hk2 =>
      refine ⟨fun w => by rw [List.append_assoc]; exact hv _, by simp [hvne], fun w => by rw [List.append_assoc]; exact hint _, fun rest he => ?_⟩
      simp only [List.append_assoc]
      exact gapColumns_notOpt hf' (keyed_noEq hg hk2 rfl (by decide) (fun b hb => space_all (f := fun b => lowerC b ≠ 's') (by decide) hb))
  have ht : OptTail u := ⟨stops_self hu.1, hu.2.2.2⟩
  refine stage 5 rfl (by decide) (by decide) (fun x => run_pre _ _ _ _) hk ?_
  have hts : Stops isSpace t := optsThen_stops h ht.stops
  have htne : t ≠ [] := by
    cases h with
    | none => exact hu.2.1
    | only h => exact absurd rfl hu.2.1
    | both h _ _ => simp [hu.2.1]
  have key : ∀ rest, End rest → ∀ w, Blanks w → ∃ r', (seq (options fun o => do
            let keepEvents ← getBoolean o c!"keepevents" false
            let keepEmpty ← getBoolean o c!"keepempty" false
            let consecutive ← getBoolean o c!"consecutive" false
            return (keepEvents, keepEmpty, consecutive))
          (seq (many1 (ws (lift (verify (fun f => lower f != c!"sortby") field))))
            (opt (pre (ws (tagi! "sortby"))
              (many1 (ws (seq (opt (tag! "+" <||> tag! "-")) (lift field))))))) : G true _).run fix (w ++ (t ++ rest)) = some (r', (x, y, z), fs, ks) ∧
          r'.dropWhile isSpace = rest.dropWhile isSpace := by
    intro rest he w hw
    obtain ⟨r, e1, e2, e3, e4⟩ := optsThen_read h ht he
    obtain rfl := e3 hu.2.1
    have e5 := e4 (fun o => do
            let keepEvents ← getBoolean o c!"keepevents" false
            let keepEmpty ← getBoolean o c!"keepempty" false
            let consecutive ← getBoolean o c!"consecutive" false
            return (keepEvents, keepEmpty, consecutive))
    have e6 : (do
            let keepEvents ← getBoolean os c!"keepevents" false
            let keepEmpty ← getBoolean os c!"keepempty" false
            let consecutive ← getBoolean os c!"consecutive" false
            return (keepEvents, keepEmpty, consecutive) : Option (Bool × Bool × Bool)) = some (x, y, z) := by
      simp only [getBoolean_of h1, getBoolean_of h2, getBoolean_of h3]; rfl
    rw [e6, Option.map_some] at e5
    obtain ⟨r', e7, e8⟩ := options_ws hw e5
    refine ⟨r.dropWhile isSpace, ?_, dropWhile_idem _⟩
    rw [run_seq, e7, Option.bind_some, run_seq, many1_ws, e8, drop_stops (hu.1 _)]
    have := dedup_fields hf hks he
    rw [run_seq] at this
    rw [this]; rfl
  cases hn with
  | none =>
    refine ⟨hts, fun rest he _ => ?_⟩
    obtain ⟨r', e1, e2⟩ := key rest he [] (.inl rfl)
    refine ⟨r', ?_, e2⟩
    rw [run_map, run_seq, opt_none (by rw [run_lift]; exact optsThen_int h hu.2.2.1 hu.2.1 _), Option.bind_some]
    rw [List.nil_append] at e1
    rw [e1]; rfl
  | @some a s g t ha hg =>
    refine ⟨(intText_stops ha).2, fun rest he _ => ?_⟩
    obtain ⟨r', e1, e2⟩ := key rest he g (.inr hg)
    refine ⟨r', ?_, e2⟩
    rw [List.append_assoc, List.append_assoc, run_map, run_seq, run_opt, run_lift, intText_read ha (gap_stops (by decide) hg), Option.elim_some, Option.bind_some, e1]; rfl

/-! ### return -/

theorem value_noAnd {x : Str} {w : Str} (hw : LeadWord w) (hx : NoEq x) : fieldAndValue.run () (w ++ x) = none := by
  rw [fieldAndValue, run_sepPair, run_token hw.ne hw.token hx.token hw.res, Option.bind_some, run_ws, tag_none hx.eq]; rfl

theorem column_noValue {f x : Str} (h : FieldText f ∨ WildWord f) (hx : NoEq x) : fieldAndValue.run () (f ++ x) = none := by
  obtain ⟨w, d, rfl, hw, -, -, hd⟩ := column_lead h
  rw [List.append_assoc]
  refine value_noAnd hw ?_
  cases hd with
  | nil => exact hx
  | dot _ _ => exact sign_noEq (by decide)

/-- the items of `return` as read -/
def returnP : G true (List FieldOrAlias) :=
  many1 (P.map (fun v => .alias v.2 v.1) (ws (lift fieldAndValue))) <||> many1 (P.map .field (ws (pre (tag! "$") (lift field)))) <||> many1 (P.map .field (ws (lift field)))

theorem items_map {α β : Type} {S : Str → Str → Prop} {I : α → Str → Prop} (f : α → β) {as : List α} {s : Str} (h : Items S I as s) :
    Items S (fun b t => ∃ a, b = f a ∧ I a t) (as.map f) s := by
  induction h with
  | one h => exact .one ⟨_, rfl, h⟩
  | cons h hg _ ih => exact .cons ⟨_, rfl, h⟩ hg ih

theorem returnItems_read {fs : List FieldOrAlias} {t : Str} (h : ReturnItems fs t) : t ≠ [] ∧ ∀ rest, Stops isSpace (t ++ rest) ∧ int.run () (t ++ rest) = none ∧
    (End rest → returnP.run fix (t ++ rest) = some (rest.dropWhile isSpace, fs)) := by
  cases h with
  | @pairs vs s h =>
    have hfirst : ∀ u, Stops isSpace (t ++ u) ∧ int.run () (t ++ u) = none := items_first (P' := fun x => Stops isSpace x ∧ int.run () x = none)
      (fun _ _ _ hc => by obtain ⟨k, g₁, g₂, u, -, hk, -, -, -, rfl⟩ := hc; rw [List.append_assoc]; exact ⟨lead_stops (name_lead hk), name_int hk⟩) h
    refine ⟨items_ne (fun _ _ hc => by obtain ⟨k, g₁, g₂, u, -, hk, -, -, -, rfl⟩ := hc; simp [hk.ne]) h, fun rest => ⟨(hfirst _).1, (hfirst _).2, fun he => ?_⟩⟩
    have hq : (many1 (P.map (fun v => .alias v.2 v.1) (ws (lift fieldAndValue))) : G true (List FieldOrAlias)).run fix (t ++ rest) = some (rest.dropWhile isSpace, vs.map fun v => .alias v.2 v.1) := by
      refine (many_read (ρ := fix) (nx := List.dropWhile isSpace) (Stops tokenCont) (fun b u v hi hu => ?_) (fun g b bs t hg hl => ⟨(gap_after hg).token, drop_gap hg ?_⟩) he.token ?_
        (items_map (fun v => FieldOrAlias.alias v.2 v.1) h)).2
      · obtain ⟨a, rfl, k, g₁, g₂, w, rfl, hk, h1, h2, hw, rfl⟩ := hi
        simp only [List.append_assoc, List.cons_append]
        rw [run_map, run_ws, drop_stops (lead_stops (name_lead hk)), run_lift, fieldAndValue, run_sepPair, run_token hk.ne (name_lead hk).token (blanks_after h1 (by decide)).token (isName_res hk),
          Option.bind_some, run_ws, drop_blanks h1 (Stops.cons (by decide)), tag_same, Option.map_some, Option.bind_some, drop_blanks h2 (wordOrQuoted_stops hw), wordOrQuoted_read hw hu]
        rfl
      · exact items_first (P' := Stops isSpace) (fun _ _ _ hc => by obtain ⟨a, -, k, g₁, g₂, u, -, hk, -, -, -, rfl⟩ := hc; rw [List.append_assoc]; exact lead_stops (name_lead hk)) hl _
      · rw [run_map, run_ws, dropWhile_idem, run_lift, fieldAndValue, run_sepPair, token_none he.drop.token]; rfl
    rw [returnP, run_alt, hq]; rfl
  | @values fs s h =>
    have hfirst : ∀ u, ∃ x, t ++ u = '$' :: x := items_first (P' := fun x => ∃ y, x = '$' :: y) (fun _ _ _ hc => by obtain ⟨-, rfl⟩ := hc; exact ⟨_, rfl⟩) h
    refine ⟨items_ne (fun _ _ hc => by obtain ⟨-, rfl⟩ := hc; simp) h, fun rest => ?_⟩
    obtain ⟨x, hx⟩ := hfirst rest
    refine ⟨by rw [hx]; exact Stops.cons (by decide), by rw [hx]; rfl, fun he => ?_⟩
    have h0 : (many1 (P.map (fun v => .alias v.2 v.1) (ws (lift fieldAndValue))) : G true (List FieldOrAlias)).run fix (t ++ rest) = none := by
      refine many1_none ?_
      rw [hx, run_map, run_ws, drop_stops (Stops.cons (by decide)), run_lift, fieldAndValue, run_sepPair, token_none (Stops.cons (by decide))]; rfl
    have hq : (many1 (P.map .field (ws (pre (tag! "$") (lift field)))) : G true (List FieldOrAlias)).run fix (t ++ rest) = some (rest.dropWhile isSpace, fs.map .field) := by
      refine (many_read (ρ := fix) (nx := List.dropWhile isSpace) After (fun b u v hi hu => ?_) (fun g b bs t hg hl => ⟨gap_after hg, drop_gap hg ?_⟩) he.after ?_
        (items_map FieldOrAlias.field h)).2
      · obtain ⟨a, rfl, ha, rfl⟩ := hi
        rw [run_map, run_ws, drop_stops (s := '$' :: a ++ v) (Stops.cons (by decide)), run_pre, List.cons_append, tag_same, Option.bind_some, run_lift, column_read ha.2 hu]; rfl
      · exact items_first (P' := Stops isSpace) (fun _ _ _ hc => by obtain ⟨a, -, -, rfl⟩ := hc; exact Stops.cons (by decide)) hl _
      · rw [run_map, run_ws, dropWhile_idem, run_pre, tag_none (he.drop_ne (by decide))]; rfl
    rw [returnP, run_alt, h0, Option.none_or, run_alt, hq]; rfl
  | @plain fs s h =>
    have hst := fun u => (column_items h u).1
    refine ⟨items_ne (fun _ _ hc => by obtain ⟨rfl, hc⟩ := hc; exact column_nonempty hc) h, fun rest => ⟨hst _,
      items_first (P' := fun x => int.run () x = none) (fun _ _ _ hc => by obtain ⟨rfl, hc⟩ := hc; exact column_int hc) h _, fun he => ?_⟩⟩
    have hv : fieldAndValue.run () (t ++ rest) = none := by
      cases h with
      | one h => obtain ⟨rfl, h⟩ := h; exact column_noValue h he.noEq
      | cons h hg hl => obtain ⟨rfl, h⟩ := h; rw [List.append_assoc, List.append_assoc]; exact column_noValue h (gap_noEq hg (column_items hl _).1 ((column_items hl _).2 '=' (by decide)))
    have h0 : (many1 (P.map (fun v => .alias v.2 v.1) (ws (lift fieldAndValue))) : G true (List FieldOrAlias)).run fix (t ++ rest) = none := by
      refine many1_none ?_
      rw [run_map, run_ws, drop_stops (hst _), run_lift, hv]; rfl
    have h1 : (many1 (P.map .field (ws (pre (tag! "$") (lift field)))) : G true (List FieldOrAlias)).run fix (t ++ rest) = none := by
      refine many1_none ?_
      rw [run_map, run_ws, drop_stops (hst _), run_pre, tag_none ((column_items h rest).2 '$' (by decide))]; rfl
    rw [returnP, run_alt, h0, Option.none_or, run_alt, h1, Option.none_or]
    refine (many_read (ρ := fix) (nx := List.dropWhile isSpace) After (fun b u v hi hu => ?_) (fun g b bs t hg hl => ⟨gap_after hg, drop_gap hg ?_⟩) he.after ?_ (items_map FieldOrAlias.field h)).2
    · obtain ⟨a, rfl, rfl, ha⟩ := hi
      rw [run_map, run_ws, drop_stops (column_stops ha), run_lift, column_read ha hu]; rfl
    · exact items_first (P' := Stops isSpace) (fun _ _ _ hc => by obtain ⟨a, -, -, ha⟩ := hc; exact column_stops ha) hl _
    · rw [run_map, run_ws, dropWhile_idem, run_lift, (field_end he).2]; rfl

theorem return_good {k : Str} (hk : lower k = c!"return") {n : Option Int} {fs : List FieldOrAlias} {t s : Str} (h : ReturnItems fs t) (hn : MaybeThen IntText n t s) :
    Staged k false (.return_ (n.getD 1) fs) s := by
  obtain ⟨hne, hr⟩ := returnItems_read h
  cases hn with
  | none =>
    refine stage 23 rfl (by decide) (by decide) (fun x => run_pre _ _ _ _) hk (bodyGood_of (nx := List.dropWhile isSpace) (stops_self fun u => (hr u).1) dropWhile_idem fun rest he => ?_)
    rw [run_map, run_seq, run_ws, drop_stops (hr _).1, opt_none (by rw [run_lift]; exact (hr _).2.1), Option.map_some, Option.bind_some, drop_stops (hr _).1]
    have := (hr rest).2.2 he
    rw [returnP] at this
    rw [this]; rfl
  | @some a s g t ha hg =>
    refine stage 23 rfl (by decide) (by decide) (fun x => run_pre _ _ _ _) hk (bodyGood_of (nx := List.dropWhile isSpace) (intText_stops ha).2 dropWhile_idem fun rest he => ?_)
    rw [List.append_assoc, List.append_assoc, run_map, run_seq, run_ws, drop_stops (intText_stops ha).2, run_opt, run_lift, intText_read ha (gap_stops (by decide) hg), Option.elim_some, Option.map_some,
      Option.bind_some, drop_gap hg (hr _).1]
    have := (hr rest).2.2 he
    rw [returnP] at this
    rw [this]; rfl

end Verif
