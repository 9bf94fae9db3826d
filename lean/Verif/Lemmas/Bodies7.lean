import Verif.Lemmas.Bodies6
/-
Reading what follows the name of a command: stats, eventstats, streamstats, join, multisearch.
-/
namespace Verif
open P Lex Spl Spec Lemmas

/-! ### The functions of stats -/

/-- one function as read -/
def statP : G true Expr :=
  aliasedCall <||> callExpr <||> P.map (fun x => .alias (.call x.1 []) x.2) (lift aliasedField) <||>
    P.map (fun v => .call v []) (lift (verify (fun v => lower v != c!"by") token))

/-- what may follow a function -/
structure StatOk (u : Str) : Prop where
  notAs : NotAs u
  paren : ∀ c t, u = c :: t → c ≠ '('

theorem End.statOk {u : Str} (h : End u) : StatOk u := ⟨h.notAs, h.ne (by decide)⟩

theorem callP_none {f u : Str} (hf : IsName f) (hu : Stops tokenCont u) (hp : ∀ c t, u = c :: t → c ≠ '(') : callP.run fix (f ++ u) = none := by
  rw [callP, run_seq, run_lift, run_token hf.ne (name_lead hf).token hu (isName_res hf), Option.bind_some, parenthesized_none _ hp]; rfl

theorem gap_ne {g u : Str} (hg : Gap g) {q : Char} (hq : isSpace q = false) : ∀ c t, g ++ u = c :: t → c ≠ q := by
  obtain ⟨b, x, rfl, hb⟩ := gap_head hg
  intro c t e ec
  simp only [List.cons_append, List.cons.injEq] at e
  rw [e.1, ec, hq] at hb
  exact absurd hb (by decide)

theorem name_notBy {f : Str} (h : IsName f) : lower f ≠ c!"by" := by
  intro e
  have := by_token (u := []) e (Stops.nil _)
  rw [run_token h.ne (name_lead h).token (Stops.nil _) (isName_res h)] at this
  simp at this

theorem field_column {f : Str} (h : IsField f) : FieldText f ∨ WildWord f := .inl (.one h)

theorem statItem_read {e : Expr} {s u : Str} (h : StatItem e s) (hu : StatOk u) : statP.run fix (s ++ u) = some (u, e) := by
  cases h with
  | word h =>
    have hn := callP_none h.name hu.notAs.after.token hu.paren
    rw [statP, run_alt, aliasedCall, run_map, run_sepPair, callExpr, run_map, hn, run_alt, run_map, hn, run_alt, run_map, run_lift, aliased_none (field_column h) hu.notAs.after hu.notAs.as_, run_map, run_lift, run_verify,
      run_token h.name.ne (name_lead h.name).token hu.notAs.after.token (isName_res h.name)]
    have := name_notBy h.name
    simp [this]
  | @wordAs f n g₁ k g₂ t h h1 hk h2 hn' =>
    have hr : Renamed (f, n) (f ++ (g₁ ++ (k ++ (g₂ ++ t)))) := ⟨field_column h, h1, hk, h2, hn'⟩
    have hn : callP.run fix (f ++ (g₁ ++ (k ++ (g₂ ++ t))) ++ u) = none := by
      rw [List.append_assoc, List.append_assoc]; exact callP_none h.name (gap_after h1).token (gap_ne h1 (by decide))
    rw [statP, run_alt, aliasedCall, run_map, run_sepPair, callExpr, run_map, hn, run_alt, run_map, hn, run_alt, run_map, run_lift, renamed_read hr hu.notAs.after.token]
    rfl
  | @call f es g₁ g₂ s h h1 h2 ha =>
    have hn := call_read (rest := u) h h1 h2 ha
    simp only [List.append_assoc, List.cons_append, List.nil_append]
    rw [statP, run_alt, aliasedCall, run_map, run_sepPair, callExpr, run_map, hn, Option.map_some, Option.bind_some, ws_end (tagi_take (t := 'a') (ts := c!"s") hu.notAs.as_), run_alt, run_map, hn]
    rfl
  | @callAs f es g₁ g₂ s g₃ k g₄ n h h1 h2 ha h3 hk h4 hn' =>
    have hw : LeadWord n := hn'.elim name_lead star_lead
    have hn := call_read (rest := g₃ ++ (k ++ (g₄ ++ (n ++ u)))) h h1 h2 ha
    have has : (ws (tagi! "as") : G true Str).run fix (g₃ ++ (k ++ (g₄ ++ (n ++ u)))) = some (n ++ u, k) := by
      rw [run_ws, word_drop h3 hk (by intro b hb; exact space_all (f := fun b => lowerC b ≠ 'a') (by decide) hb), tagi_read (by rw [hk]; decide), Option.map_some, drop_gap h4 (lead_stops hw)]
    simp only [List.append_assoc, List.cons_append, List.nil_append]
    rw [statP, run_alt, aliasedCall, run_map, run_sepPair, callExpr, run_map, hn, Option.map_some, Option.bind_some, has, Option.bind_some, run_lift, run_token hw.ne hw.token hu.notAs.after.token hw.res]
    rfl

theorem statItem_head {e : Expr} {s : Str} (h : StatItem e s) : ∃ f u, s = f ++ u ∧ IsName f := by
  cases h with
  | word h => exact ⟨_, [], by simp, h.name⟩
  | wordAs h => exact ⟨_, _, rfl, h.name⟩
  | call h => exact ⟨_, _, rfl, h⟩
  | callAs h => exact ⟨_, _, rfl, h⟩

theorem statItem_stops {e : Expr} {s u : Str} (h : StatItem e s) : Stops isSpace (s ++ u) := by
  obtain ⟨f, v, rfl, hf⟩ := statItem_head h
  rw [List.append_assoc]; exact lead_stops (name_lead hf)

theorem statItem_ne {e : Expr} {s u : Str} (h : StatItem e s) {q : Char} (hq : isTokenChar q = false) : ∀ c t, s ++ u = c :: t → c ≠ q := by
  obtain ⟨f, v, rfl, hf⟩ := statItem_head h
  rw [List.append_assoc]; exact lead_ne (name_lead hf) hq

theorem statItem_notOpt {e : Expr} {s u : Str} (h : StatItem e s) (hu : NoEq u) : NotOpt (s ++ u) := by
  cases h with
  | word h => exact word_notOpt (name_lead h.name) hu
  | @wordAs f n g₁ k g₂ t h h1 hk h2 hn =>
    have hr : Renamed (f, n) (f ++ (g₁ ++ (k ++ (g₂ ++ t)))) := ⟨field_column h, h1, hk, h2, hn⟩
    exact renamed_notOpt hr
  | call h => rw [List.append_assoc, List.cons_append]; exact word_notOpt (name_lead h) (sign_noEq (by decide))
  | callAs h => rw [List.append_assoc, List.cons_append]; exact word_notOpt (name_lead h) (sign_noEq (by decide))

theorem byList_ne {g t u : Str} (h : byListNotAs g t) {q : Char} (hq : isSpace q = false ∧ q ≠ ',') : ∀ c s, g ++ u = c :: s → c ≠ q := by
  rcases h with h | ⟨h, -⟩
  · obtain ⟨h1, h2⟩ := h
    rcases h1 with rfl | h1
    · intro c s e
      simp only [List.nil_append, List.cons_append, List.cons.injEq] at e
      rw [← e.1]; exact fun e => hq.2 e.symm
    · rw [List.append_assoc]; exact gap_ne h1 hq.1
  · exact gap_ne h hq.1

theorem byList_noEq {g t u : Str} (h : byListNotAs g t) (hu : Stops isSpace u) (hne : ∀ c s, u = c :: s → c ≠ '=') : NoEq (g ++ u) := by
  rcases h with h | ⟨h, -⟩
  · exact comma_noEq h
  · exact gap_noEq h hu hne

theorem stats_notOpt {fs : List Expr} {t rest : Str} (h : Items byListNotAs StatItem fs t) (hr : NoEq rest) : NotOpt (t ++ rest) :=
  items_notOpt (fun _ _ _ hc hu => statItem_notOpt hc hu)
    (fun _ _ _ _ hg hl => byList_noEq hg (items_first (P' := Stops isSpace) (fun _ _ _ hc => statItem_stops hc) hl _)
      (items_first (P' := fun x => ∀ c t, x = c :: t → c ≠ '=') (fun _ _ _ hc => statItem_ne hc (by decide)) hl _)) h hr

theorem statsCall_read {fs : List Expr} {t rest : Str} (h : Items byListNotAs StatItem fs t) (hr : StatOk rest) (hc : ∀ c s, rest.dropWhile isSpace = c :: s → c ≠ ',')
    (hf : statP.run fix (rest.dropWhile isSpace) = none) : statsCall.run fix (t ++ rest) = some (rest, fs) := by
  have : statsCall.run fix (t ++ rest) = (sepList1 commaOrSpaceSep statP : G true (List Expr)).run fix (t ++ rest) := rfl
  rw [this, (sepList1_read (ρ := fix) (sp := (commaOrSpaceSep : G true Str)) (p := statP) (nx := id) StatOk (fun _ _ _ hi hu => statItem_read hi hu)
    (fun g b bs t hg hl => by
      have hst := items_first (P' := Stops isSpace) (fun _ _ _ hc => statItem_stops hc) hl rest
      exact ⟨⟨byList_notAs hg hst hr.notAs.after.letter, byList_ne hg (by decide)⟩,
        byList_sep hg hst (items_first (P' := fun x => ∀ c t, x = c :: t → c ≠ ',') (fun _ _ _ hc => statItem_ne hc (by decide)) hl _)⟩)
    hr (fun r x hr => by rw [commaOrSpace_end hc hr]; exact hf) h).1]
  rfl

theorem statP_none {x : Str} (h1 : token.run () x = none) (h2 : field.run () x = none) : statP.run fix x = none := by
  rw [statP, run_alt, aliasedCall, run_map, run_sepPair, callExpr, run_map, callP, run_seq, run_lift, h1, run_alt, run_map, run_seq, run_lift, h1, run_alt, run_map, run_lift, aliasedField, run_sepPair, h2, run_map,
    run_lift, run_verify, h1]; rfl

/-- functions and a BY clause -/
structure StatsGood {β : Type} {c : Bool} (p : L c β) (fs : List Expr) (b : Option β) (u : Str) : Prop where
  ne : u ≠ []
  stops : ∀ w, Stops isSpace (u ++ w)
  notOpt : ∀ rest, End rest → NotOpt (u ++ rest)
  read : ∀ rest, End rest → ∃ r, statsCall.run fix (u ++ rest) = some (r, fs) ∧ ∀ r₁, r₁ = r ∨ r₁ = r.dropWhile isSpace →
    ∃ r₂, (opt (pre (ws (tagi! "by")) (lift p)) : G false (Option β)).run fix r₁ = some (r₂, b) ∧ End r₂ ∧ r₂.dropWhile isSpace = rest.dropWhile isSpace

theorem statsGood {β : Type} {c : Bool} {p : L c β} {I : β → Str → Prop} {fs : List Expr} {b : Option β} {t u : Str} (h : Items byListNotAs StatItem fs t) (hb : ThenMaybe (Keyed c!"by" I) b t u)
    (hp : ∀ a s rest, I a s → End rest → Stops isSpace (s ++ rest) ∧ p.run () (s ++ rest) = some (rest, a)) : StatsGood p fs b u := by
  have hne : t ≠ [] := items_ne (fun _ _ hc => by obtain ⟨f, v, rfl, hf⟩ := statItem_head hc; simp [hf.ne]) h
  have hst := items_first (P' := Stops isSpace) (fun _ _ _ hc => statItem_stops hc) h
  cases hb with
  | none =>
    refine ⟨hne, hst, fun rest he => stats_notOpt h he.noEq, fun rest he => ⟨rest, statsCall_read h he.statOk (he.drop_ne (by decide)) (statP_none (token_none he.drop.token) (field_end he).2), ?_⟩⟩
    rintro r₁ (rfl | rfl)
    · exact ⟨_, opt_none (by rw [run_pre, (byTag_end he).2]; rfl), he, rfl⟩
    · exact ⟨_, opt_none (by rw [run_pre, (byTag_end he.drop).2]; rfl), he.drop, dropWhile_idem _⟩
  | @some a s g t hg hk =>
    refine ⟨by simp [hne], fun w => by rw [List.append_assoc]; exact hst _,
      fun rest he => by rw [List.append_assoc, List.append_assoc]; exact stats_notOpt h (by_noEq hg hk), fun rest he => ?_⟩
    obtain ⟨hkw, hg2, hi⟩ := hk
    rename_i kk g₂ tt
    obtain ⟨e1, e2⟩ := hp _ _ rest hi he
    have hd : (g ++ (kk ++ (g₂ ++ (tt ++ rest)))).dropWhile isSpace = kk ++ (g₂ ++ (tt ++ rest)) := drop_gap hg (by_stops hkw)
    refine ⟨g ++ (kk ++ (g₂ ++ (tt ++ rest))), ?_, ?_⟩
    · simp only [List.append_assoc]
      refine statsCall_read h ⟨⟨gap_after hg, ?_⟩, gap_ne hg (by decide)⟩ ?_ ?_
      · rw [hd]; exact take_head (kw := c!"as") hkw rfl (by decide)
      · rw [hd]; exact letter_ne hkw rfl (by decide) _
      · rw [hd]; exact statP_none (by_token hkw (gap_after hg2).token) (by_field hkw (gap_after hg2).token)
    · rintro r₁ hr
      refine ⟨rest, opt_some (y := (rest, a)) ?_, he, rfl⟩
      have hw : (ws (tagi! "by") : G true Str).run fix r₁ = some (tt ++ rest, kk) := by
        rcases hr with rfl | rfl
        · rw [← (byTag_read (ρ := fix) hkw hg2 e1).2, run_ws, run_ws, hd, drop_stops (by_stops hkw)]
        · rw [hd]; exact (byTag_read (ρ := fix) hkw hg2 e1).2
      rw [run_pre, hw, Option.bind_some, run_lift, e2]

/-! ### Fields with a span -/

theorem unit_read {s n m u : Str} (hs : (s, n) ∈ unitSpellings) (hm : lower m = s) (hu : Stops tokenCont u) : timeUnit.run () (m ++ u) = some (u, n) := by
  refine ((C47_unit (m ++ u)).1 u n).2 ⟨s, m, hs, rfl, hm, ?_⟩
  rintro x hx ⟨m', r', e, e'⟩
  have hal : ∀ x ∈ unitSpellings, ∀ c ∈ x.1, isAlnum c = true := by decide
  have hlen : m'.length = x.1.length := by rw [← e']; simp [lower]
  have hml : m.length = s.length := by rw [← hm]; simp [lower]
  have ht : lower ((m ++ u).take x.1.length) = x.1 := by rw [e, ← hlen, List.take_left', e']; rfl
  have := (take_word (kw := x.1) (t := m) (rest := u) (hu.mono fun c hc => by
    have h1 := hal x hx _ (by simpa using hc)
    have h2 := lowerC_alnum c h1
    simp [tokenCont, isTokenChar, h2]) ht).1
  omega

theorem unit_first {s n m : Str} (hs : (s, n) ∈ unitSpellings) (hm : lower m = s) (u : Str) : Stops isDig (m ++ u) ∧ Stops isSpace (m ++ u) := by
  have key : ∀ x ∈ unitSpellings, ∃ c t, x.1 = c :: t ∧ isLetter c = true := by
    intro x hx
    have h : ∀ x ∈ unitSpellings, x.1.head?.any isLetter = true := by decide
    have := h x hx
    cases hx1 : x.1 with
    | nil => rw [hx1] at this; simp at this
    | cons c t => rw [hx1] at this; exact ⟨c, t, rfl, by simpa using this⟩
  obtain ⟨c, t, e, hc⟩ := key _ hs
  simp only at e
  rw [e] at hm
  obtain ⟨c', t', rfl, h1, -⟩ := lower_cons hm
  have hl : isLetter c' = true := lowerC_letter (by rw [h1]; exact hc)
  exact ⟨Stops.cons (letter_notDig hl), Stops.cons (tokenChar_space (letter_token hl))⟩

/-- what may follow a BY field -/
structure ByOk (u : Str) : Prop where
  after : After u
  span : lower ((u.dropWhile isSpace).take 5) ≠ c!"span="

theorem End.byOk {u : Str} (h : End u) : ByOk u := ⟨h.after, h.take (by decide)⟩

theorem byField_column {a : SpField} {s : Str} (h : ByField a s) : ∃ f u, s = f ++ u ∧ (FieldText f ∨ WildWord f) ∧ (u = [] ∨ ∃ g v, Gap g ∧ u = g ++ v) := by
  cases h with
  | plain h => exact ⟨_, [], by simp, h.2, .inl rfl⟩
  | span h hg => exact ⟨_, _, rfl, h.2, .inr ⟨_, _, hg, rfl⟩⟩

theorem byField_stops {a : SpField} {s u : Str} (h : ByField a s) : Stops isSpace (s ++ u) := by
  obtain ⟨f, v, rfl, h', -⟩ := byField_column h
  rw [List.append_assoc]; exact column_stops h'

theorem byField_comma {a : SpField} {s u : Str} (h : ByField a s) : ∀ c t, s ++ u = c :: t → c ≠ ',' := by
  obtain ⟨f, v, rfl, h', -⟩ := byField_column h
  rw [List.append_assoc]; exact column_ne h' (by decide)

theorem byField_read {a : SpField} {s u : Str} (h : ByField a s) (hu : ByOk u) : spField.run () (s ++ u) = some (u, a) := by
  cases h with
  | plain h =>
    have : (sepPair field ms1 (pre (ws (tagi! "span=")) timeSpan) : L true _).run () (s ++ u) = none := by
      rw [run_sepPair, column_read h.2 hu.after, Option.bind_some]
      cases hm : (ms1 : L true Str).run () u with
      | none => rfl
      | some y =>
        have hy : y.1 = u.dropWhile isSpace := by
          rw [run_ms1] at hm
          cases u with
          | nil => simp at hm
          | cons c t =>
            by_cases hc : isSpace c = true
            · simp only [hc, if_true, Option.some.injEq] at hm
              rw [← hm, List.dropWhile_cons_of_pos hc]
            · simp [hc] at hm
        rw [Option.bind_some, run_pre, ws_end (tagi_take (t := 's') (ts := c!"pan=") (by rw [hy, dropWhile_idem]; exact hu.span))]; rfl
    rw [spField, run_alt, run_map, this, run_map, column_read h.2 hu.after]; rfl
  | @span f g k g₂ m s n' n h hg hk h2 hn hs hm =>
    have hks : ∀ u, Stops isSpace (k ++ u) := fun u => by
      have := word_stops hk (fun b hb => space_all (f := fun b => lowerC b ≠ 's') (by decide) hb)
      exact stops_append this.2 this.1
    simp only [List.append_assoc, List.cons_append]
    obtain ⟨x, hx⟩ := gap_ms1L hg (hks ('=' :: (g₂ ++ (showNat n ++ (m ++ u)))))
    have hi : int.run () (showNat n ++ (m ++ u)) = some (m ++ u, (n : Int)) :=
      intText_read (n := (n : Int)) (s := showNat n) (⟨by unfold isI64; omega⟩) (unit_first hs hm u).1
    have hst : Stops isSpace (showNat n ++ (m ++ u)) := by
      have := intText_stops (n := (n : Int)) (s := showNat n) (u := m ++ u) (⟨by unfold isI64; omega⟩)
      exact this.2
    have hsp : (ws (tagi! "span=") : L true Str).run () (k ++ '=' :: (g₂ ++ (showNat n ++ (m ++ u)))) = some (showNat n ++ (m ++ u), k ++ c!"=") := by
      have e : k ++ '=' :: (g₂ ++ (showNat n ++ (m ++ u))) = (k ++ c!"=") ++ (g₂ ++ (showNat n ++ (m ++ u))) := by simp
      rw [run_ws, drop_stops (hks _), e, tagi_read (by unfold lower at hk ⊢; rw [List.map_append, hk]; decide), Option.map_some, drop_blanks h2 hst]
    rw [spField, run_alt, run_map, run_sepPair, column_read h.2 (gap_after hg), Option.bind_some, hx, Option.bind_some, run_pre, hsp, Option.bind_some, timeSpan, run_map, run_seq, hi, Option.bind_some,
      unit_read hs hm hu.after.token]
    rfl

theorem span_noKey {a : SpField} {s u : Str} (h : ByField a s) (hu : Stops (fun c => (c!"span=").contains (lowerC c)) u) : lower ((s ++ u).take 5) ≠ c!"span=" := by
  obtain ⟨f, v, rfl, h', hv⟩ := byField_column h
  rw [List.append_assoc]
  refine noKey (kw := c!"span=") (column_noEq h') ?_ (by decide)
  rcases hv with rfl | ⟨g, w, hg, rfl⟩
  · exact hu
  · rw [List.append_assoc]; exact gap_stops (by decide) hg

theorem listSep_head {g u : Str} (h : ListSep g) {f : Char → Bool} (hf : f ' ' = false ∧ f '\t' = false ∧ f '\r' = false ∧ f '\n' = false) (hc : f ',' = false) : Stops f (g ++ u) := by
  cases h with
  | gap h => exact gap_stops hf h
  | comma h1 h2 =>
    rcases h1 with rfl | h1
    · exact Stops.cons hc
    · rw [List.append_assoc]; exact gap_stops hf h1

theorem items_span {as : List SpField} {t rest : Str} (h : Items byList ByField as t) (hr : Stops (fun c => (c!"span=").contains (lowerC c)) rest) :
    lower ((t ++ rest).take 5) ≠ c!"span=" := by
  cases h with
  | one h => exact span_noKey h hr
  | cons h hg _ => rw [List.append_assoc, List.append_assoc]; exact span_noKey h (listSep_head hg (by decide) (by decide))

theorem spFields_read {as : List SpField} {s rest : Str} (h : Items byList ByField as s) (he : End rest) : Stops isSpace (s ++ rest) ∧ spFieldList1.run () (s ++ rest) = some (rest, as) := by
  refine ⟨items_first (P' := Stops isSpace) (fun _ _ _ hc => byField_stops hc) h rest, ?_⟩
  rw [spFieldList1, run_commaOrSpaceList1, (sepList1_read (ρ := ()) (nx := id) ByOk (fun _ _ _ hi hu => byField_read hi hu) (fun g b bs t hg hl => ?_) he.byOk
    (fun r x hr => by rw [commaOrSpace_end (he.drop_ne (by decide)) hr, spField, run_alt, run_map, run_map, run_sepPair, (field_end he).2]; rfl) h).1]
  · rfl
  · have hst := items_first (P' := Stops isSpace) (fun _ _ _ hc => byField_stops hc) hl rest
    have hcm := items_first (P' := fun x => ∀ c t, x = c :: t → c ≠ ',') (fun _ _ _ hc => byField_comma hc) hl rest
    refine ⟨⟨listSep_after hg, ?_⟩, listSep_read hg hst hcm⟩
    cases hg with
    | gap hg => rw [drop_gap hg hst]; exact items_span hl (he.key (by decide))
    | comma h1 h2 =>
      rw [List.append_assoc, List.cons_append, drop_blanks h1 (Stops.cons (by decide))]
      simp [lower, lowerC]

/-! ### The commands -/

theorem dedup_end {r : Str} (he : End r) : (opt (pre (seq (ws (tagi! "dedup_splitvals")) (ws (tag! "="))) (lift bool_)) : G false (Option Bool)).run fix r = some (r, none) := by
  refine opt_none ?_
  rw [run_pre, run_seq, ws_end (tagi_take (t := 'd') (ts := c!"edup_splitvals") (he.take (by decide)))]; rfl

theorem stats_good {k : Str} (hk : lower k = c!"stats") {os : List (Str × Constant)} {o : StatsOpts} {fs : List Expr} {by_ : Option (List SpField)} {t u s : Str}
    (hf : Items byListNotAs StatItem fs t) (hb : ThenMaybe (Keyed c!"by" (Items byList ByField)) by_ t u) (h : OptsThen os u s) (ho : OptsOf os (.stats o fs by_ false)) :
    Staged k false (.stats o fs by_ false) s := by
  obtain ⟨o1, o2, o3⟩ := o
  obtain ⟨⟨y, h1, h1'⟩, h2, h3⟩ := ho
  simp only at h1'
  have h1e : toU64 y = o1 := by have := toU64_mod y; omega
  have hg := statsGood hf hb (p := spFieldList1) (fun _ _ _ hi he => spFields_read hi he)
  have ht : OptTail u := ⟨stops_self hg.stops, hg.notOpt⟩
  refine stage 27 rfl (by decide) (by decide) (fun x => run_pre _ _ _ _) hk ⟨optsThen_stops h ht.stops, fun rest he _ => ?_⟩
  obtain ⟨r, e1, e2, e3, e4⟩ := optsThen_read h ht he
  obtain rfl := e3 hg.ne
  obtain ⟨r, c1, c2⟩ := hg.read _ he
  obtain ⟨r₂, c3, c4, c5⟩ := c2 r (.inl rfl)
  refine ⟨r₂, ?_, c5⟩
  rw [run_map, run_seq, e4]
  simp only [getInt_of h1, getBoolean_of h2, getString_of h3]
  simp only [Option.bind_eq_bind, Option.bind_some, Option.pure_def, Option.map_some]
  rw [run_seq, c1, Option.bind_some, run_seq, c3, Option.bind_some, dedup_end c4, ← h1e]; rfl

theorem eventstats_good {k : Str} (hk : lower k = c!"eventstats") {os : List (Str × Constant)} {a : Bool} {fs : List Expr} {by_ : Option (List Str)} {t u s : Str}
    (hf : Items byListNotAs StatItem fs t) (hb : ThenMaybe (Keyed c!"by" (Items byList Column)) by_ t u) (h : OptsThen os u s) (ho : OptsOf os (.eventStats a fs (by_.getD []))) :
    Staged k false (.eventStats a fs (by_.getD [])) s := by
  have hg := statsGood hf hb (p := fieldList0) (fun _ _ _ hi he => ⟨(column_items hi _).1, (columns_end hi he).2⟩)
  have ht : OptTail u := ⟨stops_self hg.stops, hg.notOpt⟩
  refine stage 7 rfl (by decide) (by decide) (fun x => run_pre _ _ _ _) hk ⟨optsThen_stops h ht.stops, fun rest he _ => ?_⟩
  obtain ⟨r, e1, e2, e3, e4⟩ := optsThen_read h ht he
  obtain rfl := e3 hg.ne
  obtain ⟨r, c1, c2⟩ := hg.read _ he
  obtain ⟨r₂, c3, c4, c5⟩ := c2 _ (.inr rfl)
  refine ⟨r₂, ?_, c5⟩
  rw [run_map, run_seq, e4]
  simp only [getBoolean_of ho]
  simp only [Option.bind_some, Option.map_some]
  rw [run_seq, run_ws, drop_stops (hg.stops _), c1, Option.map_some, Option.bind_some, c3]; rfl

theorem streamstats_good {k : Str} (hk : lower k = c!"streamstats") {os : List (Str × Constant)} {a : Bool} {n : Int} {fs : List Expr} {by_ : Option (List SpField)} {t u s : Str}
    (hf : Items byListNotAs StatItem fs t) (hb : ThenMaybe (Keyed c!"by" (Items byList ByField)) by_ t u) (h : OptsThen os u s) (ho : OptsOf os (.streamStats fs (by_.getD []) a n)) :
    Staged k false (.streamStats fs (by_.getD []) a n) s := by
  obtain ⟨h1, h2⟩ := ho
  have hg := statsGood hf hb (p := spFieldList1) (fun _ _ _ hi he => spFields_read hi he)
  have ht : OptTail u := ⟨stops_self hg.stops, hg.notOpt⟩
  refine stage 28 rfl (by decide) (by decide) (fun x => run_pre _ _ _ _) hk ⟨optsThen_stops h ht.stops, fun rest he _ => ?_⟩
  obtain ⟨r, e1, e2, e3, e4⟩ := optsThen_read h ht he
  obtain rfl := e3 hg.ne
  obtain ⟨r, c1, c2⟩ := hg.read _ he
  obtain ⟨r₂, c3, c4, c5⟩ := c2 _ (.inr rfl)
  refine ⟨r₂, ?_, c5⟩
  rw [run_map, run_seq, e4]
  simp only [getBoolean_of h1, getInt_of h2]
  simp only [Option.bind_eq_bind, Option.bind_some, Option.pure_def, Option.map_some]
  rw [run_seq, run_ws, drop_stops (hg.stops _), c1, Option.map_some, Option.bind_some, c3]; rfl

/-! ### Commands with searches in brackets -/

theorem open_noEq {g u : Str} (hg : Blanks g) : NoEq (g ++ '[' :: u) := by
  rcases hg with rfl | hg
  · exact sign_noEq (by decide)
  · exact gap_noEq hg (Stops.cons (by decide)) (by simp)

theorem open_after {g u : Str} (hg : Blanks g) : After (g ++ '[' :: u) := by
  rcases hg with rfl | hg
  · exact ⟨Stops.cons (by decide), Stops.cons (by decide), Stops.cons (by decide)⟩
  · exact gap_after hg

theorem join_good {k : Str} (hk : lower k = c!"join") {os : List (Str × Constant)} {o : JoinOpts} {fs : List Str} {cs : List Command} {g s t u : Str}
    (hf : Items byList Column fs t) (hg : Blanks g) (hu : SubGood cs u) (h : OptsThen os (t ++ (g ++ u)) s) (ho : OptsOf os (.join o fs cs)) :
    Staged k false (.join o fs cs) s := by
  obtain ⟨v, rfl⟩ := hu.head
  have hst := fun w => (column_items hf w).1
  have ht : OptTail (t ++ (g ++ '[' :: v)) := ⟨hst _, fun rest he => by
    rw [List.append_assoc, List.append_assoc, List.cons_append]; exact columns_notOpt hf (open_noEq hg)⟩
  refine stage 13 rfl (by decide) (by decide) (fun x => run_pre _ _ _ _) hk ⟨optsThen_stops h ht.stops, fun rest he _ => ?_⟩
  obtain ⟨r, e1, e2, e3, e4⟩ := optsThen_read h ht he
  obtain rfl := e3 (by simp)
  obtain ⟨o1, o2, o3, o4, o5⟩ := ho
  have hd : (g ++ ('[' :: v ++ r)).dropWhile isSpace = '[' :: v ++ r := drop_blanks hg (Stops.cons (by decide))
  have hs : subSearch.run fix (g ++ ('[' :: v ++ r)) = some (r.dropWhile isSpace, cs) := by
    rw [← hu.read r, subSearch, run_delim, run_delim, run_ws, run_ws, hd, drop_stops (s := '[' :: v ++ r) (Stops.cons (by decide))]
  refine ⟨r.dropWhile isSpace, ?_, dropWhile_idem _⟩
  rw [run_map, run_seq, e4]
  simp only [getString_of o1, getBoolean_of o2, getBoolean_of o3, getBoolean_of o4, getInt_of o5]
  simp only [Option.bind_eq_bind, Option.bind_some, Option.pure_def, Option.map_some, List.append_assoc]
  rw [run_seq, run_lift, (columns_read (rest := g ++ ('[' :: v ++ r)) hf (open_after hg) (by rw [hd]; simp)
    (by rw [hd]; exact field_none (token_none (Stops.cons (by decide))) (by simp) (by simp))).1, Option.bind_some, hs]; rfl

theorem searches_read {cs : List (List Command)} {s rest : Str} (h : Items (fun g _ => Blanks g) SubGood cs s) (he : End rest) :
    (many1 (ws subSearch) : G true _).run fix (s ++ rest) = some (rest.dropWhile isSpace, cs) := by
  refine (many_read (nx := List.dropWhile isSpace) (fun _ => True) (fun a t u hi _ => ?_) (fun g b bs t hg hl => ⟨trivial, ?_⟩) trivial ?_ h).2
  · obtain ⟨v, rfl⟩ := hi.head
    rw [run_ws, drop_stops (s := '[' :: v ++ u) (Stops.cons (by decide)), hi.read, Option.map_some, dropWhile_idem]
  · exact drop_blanks hg (items_first (P' := Stops isSpace) (fun _ _ _ hc => by obtain ⟨v, rfl⟩ := hc.head; exact Stops.cons (by decide)) hl _)
  · rw [run_ws, dropWhile_idem, subSearch, run_delim, run_ws, dropWhile_idem, tag_none (he.drop_ne (by decide))]; rfl

theorem multisearch_good {k : Str} (hk : lower k = c!"multisearch") {cs : List (List Command)} {s : Str} (h : Items (fun g _ => Blanks g) SubGood cs s) (hl : 2 ≤ cs.length) :
    Staged k false (.multiSearch cs) s := by
  have hst := items_first (P' := Stops isSpace) (fun _ _ _ hc => by obtain ⟨v, rfl⟩ := hc.head; exact Stops.cons (by decide)) h
  refine stage 17 rfl (by decide) (by decide) (fun x => run_pre _ _ _ _) hk ⟨stops_self hst, fun rest he _ => ⟨_, ?_, dropWhile_idem _⟩⟩
  rw [run_map, run_verify, searches_read h he]
  simp [hl]

end Verif
