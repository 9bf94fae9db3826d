import Verif.Lemmas.Lists
/-
Reading what follows the name of a command: parts shared by the commands, and the commands without options.
-/
namespace Verif
open P Lex Spl Spec Lemmas

theorem quotable_read {s rest : Str} (h : Quotable s) : doubleQuoted.run () ('"' :: (s ++ c!"\"") ++ rest) = some (rest, s) := by
  have := run_doubleQuoted h.body h.ne rest
  rw [quotable_drop h] at this
  rw [← this]; simp

theorem expr_read {e : Expr} {s rest : Str} (h : Written 9 e s) (hr : Follow 9 rest) : expr.run fix (s ++ rest) = some (rest, e) :=
  (written_good h rest hr).1

theorem intText_read {n : Int} {s rest : Str} (h : IntText n s) (hr : Stops isDig rest) : int.run () (s ++ rest) = some (rest, n) := by
  obtain ⟨h⟩ := h
  cases n with
  | ofNat m =>
    have := run_int .none (ds := showNat m) ⟨showNat_ne_nil m, showNat_digits m⟩ hr
    rw [digitsVal_showNat, if_pos (by have := h.2; simp at this ⊢; omega)] at this
    exact this
  | negSucc m =>
    have := run_int .minus (ds := showNat (m + 1)) ⟨showNat_ne_nil _, showNat_digits _⟩ hr
    rw [digitsVal_showNat, if_pos (by have := h.1; simp at this ⊢; omega)] at this
    exact this

theorem blanks_after {g : Str} {c : Char} {u : Str} (h : Blanks g) (hc : isLetter c = false ∧ tokenCont c = false ∧ (c == '.') = false) : After (g ++ c :: u) :=
  ⟨blanks_stops (fun c hc => space_all (f := fun c => isLetter c = false) (by decide) hc) h (Stops.cons hc.1),
   blanks_stops (fun c hc => space_all (f := fun c => tokenCont c = false) (by decide) hc) h (Stops.cons hc.2.1),
   blanks_stops (f := (· == '.')) (fun c hc => space_all (f := fun c => (c == '.') = false) (by decide) hc) h (Stops.cons hc.2.2)⟩

/-- the first character of a new name -/
theorem newName_read {n t rest : Str} (h : NewName n t) (hr : Stops tokenCont rest) : (token <||> doubleQuoted : L true Str).run () (t ++ rest) = some (rest, n) := by
  cases h with
  | word h => rw [run_alt, run_token h.ne (name_lead h).token hr (isName_res h)]; rfl
  | star h => rw [run_alt, run_token (star_lead h).ne (star_lead h).token hr (star_lead h).res]; rfl
  | quoted h => rw [run_alt, quotable_read h, List.cons_append, token_quote, Option.none_or]

theorem newName_stops {n t u : Str} (h : NewName n t) : t ≠ [] ∧ Stops isSpace (t ++ u) := by
  cases h with
  | word h => exact ⟨h.ne, lead_stops (name_lead h)⟩
  | star h => exact ⟨(star_lead h).ne, lead_stops (star_lead h)⟩
  | quoted h => exact ⟨by simp, Stops.cons (by decide)⟩

theorem as_read {R : Type} [Env R] {ρ : R} {g₁ k g₂ u : Str} (h1 : Gap g₁) (hk : lower k = c!"as") (h2 : Gap g₂) (hu : Stops isSpace u) :
    (ws (tagi! "AS") : P R true true Str).run ρ (g₁ ++ (k ++ (g₂ ++ u))) = some (u, k) := by
  rw [run_ws, word_drop h1 hk (by intro b hb; exact space_all (f := fun b => lowerC b ≠ 'a') (by decide) hb), tagi_read (by rw [hk]; decide), Option.map_some,
    drop_gap h2 hu]

theorem renamed_read {a : Str × Str} {s rest : Str} (h : Renamed a s) (hr : Stops tokenCont rest) : aliasedField.run () (s ++ rest) = some (rest, a) := by
  obtain ⟨hf, h1, hk, h2, hn⟩ := h
  simp only [List.append_assoc]
  rw [aliasedField, run_sepPair, column_read hf (gap_after h1), Option.bind_some, as_read h1 hk h2 (newName_stops hn).2, Option.bind_some, newName_read hn hr]
  rfl

theorem renamed_head {a : Str × Str} {s : Str} (h : Renamed a s) : ∃ f u, s = f ++ u ∧ (FieldText f ∨ WildWord f) := by
  obtain ⟨hf, h1, hk, h2, hn⟩ := h
  exact ⟨_, _, rfl, hf⟩

theorem renamed_stops {a : Str × Str} {s u : Str} (h : Renamed a s) : Stops isSpace (s ++ u) := by
  obtain ⟨f, v, rfl, hf⟩ := renamed_head h
  rw [List.append_assoc]; exact column_stops hf

/-- `Body` read by the parser after the name of the command -/
theorem bodyGood_of {q : Str → PRes Command} {c : Command} {s : Str} {nx : Str → Str} (hs : Stops isSpace s)
    (hn : ∀ rest, (nx rest).dropWhile isSpace = rest.dropWhile isSpace) (h : ∀ rest, End rest → q (s ++ rest) = some (nx rest, c)) :
    BodyGood q false c s :=
  ⟨hs, fun rest he _ => ⟨_, h rest he, hn rest⟩⟩

/-- The command with the name `k` and the text `s` after it. -/
def Staged (k : Str) (b : Bool) (c : Command) (s : Str) : Prop :=
  (s = [] → b = false → CmdGood true c k) ∧ (s ≠ [] → ∀ g, Gap g → CmdGood b c (k ++ (g ++ s)))

theorem stops_self {f : Char → Bool} {s : Str} (h : ∀ u, Stops f (s ++ u)) : Stops f s := by have := h []; rwa [List.append_nil] at this

/-! ### eval -/

theorem assignment_stops {a : Str × Expr} {s u : Str} (h : Assignment a s) : Stops isSpace (s ++ u) := by
  obtain ⟨hf, -, -, -⟩ := h
  rw [List.append_assoc]; exact column_stops hf.2

theorem assignment_read {a : Str × Expr} {s rest : Str} (h : Assignment a s) (hr : Follow 9 rest) :
    (sepPair (ws (lift field)) (ws (tag! "=")) (ws expr) : G true (Str × Expr)).run fix (s ++ rest) = some (rest.dropWhile isSpace, a) := by
  obtain ⟨hf, h1, h2, he⟩ := h
  have hw := written_stops he
  simp only [List.append_assoc, List.cons_append]
  rw [run_sepPair, run_ws, drop_stops (column_stops hf.2), run_lift, column_read hf.2 (blanks_after h1 (by decide)), Option.map_some, Option.bind_some, run_ws, dropWhile_idem,
    drop_blanks h1 (Stops.cons (by decide)), tag_same, Option.map_some, Option.bind_some, run_ws, dropWhile_idem,
    drop_blanks h2 (stops_append hw.2 hw.1), expr_read he hr]
  rfl

theorem eval_good {k : Str} (hk : lower k = c!"eval") {as : List (Str × Expr)} {s : Str} (h : Items byComma Assignment as s) : Staged k false (.eval as) s := by
  have hst := items_first (P' := Stops isSpace) (fun _ _ _ hc => assignment_stops hc) h
  refine stage 6 rfl (by decide) (by decide) (fun x => run_pre _ _ _ _) hk (bodyGood_of (nx := List.dropWhile isSpace) (stops_self hst) dropWhile_idem fun rest he => ?_)
  rw [run_map]
  have := (sepList1_read (ρ := fix) (sp := (commaSep : G true Str)) (nx := List.dropWhile isSpace) (Follow 9) (fun _ _ _ hi hu => assignment_read hi hu)
    (fun g b bs t hg hl => ⟨comma_follow hg 9, by
      obtain ⟨m, -, hm⟩ := comma_sep (ρ := fix) hg (items_first (P' := Stops isSpace) (fun _ _ _ hc => assignment_stops hc) hl rest)
      exact ⟨m, hm⟩⟩) (he.follow 9)
    (fun r x hr => by rw [commaSep_end (by rw [dropWhile_idem]; exact he.drop_ne (by decide))] at hr; simp at hr) h).2
  rw [show (commaList0 (sepPair (ws (lift field)) (ws (tag! "=")) (ws expr)) : G false (List (Str × Expr))).run fix (s ++ rest) = _ from this]
  rfl

/-! ### fields, table, tail, rename, where -/

theorem fields_good {k : Str} (hk : lower k = c!"fields") {fs : List Str} {s : Str} (h : Items byList Column fs s) : Staged k false (.fields false fs) s := by
  have hst := fun u => (column_items h u).1
  refine stage 8 rfl (by decide) (by decide) (fun x => run_pre _ _ _ _) hk (bodyGood_of (nx := id) (stops_self hst) (fun _ => rfl) fun rest he => ?_)
  rw [run_map, run_seq, run_opt, run_ws, drop_stops (hst rest), run_alt, tag_none ((column_items h rest).2 '+' (by decide)), tag_none ((column_items h rest).2 '-' (by decide))]
  simp only [Option.or_none, Option.map_none, Option.elim_none, Option.bind_some]
  rw [run_lift, (columns_end h he).1]
  rfl

theorem fields_sign {k : Str} (hk : lower k = c!"fields") {fs : List Str} {s g : Str} {c : Char} (hc : c = '+' ∨ c = '-') (hg : Blanks g) (h : Items byList Column fs s) : Staged k false (.fields (decide (c = '-')) fs) (c :: (g ++ s)) := by
  have hst := fun u => (column_items h u).1
  refine stage 8 rfl (by decide) (by decide) (fun x => run_pre _ _ _ _) hk (bodyGood_of (nx := id) (Stops.cons (by rcases hc with rfl | rfl <;> decide)) (fun _ => rfl) fun rest he => ?_)
  have : (tag! "+" <||> tag! "-" : G true Str).run fix (c :: (g ++ s) ++ rest) = some (g ++ (s ++ rest), [c]) := by
    rw [List.cons_append, List.append_assoc, run_alt]
    rcases hc with rfl | rfl
    · rw [tag_same]; rfl
    · rw [tag_ne (by decide), tag_same]; rfl
  rw [run_map, run_seq, run_opt, run_ws, drop_stops (s := c :: (g ++ s) ++ rest) (Stops.cons (by rcases hc with rfl | rfl <;> decide)), this]
  simp only [Option.map_some, Option.elim_some, Option.bind_some]
  rw [drop_blanks hg (hst rest), run_lift, (columns_end h he).1]
  rcases hc with rfl | rfl <;> rfl

theorem table_good {k : Str} (hk : lower k = c!"table") {fs : List Str} {s : Str} (h : Items byList Column fs s) : Staged k false (.table fs) s := by
  have hst := fun u => (column_items h u).1
  refine stage 29 rfl (by decide) (by decide) (fun x => run_pre _ _ _ _) hk (bodyGood_of (nx := id) (stops_self hst) (fun _ => rfl) fun rest he => ?_)
  rw [run_map, run_lift, (columns_end h he).1]
  rfl

theorem intText_stops {n : Int} {s u : Str} (h : IntText n s) : s ≠ [] ∧ Stops isSpace (s ++ u) := by
  obtain ⟨-⟩ := h
  exact ⟨(number_lead n).ne, lead_stops (number_lead n)⟩

theorem tail_good {k : Str} (hk : lower k = c!"tail") {n : Nat} {s : Str} (h : IntText n s) : Staged k false (.tail n) s := by
  refine stage 30 rfl (by decide) (by decide) (fun x => run_pre _ _ _ _) hk (bodyGood_of (nx := id) (stops_self fun u => (intText_stops h).2) (fun _ => rfl) fun rest he => ?_)
  rw [run_map, run_lift, intText_read h (he.head (by decide))]
  obtain ⟨hn⟩ := h
  have : toU64 n = n := by
    have h1 := toU64_mod n
    have h2 := hn.2
    omega
  simp only [Option.map_some, this]; rfl

theorem rename_good {k : Str} (hk : lower k = c!"rename") {as : List (Str × Str)} {s : Str} (h : Items byComma Renamed as s) : Staged k false (.rename as) s := by
  have hst := items_first (P' := Stops isSpace) (fun _ _ _ hc => renamed_stops hc) h
  refine stage 22 rfl (by decide) (by decide) (fun x => run_pre _ _ _ _) hk (bodyGood_of (nx := id) (stops_self hst) (fun _ => rfl) fun rest he => ?_)
  rw [run_map, run_commaList1, (sepList1_read (ρ := fix) (p := lift aliasedField) (nx := id) (Stops tokenCont) (fun _ _ _ hi hu => renamed_read hi hu)
    (fun g b bs t hg hl => ⟨(comma_after hg).token, by
      obtain ⟨m, hm, -⟩ := comma_sep (ρ := fix) hg (items_first (P' := Stops isSpace) (fun _ _ _ hc => renamed_stops hc) hl rest)
      exact ⟨m, hm⟩⟩) he.token
    (fun r x hr => by rw [id, commaSep_end (he.drop_ne (by decide))] at hr; simp at hr) h).1]
  rfl

theorem where_good {k : Str} (hk : lower k = c!"where") {e : Expr} {s : Str} (h : CondOr e s) : Staged k false (.where_ e) s := by
  refine stage 33 rfl (by decide) (by decide) (fun x => run_pre _ _ _ _) hk (bodyGood_of (nx := id) (condOr_stops h).2 (fun _ => rfl) fun rest he => ?_)
  rw [run_map, condOr_good h rest he.orStop]; rfl

/-! ### search -/

theorem take_letters {t rest kw : Str} (hr : Stops isLetter rest) (hw : Letters kw) (h : lower ((t ++ rest).take kw.length) = kw) :
    kw.length ≤ t.length ∧ lower (t.take kw.length) = kw := by
  by_cases hl : kw.length ≤ t.length
  · rw [List.take_append_of_le_length hl] at h; exact ⟨hl, h⟩
  · exfalso
    have hlen := congrArg List.length h
    simp only [lower, List.length_map, List.length_take, List.length_append] at hlen
    obtain ⟨n, hn⟩ : ∃ n, kw.length - t.length = n + 1 := ⟨kw.length - t.length - 1, by omega⟩
    cases hrest : rest with
    | nil => rw [hrest] at hlen; simp at hlen; omega
    | cons d u =>
      have hm : d ∈ (t ++ rest).take kw.length := by rw [List.take_append, hn, hrest, List.take_succ_cons]; simp
      have hm2 : lowerC d ∈ kw := by rw [← h]; exact List.mem_map.2 ⟨d, hm, rfl⟩
      have h1 := hr d u hrest
      have h2 := hw _ hm2
      rw [lowerC_letter (by simp [isLetter, h2.1, h2.2])] at h1
      simp at h1

theorem blank_mem (c : Char) : decide (c ∈ c!" \t\r\n") = isSpace c := by
  cases h : isSpace c with
  | true => simpa using (isSpace_iff c).1 h
  | false => exact decide_eq_false fun h' => by rw [(isSpace_iff c).2 h'] at h; simp at h

theorem starts_of {t rest : Str} (h : NoOperator t) (hs : Stops isSpace t) (hne : t ≠ []) (hr : Stops isLetter rest) (hp : ∀ s, rest.dropWhile isSpace ≠ '(' :: s) :
    Starts (t ++ rest) := by
  refine ⟨?_, ?_, ?_, ?_⟩
  · obtain ⟨c, u, rfl⟩ := List.exists_cons_of_ne_nil hne
    refine Stops.cons ?_
    have := h.first c u rfl
    simp only [isOpStart, hs c u rfl, Bool.false_or, decide_eq_false_iff_not]
    exact this
  · intro e; exact h.noOr (take_letters hr (kw := c!"or") (by decide) e).2
  · intro e; exact h.noAnd (take_letters hr (kw := c!"and") (by decide) e).2
  · intro e s hd
    obtain ⟨hl, h2⟩ := take_letters hr (kw := c!"in") (by decide) e
    rw [List.drop_append_of_le_length (show 2 ≤ t.length from hl)] at hd
    have h3 := h.noIn h2
    have hb : (fun c => decide (c ∈ c!" \t\r\n")) = isSpace := funext blank_mem
    rw [hb] at h3
    cases hx : (t.drop 2).dropWhile isSpace with
    | nil =>
      rw [dropWhile_append_of_blank (dropWhile_eq_nil hx)] at hd
      exact hp s hd
    | cons c u =>
      rw [List.dropWhile_append, hx] at hd
      simp only [List.isEmpty_cons, Bool.false_eq_true, if_false, List.cons_append, List.cons.injEq] at hd
      exact h3 u (by rw [hx, hd.1])

theorem terms_stops {S : Str → Str → Prop} {es : List Expr} {s : Str} (h : Items S (Written 9) es s) (u : Str) :
    Stops isSpace (s ++ u) ∧ ∀ q, (isTokenChar q = false ∧ q ≠ '(' ∧ q ≠ '"') → ∀ c t, s ++ u = c :: t → c ≠ q :=
  ⟨items_first (P' := Stops isSpace) (fun _ _ _ hc => stops_append (written_stops hc).2 (written_stops hc).1) h u,
   fun _ hq => items_first (P' := fun x => ∀ c t, x = c :: t → c ≠ _) (fun _ _ _ hc => written_ne hc hq) h u⟩

theorem terms_ne {S : Str → Str → Prop} {es : List Expr} {s : Str} (h : Items S (Written 9) es s) : s ≠ [] :=
  items_ne (fun _ _ hc => (written_stops hc).1) h

theorem expr_end {rest : Str} (h : rest = [] ∨ ∃ c s, rest = c :: s ∧ c ∈ c!"|]") : expr.run fix rest = none := by
  rcases h with rfl | ⟨c, s, rfl, hc⟩
  · rfl
  · simp only [List.mem_cons, List.not_mem_nil, or_false] at hc
    rcases hc with rfl | rfl <;> rfl

theorem end_shape {rest : Str} (h : End rest) : rest.dropWhile isSpace = [] ∨ ∃ c s, rest.dropWhile isSpace = c :: s ∧ c ∈ c!"|]" := by
  obtain ⟨g, u, rfl, hg, hu⟩ := h
  rw [drop_blanks hg (end_stops (close_of_bar hu))]; exact hu

theorem search_good {e : Expr} {es : List Expr} {s : Str} (h : Items byTerm (Written 9) (e :: es) s) :
    BodyGood searchBody false (.search (joinLeft c!"AND" e es)) s := by
  have hst := fun u => (terms_stops h u).1
  refine bodyGood_of (nx := id) (stops_self hst) (fun _ => rfl) fun rest he => ?_
  rw [searchBody, run_map, run_commaOrSpaceList1, (sepList1_read (nx := id) (Follow 9) (fun _ _ _ hi hu => expr_read hi hu)
    (fun g b bs t hg hl => ?_) (he.follow 9)
    (fun r x hr => by rw [commaOrSpace_end (he.drop_ne (by decide)) hr]; exact expr_end (end_shape he)) h).1]
  · simp only [Option.map_some, combineAll, foldl_joinLeft, id]
  · have hh := terms_stops hl rest
    have hc := hh.2 ',' (by decide)
    rcases hg with hg | ⟨hg, hn⟩
    · obtain ⟨h1, h2⟩ := hg
      exact ⟨comma_follow ⟨h1, h2⟩ 9, listSep_read (.comma h1 h2) hh.1 hc⟩
    · exact ⟨.gap hg (starts_of hn (stops_self fun u => (terms_stops hl u).1) (terms_ne hl) (he.head (by decide)) (fun s e => he.drop_ne (by decide) _ _ e rfl)),
        listSep_read (.gap hg) hh.1 hc⟩

end Verif
