import Verif.Lemmas.Bodies
/-
Reading commands with pipes between them and searches in brackets.
-/
namespace Verif
open P Lex Spl Spec Lemmas

/-- the separator of commands -/
def barSep : Str → PRes Str := (ws (tag! "|") : G true Str).run fix

theorem barSep_read {u g t : Str} (hu : u.dropWhile isSpace = '|' :: (g ++ t)) (hg : Blanks g) (ht : Stops isSpace t) : barSep u = some (t, c!"|") := by
  rw [barSep, run_ws, hu, tag_same, Option.map_some, drop_blanks hg ht]

theorem barSep_none {u : Str} (h : ∀ s, u.dropWhile isSpace ≠ '|' :: s) : barSep u = none := by
  rw [barSep, run_ws, tag_none (fun c t e e' => h t (by rw [e, e']))]; rfl

/-- Commands with pipes between them are read from `s`. -/
structure PipeGood (b : Bool) (cs : List Command) (s : Str) : Prop where
  ne : s ≠ []
  stops : Stops isSpace s
  bar : ∀ x t, s = x :: t → x ≠ '|'
  read : ∀ rest, End rest → (∀ t, rest.dropWhile isSpace ≠ '|' :: t) → (b = true → AfterWord rest) →
    ∃ c cs' u r, cs = c :: cs' ∧ command.run fix (s ++ rest) = some (u, c) ∧ r.dropWhile isSpace = rest.dropWhile isSpace ∧
      ∀ n, u.length ≤ n → sepLoop barSep (command.run fix) n u = (r, cs')

theorem pipe_one {b : Bool} {c : Command} {s : Str} (h : CmdGood b c s) : PipeGood b [c] s := by
  refine ⟨h.ne, h.stops, h.bar, fun rest he hb ha => ?_⟩
  obtain ⟨r, h1, h2⟩ := h.read rest he ha
  refine ⟨c, [], r, r, rfl, h1, h2, fun n _ => sepLoop_end (fun x y e => ?_) n⟩
  rw [barSep_none (by rw [h2]; exact hb)] at e; simp at e

theorem pipe_cons {b b' : Bool} {c : Command} {cs : List Command} {s g₁ g₂ t : Str} (h : CmdGood b c s) (h1 : Blanks g₁) (hb : b = true → g₁ ≠ []) (h2 : Blanks g₂)
    (ht : PipeGood b' cs t) : PipeGood b' (c :: cs) (s ++ (g₁ ++ '|' :: (g₂ ++ t))) := by
  obtain ⟨x, xs, hx⟩ := List.exists_cons_of_ne_nil h.ne
  refine ⟨by rw [hx]; simp, stops_append h.stops h.ne, ?_, fun rest he hr ha => ?_⟩
  · intro y u e
    rw [hx, List.cons_append, List.cons.injEq] at e
    rw [← e.1]; exact h.bar x xs hx
  · obtain ⟨c', cs', u, r, rfl, e1, e2, e3⟩ := ht.read rest he hr ha
    obtain ⟨v, e4, e5⟩ := h.read (g₁ ++ '|' :: (g₂ ++ (t ++ rest))) (end_bar h1) (fun hbt => by
      rcases h1 with h1 | h1
      · exact absurd h1 (hb hbt)
      · exact afterWord_gap h1)
    rw [drop_blanks h1 (Stops.cons (by decide))] at e5
    refine ⟨c, c' :: cs', v, r, rfl, by simpa using e4, e2, fun n hn => ?_⟩
    have e6 := barSep_read e5 h2 (stops_append ht.stops ht.ne)
    have l1 := (ws (tag! "|") : G true Str).con rfl _ _ _ _ e6
    have l2 := (command.suf _ _ _ _ e1).length_le
    cases n with
    | zero => omega
    | succ n => rw [sepLoop, e6]; simp only [e1, e3 n (by omega)]

theorem call_cmd : (call .cmd).run fix = command.run fix := funext fun i => (fix_eq .cmd i : fix.run .cmd i = _)

theorem pipe_list {b : Bool} {cs : List Command} {s rest : Str} (h : PipeGood b cs s) (he : End rest) (hr : ∀ t, rest.dropWhile isSpace ≠ '|' :: t)
    (ha : b = true → AfterWord rest) : ∃ r, r.dropWhile isSpace = rest.dropWhile isSpace ∧
      (sepList0 (ws (tag! "|")) command : G false _).run fix (s ++ rest) = some (r, cs) ∧
      (sepList0 (ws (tag! "|") : G true Str) (call .cmd)).run fix (s ++ rest) = some (r, cs) := by
  obtain ⟨c, cs', u, r, rfl, h1, h2, h3⟩ := h.read rest he hr ha
  refine ⟨r, h2, ?_, ?_⟩
  · rw [run_sepList0, h1]
    have := h3 _ (Nat.le_refl _)
    rw [barSep] at this
    simp only [this]
  · rw [run_sepList0, call_cmd, h1]
    have := h3 _ (Nat.le_refl _)
    rw [barSep] at this
    simp only [this]

/-- A search in brackets is read from `s`. -/
structure SubGood (cs : List Command) (s : Str) : Prop where
  head : ∃ t, s = '[' :: t
  read : ∀ rest, subSearch.run fix (s ++ rest) = some (rest.dropWhile isSpace, cs)

theorem close_read {r g u : Str} (h : r.dropWhile isSpace = (g ++ ']' :: u).dropWhile isSpace) (hg : Blanks g) :
    (ws (tag! "]") : G true Str).run fix r = some (u.dropWhile isSpace, c!"]") := by
  rw [run_ws, h, drop_blanks hg (Stops.cons (by decide)), tag_same]; rfl

theorem sub_plain {b : Bool} {cs : List Command} {g₁ g₂ s : Str} (h1 : Blanks g₁) (h : PipeGood b cs s) (h2 : Blanks g₂) (hb : b = true → g₂ ≠ []) :
    SubGood cs ('[' :: (g₁ ++ (s ++ (g₂ ++ c!"]")))) := by
  refine ⟨⟨_, rfl⟩, fun rest => ?_⟩
  have hst := stops_append (u := g₂ ++ ']' :: rest) h.stops h.ne
  obtain ⟨r, e1, -, e2⟩ := pipe_list (rest := g₂ ++ ']' :: rest) h (end_close h2) (by rw [drop_blanks h2 (Stops.cons (by decide))]; simp) (fun hbt => by
    rcases h2 with h2 | h2
    · exact absurd h2 (hb hbt)
    · exact afterWord_gap h2)
  have hn : (ws (tag! "|") : G true Str).run fix (s ++ (g₂ ++ ']' :: rest)) = none := by
    refine barSep_none fun t e => ?_
    rw [drop_stops hst] at e
    obtain ⟨x, xs, hx⟩ := List.exists_cons_of_ne_nil h.ne
    rw [hx, List.cons_append, List.cons.injEq] at e
    exact h.bar x xs hx e.1
  simp only [List.cons_append, List.append_assoc, List.nil_append]
  rw [subSearch, run_delim, run_ws, drop_stops (s := '[' :: _) (Stops.cons (by decide)), tag_same, Option.map_some, Option.bind_some, drop_blanks h1 hst, run_pre, run_opt,
    hn, Option.elim_none, Option.bind_some, e2, Option.bind_some, close_read e1 h2]
  rfl

theorem sub_piped {b : Bool} {cs : List Command} {g₀ g₁ g₂ s : Str} (h0 : Blanks g₀) (h1 : Blanks g₁) (h : PipeGood b cs s) (h2 : Blanks g₂) (hb : b = true → g₂ ≠ []) :
    SubGood cs ('[' :: (g₀ ++ '|' :: (g₁ ++ (s ++ (g₂ ++ c!"]"))))) := by
  refine ⟨⟨_, rfl⟩, fun rest => ?_⟩
  have hst := stops_append (u := g₂ ++ ']' :: rest) h.stops h.ne
  obtain ⟨r, e1, -, e2⟩ := pipe_list (rest := g₂ ++ ']' :: rest) h (end_close h2) (by rw [drop_blanks h2 (Stops.cons (by decide))]; simp) (fun hbt => by
    rcases h2 with h2 | h2
    · exact absurd h2 (hb hbt)
    · exact afterWord_gap h2)
  have hn : (ws (tag! "|") : G true Str).run fix ('|' :: (g₁ ++ (s ++ (g₂ ++ ']' :: rest)))) = some (s ++ (g₂ ++ ']' :: rest), c!"|") :=
    barSep_read (drop_stops (Stops.cons (by decide))) h1 hst
  simp only [List.cons_append, List.append_assoc, List.nil_append]
  rw [subSearch, run_delim, run_ws, drop_stops (s := '[' :: _) (Stops.cons (by decide)), tag_same, Option.map_some, Option.bind_some,
    drop_blanks h0 (Stops.cons (by decide)), run_pre, run_opt,
    hn, Option.elim_some, Option.bind_some, e2, Option.bind_some, close_read e1 h2]
  rfl

/-! ### Whole queries -/

theorem afterWord_blanks {g : Str} (h : Blanks g) : AfterWord g := by
  rcases h with rfl | h
  · exact .inl rfl
  · simpa using afterWord_gap (x := []) h

theorem blanks_drop {g : Str} (h : Blanks g) : g.dropWhile isSpace = [] := dropWhile_blank (blanks_space h)

theorem parse_good {b : Bool} {cs : List Command} {q g s : Str} (h : PipeGood b cs s) (hg : Blanks g) (hq : (afterLead q).dropWhile isSpace = s ++ g) : parse q = some cs := by
  obtain ⟨r, e1, e2, -⟩ := pipe_list h (end_blanks hg) (by rw [blanks_drop hg]; simp) (fun _ => afterWord_blanks hg)
  rw [parse_eq, hq, e2]
  rw [blanks_drop hg] at e1
  simp [Option.filter, e1]

theorem query_plain {b : Bool} {cs : List Command} {g₁ g₂ s : Str} (h1 : Blanks g₁) (h : PipeGood b cs s) (h2 : Blanks g₂) : parse (g₁ ++ (s ++ g₂)) = some cs := by
  have hd : (g₁ ++ (s ++ g₂)).dropWhile isSpace = s ++ g₂ := drop_blanks h1 (stops_append h.stops h.ne)
  refine parse_good h h2 ?_
  rw [afterLead]
  have : (ws (tag! "|") : G true Str).run fix (g₁ ++ (s ++ g₂)) = none := by
    refine barSep_none fun t e => ?_
    rw [hd] at e
    obtain ⟨x, xs, hx⟩ := List.exists_cons_of_ne_nil h.ne
    rw [hx, List.cons_append, List.cons.injEq] at e
    exact h.bar x xs hx e.1
  rw [this]; exact hd

theorem query_piped {b : Bool} {cs : List Command} {g₀ g₁ g₂ s : Str} (h0 : Blanks g₀) (h1 : Blanks g₁) (h : PipeGood b cs s) (h2 : Blanks g₂) :
    parse (g₀ ++ '|' :: (g₁ ++ (s ++ g₂))) = some cs := by
  have hst := stops_append (u := g₂) h.stops h.ne
  refine parse_good h h2 ?_
  rw [afterLead]
  have : (ws (tag! "|") : G true Str).run fix (g₀ ++ '|' :: (g₁ ++ (s ++ g₂))) = some (s ++ g₂, c!"|") :=
    barSep_read (drop_blanks h0 (Stops.cons (by decide))) h1 hst
  rw [this]; exact drop_stops hst

end Verif
