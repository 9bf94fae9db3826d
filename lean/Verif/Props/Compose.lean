import Verif.Props.Query
import Verif.Props.Keywords
import Verif.Props.UnknownCommands
/-
C110: text put after a pipe is read by itself, whatever query stands before it.
-/
namespace Verif.Props
open Verif P Lex Spl Spec Lemmas

theorem sub_good {cs : List Command} {s : Str} (h : SubText cs s) : SubGood cs s := by
  cases h with
  | plain h1 h h2 hb => exact sub_plain h1 (pipe_good h) h2 hb
  | piped h0 h1 h h2 hb => exact sub_piped h0 h1 (pipe_good h) h2 hb

theorem subs_good : ∀ {cs : List (List Command)} {s : Str}, SubsText cs s → Items (fun g _ => Blanks g) SubGood cs s
  | _, _, .last h => .one (sub_good h)
  | _, _, .more h h1 h2 => by
    have iht := subs_good h2
    cases iht with
    | one h' => exact .cons (sub_good h) h1 (.one h')
    | cons h' hg hl => exact .cons (sub_good h) h1 (.cons h' hg hl)

theorem whole_good {cs : List Command} {q : Str} (h : QueryText cs q) : WholeGood cs q := by
  cases h with
  | direct h1 h h2 => exact whole_plain h1 (pipe_good h) h2
  | afterBar h0 h1 h h2 => exact whole_piped h0 h1 (pipe_good h) h2

theorem cmd_good {b : Bool} {c : Command} {s : Str} (h : CmdText b c s) : CmdGood b c s := by
  cases h with
  | named hb hk hne hg => exact (body_good hb hk).2 hne _ hg
  | bare hb hk => exact (body_good hb hk).1 rfl rfl
  | @implicit e es s h hn =>
    have ht := terms_stops h []
    rw [List.append_nil] at ht
    exact stage_implicit (items_ne (fun _ _ hc => (written_stops hc).1) h) (ht.2 '|' (by decide)) hn (search_good h)
  | join hk hg hf h2 hs ho hoo =>
    have ih := sub_good hs
    exact (join_good hk hf h2 ih ho hoo).2 (optsThen_ne ho (by obtain ⟨v, rfl⟩ := ih.head; simp)) _ hg
  | multisearch hk hg hs hl =>
    have ih := subs_good hs
    exact (multisearch_good hk ih hl).2 (items_ne (fun _ _ hc => by obtain ⟨v, rfl⟩ := hc.head; simp) ih) _ hg
  | map hk hg hkw h1 h2 hq h ho =>
    refine (map_good hk hkw h1 h2 (whole_good hq) h ho).2 (fun e => ?_) _ hg
    rw [(List.append_eq_nil_iff.1 e).1] at hkw; exact absurd hkw (by decide)

/-- What the reader of a list of commands does with `t`: the commands and the text left over. -/
def readAll (t : Str) : Str × List Command :=
  match command.run fix t with
  | none => (t, [])
  | some (u, c) => ((sepLoop barSep (command.run fix) u.length u).1, c :: (sepLoop barSep (command.run fix) u.length u).2)

theorem loop_fuel (n m : Nat) (u : Str) (hn : u.length ≤ n) (hm : u.length ≤ m) :
    sepLoop barSep (command.run fix) n u = sepLoop barSep (command.run fix) m u := by
  induction n generalizing m u with
  | zero =>
    have : u = [] := List.length_eq_zero_iff.1 (by omega)
    subst this
    rw [sepLoop_end (fun r x e => by rw [barSep_none (by simp)] at e; simp at e),
      sepLoop_end (fun r x e => by rw [barSep_none (by simp)] at e; simp at e)]
  | succ n ih =>
    cases m with
    | zero =>
      have : u = [] := List.length_eq_zero_iff.1 (by omega)
      subst this
      rw [sepLoop_end (fun r x e => by rw [barSep_none (by simp)] at e; simp at e),
        sepLoop_end (fun r x e => by rw [barSep_none (by simp)] at e; simp at e)]
    | succ m =>
      rw [sepLoop, sepLoop]
      cases h : barSep u with
      | none => rfl
      | some y =>
        have l1 := (ws (tag! "|") : G true Str).con rfl _ _ _ _ h
        cases h' : command.run fix y.1 with
        | none => simp only [h']
        | some z =>
          have l2 := (command.suf _ _ _ _ h').length_le
          simp only [h']
          rw [ih m z.1 (by omega) (by omega)]

/-- one command before a bar -/
theorem readAll_cmd {b : Bool} {c : Command} {s g₁ g₂ t : Str} (h : CmdGood b c s) (h1 : Blanks g₁) (hb : b = true → g₁ ≠ []) (h2 : Blanks g₂)
    (ht : Stops isSpace t) :
    (readAll (s ++ (g₁ ++ '|' :: (g₂ ++ t)))).2 = c :: (readAll t).2 ∧
      ((readAll t).2 ≠ [] → (readAll (s ++ (g₁ ++ '|' :: (g₂ ++ t)))).1 = (readAll t).1) ∧
      ((readAll t).2 = [] → (readAll (s ++ (g₁ ++ '|' :: (g₂ ++ t)))).1.dropWhile isSpace = '|' :: (g₂ ++ t)) := by
  obtain ⟨v, e4, e5⟩ := h.read (g₁ ++ '|' :: (g₂ ++ t)) (end_bar h1) (fun hbt => by
    rcases h1 with h1 | h1
    · exact absurd h1 (hb hbt)
    · exact afterWord_gap h1)
  rw [drop_blanks h1 (Stops.cons (by decide))] at e5
  have e6 := barSep_read e5 h2 ht
  have l1 := (ws (tag! "|") : G true Str).con rfl _ _ _ _ e6
  have hl : readAll (s ++ (g₁ ++ '|' :: (g₂ ++ t))) = ((sepLoop barSep (command.run fix) v.length v).1, c :: (sepLoop barSep (command.run fix) v.length v).2) := by
    rw [readAll, e4]
  rw [hl]
  obtain ⟨n, hn⟩ : ∃ n, v.length = n + 1 := ⟨v.length - 1, by omega⟩
  rw [hn, sepLoop, e6]
  cases h' : command.run fix t with
  | none => simp only [readAll, h']; exact ⟨by simp, by simp, fun _ => e5⟩
  | some z =>
    have l2 := (command.suf _ _ _ _ h').length_le
    simp only [readAll, h']
    rw [loop_fuel n z.1.length z.1 (by omega) (Nat.le_refl _)]
    simp

theorem readAll_pipe {g₁ g₂ t : Str} (h1 : Blanks g₁) (h2 : Blanks g₂) (ht : Stops isSpace t) :
    ∀ {b : Bool} {cs : List Command} {s : Str}, PipeText b cs s → (b = true → g₁ ≠ []) →
    (readAll (s ++ (g₁ ++ '|' :: (g₂ ++ t)))).2 = cs ++ (readAll t).2 ∧
      ((readAll t).2 ≠ [] → (readAll (s ++ (g₁ ++ '|' :: (g₂ ++ t)))).1 = (readAll t).1) ∧
      ((readAll t).2 = [] → (readAll (s ++ (g₁ ++ '|' :: (g₂ ++ t)))).1.dropWhile isSpace = '|' :: (g₂ ++ t))
  | _, _, _, .one h, hb => readAll_cmd (cmd_good h) h1 hb h2 ht
  | _, _, _, .cons (c' := c') (cs := cs) (s := s) (g₁ := k₁) (g₂ := k₂) (t := u) h hk hne hk' hrest, hb => by
    obtain ⟨i1, i2, i3⟩ := readAll_pipe h1 h2 ht hrest hb
    have hu := pipe_good hrest
    obtain ⟨j1, j2, -⟩ := readAll_cmd (t := u ++ (g₁ ++ '|' :: (g₂ ++ t))) (cmd_good h) hk hne hk' (stops_append hu.stops hu.ne)
    have j2 := j2 (by rw [i1]; simp)
    simp only [List.append_assoc, List.cons_append] at i1 i2 i3 j1 j2 ⊢
    rw [j1, j2, i1]
    exact ⟨rfl, i2, i3⟩

theorem sepList0_readAll (t : Str) : (sepList0 (ws (tag! "|")) command : G false _).run fix t = some (readAll t) := by
  rw [run_sepList0, readAll]
  cases command.run fix t <;> rfl

theorem parse_readAll {t : Str} (h : (afterLead t).dropWhile isSpace = t) :
    parse t = if ((readAll t).1.dropWhile isSpace).isEmpty then some (readAll t).2 else none := by
  rw [parse_eq, h, sepList0_readAll, Option.filter]
  split <;> simp_all

theorem afterLead_plain {t : Str} (hs : Stops isSpace t) (hb : ∀ u, t ≠ '|' :: u) : (afterLead t).dropWhile isSpace = t := by
  have : (ws (tag! "|") : G true Str).run fix t = none := barSep_none (by rw [drop_stops hs]; exact hb)
  rw [afterLead, this]; exact drop_stops hs

/-- **C110** (partial).  What is written after a pipe is read by itself: the query is accepted exactly when that text is, and gives the stages before the pipe followed by
the stages of that text. -/
theorem C110_after_pipe_partial {b : Bool} {cs : List Command} {q g₁ g₂ t : Str} (hq : PipeText b cs q) (h1 : Blanks g₁) (hb : b = true → g₁ ≠ []) (h2 : Blanks g₂)
    (hs : Stops isSpace t) (hne : t ≠ []) (hbar : ∀ u, t ≠ '|' :: u) :
    parse (q ++ (g₁ ++ '|' :: (g₂ ++ t))) = (parse t).map (cs ++ ·) := by
  have hp := pipe_good hq
  obtain ⟨i1, i2, i3⟩ := readAll_pipe h1 h2 hs hq hb
  have hl : ∀ u, q ++ (g₁ ++ '|' :: (g₂ ++ t)) ≠ '|' :: u := by
    intro u e
    obtain ⟨x, xs, hx⟩ := List.exists_cons_of_ne_nil hp.ne
    rw [hx, List.cons_append, List.cons.injEq] at e
    exact hp.bar x xs hx e.1
  rw [parse_readAll (afterLead_plain (stops_append hp.stops hp.ne) hl), parse_readAll (afterLead_plain hs hbar), i1]
  by_cases he : (readAll t).2 = []
  · have e3 := i3 he
    have e4 : (readAll t).1 = t := by
      unfold readAll at he ⊢
      cases h : command.run fix t with
      | none => rfl
      | some z => simp [h] at he
    rw [e3, e4, drop_stops hs]
    cases t with
    | nil => exact absurd rfl hne
    | cons x xs => simp
  · rw [i2 he]
    split <;> simp

example : (parse c!"index=web | eval x=1 | TaBlE x").map List.length = some 3 ∧ parse c!"index=web | (a" = none := by
  constructor
  · rw [show c!"index=web | eval x=1 | TaBlE x" = c!"index=web" ++ (c!" " ++ '|' :: (c!" " ++ c!"eval x=1 | TaBlE x")) from rfl,
      C110_after_pipe_partial web_pipe (.inr ⟨by decide, by decide⟩) (by decide) (.inr ⟨by decide, by decide⟩) (Stops.cons (by decide)) (by decide) (by simp), Option.map_map]
    decide +kernel
  · rw [show c!"index=web | (a" = c!"index=web" ++ (c!" " ++ '|' :: (c!" " ++ c!"(a")) from rfl,
      C110_after_pipe_partial web_pipe (.inr ⟨by decide, by decide⟩) (by decide) (.inr ⟨by decide, by decide⟩) (Stops.cons (by decide)) (by decide) (by simp)]
    exact Option.isNone_iff_eq_none.1 (by decide +kernel)

/-- Nothing may be left out: a query that ends in a pipe is refused, although the empty text by itself is a query. -/
theorem C110_nothing_after {b : Bool} {cs : List Command} {q g₁ g₂ : Str} (hq : PipeText b cs q) (h1 : Blanks g₁) (hb : b = true → g₁ ≠ []) (h2 : Blanks g₂) :
    parse (q ++ (g₁ ++ '|' :: g₂)) = none ∧ parse [] = some [] := by
  refine ⟨?_, isParse_sound (by decide +kernel)⟩
  have hp := pipe_good hq
  have hc : command.run fix [] = none := by
    cases h : command.run fix [] with
    | none => rfl
    | some z => exact absurd (command.con rfl _ _ _ _ h) (Nat.not_lt_zero _)
  have hr : readAll [] = ([], []) := by rw [readAll, hc]
  obtain ⟨i1, i2, i3⟩ := readAll_pipe (t := []) h1 h2 (Stops.nil _) hq hb
  rw [List.append_nil] at i1 i2 i3
  have hl : ∀ u, q ++ (g₁ ++ '|' :: g₂) ≠ '|' :: u := by
    intro u e
    obtain ⟨x, xs, hx⟩ := List.exists_cons_of_ne_nil hp.ne
    rw [hx, List.cons_append, List.cons.injEq] at e
    exact hp.bar x xs hx e.1
  rw [parse_readAll (afterLead_plain (stops_append hp.stops hp.ne) hl), i3 (by rw [hr])]
  simp

example : parse c!"index=web | " = none :=
  (C110_nothing_after web_pipe (g₁ := c!" ") (g₂ := c!" ") (.inr ⟨by decide, by decide⟩) (by decide) (.inr ⟨by decide, by decide⟩)).1

/-- **C110** (partial): whether text is accepted after a pipe does not depend on the query before it. -/
theorem C110_context_partial {b b' : Bool} {cs cs' : List Command} {q q' g₁ g₁' g₂ g₂' t : Str} (hq : PipeText b cs q) (hq' : PipeText b' cs' q') (h1 : Blanks g₁)
    (h1' : Blanks g₁') (hb : b = true → g₁ ≠ []) (hb' : b' = true → g₁' ≠ []) (h2 : Blanks g₂) (h2' : Blanks g₂')
    (hs : Stops isSpace t) (hne : t ≠ []) (hbar : ∀ u, t ≠ '|' :: u) :
    (parse (q ++ (g₁ ++ '|' :: (g₂ ++ t)))).isSome = (parse (q' ++ (g₁' ++ '|' :: (g₂' ++ t)))).isSome := by
  rw [C110_after_pipe_partial hq h1 hb h2 hs hne hbar, C110_after_pipe_partial hq' h1' hb' h2' hs hne hbar]
  simp

example : (parse c!"index=web|head 5").isSome = (parse c!"index=web | head 5").isSome :=
  C110_context_partial web_pipe web_pipe (g₁ := []) (g₁' := c!" ") (g₂ := []) (g₂' := c!" ") (t := c!"head 5") (.inl rfl) (.inr ⟨by decide, by decide⟩) (by decide) (by decide)
    (.inl rfl) (.inr ⟨by decide, by decide⟩) (Stops.cons (by decide)) (by decide) (by simp)

/-- The condition is needed: a command without arguments directly before a pipe is read as a search for its name, so putting a stage after it changes what it means. -/
theorem C110_bare_command :
    ∃ a, parse c!"addtotals" = some [.addTotals a] ∧ parse c!"addtotals |table x" = some [.addTotals a, .table [c!"x"]] ∧
      parse c!"addtotals|table x" = some [.search (.const (.field c!"addtotals")), .table [c!"x"]] :=
  ⟨⟨[], true, false, c!"Total", none, c!"Total"⟩, isParse_sound (by decide +kernel), isParse_sound (by decide +kernel), isParse_sound (by decide +kernel)⟩

/-- **C04** (partial): the letter case of the name of a command at any later stage. -/
theorem C04_later_stage_partial {bq : Bool} {ds : List Command} {q g₁ g₂ a b rest : Str} {c : Command} {cs : Pipeline} (hq : PipeText bq ds q) (h1 : Blanks g₁)
    (hbq : bq = true → g₁ ≠ []) (h2 : Blanks g₂) (ha : Word a) (hb : Word b) (h : lower a = lower b) (hne : a ≠ []) (hbar : '|' ∉ a) (hr : AfterWord rest)
    (hc : (∀ e, c ≠ .search e) ∨ lower a = c!"search")
    (hp : parse (q ++ (g₁ ++ '|' :: (g₂ ++ (a ++ rest)))) = some (ds ++ c :: cs)) :
    parse (q ++ (g₁ ++ '|' :: (g₂ ++ (b ++ rest)))) = some (ds ++ c :: cs) := by
  have hl : a.length = b.length := by have := congrArg List.length h; simpa [lower] using this
  have hne' : b ≠ [] := by intro hb0; subst hb0; simp at hl; exact hne hl
  have key : ∀ a : Str, Word a → a ≠ [] → '|' ∉ a → Stops isSpace (a ++ rest) ∧ a ++ rest ≠ [] ∧ ∀ u, a ++ rest ≠ '|' :: u := by
    intro a ha hne hbar
    obtain ⟨x, s, rfl⟩ := List.exists_cons_of_ne_nil hne
    have hx : isSpace x = false := by
      cases h : isSpace x with
      | false => rfl
      | true => exact absurd ((isSpace_iff x).1 h) (ha x (by simp))
    refine ⟨Stops.cons hx, by simp, fun u e => hbar ?_⟩
    rw [List.cons_append, List.cons.injEq] at e
    simp [e.1]
  obtain ⟨k1, k2, k3⟩ := key a ha hne hbar
  obtain ⟨l1, l2, l3⟩ := key b hb hne' (fun hb => hbar (bar_of_lower h hb))
  rw [C110_after_pipe_partial hq h1 hbq h2 k1 k2 k3] at hp
  rw [C110_after_pipe_partial hq h1 hbq h2 l1 l2 l3]
  obtain ⟨p, e1, e2⟩ := Option.map_eq_some_iff.1 hp
  rw [List.append_cancel_left e2] at e1
  rw [C04_query_partial ha hb h hne hbar hr hc e1]; rfl

example : parse c!"index=web | TABLE x" = some ([.search (.binary (.const (.field c!"index")) c!"=" (.const (.field c!"web")))] ++ [.table [c!"x"]]) :=
  C04_later_stage_partial web_pipe (g₁ := c!" ") (g₂ := c!" ") (a := c!"table") (b := c!"TABLE") (rest := c!" x") (.inr ⟨by decide, by decide⟩) (by decide)
    (.inr ⟨by decide, by decide⟩) (by unfold Word; decide) (by unfold Word; decide) (by decide) (by decide) (by decide) (.inr ⟨' ', _, rfl, by decide⟩) (.inl (by simp))
    (isParse_sound (by decide +kernel))

end Verif.Props
