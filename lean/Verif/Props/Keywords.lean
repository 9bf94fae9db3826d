import Verif.Props.Segments
/-
C04: command names are read without regard to case.
-/
namespace Verif
open P Spl

/-- a word: no blank in it -/
def Word (a : Str) : Prop := ∀ c ∈ a, c ∉ [' ', '\t', '\r', '\n']

/-- the text after the keyword: nothing, or something that begins with a blank -/
def AfterWord (rest : Str) : Prop := rest = [] ∨ ∃ c s, rest = c :: s ∧ c ∈ [' ', '\t', '\r', '\n']

theorem stripPrefixCI?_eq (t x : Str) : stripPrefixCI? t x =
    if t.length ≤ x.length ∧ lower (x.take t.length) = lower t then
      some (x.take t.length, x.drop t.length) else none := by
  induction t generalizing x with
  | nil => simp [stripPrefixCI?, lower]
  | cons a t ih =>
    cases x with
    | nil => simp [stripPrefixCI?]
    | cons b x =>
      simp only [stripPrefixCI?, List.length_cons, List.take_succ_cons, List.drop_succ_cons]
      by_cases hab : lowerC a = lowerC b
      · rw [if_pos hab, ih]
        by_cases hc : t.length ≤ x.length ∧ lower (x.take t.length) = lower t
        · rw [if_pos hc, if_pos ⟨by omega, by simp only [lower, List.map_cons]; rw [hab]; exact congrArg _ hc.2⟩]
        · rw [if_neg hc, if_neg]
          rintro ⟨h1, h2⟩
          simp only [lower, List.map_cons, List.cons.injEq] at h2
          exact hc ⟨by omega, h2.2⟩
      · rw [if_neg hab, if_neg]
        rintro ⟨-, h2⟩
        simp only [lower, List.map_cons, List.cons.injEq] at h2
        exact hab h2.1.symm

/-- Both runs fail, or both consume the same number of characters. -/
def SameLen (x y : Str) (o o' : PRes Str) : Prop :=
  (o = none ∧ o' = none) ∨ ∃ k v v', o = some (x.drop k, v) ∧ o' = some (y.drop k, v')

theorem tagi_sameLen {ρ : Rec} {a b rest : Str} (h : lower a = lower b) (t : Char) (ts : Str) :
    SameLen (a ++ rest) (b ++ rest) ((tagNoCaseL t ts : G true Str).run ρ (a ++ rest))
      ((tagNoCaseL t ts : G true Str).run ρ (b ++ rest)) := by
  have hl : a.length = b.length := by have := congrArg List.length h; simpa [lower] using this
  have hlow : lower ((a ++ rest).take (t :: ts).length) = lower ((b ++ rest).take (t :: ts).length) := by
    rw [lower, lower, List.map_take, List.map_take, List.map_append, List.map_append]
    rw [lower, lower] at h
    rw [h]
  rw [run_tagi, run_tagi, stripPrefixCI?_eq, stripPrefixCI?_eq, hlow]
  by_cases hc : (t :: ts).length ≤ (b ++ rest).length ∧
      lower ((b ++ rest).take (t :: ts).length) = lower (t :: ts)
  · have hc' : (t :: ts).length ≤ (a ++ rest).length ∧
      lower ((b ++ rest).take (t :: ts).length) = lower (t :: ts) :=
      ⟨by simp only [List.length_append, hl] at hc ⊢; exact hc.1, hc.2⟩
    rw [if_pos hc, if_pos hc']
    exact .inr ⟨_, _, _, rfl, rfl⟩
  · rw [if_neg hc, if_neg]
    · exact .inl ⟨rfl, rfl⟩
    · rintro ⟨h1, h2⟩
      exact hc ⟨by simp only [List.length_append, hl] at h1 ⊢; exact h1, h2⟩

theorem alt_sameLen {x y : Str} {ρ : Rec} {p q : G true Str}
    (hp : SameLen x y (p.run ρ x) (p.run ρ y)) (hq : SameLen x y (q.run ρ x) (q.run ρ y)) :
    SameLen x y ((p <||> q : G true Str).run ρ x) ((p <||> q : G true Str).run ρ y) := by
  rw [run_alt, run_alt]
  rcases hp with ⟨h1, h2⟩ | ⟨k, v, v', h1, h2⟩
  · rw [h1, h2]; exact hq
  · rw [h1, h2]; exact .inr ⟨k, v, v', rfl, rfl⟩

/-- The end of a keyword. -/
theorem wordEnd_none {ρ : Rec} {c : Char} {s : Str} (hc : c ∉ [' ', '\t', '\r', '\n']) :
    (ms1.weak <||> eof : G false Str).run ρ (c :: s) = none := by
  have : isSpace c = false := by
    cases h : isSpace c with
    | false => rfl
    | true => exact absurd ((isSpace_iff c).1 h) hc
  rw [run_alt, run_weak, run_ms1]
  simp [this, eof]

theorem name_ci {ρ : Rec} {a b rest : Str} (ha : Word a) (hb : Word b) (h : lower a = lower b)
    {p : G true Str} (hp : SameLen (a ++ rest) (b ++ rest) (p.run ρ (a ++ rest)) (p.run ρ (b ++ rest))) :
    (name p).run ρ (a ++ rest) = (name p).run ρ (b ++ rest) := by
  have hl : a.length = b.length := by have := congrArg List.length h; simpa [lower] using this
  simp only [name, run_map, run_seq]
  rcases hp with ⟨h1, h2⟩ | ⟨k, v, v', h1, h2⟩
  · rw [h1, h2]
  · rw [h1, h2]
    simp only [Option.bind_some]
    by_cases hk : k < a.length
    · have ha' : a.drop k ≠ [] := by simp; omega
      have hb' : b.drop k ≠ [] := by simp; omega
      rw [List.drop_append_of_le_length (by omega), List.drop_append_of_le_length (by omega)]
      obtain ⟨c, s, hs⟩ := List.exists_cons_of_ne_nil ha'
      obtain ⟨c', s', hs'⟩ := List.exists_cons_of_ne_nil hb'
      rw [hs, hs', List.cons_append, List.cons_append,
        wordEnd_none (ha c (List.mem_of_mem_drop (hs ▸ List.mem_cons_self))),
        wordEnd_none (hb c' (List.mem_of_mem_drop (hs' ▸ List.mem_cons_self)))]
      rfl
    · have : (a ++ rest).drop k = (b ++ rest).drop k := by
        rw [List.drop_append, List.drop_append, List.drop_eq_nil_of_le (as := a) (by omega),
          List.drop_eq_nil_of_le (as := b) (by omega), hl]
      rw [this, Option.map_map, Option.map_map]
      rfl

/-- Every command except `search` is tried with the same result. -/
theorem commandAB_ci {ρ : Rec} {a b rest : Str} (ha : Word a) (hb : Word b) (h : lower a = lower b) :
    (commandA <||> commandB : G true Command).run ρ (a ++ rest) =
      (commandA <||> commandB : G true Command).run ρ (b ++ rest) := by
  have h1 : ∀ t ts, (name (tagNoCaseL t ts)).run ρ (a ++ rest) = (name (tagNoCaseL t ts)).run ρ (b ++ rest) :=
    fun t ts => name_ci ha hb h (tagi_sameLen h t ts)
  have h2 : ∀ t ts u us, (name (tagNoCaseL t ts <||> tagNoCaseL u us)).run ρ (a ++ rest) =
      (name (tagNoCaseL t ts <||> tagNoCaseL u us)).run ρ (b ++ rest) :=
    fun t ts u us => name_ci ha hb h (alt_sameLen (tagi_sameLen h t ts) (tagi_sameLen h u us))
  have pre1 : ∀ {c : Bool} (t : Char) (ts : Str) (q : G c Command),
      (pre (name (tagNoCaseL t ts)) q).run ρ (a ++ rest) = (pre (name (tagNoCaseL t ts)) q).run ρ (b ++ rest) :=
    fun t ts q => by rw [run_pre, run_pre, h1]
  have pre2 : ∀ {c : Bool} (t : Char) (ts : Str) (u : Char) (us : Str) (q : G c Command),
      (pre (name (tagNoCaseL t ts <||> tagNoCaseL u us)) q).run ρ (a ++ rest) =
      (pre (name (tagNoCaseL t ts <||> tagNoCaseL u us)) q).run ρ (b ++ rest) :=
    fun t ts u us q => by rw [run_pre, run_pre, h2]
  rw [run_alt, run_alt]
  congr 1
  · simp only [commandA, run_alt]
    rw [show addTotals.run ρ (a ++ rest) = addTotals.run ρ (b ++ rest) from pre1 _ _ _,
      show bin.run ρ (a ++ rest) = bin.run ρ (b ++ rest) from pre2 _ _ _ _ _,
      show collect.run ρ (a ++ rest) = collect.run ρ (b ++ rest) from pre1 _ _ _,
      show convert.run ρ (a ++ rest) = convert.run ρ (b ++ rest) from pre1 _ _ _,
      show dataModel.run ρ (a ++ rest) = dataModel.run ρ (b ++ rest) from pre1 _ _ _,
      show dedup.run ρ (a ++ rest) = dedup.run ρ (b ++ rest) from pre1 _ _ _,
      show eval.run ρ (a ++ rest) = eval.run ρ (b ++ rest) from pre1 _ _ _,
      show eventStats.run ρ (a ++ rest) = eventStats.run ρ (b ++ rest) from pre1 _ _ _,
      show fields.run ρ (a ++ rest) = fields.run ρ (b ++ rest) from pre1 _ _ _,
      show fillNull.run ρ (a ++ rest) = fillNull.run ρ (b ++ rest) from pre1 _ _ _,
      show format.run ρ (a ++ rest) = format.run ρ (b ++ rest) from pre1 _ _ _,
      show head.run ρ (a ++ rest) = head.run ρ (b ++ rest) from pre1 _ _ _,
      show inputLookup.run ρ (a ++ rest) = inputLookup.run ρ (b ++ rest) from pre1 _ _ _,
      show join.run ρ (a ++ rest) = join.run ρ (b ++ rest) from pre1 _ _ _,
      show lookup.run ρ (a ++ rest) = lookup.run ρ (b ++ rest) from pre1 _ _ _,
      show makeResults.run ρ (a ++ rest) = makeResults.run ρ (b ++ rest) from pre1 _ _ _,
      show map_.run ρ (a ++ rest) = map_.run ρ (b ++ rest) from pre1 _ _ _,
      show multiSearch.run ρ (a ++ rest) = multiSearch.run ρ (b ++ rest) from pre1 _ _ _,
      show mvCombine.run ρ (a ++ rest) = mvCombine.run ρ (b ++ rest) from pre1 _ _ _,
      show mvExpand.run ρ (a ++ rest) = mvExpand.run ρ (b ++ rest) from pre1 _ _ _]
  · simp only [commandB, run_alt]
    rw [show rare.run ρ (a ++ rest) = rare.run ρ (b ++ rest) from pre1 _ _ _,
      show regex.run ρ (a ++ rest) = regex.run ρ (b ++ rest) from pre1 _ _ _,
      show rename.run ρ (a ++ rest) = rename.run ρ (b ++ rest) from pre1 _ _ _,
      show return_.run ρ (a ++ rest) = return_.run ρ (b ++ rest) from pre1 _ _ _,
      show rex.run ρ (a ++ rest) = rex.run ρ (b ++ rest) from pre1 _ _ _,
      show sort.run ρ (a ++ rest) = sort.run ρ (b ++ rest) from pre1 _ _ _,
      show spath.run ρ (a ++ rest) = spath.run ρ (b ++ rest) from pre1 _ _ _,
      show stats.run ρ (a ++ rest) = stats.run ρ (b ++ rest) from pre1 _ _ _,
      show streamStats.run ρ (a ++ rest) = streamStats.run ρ (b ++ rest) from pre1 _ _ _,
      show table.run ρ (a ++ rest) = table.run ρ (b ++ rest) from pre1 _ _ _,
      show tail.run ρ (a ++ rest) = tail.run ρ (b ++ rest) from pre1 _ _ _,
      show top.run ρ (a ++ rest) = top.run ρ (b ++ rest) from pre1 _ _ _,
      show tstats.run ρ (a ++ rest) = tstats.run ρ (b ++ rest) from pre1 _ _ _,
      show where_.run ρ (a ++ rest) = where_.run ρ (b ++ rest) from pre1 _ _ _]

/-- an explicit `search` command, in any case -/
theorem search_ci {ρ : Rec} {a b rest : Str} (ha : lower a = c!"search") (hb : lower b = c!"search")
    (hr : AfterWord rest) : search.run ρ (a ++ rest) = search.run ρ (b ++ rest) := by
  have key : ∀ a : Str, lower a = c!"search" →
      (P.map (fun _ => ()) (seq (tagi! "search") (ms1.weak <||> eof)) <||> P.map (fun _ => ()) ms0 :
        G false Unit).run ρ (a ++ rest) = some (rest.dropWhile isSpace, ()) := by
    intro a ha
    have hl : a.length = 6 := by have := congrArg List.length ha; simpa [lower] using this
    rw [run_alt, run_map, run_seq, run_tagi, stripPrefixCI?_eq, if_pos]
    · simp only [Option.map_some, Option.bind_some]
      have hd : (a ++ rest).drop c!"search".length = rest := by
        rw [List.drop_left' (by simp [hl])]
      rw [hd]
      rcases hr with rfl | ⟨c, s, rfl, hc⟩
      · rfl
      · have : isSpace c = true := (isSpace_iff c).2 hc
        simp [run_alt, run_weak, run_ms1, this]
    · refine ⟨by simp [hl], ?_⟩
      rw [List.take_left' (by simp [hl]), ha]; rfl
  rw [search, run_pre, run_pre, key a ha, key b hb]

theorem search_only {ρ : Rec} {i r : Str} {c : Command} (h : search.run ρ i = some (r, c)) :
    ∃ e, c = .search e := by
  rw [search, run_pre] at h
  obtain ⟨x, _, hx⟩ := Option.bind_eq_some_iff.1 h
  rw [run_map] at hx
  obtain ⟨y, _, hy⟩ := Option.map_eq_some_iff.1 hx
  simp only [Prod.mk.injEq] at hy
  exact ⟨_, hy.2.symm⟩

/-- One stage of a pipeline that begins with a word: if it is read as a command other than
`search`, or if the word is `search`, then any other casing of the word gives the same command
and stops at the same place. -/
theorem C04_stage_partial {a b rest r : Str} {c : Command} (ha : Word a) (hb : Word b) (h : lower a = lower b)
    (hr : AfterWord rest) (hc : (∀ e, c ≠ .search e) ∨ lower a = c!"search")
    (hp : command.run fix (a ++ rest) = some (r, c)) : command.run fix (b ++ rest) = some (r, c) := by
  have hAB := commandAB_ci (ρ := fix) (rest := rest) ha hb h
  have hsplit : ∀ i, command.run fix i =
      ((commandA <||> commandB : G true Command).run fix i).or (search.run fix i) := by
    intro i
    simp only [command, run_alt, Option.or_assoc]
  rw [hsplit] at hp ⊢
  rw [← hAB]
  cases hx : (commandA <||> commandB : G true Command).run fix (a ++ rest) with
  | some x => rw [hx] at hp; simpa using hp
  | none =>
    rw [hx, Option.none_or] at hp
    rcases hc with hc | hc
    · obtain ⟨e, rfl⟩ := search_only hp
      exact absurd rfl (hc e)
    · rw [Option.none_or, ← search_ci hc (h ▸ hc) hr]
      exact hp

example : Word c!"TaBlE" ∧ AfterWord c!" a, b | head 5" ∧ lower c!"TaBlE" = lower c!"table" := by
  unfold Word AfterWord
  exact ⟨by decide, .inr ⟨' ', _, rfl, by decide⟩, by decide⟩

theorem lowerC_bar {c : Char} (h : lowerC c = '|') : c = '|' := by
  unfold lowerC at h
  split at h
  · rename_i hc
    have h1 : 65 ≤ c.toNat := hc.1
    have h2 : c.toNat ≤ 90 := hc.2
    have key : ∀ n : Fin 26, Char.ofNat (n.val + 65 + 32) ≠ '|' := by decide
    have := key ⟨c.toNat - 65, by omega⟩
    rw [show c.toNat - 65 + 65 + 32 = c.toNat + 32 by omega] at this
    exact absurd h this
  · exact h

theorem bar_of_lower {a b : Str} (h : lower a = lower b) (hb : '|' ∈ b) : '|' ∈ a := by
  have : '|' ∈ lower b := List.mem_map.2 ⟨'|', hb, rfl⟩
  rw [← h] at this
  obtain ⟨c, hc, he⟩ := List.mem_map.1 this
  exact lowerC_bar he ▸ hc

/-- The same for the first stage of a whole query. -/
theorem C04_query_partial {a b rest : Str} {c : Command} {cs : Pipeline} (ha : Word a) (hb : Word b)
    (h : lower a = lower b) (hne : a ≠ []) (hbar : '|' ∉ a) (hr : AfterWord rest)
    (hc : (∀ e, c ≠ .search e) ∨ lower a = c!"search")
    (hp : parse (a ++ rest) = some (c :: cs)) : parse (b ++ rest) = some (c :: cs) := by
  have hl : a.length = b.length := by have := congrArg List.length h; simpa [lower] using this
  have hne' : b ≠ [] := by intro hb0; subst hb0; simp at hl; exact hne hl
  have key : ∀ a : Str, Word a → a ≠ [] → '|' ∉ a →
      (afterLead (a ++ rest)).dropWhile isSpace = a ++ rest := by
    intro a ha hne hbar
    obtain ⟨x, s, rfl⟩ := List.exists_cons_of_ne_nil hne
    have hx : isSpace x = false := by
      cases h : isSpace x with
      | false => rfl
      | true => exact absurd ((isSpace_iff x).1 h) (ha x (by simp))
    have hd : (x :: s ++ rest).dropWhile isSpace = x :: s ++ rest := by
      rw [List.cons_append, List.dropWhile_cons]; simp [hx]
    have : afterLead (x :: s ++ rest) = x :: s ++ rest := by
      unfold afterLead
      rw [run_ws, hd, run_tag, List.cons_append]
      have : '|' ≠ x := fun e => hbar (by simp [← e])
      simp [stripPrefix?, this]
    rw [this, hd]
  rw [parse_eq, key a ha hne hbar, run_sepList0] at hp
  rw [parse_eq, key b hb hne' (fun hb => hbar (bar_of_lower h hb)), run_sepList0]
  cases hcmd : command.run fix (a ++ rest) with
  | none =>
    simp only [hcmd] at hp
    cases hf : (Option.filter (fun x : Str × List Command => (x.1.dropWhile isSpace).isEmpty)
        (some (a ++ rest, []))) with
    | none => rw [hf] at hp; simp at hp
    | some y =>
      rw [hf] at hp
      have := (Option.filter_eq_some_iff.1 hf).1
      simp only [Option.some.injEq] at this
      rw [← this] at hp
      simp at hp
  | some x =>
    obtain ⟨r, c'⟩ := x
    simp only [hcmd] at hp
    have hcc : c' = c := by
      cases hf : (Option.filter (fun x : Str × List Command => (x.1.dropWhile isSpace).isEmpty)
        (some ((sepLoop ((ws (tag! "|") : G true Str).run fix) (command.run fix) r.length r).1,
          c' :: (sepLoop ((ws (tag! "|") : G true Str).run fix) (command.run fix) r.length r).2))) with
      | none => rw [hf] at hp; simp at hp
      | some y =>
        rw [hf] at hp
        have := Option.filter_eq_some_iff.1 hf
        simp only [Option.some.injEq] at this
        rw [← this.1] at hp
        simp at hp
        exact hp.1
    subst hcc
    rw [C04_stage_partial ha hb h hr hc hcmd]
    exact hp

example : (parse c!"TABLE a, b | head 5").map List.length = some 2 := by decide +kernel

/-- When the words after a command name do not fit the command, the name is read as a field of an
implicit search, and there its casing is kept. -/
theorem C04_fallback_keeps_case :
    parse c!"table =5" = some [.search (.binary (.const (.field c!"table")) c!"=" (.const (.int 5)))] ∧
    parse c!"TABLE =5" = some [.search (.binary (.const (.field c!"TABLE")) c!"=" (.const (.int 5)))] :=
  ⟨isParse_sound (by decide +kernel), isParse_sound (by decide +kernel)⟩

end Verif
