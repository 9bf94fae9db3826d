import Verif.Lemmas.Run
import Verif.Spl.Eq
/-
C02 and the first half of C03: how the text of a query is divided among its commands.
-/
namespace Verif
open P Spl

/-- only spaces, tabs, carriage returns and line feeds -/
def Blank (s : Str) : Prop := ∀ c ∈ s, c ∈ [' ', '\t', '\r', '\n']

/-- one pipe with optional blanks on either side -/
def PipeSep (s : Str) : Prop := ∃ a b, Blank a ∧ Blank b ∧ s = a ++ '|' :: b

/-- The command parser, started at the beginning of `seg`, returns `c` and stops exactly at the
end of `seg`. -/
def Reads (seg rest : Str) (c : Command) : Prop := command.run fix (seg ++ rest) = some (rest, c)

/-- `text` is the first segment, then for every further command a pipe and a segment, then `rest`;
every segment is read as the command at its place. -/
inductive Laid : Str → List Command → Str → Prop
  | one {seg rest c} : Reads seg rest c → Laid (seg ++ rest) [c] rest
  | more {seg sep text rest c cs} : Reads seg (sep ++ text) c → PipeSep sep → Laid text cs rest →
      Laid (seg ++ (sep ++ text)) (c :: cs) rest

theorem isSpace_iff (c : Char) : isSpace c = true ↔ c ∈ [' ', '\t', '\r', '\n'] := by
  simp [isSpace, or_assoc]

theorem blank_takeWhile (s : Str) : Blank (s.takeWhile isSpace) :=
  fun c hc => (isSpace_iff c).1 (takeWhile_blank s c hc)

theorem blank_isSpace {w : Str} (h : Blank w) : ∀ c ∈ w, isSpace c = true :=
  fun c hc => (isSpace_iff c).2 (h c hc)

/-- What `ws(tag("|"))` does. -/
theorem pipe_some {i r : Str} {x : Str} (h : (ws (tag! "|") : G true Str).run fix i = some (r, x)) :
    ∃ sep, PipeSep sep ∧ i = sep ++ r := by
  rw [run_ws, run_tag] at h
  cases hs : stripPrefix? ['|'] (i.dropWhile isSpace) with
  | none => simp [hs] at h
  | some r' =>
    simp only [hs, Option.map_some, Option.some.injEq, Prod.mk.injEq] at h
    rw [stripPrefix?_some] at hs
    refine ⟨i.takeWhile isSpace ++ '|' :: r'.takeWhile isSpace,
      ⟨_, _, blank_takeWhile _, blank_takeWhile _, rfl⟩, ?_⟩
    rw [← h.1]
    conv => lhs; rw [blank_split i, hs]
    simp [← blank_split r']

theorem laid_of_loop : ∀ n i r cs c seg, Reads seg i c →
    sepLoop ((ws (tag! "|") : G true Str).run fix) (command.run fix) n i = (r, cs) →
    Laid (seg ++ i) (c :: cs) r := by
  intro n
  induction n with
  | zero =>
    intro i r cs c seg hr h
    simp only [sepLoop, Prod.mk.injEq] at h
    obtain ⟨rfl, rfl⟩ := h
    exact .one hr
  | succ n ih =>
    intro i r cs c seg hr h
    unfold sepLoop at h
    cases hs : (ws (tag! "|") : G true Str).run fix i with
    | none =>
      simp only [hs, Prod.mk.injEq] at h
      obtain ⟨rfl, rfl⟩ := h
      exact .one hr
    | some x =>
      obtain ⟨j, y⟩ := x
      obtain ⟨sep, hsep, rfl⟩ := pipe_some hs
      simp only [hs] at h
      cases hc : command.run fix j with
      | none =>
        simp only [hc, Prod.mk.injEq] at h
        obtain ⟨rfl, rfl⟩ := h
        exact .one hr
      | some x =>
        obtain ⟨k, c'⟩ := x
        simp only [hc, Prod.mk.injEq] at h
        obtain ⟨rfl, rfl⟩ := h
        obtain ⟨seg', rfl⟩ := command.suf _ _ _ _ hc
        exact .more hr hsep (ih _ _ _ _ _ hc rfl)

/-- What follows the optional first pipe. -/
def afterLead (q : Str) : Str :=
  match (ws (tag! "|") : G true Str).run fix q with
  | some x => x.1
  | none => q

theorem parse_eq (q : Str) : parse q =
    (((sepList0 (ws (tag! "|")) command).run fix ((afterLead q).dropWhile isSpace)).filter
      fun x => (x.1.dropWhile isSpace).isEmpty).map Prod.snd := by
  have h1 : fix.run .pipe q = pipeline.run fix q := fix_eq .pipe q
  unfold parse
  rw [h1, pipeline, run_pre, run_opt, Option.bind_some, run_allConsuming, run_ws]
  have : (((ws (tag! "|") : G true Str).run fix q).elim (q, none)
      fun x => (x.1, some x.2)).1 = afterLead q := by
    unfold afterLead; cases (ws (tag! "|") : G true Str).run fix q <;> rfl
  rw [this]
  cases (sepList0 (ws (tag! "|")) command).run fix ((afterLead q).dropWhile isSpace) with
  | none => rfl
  | some x =>
    obtain ⟨r, p⟩ := x
    cases hd : r.dropWhile isSpace with
    | nil => simp [Option.filter, hd]
    | cons a b => simp [Option.filter, hd]

/-- The text of a query that parses is: an optional pipe with blanks around it, then the segments
of the commands in order with one pipe between neighbours, then blanks.  A query without
commands consists of blanks and at most one pipe. -/
theorem C02_partition {q : Str} {p : Pipeline} (h : parse q = some p) :
    ∃ lead body tail, q = lead ++ body ∧ (Blank lead ∨ PipeSep lead) ∧ Blank tail ∧
      ((p = [] ∧ body = tail) ∨ Laid body p tail) := by
  rw [parse_eq] at h
  have hlead : ∃ lead, q = lead ++ (afterLead q).dropWhile isSpace ∧ (Blank lead ∨ PipeSep lead) := by
    unfold afterLead
    cases hs : (ws (tag! "|") : G true Str).run fix q with
    | none => exact ⟨q.takeWhile isSpace, blank_split q, .inl (blank_takeWhile q)⟩
    | some x =>
      obtain ⟨r, y⟩ := x
      obtain ⟨sep, hsep, rfl⟩ := pipe_some hs
      have : r.dropWhile isSpace = r := by
        rw [run_ws] at hs
        cases ht : (tag! "|" : G true Str).run fix ((sep ++ r).dropWhile isSpace) with
        | none => simp [ht] at hs
        | some z =>
          simp only [ht, Option.map_some, Option.some.injEq, Prod.mk.injEq] at hs
          rw [← hs.1, dropWhile_idem]
      refine ⟨sep, ?_, .inr hsep⟩
      rw [this]
  obtain ⟨lead, hq, hl⟩ := hlead
  rw [run_sepList0] at h
  refine ⟨lead, (afterLead q).dropWhile isSpace, ?_⟩
  cases hc : command.run fix ((afterLead q).dropWhile isSpace) with
  | none =>
    simp only [hc] at h
    by_cases he : (((afterLead q).dropWhile isSpace).dropWhile isSpace).isEmpty
    · simp only [Option.filter, he, if_true, Option.map_some, Option.some.injEq] at h
      have hb : Blank ((afterLead q).dropWhile isSpace) := fun c hcm =>
        (isSpace_iff c).1 (dropWhile_eq_nil (List.isEmpty_iff.1 he) c hcm)
      exact ⟨_, hq, hl, hb, .inl ⟨h.symm, rfl⟩⟩
    · simp [Option.filter, he] at h
  | some x =>
    obtain ⟨r, c⟩ := x
    simp only [hc] at h
    generalize hloop : sepLoop ((ws (tag! "|") : G true Str).run fix) (command.run fix) r.length r = y at h
    obtain ⟨tail, cs⟩ := y
    by_cases he : (tail.dropWhile isSpace).isEmpty
    · simp only [Option.filter, he, if_true, Option.map_some, Option.some.injEq] at h
      subst h
      obtain ⟨seg, hseg⟩ := command.suf _ _ _ _ hc
      rw [← hseg] at hc ⊢
      refine ⟨tail, ?_, hl, ?_, .inr (laid_of_loop _ _ _ _ _ _ hc hloop)⟩
      · rw [hseg]; exact hq
      · exact fun c hcm => (isSpace_iff c).1 (dropWhile_eq_nil (List.isEmpty_iff.1 he) c hcm)
    · simp [Option.filter, he] at h

example : (parse c!" | search x=1 |table a, b\t| head 5 ").map List.length = some 3 := by decide +kernel

/-- The segments, put one after another with the separators, make up the text before `rest`. -/
theorem Laid.text {text rest : Str} {cs : List Command} (h : Laid text cs rest) :
    ∃ segs : List Str, ∃ seps : List Str, segs.length = cs.length ∧ seps.length + 1 = cs.length ∧
      (∀ s ∈ seps, PipeSep s) ∧
      text = (segs.head?.getD []) ++ ((seps.zip segs.tail).map fun x => x.1 ++ x.2).flatten ++ rest := by
  induction h with
  | @one seg rest c _ => exact ⟨[seg], [], rfl, rfl, by simp, by simp⟩
  | @more seg sep text rest c cs _ hsep _ ih =>
    obtain ⟨segs, seps, h1, h2, h3, h4⟩ := ih
    cases segs with
    | nil => simp at h1; rw [← h1] at h2; simp at h2
    | cons s segs =>
      refine ⟨seg :: s :: segs, sep :: seps, by simp [← h1], by simp [← h2], ?_, ?_⟩
      · intro x hx
        rcases List.mem_cons.1 hx with rfl | hx
        · exact hsep
        · exact h3 x hx
      · rw [h4]; simp

/-! ### C03 -/

/-- Blanks before a query do not matter. -/
theorem C03_leading_blanks_partial {w : Str} (hw : Blank w) (q : Str) : parse (w ++ q) = parse q := by
  have hd := dropWhile_append_of_blank (blank_isSpace hw) q
  have : (afterLead (w ++ q)).dropWhile isSpace = (afterLead q).dropWhile isSpace := by
    unfold afterLead
    rw [run_ws, run_ws, hd]
    cases (tag! "|" : G true Str).run fix (q.dropWhile isSpace) with
    | none => exact hd
    | some x => rfl
  rw [parse_eq, parse_eq, this]

example : Blank c!" \t\r\n" := by unfold Blank; decide

/-- A leading pipe does not matter, unless the query already begins with one. -/
theorem C03_leading_pipe_partial {a b : Str} (ha : Blank a) (hb : Blank b) {q : Str}
    (hq : (q.dropWhile fun c => c ∈ [' ', '\t', '\r', '\n']).head? ≠ some '|') :
    parse (a ++ '|' :: (b ++ q)) = parse q := by
  have hfun : (fun c => decide (c ∈ [' ', '\t', '\r', '\n'])) = isSpace := by
    funext c
    rw [Bool.eq_iff_iff, isSpace_iff]; simp
  rw [hfun] at hq
  have h1 : afterLead q = q := by
    unfold afterLead
    rw [run_ws, run_tag]
    cases hs : stripPrefix? ['|'] (q.dropWhile isSpace) with
    | none => rfl
    | some r =>
      rw [stripPrefix?_some] at hs
      rw [hs] at hq; simp at hq
  have h2 : afterLead (a ++ '|' :: (b ++ q)) = q.dropWhile isSpace := by
    unfold afterLead
    rw [run_ws, run_tag, dropWhile_append_of_blank (blank_isSpace ha)]
    have : ('|' :: (b ++ q)).dropWhile isSpace = '|' :: (b ++ q) := by
      rw [List.dropWhile_cons]; simp [isSpace]
    rw [this]
    simp [stripPrefix?, dropWhile_append_of_blank (blank_isSpace hb)]
  rw [parse_eq, parse_eq, h1, h2, dropWhile_idem]

example : (c!" search x=1".dropWhile fun c => c ∈ [' ', '\t', '\r', '\n']).head? ≠ some '|' := by decide

/-- Two leading pipes are an error. -/
theorem C03_second_pipe_rejected : (parse c!"| head 5").isSome ∧ parse c!"|| head 5" = none :=
  ⟨by decide +kernel, Option.isNone_iff_eq_none.1 (by decide +kernel)⟩

/-- Trailing whitespace does matter after a backslash: there the added blank becomes part of the
last name. -/
theorem C03_trailing_blank_changes_query :
    parse c!"table foo\\" = none ∧ parse c!"table foo\\ " = some [.table [c!"foo\\ "]] := by
  constructor
  · exact Option.isNone_iff_eq_none.1 (by decide +kernel)
  · exact isParse_sound (by decide +kernel)

end Verif
