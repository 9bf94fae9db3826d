import Verif.Lemmas.Bodies8
/-
Reading what follows the name of a command: map, whose search is a quoted text.
-/
namespace Verif
open P Lex Spl Spec Lemmas

/-! ### Quotes and backslashes in the quoted search -/

/-- the text once the backslashes before quotes are gone -/
def doubleSlashes : Str → Str
  | [] => []
  | c :: t => if c = '\\' then '\\' :: '\\' :: doubleSlashes t else c :: doubleSlashes t

theorem hide_head (t : Str) : ∀ c s, hideQuotes t = c :: s → c ≠ '"' := by
  intro c s e
  cases t with
  | nil => simp [hideQuotes] at e
  | cons d t =>
    rw [hideQuotes] at e
    split at e
    · simp only [List.cons.injEq] at e; rw [← e.1]; decide
    · rename_i h
      simp only [List.cons.injEq] at e
      rw [← e.1]; exact fun h' => h (.inl h')

theorem slash_skip {u : Str} (h : ∀ c s, u = c :: s → c ≠ '"') : stripPrefix? c!"\\\"" ('\\' :: u) = none := by
  cases u with
  | nil => rfl
  | cons c s =>
    have := h c s rfl
    simp [stripPrefix?, Ne.symm this]

theorem unhide_quotes (t : Str) : ∀ n, (hideQuotes t).length ≤ n → replaceAux c!"\\\"" c!"\"" n (hideQuotes t) = doubleSlashes t := by
  induction t with
  | nil => intro n _; cases n <;> rfl
  | cons c t ih =>
    intro n hn
    rw [hideQuotes] at hn ⊢
    rw [doubleSlashes]
    by_cases h1 : c = '"'
    · subst h1
      simp only [true_or, if_true, List.length_cons] at hn ⊢
      cases n with
      | zero => omega
      | succ n =>
        have : stripPrefix? c!"\\\"" ('\\' :: '"' :: hideQuotes t) = some (hideQuotes t) := by simp [stripPrefix?]
        rw [replaceAux, this]
        simp [ih n (by omega)]
    · by_cases h2 : c = '\\'
      · subst h2
        simp only [or_true, if_true, List.length_cons] at hn ⊢
        cases n with
        | zero => omega
        | succ n =>
          rw [replaceAux, slash_skip (by simp)]
          cases n with
          | zero => omega
          | succ n =>
            simp only [replaceAux]
            rw [slash_skip (hide_head t)]
            simp only [ih n (by omega)]
      · simp only [h1, h2, or_self, if_false, List.length_cons] at hn ⊢
        cases n with
        | zero => omega
        | succ n =>
          have : stripPrefix? c!"\\\"" (c :: hideQuotes t) = none := by simp [stripPrefix?, Ne.symm h2]
          rw [replaceAux, this]
          simp only [ih n (by omega)]

theorem unhide_slashes (t : Str) : ∀ n, (doubleSlashes t).length ≤ n → replaceAux c!"\\\\" c!"\\" n (doubleSlashes t) = t := by
  induction t with
  | nil => intro n _; cases n <;> rfl
  | cons c t ih =>
    intro n hn
    rw [doubleSlashes] at hn ⊢
    by_cases h2 : c = '\\'
    · subst h2
      simp only [if_true, List.length_cons] at hn ⊢
      cases n with
      | zero => omega
      | succ n =>
        have : stripPrefix? c!"\\\\" ('\\' :: '\\' :: doubleSlashes t) = some (doubleSlashes t) := by simp [stripPrefix?]
        rw [replaceAux, this]
        simp [ih n (by omega)]
    · simp only [h2, if_false, List.length_cons] at hn ⊢
      cases n with
      | zero => omega
      | succ n =>
        have : stripPrefix? c!"\\\\" (c :: doubleSlashes t) = none := by simp [stripPrefix?, Ne.symm h2]
        rw [replaceAux, this]
        simp only [ih n (by omega)]

theorem unescape_hide (t : Str) : unescapeSearch (hideQuotes t) = t := by
  rw [unescapeSearch, replaceAll, replaceAll, unhide_quotes t _ (Nat.le_refl _), unhide_slashes t _ (Nat.le_refl _)]

theorem hide_blank (t : Str) (u : Str) : (hideQuotes t ++ '"' :: u).dropWhile isSpace = hideQuotes (t.dropWhile isSpace) ++ '"' :: u := by
  induction t with
  | nil => rfl
  | cons c t ih =>
    by_cases hc : isSpace c = true
    · have h1 : ¬ (c = '"' ∨ c = '\\') := by rintro (rfl | rfl) <;> exact absurd hc (by decide)
      rw [List.dropWhile_cons_of_pos hc, hideQuotes, if_neg h1, List.cons_append, List.dropWhile_cons_of_pos hc, ih]
    · rw [List.dropWhile_cons_of_neg hc]
      refine drop_stops ?_
      rw [hideQuotes]
      split
      · exact Stops.cons (by decide)
      · exact Stops.cons (by simpa using hc)

theorem hide_loop (t u : Str) : ∀ n, (hideQuotes t ++ '"' :: u).length ≤ n → (manyLoop (dqAltStep.run ()) n (hideQuotes t ++ '"' :: u)).1 = '"' :: u := by
  have hq : ∀ s, dqAltStep.run () ('"' :: s) = none := fun s => rfl
  induction t with
  | nil => intro n _; cases n <;> simp [hideQuotes, manyLoop, hq]
  | cons c t ih =>
    intro n hn
    rw [hideQuotes] at hn ⊢
    have h1 : ∀ s, dqAltStep.run () ('\\' :: '"' :: s) = some (s, c!"\\\"") := fun s => by
      rw [dqAltStep, run_alt, run_tag]; rfl
    have h2 : ∀ s, dqAltStep.run () ('\\' :: '\\' :: s) = some (s, c!"\\\\") := fun s => by
      rw [dqAltStep, run_alt, run_tag, run_alt, run_tag]; rfl
    split at hn
    · rename_i h
      rw [if_pos h]
      cases n with
      | zero => simp at hn
      | succ n =>
        simp only [List.cons_append, List.length_cons] at hn ⊢
        rcases h with rfl | rfl
        · rw [manyLoop, h1]; exact ih n (by omega)
        · rw [manyLoop, h2]; exact ih n (by omega)
    · rename_i h
      rw [if_neg h]
      have h3 : ∀ s, dqAltStep.run () (c :: s) = some (s, [c]) := fun s => by
        have n1 : c ≠ '"' := fun e => h (.inl e)
        have n2 : c ≠ '\\' := fun e => h (.inr e)
        rw [dqAltStep, run_alt, tag_none (by rintro d t e rfl; simp at e; exact n2 e.1), Option.none_or, run_alt,
          tag_none (by rintro d t e rfl; simp at e; exact n2 e.1), Option.none_or, run_recognize, run_satisfy]
        simp [n1, n2]
      cases n with
      | zero => simp at hn
      | succ n =>
        simp only [List.cons_append, List.length_cons] at hn ⊢
        rw [manyLoop, h3]; exact ih n (by omega)

theorem hidden_read (t u : Str) : doubleQuotedAlt.run () ('"' :: (hideQuotes t ++ '"' :: u)) = some (u, hideQuotes (t.dropWhile isSpace)) := by
  have h : (recognize (many0 dqAltStep) : L false Str).run () (hideQuotes (t.dropWhile isSpace) ++ '"' :: u) = some ('"' :: u, hideQuotes (t.dropWhile isSpace)) := by
    rw [recognize_some]
    refine ⟨⟨(manyLoop (dqAltStep.run ()) (hideQuotes (t.dropWhile isSpace) ++ '"' :: u).length (hideQuotes (t.dropWhile isSpace) ++ '"' :: u)).2, ?_⟩, rfl⟩
    rw [run_many0]
    have := hide_loop (t.dropWhile isSpace) u _ (Nat.le_refl _)
    rw [Option.some.injEq, Prod.mk.injEq]
    exact ⟨this, rfl⟩
  rw [doubleQuotedAlt, run_delim, tag_same, Option.bind_some, run_ws, hide_blank, h, Option.map_some, Option.bind_some, drop_stops (s := '"' :: u) (Stops.cons (by decide)), tag_same]; rfl

/-! ### The command -/

/-- The whole text `q` is read, with or without the blanks at its start. -/
def WholeGood (cs : List Command) (q : Str) : Prop := parse q = some cs ∧ parse (q.dropWhile isSpace) = some cs

theorem whole_plain {b : Bool} {cs : List Command} {g₁ g₂ s : Str} (h1 : Blanks g₁) (h : PipeGood b cs s) (h2 : Blanks g₂) : WholeGood cs (g₁ ++ (s ++ g₂)) := by
  refine ⟨query_plain h1 h h2, ?_⟩
  have hd : (g₁ ++ (s ++ g₂)).dropWhile isSpace = s ++ g₂ := drop_blanks h1 (stops_append h.stops h.ne)
  rw [hd]; exact query_plain (g₁ := []) (.inl rfl) h h2

theorem whole_piped {b : Bool} {cs : List Command} {g₀ g₁ g₂ s : Str} (h0 : Blanks g₀) (h1 : Blanks g₁) (h : PipeGood b cs s) (h2 : Blanks g₂) :
    WholeGood cs (g₀ ++ '|' :: (g₁ ++ (s ++ g₂))) := by
  refine ⟨query_piped h0 h1 h h2, ?_⟩
  have hd : (g₀ ++ '|' :: (g₁ ++ (s ++ g₂))).dropWhile isSpace = '|' :: (g₁ ++ (s ++ g₂)) := drop_blanks h0 (Stops.cons (by decide))
  rw [hd]; exact query_piped (g₀ := []) (.inl rfl) h1 h h2

theorem embedded_read {cs : List Command} {t u : Str} (h : WholeGood cs t) : embedded.run fix ('"' :: (hideQuotes t ++ '"' :: u)) = some (u, cs) := by
  have h2 := h.2
  rw [parse] at h2
  show (match doubleQuotedAlt.run () _ with
    | none => none
    | some (r, s) => match fix.run .pipe ((unescapeSearch s).dropWhile isSpace) with
      | some ([], p) => some (r, p)
      | _ => none) = _
  rw [hidden_read]
  simp only [unescape_hide, dropWhile_idem]
  split at h2
  · rename_i hp
    simp only [Option.some.injEq] at h2
    rw [hp]; simp [h2]
  · simp at h2

theorem map_good {k : Str} (hk : lower k = c!"map") {cs : List Command} {n : Int} {os : Option (List (Str × Constant))} {kw g₁ g₂ t s : Str} (hkw : lower kw = c!"search")
    (h1 : Blanks g₁) (h2 : Blanks g₂) (ht : WholeGood cs t) (h : ThenMaybe Opts os ('"' :: (hideQuotes t ++ c!"\"")) s) (ho : IntOr (os.getD []) c!"maxsearches" 10 n) :
    Staged k false (.map cs n) (kw ++ (g₁ ++ '=' :: (g₂ ++ s))) := by
  have hks : ∀ u, Stops isSpace (kw ++ u) := fun u => (keyword_head hkw (by decide) (by decide) u).2.1
  refine stage 16 rfl (by decide) (by decide) (fun x => run_pre _ _ _ _) hk ⟨hks _, fun rest he _ => ?_⟩
  have hq : ∀ u, quotedSearch.run fix (kw ++ (g₁ ++ '=' :: (g₂ ++ ('"' :: (hideQuotes t ++ '"' :: u))))) = some (u, cs) := by
    intro u
    rw [quotedSearch, run_pre, run_seq, run_ws, drop_stops (hks _), tagi_read (by rw [hkw]; decide), Option.map_some, Option.bind_some, drop_blanks h1 (Stops.cons (by decide)), run_ws,
      drop_stops (s := '=' :: _) (Stops.cons (by decide)), tag_same, Option.map_some, Option.map_some, Option.bind_some, drop_blanks h2 (Stops.cons (by decide)), embedded_read ht]
  have hopt : ∃ u r, s = '"' :: (hideQuotes t ++ '"' :: u) ∧ r.dropWhile isSpace = rest.dropWhile isSpace ∧
      (options fun o => getInt o c!"maxsearches" 10).run fix (u ++ rest) = some (r, n) := by
    cases h with
    | none =>
      obtain ⟨r, -, e2, -, e4⟩ := optsThen_read (t := []) .none optTail_nil he
      refine ⟨[], r, rfl, e2, ?_⟩
      have hi := getInt_of ho
      simp only [Option.getD_none] at hi
      rw [e4, hi]; rfl
    | @some os s' g _ hg hs =>
      obtain ⟨r, -, e2, -, e4⟩ := optsThen_read (.only hs) optTail_nil he
      have := e4 fun o => getInt o c!"maxsearches" 10
      have hi := getInt_of ho
      simp only [Option.getD_some] at hi
      rw [hi] at this
      obtain ⟨r', e5, e6⟩ := options_ws (.inr hg) this
      refine ⟨g ++ s', r', by simp, ?_, by rw [List.append_assoc]; exact e5⟩
      rw [e6, List.nil_append, e2]
  obtain ⟨u, r, rfl, e1, e2⟩ := hopt
  refine ⟨r, ?_, e1⟩
  have := hq (u ++ rest)
  simp only [List.append_assoc, List.cons_append]
  rw [run_map, run_seq, this, Option.bind_some, e2]; rfl

end Verif
