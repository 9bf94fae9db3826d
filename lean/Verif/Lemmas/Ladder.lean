import Verif.Spec.Written
import Verif.Lemmas.Values
/-
The expression parser on text written as in `Spec.Written`.
-/
namespace Verif
open P Lex Spl Spec Lemmas

/-- the characters that no text after blanks may begin with -/
def isOpStart (c : Char) : Bool := isSpace c || c ∈ c!"*/+-.=:!<>"

/-- Text after blanks that does not continue the expression before it. -/
structure Starts (u : Str) : Prop where
  first : Stops isOpStart u
  noOr : lower (u.take 2) ≠ c!"or"
  noAnd : lower (u.take 3) ≠ c!"and"
  noIn : lower (u.take 2) = c!"in" → ∀ s, (u.drop 2).dropWhile isSpace ≠ '(' :: s

/-- What may follow an expression of level `k`. -/
inductive Follow (k : Nat) : Str → Prop
  | nil : Follow k []
  | close {c : Char} (s : Str) (hc : c ∈ c!"),|]") : Follow k (c :: s)
  | gap {g u : Str} (hg : Gap g) (hu : Starts u) : Follow k (g ++ u)
  | op {j : Nat} {op g s : Str} (h : Op j op) (hg : Blanks g) (ht : g = [] → op ∈ tightOps) (hj : k < j) :
      Follow k (g ++ (op ++ s))

theorem Follow.mono {k k' : Nat} {s : Str} (h : Follow k s) (hk : k' ≤ k) : Follow k' s := by
  cases h with
  | nil => exact .nil
  | close s hc => exact .close s hc
  | gap hg hu => exact .gap hg hu
  | op h hg ht hj => exact .op h hg ht (by omega)

theorem Starts.nil : Starts [] := ⟨Stops.nil _, by decide, by decide, by simp⟩

theorem Starts.close {c : Char} {s : Str} (hc : c ∈ c!"),|]") : Starts (c :: s) := by
  simp only [List.mem_cons, List.not_mem_nil, or_false] at hc
  refine ⟨Stops.cons ?_, ?_, ?_, ?_⟩
  · rcases hc with rfl | rfl | rfl | rfl <;> decide
  · rcases hc with rfl | rfl | rfl | rfl <;> simp [lower, lowerC]
  · rcases hc with rfl | rfl | rfl | rfl <;> simp [lower, lowerC]
  · rcases hc with rfl | rfl | rfl | rfl <;> simp [lower, lowerC]

theorem Starts.space {u : Str} (h : Starts u) : Stops isSpace u := fun c t e => by
  have := h.first c t e
  simp only [isOpStart, Bool.or_eq_false_iff] at this
  exact this.1

theorem Follow.blanks_close {k : Nat} {g : Str} {c : Char} {s : Str} (hg : Blanks g) (hc : c ∈ c!"),|]") : Follow k (g ++ c :: s) := by
  rcases hg with rfl | hg
  · exact .close s hc
  · exact .gap hg (.close hc)

theorem tight_head {op : Str} (h : op ∈ tightOps) : ∃ c t, op = c :: t ∧ c ∈ c!"=!<>+" := by
  simp only [tightOps, List.mem_cons, List.not_mem_nil, or_false] at h
  rcases h with rfl | rfl | rfl | rfl | rfl | rfl | rfl | rfl <;> exact ⟨_, _, rfl, by decide⟩

/-- the first character of what follows -/
theorem Follow.head {k : Nat} {s : Str} (h : Follow k s) {f : Char → Bool}
    (hf : ∀ c ∈ c!"),|] \t\r\n=!<>+", f c = false) : Stops f s := by
  cases h with
  | nil => exact Stops.nil f
  | @close c s hc => exact Stops.cons (hf _ ((by decide : ∀ c ∈ c!"),|]", c ∈ c!"),|] \t\r\n=!<>+") c hc))
  | gap hg hu =>
    obtain ⟨c, t, rfl, hc⟩ := gap_head hg
    exact Stops.cons (hf c (space_all (f := fun c => c ∈ c!"),|] \t\r\n=!<>+") (by decide) hc))
  | op h hg ht hj =>
    rcases hg with rfl | hg
    · obtain ⟨c, t, rfl, hc⟩ := tight_head (ht rfl)
      exact Stops.cons (hf c ((by decide : ∀ c ∈ c!"=!<>+", c ∈ c!"),|] \t\r\n=!<>+") c hc))
    · obtain ⟨c, t, rfl, hc⟩ := gap_head hg
      exact Stops.cons (hf c (space_all (f := fun c => c ∈ c!"),|] \t\r\n=!<>+") (by decide) hc))

theorem Follow.extra {k : Nat} {s : Str} (h : Follow k s) : Stops isExtraChar s := h.head (by decide)
theorem Follow.token {k : Nat} {s : Str} (h : Follow k s) : Stops tokenCont s := h.head (by decide)
theorem Follow.letter {k : Nat} {s : Str} (h : Follow k s) : Stops isLetter s := h.head (by decide)

/-- the first character of an operator -/
theorem op_head {j : Nat} {op : Str} (h : Op j op) : ∃ c t, op = c :: t ∧ isSpace c = false := by
  cases h <;> try exact ⟨_, _, rfl, by decide⟩
  all_goals
    rename_i h
    cases op with
    | nil => simp [lower] at h
    | cons c t =>
      refine ⟨c, t, rfl, ?_⟩
      simp only [lower, List.map_cons, List.cons.injEq] at h
      cases hc : isSpace c with
      | false => rfl
      | true =>
        exfalso
        have := h.1
        rcases space_cases hc with rfl | rfl | rfl | rfl <;> revert this <;> decide

/-- the operators of a level, as the parser looks for them -/
def opAt : Nat → G true Str
  | 3 => ws (tag! "*" <||> tag! "/")
  | 4 => ws (tag! "+" <||> tag! "-")
  | 5 => ws (delim ms0 (tag! ".") ms1)
  | 6 => ws cmpOps
  | 8 => ws (tagi! "OR")
  | _ => ws andPattern

theorem opAt_drop (j : Nat) (i : Str) : (opAt j).run fix i = (opAt j).run fix (i.dropWhile isSpace) := by
  have key : ∀ (p : G true Str), (ws p).run fix i = (ws p).run fix (i.dropWhile isSpace) := by
    intro p; rw [run_ws, run_ws, dropWhile_idem]
  unfold opAt
  split <;> exact key _

theorem op_stops {j : Nat} {op : Str} (h : Op j op) (s : Str) : Stops isSpace (op ++ s) := by
  obtain ⟨c, t, rfl, hc⟩ := op_head h
  exact Stops.cons hc

theorem andPattern_none {s : Str} (hs : Stops isSpace s) (ha : ∀ c t, s = c :: t → lowerC c ≠ 'a') :
    andPattern.run fix s = none := by
  cases s with
  | nil => rfl
  | cons c s =>
    have h1 := ha c s rfl
    have h2 : c ≠ ' ' := fun e => by have := hs c s rfl; rw [e] at this; simp [isSpace] at this
    rw [andPattern, run_alt, tagi_ne (by intro e; exact h1 (by rw [← e]; decide)), tag_ne h2]; rfl

theorem cmpOps_none {c : Char} {s : Str} (h : c ≠ '=' ∧ c ≠ ':' ∧ c ≠ '!' ∧ c ≠ '<' ∧ c ≠ '>') :
    cmpOps.run fix (c :: s) = none := by
  simp only [cmpOps, run_alt, tag_ne h.1, tag_ne h.2.1, tag_ne h.2.2.1, tag_ne h.2.2.2.1, tag_ne h.2.2.2.2]
  rfl

/-- no operator of a level begins with another character than its own -/
theorem opAt_none {j : Nat} {c : Char} {s : Str} (hc : isSpace c = false)
    (h3 : j = 3 → c ≠ '*' ∧ c ≠ '/') (h4 : j = 4 → c ≠ '+' ∧ c ≠ '-') (h5 : j = 5 → c ≠ '.')
    (h6 : j = 6 → c ≠ '=' ∧ c ≠ ':' ∧ c ≠ '!' ∧ c ≠ '<' ∧ c ≠ '>') (h8 : j = 8 → lowerC c ≠ 'o')
    (h9 : lowerC c ≠ 'a' ∨ j < 9 ∧ j ≠ 7 ∧ 3 ≤ j) : (opAt j).run fix (c :: s) = none := by
  have hd : (c :: s).dropWhile isSpace = c :: s := by rw [List.dropWhile_cons_of_neg]; rw [hc]; simp
  unfold opAt
  split
  · rw [run_ws, hd, run_alt, tag_ne (h3 rfl).1, tag_ne (h3 rfl).2]; rfl
  · rw [run_ws, hd, run_alt, tag_ne (h4 rfl).1, tag_ne (h4 rfl).2]; rfl
  · rw [run_ws, hd, run_delim, run_ms0, Option.bind_some, hd, tag_ne (h5 rfl)]; rfl
  · rw [run_ws, hd, cmpOps_none (h6 rfl)]; rfl
  · rw [run_ws, hd, tagi_ne (by intro e; exact h8 rfl (by rw [← e]; decide))]; rfl
  · rename_i n3 n4 n5 n6 n8
    have ha : lowerC c ≠ 'a' := by
      rcases h9 with h | h
      · exact h
      · exfalso
        have : j ≠ 3 := fun e => n3 e
        have : j ≠ 4 := fun e => n4 e
        have : j ≠ 5 := fun e => n5 e
        have : j ≠ 6 := fun e => n6 e
        have : j ≠ 8 := fun e => n8 e
        omega
    rw [run_ws, hd, andPattern_none (Stops.cons hc) (fun c' t' e => by
      simp only [List.cons.injEq] at e; rw [← e.1]; exact ha)]
    rfl

theorem opAt_nil (j : Nat) : (opAt j).run fix [] = none := by
  unfold opAt; split <;> rfl

theorem tagi_take {R : Type} [Env R] {ρ : R} {t : Char} {ts s : Str} (h : lower (s.take (ts.length + 1)) ≠ lower (t :: ts)) :
    (tagNoCaseL t ts : P R true true Str).run ρ s = none := by
  rw [run_tagi]
  cases hs : stripPrefixCI? (t :: ts) s with
  | none => rfl
  | some x =>
    exfalso
    obtain ⟨h1, h2, h3⟩ := stripPrefixCI?_spec (m := x.1) (r := x.2) hs
    apply h
    have hl : x.1.length = ts.length + 1 := by
      have := congrArg List.length h3
      simpa [lower] using this
    rw [h1, ← hl, List.take_left', h3]
    rfl

theorem opAt_starts {j : Nat} {u : Str} (h : Starts u) : (opAt j).run fix u = none := by
  cases u with
  | nil => exact opAt_nil j
  | cons c s =>
    have hf := h.first c s rfl
    simp only [isOpStart, Bool.or_eq_false_iff, decide_eq_false_iff_not, List.mem_cons, List.not_mem_nil, or_false, not_or] at hf
    obtain ⟨hc, h1, h2, h3, h4, h5, h6, h7, h8, h9, h10⟩ := hf
    have hd : (c :: s).dropWhile isSpace = c :: s := by rw [List.dropWhile_cons_of_neg]; rw [hc]; simp
    unfold opAt
    split
    · rw [run_ws, hd, run_alt, tag_ne h1, tag_ne h2]; rfl
    · rw [run_ws, hd, run_alt, tag_ne h3, tag_ne h4]; rfl
    · rw [run_ws, hd, run_delim, run_ms0, Option.bind_some, hd, tag_ne h5]; rfl
    · rw [run_ws, hd, cmpOps_none ⟨h6, h7, h8, h9, h10⟩]; rfl
    · rw [run_ws, hd, tagi_take (by exact h.noOr)]; rfl
    · have h2 : c ≠ ' ' := fun e => by rw [e] at hc; simp [isSpace] at hc
      rw [run_ws, hd, andPattern, run_alt, tagi_take (by exact h.noAnd), tag_ne h2]; rfl

/-- After an expression of level `k` no operator of a level up to `k` can be read. -/
theorem Follow.quiet {k : Nat} {s : Str} (h : Follow k s) {j : Nat} (hj : j ≤ k) (h3 : 3 ≤ j) (h7 : j ≠ 7) :
    (opAt j).run fix s = none := by
  cases h with
  | nil => exact opAt_nil j
  | close s hc => exact opAt_starts (.close hc)
  | gap hg hu => rw [opAt_drop, drop_gap hg hu.space]; exact opAt_starts hu
  | @op j' op g s h hg ht hj' =>
    rw [opAt_drop, drop_blanks hg (op_stops h s)]
    have key : ∀ {c x : Char}, lowerC c = x → ∀ y, lowerC y ≠ x → c ≠ y := by
      intro c x e y hy e'; subst e'; exact hy e
    cases h with
    | or h =>
      obtain ⟨c, t, rfl, hc, _⟩ := lower_cons h
      have hcs : isSpace c = false := by
        have := op_stops (.or h) s c (t ++ s) rfl; exact this
      exact opAt_none hcs (fun _ => ⟨key hc _ (by decide), key hc _ (by decide)⟩)
        (fun _ => ⟨key hc _ (by decide), key hc _ (by decide)⟩) (fun _ => key hc _ (by decide))
        (fun _ => ⟨key hc _ (by decide), key hc _ (by decide), key hc _ (by decide), key hc _ (by decide), key hc _ (by decide)⟩)
        (by intro; omega) (.inl (by rw [hc]; decide))
    | and h =>
      obtain ⟨c, t, rfl, hc, _⟩ := lower_cons h
      have hcs : isSpace c = false := by
        have := op_stops (.and h) s c (t ++ s) rfl; exact this
      exact opAt_none hcs (fun _ => ⟨key hc _ (by decide), key hc _ (by decide)⟩)
        (fun _ => ⟨key hc _ (by decide), key hc _ (by decide)⟩) (fun _ => key hc _ (by decide))
        (fun _ => ⟨key hc _ (by decide), key hc _ (by decide), key hc _ (by decide), key hc _ (by decide), key hc _ (by decide)⟩)
        (fun _ => by rw [hc]; decide) (.inr (by omega))
    | _ =>
      exact opAt_none (by decide) (by intro; first | omega | decide) (by intro; first | omega | decide)
        (by intro; first | omega | decide) (by intro; first | omega | decide) (by intro; first | omega | decide) (.inl (by decide))

/-- An operator is read whole, with the blanks around it. -/
theorem op_read {k : Nat} {op g₁ g₂ s : Str} (h : Op k op) (h1 : Blanks g₁) (h2 : Blanks g₂) (ht : op ∈ tightOps ∨ g₁ ≠ [] ∧ g₂ ≠ [])
    (hs : Stops isSpace s) (he : Stops (· == '=') s) : (opAt k).run fix (g₁ ++ (op ++ (g₂ ++ s))) = some (s, op) := by
  rw [opAt_drop, drop_blanks h1 (op_stops h _)]
  by_cases hg : g₂ = []
  · subst hg
    rw [List.nil_append]
    have ht : op ∈ tightOps := by
      rcases ht with h | h
      · exact h
      · exact absurd rfl h.2
    have key : ∀ {x : Char}, (opAt k).run fix (op ++ s) = some (s.dropWhile isSpace, op) → (opAt k).run fix (op ++ s) = some (s, op) :=
      fun h => by rw [drop_stops hs] at h; exact h
    have hne : ∀ {a : Char}, s = [] ∨ ∃ c t, s = c :: t ∧ '=' ≠ c := fun {_} => by
      cases s with
      | nil => exact .inl rfl
      | cons c t => exact .inr ⟨c, t, rfl, fun e => by have := he c t rfl; rw [← e] at this; simp at this⟩
    have eqn : (tag! "=" : G true Str).run fix s = none := by
      rcases hne (a := 'a') with rfl | ⟨c, t, rfl, hc⟩
      · rfl
      · exact tag_ne (fun e => hc e.symm)
    cases h with
    | or h => exfalso; simp only [tightOps, List.mem_cons, List.not_mem_nil, or_false] at ht; rcases ht with rfl | rfl | rfl | rfl | rfl | rfl | rfl | rfl <;> revert h <;> decide
    | and h => exfalso; simp only [tightOps, List.mem_cons, List.not_mem_nil, or_false] at ht; rcases ht with rfl | rfl | rfl | rfl | rfl | rfl | rfl | rfl <;> revert h <;> decide
    | mul | div | sub | cat => exact absurd ht (by decide)
    | add => exact key (x := 'a') rfl
    | eq2 | ne | le | ge => exact key (x := 'a') rfl
    | eq | lt | gt =>
      apply key (x := 'a')
      rcases hne (a := 'a') with rfl | ⟨c, t, rfl, hc⟩
      · rfl
      · simp only [opAt, run_ws, cmpOps, run_alt, run_tag, List.cons_append, List.nil_append, stripPrefix?]
        simp [hc, isSpace, stripPrefix?]
  have h2 : Gap g₂ := h2.resolve_left hg
  obtain ⟨c, t, rfl, hc⟩ := gap_head h2
  have hd : (c :: t ++ s).dropWhile isSpace = s := drop_gap h2 hs
  have hdt : (t ++ s).dropWhile isSpace = s := drop_gap_tail (fun x hx => gap_space h2 x (by simp [hx])) hs
  cases h with
  | or h =>
    have hcs := op_stops (.or h) (c :: t ++ s)
    have hd' : (op ++ (c :: t ++ s)).dropWhile isSpace = op ++ (c :: t ++ s) := by
      have := drop_gap_tail (g := []) (by simp) hcs; simpa using this
    rw [opAt, run_ws, hd', tagi_read (by rw [h]; decide), Option.map_some, hd]
  | and h =>
    have hcs := op_stops (.and h) (c :: t ++ s)
    have hd' : (op ++ (c :: t ++ s)).dropWhile isSpace = op ++ (c :: t ++ s) := by
      have := drop_gap_tail (g := []) (by simp) hcs; simpa using this
    rw [opAt, run_ws, hd', andPattern, run_alt, tagi_read (by rw [h]; decide), Option.some_or, Option.map_some, hd]
    all_goals simp
  | cat =>
    have : (opAt 5).run fix (c!"." ++ (c :: t ++ s)) = some (((t ++ s).dropWhile isSpace).dropWhile isSpace, c!".") := by
      rcases space_cases hc with rfl | rfl | rfl | rfl <;> rfl
    rw [this, dropWhile_idem, hdt]
  | mul =>
    conv => rhs; rw [← hdt]
    rcases space_cases hc with rfl | rfl | rfl | rfl <;> rfl
  | div =>
    conv => rhs; rw [← hdt]
    rcases space_cases hc with rfl | rfl | rfl | rfl <;> rfl
  | add =>
    conv => rhs; rw [← hdt]
    rcases space_cases hc with rfl | rfl | rfl | rfl <;> rfl
  | sub =>
    conv => rhs; rw [← hdt]
    rcases space_cases hc with rfl | rfl | rfl | rfl <;> rfl
  | eq =>
    conv => rhs; rw [← hdt]
    rcases space_cases hc with rfl | rfl | rfl | rfl <;> rfl
  | eq2 =>
    conv => rhs; rw [← hdt]
    rcases space_cases hc with rfl | rfl | rfl | rfl <;> rfl
  | ne =>
    conv => rhs; rw [← hdt]
    rcases space_cases hc with rfl | rfl | rfl | rfl <;> rfl
  | lt =>
    conv => rhs; rw [← hdt]
    rcases space_cases hc with rfl | rfl | rfl | rfl <;> rfl
  | le =>
    conv => rhs; rw [← hdt]
    rcases space_cases hc with rfl | rfl | rfl | rfl <;> rfl
  | gt =>
    conv => rhs; rw [← hdt]
    rcases space_cases hc with rfl | rfl | rfl | rfl <;> rfl
  | ge =>
    conv => rhs; rw [← hdt]
    rcases space_cases hc with rfl | rfl | rfl | rfl <;> rfl


/-- what stands after the first word of an expression; `b` allows IN -/
inductive AfterLead (b : Bool) : Str → Prop
  | nil : AfterLead b []
  | call (s : Str) : AfterLead b ('(' :: s)
  | op {j : Nat} {op g s : Str} (h : Op j op) (hg : Blanks g) (ht : g = [] → op ∈ tightOps) : AfterLead b (g ++ (op ++ s))
  | inn {g s : Str} (hb : b = true) (hg : Gap g) : AfterLead b (g ++ s)

/-- how an expression begins -/
inductive Lead (b : Bool) : Str → Prop
  | paren (s : Str) : Lead b ('(' :: s)
  | word {w d t : Str} (hw : LeadWord w) (hd : DotTail d) (ht : AfterLead b t) : Lead b (w ++ (d ++ t))
  | quote {s t : Str} (hs : QuotedBody s) (hne : s ≠ []) (ht : AfterLead b t) : Lead b ('"' :: (s ++ '"' :: t))

theorem AfterLead.more {b : Bool} {t u : Str} (h : AfterLead b t) (ht : t ≠ []) : AfterLead b (t ++ u) := by
  cases h with
  | nil => exact absurd rfl ht
  | call s => exact .call _
  | op h hg ht' => simp only [List.append_assoc]; exact .op h hg ht'
  | inn hb hg => simp only [List.append_assoc]; exact .inn hb hg

theorem AfterLead.step {b : Bool} {t u : Str} (h : AfterLead b t) (hu : AfterLead b u) : AfterLead b (t ++ u) := by
  by_cases ht : t = []
  · subst ht; exact hu
  · exact h.more ht

theorem Lead.more {b : Bool} {s u : Str} (h : Lead b s) (hu : AfterLead b u) : Lead b (s ++ u) := by
  cases h with
  | paren s => exact .paren _
  | word hw hd ht =>
    simp only [List.append_assoc]
    exact .word hw hd (ht.step hu)
  | quote hs hne ht =>
    simp only [List.cons_append, List.append_assoc]
    exact .quote hs hne (ht.step hu)

theorem lower_all {w s : Str} {f : Char → Prop} (h : lower w = s) (hf : ∀ c, lowerC c ∈ s → f c) : ∀ c ∈ w, f c := by
  intro c hc
  exact hf c (by rw [← h]; exact List.mem_map_of_mem hc)

theorem letter_token {c : Char} (h : isLetter c = true) : isTokenChar c = true := by
  have : isAlnum c = true := by
    simp only [isLetter, Bool.or_eq_true, Bool.and_eq_true, decide_eq_true_eq] at h
    unfold isAlnum
    rcases h with h | h <;> simp [h]
  simp [isTokenChar, this]

/-- a keyword in any case is a word -/
theorem keyword_lead {k : Str} {x : Char} {xs : Str} (h : lower k = x :: xs) (hl : ∀ c ∈ x :: xs, isLetter c = true)
    (hr : ¬ Reserved (x :: xs)) : LeadWord k := by
  refine ⟨fun e => by rw [e] at h; simp [lower] at h, lower_all h fun c hc => letter_token (lowerC_letter (hl _ hc)), ?_⟩
  unfold Reserved at hr ⊢
  rw [← upper_lower, h]; exact hr

theorem term_lead {k : Str} (h : lower k = c!"term") : LeadWord k := keyword_lead h (by decide) (by decide)

theorem op_gt {j : Nat} {op : Str} (h : Op j op) : 2 < j := by cases h <;> decide

theorem value_Lead {b : Bool} {v : Constant} {t : Str} (h : OptValue v t) : Lead b t := by
  rcases value_lead h with ⟨w, d, rfl, hw, hd⟩ | ⟨s, rfl, hs, hne⟩
  · have := Lead.word (b := b) hw hd .nil
    simpa using this
  · exact .quote hs hne .nil

theorem written_lead {b : Bool} {k : Nat} {e : Expr} {s : Str} (h : Written k e s) : k ≤ 6 → (b = false → k ≤ 5) → Lead b s := by
  induction h using Written.rec (motive_2 := fun _ _ _ => True) with
  | value h => intro _ _; exact value_Lead h
  | parens _ _ _ _ => intro _ _; exact .paren _
  | @apply f es g₁ g₂ s h _ _ _ _ _ =>
    intro _ _
    have := Lead.word (b := b) (name_lead h) .nil (.call (g₁ ++ (s ++ (g₂ ++ c!")"))))
    simpa using this
  | @term k t h _ _ =>
    intro _ _
    have := Lead.word (b := b) (term_lead h) .nil (.call (t ++ c!")"))
    simpa using this
  | up _ _ ih => intro hk hb; exact ih (by omega) (fun e => by have := hb e; omega)
  | @isIn f g₁ k g₂ g₃ g₄ s vs hf hg hk _ _ _ _ =>
    intro _ hb
    obtain ⟨w, d, rfl, h', hd⟩ := fieldText_parts hf
    have hb' : b = true := by
      cases b with
      | false => have := hb rfl; omega
      | true => rfl
    have := Lead.word (b := b) (name_lead h'.name) hd (.inn (s := k ++ (g₂ ++ '(' :: (g₃ ++ (s ++ (g₄ ++ c!")"))))) hb' hg)
    simpa using this
  | not => intro hk; omega
  | notParen => intro hk; omega
  | @op k l r op g₁ g₂ s₁ s₂ ho h1 h2 ht _ _ ih _ =>
    intro hk hb
    have := (ih (by omega) (fun e => by omega)).more (.op (s := g₂ ++ s₂) ho h1 (fun e => by
      rcases ht with h | h
      · exact h
      · exact absurd e h.1))
    simpa using this
  | nil => trivial
  | one => trivial
  | more => trivial

/-! ### Alternatives that do not apply -/

theorem Follow.after {k : Nat} {u : Str} (h : Follow k u) : After u :=
  ⟨h.letter, h.token, h.head (by decide)⟩

theorem gap_after {g u : Str} (hg : Gap g) : After (g ++ u) := by
  obtain ⟨c, t, rfl, hc⟩ := gap_head hg
  simp only [List.cons_append]
  exact ⟨Stops.cons (space_all (f := fun c => isLetter c = false) (by decide) hc),
    Stops.cons (space_all (f := fun c => tokenCont c = false) (by decide) hc),
    Stops.cons (space_all (f := fun c => (c == '.') = false) (by decide) hc)⟩

theorem AfterLead.after {b : Bool} {k : Nat} {t rest : Str} (h : AfterLead b t) (hr : Follow k rest) : After (t ++ rest) := by
  cases h with
  | nil => exact hr.after
  | call s => exact ⟨Stops.cons (by decide), Stops.cons (by decide), Stops.cons (by decide)⟩
  | @op j op g s h hg ht =>
    have := Follow.op (k := 0) (s := s ++ rest) h hg ht (by cases h <;> decide)
    have := this.after
    simpa using this
  | inn _ hg => rw [List.append_assoc]; exact gap_after hg

/-- no list of values in parentheses after IN -/
def NoIn (u : Str) : Prop := ∀ r m, (ws (tagi! "IN") : L true Str).run () u = some (r, m) → ∀ c s, r = c :: s → c ≠ '('

theorem NoIn.none {u : Str} (h : (ws (tagi! "IN") : L true Str).run () u = none) : NoIn u := fun r m e => by rw [h] at e; simp at e

theorem noIn_op {j : Nat} {op g s : Str} (h : Op j op) (hg : Blanks g) : NoIn (g ++ (op ++ s)) := by
  apply NoIn.none
  rw [run_ws, drop_blanks hg (op_stops h s)]
  have : ∃ c u, op = c :: u ∧ lowerC 'I' ≠ lowerC c := by
    cases h with
    | or h => obtain ⟨c, u, rfl, hc, _⟩ := lower_cons h; exact ⟨c, u, rfl, by rw [hc]; decide⟩
    | and h => obtain ⟨c, u, rfl, hc, _⟩ := lower_cons h; exact ⟨c, u, rfl, by rw [hc]; decide⟩
    | _ => exact ⟨_, _, rfl, by decide⟩
  obtain ⟨c, u, rfl, hc⟩ := this
  rw [List.cons_append, tagi_ne hc]; rfl

theorem Follow.noIn {k : Nat} {u : Str} (h : Follow k u) : NoIn u := by
  cases h with
  | nil => exact .none rfl
  | close s hc =>
    simp only [List.mem_cons, List.not_mem_nil, or_false] at hc
    rcases hc with rfl | rfl | rfl | rfl <;> exact .none rfl
  | @gap g u hg hu =>
    intro r m e c s er
    rw [run_ws, drop_gap hg hu.space] at e
    rw [run_tagi] at e
    cases hs : stripPrefixCI? c!"IN" u with
    | none => rw [hs] at e; simp at e
    | some x =>
      obtain ⟨h1, h2, h3⟩ := stripPrefixCI?_spec (m := x.1) (r := x.2) hs
      rw [hs] at e
      simp only [Option.map_some, Option.some.injEq, Prod.mk.injEq] at e
      have hl : x.1.length = 2 := by
        have := congrArg List.length h3
        simpa [lower] using this
      have ht : u.take 2 = x.1 := by rw [h1, ← hl, List.take_left']; rfl
      have hd : u.drop 2 = x.2 := by rw [h1, ← hl, List.drop_left']; rfl
      have := hu.noIn (by rw [ht, h3]; decide) s
      rintro rfl
      apply this
      rw [hd, ← er]; exact e.1
  | op h hg _ _ => exact noIn_op h hg

theorem in_none {k : Nat} {t rest : Str} (h : AfterLead false t) (hr : Follow k rest) : NoIn (t ++ rest) := by
  cases h with
  | nil => exact hr.noIn
  | call s => exact .none rfl
  | op h hg _ => rw [List.append_assoc, List.append_assoc]; exact noIn_op h hg
  | inn hb => simp at hb

theorem tokenNotTF_word {w u : Str} (hw : LeadWord w) (hu : Stops tokenCont u) (h : w = c!"t" ∨ w = c!"f") :
    field.run () (w ++ u) = none := by
  have ht := run_token hw.ne hw.token hu hw.res
  have h1 : tokenNotTF.run () (w ++ u) = none := by
    rw [tokenNotTF, run_verify, ht]
    rcases h with rfl | rfl <;> rfl
  have h2 := doubleQuoted_none (lead_ne hw (u := u) (q := '"') (by decide))
  have h3 := singleQuoted_none (lead_ne hw (u := u) (q := '\'') (by decide))
  rw [field, run_alt, fieldFmt, run_recognize, run_sepList1, run_alt, h1, h2, h3]
  rfl

theorem token_quote {s : Str} : token.run () ('"' :: s) = none := rfl

/-- A quoted text read as a field. -/
theorem field_quote {s u : Str} (hs : QuotedBody s) (hne : s ≠ []) (hu : After u) :
    field.run () ('"' :: (s ++ '"' :: u)) = some (u, '"' :: (s ++ c!"\"")) := by
  have h2 := run_doubleQuoted hs hne u
  have h1 : tokenNotTF.run () ('"' :: (s ++ '"' :: u)) = none := by rw [tokenNotTF, run_verify, token_quote]; rfl
  have htag : (tag! "." : L true Str).run () u = none :=
    tag_none fun c s e => by have := hu.dot c s e; simpa using this
  have h3 : fieldFmt.run () ('"' :: (s ++ '"' :: u)) = some (u, '"' :: (s ++ c!"\"")) := by
    rw [fieldFmt, recognize_some]
    refine ⟨?_, by simp⟩
    rw [run_sepList1, run_alt, h1, Option.none_or, h2]
    have : sepLoop ((tag! "." : L true Str).run ()) ((tokenNotTF <||> doubleQuoted : L true Str).run ()) u.length u = (u, []) := by
      cases u with
      | nil => rfl
      | cons c t => simp only [List.length_cons, sepLoop, htag]
    exact ⟨_, by rw [Option.map_some, this]⟩
  rw [field, run_alt, h3]; rfl

theorem fieldIn_none {s rest : Str} {k : Nat} (hs : Lead false s) (hr : Follow k rest) :
    fieldIn.run () (s ++ rest) = none := by
  have key : ∀ {x u f : Str}, field.run () x = some (u, f) → NoIn u → fieldIn.run () x = none := by
    intro x u f h1 h2
    rw [fieldIn, run_sepPair, h1, Option.bind_some]
    cases h : (ws (tagi! "IN") : L true Str).run () u with
    | none => rfl
    | some y =>
      obtain ⟨r, m⟩ := y
      rw [Option.bind_some]
      show (((parenthesized (commaOrSpaceList0 constant) : L true (List Constant)).run () r).map _) = none
      rw [parenthesized, run_recast, run_delim, run_wsRight, tag_none (h2 r m h)]; rfl
  cases hs with
  | paren s => rfl
  | @word w d t hw hd ht =>
    rw [List.append_assoc, List.append_assoc]
    have hu := ht.after hr
    by_cases hc : w = c!"t" ∨ w = c!"f"
    · rw [fieldIn, run_sepPair, tokenNotTF_word hw (hd.token hu) hc]; rfl
    · exact key (run_field_dots hw (fun e => hc (.inl e)) (fun e => hc (.inr e)) hd hu) (in_none ht hr)
  | @quote s t hs hne ht =>
    rw [List.cons_append, List.append_assoc]
    exact key (field_quote hs hne (ht.after hr)) (in_none ht hr)

/-- the alternatives of `expr7` that begin with NOT -/
def notAlt : G true (Str × Expr) :=
  sepPair (tagi! "NOT") ms1 (callE .e7) <||> seq (ws (tagi! "NOT")) (parenthesized (callE .e9w))

/-- no word but NOT itself is taken for NOT: what follows the letters is a further letter of the word -/
theorem notTag_word {w U : Str} (hw : LeadWord w) (hu : Stops isLetter U) : (tagi! "NOT" : G true Str).run fix (w ++ U) = none ∨
    ∃ m x xs, (tagi! "NOT" : G true Str).run fix (w ++ U) = some (x :: xs, m) ∧ isTokenChar x = true := by
  rw [run_tagi]
  cases h : stripPrefixCI? c!"NOT" (w ++ U) with
  | none => exact .inl rfl
  | some y =>
    right
    obtain ⟨m, r⟩ := y
    obtain ⟨w', e1, e2, e3⟩ := ci_word (by decide) hu h
    cases w' with
    | nil =>
      exfalso
      rw [List.append_nil] at e1
      apply hw.notReserved
      unfold Reserved
      rw [e1, ← upper_lower, e3]
      decide
    | cons x xs => exact ⟨m, x, xs ++ U, by rw [e2]; rfl, hw.token x (by simp [e1])⟩

theorem notAlt_none {b : Bool} {s rest : Str} {k : Nat} (hs : Lead b s) (hr : Follow k rest) : notAlt.run fix (s ++ rest) = none := by
  cases hs with
  | paren s => rfl
  | quote => rfl
  | @word w d t hw hdt ht =>
    rw [List.append_assoc, List.append_assoc]
    have hu := hdt.letter (ht.after hr)
    generalize hU : d ++ (t ++ rest) = U at hu
    have hd : (w ++ U).dropWhile isSpace = w ++ U := drop_stops (lead_stops hw)
    rw [notAlt, run_alt, run_sepPair, run_seq, run_ws, hd]
    rcases notTag_word hw hu with hn | ⟨m, x, xs, hn, hx⟩
    · rw [hn]; rfl
    · have hms : (ms1 : G true Str).run fix (x :: xs) = none := by rw [run_ms1]; simp [tokenChar_space hx]
      have hdx : (x :: xs).dropWhile isSpace = x :: xs := by
        rw [List.dropWhile_cons_of_neg]; rw [tokenChar_space hx]; simp
      have hpar : (parenthesized (callE .e9w)).run fix (x :: xs) = none := by
        rw [parenthesized, run_recast, run_delim, run_wsRight, tag_ne (tokenChar_ne hx (by decide))]; rfl
      rw [hn, Option.bind_some, hms, Option.bind_none, Option.none_or, Option.map_some, Option.bind_some, hdx, hpar]; rfl

/-! ### Operands -/

theorem parenthesized_none {g c : Bool} {α : Type} {R : Type} [Env R] {ρ : R} (p : P R g c α) {s : Str}
    (h : ∀ c t, s = c :: t → c ≠ '(') : (parenthesized p).run ρ s = none := by
  rw [parenthesized, run_recast, run_delim, run_wsRight, tag_none h]; rfl

/-- Text between parentheses, with blanks inside them. -/
theorem parenthesized_read {g c : Bool} {α : Type} {R : Type} [Env R] {ρ : R} {p : P R g c α} {g₁ u v rest : Str} {a : α}
    (hg : Blanks g₁) (hs : Stops isSpace u) (h : p.run ρ u = some (v, a)) (hv : v.dropWhile isSpace = ')' :: rest) :
    (parenthesized p).run ρ ('(' :: (g₁ ++ u)) = some (rest, a) := by
  rw [parenthesized, run_recast, run_delim, run_wsRight, tag_same, Option.map_some, Option.bind_some, drop_blanks hg hs, h,
    Option.bind_some, run_wsLeft, hv, tag_same]
  rfl

theorem close_drop {g rest : Str} (hg : Blanks g) : (g ++ ')' :: rest).dropWhile isSpace = ')' :: rest :=
  drop_blanks hg (Stops.cons (by decide))

theorem blanks_append {g₁ g₂ : Str} (h1 : Blanks g₁) (h2 : Blanks g₂) : Blanks (g₁ ++ g₂) := by
  rcases h1 with rfl | h1
  · exact h2
  · refine .inr ⟨by simp [h1.ne], fun c hc => ?_⟩
    rcases List.mem_append.1 hc with hc | hc
    · exact h1.blank c hc
    · rcases h2 with rfl | h2
      · simp at hc
      · exact h2.blank c hc

/-- A list of constants between parentheses. -/
theorem values_paren {vs : List Constant} {s g₁ g₂ rest : Str} (h : ValueList vs s) (h1 : Blanks g₁) (h2 : Blanks g₂) :
    (parenthesized (commaOrSpaceList0 constant) : L true (List Constant)).run () ('(' :: (g₁ ++ (s ++ (g₂ ++ ')' :: rest)))) =
      some (rest, vs) := by
  cases h with
  | nil =>
    have : (')' :: rest).dropWhile isSpace = ')' :: rest := drop_stops (Stops.cons (by decide))
    rw [parenthesized, run_recast, run_delim, run_wsRight, tag_same, Option.map_some, Option.bind_some, List.nil_append,
      dropWhile_append_of_blank (blanks_space h1), close_drop h2, run_commaOrSpaceList0, constant_close]
    simp only [Option.bind_some, run_wsLeft, this]
    rw [tag_same]; rfl
  | one h =>
    refine parenthesized_read h1 (value_stops h).2 ?_ (close_drop h2)
    rcases values_read (rest := rest) (.one h) h2 with h | h
    · exact h
    · simp at h
  | @cons v v' vs t g s h hg hl =>
    refine parenthesized_read h1 ?_ ?_ (close_drop h2)
    · rw [List.append_assoc]; exact (value_stops h).2
    · rcases values_read (rest := rest) (.cons h hg hl) h2 with h | h
      · exact h
      · simp at h

theorem termCall_none {w u : Str} (hw : LeadWord w) (hu : Stops isLetter u)
    (h : lower w ≠ c!"term" ∨ ∀ c t, u = c :: t → c ≠ '(') : termCall.run () (w ++ u) = none := by
  rw [termCall, run_pre, run_tagi]
  cases hs : stripPrefixCI? c!"TERM" (w ++ u) with
  | none => rfl
  | some y =>
    obtain ⟨m, r⟩ := y
    obtain ⟨w', e1, e2, e3⟩ := ci_word (by decide) hu hs
    rw [Option.map_some, Option.bind_some]
    apply parenthesized_none
    show ∀ c t, r = c :: t → c ≠ '('
    rw [e2]
    cases w' with
    | nil =>
      rcases h with h | h
      · exfalso; apply h; rw [e1, List.append_nil, e3]; decide
      · exact h
    | cons x xs =>
      intro c t e
      simp only [List.cons_append, List.cons.injEq] at e
      rw [← e.1]
      exact tokenChar_ne (hw.token x (by simp [e1])) (by decide)

/-- A constant, followed by something else than an opening parenthesis. -/
theorem expr2_const {v : Constant} {t rest : Str} (hk : constant.run () (t ++ rest) = some (rest, v))
    (h1 : ∀ c s, t ++ rest = c :: s → c ≠ '(') (h2 : termCall.run () (t ++ rest) = none)
    (h3 : callP.run fix (t ++ rest) = none) : expr2.run fix (t ++ rest) = some (rest, .const v) := by
  rw [expr2, run_alt, run_alt, run_alt, run_alt, parenthesized_none _ h1, run_map, run_lift, h2, callExpr, run_map, h3, run_map,
    run_lift, hk]
  rfl

/-- a constant that is a word, possibly with further words after dots -/
theorem expr2_word {v : Constant} {w d rest : Str} (hk : constant.run () (w ++ d ++ rest) = some (rest, v)) (hw : LeadWord w)
    (hd : DotTail d) (ha : After rest) (hp : ∀ c t, rest = c :: t → c ≠ '(') :
    expr2.run fix (w ++ d ++ rest) = some (rest, .const v) := by
  have hp' : ∀ c t, d ++ rest = c :: t → c ≠ '(' := by
    cases hd with
    | nil => exact hp
    | dot => intro c t e; simp only [List.cons_append, List.cons.injEq] at e; rw [← e.1]; decide
  refine expr2_const hk ?_ ?_ ?_ <;> rw [List.append_assoc]
  · exact lead_ne hw (by decide)
  · exact termCall_none hw (hd.letter ha) (.inr hp')
  · rw [callP, run_seq, run_lift, run_token hw.ne hw.token (hd.token ha) hw.res, Option.bind_some, parenthesized_none _ hp']
    rfl

theorem expr2_value {v : Constant} {t rest : Str} (h : OptValue v t) (ha : After rest) (hx : Stops isExtraChar rest)
    (hp : ∀ c t, rest = c :: t → c ≠ '(') : expr2.run fix (t ++ rest) = some (rest, .const v) := by
  have hk := value_read h hx
  rcases value_lead h with ⟨w, d, rfl, hw, hd⟩ | ⟨s, rfl, _, _⟩
  · exact expr2_word hk hw hd ha hp
  · exact expr2_const hk (by intro c s e; simp only [List.cons_append, List.cons.injEq] at e; rw [← e.1]; decide) rfl rfl

theorem expr2_paren {g u v rest : Str} {e : Expr} (hg : Blanks g) (hs : Stops isSpace u)
    (h : expr9w.run fix u = some (v, e)) (hv : v.dropWhile isSpace = ')' :: rest) :
    expr2.run fix ('(' :: (g ++ u)) = some (rest, e) := by
  have : (callE .e9w).run fix u = some (v, e) := (fix_eq .e9w _).trans h
  rw [expr2, run_alt, parenthesized_read hg hs this hv]
  rfl

theorem callP_read {f g u v rest : Str} {es : List Expr} (hf : IsName f) (hg : Blanks g)
    (hs : Stops isSpace u) (h : (commaList0 (callE .e9n)).run fix u = some (v, es)) (hv : v.dropWhile isSpace = ')' :: rest) :
    callP.run fix (f ++ '(' :: (g ++ u)) = some (rest, f, es) := by
  have hw := name_lead hf
  rw [callP, run_seq, run_lift, run_token hw.ne hw.token (Stops.cons (by decide)) hw.res, Option.bind_some,
    parenthesized_read hg hs h hv]
  rfl

theorem expr2_call {f u rest : Str} {es : List Expr} (hf : IsName f) (ht : lower f ≠ c!"term")
    (h2 : callP.run fix (f ++ '(' :: u) = some (rest, f, es)) : expr2.run fix (f ++ '(' :: u) = some (rest, .call f es) := by
  have hw := name_lead hf
  rw [expr2, run_alt, run_alt, run_alt, parenthesized_none _ (lead_ne hw (by decide)), run_map, run_lift,
    termCall_none hw (Stops.cons (by decide)) (.inl ht), callExpr, run_map, h2]
  rfl

theorem termCall_read {k t rest : Str} (hk : lower k = c!"term") (ht : ')' ∉ t)
    (hh : ∀ c u, t = c :: u → c ∉ [' ', '\t', '\r', '\n']) : termCall.run () (k ++ '(' :: (t ++ ')' :: rest)) = some (rest, t) := by
  have hs : Stops isSpace (t ++ ')' :: rest) := by
    cases t with
    | nil => exact Stops.cons (by decide)
    | cons c t =>
      refine Stops.cons ?_
      cases hs : isSpace c with
      | false => rfl
      | true => exact absurd (by rcases space_cases hs with h | h | h | h <;> simp [h]) (hh c t rfl)
  have htw : (takeWhile0 (fun x => x != ')') : L false Str).run () (t ++ ')' :: rest) = some (')' :: rest, t) := by
    show some (_, _) = _
    have h1 : ∀ c ∈ t, (c != ')') = true := fun c hc => by simpa using fun e => ht (by rw [← e]; exact hc)
    rw [List.dropWhile_append_of_pos h1, List.takeWhile_append_of_pos h1]
    simp
  rw [termCall, run_pre, tagi_read (by rw [hk]; decide), Option.bind_some]
  exact parenthesized_read (g₁ := []) (.inl rfl) hs htw (drop_stops (Stops.cons (by decide)))

theorem expr2_term {k t rest : Str} (hk : lower k = c!"term") (ht : ')' ∉ t)
    (hh : ∀ c u, t = c :: u → c ∉ [' ', '\t', '\r', '\n']) :
    expr2.run fix (k ++ '(' :: (t ++ ')' :: rest)) = some (rest, .call c!"TERM" [.const (.field t)]) := by
  rw [expr2, run_alt, run_alt, parenthesized_none _ (lead_ne (term_lead hk) (by decide)), run_map, run_lift, termCall_read hk ht hh]
  rfl

/-! ### Levels -/

theorem binLevel_stop {lower : G true Expr} {op : G true Str} {same : P Rec false false Expr} {i r : Str} {e : Expr}
    (h1 : lower.run fix i = some (r, e)) (h2 : op.run fix r = none) : (binLevel lower op same).run fix i = some (r, e) := by
  rw [binLevel, run_map, run_seq, h1, Option.bind_some, run_opt, run_seq, h2]
  rfl

theorem binLevel_step {lower : G true Expr} {op : G true Str} {same : P Rec false false Expr} {i r r1 r2 o : Str}
    {l e : Expr} (h1 : lower.run fix i = some (r, l)) (h2 : op.run fix r = some (r1, o))
    (h3 : same.run fix r1 = some (r2, e)) : (binLevel lower op same).run fix i = some (r2, .binary l o e) := by
  rw [binLevel, run_map, run_seq, h1, Option.bind_some, run_opt, run_seq, h2, Option.bind_some, h3]
  rfl

/-- the parser of a level -/
def levelP : Nat → G true Expr
  | 2 => expr2
  | 3 => expr3
  | 4 => expr4
  | 5 => expr5
  | 6 => expr6
  | 7 => expr7
  | 8 => expr8
  | _ => expr9n

/-- the recursive call of a level -/
def levelC : Nat → P Rec false false Expr
  | 3 => callE .e3
  | 4 => callE .e4
  | 5 => callE .e5
  | 6 => callE .e6
  | 8 => callE .e8
  | _ => callE .e9n

theorem levelC_eq {k : Nat} {op : Str} (h : Op k op) (i : Str) : (levelC k).run fix i = (levelP k).run fix i := by
  cases h <;> first
    | exact fix_eq .e3 i
    | exact fix_eq .e4 i
    | exact fix_eq .e5 i
    | exact fix_eq .e6 i
    | exact fix_eq .e8 i
    | exact fix_eq .e9n i

theorem op_le {k : Nat} {op : Str} (h : Op k op) : k ≤ 9 := by cases h <;> decide

theorem expr7_up {i r : Str} {e : Expr} (h : notAlt.run fix i = none) (h6 : expr6.run fix i = some (r, e)) :
    expr7.run fix i = some (r, e) := by
  have : expr7 = (P.map (fun x => Expr.unary x.1 x.2) notAlt <||> expr6) := rfl
  rw [this, run_alt, run_map, h, h6]; rfl

theorem written_two_le {k : Nat} {e : Expr} {s : Str} (h : Written k e s) : 2 ≤ k := by
  induction h using Written.rec (motive_2 := fun _ _ _ => True) <;> first | trivial | omega

/-- the first character of an expression -/
theorem Lead.head {b : Bool} {s : Str} (h : Lead b s) : ∃ c t, s = c :: t ∧ (isTokenChar c = true ∨ c = '(' ∨ c = '"') := by
  cases h with
  | paren s => exact ⟨_, _, rfl, .inr (.inl rfl)⟩
  | quote => exact ⟨_, _, rfl, .inr (.inr rfl)⟩
  | word hw _ _ =>
    obtain ⟨c, t, rfl, hc⟩ := hw.head
    exact ⟨c, _, rfl, .inl hc⟩

theorem written_head {k : Nat} {e : Expr} {s : Str} (h : Written k e s) :
    ∃ c t, s = c :: t ∧ (isTokenChar c = true ∨ c = '(' ∨ c = '"') := by
  have hnot : ∀ {n u : Str}, lower n = c!"not" → ∃ c t, n ++ u = c :: t ∧ (isTokenChar c = true ∨ c = '(' ∨ c = '"') := by
    intro n u h
    obtain ⟨c, t, rfl, hc, _⟩ := lower_cons h
    exact ⟨c, _, rfl, .inl (letter_token (lowerC_letter (by rw [hc]; decide)))⟩
  induction h using Written.rec (motive_2 := fun es s _ => True) with
  | value h => exact (value_Lead (b := true) h).head
  | parens => exact ⟨_, _, rfl, .inr (.inl rfl)⟩
  | apply h a b c d _ => exact (written_lead (b := true) (.apply h a b c d) (by decide) (by decide)).head
  | term h a b => exact (written_lead (b := true) (.term h a b) (by decide) (by decide)).head
  | up _ _ ih => exact ih
  | isIn a b c d e f g => exact (written_lead (b := true) (.isIn a b c d e f g) (by decide) (by decide)).head
  | not h _ _ _ => rw [List.append_assoc]; exact hnot h
  | notParen h _ _ _ _ => exact hnot h
  | op _ _ _ _ _ _ ih _ =>
    obtain ⟨c, t, rfl, hc⟩ := ih
    exact ⟨c, _, rfl, hc⟩
  | nil => trivial
  | one => trivial
  | more => trivial

theorem written_ne {k : Nat} {e : Expr} {s : Str} (h : Written k e s) {q : Char} (hq : isTokenChar q = false ∧ q ≠ '(' ∧ q ≠ '"') {u : Str} :
    ∀ c t, s ++ u = c :: t → c ≠ q := by
  obtain ⟨x, t, rfl, hx⟩ := written_head h
  intro c t' e
  simp only [List.cons_append, List.cons.injEq] at e
  rw [← e.1]
  rcases hx with hx | rfl | rfl
  · exact tokenChar_ne hx hq.1
  · exact fun e => hq.2.1 e.symm
  · exact fun e => hq.2.2 e.symm

theorem written_stops {k : Nat} {e : Expr} {s : Str} (h : Written k e s) : s ≠ [] ∧ Stops isSpace s := by
  obtain ⟨c, t, rfl, hc⟩ := written_head h
  refine ⟨by simp, Stops.cons ?_⟩
  rcases hc with hc | rfl | rfl
  · exact tokenChar_space hc
  · decide
  · decide

theorem args_stops {es : List Expr} {s u : Str} (h : WrittenArgs es s) (hu : Stops isSpace u) : Stops isSpace (s ++ u) := by
  cases h with
  | nil => exact hu
  | one h => have := written_stops h; exact stops_append this.2 this.1
  | more h _ _ _ => have := written_stops h; rw [List.append_assoc]; exact stops_append this.2 this.1

theorem args_comma {e : Expr} {es : List Expr} {s u : Str} (h : WrittenArgs (e :: es) s) : s ≠ [] ∧ Stops isSpace (s ++ u) := by
  cases h with
  | one h => have := written_stops h; exact ⟨this.1, stops_append this.2 this.1⟩
  | more h _ _ _ => have := written_stops h; rw [List.append_assoc]; exact ⟨by simp [this.1], stops_append this.2 this.1⟩

/-- what the main theorem says about one expression -/
def Good (k : Nat) (e : Expr) (s : Str) : Prop :=
  ∀ rest, Follow k rest → (levelP k).run fix (s ++ rest) = some (rest, e) ∧
    (k = 9 → (Stops isSpace rest ∨ ∃ u, rest.dropWhile isSpace = ')' :: u) → expr9w.run fix (s ++ rest) = some (rest, e))

theorem expr9n_close (rest : Str) : expr9n.run fix (')' :: rest) = none := rfl

theorem and9w {i : Str} : (ws andPattern <||> P.map (fun _ => c!"AND") ms1 : G true Str).run fix i =
    ((opAt 9).run fix i).or (((ms1 : G true Str).run fix i).map fun x => (x.1, c!"AND")) := by
  rw [run_alt, run_map]; rfl

/-- what the arguments of a call satisfy -/
def GoodArgs (es : List Expr) (s : Str) : Prop :=
  ∀ g rest, Blanks g → (commaList0 (callE .e9n)).run fix (s ++ (g ++ ')' :: rest)) = some (g ++ ')' :: rest, es) ∨ s = [] ∧ es = []

def GoodLoop (es : List Expr) (s : Str) : Prop :=
  ∀ g rest, Blanks g → ∀ e es', es = e :: es' → ∃ u, (callE .e9n).run fix (s ++ (g ++ ')' :: rest)) = some (u, e) ∧
      ∀ n, u.length ≤ n → sepLoop ((commaSep : G true Str).run fix) ((callE .e9n).run fix) n u = (g ++ ')' :: rest, es')

theorem run_commaList0 {g c : Bool} {α : Type} (p : P Rec g c α) (i : Str) : (commaList0 p).run fix i =
    some (match p.run fix i with
      | none => (i, [])
      | some (r, a) => ((sepLoop ((commaSep : G true Str).run fix) (p.run fix) r.length r).1,
          a :: (sepLoop ((commaSep : G true Str).run fix) (p.run fix) r.length r).2)) := by
  rw [commaList0, run_recast, run_sepList0]
  cases p.run fix i <;> rfl

theorem goodArgs_of {es : List Expr} {s : Str} (ha : WrittenArgs es s) (h : GoodLoop es s) : GoodArgs es s := by
  intro g rest hg
  cases hes : es with
  | nil =>
    subst hes
    cases ha
    exact .inr ⟨rfl, rfl⟩
  | cons e es' =>
    left
    obtain ⟨u, h1, h2⟩ := h g rest hg e es' hes
    rw [run_commaList0, h1]
    simp only [h2 _ (Nat.le_refl _)]

theorem comma_read {R : Type} [Env R] {ρ : R} {g₁ g₂ u : Str} (h1 : Blanks g₁) (h2 : Blanks g₂) (hu : Stops isSpace u) :
    (commaSep : P R true true Str).run ρ (g₁ ++ ',' :: (g₂ ++ u)) = some (u, c!",") := by
  rw [commaSep, run_ws, drop_blanks h1 (Stops.cons (by decide)), tag_same, Option.map_some, drop_blanks h2 hu]

theorem goodLoop_nil : GoodLoop [] [] := by intro g rest hg e es' h; simp at h

theorem goodLoop_one {e : Expr} {s : Str} (ih : Good 9 e s) : GoodLoop [e] s := by
  intro g rest hg e' es' heq
  simp only [List.cons.injEq] at heq
  obtain ⟨rfl, rfl⟩ := heq
  refine ⟨g ++ ')' :: rest, (fix_eq .e9n _).trans (ih _ (.blanks_close hg (by decide))).1, ?_⟩
  intro n hn
  cases n with
  | zero => simp at hn
  | succ n =>
    have : (commaSep : G true Str).run fix (g ++ ')' :: rest) = none := by
      rw [commaSep, run_ws, close_drop hg, tag_ne (by decide)]; rfl
    rw [sepLoop, this]

theorem goodLoop_more {e e' : Expr} {es : List Expr} {g₁ g₂ s t : Str} (ha : WrittenArgs (e' :: es) t) (h1 : Blanks g₁) (h2 : Blanks g₂)
    (ih : Good 9 e s) (iha : GoodLoop (e' :: es) t) : GoodLoop (e :: e' :: es) (s ++ (g₁ ++ ',' :: (g₂ ++ t))) := by
  intro g rest hg e0 es0 heq
  simp only [List.cons.injEq] at heq
  obtain ⟨rfl, rfl⟩ := heq
  obtain ⟨u, hu1, hu2⟩ := iha g rest hg e' es rfl
  refine ⟨g₁ ++ ',' :: (g₂ ++ (t ++ (g ++ ')' :: rest))), ?_, ?_⟩
  · have := (ih _ (.blanks_close h1 (c := ',') (s := g₂ ++ (t ++ (g ++ ')' :: rest))) (by decide))).1
    have e1 : s ++ (g₁ ++ ',' :: (g₂ ++ t)) ++ (g ++ ')' :: rest) = s ++ (g₁ ++ ',' :: (g₂ ++ (t ++ (g ++ ')' :: rest)))) := by simp
    rw [e1]
    exact (fix_eq .e9n _).trans this
  · intro n hn
    cases n with
    | zero => simp at hn
    | succ n =>
      have hu : u.length ≤ n := by
        have := ((callE .e9n).suf _ _ _ _ hu1).length_le
        simp at hn this
        omega
      rw [sepLoop, comma_read h1 h2 (args_comma ha).2]
      simp only [hu1, hu2 n hu]

theorem callP_args {f : Str} {es : List Expr} {g₁ g₂ s rest : Str} (hf : IsName f) (h1 : Blanks g₁) (h2 : Blanks g₂) (ha : WrittenArgs es s)
    (ih : GoodLoop es s) : callP.run fix (f ++ '(' :: (g₁ ++ (s ++ (g₂ ++ ')' :: rest)))) = some (rest, f, es) := by
  have nilcase : callP.run fix (f ++ '(' :: (g₁ ++ ([] ++ (g₂ ++ ')' :: rest)))) = some (rest, f, []) := by
    have hz : (commaList0 (callE .e9n)).run fix (')' :: rest) = some (')' :: rest, []) := by
      have : (callE .e9n).run fix (')' :: rest) = none := (fix_eq .e9n (')' :: rest)).trans (expr9n_close rest)
      rw [run_commaList0, this]
    have := callP_read (g := g₁ ++ g₂) (u := ')' :: rest) (rest := rest) hf (blanks_append h1 h2) (Stops.cons (by decide)) hz
      (drop_stops (Stops.cons (by decide)))
    simpa using this
  rcases goodArgs_of ha ih g₂ rest h2 with h | ⟨rfl, rfl⟩
  · cases ha with
    | nil => exact nilcase
    | one hw => exact callP_read hf h1 (args_comma (.one hw)).2 h (close_drop h2)
    | more a b c d => exact callP_read hf h1 (args_comma (.more a b c d)).2 h (close_drop h2)
  · exact nilcase

/-- an operand of one level is an operand of the next -/
theorem good_up {k : Nat} {e : Expr} {s : Str} (h2 : 2 ≤ k) (hk : k < 9) (hlead : ∀ b, k ≤ 6 → (b = false → k ≤ 5) → Lead b s)
    (ih : Good k e s) : Good (k + 1) e s := by
  intro rest hr
  have hl := (ih rest (hr.mono (by omega))).1
  have hq : ∀ j, 3 ≤ j → j ≠ 7 → j ≤ k + 1 → (opAt j).run fix rest = none := fun j h3 h7 hj => hr.quiet hj h3 h7
  have hcases : k = 2 ∨ k = 3 ∨ k = 4 ∨ k = 5 ∨ k = 6 ∨ k = 7 ∨ k = 8 := by omega
  rcases hcases with rfl | rfl | rfl | rfl | rfl | rfl | rfl
  · exact ⟨binLevel_stop hl (hq 3 (by omega) (by omega) (by omega)), by intro h; omega⟩
  · exact ⟨binLevel_stop hl (hq 4 (by omega) (by omega) (by omega)), by intro h; omega⟩
  · exact ⟨binLevel_stop hl (hq 5 (by omega) (by omega) (by omega)), by intro h; omega⟩
  · refine ⟨?_, by intro h; omega⟩
    show expr6.run fix (s ++ rest) = _
    rw [expr6, run_alt, fieldInExpr, run_map, run_lift, fieldIn_none (hlead false (by omega) (by omega)) hr, Option.map_none,
      Option.none_or]
    exact binLevel_stop hl (hq 6 (by omega) (by omega) (by omega))
  · exact ⟨expr7_up (notAlt_none (hlead true (by omega) (by simp)) hr) hl, by intro h; omega⟩
  · exact ⟨binLevel_stop hl (hq 8 (by omega) (by omega) (by omega)), by intro h; omega⟩
  · have h9 := hq 9 (by omega) (by omega) (by omega)
    refine ⟨binLevel_stop hl h9, fun _ hc => ?_⟩
    by_cases hsp : Stops isSpace rest
    · refine binLevel_stop (op := ws andPattern <||> P.map (fun _ => c!"AND") ms1) hl ?_
      rw [and9w, h9, Option.none_or]
      cases rest with
      | nil => rfl
      | cons c t => rw [run_ms1]; simp [hsp c t rfl]
    · obtain ⟨u, hu⟩ := hc.resolve_left hsp
      have hl : expr8.run fix (s ++ rest) = some (rest, e) := hl
      rw [expr9w, binLevel, run_map, run_seq, hl, Option.bind_some, run_opt, run_seq, and9w, h9, Option.none_or]
      cases rest with
      | nil => exact absurd (Stops.nil _) hsp
      | cons c t =>
        rw [run_ms1]
        cases hcs : isSpace c with
        | false => exact absurd (Stops.cons hcs) hsp
        | true =>
          rw [List.dropWhile_cons_of_pos hcs] at hu
          have : (callE .e9w).run fix (')' :: u) = none := (fix_eq .e9w (')' :: u)).trans rfl
          simp only [hcs, if_true, Option.map_some, Option.bind_some, hu, this]
          rfl

/-- a field and the values it may have -/
theorem fieldIn_read {f g₁ k g₂ g₃ g₄ s rest : Str} {vs : List Constant} (hf : FieldText f) (hg : Gap g₁) (hk : lower k = c!"in")
    (h2 : Blanks g₂) (h3 : Blanks g₃) (h4 : Blanks g₄) (hv : ValueList vs s) :
    fieldIn.run () (f ++ (g₁ ++ (k ++ (g₂ ++ '(' :: (g₃ ++ (s ++ (g₄ ++ ')' :: rest))))))) = some (rest, f, vs) := by
  have hks : Stops isSpace (k ++ (g₂ ++ '(' :: (g₃ ++ (s ++ (g₄ ++ ')' :: rest))))) := by
    obtain ⟨c, t, rfl, hc, _⟩ := lower_cons hk
    exact Stops.cons (tokenChar_space (letter_token (lowerC_letter (by rw [hc]; decide))))
  rw [fieldIn, run_sepPair, run_fieldText hf (gap_after hg), Option.bind_some, run_ws, drop_gap hg hks,
    tagi_read (by rw [hk]; decide), Option.map_some, Option.bind_some, drop_blanks h2 (Stops.cons (by decide)),
    values_paren hv h3 h4]
  rfl

theorem written_good {k : Nat} {e : Expr} {s : Str} (h : Written k e s) : Good k e s := by
  induction h using Written.rec (motive_2 := fun es s _ => GoodLoop es s) with
  | @value v t h =>
    intro rest hr
    refine ⟨?_, by intro h; omega⟩
    exact expr2_value h hr.after hr.extra (fun c t e => by
      have := hr.head (f := (· == '(')) (by decide) c t e; simpa using this)
  | @parens e g₁ g₂ s h1 h2 hw ih =>
    intro rest hr
    refine ⟨?_, by intro h; omega⟩
    have hs := written_stops hw
    have := (ih (g₂ ++ ')' :: rest) (.blanks_close h2 (by decide))).2 rfl (.inr ⟨rest, close_drop h2⟩)
    have := expr2_paren h1 (stops_append hs.2 hs.1) this (close_drop h2)
    show expr2.run fix _ = _
    simpa using this
  | @apply f es g₁ g₂ s hf ht h1 h2 ha ih =>
    intro rest hr
    refine ⟨?_, by intro h; omega⟩
    show expr2.run fix _ = _
    have := expr2_call hf ht (callP_args (rest := rest) hf h1 h2 ha ih)
    simpa using this
  | @term k t h a b =>
    intro rest hr
    refine ⟨?_, by intro h; omega⟩
    have := expr2_term (rest := rest) h a b
    show expr2.run fix _ = _
    simpa using this
  | @up k e s h hk ih => exact good_up (written_two_le h) hk (fun b => written_lead h) ih
  | @isIn f g₁ k g₂ g₃ g₄ s vs hf hg hk h2 h3 h4 hv =>
    intro rest hr
    refine ⟨?_, by intro h; omega⟩
    show expr6.run fix _ = _
    have e : f ++ (g₁ ++ (k ++ (g₂ ++ '(' :: (g₃ ++ (s ++ (g₄ ++ c!")")))))) ++ rest =
        f ++ (g₁ ++ (k ++ (g₂ ++ '(' :: (g₃ ++ (s ++ (g₄ ++ ')' :: rest)))))) := by simp
    rw [e, expr6, run_alt, fieldInExpr, run_map, run_lift, fieldIn_read hf hg hk h2 h3 h4 hv]
    rfl
  | @not n e g s hn hg h ih =>
    intro rest hr
    refine ⟨?_, by intro h; omega⟩
    have hs := written_stops h
    obtain ⟨c, t, rfl, hc⟩ := gap_head hg
    have hd : (t ++ (s ++ rest)).dropWhile isSpace = s ++ rest :=
      drop_gap_tail (fun x hx => gap_space hg x (by simp [hx])) (stops_append hs.2 hs.1)
    have hms : (ms1 : G true Str).run fix (c :: (t ++ (s ++ rest))) =
        some (s ++ rest, c :: (t ++ (s ++ rest)).takeWhile isSpace) := by
      rw [run_ms1]; simp only [hc, if_true, hd]
    have h7 : (callE .e7).run fix (s ++ rest) = some (rest, e) := (fix_eq .e7 _).trans (ih rest hr).1
    have hne : (sepPair (tagi! "NOT") ms1 (callE .e7) : G true (Str × Expr)).run fix (n ++ (c :: (t ++ (s ++ rest)))) =
        some (rest, n, e) := by
      rw [run_sepPair, tagi_read (by rw [hn]; decide), Option.bind_some, hms, Option.bind_some, h7]
      rfl
    show expr7.run fix _ = _
    have : n ++ c :: t ++ s ++ rest = n ++ (c :: (t ++ (s ++ rest))) := by simp
    rw [this, expr7, run_alt, run_map, run_alt, hne]
    rfl
  | @notParen n e g₁ g₂ s hn h1 h2 h ih =>
    intro rest hr
    refine ⟨?_, by intro h; omega⟩
    have hs := written_stops h
    have h9 := (ih (g₂ ++ ')' :: rest) (.blanks_close h2 (by decide))).2 rfl (.inr ⟨rest, close_drop h2⟩)
    have hpar : (parenthesized (callE .e9w)).run fix ('(' :: (g₁ ++ (s ++ (g₂ ++ ')' :: rest)))) = some (rest, e) :=
      parenthesized_read h1 (stops_append hs.2 hs.1) ((fix_eq .e9w _).trans h9) (close_drop h2)
    have hns : Stops isSpace (n ++ '(' :: (g₁ ++ (s ++ (g₂ ++ ')' :: rest)))) := by
      obtain ⟨c, t, rfl, hc, _⟩ := lower_cons hn
      exact Stops.cons (tokenChar_space (letter_token (lowerC_letter (by rw [hc]; decide))))
    show expr7.run fix _ = _
    have : n ++ '(' :: (g₁ ++ (s ++ (g₂ ++ c!")"))) ++ rest = n ++ '(' :: (g₁ ++ (s ++ (g₂ ++ ')' :: rest))) := by simp
    have h3 : (ms1 : G true Str).run fix ('(' :: (g₁ ++ (s ++ (g₂ ++ ')' :: rest)))) = none := rfl
    rw [this, expr7, run_alt, run_map, run_alt, run_sepPair, tagi_read (by rw [hn]; decide), Option.bind_some, h3, Option.bind_none,
      Option.none_or, run_seq, run_ws, drop_stops hns, tagi_read (by rw [hn]; decide), Option.map_some, Option.bind_some,
      drop_stops (Stops.cons (by decide)), hpar]
    rfl
  | @op k l r op g₁ g₂ s₁ s₂ ho h1 h2 ht hl hr ihl ihr =>
    intro rest hrest
    have hs := written_stops hr
    have hF : Follow k (g₁ ++ (op ++ (g₂ ++ (s₂ ++ rest)))) := .op ho h1 (fun e => by
      rcases ht with h | h
      · exact h
      · exact absurd e h.1) (by omega)
    have hL := (ihl _ hF).1
    have hop := op_read ho h1 h2 ht (stops_append (u := rest) hs.2 hs.1) (fun c t e => by
      have := written_ne hr (q := '=') (by decide) c t e; simpa using this)
    have hR := ihr rest hrest
    have hC := (levelC_eq ho (s₂ ++ rest)).trans hR.1
    have e : s₁ ++ g₁ ++ op ++ g₂ ++ s₂ ++ rest = s₁ ++ (g₁ ++ (op ++ (g₂ ++ (s₂ ++ rest)))) := by simp
    rw [e]
    generalize hk : k + 1 = k' at *
    cases ho with
    | mul | div | add | sub | cat =>
      obtain rfl : k = _ := Nat.succ.inj hk
      exact ⟨binLevel_step hL hop hC, by intro h; omega⟩
    | or h =>
      obtain rfl : k = _ := Nat.succ.inj hk
      exact ⟨binLevel_step hL hop hC, by intro h; omega⟩
    | and h =>
      obtain rfl : k = _ := Nat.succ.inj hk
      refine ⟨binLevel_step hL hop hC, fun _ hc => ?_⟩
      refine binLevel_step (op := ws andPattern <||> P.map (fun _ => c!"AND") ms1) hL ?_ ((fix_eq .e9w _).trans (hR.2 rfl hc))
      rw [and9w, hop]; rfl
    | _ =>
      obtain rfl : k = _ := Nat.succ.inj hk
      refine ⟨?_, by intro h; omega⟩
      show expr6.run fix _ = _
      rw [expr6, run_alt, fieldInExpr, run_map, run_lift, fieldIn_none (written_lead hl (by omega) (by omega)) hF, Option.map_none,
        Option.none_or]
      exact binLevel_step hL hop hC
  | nil => exact goodLoop_nil
  | one h ih => exact goodLoop_one ih
  | more h h1 h2 ha ih iha => exact goodLoop_more ha h1 h2 ih iha

/-- The arguments of a call. -/
theorem args_good {es : List Expr} {s : Str} (h : WrittenArgs es s) : GoodLoop es s := by
  induction h using WrittenArgs.rec (motive_1 := fun _ _ _ _ => True) with
  | nil => exact goodLoop_nil
  | one h _ => exact goodLoop_one (written_good h)
  | more h h1 h2 ha _ iha => exact goodLoop_more ha h1 h2 (written_good h) iha
  | _ => trivial

/-- A call. -/
theorem call_read {f : Str} {es : List Expr} {g₁ g₂ s rest : Str} (hf : IsName f) (h1 : Blanks g₁) (h2 : Blanks g₂) (ha : WrittenArgs es s) :
    callP.run fix (f ++ '(' :: (g₁ ++ (s ++ (g₂ ++ ')' :: rest)))) = some (rest, f, es) :=
  callP_args hf h1 h2 ha (args_good ha)

end Verif
