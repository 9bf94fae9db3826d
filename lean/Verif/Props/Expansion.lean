import Verif.Props.Macros
/-
C105: macro expansion ends unless the definitions are circular.
-/
namespace Verif
open P Lex Spl Lemmas

/-- A name that can stand between backticks. -/
structure MacroName (n : Str) : Prop where
  some : n ≠ []
  chars : ∀ c ∈ n, isTokenChar c = true
  free : notReserved n = true

/-- A text of plain characters and calls without arguments; `R` holds for the names called. -/
inductive MText (R : Str → Prop) : Str → Prop
  | nil : MText R []
  | char {c : Char} {s : Str} : c ≠ '`' → MText R s → MText R (c :: s)
  | call {n s : Str} : MacroName n → R n → MText R s → MText R ('`' :: (n ++ '`' :: s))

section
variable {R S : Str → Prop}

theorem MText.mono {s : Str} (h : MText R s) (hr : ∀ n, R n → S n) : MText S s := by
  induction h with
  | nil => exact .nil
  | char hc _ ih => exact .char hc ih
  | call hn h _ ih => exact .call hn (hr _ h) ih

theorem MText.append {s t : Str} (h : MText R s) (ht : MText R t) : MText R (s ++ t) := by
  induction h with
  | nil => exact ht
  | char hc _ ih => exact .char hc ih
  | call hn h _ ih => simpa using MText.call hn h ih

theorem MText.plain {s : Str} (h : '`' ∉ s) : MText R s := by
  induction s with
  | nil => exact .nil
  | cons c s ih => exact .char (fun e => h (by simp [e])) (ih fun hx => h (by simp [hx]))

theorem MText.free {s : Str} (h : MText (fun _ => False) s) : '`' ∉ s := by
  induction h with
  | nil => simp
  | char hc _ ih => simp [ih, Ne.symm hc]
  | call _ h => exact h.elim

theorem MText.dropWhile {p : Char → Bool} (hp : p '`' = false) {s : Str} (h : MText R s) : MText R (s.dropWhile p) := by
  induction h with
  | nil => exact .nil
  | @char c s hc h ih =>
    rw [List.dropWhile_cons]
    split
    · exact ih
    · exact .char hc h
  | call hn h hs => rw [List.dropWhile_cons_of_neg (by simp [hp])]; exact .call hn h hs

theorem rstrip_keep {p : Char → Bool} {c : Char} (hc : p c = false) (a s : Str) : rstripWhile p (a ++ c :: s) = a ++ c :: rstripWhile p s := by
  have h : List.dropWhile p (s.reverse ++ [c]) = List.dropWhile p s.reverse ++ [c] := by
    rw [List.dropWhile_append]
    split
    · rename_i h2
      have : List.dropWhile p s.reverse = [] := by simpa using h2
      rw [this, List.dropWhile_cons_of_neg (by simp [hc])]; rfl
    · rfl
  rw [rstripWhile, rstripWhile, List.reverse_append, List.reverse_cons, List.dropWhile_append, h, if_neg (by simp)]
  simp

theorem rstrip_cons {p : Char → Bool} (c : Char) (s : Str) : rstripWhile p (c :: s) = c :: rstripWhile p s ∨ rstripWhile p (c :: s) = [] := by
  rw [rstripWhile, rstripWhile, List.reverse_cons, List.dropWhile_append]
  split
  · rename_i h
    by_cases hc : p c = true
    · right; simp [List.dropWhile, hc]
    · left
      have : List.dropWhile p s.reverse = [] := by simpa using h
      rw [this]; simp [List.dropWhile, hc]
  · left; simp

theorem MText.rstrip {p : Char → Bool} (hp : p '`' = false) {s : Str} (h : MText R s) : MText R (rstripWhile p s) := by
  induction h with
  | nil => exact .nil
  | @char c s hc h ih =>
    rcases rstrip_cons (p := p) c s with e | e
    · rw [e]; exact .char hc ih
    · rw [e]; exact .nil
  | @call n s hn h hs ih =>
    have : '`' :: (n ++ '`' :: s) = ('`' :: n) ++ '`' :: s := rfl
    rw [this, rstrip_keep hp]
    exact .call hn h ih

theorem MText.tidy {s : Str} (h : MText R s) : MText R (tidy s) :=
  (((h.rstrip (by decide)).rstrip (by decide)).dropWhile (by decide)).rstrip (by decide)

theorem MText.tail {c : Char} {t : Str} (h : MText R (c :: t)) (hc : c ≠ '`') : MText R t := by
  generalize e : c :: t = u at h
  cases h with
  | nil => cases e
  | char _ h => simp only [List.cons.injEq] at e; rw [e.2]; exact h
  | call => simp only [List.cons.injEq] at e; exact absurd e.1 hc

/-- leaving out plain characters -/
theorem MText.drop {a s : Str} (ha : '`' ∉ a) (h : MText R (a ++ s)) : MText R s := by
  induction a with
  | nil => exact h
  | cons c a ih =>
    refine ih (fun hx => ha (by simp [hx])) ?_
    rw [List.cons_append] at h
    exact h.tail fun e => ha (by simp [e])

theorem replace_skip {name rep : Str} : ∀ (u : Str) (n : Nat) (s : Str), '$' ∉ u →
    ∃ m, m ≤ n ∧ replaceAux ('$' :: name) rep n (u ++ s) = u ++ replaceAux ('$' :: name) rep m s
  | [], n, s, _ => ⟨n, Nat.le_refl _, rfl⟩
  | c :: u, 0, s, _ => ⟨0, Nat.le_refl _, by simp [replaceAux]⟩
  | c :: u, n + 1, s, h => by
    obtain ⟨m, hm, e⟩ := replace_skip (name := name) (rep := rep) u n s (fun hx => h (by simp [hx]))
    refine ⟨m, by omega, ?_⟩
    have : stripPrefix? ('$' :: name) (c :: (u ++ s)) = none := by
      cases hs : stripPrefix? ('$' :: name) (c :: (u ++ s)) with
      | none => rfl
      | some r =>
        have := stripPrefix?_some.1 hs
        simp only [List.cons_append, List.cons.injEq] at this
        exact absurd (by simp [this.1]) h
    rw [List.cons_append, replaceAux, this]
    simp only [List.cons_append, e]

/-- replacing placeholders leaves the calls alone -/
theorem MText.replace {name rep : Str} (hn : '`' ∉ name) (hrep : '`' ∉ rep) : ∀ (n : Nat) {s : Str}, MText R s →
    MText R (replaceAux ('$' :: name) rep n s) := by
  intro n
  induction n using Nat.strongRecOn with
  | _ n ih =>
    intro s h
    cases n with
    | zero => exact h
    | succ n =>
      cases h with
      | nil => exact .nil
      | @char c s hc h =>
        rw [replaceAux]
        split
        · rename_i r hr
          have e := stripPrefix?_some.1 hr
          have hm : MText R (('$' :: name) ++ r) := e ▸ MText.char hc h
          exact (MText.plain hrep).append (ih n (by omega) (hm.drop (by simp [hn])))
        · exact .char hc (ih n (by omega) h)
      | @call u s hu hR h =>
        have hd : '$' ∉ ('`' :: u) ++ ['`'] := by
          intro hx
          rcases List.mem_append.1 hx with hx | hx
          · rcases List.mem_cons.1 hx with hx | hx
            · cases hx
            · have := hu.chars _ hx; revert this; decide
          · simp at hx
        obtain ⟨m, hm, e⟩ := replace_skip (name := name) (rep := rep) (('`' :: u) ++ ['`']) (n + 1) s hd
        have e' : '`' :: (u ++ '`' :: s) = ('`' :: u) ++ ['`'] ++ s := by simp
        rw [e', e]
        rcases Nat.lt_or_ge m (n + 1) with hlt | hge
        · simpa using MText.call hu hR (ih m hlt h)
        · -- the fuel cannot stay the same over a non-empty text, but either way the rest is a text with calls
          have hm' : m = n + 1 := by omega
          subst hm'
          obtain ⟨k, hk, e2⟩ := replace_skip (name := name) (rep := rep) (u ++ ['`']) n s (by
            intro hx; apply hd; simp at hx ⊢; exact hx)
          have e3 : replaceAux ('$' :: name) rep (n + 1) (('`' :: u) ++ ['`'] ++ s) = '`' :: replaceAux ('$' :: name) rep n (u ++ ['`'] ++ s) := by
            have : stripPrefix? ('$' :: name) ('`' :: (u ++ ['`'] ++ s)) = none := by
              simp [stripPrefix?]
            show replaceAux ('$' :: name) rep (n + 1) ('`' :: (u ++ ['`'] ++ s)) = _
            rw [replaceAux, this]
          rw [← e, e3, e2]
          simpa using MText.call hu hR (ih k (by omega) h)

end

/-! ### Reading such texts -/

/-- plain texts and names between backticks, and a plain end -/
def ctext : List (Str × Str) → Str → Str
  | [], suffix => suffix
  | (p, n) :: cs, suffix => p ++ '`' :: (n ++ '`' :: ctext cs suffix)

theorem MText.chunks {R : Str → Prop} {s : Str} (h : MText R s) : ∃ cs suffix, s = ctext cs suffix ∧
    (∀ x ∈ cs, '`' ∉ x.1 ∧ MacroName x.2 ∧ R x.2) ∧ '`' ∉ suffix := by
  induction h with
  | nil => exact ⟨[], [], rfl, by simp, by simp⟩
  | @char c s hc _ ih =>
    obtain ⟨cs, suffix, rfl, h1, h2⟩ := ih
    cases cs with
    | nil => exact ⟨[], c :: suffix, rfl, by simp, by simp [h2, Ne.symm hc]⟩
    | cons x cs =>
      obtain ⟨p, n⟩ := x
      refine ⟨(c :: p, n) :: cs, suffix, rfl, fun x hx => ?_, h2⟩
      rcases List.mem_cons.1 hx with rfl | hx
      · obtain ⟨ha, hb⟩ := h1 (p, n) (by simp)
        exact ⟨by simp [Ne.symm hc]; exact ha, hb⟩
      · exact h1 x (by simp [hx])
  | @call n s hn hR _ ih =>
    obtain ⟨cs, suffix, rfl, h1, h2⟩ := ih
    refine ⟨([], n) :: cs, suffix, rfl, fun x hx => ?_, h2⟩
    rcases List.mem_cons.1 hx with rfl | hx
    · exact ⟨by simp, hn, hR⟩
    · exact h1 x hx

theorem upTo_run {p s : Str} (hp : '`' ∉ p) : Macro.upTo.run fix (p ++ '`' :: s) = some ('`' :: s, p) := by
  have hall : ∀ c ∈ p, (c != '`') = true := fun c hc => by simp; rintro rfl; exact hp hc
  have h1 : (p ++ '`' :: s).dropWhile (fun x => x != '`') = '`' :: s := dropWhile_run hall (by intro c t e; cases e; rfl)
  have h2 : (p ++ '`' :: s).takeWhile (fun x => x != '`') = p := by
    have := List.takeWhile_append_dropWhile (p := fun x => x != '`') (l := p ++ '`' :: s)
    rw [h1] at this
    exact List.append_cancel_right this
  unfold Macro.upTo
  rw [run_post]
  change (some ((p ++ '`' :: s).dropWhile (fun x => x != '`'), (p ++ '`' :: s).takeWhile (fun x => x != '`'))).bind _ = _
  rw [h1, h2, Option.bind_some, run_peek, tag_same]
  rfl

theorem name_head {n s : Str} (h : MacroName n) : (n ++ s).dropWhile isSpace = n ++ s := by
  obtain ⟨c, n, rfl⟩ := List.exists_cons_of_ne_nil h.some
  rw [List.cons_append, List.dropWhile_cons_of_neg]
  intro hs
  have := h.chars c (by simp)
  have hns : ∀ c, isSpace c = true → isTokenChar c = false := by
    intro c hc
    simp only [isSpace, Bool.or_eq_true, beq_iff_eq] at hc
    rcases hc with ((rfl | rfl) | rfl) | rfl <;> decide
  rw [hns c hs] at this; cases this

theorem mcall_run {n s : Str} (h : MacroName n) : Macro.mcall.run fix ('`' :: (n ++ '`' :: s)) = some (s, ⟨n, []⟩) := by
  have htok : token.run () (n ++ '`' :: s) = some ('`' :: s, n) :=
    run_token h.some h.chars (by intro c t e; cases e; decide) h.free
  have hargs : Macro.args.run fix ('`' :: s) = none := by
    rw [Macro.args, run_delim, run_ws, List.dropWhile_cons_of_neg (by decide), tag_ne (by decide)]
    rfl
  have hdrop : ('`' :: s).dropWhile isSpace = '`' :: s := List.dropWhile_cons_of_neg (by decide)
  have hbody : Macro.body.run fix (n ++ '`' :: s) = some ('`' :: s, ⟨n, []⟩) := by
    rw [Macro.body, run_ws, name_head h, run_map, run_seq, run_ws, name_head h, run_lift, htok, Option.map_some, Option.bind_some,
      run_opt, hdrop, hargs]
    simp [hdrop]
  rw [Macro.mcall, run_delim, tag_same, Option.bind_some, hbody, Option.bind_some, tag_same]
  rfl

theorem loop_ctext {suffix : Str} (hs : '`' ∉ suffix) : ∀ {cs : List (Str × Str)} (_ : ∀ x ∈ cs, '`' ∉ x.1 ∧ MacroName x.2) (n : Nat),
    cs.length ≤ n → manyLoop ((seq Macro.upTo Macro.mcall).run fix) n (ctext cs suffix) = (suffix, cs.map fun x => (x.1, ⟨x.2, []⟩))
  | [], _, n, _ => by
    have h0 : (seq Macro.upTo Macro.mcall).run fix suffix = none := by
      rw [run_seq]
      cases hu : Macro.upTo.run fix suffix with
      | none => rfl
      | some x =>
        exfalso
        have hall : ∀ c ∈ suffix, (c != '`') = true := fun c hc => by simp; rintro rfl; exact hs hc
        have hnil : suffix.dropWhile (fun x => x != '`') = [] := by
          have := dropWhile_run (rest := []) hall (Stops.nil _)
          rwa [List.append_nil] at this
        unfold Macro.upTo at hu
        rw [run_post] at hu
        change (some (suffix.dropWhile (fun x => x != '`'), suffix.takeWhile (fun x => x != '`'))).bind _ = _ at hu
        rw [Option.bind_some, hnil] at hu
        simp [run_peek, tag_nil] at hu
    cases n with
    | zero => rfl
    | succ n => rw [manyLoop, ctext, h0]; rfl
  | (p, m) :: cs, h, n, hn => by
    cases n with
    | zero => simp at hn
    | succ n =>
      obtain ⟨hp, hm⟩ := h (p, m) (by simp)
      have h1 : (seq Macro.upTo Macro.mcall).run fix (ctext ((p, m) :: cs) suffix) = some (ctext cs suffix, (p, ⟨m, []⟩)) := by
        rw [ctext, run_seq, upTo_run hp, Option.bind_some, mcall_run hm]; rfl
      rw [manyLoop, h1]
      simp only
      rw [loop_ctext hs (fun x hx => h x (by simp [hx])) n (by simpa using hn)]
      rfl

theorem ctext_length (suffix : Str) : ∀ cs : List (Str × Str), cs.length ≤ (ctext cs suffix).length
  | [] => by simp
  | (p, n) :: cs => by
    have := ctext_length suffix cs
    rw [ctext]
    simp only [List.length_append, List.length_cons]
    omega

/-- the calls of such a text are found -/
theorem detect_ctext {cs : List (Str × Str)} {suffix : Str} (h : ∀ x ∈ cs, '`' ∉ x.1 ∧ MacroName x.2) (hs : '`' ∉ suffix) :
    detectMacros (ctext cs suffix) = some (cs.map fun x => (x.1, ⟨x.2, []⟩), suffix) := by
  have hall : ∀ c ∈ suffix, (c != '`') = true := fun c hc => by simp; rintro rfl; exact hs hc
  have hnil : suffix.dropWhile (fun x => x != '`') = [] := by
    have := dropWhile_run (rest := []) hall (Stops.nil _)
    rwa [List.append_nil] at this
  have hall' : suffix.takeWhile (fun x => x != '`') = suffix := by
    have := List.takeWhile_append_dropWhile (p := fun x => x != '`') (l := suffix)
    rwa [hnil, List.append_nil] at this
  have h2 : Macro.macros.run fix (ctext cs suffix) = some ([], cs.map fun x => (x.1, ⟨x.2, []⟩), suffix) := by
    rw [Macro.macros, allConsuming_some, run_seq, run_many0, Option.bind_some, loop_ctext hs h _ (ctext_length _ _)]
    refine ⟨?_, rfl⟩
    show Option.map _ (some (suffix.dropWhile (fun x => x != '`'), suffix.takeWhile (fun x => x != '`'))) = _
    rw [hnil, hall']; rfl
  unfold detectMacros
  rw [h2]

example : MText (fun n => n = c!"m") c!"a `m` b" ∧ detectMacros c!"a `m` b" = some ([(c!"a ", ⟨c!"m", []⟩)], c!" b") :=
  ⟨.char (by decide) (.char (by decide) (.call (n := c!"m") (s := c!" b") ⟨by decide, by decide +kernel, by decide +kernel⟩ rfl (.plain (by decide)))),
   by decide +kernel⟩

/-! ### The end of the expansion -/

/-- With a large enough limit the expansion returns a text without calls, and always the same. -/
def ExpansionEnds (other : Str → Str → Str → Option Str) (defs : Str → Option MacroDef) (s : Str) : Prop :=
  ∃ q limit, '`' ∉ q ∧ ∀ fuel, limit ≤ fuel → substituteMacros other defs fuel s = some q

section
variable {other : Str → Str → Str → Option Str} {defs : Str → Option MacroDef}

theorem ExpansionEnds.step {s q : Str} (h : expandOnce other defs s = some q) (hne : q ≠ s) (hq : ExpansionEnds other defs q) : ExpansionEnds other defs s := by
  obtain ⟨r, limit, hr, hf⟩ := hq
  refine ⟨r, limit + 1, hr, fun fuel hl => ?_⟩
  obtain ⟨fuel, rfl⟩ : ∃ k, fuel = k + 1 := ⟨fuel - 1, by omega⟩
  rw [substituteMacros, h]
  simp only [if_neg hne]
  exact hf fuel (by omega)

theorem tidy_sub (s : Str) : List.Sublist (tidy s) s := by
  have hr : ∀ (p : Char → Bool) (s : Str), List.Sublist (rstripWhile p s) s := by
    intro p s
    rw [rstripWhile, ← List.reverse_sublist, List.reverse_reverse]
    exact (List.dropWhile_suffix p).sublist
  exact ((hr _ _).trans (List.dropWhile_suffix _).sublist).trans ((hr _ _).trans (hr _ _))

theorem ends_plain {s : Str} (h : '`' ∉ s) : ExpansionEnds other defs s := by
  have key : ∀ k (s : Str), s.length ≤ k → '`' ∉ s → ExpansionEnds other defs s := by
    intro k
    induction k with
    | zero =>
      intro s hl h
      obtain rfl : s = [] := List.length_eq_zero_iff.1 (by omega)
      refine ⟨[], 1, by simp, fun fuel hf => ?_⟩
      obtain ⟨fuel, rfl⟩ : ∃ k, fuel = k + 1 := ⟨fuel - 1, by omega⟩
      rw [substituteMacros, expandOnce_plain (by simp)]
      rfl
    | succ k ih =>
      intro s hl h
      by_cases he : tidy s = s
      · refine ⟨s, 1, h, fun fuel hf => ?_⟩
        obtain ⟨fuel, rfl⟩ : ∃ k, fuel = k + 1 := ⟨fuel - 1, by omega⟩
        rw [substituteMacros, expandOnce_plain h]
        simp [he]
      · refine ExpansionEnds.step (expandOnce_plain h) he (ih _ ?_ fun hm => h ((tidy_sub s).subset hm))
        have h1 := (tidy_sub s).length_le
        have h2 : (tidy s).length ≠ s.length := fun e => he ((tidy_sub s).eq_of_length e)
        omega
  exact key _ s (Nat.le_refl _) h

/-- the calls have a rank below `k` and a definition -/
abbrev Below (rank : Str → Nat) (defs : Str → Option MacroDef) (k : Nat) : Str → Prop := fun m => rank m < k ∧ (defs m).isSome = true

/-- Definitions that are not circular: each only calls macros of a lower rank, and calls them without arguments. -/
def Ranked (rank : Str → Nat) (defs : Str → Option MacroDef) : Prop :=
  ∀ n d, defs n = some d → MText (Below rank defs (rank n)) d.definition ∧ ∀ a ∈ d.arguments, a.all isWord = true

theorem expand_ranked {rank : Str → Nat} (hd : Ranked rank defs) {k : Nat} : ∀ {cs : List (Str × Str)} {suffix : Str},
    (∀ x ∈ cs, '`' ∉ x.1 ∧ MacroName x.2 ∧ Below rank defs (k + 1) x.2) → '`' ∉ suffix →
    ∃ q, expandChunks other defs (cs.map fun x => (x.1, ⟨x.2, []⟩)) suffix = some q ∧ MText (Below rank defs k) q
  | [], suffix, _, hs => ⟨suffix, rfl, .plain hs⟩
  | (p, n) :: cs, suffix, h, hs => by
    obtain ⟨hp, _, hk, hsome⟩ := h (p, n) (by simp)
    obtain ⟨d, he⟩ := Option.isSome_iff_exists.1 hsome
    obtain ⟨q, hq, hm⟩ := expand_ranked hd (cs := cs) (fun x hx => h x (by simp [hx])) hs
    refine ⟨p ++ d.definition ++ q, ?_, ?_⟩
    · simp only at he
      simp only [List.map_cons, expandChunks, expandCall, he, List.isEmpty_nil, if_true, hq]
    · exact ((MText.plain hp).append ((hd n d he).1.mono fun m hm => ⟨by simp only at hk; have := hm.1; omega, hm.2⟩)).append hm

theorem ends_below {rank : Str → Nat} (hd : Ranked rank defs) : ∀ (k : Nat) {s : Str}, MText (Below rank defs k) s → ExpansionEnds other defs s
  | 0, s, h => ends_plain (h.mono fun _ h => absurd h.1 (Nat.not_lt_zero _)).free
  | k + 1, s, h => by
    obtain ⟨cs, suffix, e, h1, h2⟩ := h.chunks
    obtain ⟨t, ht, hm⟩ := expand_ranked (other := other) hd h1 h2
    have h3 : expandOnce other defs s = some (tidy t) := by
      rw [expandOnce, e, detect_ctext (fun x hx => ⟨(h1 x hx).1, (h1 x hx).2.1⟩) h2]
      simp only [ht, Option.map_some]
    by_cases hne : tidy t = s
    · exact ends_below hd k (hne ▸ hm.tidy)
    · exact ExpansionEnds.step h3 hne (ends_below hd k hm.tidy)

theorem substLoop_text {R : Str → Prop} : ∀ {ps : List (Str × Str)} {t q : Str},
    (∀ p ∈ ps, p.1.all isWord = true ∧ NoTick p.2) → MText R t → substLoop other ps t = some q → MText R q
  | [], t, q, _, ht, h => by simp [substLoop] at h; rwa [← h]
  | (n, v) :: ps, t, q, hp, ht, h => by
    rw [substLoop] at h
    split at h
    · simp at h
    · rename_i t' hs
      obtain ⟨hn, hv⟩ := hp (n, v) (by simp)
      rw [reSub, if_pos hn] at hs
      obtain ⟨w, hw, rfl⟩ := Option.map_eq_some_iff.1 hs
      refine substLoop_text (fun p hp' => hp p (by simp [hp'])) ?_ h
      refine MText.replace ?_ (reTemplate_free hn hv hw) _ ht
      intro hx
      rcases List.mem_append.1 hx with hx | hx
      · have := List.all_eq_true.1 hn _ hx
        revert this; decide
      · simp at hx

/-- arguments without backticks and with plain names -/
def PlainArgs (m : MacroCall) : Prop := ∀ a ∈ m.args, NoTick a.2 ∧ ∀ n, a.1 = some n → n.all isWord = true

theorem call_ranked {rank : Str → Nat} (hd : Ranked rank defs) {m : MacroCall} (ha : PlainArgs m) {q : Str}
    (h : expandCall other defs m = some q) : MText (Below rank defs (rank m.name)) q := by
  rw [expandCall] at h
  split at h
  · simp at h
  · rename_i d he
    obtain ⟨hb, hn⟩ := hd _ _ he
    split at h
    · simp only [Option.some.injEq] at h; rwa [← h]
    · split at h
      · simp at h
      · rename_i ps hps
        refine substLoop_text (fun p hp => ?_) hb h
        rw [macroArgs] at hps
        split at hps
        · split at hps
          · simp only [Option.some.injEq] at hps
            rw [← hps] at hp
            have hz := List.of_mem_zip (a := p.1) (b := p.2) (pyDict_mem _ p hp)
            obtain ⟨a, ha', e⟩ := List.mem_map.1 hz.2
            exact ⟨hn _ hz.1, by rw [← e]; exact (ha a ha').1⟩
          · simp at hps
        · split at hps
          · rename_i ps' hps'
            split at hps
            · simp only [Option.some.injEq] at hps
              rw [← hps] at hp
              have := ha _ (allNamed_mem hps' p (pyDict_mem _ p hp))
              exact ⟨this.2 _ rfl, this.1⟩
            · simp at hps
          · simp at hps

theorem chunks_ranked {rank : Str → Nat} (hd : Ranked rank defs) : ∀ {chunks : List (Str × MacroCall)} {suffix q : Str},
    (∀ x ∈ chunks, '`' ∉ x.1 ∧ PlainArgs x.2) → '`' ∉ suffix → expandChunks other defs chunks suffix = some q →
    ∃ k, MText (Below rank defs k) q
  | [], suffix, q, _, hs, h => by
    simp only [expandChunks, Option.some.injEq] at h
    exact ⟨0, h ▸ .plain hs⟩
  | (p, m) :: rest, suffix, q, hc, hs, h => by
    rw [expandChunks] at h
    split at h
    · simp at h
    · rename_i t ht
      split at h
      · simp at h
      · rename_i r hr
        simp only [Option.some.injEq] at h
        obtain ⟨h1, h2⟩ := hc (p, m) (by simp)
        obtain ⟨k, hk⟩ := chunks_ranked hd (fun x hx => hc x (by simp [hx])) hs hr
        refine ⟨max (rank m.name) k, h ▸ ?_⟩
        exact ((MText.plain h1).append ((call_ranked hd h2 ht).mono fun n hn => ⟨by have := hn.1; simp only at this; omega, hn.2⟩)).append
          (hk.mono fun n hn => ⟨by have := hn.1; omega, hn.2⟩)

/-- When no definition leads back to itself and definitions call other macros without arguments, a text whose calls
can be replaced once is expanded to a text without calls.  Missing: definitions that call macros with arguments. -/
theorem C105_ends_partial {rank : Str → Nat} (hd : Ranked rank defs) {code q : Str}
    (ha : ∀ chunks suffix, detectMacros code = some (chunks, suffix) → ∀ x ∈ chunks, PlainArgs x.2)
    (h : expandOnce other defs code = some q) : ExpansionEnds other defs code := by
  have hq := h
  rw [expandOnce] at h
  split at h
  · simp at h
  · rename_i chunks suffix hdet
    obtain ⟨t, ht, rfl⟩ := Option.map_eq_some_iff.1 h
    have hl := layout_prefix (C12_layout hdet)
    obtain ⟨k, hk⟩ := chunks_ranked hd (fun x hx => ⟨hl.1 x hx, ha _ _ hdet x hx⟩) hl.2 ht
    have := ends_below (other := other) hd k hk.tidy
    by_cases hne : tidy t = code
    · rwa [hne] at this
    · exact ExpansionEnds.step hq hne this

end

/-- Two macros, one of which uses the other. -/
def twoMacros (n : Str) : Option MacroDef :=
  if n = c!"web" then some ⟨[c!"h"], c!"`base` host=$h$"⟩ else if n = c!"base" then some ⟨[], c!"index=main"⟩ else none

theorem twoMacros_ranked : Ranked (fun n => if n = c!"web" then 1 else 0) twoMacros := by
  intro n d h
  unfold twoMacros at h
  split at h
  · rename_i e
    cases h
    refine ⟨?_, by decide⟩
    subst e
    exact .call (n := c!"base") (s := c!" host=$h$") ⟨by decide, by decide +kernel, by decide +kernel⟩ ⟨by decide, by decide⟩ (.plain (by decide))
  · split at h
    · cases h; exact ⟨.plain (by decide), by simp⟩
    · cases h

example : ExpansionEnds (fun _ _ _ => none) twoMacros c!"search `web(\"a\")` OR `web(b)`" ∧
    substituteMacros (fun _ _ _ => none) twoMacros 5 c!"search `web(\"a\")` OR `web(b)`" = some c!"search index=main host=\"a\" OR index=main host=b" := by
  refine ⟨C105_ends_partial twoMacros_ranked (q := c!"search `base` host=\"a\" OR `base` host=b") ?_ (by decide +kernel), by decide +kernel⟩
  intro chunks suffix h
  have : detectMacros c!"search `web(\"a\")` OR `web(b)`" = some ([(c!"search ", ⟨c!"web", [(none, c!"\"a\"")]⟩), (c!" OR ", ⟨c!"web", [(none, c!"b")]⟩)], []) := by
    decide +kernel
  rw [this] at h
  cases h
  intro x hx
  rcases List.mem_cons.1 hx with rfl | hx
  · intro a ha; rw [List.mem_singleton.1 ha]; exact ⟨by decide, by simp⟩
  · rw [List.mem_singleton.1 hx]
    intro a ha; rw [List.mem_singleton.1 ha]; exact ⟨by decide, by simp⟩

/-! ### Circular definitions -/

theorem tidy_id {s : Str} (h1 : ∀ c, s.head? = some c → pySpace c = false)
    (h2 : ∀ c, s.getLast? = some c → pySpace c = false ∧ c ≠ '|') : tidy s = s := by
  have hr : ∀ {p : Char → Bool}, (∀ c, s.getLast? = some c → p c = false) → rstripWhile p s = s := by
    intro p hp
    rw [rstripWhile]
    have : s.reverse.dropWhile p = s.reverse := by
      cases hs : s.reverse with
      | nil => rfl
      | cons c t =>
        rw [List.dropWhile_cons_of_neg]
        have := hp c (by rw [List.getLast?_eq_head?_reverse, hs]; rfl)
        simp [this]
    rw [this, List.reverse_reverse]
  have hd : s.dropWhile pySpace = s := by
    cases s with
    | nil => rfl
    | cons c t => rw [List.dropWhile_cons_of_neg]; simp [h1 c rfl]
  rw [tidy, hr (fun c hc => (h2 c hc).1), hr (fun c hc => by simp [(h2 c hc).2]), hd, hr (fun c hc => (h2 c hc).1)]

/-- a call alone -/
def callText (n : Str) : Str := '`' :: (n ++ ['`'])

theorem expand_one {other : Str → Str → Str → Option Str} {defs : Str → Option MacroDef} {p n : Str} {d : MacroDef} (hp : '`' ∉ p)
    (hn : MacroName n) (hd : defs n = some d) : expandOnce other defs (p ++ callText n) = some (tidy (p ++ d.definition)) := by
  have : p ++ callText n = ctext [(p, n)] [] := rfl
  rw [this, expandOnce, detect_ctext (by simp [hp, hn]) (by simp)]
  simp [expandChunks, expandCall, hd]

/-- A definition that calls its own macro after some text is expanded without end, whatever the limit. -/
theorem C105_self_reference {other : Str → Str → Str → Option Str} {defs : Str → Option MacroDef} {n p : Str} {c : Char} (hn : MacroName n)
    (hc : pySpace c = false) (hp : '`' ∉ c :: p) (hd : defs n = some ⟨[], c :: p ++ callText n⟩) (fuel : Nat) :
    substituteMacros other defs fuel (callText n) = none := by
  have key : ∀ fuel (u : Str), '`' ∉ u → (∀ x, u.head? = some x → pySpace x = false) →
      substituteMacros other defs fuel (u ++ callText n) = none := by
    intro fuel
    induction fuel with
    | zero => intros; rfl
    | succ fuel ih =>
      intro u hu hh
      have ht : tidy (u ++ (c :: p ++ callText n)) = u ++ (c :: p) ++ callText n := by
        rw [← List.append_assoc]
        refine tidy_id (fun x hx => ?_) (fun x hx => ?_)
        · cases u with
          | nil => simp at hx; rw [← hx]; exact hc
          | cons y u => exact hh x (by simpa using hx)
        · rw [callText, ← List.cons_append, ← List.append_assoc, List.getLast?_concat] at hx
          cases hx; decide
      rw [substituteMacros, expand_one hu hn hd]
      simp only [ht]
      rw [if_neg]
      · refine ih _ (by simp at hp ⊢; exact ⟨hu, hp⟩) (fun x hx => ?_)
        cases u with
        | nil => simp at hx; rw [← hx]; exact hc
        | cons y u => exact hh x (by simpa using hx)
      · intro e
        have := congrArg List.length e
        simp at this; omega
  simpa using key fuel [] (by simp) (by simp)

example : substituteMacros (fun _ _ _ => none) (fun _ => some ⟨[], c!"a=1 `m`"⟩) 20 c!"`m`" = none := by decide +kernel

/-- Two macros defined by each other are expanded without end: only a text that does not change ends the expansion. -/
theorem C105_mutual {other : Str → Str → Str → Option Str} {defs : Str → Option MacroDef} {m n : Str} (hm : MacroName m) (hn : MacroName n)
    (hne : m ≠ n) (hd : defs m = some ⟨[], callText n⟩) (hd' : defs n = some ⟨[], callText m⟩) : ∀ fuel : Nat,
    substituteMacros other defs fuel (callText m) = none := by
  have htidy : ∀ k : Str, tidy (callText k) = callText k := by
    intro k
    refine tidy_id (fun x hx => ?_) (fun x hx => ?_)
    · cases hx; decide
    · rw [callText, ← List.cons_append, List.getLast?_concat] at hx
      cases hx; decide
  have hdiff : ∀ {a b : Str}, a ≠ b → callText a ≠ callText b := by
    intro a b hab e
    simp only [callText, List.cons.injEq, true_and] at e
    exact hab (List.append_cancel_right e)
  have key : ∀ fuel, substituteMacros other defs fuel (callText m) = none ∧ substituteMacros other defs fuel (callText n) = none := by
    intro fuel
    induction fuel with
    | zero => exact ⟨rfl, rfl⟩
    | succ fuel ih =>
      constructor
      · have := expand_one (other := other) (p := []) (by simp) hm hd
        rw [List.nil_append, List.nil_append, htidy] at this
        rw [substituteMacros, this]
        simp only [if_neg (hdiff (Ne.symm hne)), ih.2]
      · have := expand_one (other := other) (p := []) (by simp) hn hd'
        rw [List.nil_append, List.nil_append, htidy] at this
        rw [substituteMacros, this]
        simp only [if_neg (hdiff hne), ih.1]
  exact fun fuel => (key fuel).1

example : MacroName c!"ping" ∧ substituteMacros (fun _ _ _ => none) (fun n => if n = c!"ping" then some ⟨[], c!"`pong`"⟩ else some ⟨[], c!"`ping`"⟩) 20 c!"`ping`" = none :=
  ⟨⟨by decide, by decide +kernel, by decide +kernel⟩, by decide +kernel⟩

end Verif
