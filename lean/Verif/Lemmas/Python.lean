import Verif.Spec.Tree
/-
Facts about the Python reader, and: the rendered text of a column expression reads as its tree.
-/
namespace Verif.Lemmas
open Verif Spec

/-! ### more steps do not change a result -/

theorem elim_mono {a b : Option Res} {f g : PyE → Str → Option Res} {x : Res}
    (h : Res.elim a f = some x) (ha : ∀ y, a = some y → b = some y)
    (hf : ∀ e s, f e s = some x → g e s = some x) : Res.elim b g = some x := by
  unfold Res.elim at h
  split at h
  · rename_i e s he
    rw [ha _ rfl]
    exact hf _ _ h
  · cases h

theorem closed_mono {c : Char} {s : Str} {f g : Str → Option Res} {x : Res}
    (h : closed c s f = some x) (hf : ∀ s, f s = some x → g s = some x) : closed c s g = some x := by
  unfold closed at h ⊢
  split at h
  · cases h
  · split at h
    · rename_i hc; rw [if_pos hc]; exact hf _ h
    · cases h

theorem rdStep_mono {f g : Goal → Option Res} (hfg : ∀ G x, f G = some x → g G = some x) {G : Goal} {x : Res}
    (h : rdStep f G = some x) : rdStep g G = some x := by
  cases G with
  | lev k s =>
    simp only [rdStep] at h ⊢
    split at h
    · rename_i hk; rw [if_pos hk]; exact hfg _ _ h
    · rename_i hk
      rw [if_neg hk]
      split at h
      · rename_i hk; rw [if_pos hk]
        exact elim_mono h (fun y => hfg _ y) (fun e s => hfg _ _)
      · rename_i hk; rw [if_neg hk]
        split at h
        · cases h
        · split at h
          · rename_i hc; rw [if_pos hc]
            exact elim_mono h (fun y => hfg _ y) (fun e s => id)
          · rename_i hc; rw [if_neg hc]
            split at h
            · rename_i hc; rw [if_pos hc]
              exact elim_mono h (fun y => hfg _ y) (fun e s => id)
            · rename_i hc; rw [if_neg hc]
              exact hfg _ _ h
  | loop k l s =>
    simp only [rdStep] at h ⊢
    split at h
    · split at h
      · rename_i hk; rw [if_pos hk]
        refine elim_mono h (fun y => hfg _ y) (fun e s he => ?_)
        split at he
        · rename_i hk; rw [if_pos hk]; exact he
        · rename_i hk; rw [if_neg hk]; exact hfg _ _ he
      · rename_i hk; rw [if_neg hk]; exact h
    · exact h
  | prim s =>
    simp only [rdStep] at h ⊢
    split at h
    · exact hfg _ _ h
    split at h
    · exact hfg _ _ h
    split at h
    · exact hfg _ _ h
    split at h
    · cases h
    split at h
    · rename_i hc; rw [if_pos hc]
      exact elim_mono h (fun y => hfg _ y) (fun e s he => closed_mono he fun s => hfg _ _)
    rename_i hc; rw [if_neg hc]
    split at h
    · rename_i hc; rw [if_pos hc]
      split at h
      · rename_i he
        rw [hfg _ _ he]
        dsimp only
        split at h
        · cases h
        · rename_i hk; rw [if_neg hk]; exact hfg _ _ h
      · cases h
    rename_i hc; rw [if_neg hc]
    split at h
    · rename_i hc; rw [if_pos hc]
      split at h
      · rename_i he
        rw [hfg _ _ he]
        exact hfg _ _ h
      · cases h
    · cases h
  | post e s =>
    simp only [rdStep] at h ⊢
    split at h
    · exact h
    split at h
    · rename_i hc; rw [if_pos hc]
      split at h
      · exact hfg _ _ h
      · cases h
    rename_i hc; rw [if_neg hc]
    split at h
    · rename_i hc; rw [if_pos hc]
      split at h
      · rename_i he
        rw [hfg _ _ he]
        dsimp only
        split at h
        · rename_i hk; rw [if_pos hk]; exact hfg _ _ h
        · cases h
      · cases h
    · rename_i hc; rw [if_neg hc]; exact h
  | items c acc s =>
    simp only [rdStep] at h ⊢
    split at h
    · cases h
    · split at h
      · rename_i hc; rw [if_pos hc]; exact h
      · rename_i hc; rw [if_neg hc]
        refine elim_mono h (fun y => hfg _ y) (fun e s he => ?_)
        split at he
        · exact he
        · split at he
          · rename_i hd; rw [if_pos hd]; exact hfg _ _ he
          · rename_i hd; rw [if_neg hd]; exact he
  | item s =>
    simp only [rdStep] at h ⊢
    split at h
    · exact elim_mono h (fun y => hfg _ y) (fun e s => id)
    · split at h
      · exact elim_mono h (fun y => hfg _ y) (fun e s => id)
      · exact hfg _ _ h
  | entries acc s =>
    simp only [rdStep] at h ⊢
    split at h
    · cases h
    · split at h
      · rename_i hc; rw [if_pos hc]; exact h
      · rename_i hc; rw [if_neg hc]
        refine elim_mono h (fun y => hfg _ y) (fun e s he => closed_mono he fun s he => ?_)
        refine elim_mono he (fun y => hfg _ y) (fun e s he => ?_)
        split at he
        · exact he
        · split at he
          · rename_i hd; rw [if_pos hd]; exact hfg _ _ he
          · rename_i hd; rw [if_neg hd]; exact he

theorem rd_succ {n : Nat} {G : Goal} {x : Res} (h : rd n G = some x) : rd (n + 1) G = some x := by
  induction n generalizing G x with
  | zero => cases h
  | succ n ih => exact rdStep_mono (fun G x hx => ih hx) h

theorem rd_mono {n m : Nat} {G : Goal} {x : Res} (h : rd n G = some x) (hm : n ≤ m) : rd m G = some x := by
  induction hm with
  | refl => exact h
  | step _ ih => exact rd_succ ih

/-- The reading of a text does not depend on the bound on the number of steps. -/
theorem rd_det {n m : Nat} {G : Goal} {x y : Res} (h : rd n G = some x) (h' : rd m G = some y) : x = y := by
  have h1 := rd_mono h (Nat.le_max_left n m)
  have h2 := rd_mono h' (Nat.le_max_right n m)
  rw [h1] at h2
  exact Option.some.inj h2

/-! ### tokens -/

/-- The text does not continue a name or a number, and opens no string. -/
def Tok (r : Str) : Prop := ∀ c r', r = c :: r' → isIdChar c = false ∧ c ≠ '.' ∧ c ≠ '"' ∧ c ≠ '\''

theorem spanC_append {p : Char → Bool} {w r : Str} (hw : ∀ c ∈ w, p c = true)
    (hr : ∀ c r', r = c :: r' → p c = false) : spanC p (w ++ r) = (w, r) := by
  induction w with
  | nil =>
    cases r with
    | nil => rfl
    | cons c r => simp [spanC, hr c r rfl]
  | cons c w ih =>
    simp only [List.mem_cons, forall_eq_or_imp] at hw
    simp [spanC, hw.1, ih hw.2]

theorem spanC_ext {p : Char → Bool} : ∀ {s w : Str} {c : Char} {t : Str}, spanC p s = (w, c :: t) → ∀ r : Str,
    spanC p (s ++ r) = (w, c :: t ++ r)
  | [], _, _, _, h, _ => by simp [spanC] at h
  | d :: s, w, c, t, h, r => by
    simp only [spanC, List.cons_append] at h ⊢
    split at h
    · rename_i hd
      rw [if_pos hd]
      have h1 : spanC p s = ((spanC p s).1, c :: t) := by
        have := congrArg Prod.snd h; simp only at this; rw [← this]
      have h2 := spanC_ext h1 r
      rw [h2]
      have := congrArg Prod.fst h; simp only at this
      rw [← this]; rfl
    · rename_i hd
      rw [if_neg hd]
      simp only [Prod.mk.injEq, List.cons.injEq] at h
      obtain ⟨rfl, rfl, rfl⟩ := h
      rfl

theorem spanC_eq {p : Char → Bool} : ∀ (s : Str), (spanC p s).1 ++ (spanC p s).2 = s
  | [] => rfl
  | c :: s => by
    simp only [spanC]
    split
    · simp [spanC_eq s]
    · rfl

theorem spanC_all {p : Char → Bool} : ∀ (s : Str), ∀ c ∈ (spanC p s).1, p c = true
  | [] => by simp [spanC]
  | c :: s => by
    simp only [spanC]
    split
    · intro d hd
      rcases List.mem_cons.1 hd with rfl | hd
      · assumption
      · exact spanC_all s d hd
    · simp

theorem skipB_cons {c : Char} {s : Str} (h : isSpace c = false) : skipB (c :: s) = c :: s := by
  simp [skipB, spanC, h]

theorem skipB_space {s : Str} : skipB (' ' :: s) = skipB s := by
  simp [skipB, spanC, isSpace]

theorem ident_all {n : Str} (h : isIdent n = true) :
    ∃ c cs, n = c :: cs ∧ isIdStart c = true ∧ (∀ d ∈ cs, isIdChar d = true) ∧ n ∉ pyKeywords := by
  cases n with
  | nil => simp [isIdent] at h
  | cons c cs =>
    simp only [isIdent, Bool.and_eq_true, List.all_eq_true, Bool.not_eq_true', List.contains_eq_mem,
      decide_eq_false_iff_not] at h
    exact ⟨c, cs, rfl, h.1.1, h.1.2, h.2⟩

theorem pyName_append {n r : Str} (h : isIdent n = true) (hr : ∀ c r', r = c :: r' → isIdChar c = false) :
    pyName (n ++ r) = some (n, r) := by
  obtain ⟨c, cs, rfl, hc, hcs, hk⟩ := ident_all h
  have hs : spanC isIdChar (c :: cs ++ r) = (c :: cs, r) := by
    refine spanC_append ?_ hr
    intro d hd
    rcases List.mem_cons.1 hd with rfl | hd
    · simp [isIdChar, hc]
    · exact hcs d hd
  simp only [pyName, List.cons_append, hc, if_true]
  simp only [List.cons_append] at hs
  rw [hs, if_neg hk]

theorem strTail_ext {raw : Bool} {q : Char} {s v : Str} (h : strTail raw q s = some (v, [])) (r : Str) :
    strTail raw q (s ++ r) = some (v, r) := by
  induction hn : s.length using Nat.strongRecOn generalizing s v with
  | _ n ih =>
    cases s with
    | nil => cases h
    | cons c cs =>
      simp only [List.length_cons] at hn
      rw [List.cons_append]
      unfold strTail at h ⊢
      by_cases hq : c = q
      · rw [if_pos hq] at h ⊢
        simp only [Option.some.injEq, Prod.mk.injEq] at h
        obtain ⟨rfl, rfl⟩ := h
        rfl
      rw [if_neg hq] at h ⊢
      by_cases hc : (decide (c = '\n') || decide (c = '\x0d')) = true
      · rw [if_pos hc] at h; cases h
      rw [if_neg hc] at h ⊢
      by_cases hb : c = '\\'
      · rw [if_pos hb] at h ⊢
        cases cs with
        | nil => cases h
        | cons d ds =>
          simp only [List.cons_append] at h ⊢
          split at h
          · cases h
          · rename_i w hw
            simp only [Option.map_eq_some_iff] at h
            obtain ⟨⟨x, y⟩, hx, hv⟩ := h
            simp only [Prod.mk.injEq] at hv
            obtain ⟨rfl, rfl⟩ := hv
            rw [ih ds.length (by rw [← hn]; simp; omega) hx rfl]
            rfl
      · rw [if_neg hb] at h ⊢
        simp only [Option.map_eq_some_iff] at h
        obtain ⟨⟨x, y⟩, hx, hv⟩ := h
        simp only [Prod.mk.injEq] at hv
        obtain ⟨rfl, rfl⟩ := hv
        rw [ih cs.length (by omega) hx rfl]
        rfl

theorem strTail_plain {q : Char} {s : Str} (h : Plain q s = true) (r : Str) (raw : Bool) :
    strTail raw q (s ++ q :: r) = some (s, r) := by
  induction s with
  | nil => rw [List.nil_append]; unfold strTail; rw [if_pos rfl]
  | cons c s ih =>
    simp only [Plain, List.all_cons, Bool.and_eq_true, bne_iff_ne, ne_eq] at h
    obtain ⟨⟨⟨⟨h1, h2⟩, h3⟩, h4⟩, h5⟩ := h
    rw [List.cons_append]
    unfold strTail
    rw [if_neg h1, if_neg (by simp [h3, h4]), if_neg h2, ih h5]
    rfl

theorem openQuote_ext {c : Str} {x : Bool × Char × Str} (h : openQuote c = some x) (r : Str) :
    openQuote (c ++ r) = some (x.1, x.2.1, x.2.2 ++ r) := by
  cases c with
  | nil => cases h
  | cons c cs =>
    simp only [openQuote, List.cons_append] at h ⊢
    split at h
    · rename_i hc
      rw [if_pos hc, ← Option.some.inj h]
    · rename_i hc
      rw [if_neg hc]
      split at h
      · rename_i hc
        rw [if_pos hc]
        cases cs with
        | nil => cases h
        | cons d ds =>
          simp only [List.cons_append] at h ⊢
          split at h
          · rename_i hd
            rw [if_pos hd, ← Option.some.inj h]
          · cases h
      · cases h

theorem openQuote_quote {c : Str} {x : Bool × Char × Str} (h : openQuote c = some x) :
    x.2.1 = '"' ∨ x.2.1 = '\'' := by
  cases c with
  | nil => cases h
  | cons c cs =>
    simp only [openQuote] at h
    split at h
    · rename_i hc
      rw [← Option.some.inj h]
      simpa using hc
    · split at h
      · cases cs with
        | nil => cases h
        | cons d ds =>
          simp only at h
          split at h
          · rename_i hd
            rw [← Option.some.inj h]
            simpa using hd
          · cases h
      · cases h

theorem take2_ext {q : Char} {cs r : Str} {raw : Bool} {v : Str} (h : strTail raw q cs = some (v, []))
    (hn : cs.take 2 ≠ [q, q]) (hr : ∀ c r', r = c :: r' → c ≠ q) : (cs ++ r).take 2 ≠ [q, q] := by
  cases cs with
  | nil => cases h
  | cons a cs =>
    cases cs with
    | nil =>
      cases r with
      | nil => simp
      | cons b r => simp; intro _; exact hr b r rfl
    | cons b cs => simpa using hn

theorem pyString_ext {c v r : Str} (h : pyString c = some (v, [])) (hr : Tok r) : pyString (c ++ r) = some (v, r) := by
  unfold pyString at h ⊢
  split at h
  · cases h
  · rename_i raw q cs ho
    rw [openQuote_ext ho r]
    simp only
    split at h
    · cases h
    · rename_i hn
      have hq := openQuote_quote ho
      rw [if_neg (take2_ext h hn ?_)]
      · exact strTail_ext h r
      · intro c r' e
        rcases hq with hq | hq
        · simp only at hq; rw [hq]; exact (hr c r' e).2.2.1
        · simp only at hq; rw [hq]; exact (hr c r' e).2.2.2

theorem pyString_plain {q : Char} {s r : Str} (hq : q = '"' ∨ q = '\'') (h : Plain q s = true) (hr : Tok r) :
    pyString (q :: s ++ q :: r) = some (s, r) := by
  have ho : openQuote (q :: s ++ q :: r) = some (false, q, s ++ q :: r) := by
    rcases hq with rfl | rfl <;> rfl
  unfold pyString
  rw [ho]
  simp only
  rw [if_neg]
  · exact strTail_plain h r false
  · have h2 : strTail false q (s ++ [q]) = some (s, []) := strTail_plain h [] false
    have := take2_ext (r := r) h2 ?_ ?_
    · simpa using this
    · cases s with
      | nil => simp
      | cons a s =>
        simp only [Plain, List.all_cons, Bool.and_eq_true, bne_iff_ne, ne_eq] at h
        cases s <;> simp [h.1.1.1.1]
    · intro c r' e
      rcases hq with rfl | rfl
      · exact (hr c r' e).2.2.1
      · exact (hr c r' e).2.2.2

theorem tok_nil : Tok [] := by intro c r' h; cases h

theorem tok_cons {c : Char} {r : Str} (h : isIdChar c = false) (h1 : c ≠ '.') (h2 : c ≠ '"') (h3 : c ≠ '\'') :
    Tok (c :: r) := by
  intro d r' e
  simp only [List.cons.injEq] at e
  rw [← e.1]
  exact ⟨h, h1, h2, h3⟩

theorem dig_idChar {c : Char} (h : isDig c = true) : isIdChar c = true := by
  simp only [isIdChar, Bool.or_eq_true]; exact .inr (by simpa [isDig] using h)

theorem numEnds_of {r : Str} (hr : Tok r) : numEnds r = true := by
  cases r with
  | nil => rfl
  | cons d r =>
    have := hr d r rfl
    simp [numEnds, this.1, this.2.1]

theorem pyNumber_ext {c r : Str} {n : Str × Str} (h : pyNumber c = some (n, [])) (hr : Tok r) :
    pyNumber (c ++ r) = some (n, r) := by
  have hd : ∀ d r', r = d :: r' → isDig d = false := by
    intro d r' e
    cases hc : isDig d with
    | false => rfl
    | true => have := (hr d r' e).1; rw [dig_idChar hc] at this; cases this
  simp only [pyNumber] at h ⊢
  cases hs : spanC isDig c with
  | mk w t =>
    rw [hs] at h
    have hw : ∀ d ∈ w, isDig d = true := by have := spanC_all (p := isDig) c; rwa [hs] at this
    have hwt : w ++ t = c := by have := spanC_eq (p := isDig) c; rwa [hs] at this
    simp only at h
    split at h
    · cases h
    rename_i hne
    cases t with
    | nil =>
      simp only [List.append_nil] at hwt
      subst hwt
      rw [spanC_append hw hd]
      simp only [List.head?_nil, reduceCtorEq, if_false] at h
      simp only [if_neg hne]
      split at h
      · rename_i hz
        rw [Option.some.injEq, Prod.mk.injEq] at h
        rw [if_neg, if_pos ⟨numEnds_of hr, hz.2⟩, h.1]
        intro e
        cases r with
        | nil => cases e
        | cons d r => simp only [List.head?_cons, Option.some.injEq] at e; exact (hr d r rfl).2.1 e
      · cases h
    | cons d t =>
      rw [spanC_ext hs r]
      simp only [if_neg hne]
      simp only [List.head?_cons, Option.some.injEq, List.tail_cons, List.cons_append] at h ⊢
      split at h
      · rename_i e
        rw [if_pos e]
        cases hf : spanC isDig t with
        | mk f u =>
          simp only [hf] at h
          have hff : ∀ d ∈ f, isDig d = true := by have := spanC_all (p := isDig) t; rwa [hf] at this
          have hft : f ++ u = t := by have := spanC_eq (p := isDig) t; rwa [hf] at this
          split at h
          · rename_i hz
            rw [Option.some.injEq, Prod.mk.injEq] at h
            obtain ⟨h1, rfl⟩ := h
            rw [List.append_nil] at hft
            subst hft
            simp only [spanC_append hff hd]
            rw [if_pos ⟨hz.1, numEnds_of hr⟩, h1]
          · cases h
      · split at h
        · rw [Option.some.injEq, Prod.mk.injEq] at h
          cases h.2
        · cases h

/-! ### steps of the reader -/

theorem not_space_of {p : Char → Bool} (hp : p ' ' = false ∧ p '\t' = false ∧ p '\r' = false ∧ p '\n' = false)
    {c : Char} (h : p c = true) : isSpace c = false := by
  cases hs : isSpace c with
  | false => rfl
  | true =>
    exfalso
    simp only [isSpace, Bool.or_eq_true, beq_iff_eq] at hs
    rcases hs with ((rfl | rfl) | rfl) | rfl <;> simp_all

theorem idStart_space {c : Char} (h : isIdStart c = true) : isSpace c = false := not_space_of (by decide) h

theorem dig_space {c : Char} (h : isDig c = true) : isSpace c = false := not_space_of (by decide) h

/-- level of the operator that comes next -/
def nextLev (r : Str) : Option Nat := (opTok (skipB r)).bind fun x => opLevel x.1

theorem rd_pos {n : Nat} {G : Goal} {x : Res} (h : rd n G = some x) : ∃ m, n = m + 1 := by
  cases n with
  | zero => cases h
  | succ m => exact ⟨m, rfl⟩

theorem loop_stop {k n : Nat} {l : PyE} {r : Str} (h : nextLev r ≠ some k) : rd (n + 1) (.loop k l r) = some ([l], r) := by
  show rdStep _ _ = _
  simp only [rdStep]
  unfold nextLev at h
  split
  · rename_i op r' he
    rw [he] at h
    rw [if_neg (by simpa using h)]
    rfl
  · rfl

theorem lev_down {k n : Nat} {s r : Str} {t : PyE} (h : rd n (.lev (k + 1) s) = some ([t], r)) (hk : k < 10)
    (hr : nextLev r ≠ some k) : rd (n + 1) (.lev k s) = some ([t], r) := by
  show rdStep _ _ = _
  simp only [rdStep]
  split
  · rename_i h2; subst h2; exact h
  · rw [h]
    obtain ⟨m, rfl⟩ := rd_pos h
    exact loop_stop hr

theorem lev_to {k n : Nat} {s r : Str} {t : PyE} (h : rd n (.lev k s) = some ([t], r)) (hk : k ≤ 10) :
    ∀ j, j ≤ k → (∀ i, j ≤ i → i < k → nextLev r ≠ some i) → rd (n + (k - j)) (.lev j s) = some ([t], r) := by
  intro j hj
  induction hd : k - j generalizing j with
  | zero =>
    intro _
    have : j = k := by omega
    subst this
    exact h
  | succ d ih =>
    intro hr
    have := ih (j + 1) (by omega) (by omega) (fun i hi => hr i (by omega))
    exact lev_down this (by omega) (hr j (by omega) (by omega))

theorem step_inv {n : Nat} {s s' r : Str} {t : PyE} (hs : skipB s = '~' :: s')
    (h : rd n (.lev 10 s') = some ([t], r)) : rd (n + 1) (.lev 10 s) = some ([.inv t], r) := by
  show rdStep _ _ = _
  simp only [rdStep]
  rw [if_neg (by decide), if_neg (by decide), hs]
  simp only [if_true, h]
  rfl

theorem step_neg {n : Nat} {s s' r : Str} {t : PyE} (hs : skipB s = '-' :: s')
    (h : rd n (.lev 10 s') = some ([t], r)) : rd (n + 1) (.lev 10 s) = some ([.neg t], r) := by
  show rdStep _ _ = _
  simp only [rdStep]
  rw [if_neg (by decide), if_neg (by decide), hs]
  simp only [if_neg (show ¬ '-' = '~' by decide), if_true, h]
  rfl

theorem step_prim {n : Nat} {s s' : Str} {c : Char} {x : Res} (hs : skipB s = c :: s') (h1 : c ≠ '~') (h2 : c ≠ '-')
    (h : rd n (.prim (c :: s')) = some x) : rd (n + 1) (.lev 10 s) = some x := by
  show rdStep _ _ = _
  simp only [rdStep]
  rw [if_neg (by decide), if_neg (by decide), hs]
  simp only [if_neg h1, if_neg h2, h]

theorem prim_str {n : Nat} {s v r : Str} {x : Res} (hs : pyString s = some (v, r))
    (h : rd n (.post (.str v) r) = some x) : rd (n + 1) (.prim s) = some x := by
  show rdStep _ _ = _
  simp only [rdStep, hs]
  exact h

theorem prim_num {n : Nat} {s r : Str} {k : Str × Str} {x : Res} (hs : pyString s = none)
    (hn : pyNumber s = some (k, r)) (h : rd n (.post (.num k.1 k.2) r) = some x) : rd (n + 1) (.prim s) = some x := by
  show rdStep _ _ = _
  simp only [rdStep, hs, hn]
  exact h

theorem prim_name {n : Nat} {s r k : Str} {x : Res} (hs : pyString s = none) (hd : pyNumber s = none)
    (hn : pyName s = some (k, r)) (h : rd n (.post (.name k) r) = some x) : rd (n + 1) (.prim s) = some x := by
  show rdStep _ _ = _
  simp only [rdStep, hs, hn, hd]
  exact h

theorem prim_paren {n : Nat} {s r r' : Str} {e : PyE} {x : Res} (h : rd n (.lev 0 s) = some ([e], r))
    (hr : skipB r = ')' :: r') (h' : rd n (.post e r') = some x) : rd (n + 1) (.prim ('(' :: s)) = some x := by
  show rdStep _ _ = _
  have h1 : pyString ('(' :: s) = none := rfl
  have h2 : pyNumber ('(' :: s) = none := rfl
  have h3 : pyName ('(' :: s) = none := rfl
  simp only [rdStep, h1, h2, h3, if_true, h]
  unfold Res.elim closed
  simp only [hr, if_true, h']

theorem post_stop {n : Nat} {e : PyE} {s : Str} (h : ∀ c r, skipB s = c :: r → c ≠ '.' ∧ c ≠ '(') :
    rd (n + 1) (.post e s) = some ([e], s) := by
  show rdStep _ _ = _
  simp only [rdStep]
  cases hs : skipB s with
  | nil => rfl
  | cons c r =>
    have := h c r hs
    simp only [if_neg this.1, if_neg this.2]
    rfl

theorem post_attr {n : Nat} {e : PyE} {f r : Str} {x : Res} (hf : isIdent f = true)
    (hr : ∀ c r', r = c :: r' → isIdChar c = false) (h : rd n (.post (.attr e f) r) = some x) :
    rd (n + 1) (.post e ('.' :: f ++ r)) = some x := by
  show rdStep _ _ = _
  obtain ⟨c, cs, hc, hc1, _⟩ := ident_all hf
  have h1 : skipB ('.' :: f ++ r) = '.' :: (f ++ r) := skipB_cons rfl
  have h2 : skipB (f ++ r) = f ++ r := by rw [hc]; exact skipB_cons (idStart_space hc1)
  simp only [rdStep, h1, if_true, h2, pyName_append hf hr]
  exact h

/-- no keyword arguments -/
theorem argsOk_of {as : List PyE} (h : ∀ a ∈ as, isKw a = false) : argsOk as = true := by
  induction as with
  | nil => rfl
  | cons a as ih =>
    have := h a (by simp)
    have ih := ih fun b hb => h b (by simp [hb])
    cases a <;> first | exact ih | simp [isKw] at this

theorem post_call {n : Nat} {e : PyE} {s r : Str} {as : List PyE} {x : Res}
    (h : rd n (.items ')' [] s) = some (as, r)) (ho : argsOk as = true) (h' : rd n (.post (.call e as) r) = some x) :
    rd (n + 1) (.post e ('(' :: s)) = some x := by
  show rdStep _ _ = _
  have h1 : skipB ('(' :: s) = '(' :: s := skipB_cons rfl
  simp only [rdStep, h1, if_true, if_neg (show ¬ '(' = '.' by decide), h, ho]
  exact h'

theorem items_close {n : Nat} {acc : List PyE} {c : Char} {s r : Str} (hs : skipB s = c :: r) :
    rd (n + 1) (.items c acc s) = some (acc.reverse, r) := by
  show rdStep _ _ = _
  simp only [rdStep, hs, if_true]

theorem items_last {n : Nat} {acc : List PyE} {c : Char} {s r r' : Str} {t : PyE} {d : Char} {s' : Str}
    (hs : skipB s = d :: s') (hd : d ≠ c) (h : rd n (.item (d :: s')) = some ([t], r)) (hr : skipB r = c :: r')
    (hc : c ≠ ',') : rd (n + 1) (.items c acc s) = some ((t :: acc).reverse, r') := by
  show rdStep _ _ = _
  simp only [rdStep, hs, if_neg hd, h]
  unfold Res.elim
  simp only [hr, if_neg hc, if_true]

theorem items_more {n : Nat} {acc : List PyE} {c : Char} {s r r' : Str} {t : PyE} {d : Char} {s' : Str} {x : Res}
    (hs : skipB s = d :: s') (hd : d ≠ c) (h : rd n (.item (d :: s')) = some ([t], r)) (hr : skipB r = ',' :: r')
    (h' : rd n (.items c (t :: acc) r') = some x) : rd (n + 1) (.items c acc s) = some x := by
  show rdStep _ _ = _
  simp only [rdStep, hs, if_neg hd, h]
  unfold Res.elim
  simp only [hr, if_true, h']

/-- No expression begins with the word `lambda`. -/
theorem lev_lambda {s : Str} (hs : (spanC isIdChar s).1 = c!"lambda") : ∀ n k, rd n (.lev k s) = none
  | 0, _ => rfl
  | n + 1, k => by
    obtain ⟨s', rfl⟩ : ∃ s', s = 'l' :: s' := by
      cases s with
      | nil => simp [spanC] at hs
      | cons c s' =>
        simp only [spanC] at hs
        split at hs
        · simp only [List.cons.injEq] at hs
          exact ⟨s', by rw [hs.1]⟩
        · simp at hs
    have hp : rd n (.prim ('l' :: s')) = none := by
      cases n with
      | zero => rfl
      | succ n =>
        show rdStep _ _ = _
        have h1 : pyString ('l' :: s') = none := rfl
        have h2 : pyNumber ('l' :: s') = none := rfl
        have h3 : pyName ('l' :: s') = none := by
          unfold pyName
          simp only [show isIdStart 'l' = true from by decide, if_true, hs]
          rfl
        simp only [rdStep, h1, h2, h3]
        rfl
    show rdStep _ _ = _
    simp only [rdStep]
    split
    · exact lev_lambda hs n 3
    · split
      · rw [lev_lambda hs n (k + 1)]; rfl
      · rw [skipB_cons rfl]
        simp only [if_neg (show ¬ 'l' = '~' by decide), if_neg (show ¬ 'l' = '-' by decide), hp]

theorem lev_notLam {n k : Nat} {s : Str} {x : Res} (h : rd n (.lev k s) = some x) : lamHead s = none := by
  unfold lamHead
  dsimp only
  split
  · rename_i hs
    rw [lev_lambda hs n k] at h
    cases h
  · rfl

theorem item_expr {n : Nat} {s : Str} {x : Res} (hs : kwName s = none) (h : rd n (.lev 0 s) = some x) :
    rd (n + 1) (.item s) = some x := by
  show rdStep _ _ = _
  simp only [rdStep, hs, lev_notLam h, h]

theorem item_lam {n : Nat} {s r r' : Str} {ps : List Str} {e : PyE} (hs : kwName s = none) (hl : lamHead s = some (ps, r))
    (h : rd n (.lev 0 r) = some ([e], r')) : rd (n + 1) (.item s) = some ([.lam ps e], r') := by
  show rdStep _ _ = _
  simp only [rdStep, hs, hl, h]
  rfl

theorem lev_blank {n : Nat} {s : Str} : rd n (.lev 10 (' ' :: s)) = rd n (.lev 10 s) := by
  cases n with
  | zero => rfl
  | succ n =>
    show rdStep _ _ = rdStep _ _
    simp [rdStep, skipB_space]

theorem lams_cases {e : PE} {es : List PE} {ts : List PyE} (h : lamTrees (e :: es) = some ts) :
    (∃ t us, pyTree e = some t ∧ lamTrees es = some us ∧ ts = t :: us) ∨ ∃ c t, e = .py c ∧ es = [] ∧ lamTree c = some t ∧ ts = [t] := by
  rw [lamTrees] at h
  split at h
  · rename_i t us ht hus
    exact .inl ⟨t, us, ht, hus, (Option.some.inj h).symm⟩
  · unfold lastLam at h
    split at h
    · simp only [Option.map_eq_some_iff] at h
      obtain ⟨t, ht, rfl⟩ := h
      exact .inr ⟨_, t, rfl, rfl, ht, rfl⟩
    · cases h
  · cases h

/-- A call is its function and its arguments, the last of which may be a lambda expression. -/
theorem fn_tree {f : Str} {args : List PE} {t : PyE} (h : pyTree (.fn f args) = some t) :
    ∃ u us, funcTree f = some u ∧ (pyTrees args = some us ∨ lamTrees args = some us) ∧ t = .call u us := by
  rw [pyTree] at h
  split at h
  · rename_i u us hu hus
    exact ⟨u, us, hu, .inl hus, (Option.some.inj h).symm⟩
  · rename_i u hu _
    simp only [Option.map_eq_some_iff] at h
    obtain ⟨us, hus, rfl⟩ := h
    exact ⟨u, us, hu, .inr hus, rfl⟩
  · cases h

/-! ### leaves -/

theorem code_cases {c : Str} {t : PyE} (h : codeTree c = some t) :
    (∃ v, pyString c = some (v, []) ∧ t = .str v) ∨
    (∃ n, pyNumber c = some (n, []) ∧ t = .num n.1 n.2) ∨
    (∃ d n, c = '-' :: d ∧ pyNumber d = some (n, []) ∧ t = .neg (.num n.1 n.2)) ∨
    (isIdent c = true ∧ t = .name c) := by
  unfold codeTree at h
  split at h
  · rename_i v hv
    exact .inl ⟨v, hv, (Option.some.inj h).symm⟩
  · split at h
    · rename_i n hn
      exact .inr (.inl ⟨n, hn, (Option.some.inj h).symm⟩)
    · split at h
      · rename_i d _ _
        split at h
        · rename_i n hn
          exact .inr (.inr (.inl ⟨d, n, rfl, hn, (Option.some.inj h).symm⟩))
        · cases h
      · split at h
        · rename_i hi
          exact .inr (.inr (.inr ⟨hi, (Option.some.inj h).symm⟩))
        · cases h

theorem pyNumber_head {c : Str} {x : (Str × Str) × Str} (h : pyNumber c = some x) :
    ∃ d ds, c = d :: ds ∧ isDig d = true := by
  cases c with
  | nil => simp [pyNumber, spanC] at h
  | cons d ds =>
    refine ⟨d, ds, rfl, ?_⟩
    cases hd : isDig d with
    | true => rfl
    | false => simp [pyNumber, spanC, hd] at h

theorem pyString_head {c : Str} {x : Str × Str} (h : pyString c = some x) :
    ∃ d ds, c = d :: ds ∧ (d = '"' ∨ d = '\'' ∨ d = 'r') := by
  cases c with
  | nil => cases h
  | cons d ds =>
    refine ⟨d, ds, rfl, ?_⟩
    unfold pyString at h
    split at h
    · cases h
    · rename_i ho
      simp only [openQuote] at ho
      split at ho
      · rename_i hd
        simp only [Bool.or_eq_true, decide_eq_true_eq] at hd
        rcases hd with hd | hd
        · exact .inl hd
        · exact .inr (.inl hd)
      · split at ho
        · rename_i hd; exact .inr (.inr hd)
        · cases ho

theorem pyString_none {c : Char} {cs : Str} (h : c ≠ '"' ∧ c ≠ '\'') (h' : c = 'r' → ∀ d ds, cs = d :: ds → d ≠ '"' ∧ d ≠ '\'') :
    pyString (c :: cs) = none := by
  unfold pyString
  have : openQuote (c :: cs) = none := by
    simp only [openQuote]
    rw [if_neg (by simp [h.1, h.2])]
    split
    · rename_i hc
      cases cs with
      | nil => rfl
      | cons d ds =>
        have := h' hc d ds rfl
        simp [this.1, this.2]
    · rfl
  rw [this]

theorem dig_quote {c : Char} (h : isDig c = true) : c ≠ '"' ∧ c ≠ '\'' ∧ c ≠ 'r' ∧ c ≠ '~' ∧ c ≠ '-' ∧ c ≠ ')' ∧ c ≠ ']' := by
  refine ⟨?_, ?_, ?_, ?_, ?_, ?_, ?_⟩ <;> (rintro rfl; revert h; decide)

theorem idStart_ne {c : Char} (h : isIdStart c = true) : c ≠ '"' ∧ c ≠ '\'' ∧ c ≠ '~' ∧ c ≠ '-' ∧ c ≠ ')' ∧ c ≠ ']' ∧ isDig c = false := by
  refine ⟨?_, ?_, ?_, ?_, ?_, ?_, ?_⟩
  iterate 6 (rintro rfl; revert h; decide)
  cases hd : isDig c with
  | false => rfl
  | true =>
    exfalso
    simp only [isDig, Bool.and_eq_true, decide_eq_true_eq] at hd
    simp only [isIdStart, Bool.or_eq_true, Bool.and_eq_true, decide_eq_true_eq, beq_iff_eq] at h
    rcases h with (⟨h1, _⟩ | ⟨h1, _⟩) | rfl
    · have := Char.le_def.1 h1; have := Char.le_def.1 hd.2
      simp only [UInt32.le_iff_toNat_le] at *
      simp at *
      omega
    · have := Char.le_def.1 h1; have := Char.le_def.1 hd.2
      simp only [UInt32.le_iff_toNat_le] at *
      simp at *
      omega
    · revert hd; decide

theorem pyNumber_none {c : Char} {cs : Str} (h : isDig c = false) : pyNumber (c :: cs) = none := by
  simp [pyNumber, spanC, h]

/-- What follows an expression: it continues no token and is no trailer. -/
structure After (r : Str) : Prop where
  tok : Tok r
  post : ∀ c r', skipB r = c :: r' → c ≠ '.' ∧ c ≠ '('

theorem ident_string {n r : Str} (h : isIdent n = true) (hr : Tok r) : pyString (n ++ r) = none := by
  obtain ⟨c, cs, rfl, hc, hcs, _⟩ := ident_all h
  have := idStart_ne hc
  refine pyString_none ⟨this.1, this.2.1⟩ ?_
  intro _ d ds e
  cases cs with
  | nil => exact ⟨(hr d ds e).2.2.1, (hr d ds e).2.2.2⟩
  | cons a cs =>
    have e : a :: (cs ++ r) = d :: ds := e
    simp only [List.cons.injEq] at e
    have ha := hcs a (by simp)
    rw [← e.1]
    constructor <;> (rintro rfl; revert ha; decide)

theorem ident_number {n r : Str} (h : isIdent n = true) : pyNumber (n ++ r) = none := by
  obtain ⟨c, cs, rfl, hc, hcs, _⟩ := ident_all h
  exact pyNumber_none (idStart_ne hc).2.2.2.2.2.2

/-- A piece of code followed by anything that does not continue it. -/
theorem rd_code {c r : Str} {t : PyE} (h : codeTree c = some t) (hr : After r) :
    rd 4 (.lev 10 (c ++ r)) = some ([t], r) := by
  rcases code_cases h with ⟨v, hv, rfl⟩ | ⟨n, hn, rfl⟩ | ⟨d, n, rfl, hn, rfl⟩ | ⟨hi, rfl⟩
  · obtain ⟨d, ds, rfl, hd⟩ := pyString_head hv
    have hs : isSpace d = false := by rcases hd with rfl | rfl | rfl <;> rfl
    refine step_prim (skipB_cons hs) ?_ ?_ (prim_str (r := r) (pyString_ext hv hr.tok) (post_stop hr.post))
    · rcases hd with rfl | rfl | rfl <;> decide
    · rcases hd with rfl | rfl | rfl <;> decide
  · obtain ⟨d, ds, rfl, hd⟩ := pyNumber_head hn
    have hq := dig_quote hd
    refine step_prim (skipB_cons (dig_space hd)) hq.2.2.2.1 hq.2.2.2.2.1
      (prim_num (pyString_none ⟨hq.1, hq.2.1⟩ (fun e => absurd e hq.2.2.1)) (pyNumber_ext hn hr.tok) (post_stop hr.post))
  · obtain ⟨d, ds, rfl, hd⟩ := pyNumber_head hn
    have hq := dig_quote hd
    exact step_neg (skipB_cons rfl) (step_prim (skipB_cons (dig_space hd)) hq.2.2.2.1 hq.2.2.2.2.1
      (prim_num (pyString_none ⟨hq.1, hq.2.1⟩ (fun e => absurd e hq.2.2.1)) (pyNumber_ext hn hr.tok) (post_stop hr.post)))
  · have h1 := ident_string hi hr.tok
    have h2 := ident_number (r := r) hi
    have h3 := pyName_append hi (fun c r' e => (hr.tok c r' e).1)
    obtain ⟨d, ds, hd, hd1, _⟩ := ident_all hi
    have hq := idStart_ne hd1
    have := prim_name h1 h2 h3 (post_stop (n := 0) hr.post)
    rw [hd] at this ⊢
    exact rd_mono (step_prim (skipB_cons (idStart_space hd1)) hq.2.2.1 hq.2.2.2.1 this) (by omega)

/-! ### operators -/

def allOps : List Str :=
  [c!"or", c!"and", c!"==", c!"!=", c!"<", c!"<=", c!">", c!">=", c!"|", c!"^", c!"&", c!"<<", c!">>",
   c!"+", c!"-", c!"*", c!"/", c!"//", c!"%"]

theorem op_mem {op : Str} {k : Nat} (h : opLevel op = some k) : op ∈ allOps := by
  by_cases hm : op ∈ allOps
  · exact hm
  · exfalso
    simp only [allOps, List.mem_cons, List.not_mem_nil, not_or, or_false] at hm
    simp [opLevel, hm] at h

theorem op_tok {op r : Str} (h : op ∈ allOps) : opTok (op ++ ' ' :: r) = some (op, ' ' :: r) := by
  revert h op
  simp only [allOps, List.forall_mem_cons]
  refine ⟨?_, ?_, ?_, ?_, ?_, ?_, ?_, ?_, ?_, ?_, ?_, ?_, ?_, ?_, ?_, ?_, ?_, ?_, ?_, by simp⟩
  all_goals rfl

theorem op_head {op : Str} (h : op ∈ allOps) : ∃ c cs, op = c :: cs ∧ isSpace c = false ∧ c ≠ '.' ∧ c ≠ '(' := by
  revert h op
  simp only [allOps, List.forall_mem_cons]
  refine ⟨?_, ?_, ?_, ?_, ?_, ?_, ?_, ?_, ?_, ?_, ?_, ?_, ?_, ?_, ?_, ?_, ?_, ?_, ?_, by simp⟩
  all_goals exact ⟨_, _, rfl, by decide⟩

theorem op_level {op : Str} {k : Nat} (h : opLevel op = some k) : k < 10 ∧ k ≠ 2 := by
  have hm := op_mem h
  revert hm h op
  suffices H : ∀ op ∈ allOps, ∀ j, opLevel op = some j → j < 10 ∧ j ≠ 2 from fun {op} h hm => H op hm k h
  simp only [allOps, List.forall_mem_cons]
  refine ⟨?_, ?_, ?_, ?_, ?_, ?_, ?_, ?_, ?_, ?_, ?_, ?_, ?_, ?_, ?_, ?_, ?_, ?_, ?_, by simp⟩
  all_goals (intro j hj; have := Option.some.inj hj; subst this; decide)

theorem op_after {op r : Str} (h : op ∈ allOps) : After (' ' :: op ++ ' ' :: r) := by
  constructor
  · exact tok_cons (by decide) (by decide) (by decide) (by decide)
  · intro c r' e
    rw [List.cons_append, skipB_space] at e
    obtain ⟨d, ds, rfl, hs, h1, h2⟩ := op_head h
    rw [List.cons_append, skipB_cons hs] at e
    simp only [List.cons.injEq] at e
    rw [← e.1]
    exact ⟨h1, h2⟩

theorem op_next {op r : Str} {k : Nat} (h : opLevel op = some k) : nextLev (' ' :: op ++ ' ' :: r) = some k := by
  have hm := op_mem h
  unfold nextLev
  have : skipB (' ' :: op ++ ' ' :: r) = op ++ ' ' :: r := by
    rw [List.cons_append, skipB_space]
    obtain ⟨d, ds, rfl, hs, _⟩ := op_head hm
    exact skipB_cons hs
  rw [this, op_tok hm]
  exact h

/-- `a op b` followed by something that is no operator -/
theorem rd_bin {n m : Nat} {s r r' op : Str} {a b : PyE} {k : Nat} (hk : opLevel op = some k)
    (ha : rd n (.lev 10 s) = some ([a], ' ' :: op ++ ' ' :: r)) (hb : rd m (.lev 10 r) = some ([b], r'))
    (hr : nextLev r' = none) : rd (max n m + 13) (.lev 0 s) = some ([.bin op a b], r') := by
  obtain ⟨hk10, hk2⟩ := op_level hk
  have hn : nextLev (' ' :: op ++ ' ' :: r) = some k := op_next hk
  have h1 : rd (n + (10 - (k + 1))) (.lev (k + 1) s) = some ([a], ' ' :: op ++ ' ' :: r) :=
    lev_to ha (by omega) (k + 1) (by omega) (by
      intro i hi _ e
      rw [hn] at e
      have := Option.some.inj e
      omega)
  have hb' : rd m (.lev 10 (' ' :: r)) = some ([b], r') := by
    obtain ⟨m', rfl⟩ := rd_pos hb
    have e1 : rd (m' + 1) (.lev 10 (' ' :: r)) = rd (m' + 1) (.lev 10 r) := by
      show rdStep _ _ = rdStep _ _
      simp [rdStep, skipB_space]
    rw [e1]; exact hb
  have h2 : rd (m + (10 - (k + 1))) (.lev (k + 1) (' ' :: r)) = some ([b], r') :=
    lev_to hb' (by omega) (k + 1) (by omega) (by intro i _ _; rw [hr]; simp)
  have hpos := rd_pos hb
  have h3 : rd (max n m + (10 - k) + 1) (.loop k a (' ' :: op ++ ' ' :: r)) = some ([.bin op a b], r') := by
    show rdStep _ _ = _
    have hm := op_mem hk
    have : skipB (' ' :: op ++ ' ' :: r) = op ++ ' ' :: r := by
      rw [List.cons_append, skipB_space]
      obtain ⟨d, ds, rfl, hs, _⟩ := op_head hm
      exact skipB_cons hs
    simp only [rdStep, this, op_tok hm, hk, if_true]
    rw [rd_mono h2 (m := max n m + (10 - k)) (by omega)]
    simp only [Res.elim]
    split
    · rfl
    · obtain ⟨j, hj⟩ : ∃ j, max n m + (10 - k) = j + 1 := ⟨max n m + (10 - k) - 1, by omega⟩
      rw [hj]
      exact loop_stop (by rw [hr]; simp)
  have h4 : rd (max n m + (10 - k) + 2) (.lev k s) = some ([.bin op a b], r') := by
    show rdStep _ _ = _
    simp only [rdStep, if_neg hk2, if_pos hk10]
    rw [rd_mono h1 (m := max n m + (10 - k) + 1) (by omega)]
    simp only [Res.elim]
    exact h3
  have h5 := lev_to h4 (by omega) 0 (by omega) (by intro i _ _; rw [hr]; simp)
  exact rd_mono h5 (by omega)

/-! ### what comes after an argument -/

theorem next_close {c : Char} {r : Str} (hc : c = ',' ∨ c = ')' ∨ c = ']') : nextLev (c :: r) = none := by
  unfold nextLev
  have hs : skipB (c :: r) = c :: r := by rcases hc with rfl | rfl | rfl <;> exact skipB_cons rfl
  rw [hs]
  have : opTok (c :: r) = none := by
    cases r with
    | nil => rcases hc with rfl | rfl | rfl <;> rfl
    | cons d r =>
      simp only [opTok]
      rw [if_neg, if_neg, if_neg]
      · rcases hc with rfl | rfl | rfl <;> decide
      · rcases hc with rfl | rfl | rfl <;> decide
      · rcases hc with rfl | rfl | rfl <;> simp [opTwo]
  rw [this]; rfl

theorem after_close {c : Char} {r : Str} (hc : c = ',' ∨ c = ')' ∨ c = ']') : After (c :: r) := by
  constructor
  · rcases hc with rfl | rfl | rfl <;> exact tok_cons (by decide) (by decide) (by decide) (by decide)
  · intro d r' e
    have hs : skipB (c :: r) = c :: r := by rcases hc with rfl | rfl | rfl <;> exact skipB_cons rfl
    rw [hs] at e
    simp only [List.cons.injEq] at e
    rw [← e.1]
    rcases hc with rfl | rfl | rfl <;> decide

theorem next_nil : nextLev [] = none := rfl

theorem after_nil : After [] := ⟨tok_nil, by intro c r' e; cases e⟩

/-! ### heads -/

theorem code_head {c : Str} {t : PyE} (h : codeTree c = some t) :
    ∃ d ds, c = d :: ds ∧ isSpace d = false ∧ d ≠ ')' ∧ d ≠ ']' := by
  rcases code_cases h with ⟨v, hv, rfl⟩ | ⟨n, hn, rfl⟩ | ⟨d, n, rfl, hn, rfl⟩ | ⟨hi, rfl⟩
  · obtain ⟨d, ds, rfl, hd⟩ := pyString_head hv
    exact ⟨d, ds, rfl, by rcases hd with rfl | rfl | rfl <;> decide⟩
  · obtain ⟨d, ds, rfl, hd⟩ := pyNumber_head hn
    have := dig_quote hd
    exact ⟨d, ds, rfl, dig_space hd, this.2.2.2.2.2.1, this.2.2.2.2.2.2⟩
  · exact ⟨_, _, rfl, by decide⟩
  · obtain ⟨d, ds, rfl, hd, _⟩ := ident_all hi
    have := idStart_ne hd
    exact ⟨d, ds, rfl, idStart_space hd, this.2.2.2.2.1, this.2.2.2.2.2.1⟩

/-- text of a function name -/
def funcText (f : Str) : Str := if f.contains '.' then f else c!"F." ++ f

def pathText (ns : List Str) : Str := ns.flatMap fun n => '.' :: n

theorem split_path : ∀ {f n : Str} {ns : List Str}, splitOnC '.' f = n :: ns → f = n ++ pathText ns
  | [], n, ns, h => by simp [splitOnC] at h; simp [← h.1, h.2, pathText]
  | c :: cs, n, ns, h => by
    simp only [splitOnC] at h
    cases hs : splitOnC '.' cs with
    | nil =>
      exfalso
      cases cs with
      | nil => simp [splitOnC] at hs
      | cons d ds =>
        simp only [splitOnC] at hs
        split at hs
        · cases hs
        · split at hs <;> cases hs
    | cons m ms =>
      have ih := split_path hs
      split at h
      · rename_i hc
        rw [hs] at h
        simp only [List.cons.injEq] at h
        obtain ⟨rfl, rfl⟩ := h
        simp [pathText, hc, ih]
      · rw [hs] at h
        simp only [List.cons.injEq] at h
        obtain ⟨rfl, rfl⟩ := h
        simp [ih]

theorem func_shape {f : Str} {t : PyE} (h : funcTree f = some t) :
    ∃ n ns, isIdent n = true ∧ pathTree (.name n) ns = some t ∧ funcText f = n ++ pathText ns ∧ ns ≠ [] := by
  unfold funcTree at h
  unfold funcText
  split at h
  · rename_i hf
    rw [if_pos hf]
    split at h
    · rename_i n ns hs
      split at h
      · rename_i hi
        refine ⟨n, ns, hi, h, split_path hs, ?_⟩
        rintro rfl
        have := split_path hs
        simp only [pathText, List.flatMap_nil, List.append_nil] at this
        subst this
        obtain ⟨c, cs, rfl, h1, h2, _⟩ := ident_all hi
        simp only [List.contains_eq_mem, List.mem_cons, decide_eq_true_eq] at hf
        rcases hf with rfl | hf
        · revert h1; decide
        · have := h2 _ hf; revert this; decide
      · cases h
    · cases h
  · rename_i hf
    rw [if_neg hf]
    exact ⟨c!"F", [f], by decide, h, by simp [pathText], by simp⟩

theorem post_path : ∀ {ns : List Str} {e t : PyE}, pathTree e ns = some t → ∀ {r : Str} {n : Nat} {x : Res},
    (∀ c r', r = c :: r' → isIdChar c = false) → rd n (.post t r) = some x →
    rd (n + ns.length) (.post e (pathText ns ++ r)) = some x
  | [], e, t, h, r, n, x, _, hx => by
    simp only [pathTree, Option.some.injEq] at h
    subst h
    exact hx
  | m :: ns, e, t, h, r, n, x, hr, hx => by
    simp only [pathTree] at h
    split at h
    · rename_i hm
      have ih := post_path h hr hx
      have : pathText (m :: ns) ++ r = '.' :: m ++ (pathText ns ++ r) := by simp [pathText]
      rw [this]
      refine post_attr hm ?_ ih
      intro c r' e
      cases ns with
      | nil => exact hr c r' e
      | cons k ns => simp [pathText] at e; rw [← e.1]; decide
    · cases h

theorem path_length (ns : List Str) : ns.length ≤ (pathText ns).length := by
  induction ns with
  | nil => simp
  | cons n ns ih => simp [pathText] at ih ⊢; omega

theorem rd_func {f r : Str} {t : PyE} (h : funcTree f = some t) {n : Nat} {x : Res}
    (hx : rd n (.post t ('(' :: r)) = some x) :
    rd (n + (funcText f).length + 2) (.lev 10 (funcText f ++ '(' :: r)) = some x := by
  obtain ⟨m, ns, hm, hp, ht, hne⟩ := func_shape h
  have h1 := post_path hp (r := '(' :: r) (by intro c r' e; simp only [List.cons.injEq] at e; rw [← e.1]; decide) hx
  rw [ht, List.append_assoc]
  have hid : ∀ c r', pathText ns ++ '(' :: r = c :: r' → isIdChar c = false := by
    intro c r' e
    cases ns with
    | nil => exact absurd rfl hne
    | cons k ns => simp [pathText] at e; rw [← e.1]; decide
  have hs : pyString (m ++ (pathText ns ++ '(' :: r)) = none := by
    obtain ⟨c, cs, rfl, hc, hcs, _⟩ := ident_all hm
    have := idStart_ne hc
    refine pyString_none ⟨this.1, this.2.1⟩ ?_
    intro _ d ds e
    cases cs with
    | nil =>
      cases ns with
      | nil => exact absurd rfl hne
      | cons k ns => simp [pathText] at e; rw [← e.1]; decide
    | cons a cs =>
      have e : a :: (cs ++ (pathText ns ++ '(' :: r)) = d :: ds := e
      simp only [List.cons.injEq] at e
      have ha := hcs a (by simp)
      rw [← e.1]
      constructor <;> (rintro rfl; revert ha; decide)
  have h2 := prim_name hs (ident_number hm) (pyName_append hm hid) h1
  obtain ⟨c, cs, rfl, hc, _⟩ := ident_all hm
  have hq := idStart_ne hc
  have h3 := step_prim (s := c :: cs ++ (pathText ns ++ '(' :: r)) (skipB_cons (idStart_space hc)) hq.2.2.1 hq.2.2.2.1 h2
  refine rd_mono h3 ?_
  have := path_length ns
  simp only [List.length_append, List.length_cons]
  omega

/-! ### rendered column expressions -/

theorem render_method (col : PE) (f : Str) (args : List PE) : renderE (.method col f args) =
    renderE col ++ ('.' :: f ++ '(' :: (joinWith c!", " (renderArgs args) ++ c!")")) := by
  simp [renderE, List.append_assoc]

theorem render_alias (col : PE) (n : Str) : renderE (.aliased col n) =
    renderE col ++ ('.' :: c!"alias" ++ '(' :: ('\'' :: n ++ '\'' :: c!")")) := by
  simp [renderE, List.append_assoc]

theorem render_fn (f : Str) (args : List PE) : renderE (.fn f args) =
    funcText f ++ '(' :: (joinWith c!", " (renderArgs args) ++ c!")") := by
  simp [renderE, funcText, List.append_assoc]

theorem render_bin (op : Str) (l r : PE) : renderE (.bin op l r) =
    '(' :: (renderE l ++ (' ' :: op ++ ' ' :: (renderE r ++ c!")"))) := by
  simp [renderE, List.append_assoc]

theorem head_of : ∀ {e : PE} {t : PyE}, pyTree e = some t →
    ∃ c cs, renderE e = c :: cs ∧ isSpace c = false ∧ c ≠ ')' ∧ c ≠ ']'
  | .named n, t, _ => ⟨_, _, rfl, by decide⟩
  | .lit c, t, _ => ⟨_, _, rfl, by decide⟩
  | .py c, t, h => code_head h
  | .not r, t, _ => ⟨_, _, rfl, by decide⟩
  | .bin op l r, t, _ => ⟨_, _, rfl, by decide⟩
  | .fn f args, t, h => by
    obtain ⟨_, _, hf, _⟩ := fn_tree h
    obtain ⟨n, ns, hn, _, ht, _⟩ := func_shape hf
    obtain ⟨d, ds, rfl, hd, _⟩ := ident_all hn
    have := idStart_ne hd
    rw [render_fn, ht]
    exact ⟨d, _, rfl, idStart_space hd, this.2.2.2.2.1, this.2.2.2.2.2.1⟩
  | .method col f args, t, h => by
    simp only [pyTree] at h
    split at h
    · split at h
      · rename_i hc _
        obtain ⟨c, cs, he, hh⟩ := head_of hc
        rw [render_method, he]
        exact ⟨c, _, rfl, hh⟩
      · cases h
    · cases h
  | .aliased col n, t, h => by
    simp only [pyTree] at h
    split at h
    · simp only [Option.map_eq_some_iff] at h
      obtain ⟨u, hc, _⟩ := h
      obtain ⟨c, cs, he, hh⟩ := head_of hc
      rw [render_alias, he]
      exact ⟨c, _, rfl, hh⟩
    · cases h

theorem kw_code {c r : Str} {t : PyE} (h : codeTree c = some t) (hr : Tok r)
    (hq : ∀ d r', skipB r = d :: r' → d ≠ '=' ∨ r'.head? = some '=') : kwName (c ++ r) = none := by
  have nil {d : Char} {ds : Str} (h : isIdStart d = false) : kwName (d :: ds) = none := by
    simp [kwName, pyName, h]
  rcases code_cases h with ⟨v, hv, rfl⟩ | ⟨n, hn, rfl⟩ | ⟨d, n, rfl, hn, rfl⟩ | ⟨hi, rfl⟩
  · obtain ⟨d, ds, rfl, hd⟩ := pyString_head hv
    rcases hd with rfl | rfl | rfl
    · exact nil rfl
    · exact nil rfl
    · -- a raw string: the name `r` and a quote
      cases ds with
      | nil => cases hv
      | cons a ds =>
        have ha : a = '"' ∨ a = '\'' := by
          by_cases hq : a = '"' ∨ a = '\''
          · exact hq
          · exfalso
            have : openQuote ('r' :: a :: ds) = none := by
              simp only [not_or] at hq
              simp [openQuote, hq]
            simp [pyString, this] at hv
        rcases ha with rfl | rfl <;> rfl
  · obtain ⟨d, ds, rfl, hd⟩ := pyNumber_head hn
    refine nil ?_
    cases hs : isIdStart d with
    | false => rfl
    | true => have := (idStart_ne hs).2.2.2.2.2.2; rw [hd] at this; cases this
  · exact nil rfl
  · have h3 := pyName_append hi (fun c r' e => (hr c r' e).1)
    simp only [kwName, h3]
    split
    · rfl
    · rename_i d r' hs
      rw [if_neg]
      rintro ⟨rfl, h⟩
      rcases hq _ _ hs with h' | h'
      · exact h' rfl
      · exact h.1 h'

theorem kw_of : ∀ {e : PE} {t : PyE}, pyTree e = some t → ∀ {r : Str}, (isReceiver e = true ∨ Tok r) →
    (∀ d r', skipB r = d :: r' → d ≠ '=' ∨ r'.head? = some '=') → kwName (renderE e ++ r) = none
  | .named n, t, _, r, _, _ => by simp [renderE, kwName, pyName, isIdStart, spanC, isIdChar, pyKeywords, skipB, isSpace]
  | .lit c, t, _, r, _, _ => by simp [renderE, kwName, pyName, isIdStart, spanC, isIdChar, pyKeywords, skipB, isSpace]
  | .py c, t, h, r, hr, hq => kw_code h (hr.resolve_left (by simp [isReceiver])) hq
  | .not e, t, _, r, _, _ => rfl
  | .bin op l e, t, _, r, _, _ => rfl
  | .fn f args, t, h, r, _, _ => by
    obtain ⟨_, _, hf, _⟩ := fn_tree h
    obtain ⟨n, ns, hn, _, ht, hne⟩ := func_shape hf
    rw [render_fn, ht, List.append_assoc, List.append_assoc]
    cases ns with
    | nil => exact absurd rfl hne
    | cons m ns =>
      have : pathText (m :: ns) = '.' :: (m ++ pathText ns) := by simp [pathText]
      rw [this, List.cons_append]
      have h3 := pyName_append (n := n) (r := '.' :: (m ++ pathText ns ++ ('(' :: (joinWith c!", " (renderArgs args) ++ c!")") ++ r))) hn
        (by intro c r' e; simp only [List.cons.injEq] at e; rw [← e.1]; decide)
      simp only [kwName, h3, skipB_cons (show isSpace '.' = false from rfl)]
      rfl
  | .method col f args, t, h, r, _, _ => by
    simp only [pyTree] at h
    split at h
    · rename_i hc
      simp only [Bool.and_eq_true] at hc
      split at h
      · rename_i ht _
        rw [render_method, List.append_assoc]
        refine kw_of ht (.inl hc.1) ?_
        intro d r' e
        rw [List.cons_append, List.cons_append, skipB_cons rfl] at e
        simp only [List.cons.injEq] at e
        left; rw [← e.1]; decide
      · cases h
    · cases h
  | .aliased col n, t, h, r, _, _ => by
    simp only [pyTree] at h
    split at h
    · rename_i hc
      simp only [Bool.and_eq_true] at hc
      simp only [Option.map_eq_some_iff] at h
      obtain ⟨u, ht, _⟩ := h
      rw [render_alias, List.append_assoc]
      refine kw_of ht (.inl hc.1) ?_
      intro d r' e
      rw [List.cons_append, List.cons_append, skipB_cons rfl] at e
      simp only [List.cons.injEq] at e
      left; rw [← e.1]; decide
    · cases h

theorem code_notKw {c : Str} {t : PyE} (h : codeTree c = some t) : isKw t = false := by
  rcases code_cases h with ⟨v, hv, rfl⟩ | ⟨n, hn, rfl⟩ | ⟨d, n, rfl, hn, rfl⟩ | ⟨hi, rfl⟩ <;> rfl

/-- no column expression is a keyword argument -/
theorem tree_notKw {e : PE} {t : PyE} (h : pyTree e = some t) : isKw t = false := by
  cases e
  case fn =>
    obtain ⟨_, _, _, _, rfl⟩ := fn_tree h
    rfl
  all_goals simp only [pyTree] at h
  case named => split at h <;> first | (rw [← Option.some.inj h]; rfl) | cases h
  case lit =>
    simp only [Option.map_eq_some_iff] at h
    obtain ⟨_, _, rfl⟩ := h; rfl
  case method => repeat' split at h
                 all_goals first | (rw [← Option.some.inj h]; rfl) | cases h
  case aliased =>
    split at h
    · simp only [Option.map_eq_some_iff] at h
      obtain ⟨_, _, rfl⟩ := h; rfl
    · cases h
  case bin => repeat' split at h
              all_goals first | (rw [← Option.some.inj h]; rfl) | cases h
  case not =>
    simp only [Option.map_eq_some_iff] at h
    obtain ⟨_, _, rfl⟩ := h; rfl
  case py => exact code_notKw h

theorem trees_notKw : ∀ {es : List PE} {ts : List PyE}, pyTrees es = some ts → ∀ t ∈ ts, isKw t = false
  | [], ts, h => by simp only [pyTrees, Option.some.injEq] at h; simp [← h]
  | e :: es, ts, h => by
    rw [pyTrees] at h
    split at h
    · rename_i t us ht hus
      rw [← Option.some.inj h]
      intro x hx
      rcases List.mem_cons.1 hx with rfl | hx
      · exact tree_notKw ht
      · exact trees_notKw hus x hx
    · cases h

theorem lam_cases {c : Str} {t : PyE} (h : lamTree c = some t) :
    ∃ d v, c = c!"lambda left_, right_: F.concat_ws(r\"" ++ d ++ c!"\", left_, right_)" ∧ codeTree (c!"r\"" ++ d ++ c!"\"") = some (.str v) ∧
      t = .lam [c!"left_", c!"right_"] (fCall c!"concat_ws" [.str v, .name c!"left_", .name c!"right_"]) := by
  unfold lamTree at h
  dsimp only at h
  split at h
  · rename_i hc
    split at h
    · rename_i v hv
      refine ⟨_, v, hc, ?_, (Option.some.inj h).symm⟩
      unfold codeTree
      rw [hv]
    · cases h
  · cases h

theorem lams_notKw : ∀ {es : List PE} {ts : List PyE}, lamTrees es = some ts → ∀ t ∈ ts, isKw t = false
  | [], ts, h => by simp [lamTrees] at h
  | e :: es, ts, h => by
    intro x hx
    rcases lams_cases h with ⟨t, us, ht, hus, rfl⟩ | ⟨c, t, rfl, rfl, ht, rfl⟩
    · rcases List.mem_cons.1 hx with rfl | hx
      · exact tree_notKw ht
      · exact lams_notKw hus x hx
    · obtain ⟨_, _, _, _, rfl⟩ := lam_cases ht
      rw [List.mem_singleton.1 hx]; rfl

theorem item_code {c r : Str} {t : PyE} {d : Char} (hd : d = ',' ∨ d = ')') (h : codeTree c = some t) :
    rd 15 (.item (c ++ d :: r)) = some ([t], d :: r) := by
  have hd : d = ',' ∨ d = ')' ∨ d = ']' := by rcases hd with rfl | rfl <;> simp
  have h1 := rd_code h (after_close (r := r) hd)
  have h2 := lev_to h1 (by omega) 0 (by omega) (by intro i _ _; rw [next_close hd]; simp)
  refine item_expr ?_ h2
  refine kw_code h (after_close hd).tok ?_
  intro d' r' e
  rw [skipB_cons (by rcases hd with rfl | rfl | rfl <;> rfl)] at e
  simp only [List.cons.injEq] at e
  left; rw [← e.1]; rcases hd with rfl | rfl | rfl <;> decide

/-- A lambda expression as the last argument. -/
theorem rd_lam {c r : Str} {t : PyE} (h : lamTree c = some t) : rd 60 (.item (c ++ ')' :: r)) = some ([t], ')' :: r) := by
  obtain ⟨d, v, rfl, hv, rfl⟩ := lam_cases h
  let R : Str := c!", left_, right_)" ++ ')' :: r
  have e0 : c!"lambda left_, right_: F.concat_ws(r\"" ++ d ++ c!"\", left_, right_)" ++ ')' :: r =
      c!"lambda left_, right_: " ++ (funcText c!"concat_ws" ++ '(' :: (c!"r\"" ++ d ++ c!"\"" ++ R)) := by
    simp [funcText, R]
  rw [e0]
  have hx : rd 16 (.items ')' [.name c!"left_", .str v] (c!" right_)" ++ ')' :: r)) = some ([.str v, .name c!"left_", .name c!"right_"], ')' :: r) :=
    items_last (c := ')') (d := 'r') (s' := c!"ight_)" ++ ')' :: r) rfl (by decide)
      (item_code (c := c!"right_") (d := ')') (r := ')' :: r) (.inr rfl) (by decide +kernel)) rfl (by decide)
  have hy : rd 17 (.items ')' [.str v] (c!" left_, right_)" ++ ')' :: r)) = some ([.str v, .name c!"left_", .name c!"right_"], ')' :: r) :=
    items_more (c := ')') (d := 'l') (s' := c!"eft_, right_)" ++ ')' :: r) rfl (by decide)
      (rd_mono (item_code (c := c!"left_") (d := ',') (r := c!" right_)" ++ ')' :: r) (.inl rfl) (by decide +kernel)) (by omega)) rfl hx
  have hz : rd 18 (.items ')' [] (c!"r\"" ++ d ++ c!"\"" ++ R)) = some ([.str v, .name c!"left_", .name c!"right_"], ')' :: r) :=
    items_more (c := ')') (d := 'r') (s' := c!"\"" ++ d ++ c!"\"" ++ R) rfl (by decide)
      (rd_mono (item_code (c := c!"r\"" ++ d ++ c!"\"") (d := ',') (r := c!" left_, right_)" ++ ')' :: r) (.inl rfl) hv) (by omega)) rfl hy
  have h1 := post_call (e := .attr (.name c!"F") c!"concat_ws") (x := ([fCall c!"concat_ws" [.str v, .name c!"left_", .name c!"right_"]], ')' :: r)) hz rfl
    (rd_mono (post_stop (n := 0) (after_close (r := r) (.inr (.inl rfl))).post) (by omega))
  have h2 := rd_func (f := c!"concat_ws") (t := .attr (.name c!"F") c!"concat_ws") rfl h1
  have h3 := lev_to h2 (by omega) 0 (by omega) (by intro i _ _; rw [next_close (.inr (.inl rfl))]; simp)
  refine rd_mono (item_lam (ps := [c!"left_", c!"right_"]) (r := ' ' :: (funcText c!"concat_ws" ++ '(' :: (c!"r\"" ++ d ++ c!"\"" ++ R))) rfl rfl
    (lev_to (by rw [lev_blank]; exact h2) (by omega) 0 (by omega) (by intro i _ _; rw [next_close (.inr (.inl rfl))]; simp))) ?_
  simp [funcText]

/-- one argument `code` in parentheses -/
theorem items_code {c r : Str} {t : PyE} (h : codeTree c = some t) {n : Nat} (hn : 17 ≤ n) :
    rd n (.items ')' [] (c ++ ')' :: r)) = some ([t], r) := by
  have h1 := rd_code h (after_close (r := r) (.inr (.inl rfl)))
  have h2 := lev_to h1 (by omega) 0 (by omega) (by intro i _ _; rw [next_close (.inr (.inl rfl))]; simp)
  have hk : kwName (c ++ ')' :: r) = none := by
    refine kw_code h (after_close (.inr (.inl rfl))).tok ?_
    intro d r' e
    rw [skipB_cons rfl] at e
    simp only [List.cons.injEq] at e
    left; rw [← e.1]; decide
  have h3 := item_expr hk h2
  obtain ⟨d, ds, hc, hd, hd1, _⟩ := code_head h
  have hs : skipB (c ++ ')' :: r) = d :: (ds ++ ')' :: r) := by rw [hc]; exact skipB_cons hd
  have e : c ++ ')' :: r = d :: (ds ++ ')' :: r) := by rw [hc]; rfl
  have h4 := items_last (n := 15) (acc := []) (c := ')') hs hd1 (by rw [← e]; exact h3) (skipB_cons rfl) (by decide)
  exact rd_mono h4 (by omega)

theorem codeTree_quote {n : Str} (h : Plain '\'' n = true) : codeTree ('\'' :: n ++ c!"'") = some (.str n) := by
  have : pyString ('\'' :: n ++ c!"'") = some (n, []) := pyString_plain (.inr rfl) h tok_nil
  unfold codeTree
  rw [this]

theorem codeTree_dquote {n : Str} (h : Plain '"' n = true) : codeTree ('"' :: n ++ c!"\"") = some (.str n) := by
  have : pyString ('"' :: n ++ c!"\"") = some (n, []) := pyString_plain (.inl rfl) h tok_nil
  unfold codeTree
  rw [this]

mutual
/-- The text of an expression after which calls can follow: reading continues with the trailers. -/
theorem rd_recv : ∀ {e : PE} {t : PyE}, pyTree e = some t → isReceiver e = true → ∀ {r : Str} {n : Nat} {x : Res},
    rd n (.post t r) = some x → rd (n + 16 * (renderE e).length) (.lev 10 (renderE e ++ r)) = some x
  | .named m, t, h, _, r, n, x, hx => by
    simp only [pyTree] at h
    split at h
    · rename_i hm
      have h := Option.some.inj h
      subst h
      have h1 := items_code (r := r) (codeTree_quote hm) (n := n + 17) (by omega)
      have h2 := post_call (e := .attr (.name c!"F") c!"col") h1 rfl (rd_mono hx (by omega))
      have h3 := rd_func (f := c!"col") (t := .attr (.name c!"F") c!"col") rfl h2
      have : renderE (.named m) ++ r = funcText c!"col" ++ '(' :: ('\'' :: m ++ c!"'" ++ ')' :: r) := by
        simp [renderE, funcText]
      rw [this]
      refine rd_mono h3 ?_
      simp [renderE, funcText]
      omega
    · cases h
  | .lit c, t, h, _, r, n, x, hx => by
    simp only [pyTree, Option.map_eq_some_iff] at h
    obtain ⟨v, hv, rfl⟩ := h
    have h1 := items_code (r := r) hv (n := n + 17) (by omega)
    have h2 := post_call (e := .attr (.name c!"F") c!"lit") h1 (argsOk_of (by simp [code_notKw hv])) (rd_mono hx (by omega))
    have h3 := rd_func (f := c!"lit") (t := .attr (.name c!"F") c!"lit") rfl h2
    have : renderE (.lit c) ++ r = funcText c!"lit" ++ '(' :: (c ++ ')' :: r) := by
      simp [renderE, funcText]
    rw [this]
    refine rd_mono h3 ?_
    simp [renderE, funcText]
    omega
  | .py c, t, _, h, r, n, x, _ => by cases h
  | .not e, t, _, h, r, n, x, _ => by cases h
  | .fn f args, t, h, _, r, n, x, hx => by
    obtain ⟨u, us, hf, hu, rfl⟩ := fn_tree h
    have h1 : rd (16 * (joinWith c!", " (renderArgs args)).length + 32) (.items ')' [] (joinWith c!", " (renderArgs args) ++ ')' :: r)) = some (us, r) :=
      hu.elim (fun hu => rd_items hu [] (.inl rfl)) (fun hu => rd_lams hu [] (.inl rfl))
    have h2 := post_call (e := u) (n := n + (16 * (joinWith c!", " (renderArgs args)).length + 40))
      (rd_mono h1 (by omega)) (argsOk_of (hu.elim trees_notKw lams_notKw)) (rd_mono hx (by omega))
    have h3 := rd_func hf h2
    have : renderE (.fn f args) ++ r = funcText f ++ '(' :: (joinWith c!", " (renderArgs args) ++ ')' :: r) := by
      rw [render_fn]; simp
    rw [this]
    refine rd_mono h3 ?_
    rw [render_fn]
    obtain ⟨m, ns, hm, _, ht, _⟩ := func_shape hf
    have : 2 ≤ (funcText f).length := by
      rw [ht]
      obtain ⟨d, ds, rfl, _⟩ := ident_all hm
      have := path_length ns
      cases ns with
      | nil => contradiction
      | cons a ns => simp only [List.length_append, List.length_cons] at this ⊢; omega
    simp only [List.length_append, List.length_cons, List.length_nil]
    omega
  | .method col f args, t, h, _, r, n, x, hx => by
    simp only [pyTree] at h
    split at h
    · rename_i hc
      simp only [Bool.and_eq_true] at hc
      split at h
      · rename_i u us hu hus
        have h := Option.some.inj h
        subst h
        have h1 := rd_items hus [] (s := joinWith c!", " (renderArgs args) ++ ')' :: r) (r := r) (.inl rfl)
        have h2 := post_call (e := .attr u f) (n := n + (16 * (joinWith c!", " (renderArgs args)).length + 40))
          (rd_mono h1 (by omega)) (argsOk_of (trees_notKw hus)) (rd_mono hx (by omega))
        have h3 := post_attr (e := u) hc.2 (by intro c r' e; simp only [List.cons.injEq] at e; rw [← e.1]; decide) h2
        have h4 := rd_recv hu hc.1 h3
        have : renderE (.method col f args) ++ r =
            renderE col ++ ('.' :: f ++ '(' :: (joinWith c!", " (renderArgs args) ++ ')' :: r)) := by
          rw [render_method]; simp
        rw [this]
        refine rd_mono h4 ?_
        rw [render_method]
        obtain ⟨d, ds, rfl, _⟩ := ident_all hc.2
        simp only [List.length_append, List.length_cons, List.length_nil]
        omega
      · cases h
    · cases h
  | .aliased col m, t, h, _, r, n, x, hx => by
    simp only [pyTree] at h
    split at h
    · rename_i hc
      simp only [Bool.and_eq_true] at hc
      simp only [Option.map_eq_some_iff] at h
      obtain ⟨u, hu, rfl⟩ := h
      have h1 := items_code (r := r) (codeTree_quote hc.2) (n := n + 17) (by omega)
      have h2 := post_call (e := .attr u c!"alias") h1 rfl (rd_mono hx (by omega))
      have h3 := post_attr (e := u) (f := c!"alias") (by decide)
        (by intro c r' e; simp only [List.cons.injEq] at e; rw [← e.1]; decide) h2
      have h4 := rd_recv hu hc.1 h3
      have : renderE (.aliased col m) ++ r =
          renderE col ++ ('.' :: c!"alias" ++ '(' :: ('\'' :: m ++ c!"'" ++ ')' :: r)) := by
        rw [render_alias]; simp
      rw [this]
      refine rd_mono h4 ?_
      rw [render_alias]
      simp only [List.length_append, List.length_cons, List.length_nil]
      omega
    · cases h
  | .bin op a b, t, h, _, r, n, x, hx => by
    simp only [pyTree] at h
    split at h
    · rename_i hop
      obtain ⟨k, hk⟩ := Option.isSome_iff_exists.1 hop
      split at h
      · rename_i u v hu hv
        have h := Option.some.inj h
        subst h
        have hb := rd_tree hv (after_close (r := r) (.inr (.inl rfl)))
        have ha := rd_tree hu (op_after (r := renderE b ++ ')' :: r) (op_mem hk))
        have h1 := rd_bin hk ha hb (next_close (.inr (.inl rfl)))
        have h2 := prim_paren (n := n + (16 * (renderE a).length + 16 * (renderE b).length + 45))
          (rd_mono h1 (by omega)) (skipB_cons rfl) (rd_mono hx (by omega))
        have h3 := step_prim (s := '(' :: (renderE a ++ (' ' :: op ++ ' ' :: (renderE b ++ ')' :: r)))) (skipB_cons rfl)
          (by decide) (by decide) h2
        have : renderE (.bin op a b) ++ r = '(' :: (renderE a ++ (' ' :: op ++ ' ' :: (renderE b ++ ')' :: r))) := by
          rw [render_bin]; simp
        rw [this]
        refine rd_mono h3 ?_
        rw [render_bin]
        simp only [List.length_append, List.length_cons, List.length_nil]
        omega
      · cases h
    · cases h

/-- The text of an expression, followed by anything that does not continue it. -/
theorem rd_tree : ∀ {e : PE} {t : PyE}, pyTree e = some t → ∀ {r : Str}, After r →
    rd (16 * (renderE e).length + 16) (.lev 10 (renderE e ++ r)) = some ([t], r)
  | .not e, t, h, r, hr => by
    simp only [pyTree, Option.map_eq_some_iff] at h
    obtain ⟨u, hu, rfl⟩ := h
    have h1 := step_inv (s := '~' :: (renderE e ++ r)) (skipB_cons rfl) (rd_tree hu hr)
    refine rd_mono h1 ?_
    simp [renderE]
    omega
  | .py c, t, h, r, hr => rd_mono (rd_code h hr) (by omega)
  | .named m, t, h, r, hr => rd_mono (rd_recv h rfl (post_stop (n := 0) hr.post)) (by omega)
  | .lit c, t, h, r, hr => rd_mono (rd_recv h rfl (post_stop (n := 0) hr.post)) (by omega)
  | .fn f args, t, h, r, hr => rd_mono (rd_recv h rfl (post_stop (n := 0) hr.post)) (by omega)
  | .method col f args, t, h, r, hr => rd_mono (rd_recv h rfl (post_stop (n := 0) hr.post)) (by omega)
  | .aliased col m, t, h, r, hr => rd_mono (rd_recv h rfl (post_stop (n := 0) hr.post)) (by omega)
  | .bin op a b, t, h, r, hr => rd_mono (rd_recv h rfl (post_stop (n := 0) hr.post)) (by omega)

/-- A list of arguments up to the closing parenthesis. -/
theorem rd_items : ∀ {es : List PE} {ts : List PyE}, pyTrees es = some ts → ∀ (acc : List PyE) {s r : Str},
    (s = joinWith c!", " (renderArgs es) ++ ')' :: r ∨ s = ' ' :: (joinWith c!", " (renderArgs es) ++ ')' :: r)) →
    rd (16 * (joinWith c!", " (renderArgs es)).length + 32) (.items ')' acc s) = some (acc.reverse ++ ts, r)
  | [], ts, h, acc, s, r, hs => by
    simp only [pyTrees, Option.some.injEq] at h
    subst h
    have : skipB s = ')' :: r := by
      rcases hs with rfl | rfl
      · exact skipB_cons rfl
      · rw [skipB_space]; exact skipB_cons rfl
    rw [List.append_nil]
    exact items_close this
  | [e], ts, h, acc, s, r, hs => by
    simp only [pyTrees] at h
    split at h
    · rename_i t us ht hus
      have hus := Option.some.inj hus
      subst hus
      have h := Option.some.inj h
      subst h
      have hj : joinWith c!", " (renderArgs [e]) = renderE e := rfl
      rw [hj] at hs ⊢
      have h1 := rd_tree ht (after_close (r := r) (.inr (.inl rfl)))
      have h2 := lev_to h1 (by omega) 0 (by omega) (by intro i _ _; rw [next_close (.inr (.inl rfl))]; simp)
      have hk : kwName (renderE e ++ ')' :: r) = none := by
        refine kw_of ht (.inr (after_close (.inr (.inl rfl))).tok) ?_
        intro d r' e
        rw [skipB_cons rfl] at e
        simp only [List.cons.injEq] at e
        left; rw [← e.1]; decide
      have h3 := item_expr hk h2
      obtain ⟨d, ds, hc, hd, hd1, _⟩ := head_of ht
      have e : renderE e ++ ')' :: r = d :: (ds ++ ')' :: r) := by rw [hc]; rfl
      have hss : skipB s = d :: (ds ++ ')' :: r) := by
        rcases hs with rfl | rfl
        · rw [e]; exact skipB_cons hd
        · rw [skipB_space, e]; exact skipB_cons hd
      have h4 := items_last (acc := acc) (c := ')') hss hd1 (by rw [← e]; exact h3) (skipB_cons rfl) (by decide)
      rw [List.reverse_cons] at h4
      exact rd_mono h4 (by omega)
    · cases h
  | e :: e' :: es, ts, h, acc, s, r, hs => by
    rw [pyTrees] at h
    split at h
    · rename_i t us ht hus
      have h := Option.some.inj h
      subst h
      have hj : joinWith c!", " (renderArgs (e :: e' :: es)) =
          renderE e ++ (',' :: ' ' :: joinWith c!", " (renderArgs (e' :: es))) := by
        simp [renderArgs, joinWith, List.append_assoc]
      rw [hj] at hs ⊢
      have ih := rd_items hus (t :: acc) (s := ' ' :: (joinWith c!", " (renderArgs (e' :: es)) ++ ')' :: r)) (r := r) (.inr rfl)
      have h1 := rd_tree ht (after_close (r := ' ' :: (joinWith c!", " (renderArgs (e' :: es)) ++ ')' :: r)) (.inl rfl))
      have h2 := lev_to h1 (by omega) 0 (by omega) (by intro i _ _; rw [next_close (.inl rfl)]; simp)
      have hk : kwName (renderE e ++ ',' :: ' ' :: (joinWith c!", " (renderArgs (e' :: es)) ++ ')' :: r)) = none := by
        refine kw_of ht (.inr (after_close (.inl rfl)).tok) ?_
        intro d r' e
        rw [skipB_cons rfl] at e
        simp only [List.cons.injEq] at e
        left; rw [← e.1]; decide
      have h3 := item_expr hk h2
      obtain ⟨d, ds, hc, hd, hd1, _⟩ := head_of ht
      have e1 : renderE e ++ ',' :: ' ' :: (joinWith c!", " (renderArgs (e' :: es)) ++ ')' :: r) =
          d :: (ds ++ ',' :: ' ' :: (joinWith c!", " (renderArgs (e' :: es)) ++ ')' :: r)) := by rw [hc]; rfl
      have hss : skipB s = d :: (ds ++ ',' :: ' ' :: (joinWith c!", " (renderArgs (e' :: es)) ++ ')' :: r)) := by
        rw [← e1]
        rcases hs with rfl | rfl
        · rw [List.append_assoc]; rw [hc]; exact skipB_cons hd
        · rw [skipB_space, List.append_assoc]; rw [hc]; exact skipB_cons hd
      have h4 := items_more (acc := acc) (c := ')') (n := 16 * (renderE e).length + 16 * (joinWith c!", " (renderArgs (e' :: es))).length + 60)
        hss hd1 (by rw [← e1]; exact rd_mono h3 (by omega)) (skipB_cons rfl) (rd_mono ih (by omega))
      rw [List.reverse_cons, List.append_assoc] at h4
      refine rd_mono h4 ?_
      simp only [List.length_append, List.length_cons]
      omega
    · cases h
/-- the same when the last one is a lambda expression -/
theorem rd_lams : ∀ {es : List PE} {ts : List PyE}, lamTrees es = some ts → ∀ (acc : List PyE) {s r : Str},
    (s = joinWith c!", " (renderArgs es) ++ ')' :: r ∨ s = ' ' :: (joinWith c!", " (renderArgs es) ++ ')' :: r)) →
    rd (16 * (joinWith c!", " (renderArgs es)).length + 32) (.items ')' acc s) = some (acc.reverse ++ ts, r)
  | [], ts, h, acc, s, r, hs => by simp [lamTrees] at h
  | [e], ts, h, acc, s, r, hs => by
    rcases lams_cases h with ⟨t, us, ht, hus, rfl⟩ | ⟨c, t, rfl, _, ht, rfl⟩
    · simp [lamTrees] at hus
    · have hj : joinWith c!", " (renderArgs [.py c]) = c := rfl
      rw [hj] at hs ⊢
      have h3 := rd_lam (r := r) ht
      obtain ⟨d, v, hc, _, _⟩ := lam_cases ht
      have e : c ++ ')' :: r = 'l' :: ((c.tail) ++ ')' :: r) := by rw [hc]; rfl
      have hss : skipB s = 'l' :: (c.tail ++ ')' :: r) := by
        rcases hs with rfl | rfl
        · rw [e]; exact skipB_cons rfl
        · rw [skipB_space, e]; exact skipB_cons rfl
      have h4 := items_last (acc := acc) (c := ')') hss (by decide) (by rw [← e]; exact h3) (skipB_cons rfl) (by decide)
      rw [List.reverse_cons] at h4
      refine rd_mono h4 ?_
      rw [hc]
      simp only [List.length_append, List.length_cons, List.length_nil]
      omega
  | e :: e' :: es, ts, h, acc, s, r, hs => by
    rcases lams_cases h with ⟨t, us, ht, hus, rfl⟩ | ⟨_, _, _, h', _⟩
    · have hj : joinWith c!", " (renderArgs (e :: e' :: es)) =
          renderE e ++ (',' :: ' ' :: joinWith c!", " (renderArgs (e' :: es))) := by
        simp [renderArgs, joinWith, List.append_assoc]
      rw [hj] at hs ⊢
      have ih := rd_lams hus (t :: acc) (s := ' ' :: (joinWith c!", " (renderArgs (e' :: es)) ++ ')' :: r)) (r := r) (.inr rfl)
      have h1 := rd_tree ht (after_close (r := ' ' :: (joinWith c!", " (renderArgs (e' :: es)) ++ ')' :: r)) (.inl rfl))
      have h2 := lev_to h1 (by omega) 0 (by omega) (by intro i _ _; rw [next_close (.inl rfl)]; simp)
      have hk : kwName (renderE e ++ ',' :: ' ' :: (joinWith c!", " (renderArgs (e' :: es)) ++ ')' :: r)) = none := by
        refine kw_of ht (.inr (after_close (.inl rfl)).tok) ?_
        intro d r' e
        rw [skipB_cons rfl] at e
        simp only [List.cons.injEq] at e
        left; rw [← e.1]; decide
      have h3 := item_expr hk h2
      obtain ⟨d, ds, hc, hd, hd1, _⟩ := head_of ht
      have e1 : renderE e ++ ',' :: ' ' :: (joinWith c!", " (renderArgs (e' :: es)) ++ ')' :: r) =
          d :: (ds ++ ',' :: ' ' :: (joinWith c!", " (renderArgs (e' :: es)) ++ ')' :: r)) := by rw [hc]; rfl
      have hss : skipB s = d :: (ds ++ ',' :: ' ' :: (joinWith c!", " (renderArgs (e' :: es)) ++ ')' :: r)) := by
        rw [← e1]
        rcases hs with rfl | rfl
        · rw [List.append_assoc]; rw [hc]; exact skipB_cons hd
        · rw [skipB_space, List.append_assoc]; rw [hc]; exact skipB_cons hd
      have h4 := items_more (acc := acc) (c := ')') (n := 16 * (renderE e).length + 16 * (joinWith c!", " (renderArgs (e' :: es))).length + 60)
        hss hd1 (by rw [← e1]; exact rd_mono h3 (by omega)) (skipB_cons rfl) (rd_mono ih (by omega))
      rw [List.reverse_cons, List.append_assoc] at h4
      refine rd_mono h4 ?_
      simp only [List.length_append, List.length_cons]
      omega
    · cases h'
end

/-- A column expression that has a Python tree is read back as that tree. -/
theorem read_render {e : PE} {t : PyE} (h : pyTree e = some t) : readPy (renderE e) = some t := by
  have h1 := rd_tree h after_nil
  rw [List.append_nil] at h1
  have h2 := lev_to h1 (by omega) 0 (by omega) (by intro i _ _; rw [next_nil]; simp)
  unfold readPy
  rw [rd_mono h2 (m := 40 * (renderE e).length + 40) (by omega)]
  rfl

/-- The same for the text without parentheses around an outermost operator. -/
theorem read_renderC {e : PE} {t : PyE} (h : pyTree e = some t) : readPy (renderC e) = some t := by
  cases e with
  | bin op a b =>
    simp only [pyTree] at h
    split at h
    · rename_i hop
      obtain ⟨k, hk⟩ := Option.isSome_iff_exists.1 hop
      split at h
      · rename_i u v hu hv
        have h := Option.some.inj h
        subst h
        have hb := rd_tree hv after_nil
        have ha := rd_tree hu (op_after (r := renderE b ++ []) (op_mem hk))
        have h1 := rd_bin hk ha hb next_nil
        have e : renderC (.bin op a b) = renderE a ++ (' ' :: op ++ ' ' :: (renderE b ++ [])) := by
          simp [renderC]
        rw [e]
        unfold readPy
        rw [rd_mono h1 (m := 40 * _ + 40) ?_]
        · rfl
        · simp only [List.length_append, List.length_cons]
          omega
      · cases h
    · cases h
  | _ =>
    have hh := read_render h
    simp only [renderE] at hh
    simp only [renderC]
    exact hh

/-- a lambda expression is no other piece of code -/
theorem lam_code {c : Str} {e t : PyE} (h : codeTree c = some e) : lamTree c ≠ some t := by
  intro hl
  obtain ⟨d, v, rfl, _, _⟩ := lam_cases hl
  rcases code_cases h with ⟨v, hv, rfl⟩ | ⟨n, hn, rfl⟩ | ⟨d, n, hd, hn, rfl⟩ | ⟨hi, rfl⟩
  · obtain ⟨d, ds, hc, hd⟩ := pyString_head hv
    simp at hc
    obtain ⟨rfl, _⟩ := hc
    simp at hd
  · obtain ⟨d, ds, hc, hd⟩ := pyNumber_head hn
    simp at hc
    obtain ⟨rfl, _⟩ := hc
    exact absurd hd (by decide)
  · simp at hd
  · simp [isIdent, isIdStart, isIdChar] at hi

/-- the first letter of a lambda expression -/
theorem lam_head {c : Str} {t : PyE} (h : lamTree c = some t) : c.head? = some 'l' := by
  obtain ⟨d, v, rfl, _, _⟩ := lam_cases h
  rfl

/-- a lambda expression as the last argument -/
theorem lam_last {c : Str} {t : PyE} (h : lamTree c = some t) : lamTrees [.py c] = some [t] := by
  have hn : pyTree (.py c) = none := by
    cases hc : pyTree (.py c) with
    | none => rfl
    | some e => exact absurd h (lam_code (by simpa [pyTree] using hc))
  simp only [lamTrees, hn, lastLam, h, Option.map_some]

/-- arguments that end with a lambda expression are not all plain -/
theorem lams_none : ∀ {ps : List PE} {ts : List PyE}, lamTrees ps = some ts → pyTrees ps = none
  | [], _, h => by simp [lamTrees] at h
  | p :: ps, ts, h => by
    rcases lams_cases h with ⟨t, us, ht, hu, _⟩ | ⟨c, t, rfl, rfl, ht, _⟩
    · simp only [pyTrees, ht, lams_none hu]
    · have hn : pyTree (.py c) = none := by
        cases hc : pyTree (.py c) with
        | none => rfl
        | some e => exact absurd ht (lam_code (by simpa [pyTree] using hc))
      simp only [pyTrees, hn]

/-- the tree of a call -/
theorem tree_fn {f : Str} {args : List PE} {t : PyE} {ts : List PyE} (hf : funcTree f = some t)
    (h : pyTrees args = some ts ∨ lamTrees args = some ts) : pyTree (.fn f args) = some (.call t ts) := by
  rcases h with h | h
  · simp only [pyTree, hf, h]
  · simp only [pyTree, hf, lams_none h, h, Option.map_some]

end Verif.Lemmas
