import Verif.Lemmas.Python
/-
Facts about the Python reader, continued: the bound on the number of steps is always large enough.
-/
namespace Verif.Lemmas
open Verif Spec

/-! ### tokens are not empty -/

theorem skipB_len (s : Str) : (skipB s).length ≤ s.length := by
  have := congrArg List.length (spanC_eq (p := isSpace) s)
  simp only [List.length_append] at this
  simp only [skipB]; omega

theorem skipB_lt {s r : Str} {c : Char} (h : skipB s = c :: r) : r.length < s.length := by
  have := skipB_len s; rw [h] at this; simp only [List.length_cons] at this; omega

theorem spanC_len {p : Char → Bool} (s : Str) : (spanC p s).2.length ≤ s.length := by
  have := congrArg List.length (spanC_eq (p := p) s)
  simp only [List.length_append] at this
  omega

theorem pyName_len {s n r : Str} (h : pyName s = some (n, r)) : r.length < s.length := by
  cases s with
  | nil => cases h
  | cons c cs =>
    simp only [pyName] at h
    split at h
    · rename_i hc
      split at h
      · cases h
      · have h := Option.some.inj h
        have hi : isIdChar c = true := by simp [isIdChar, hc]
        have e : spanC isIdChar (c :: cs) = (c :: (spanC isIdChar cs).1, (spanC isIdChar cs).2) := by
          simp [spanC, hi]
        rw [e, Prod.mk.injEq] at h
        rw [← h.2]
        have := spanC_len (p := isIdChar) cs
        simp only [List.length_cons]; omega
    · cases h

theorem strTail_len {raw : Bool} {q : Char} {s v r : Str} (h : strTail raw q s = some (v, r)) : r.length < s.length := by
  induction hn : s.length using Nat.strongRecOn generalizing s v r with
  | _ n ih =>
    cases s with
    | nil => cases h
    | cons c cs =>
      simp only [List.length_cons] at hn
      unfold strTail at h
      split at h
      · simp only [Option.some.injEq, Prod.mk.injEq] at h
        rw [← h.2]; omega
      split at h
      · cases h
      split at h
      · cases cs with
        | nil => cases h
        | cons d ds =>
          simp only at h
          split at h
          · cases h
          · simp only [Option.map_eq_some_iff] at h
            obtain ⟨⟨x, y⟩, hx, hv⟩ := h
            simp only [Prod.mk.injEq] at hv
            have := ih ds.length (by rw [← hn]; simp; omega) hx rfl
            rw [← hv.2]
            simp only [List.length_cons] at hn
            omega
      · simp only [Option.map_eq_some_iff] at h
        obtain ⟨⟨x, y⟩, hx, hv⟩ := h
        simp only [Prod.mk.injEq] at hv
        have := ih cs.length (by omega) hx rfl
        rw [← hv.2]; omega

theorem openQuote_len {s cs : Str} {raw : Bool} {q : Char} (h : openQuote s = some (raw, q, cs)) : cs.length < s.length := by
  cases s with
  | nil => cases h
  | cons c s =>
    simp only [openQuote] at h
    split at h
    · simp only [Option.some.injEq, Prod.mk.injEq] at h
      rw [← h.2.2]; simp
    split at h
    · cases s with
      | nil => cases h
      | cons d ds =>
        simp only at h
        split at h
        · simp only [Option.some.injEq, Prod.mk.injEq] at h
          rw [← h.2.2]; simp only [List.length_cons]; omega
        · cases h
    · cases h

theorem pyString_len {s v r : Str} (h : pyString s = some (v, r)) : r.length < s.length := by
  unfold pyString at h
  split at h
  · cases h
  · rename_i ho
    split at h
    · cases h
    · have := strTail_len h
      have := openQuote_len ho
      omega

theorem pyNumber_len {s r : Str} {n : Str × Str} (h : pyNumber s = some (n, r)) : r.length < s.length := by
  simp only [pyNumber] at h
  have e := congrArg List.length (spanC_eq (p := isDig) s)
  simp only [List.length_append] at e
  split at h
  · cases h
  rename_i hne
  have : 0 < (spanC isDig s).1.length := List.length_pos_iff.2 hne
  split at h
  · split at h
    · simp only [Option.some.injEq, Prod.mk.injEq] at h
      have h2 := spanC_len (p := isDig) (spanC isDig s).2.tail
      have h3 : (spanC isDig s).2.tail.length ≤ (spanC isDig s).2.length := by simp
      rw [← h.2]; omega
    · cases h
  · split at h
    · simp only [Option.some.injEq, Prod.mk.injEq] at h
      rw [← h.2]; omega
    · cases h

theorem opTok_len {s op r : Str} (h : opTok s = some (op, r)) : r.length < s.length := by
  unfold opTok at h
  split at h
  · split at h
    · simp only [Option.some.injEq, Prod.mk.injEq] at h
      rw [← h.2]; simp only [List.length_cons]; omega
    split at h
    · simp only [Option.some.injEq, Prod.mk.injEq] at h
      rw [← h.2]; simp only [List.length_cons]; omega
    split at h
    · rename_i c d r' _ _ hc
      have h := Option.some.inj h
      have hi : isIdChar c = true := by simp [isIdChar, hc]
      have e : spanC isIdChar (c :: d :: r') = (c :: (spanC isIdChar (d :: r')).1, (spanC isIdChar (d :: r')).2) := by
        rw [spanC, if_pos hi]
      rw [e, Prod.mk.injEq] at h
      rw [← h.2]
      have := spanC_len (p := isIdChar) (d :: r')
      simp only [List.length_cons] at this ⊢; omega
    · cases h
  · split at h
    · simp only [Option.some.injEq, Prod.mk.injEq] at h
      rw [← h.2]; simp
    · cases h
  · cases h

theorem lamParams_len : ∀ (n : Nat) (acc : List Str) (s : Str) {ps : List Str} {r : Str}, lamParams n acc s = some (ps, r) → r.length < s.length
  | 0, _, _, _, _, h => by simp [lamParams] at h
  | n + 1, acc, s, ps, r, h => by
    rw [lamParams] at h
    split at h
    · cases h
    rename_i p r1 hn
    have h1 := pyName_len hn
    have h2 := skipB_len s
    split at h
    · cases h
    split at h
    · cases h
    rename_i c r2 hs
    have h3 := skipB_lt hs
    split at h
    · simp only [Option.some.injEq, Prod.mk.injEq] at h
      rw [← h.2]; omega
    split at h
    · have h4 := lamParams_len n _ _ h
      omega
    · cases h

theorem lamHead_len {s : Str} {ps : List Str} {r : Str} (h : lamHead s = some (ps, r)) : r.length < s.length := by
  unfold lamHead at h
  dsimp only at h
  split at h
  · have h1 := lamParams_len _ _ _ h
    have h2 := spanC_len (p := isIdChar) s
    omega
  · cases h

theorem kwName_len {s n r : Str} (h : kwName s = some (n, r)) : r.length < s.length := by
  unfold kwName at h
  split at h
  · cases h
  · rename_i hn
    split at h
    · cases h
    · rename_i hs
      split at h
      · simp only [Option.some.injEq, Prod.mk.injEq] at h
        have := pyName_len hn
        have := skipB_lt hs
        rw [← h.2]; omega
      · cases h

/-! ### enough steps -/

/-- the text still to be read -/
def gtxt : Goal → Str
  | .lev _ s | .loop _ _ s | .prim s | .post _ s | .items _ _ s | .item s | .entries _ s => s

/-- number of steps that are always enough -/
def cost : Goal → Nat
  | .lev k s => 14 * s.length + (12 - k)
  | .loop _ _ s => 14 * s.length + 1
  | .prim s => 14 * s.length + 1
  | .post _ s => 14 * s.length + 1
  | .items _ _ s => 14 * s.length + 14
  | .item s => 14 * s.length + 13
  | .entries _ s => 14 * s.length + 14

/-- levels that exist -/
def gok : Goal → Prop
  | .lev k _ => k ≤ 10
  | .loop k _ _ => k < 10
  | _ => True

/-- how much is left -/
def Short (G : Goal) (x : Res) : Prop :=
  match G with
  | .loop _ _ s | .post _ s => x.2.length ≤ s.length
  | G => x.2.length < (gtxt G).length

theorem elim_some {a : Option Res} {f : PyE → Str → Option Res} {x : Res} (h : Res.elim a f = some x) :
    ∃ e s, a = some ([e], s) ∧ f e s = some x := by
  unfold Res.elim at h
  split at h
  · exact ⟨_, _, rfl, h⟩
  · cases h

theorem elim_eq {a : Option Res} {f : PyE → Str → Option Res} {x : Res} {e : PyE} {s : Str} (ha : a = some ([e], s))
    (h : f e s = some x) : Res.elim a f = some x := by rw [ha]; exact h

theorem closed_some {c : Char} {s : Str} {f : Str → Option Res} {x : Res} (h : closed c s f = some x) :
    ∃ r, skipB s = c :: r ∧ f r = some x := by
  unfold closed at h
  split at h
  · cases h
  · rename_i hs
    split at h
    · rename_i hc; exact ⟨_, by rw [hs, hc], h⟩
    · cases h

theorem closed_eq {c : Char} {s r : Str} {f : Str → Option Res} {x : Res} (hs : skipB s = c :: r) (h : f r = some x) :
    closed c s f = some x := by
  simp only [closed, hs, if_true, h]

theorem one_some {e : PyE} {s : Str} {x : Res} (h : one e s = some x) : x = ([e], s) := (Option.some.inj h).symm

/-- One step with a reader `g` that agrees with `f` on cheaper goals. -/
theorem rdStep_cost {f g : Goal → Option Res} {G : Goal} {x : Res} (hG : gok G)
    (hf : ∀ G' y, gok G' → f G' = some y → Short G' y)
    (hg : ∀ G' y, gok G' → cost G' < cost G → f G' = some y → g G' = some y)
    (h : rdStep f G = some x) : Short G x ∧ rdStep g G = some x := by
  cases G with
  | lev k s =>
    simp only [rdStep] at h ⊢
    simp only [gok] at hG
    split at h
    · rename_i hk; rw [if_pos hk]
      have h1 := hf (.lev 3 s) x (by simp [gok]) h
      exact ⟨h1, hg _ _ (by simp [gok]) (by simp only [cost]; omega) h⟩
    · rename_i hk
      rw [if_neg hk]
      split at h
      · rename_i hk; rw [if_pos hk]
        obtain ⟨e, r, h1, h2⟩ := elim_some h
        have s1 := hf _ _ (by simp only [gok]; omega) h1
        have s2 := hf _ _ (by simp only [gok]; omega) h2
        simp only [Short, gtxt] at s1 s2
        refine ⟨by simp only [Short, gtxt]; omega, ?_⟩
        refine elim_eq (hg _ _ (by simp only [gok]; omega) (by simp only [cost]; omega) h1) ?_
        exact hg _ _ (by simp only [gok]; omega) (by simp only [cost]; omega) h2
      · rename_i hk; rw [if_neg hk]
        split at h
        · cases h
        · rename_i c r hs
          have hl := skipB_lt hs
          have hl' := skipB_len s
          rw [hs] at hl'
          split at h
          · rename_i hc; rw [if_pos hc]
            obtain ⟨e, r', h1, h2⟩ := elim_some h
            have s1 := hf _ _ (by simp [gok]) h1
            simp only [Short, gtxt] at s1
            rw [one_some h2]
            refine ⟨by simp only [Short, gtxt]; omega, ?_⟩
            exact elim_eq (hg _ _ (by simp [gok]) (by simp only [cost]; omega) h1) rfl
          · rename_i hc; rw [if_neg hc]
            split at h
            · rename_i hc; rw [if_pos hc]
              obtain ⟨e, r', h1, h2⟩ := elim_some h
              have s1 := hf _ _ (by simp [gok]) h1
              simp only [Short, gtxt] at s1
              rw [one_some h2]
              refine ⟨by simp only [Short, gtxt]; omega, ?_⟩
              exact elim_eq (hg _ _ (by simp [gok]) (by simp only [cost]; omega) h1) rfl
            · rename_i hc; rw [if_neg hc]
              have s1 := hf _ _ (by simp [gok]) h
              simp only [Short, gtxt] at s1
              refine ⟨by simp only [Short, gtxt]; omega, ?_⟩
              exact hg _ _ (by simp [gok]) (by simp only [cost]; omega) h
  | loop k l s =>
    simp only [rdStep] at h ⊢
    simp only [gok] at hG
    split at h
    · rename_i op r ho
      have hl := opTok_len ho
      have hl' := skipB_len s
      split at h
      · rename_i hk; rw [if_pos hk]
        obtain ⟨e, r', h1, h2⟩ := elim_some h
        have s1 := hf _ _ (by simp only [gok]; omega) h1
        simp only [Short, gtxt] at s1
        have g1 := hg _ _ (by simp only [gok]; omega) (by simp only [cost]; omega) h1
        split at h2
        · rename_i h3
          rw [one_some h2]
          refine ⟨by simp only [Short]; omega, elim_eq g1 ?_⟩
          rw [if_pos h3]; rfl
        · rename_i h3
          have s2 := hf _ _ (by simp only [gok]; omega) h2
          simp only [Short] at s2
          refine ⟨by simp only [Short]; omega, elim_eq g1 ?_⟩
          rw [if_neg h3]
          exact hg _ _ (by simp only [gok]; omega) (by simp only [cost]; omega) h2
      · rename_i hk; rw [if_neg hk]
        rw [one_some h]
        exact ⟨Nat.le_refl _, rfl⟩
    · rw [one_some h]
      exact ⟨Nat.le_refl _, rfl⟩
  | prim s =>
    simp only [rdStep] at h ⊢
    split at h
    · rename_i v r hv
      have hl := pyString_len hv
      have s1 := hf _ _ (by simp [gok]) h
      simp only [Short] at s1
      exact ⟨by simp only [Short, gtxt]; omega, hg _ _ (by simp [gok]) (by simp only [cost]; omega) h⟩
    split at h
    · rename_i v r hv
      have hl := pyNumber_len hv
      have s1 := hf _ _ (by simp [gok]) h
      simp only [Short] at s1
      exact ⟨by simp only [Short, gtxt]; omega, hg _ _ (by simp [gok]) (by simp only [cost]; omega) h⟩
    split at h
    · rename_i v r hv
      have hl := pyName_len hv
      have s1 := hf _ _ (by simp [gok]) h
      simp only [Short] at s1
      exact ⟨by simp only [Short, gtxt]; omega, hg _ _ (by simp [gok]) (by simp only [cost]; omega) h⟩
    split at h
    · cases h
    rename_i c r _ _ _
    split at h
    · rename_i hc; rw [if_pos hc]
      obtain ⟨e, r', h1, h2⟩ := elim_some h
      have s1 := hf _ _ (by simp [gok]) h1
      obtain ⟨r'', hc', h3⟩ := closed_some h2
      have hl := skipB_lt hc'
      have s2 := hf _ _ (by simp [gok]) h3
      simp only [Short, gtxt] at s1 s2
      refine ⟨by simp only [Short, gtxt, List.length_cons]; omega, ?_⟩
      refine elim_eq (hg _ _ (by simp [gok]) (by simp only [cost, List.length_cons]; omega) h1) (closed_eq hc' ?_)
      exact hg _ _ (by simp [gok]) (by simp only [cost, List.length_cons]; omega) h3
    rename_i hc; rw [if_neg hc]
    split at h
    · rename_i hc; rw [if_pos hc]
      split at h
      · rename_i es r' he
        have s1 := hf _ _ (by simp [gok]) he
        rw [hg _ _ (by simp [gok]) (by simp only [cost, List.length_cons]; omega) he]
        split at h
        · cases h
        · rename_i hk
          dsimp only
          rw [if_neg hk]
          have s2 := hf _ _ (by simp [gok]) h
          simp only [Short, gtxt] at s1 s2
          refine ⟨by simp only [Short, gtxt, List.length_cons]; omega, ?_⟩
          exact hg _ _ (by simp [gok]) (by simp only [cost, List.length_cons]; omega) h
      · cases h
    rename_i hc; rw [if_neg hc]
    split at h
    · rename_i hc; rw [if_pos hc]
      split at h
      · rename_i es r' he
        have s1 := hf _ _ (by simp [gok]) he
        rw [hg _ _ (by simp [gok]) (by simp only [cost, List.length_cons]; omega) he]
        have s2 := hf _ _ (by simp [gok]) h
        simp only [Short, gtxt] at s1 s2
        refine ⟨by simp only [Short, gtxt, List.length_cons]; omega, ?_⟩
        exact hg _ _ (by simp [gok]) (by simp only [cost, List.length_cons]; omega) h
      · cases h
    · cases h
  | post e s =>
    simp only [rdStep] at h ⊢
    split at h
    · rw [one_some h]; exact ⟨Nat.le_refl _, rfl⟩
    rename_i c r hs
    have hl := skipB_lt hs
    split at h
    · rename_i hc; rw [if_pos hc]
      split at h
      · rename_i n r' hn
        have hl' := pyName_len hn
        have hl'' := skipB_len r
        have s1 := hf _ _ (by simp [gok]) h
        simp only [Short] at s1
        exact ⟨by simp only [Short]; omega, hg _ _ (by simp [gok]) (by simp only [cost]; omega) h⟩
      · cases h
    rename_i hc; rw [if_neg hc]
    split at h
    · rename_i hc; rw [if_pos hc]
      split at h
      · rename_i es r' he
        have s1 := hf _ _ (by simp [gok]) he
        rw [hg _ _ (by simp [gok]) (by simp only [cost]; omega) he]
        split at h
        · rename_i hk
          dsimp only
          rw [if_pos hk]
          have s2 := hf _ _ (by simp [gok]) h
          simp only [Short, gtxt] at s1 s2
          refine ⟨by simp only [Short]; omega, ?_⟩
          exact hg _ _ (by simp [gok]) (by simp only [cost]; omega) h
        · cases h
      · cases h
    · rename_i hc; rw [if_neg hc]
      rw [one_some h]; exact ⟨Nat.le_refl _, rfl⟩
  | items c acc s =>
    simp only [rdStep] at h ⊢
    split at h
    · cases h
    rename_i d r hs
    have hl := skipB_lt hs
    split at h
    · rename_i hc; rw [if_pos hc]
      rw [← Option.some.inj h]
      exact ⟨by simp only [Short, gtxt]; omega, rfl⟩
    rename_i hc; rw [if_neg hc]
    obtain ⟨e, r', h1, h2⟩ := elim_some h
    have s1 := hf _ _ (by simp [gok]) h1
    have g1 := hg _ _ (by simp [gok]) (by simp only [cost, List.length_cons]; omega) h1
    simp only [Short, gtxt, List.length_cons] at s1
    split at h2
    · cases h2
    rename_i d' r'' hs'
    have hl' := skipB_lt hs'
    split at h2
    · rename_i hd
      have s2 := hf _ _ (by simp [gok]) h2
      simp only [Short, gtxt] at s2
      refine ⟨by simp only [Short, gtxt]; omega, elim_eq g1 ?_⟩
      simp only [hs', if_pos hd]
      exact hg _ _ (by simp [gok]) (by simp only [cost]; omega) h2
    · rename_i hd
      split at h2
      · rename_i hd'
        have h3 := Option.some.inj h2
        refine ⟨by rw [← h3]; simp only [Short, gtxt]; omega, elim_eq g1 ?_⟩
        simp only [hs', if_neg hd, if_pos hd', h3]
      · cases h2
  | item s =>
    simp only [rdStep] at h ⊢
    split at h
    · rename_i n r hn
      have hl := kwName_len hn
      obtain ⟨e, r', h1, h2⟩ := elim_some h
      have s1 := hf _ _ (by simp [gok]) h1
      have g1 := hg _ _ (by simp [gok]) (by simp only [cost]; omega) h1
      simp only [Short, gtxt] at s1
      rw [one_some h2]
      exact ⟨by simp only [Short, gtxt]; omega, elim_eq g1 rfl⟩
    split at h
    · rename_i ps r hn
      have hl := lamHead_len hn
      obtain ⟨e, r', h1, h2⟩ := elim_some h
      have s1 := hf _ _ (by simp [gok]) h1
      have g1 := hg _ _ (by simp [gok]) (by simp only [cost]; omega) h1
      simp only [Short, gtxt] at s1
      rw [one_some h2]
      exact ⟨by simp only [Short, gtxt]; omega, elim_eq g1 rfl⟩
    · have s1 := hf _ _ (by simp [gok]) h
      simp only [Short, gtxt] at s1
      exact ⟨by simp only [Short, gtxt]; omega, hg _ _ (by simp [gok]) (by simp only [cost]; omega) h⟩
  | entries acc s =>
    simp only [rdStep] at h ⊢
    split at h
    · cases h
    rename_i d r hs
    have hl := skipB_lt hs
    split at h
    · rename_i hc; rw [if_pos hc]
      rw [← Option.some.inj h]
      exact ⟨by simp only [Short, gtxt]; omega, rfl⟩
    rename_i hc; rw [if_neg hc]
    obtain ⟨k, r', h1, h2⟩ := elim_some h
    have s1 := hf _ _ (by simp [gok]) h1
    have g1 := hg _ _ (by simp [gok]) (by simp only [cost, List.length_cons]; omega) h1
    simp only [Short, gtxt, List.length_cons] at s1
    obtain ⟨r1, hr1, h3⟩ := closed_some h2
    have hl1 := skipB_lt hr1
    obtain ⟨v, r2, h4, h5⟩ := elim_some h3
    have s2 := hf _ _ (by simp [gok]) h4
    have g2 := hg _ _ (by simp [gok]) (by simp only [cost]; omega) h4
    simp only [Short, gtxt] at s2
    split at h5
    · cases h5
    rename_i d' r'' hs'
    have hl' := skipB_lt hs'
    split at h5
    · rename_i hd
      have s2 := hf _ _ (by simp [gok]) h5
      simp only [Short, gtxt] at s2
      refine ⟨by simp only [Short, gtxt]; omega, elim_eq g1 (closed_eq hr1 (elim_eq g2 ?_))⟩
      simp only [hs', if_pos hd]
      exact hg _ _ (by simp [gok]) (by simp only [cost]; omega) h5
    · rename_i hd
      split at h5
      · rename_i hd'
        have h3 := Option.some.inj h5
        refine ⟨by rw [← h3]; simp only [Short, gtxt]; omega, elim_eq g1 (closed_eq hr1 (elim_eq g2 ?_))⟩
        simp only [hs', if_neg hd, if_pos hd', h3]
      · cases h5

theorem rd_short : ∀ (n : Nat) (G : Goal) (x : Res), gok G → rd n G = some x → Short G x
  | 0, _, _, _, h => by cases h
  | n + 1, G, x, hG, h => (rdStep_cost (g := rd n) hG (rd_short n) (fun _ _ _ _ h => h) h).1

/-- `cost G` steps are enough. -/
theorem rd_cost {n : Nat} {G : Goal} {x : Res} (hG : gok G) (h : rd n G = some x) : rd (cost G) G = some x := by
  induction hc : cost G using Nat.strongRecOn generalizing n G x with
  | _ c ih =>
    obtain ⟨m, rfl⟩ := rd_pos h
    have hp : ∃ c', c = c' + 1 := by
      cases c with
      | zero => exfalso; cases G <;> simp only [cost] at hc <;> (try simp only [gok] at hG) <;> omega
      | succ c' => exact ⟨c', rfl⟩
    obtain ⟨c', rfl⟩ := hp
    refine (rdStep_cost (f := rd m) (g := rd c') hG (rd_short m) ?_ h).2
    intro G' y hG' hlt h'
    exact rd_mono (ih (cost G') (by omega) hG' h' rfl) (by omega)

/-! ### reading, without the bound -/

/-- the goal is read as `x` -/
def Reads (G : Goal) (x : Res) : Prop := ∃ n, rd n G = some x

theorem readPy_of {s r : Str} {e : PyE} (h : Reads (.lev 0 s) ([e], r)) (hr : skipB r = []) : readPy s = some e := by
  obtain ⟨n, h⟩ := h
  have h := rd_cost (by simp [gok]) h
  unfold readPy
  rw [rd_mono h (by simp only [cost]; omega)]
  simp only [hr, if_true]

theorem Reads.det {G : Goal} {x y : Res} (h : Reads G x) (h' : Reads G y) : x = y := by
  obtain ⟨_, h⟩ := h
  obtain ⟨_, h'⟩ := h'
  exact rd_det h h'

theorem Reads.two {G G' : Goal} {x y : Res} (h : Reads G x) (h' : Reads G' y) : ∃ n, rd n G = some x ∧ rd n G' = some y := by
  obtain ⟨n, h⟩ := h
  obtain ⟨m, h'⟩ := h'
  exact ⟨max n m, rd_mono h (by omega), rd_mono h' (by omega)⟩

end Verif.Lemmas
