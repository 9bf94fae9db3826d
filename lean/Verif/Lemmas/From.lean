import Verif.Lemmas.Ensures
import Verif.Spec.Texts
/-
What the values returned by a parser satisfy when the input is known to satisfy something: a version of the
logic of `Lemmas.Ensures` that keeps track of where texts come from.
-/
namespace Verif
open Verif.Spec

/-- An assumption `Q` on inputs, and what follows for names and for other texts. -/
structure Prov where
  Q : Str → Prop
  N : Str → Prop
  T : Str → Prop
  sub : ∀ {s t : Str}, t <:+: s → Q s → Q t
  unesc : ∀ {s : Str}, Q s → Q (Spl.unescapeSearch s)
  tok : ∀ {s : Str}, Q s → ¬ Reserved s → N s
  quo : ∀ {i s : Str}, Q i → QuotedIn s i → N s
  txt : ∀ {s : Str}, Q s → T s
  nt : ∀ {s : Str}, N s → T s
  defN : ∀ s ∈ defaultNames, N s
  defT : ∀ s ∈ defaultTexts, T s

namespace P
variable {R : Type} [Env R] {g c g₁ c₁ g₂ c₂ g₃ c₃ : Bool} {α β γ : Type}

/-- the value is a part of the input -/
def Sub (p : P R g c Str) (ρ : R) : Prop := ∀ i r a, p.run ρ i = some (r, a) → a <:+: i

/-- every value returned for an input satisfying `Q` satisfies `Φ` -/
def From (K : Prov) (p : P R g c α) (ρ : R) (Φ : α → Prop) : Prop :=
  ∀ i r a, K.Q i → p.run ρ i = some (r, a) → Φ a

variable {K : Prov} {ρ : R} {Φ : α → Prop} {Ψ : β → Prop}

theorem infix_of_suffix {s t u : Str} (h : s <:+: t) (h' : t <:+ u) : s <:+: u := h.trans h'.isInfix

theorem recognize_eq {p : P R g c α} {i r s : Str} (h : (P.recognize p).run ρ i = some (r, s)) :
    i = s ++ r ∧ ∃ a, p.run ρ i = some (r, a) := by
  simp only [recognize] at h
  split at h
  · rename_i r' a ha
    simp only [Option.some.injEq, Prod.mk.injEq] at h
    obtain ⟨rfl, rfl⟩ := h
    obtain ⟨t, ht⟩ := p.suf _ _ _ _ ha
    refine ⟨?_, a, ha⟩
    subst ht
    simp
  · simp at h

theorem Sub.recognize {p : P R g c α} : (P.recognize p).Sub ρ := by
  intro i r s h
  rw [(recognize_eq h).1]
  exact (List.prefix_append _ _).isInfix

theorem Sub.tagL {t : Char} {ts : Str} : (P.tagL t ts : P R true true Str).Sub ρ := by
  intro i r a h
  simp only [P.tagL] at h
  split at h
  · rename_i hs
    simp only [Option.some.injEq, Prod.mk.injEq] at h
    rw [stripPrefix?_some] at hs
    rw [← h.2, hs]
    exact (List.prefix_append _ _).isInfix
  · simp at h

theorem Sub.tagNoCaseL {t : Char} {ts : Str} : (P.tagNoCaseL t ts : P R true true Str).Sub ρ := by
  intro i r a h
  simp only [P.tagNoCaseL] at h
  split at h
  · rename_i m r' hs
    simp only [Option.some.injEq, Prod.mk.injEq] at h
    rw [← h.2, (stripPrefixCI?_spec hs).1]
    exact (List.prefix_append _ _).isInfix
  · simp at h

theorem Sub.takeWhile0 {f : Char → Bool} : (P.takeWhile0 f : P R true false Str).Sub ρ := by
  intro i r a h
  simp only [P.takeWhile0, Option.some.injEq, Prod.mk.injEq] at h
  rw [← h.2]
  exact (List.takeWhile_prefix f).isInfix

theorem Sub.takeWhile1 {f : Char → Bool} : (P.takeWhile1 f : P R true true Str).Sub ρ := by
  intro i r a h
  simp only [P.takeWhile1] at h
  split at h
  · simp at h
  · rename_i x xs
    split at h
    · rename_i hx
      simp only [Option.some.injEq, Prod.mk.injEq] at h
      have := List.takeWhile_prefix f (l := x :: xs)
      rw [List.takeWhile_cons_of_pos hx] at this
      rw [← h.2]
      exact this.isInfix
    · simp at h

theorem Sub.lift {p : L c Str} (h : p.Sub ()) : (P.lift p : P R true c Str).Sub ρ := fun i r a ha => h i r a ha

theorem Sub.recast {g' c' : Bool} {p : P R g c Str} {hg : g = g'} {hc : c = c'} (h : p.Sub ρ) :
    (p.recast hg hc).Sub ρ := h

theorem Sub.verify {f : Str → Bool} {p : P R g c Str} (h : p.Sub ρ) : (P.verify f p).Sub ρ := by
  intro i r a ha
  simp only [P.verify, filterMap] at ha
  split at ha
  · rename_i r' b hb
    split at ha
    · rename_i b' hf
      simp only [Option.some.injEq, Prod.mk.injEq] at ha
      split at hf
      · simp only [Option.some.injEq] at hf
        rw [← ha.2, ← hf]; exact h _ _ _ hb
      · simp at hf
    · simp at ha
  · simp at ha

theorem Sub.alt {p : P R g₁ c₁ Str} {q : P R g₂ c₂ Str} (hp : p.Sub ρ) (hq : q.Sub ρ) : (P.alt p q).Sub ρ := by
  intro i r a ha
  simp only [P.alt] at ha
  split at ha
  · rename_i x hx; exact hp _ _ _ (hx.trans ha)
  · exact hq _ _ _ ha

theorem Sub.pre {p : P R g₁ c₁ α} {q : P R g₂ c₂ Str} (hq : q.Sub ρ) : (P.pre p q).Sub ρ := by
  intro i r a ha
  simp only [P.pre, P.map, P.seq] at ha
  split at ha
  · rename_i r' x hx
    simp only [Option.some.injEq, Prod.mk.injEq] at ha
    split at hx
    · rename_i r1 b hb
      split at hx
      · rename_i r2 d hd
        simp only [Option.some.injEq, Prod.mk.injEq] at hx
        rw [← ha.2, ← hx.2]
        exact infix_of_suffix (hq _ _ _ hd) (p.suf _ _ _ _ hb)
      · simp at hx
    · simp at hx
  · simp at ha

theorem Sub.post {p : P R g₁ c₁ Str} {q : P R g₂ c₂ α} (hp : p.Sub ρ) : (P.post p q).Sub ρ := by
  intro i r a ha
  simp only [P.post, P.map, P.seq] at ha
  split at ha
  · rename_i r' x hx
    simp only [Option.some.injEq, Prod.mk.injEq] at ha
    split at hx
    · rename_i r1 b hb
      split at hx
      · rename_i r2 d hd
        simp only [Option.some.injEq, Prod.mk.injEq] at hx
        rw [← ha.2, ← hx.2]
        exact hp _ _ _ hb
      · simp at hx
    · simp at hx
  · simp at ha

theorem Sub.delim {p : P R g₁ c₁ α} {q : P R g₂ c₂ Str} {s : P R g₃ c₃ γ} (hq : q.Sub ρ) : (P.delim p q s).Sub ρ :=
  Sub.pre (Sub.post hq)
theorem Sub.ws {p : P R g c Str} (h : p.Sub ρ) : (P.ws p).Sub ρ := Sub.recast (Sub.delim h)
theorem Sub.parenthesized {p : P R g c Str} (h : p.Sub ρ) : (P.parenthesized p).Sub ρ := Sub.recast (Sub.delim h)

theorem Sub.from {p : P R g c Str} (h : p.Sub ρ) : p.From K ρ K.Q := fun i r a hi ha => K.sub (h i r a ha) hi
theorem Sub.text {p : P R g c Str} (h : p.Sub ρ) : p.From K ρ K.T := fun i r a hi ha => K.txt (K.sub (h i r a ha) hi)

theorem From.mono {p : P R g c α} {Φ' : α → Prop} (h : p.From K ρ Φ) (hi : ∀ a, Φ a → Φ' a) : p.From K ρ Φ' :=
  fun i r a hq ha => hi a (h i r a hq ha)

theorem From.triv (p : P R g c α) : p.From K ρ (fun _ => True) := fun _ _ _ _ _ => trivial

theorem From.of (p : P R g c α) (h : ∀ a, Φ a) : p.From K ρ Φ := fun _ _ a _ _ => h a

theorem From.lift {p : L c α} (h : p.From K () Φ) : (P.lift p : P R true c α).From K ρ Φ := fun i r a hi ha => h i r a hi ha

theorem From.weak {p : P R g c α} (h : p.From K ρ Φ) : p.weak.From K ρ Φ := h

theorem From.recast {g' c' : Bool} {p : P R g c α} {hg : g = g'} {hc : c = c'} (h : p.From K ρ Φ) :
    (p.recast hg hc).From K ρ Φ := h

theorem From.map {f : α → β} {p : P R g c α} (h : p.From K ρ (fun a => Ψ (f a))) : (P.map f p).From K ρ Ψ := by
  intro i r b hi hb
  simp only [P.map] at hb
  split at hb
  · rename_i r' a ha
    simp only [Option.some.injEq, Prod.mk.injEq] at hb
    rw [← hb.2]; exact h _ _ _ hi ha
  · simp at hb

theorem From.filterMap {f : α → Option β} {p : P R g c α} (h : p.From K ρ (fun a => ∀ b, f a = some b → Ψ b)) :
    (P.filterMap f p).From K ρ Ψ := by
  intro i r b hi hb
  simp only [P.filterMap] at hb
  split at hb
  · rename_i r' a ha
    split at hb
    · rename_i b' hf
      simp only [Option.some.injEq, Prod.mk.injEq] at hb
      rw [← hb.2]; exact h _ _ _ hi ha _ hf
    · simp at hb
  · simp at hb

theorem From.verify {f : α → Bool} {p : P R g c α} (h : p.From K ρ Φ) :
    (P.verify f p).From K ρ (fun a => Φ a ∧ f a = true) := by
  apply From.filterMap
  intro i r a hi ha b hb
  split at hb
  · rename_i hf
    simp only [Option.some.injEq] at hb
    subst hb; exact ⟨h _ _ _ hi ha, hf⟩
  · simp at hb

theorem From.seq {p : P R g₁ c₁ α} {q : P R g₂ c₂ β} (hp : p.From K ρ Φ) (hq : q.From K ρ Ψ) :
    (P.seq p q).From K ρ (fun x => Φ x.1 ∧ Ψ x.2) := by
  intro i r x hi hx
  simp only [P.seq] at hx
  split at hx
  · rename_i r' a ha
    split at hx
    · rename_i r'' b hb
      simp only [Option.some.injEq, Prod.mk.injEq] at hx
      rw [← hx.2]
      exact ⟨hp _ _ _ hi ha, hq _ _ _ (K.sub (p.suf _ _ _ _ ha).isInfix hi) hb⟩
    · simp at hx
  · simp at hx

theorem From.pre {p : P R g₁ c₁ α} {q : P R g₂ c₂ β} (hq : q.From K ρ Ψ) : (P.pre p q).From K ρ Ψ :=
  From.map ((From.seq (From.triv p) hq).mono fun _ h => h.2)

theorem From.post {p : P R g₁ c₁ α} {q : P R g₂ c₂ β} (hp : p.From K ρ Φ) : (P.post p q).From K ρ Φ :=
  From.map ((From.seq hp (From.triv q)).mono fun _ h => h.1)

theorem From.delim {p : P R g₁ c₁ α} {q : P R g₂ c₂ β} {s : P R g₃ c₃ γ} (hq : q.From K ρ Ψ) :
    (P.delim p q s).From K ρ Ψ :=
  From.pre (From.post hq)

theorem From.sepPair {p : P R g₁ c₁ α} {s : P R g₂ c₂ γ} {q : P R g₃ c₃ β} (hp : p.From K ρ Φ) (hq : q.From K ρ Ψ) :
    (P.sepPair p s q).From K ρ (fun x => Φ x.1 ∧ Ψ x.2) :=
  From.seq hp (From.pre hq)

theorem From.alt {p : P R g₁ c₁ α} {q : P R g₂ c₂ α} (hp : p.From K ρ Φ) (hq : q.From K ρ Φ) :
    (P.alt p q).From K ρ Φ := by
  intro i r a hi ha
  simp only [P.alt] at ha
  split at ha
  · rename_i x hx; exact hp _ _ _ hi (hx.trans ha)
  · exact hq _ _ _ hi ha

theorem From.opt {p : P R g c α} (h : p.From K ρ Φ) : (P.opt p).From K ρ (fun o => ∀ a, o = some a → Φ a) := by
  intro i r o hi ho
  simp only [P.opt] at ho
  split at ho
  · rename_i r' a ha
    simp only [Option.some.injEq, Prod.mk.injEq] at ho
    intro b hb
    rw [← ho.2, Option.some.injEq] at hb
    subst hb; exact h _ _ _ hi ha
  · simp only [Option.some.injEq, Prod.mk.injEq] at ho
    intro b hb
    rw [← ho.2] at hb
    simp at hb

theorem From.allConsuming {p : P R g c α} (h : p.From K ρ Φ) : (P.allConsuming p).From K ρ Φ := by
  intro i r a hi ha
  simp only [P.allConsuming] at ha
  split at ha
  · rename_i b hb
    simp only [Option.some.injEq, Prod.mk.injEq] at ha
    rw [← ha.2]; exact h _ _ _ hi hb
  · simp at ha

theorem manyLoop_from {f : Str → PRes α} (hs : ∀ i r a, f i = some (r, a) → r <:+ i)
    (h : ∀ i r a, K.Q i → f i = some (r, a) → Φ a) : ∀ n i, K.Q i → ∀ a ∈ (manyLoop f n i).2, Φ a := by
  intro n
  induction n with
  | zero => intro i _ a ha; simp [manyLoop] at ha
  | succ n ih =>
    intro i hi a ha
    unfold manyLoop at ha
    split at ha
    · simp at ha
    · rename_i r b hb
      simp only [List.mem_cons] at ha
      rcases ha with rfl | ha
      · exact h _ _ _ hi hb
      · exact ih _ (K.sub (hs _ _ _ hb).isInfix hi) _ ha

theorem From.many0 {p : P R g true α} (h : p.From K ρ Φ) : (P.many0 p).From K ρ (fun l => ∀ a ∈ l, Φ a) := by
  intro i r l hi hl
  simp only [P.many0, Option.some.injEq] at hl
  have := manyLoop_from (Φ := Φ) (p.suf ρ) h i.length i hi
  rw [hl] at this; exact this

theorem From.many1 {p : P R g true α} (h : p.From K ρ Φ) : (P.many1 p).From K ρ (fun l => ∀ a ∈ l, Φ a) := by
  have h2 : (P.map (fun x : α × List α => x.1 :: x.2) (P.seq p (P.many0 p))).From K ρ (fun l => ∀ a ∈ l, Φ a) :=
    From.map ((From.seq h (From.many0 h)).mono fun x hx => by
      intro a ha
      rcases List.mem_cons.mp ha with ha | ha
      · exact ha ▸ hx.1
      · exact hx.2 _ ha)
  exact fun i r a hi ha => h2 i r a hi ha

theorem sepLoop_from {s : Str → PRes γ} {f : Str → PRes α} (hss : ∀ i r a, s i = some (r, a) → r <:+ i)
    (hs : ∀ i r a, f i = some (r, a) → r <:+ i) (h : ∀ i r a, K.Q i → f i = some (r, a) → Φ a) :
    ∀ n i, K.Q i → ∀ a ∈ (sepLoop s f n i).2, Φ a := by
  intro n
  induction n with
  | zero => intro i _ a ha; simp [sepLoop] at ha
  | succ n ih =>
    intro i hi a ha
    unfold sepLoop at ha
    split at ha
    · simp at ha
    · rename_i r0 b0 h0
      have hr0 : K.Q r0 := K.sub (hss _ _ _ h0).isInfix hi
      split at ha
      · simp at ha
      · rename_i r' b hb
        simp only [List.mem_cons] at ha
        rcases ha with rfl | ha
        · exact h _ _ _ hr0 hb
        · exact ih _ (K.sub (hs _ _ _ hb).isInfix hr0) _ ha

theorem From.sepList1 {s : P R g₁ true γ} {p : P R g₂ c₂ α} (h : p.From K ρ Φ) :
    (P.sepList1 s p).From K ρ (fun l => ∀ a ∈ l, Φ a) := by
  intro i r l hi hl
  simp only [P.sepList1] at hl
  split at hl
  · simp at hl
  · rename_i r' a ha
    simp only [Option.some.injEq, Prod.mk.injEq] at hl
    rw [← hl.2]
    intro b hb
    simp only [List.mem_cons] at hb
    rcases hb with rfl | hb
    · exact h _ _ _ hi ha
    · exact sepLoop_from (Φ := Φ) (s.suf ρ) (p.suf ρ) h _ _ (K.sub (p.suf _ _ _ _ ha).isInfix hi) _ hb

theorem From.sepList0 {s : P R g₁ true γ} {p : P R g₂ c₂ α} (h : p.From K ρ Φ) :
    (P.sepList0 s p).From K ρ (fun l => ∀ a ∈ l, Φ a) := by
  intro i r l hi hl
  simp only [P.sepList0] at hl
  split at hl
  · simp only [Option.some.injEq, Prod.mk.injEq] at hl
    rw [← hl.2]; simp
  · rename_i r' a ha
    simp only [Option.some.injEq, Prod.mk.injEq] at hl
    rw [← hl.2]
    intro b hb
    simp only [List.mem_cons] at hb
    rcases hb with rfl | hb
    · exact h _ _ _ hi ha
    · exact sepLoop_from (Φ := Φ) (s.suf ρ) (p.suf ρ) h _ _ (K.sub (p.suf _ _ _ _ ha).isInfix hi) _ hb

theorem From.ws {p : P R g c α} (h : p.From K ρ Φ) : (P.ws p).From K ρ Φ := From.recast (From.delim h)
theorem From.parenthesized {p : P R g c α} (h : p.From K ρ Φ) : (P.parenthesized p).From K ρ Φ :=
  From.recast (From.delim h)
theorem From.commaList0 {p : P R g c α} (h : p.From K ρ Φ) : (P.commaList0 p).From K ρ (fun l => ∀ a ∈ l, Φ a) :=
  From.recast (From.sepList0 h)
theorem From.commaList1 {p : P R g c α} (h : p.From K ρ Φ) : (P.commaList1 p).From K ρ (fun l => ∀ a ∈ l, Φ a) :=
  From.recast (From.sepList1 h)
theorem From.spaceList1 {p : P R g c α} (h : p.From K ρ Φ) : (P.spaceList1 p).From K ρ (fun l => ∀ a ∈ l, Φ a) :=
  From.recast (From.sepList1 h)
theorem From.commaOrSpaceList0 {p : P R g c α} (h : p.From K ρ Φ) :
    (P.commaOrSpaceList0 p).From K ρ (fun l => ∀ a ∈ l, Φ a) :=
  From.recast (From.sepList0 h)
theorem From.commaOrSpaceList1 {p : P R g c α} (h : p.From K ρ Φ) :
    (P.commaOrSpaceList1 p).From K ρ (fun l => ∀ a ∈ l, Φ a) :=
  From.recast (From.sepList1 h)

theorem From.reparse {p : P R g c Str} {q : L c₂ β} (hp : p.Sub ρ) (h : q.From K () Ψ) :
    (P.reparse p q).From K ρ Ψ := by
  apply From.filterMap
  intro i r s hi hs b hb
  simp only [Option.map_eq_some_iff] at hb
  obtain ⟨⟨r', b'⟩, hr, rfl⟩ := hb
  exact h _ _ _ (K.sub (hp _ _ _ hs) hi) hr

end P

namespace Spl

/-- To show that every recursive parser function returns only values satisfying a predicate, for inputs
satisfying `Q`, it is enough that the bodies preserve it. -/
theorem fix_from (K : Prov) (Φ : (n : NT) → n.ty → Prop)
    (h : ∀ ρ : Rec, (∀ n i r a, K.Q i → ρ.run n i = some (r, a) → Φ n a) → ∀ n, (gram n).From K ρ (Φ n)) :
    ∀ n i r a, K.Q i → fix.run n i = some (r, a) → Φ n a := by
  have key : ∀ k n i r a, K.Q i → (level k).run n i = some (r, a) → Φ n a := by
    intro k
    induction k with
    | zero => intro n i r a _ ha; simp [level] at ha
    | succ k ih =>
      intro n i r a hi ha
      exact h (level k) ih n i r a hi ha
  intro n i r a hi ha
  exact key (i.length + 1) n i r a hi ha

end Spl
end Verif
