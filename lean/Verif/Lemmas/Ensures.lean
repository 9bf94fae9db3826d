import Verif.Spl.Fix
/-
What the values returned by a parser satisfy: a small logic over the combinators.
-/
namespace Verif
namespace P
variable {R : Type} [Env R] {g c g₁ c₁ g₂ c₂ g₃ c₃ : Bool} {α β γ : Type}

/-- every value the parser returns satisfies `Φ`, under the environment `ρ` -/
def Ens (p : P R g c α) (ρ : R) (Φ : α → Prop) : Prop := ∀ i r a, p.run ρ i = some (r, a) → Φ a

variable {ρ : R} {Φ : α → Prop} {Ψ : β → Prop}

theorem Ens.mono {p : P R g c α} {Φ' : α → Prop} (h : p.Ens ρ Φ) (hi : ∀ a, Φ a → Φ' a) : p.Ens ρ Φ' :=
  fun i r a ha => hi a (h i r a ha)

theorem Ens.triv (p : P R g c α) : p.Ens ρ (fun _ => True) := fun _ _ _ _ => trivial

theorem Ens.lift {p : L c α} (h : p.Ens () Φ) : (P.lift p : P R true c α).Ens ρ Φ := fun i r a ha => h i r a ha

theorem Ens.weak {p : P R g c α} (h : p.Ens ρ Φ) : p.weak.Ens ρ Φ := h

theorem Ens.recast {g' c' : Bool} {p : P R g c α} {hg : g = g'} {hc : c = c'} (h : p.Ens ρ Φ) :
    (p.recast hg hc).Ens ρ Φ := h

theorem Ens.map {f : α → β} {p : P R g c α} (h : p.Ens ρ (fun a => Ψ (f a))) : (P.map f p).Ens ρ Ψ := by
  intro i r b hb
  simp only [P.map] at hb
  split at hb
  · rename_i r' a ha
    simp only [Option.some.injEq, Prod.mk.injEq] at hb
    rw [← hb.2]; exact h _ _ _ ha
  · simp at hb

theorem Ens.filterMap {f : α → Option β} {p : P R g c α} (h : p.Ens ρ (fun a => ∀ b, f a = some b → Ψ b)) :
    (P.filterMap f p).Ens ρ Ψ := by
  intro i r b hb
  simp only [P.filterMap] at hb
  split at hb
  · rename_i r' a ha
    split at hb
    · rename_i b' hf
      simp only [Option.some.injEq, Prod.mk.injEq] at hb
      rw [← hb.2]; exact h _ _ _ ha _ hf
    · simp at hb
  · simp at hb

theorem Ens.verify {f : α → Bool} {p : P R g c α} (h : p.Ens ρ Φ) : (P.verify f p).Ens ρ (fun a => Φ a ∧ f a = true) := by
  apply Ens.filterMap
  intro i r a ha b hb
  split at hb
  · rename_i hf
    simp only [Option.some.injEq] at hb
    subst hb; exact ⟨h _ _ _ ha, hf⟩
  · simp at hb

theorem Ens.seq {p : P R g₁ c₁ α} {q : P R g₂ c₂ β} (hp : p.Ens ρ Φ) (hq : q.Ens ρ Ψ) :
    (P.seq p q).Ens ρ (fun x => Φ x.1 ∧ Ψ x.2) := by
  intro i r x hx
  simp only [P.seq] at hx
  split at hx
  · rename_i r' a ha
    split at hx
    · rename_i r'' b hb
      simp only [Option.some.injEq, Prod.mk.injEq] at hx
      rw [← hx.2]; exact ⟨hp _ _ _ ha, hq _ _ _ hb⟩
    · simp at hx
  · simp at hx

theorem Ens.pre {p : P R g₁ c₁ α} {q : P R g₂ c₂ β} (hq : q.Ens ρ Ψ) : (P.pre p q).Ens ρ Ψ :=
  Ens.map ((Ens.seq (Ens.triv p) hq).mono fun _ h => h.2)

theorem Ens.post {p : P R g₁ c₁ α} {q : P R g₂ c₂ β} (hp : p.Ens ρ Φ) : (P.post p q).Ens ρ Φ :=
  Ens.map ((Ens.seq hp (Ens.triv q)).mono fun _ h => h.1)

theorem Ens.delim {p : P R g₁ c₁ α} {q : P R g₂ c₂ β} {s : P R g₃ c₃ γ} (hq : q.Ens ρ Ψ) : (P.delim p q s).Ens ρ Ψ :=
  Ens.pre (Ens.post hq)

theorem Ens.sepPair {p : P R g₁ c₁ α} {s : P R g₂ c₂ γ} {q : P R g₃ c₃ β} (hp : p.Ens ρ Φ) (hq : q.Ens ρ Ψ) :
    (P.sepPair p s q).Ens ρ (fun x => Φ x.1 ∧ Ψ x.2) :=
  Ens.seq hp (Ens.pre hq)

theorem Ens.alt {p : P R g₁ c₁ α} {q : P R g₂ c₂ α} (hp : p.Ens ρ Φ) (hq : q.Ens ρ Φ) : (P.alt p q).Ens ρ Φ := by
  intro i r a ha
  simp only [P.alt] at ha
  split at ha
  · rename_i x hx; exact hp _ _ _ (hx.trans ha)
  · exact hq _ _ _ ha

theorem Ens.opt {p : P R g c α} (h : p.Ens ρ Φ) : (P.opt p).Ens ρ (fun o => ∀ a, o = some a → Φ a) := by
  intro i r o ho
  simp only [P.opt] at ho
  split at ho
  · rename_i r' a ha
    simp only [Option.some.injEq, Prod.mk.injEq] at ho
    intro b hb
    rw [← ho.2, Option.some.injEq] at hb
    subst hb; exact h _ _ _ ha
  · simp only [Option.some.injEq, Prod.mk.injEq] at ho
    intro b hb
    rw [← ho.2] at hb
    simp at hb

theorem Ens.allConsuming {p : P R g c α} (h : p.Ens ρ Φ) : (P.allConsuming p).Ens ρ Φ := by
  intro i r a ha
  simp only [P.allConsuming] at ha
  split at ha
  · rename_i b hb
    simp only [Option.some.injEq, Prod.mk.injEq] at ha
    rw [← ha.2]; exact h _ _ _ hb
  · simp at ha

theorem manyLoop_all {f : Str → PRes α} (h : ∀ i r a, f i = some (r, a) → Φ a) :
    ∀ n i, ∀ a ∈ (manyLoop f n i).2, Φ a := by
  intro n
  induction n with
  | zero => intro i a ha; simp [manyLoop] at ha
  | succ n ih =>
    intro i a ha
    unfold manyLoop at ha
    split at ha
    · simp at ha
    · rename_i r b hb
      simp only [List.mem_cons] at ha
      rcases ha with rfl | ha
      · exact h _ _ _ hb
      · exact ih _ _ ha

theorem Ens.many0 {p : P R g true α} (h : p.Ens ρ Φ) : (P.many0 p).Ens ρ (fun l => ∀ a ∈ l, Φ a) := by
  intro i r l hl
  simp only [P.many0, Option.some.injEq] at hl
  have := manyLoop_all (Φ := Φ) h i.length i
  rw [hl] at this; exact this

theorem Ens.many1 {p : P R g true α} (h : p.Ens ρ Φ) : (P.many1 p).Ens ρ (fun l => l ≠ [] ∧ ∀ a ∈ l, Φ a) := by
  have h2 : (P.map (fun x : α × List α => x.1 :: x.2) (P.seq p (P.many0 p))).Ens ρ (fun l => l ≠ [] ∧ ∀ a ∈ l, Φ a) :=
    Ens.map ((Ens.seq h (Ens.many0 h)).mono fun x hx => ⟨by simp, by
      intro a ha
      rcases List.mem_cons.mp ha with ha | ha
      · exact ha ▸ hx.1
      · exact hx.2 _ ha⟩)
  exact fun i r a ha => h2 i r a ha

theorem sepLoop_all {s : Str → PRes γ} {f : Str → PRes α} (h : ∀ i r a, f i = some (r, a) → Φ a) :
    ∀ n i, ∀ a ∈ (sepLoop s f n i).2, Φ a := by
  intro n
  induction n with
  | zero => intro i a ha; simp [sepLoop] at ha
  | succ n ih =>
    intro i a ha
    unfold sepLoop at ha
    split at ha
    · simp at ha
    · split at ha
      · simp at ha
      · rename_i r' b hb
        simp only [List.mem_cons] at ha
        rcases ha with rfl | ha
        · exact h _ _ _ hb
        · exact ih _ _ ha

theorem Ens.sepList1 {s : P R g₁ true γ} {p : P R g₂ c₂ α} (h : p.Ens ρ Φ) :
    (P.sepList1 s p).Ens ρ (fun l => l ≠ [] ∧ ∀ a ∈ l, Φ a) := by
  intro i r l hl
  simp only [P.sepList1] at hl
  split at hl
  · simp at hl
  · rename_i r' a ha
    simp only [Option.some.injEq, Prod.mk.injEq] at hl
    rw [← hl.2]
    refine ⟨by simp, fun b hb => ?_⟩
    simp only [List.mem_cons] at hb
    rcases hb with rfl | hb
    · exact h _ _ _ ha
    · exact sepLoop_all (Φ := Φ) h _ _ _ hb

theorem Ens.sepList0 {s : P R g₁ true γ} {p : P R g₂ c₂ α} (h : p.Ens ρ Φ) :
    (P.sepList0 s p).Ens ρ (fun l => ∀ a ∈ l, Φ a) := by
  intro i r l hl
  simp only [P.sepList0] at hl
  split at hl
  · simp only [Option.some.injEq, Prod.mk.injEq] at hl
    rw [← hl.2]; simp
  · rename_i r' a ha
    simp only [Option.some.injEq, Prod.mk.injEq] at hl
    rw [← hl.2]
    intro b hb
    simp only [List.mem_cons] at hb
    rcases hb with rfl | hb
    · exact h _ _ _ ha
    · exact sepLoop_all (Φ := Φ) h _ _ _ hb

theorem Ens.ws {p : P R g c α} (h : p.Ens ρ Φ) : (P.ws p).Ens ρ Φ := Ens.recast (Ens.delim h)
theorem Ens.wsLeft {p : P R g c α} (h : p.Ens ρ Φ) : (P.wsLeft p).Ens ρ Φ := Ens.recast (Ens.pre h)
theorem Ens.wsRight {p : P R g c α} (h : p.Ens ρ Φ) : (P.wsRight p).Ens ρ Φ := Ens.recast (Ens.post h)
theorem Ens.parenthesized {p : P R g c α} (h : p.Ens ρ Φ) : (P.parenthesized p).Ens ρ Φ := Ens.recast (Ens.delim h)
theorem Ens.commaList0 {p : P R g c α} (h : p.Ens ρ Φ) : (P.commaList0 p).Ens ρ (fun l => ∀ a ∈ l, Φ a) :=
  Ens.recast (Ens.sepList0 h)
theorem Ens.commaList1 {p : P R g c α} (h : p.Ens ρ Φ) : (P.commaList1 p).Ens ρ (fun l => l ≠ [] ∧ ∀ a ∈ l, Φ a) :=
  Ens.recast (Ens.sepList1 h)
theorem Ens.spaceList1 {p : P R g c α} (h : p.Ens ρ Φ) : (P.spaceList1 p).Ens ρ (fun l => l ≠ [] ∧ ∀ a ∈ l, Φ a) :=
  Ens.recast (Ens.sepList1 h)
theorem Ens.commaOrSpaceList0 {p : P R g c α} (h : p.Ens ρ Φ) : (P.commaOrSpaceList0 p).Ens ρ (fun l => ∀ a ∈ l, Φ a) :=
  Ens.recast (Ens.sepList0 h)
theorem Ens.commaOrSpaceList1 {p : P R g c α} (h : p.Ens ρ Φ) :
    (P.commaOrSpaceList1 p).Ens ρ (fun l => l ≠ [] ∧ ∀ a ∈ l, Φ a) :=
  Ens.recast (Ens.sepList1 h)

theorem Ens.tagL {t : Char} {ts : Str} : (P.tagL t ts : P R true true Str).Ens ρ (fun s => s = t :: ts) := by
  intro i r a ha
  simp only [P.tagL] at ha
  split at ha
  · simp only [Option.some.injEq, Prod.mk.injEq] at ha; exact ha.2.symm
  · simp at ha

theorem Ens.tagNoCaseL {t : Char} {ts : Str} :
    (P.tagNoCaseL t ts : P R true true Str).Ens ρ (fun s => lower s = lower (t :: ts)) := by
  intro i r a ha
  simp only [P.tagNoCaseL] at ha
  split at ha
  · rename_i m r' h
    simp only [Option.some.injEq, Prod.mk.injEq] at ha
    rw [← ha.2]; exact (stripPrefixCI?_spec h).2.2
  · simp at ha

end P

namespace Spl

/-- To show that every recursive parser function returns only values satisfying a predicate it is enough
that the bodies preserve it. -/
theorem fix_ensures (Φ : (n : NT) → n.ty → Prop)
    (h : ∀ ρ : Rec, (∀ n i r a, ρ.run n i = some (r, a) → Φ n a) → ∀ n, (gram n).Ens ρ (Φ n)) :
    ∀ n i r a, fix.run n i = some (r, a) → Φ n a := by
  have key : ∀ k n i r a, (level k).run n i = some (r, a) → Φ n a := by
    intro k
    induction k with
    | zero => intro n i r a ha; simp [level] at ha
    | succ k ih =>
      intro n i r a ha
      exact h (level k) ih n i r a ha
  intro n i r a ha
  exact key (i.length + 1) n i r a ha

end Spl
end Verif
