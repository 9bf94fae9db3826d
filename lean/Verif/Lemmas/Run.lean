import Verif.Spl.Fix
/-
Equations for running the combinators, in terms of `Option.map` and `Option.bind`.
-/
namespace Verif
namespace P
variable {R : Type} [Env R] {g c g₁ c₁ g₂ c₂ g₃ c₃ : Bool} {α β γ : Type}

theorem run_lift (p : L c α) (ρ : R) (i : Str) : (P.lift p : P R true c α).run ρ i = p.run () i := rfl

theorem run_weak (p : P R g c α) (ρ : R) (i : Str) : p.weak.run ρ i = p.run ρ i := rfl

theorem run_recast {g' c' : Bool} (p : P R g c α) (hg : g = g') (hc : c = c') (ρ : R) (i : Str) :
    (p.recast hg hc).run ρ i = p.run ρ i := rfl

theorem run_map (f : α → β) (p : P R g c α) (ρ : R) (i : Str) :
    (P.map f p).run ρ i = (p.run ρ i).map fun x => (x.1, f x.2) := by
  simp only [P.map]; split <;> rename_i h <;> simp [h]

theorem run_filterMap (f : α → Option β) (p : P R g c α) (ρ : R) (i : Str) :
    (P.filterMap f p).run ρ i = (p.run ρ i).bind fun x => (f x.2).map fun b => (x.1, b) := by
  simp only [P.filterMap]
  split <;> rename_i h
  · simp only [h, Option.bind_some]; split <;> rename_i h' <;> simp [h']
  · simp [h]

theorem run_verify (f : α → Bool) (p : P R g c α) (ρ : R) (i : Str) :
    (P.verify f p).run ρ i = (p.run ρ i).filter fun x => f x.2 := by
  rw [P.verify, run_filterMap]
  cases p.run ρ i with
  | none => rfl
  | some x => by_cases h : f x.2 <;> simp [h, Option.filter]

theorem run_seq (p : P R g₁ c₁ α) (q : P R g₂ c₂ β) (ρ : R) (i : Str) :
    (P.seq p q).run ρ i =
      (p.run ρ i).bind fun x => (q.run ρ x.1).map fun y => (y.1, (x.2, y.2)) := by
  simp only [P.seq]
  split <;> rename_i h
  · simp only [h, Option.bind_some]; split <;> rename_i h' <;> simp [h']
  · simp [h]

theorem run_pre (p : P R g₁ c₁ α) (q : P R g₂ c₂ β) (ρ : R) (i : Str) :
    (P.pre p q).run ρ i = (p.run ρ i).bind fun x => q.run ρ x.1 := by
  rw [P.pre, run_map, run_seq]
  cases p.run ρ i with
  | none => rfl
  | some x => simp only [Option.bind_some]; cases q.run ρ x.1 <;> rfl

theorem run_post (p : P R g₁ c₁ α) (q : P R g₂ c₂ β) (ρ : R) (i : Str) :
    (P.post p q).run ρ i = (p.run ρ i).bind fun x => (q.run ρ x.1).map fun y => (y.1, x.2) := by
  rw [P.post, run_map, run_seq]
  cases p.run ρ i with
  | none => rfl
  | some x => simp only [Option.bind_some]; cases q.run ρ x.1 <;> rfl

theorem run_delim (p : P R g₁ c₁ α) (q : P R g₂ c₂ β) (r : P R g₃ c₃ γ) (ρ : R) (i : Str) :
    (P.delim p q r).run ρ i = (p.run ρ i).bind fun x => (q.run ρ x.1).bind fun y =>
      (r.run ρ y.1).map fun z => (z.1, y.2) := by
  rw [P.delim, run_pre]; simp only [run_post]

theorem run_sepPair (p : P R g₁ c₁ α) (s : P R g₂ c₂ γ) (q : P R g₃ c₃ β) (ρ : R) (i : Str) :
    (P.sepPair p s q).run ρ i = (p.run ρ i).bind fun x => (s.run ρ x.1).bind fun y =>
      (q.run ρ y.1).map fun z => (z.1, (x.2, z.2)) := by
  rw [P.sepPair, run_seq]
  cases p.run ρ i with
  | none => rfl
  | some x =>
    simp only [Option.bind_some, run_pre]
    cases s.run ρ x.1 <;> rfl

theorem run_alt (p : P R g₁ c₁ α) (q : P R g₂ c₂ α) (ρ : R) (i : Str) :
    (p <||> q).run ρ i = (p.run ρ i).or (q.run ρ i) := by
  simp only [P.alt]; split <;> rename_i h <;> simp [h]

theorem run_opt (p : P R g c α) (ρ : R) (i : Str) :
    (P.opt p).run ρ i = some ((p.run ρ i).elim (i, none) fun x => (x.1, some x.2)) := by
  simp only [P.opt]; split <;> rename_i h <;> simp [h]

theorem run_recognize (p : P R g c α) (ρ : R) (i : Str) :
    (P.recognize p).run ρ i = (p.run ρ i).map fun x => (x.1, i.take (i.length - x.1.length)) := by
  simp only [P.recognize]; split <;> rename_i h <;> simp [h]

/-- `recognize` returns the text consumed. -/
theorem recognize_some {p : P R g c α} {ρ : R} {i r s : Str} :
    (P.recognize p).run ρ i = some (r, s) ↔ (∃ a, p.run ρ i = some (r, a)) ∧ i = s ++ r := by
  rw [run_recognize]
  constructor
  · intro h
    cases hp : p.run ρ i with
    | none => simp [hp] at h
    | some x =>
      obtain ⟨r', a⟩ := x
      simp only [hp, Option.map_some, Option.some.injEq, Prod.mk.injEq] at h
      obtain ⟨rfl, rfl⟩ := h
      refine ⟨⟨a, rfl⟩, ?_⟩
      obtain ⟨t, rfl⟩ := p.suf _ _ _ _ hp
      simp
  · rintro ⟨⟨a, ha⟩, rfl⟩
    simp [ha]

theorem run_ms0 (ρ : R) (i : Str) : (ms0 : P R true false Str).run ρ i =
    some (i.dropWhile isSpace, i.takeWhile isSpace) := rfl

theorem run_ms1 (ρ : R) (i : Str) : (ms1 : P R true true Str).run ρ i =
    match i with
    | [] => none
    | x :: xs => if isSpace x then some (xs.dropWhile isSpace, x :: xs.takeWhile isSpace) else none := rfl

theorem run_ws (p : P R g c α) (ρ : R) (i : Str) :
    (ws p).run ρ i = (p.run ρ (i.dropWhile isSpace)).map fun x => (x.1.dropWhile isSpace, x.2) := by
  rw [ws, run_recast, run_delim]
  simp only [run_ms0, Option.bind_some]
  cases p.run ρ (i.dropWhile isSpace) <;> rfl

theorem run_wsLeft (p : P R g c α) (ρ : R) (i : Str) :
    (wsLeft p).run ρ i = p.run ρ (i.dropWhile isSpace) := by
  rw [wsLeft, run_recast, run_pre]; rfl

theorem run_wsRight (p : P R g c α) (ρ : R) (i : Str) :
    (wsRight p).run ρ i = (p.run ρ i).map fun x => (x.1.dropWhile isSpace, x.2) := by
  rw [wsRight, run_recast, run_post]
  cases p.run ρ i <;> rfl

theorem run_tag (t : Char) (ts : Str) (ρ : R) (i : Str) :
    (tagL t ts : P R true true Str).run ρ i = (stripPrefix? (t :: ts) i).map fun r => (r, t :: ts) := by
  simp only [tagL]; split <;> rename_i h <;> simp [h]

theorem run_tagi (t : Char) (ts : Str) (ρ : R) (i : Str) :
    (tagNoCaseL t ts : P R true true Str).run ρ i =
      (stripPrefixCI? (t :: ts) i).map fun x => (x.2, x.1) := by
  simp only [tagNoCaseL]; split <;> rename_i h <;> simp [h]

theorem run_allConsuming (p : P R g c α) (ρ : R) (i : Str) :
    (allConsuming p).run ρ i = (p.run ρ i).filter fun x => x.1.isEmpty := by
  simp only [allConsuming]
  split
  · rename_i a h; simp [h, Option.filter]
  · rename_i h
    cases hp : p.run ρ i with
    | none => rfl
    | some x =>
      obtain ⟨r, a⟩ := x
      cases r with
      | nil => exact absurd hp (h a)
      | cons _ _ => simp [Option.filter]

theorem allConsuming_some {p : P R g c α} {ρ : R} {i r : Str} {a : α} :
    (allConsuming p).run ρ i = some (r, a) ↔ p.run ρ i = some (r, a) ∧ r = [] := by
  rw [run_allConsuming]
  simp [Option.filter_eq_some_iff]

theorem run_sepList0 (s : P R g₁ true γ) (p : P R g₂ c₂ α) (ρ : R) (i : Str) :
    (sepList0 s p).run ρ i = some (match p.run ρ i with
      | none => (i, [])
      | some (r, a) => ((sepLoop (s.run ρ) (p.run ρ) r.length r).1,
          a :: (sepLoop (s.run ρ) (p.run ρ) r.length r).2)) := by
  simp only [sepList0]; split <;> rename_i h <;> simp [h]

theorem run_sepList1 (s : P R g₁ true γ) (p : P R g₂ c₂ α) (ρ : R) (i : Str) :
    (sepList1 s p).run ρ i = (p.run ρ i).map fun x =>
        ((sepLoop (s.run ρ) (p.run ρ) x.1.length x.1).1,
          x.2 :: (sepLoop (s.run ρ) (p.run ρ) x.1.length x.1).2) := by
  simp only [sepList1]; split <;> rename_i h <;> simp [h]

theorem run_many1 (p : P R g true α) (ρ : R) (i : Str) :
    (many1 p).run ρ i = (p.run ρ i).map fun x =>
      ((manyLoop (p.run ρ) x.1.length x.1).1, x.2 :: (manyLoop (p.run ρ) x.1.length x.1).2) := by
  change (P.map (fun x => x.1 :: x.2) (seq p (many0 p))).run ρ i = _
  rw [run_map, run_seq]
  cases p.run ρ i <;> rfl

end P

/-- The text before the first non-blank, and the rest. -/
theorem blank_split (s : Str) : s = s.takeWhile isSpace ++ s.dropWhile isSpace :=
  (List.takeWhile_append_dropWhile).symm

theorem takeWhile_blank (s : Str) : ∀ c ∈ s.takeWhile isSpace, isSpace c = true := by
  intro c hc
  induction s with
  | nil => simp at hc
  | cons x xs ih =>
    rw [List.takeWhile_cons] at hc
    split at hc
    · rcases List.mem_cons.1 hc with rfl | h
      · assumption
      · exact ih h
    · simp at hc

theorem dropWhile_append_of_blank {w : Str} (hw : ∀ c ∈ w, isSpace c = true) (s : Str) :
    (w ++ s).dropWhile isSpace = s.dropWhile isSpace := by
  induction w with
  | nil => rfl
  | cons x xs ih =>
    have hx := hw x (by simp)
    simp only [List.cons_append, List.dropWhile_cons, hx, if_true]
    exact ih fun c hc => hw c (by simp [hc])

theorem dropWhile_blank {w : Str} (hw : ∀ c ∈ w, isSpace c = true) : w.dropWhile isSpace = [] := by
  have := dropWhile_append_of_blank hw []; simpa using this

theorem dropWhile_idem (s : Str) : (s.dropWhile isSpace).dropWhile isSpace = s.dropWhile isSpace := by
  induction s with
  | nil => rfl
  | cons x xs ih =>
    rw [List.dropWhile_cons]
    split
    · exact ih
    · rename_i h; rw [List.dropWhile_cons]; simp [h]

theorem dropWhile_eq_nil {s : Str} (h : s.dropWhile isSpace = []) : ∀ c ∈ s, isSpace c = true := by
  intro c hc
  rw [blank_split s, h, List.append_nil] at hc
  exact takeWhile_blank s c hc

end Verif
