import Verif.Lemmas.Stage
/-
Reading lists of items with separators.
-/
namespace Verif
open P Lex Spl Spec Lemmas

theorem sepLoop_end {α γ : Type} {sp : Str → PRes γ} {p : Str → PRes α} {i : Str} (h : ∀ r x, sp i = some (r, x) → p r = none) (n : Nat) :
    sepLoop sp p n i = (i, []) := by
  cases n with
  | zero => rfl
  | succ n =>
    rw [sepLoop]
    cases hs : sp i with
    | none => rfl
    | some y => simp only [h _ _ hs]

/-- Items with separators: `nx` is what the item parser does with the text after the item. -/
theorem sep_items {α γ : Type} {I : α → Str → Prop} {S : Str → Str → Prop} {sp : Str → PRes γ} {p : Str → PRes α} {nx : Str → Str} {rest : Str}
    (Ok : Str → Prop) (hitem : ∀ a t u, I a t → Ok u → p (t ++ u) = some (nx u, a))
    (hsep : ∀ g b bs t, S g t → Items S I (b :: bs) t → Ok (g ++ (t ++ rest)) ∧ ∃ x, sp (nx (g ++ (t ++ rest))) = some (t ++ rest, x))
    (hcon : ∀ i r x, sp i = some (r, x) → r.length < i.length) (hsuf : ∀ i r a, p i = some (r, a) → r.length ≤ i.length)
    (hok : Ok rest) (hend : ∀ r x, sp (nx rest) = some (r, x) → p r = none) {as : List α} {s : Str} (h : Items S I as s) :
    ∀ a as', as = a :: as' → ∃ u, p (s ++ rest) = some (u, a) ∧ ∀ n, u.length ≤ n → sepLoop sp p n u = (nx rest, as') := by
  induction h with
  | @one a s h =>
    intro a' as' e
    simp only [List.cons.injEq] at e
    obtain ⟨rfl, rfl⟩ := e
    exact ⟨_, hitem _ _ _ h hok, fun n _ => sepLoop_end hend n⟩
  | @cons a b as g s t h hg hl ih =>
    intro a' as' e
    simp only [List.cons.injEq] at e
    obtain ⟨rfl, rfl⟩ := e
    obtain ⟨u, h1, h2⟩ := ih b as rfl
    obtain ⟨ho, x, hx⟩ := hsep g b as t hg hl
    refine ⟨nx (g ++ (t ++ rest)), ?_, fun n hn => ?_⟩
    · rw [List.append_assoc, List.append_assoc]
      exact hitem _ _ _ h ho
    · have l1 := hcon _ _ _ hx
      have l2 := hsuf _ _ _ h1
      cases n with
      | zero => omega
      | succ n =>
        rw [sepLoop, hx]
        simp only [h1, h2 n (by omega)]

/-- the same for a list parser with at least one item -/
theorem sepList1_read {g₁ g₂ c₂ : Bool} {α γ R : Type} [Env R] {ρ : R} {sp : P R g₁ true γ} {p : P R g₂ c₂ α} {I : α → Str → Prop} {S : Str → Str → Prop}
    {nx : Str → Str} {rest : Str} (Ok : Str → Prop) (hitem : ∀ a t u, I a t → Ok u → p.run ρ (t ++ u) = some (nx u, a))
    (hsep : ∀ g b bs t, S g t → Items S I (b :: bs) t → Ok (g ++ (t ++ rest)) ∧ ∃ x, sp.run ρ (nx (g ++ (t ++ rest))) = some (t ++ rest, x))
    (hok : Ok rest) (hend : ∀ r x, sp.run ρ (nx rest) = some (r, x) → p.run ρ r = none) {as : List α} {s : Str} (h : Items S I as s) :
    (sepList1 sp p).run ρ (s ++ rest) = some (nx rest, as) ∧ (sepList0 sp p).run ρ (s ++ rest) = some (nx rest, as) := by
  obtain ⟨a, as', rfl⟩ : ∃ a as', as = a :: as' := by cases h <;> exact ⟨_, _, rfl⟩
  obtain ⟨u, h1, h2⟩ := sep_items Ok hitem hsep (fun i r x e => sp.con rfl _ _ _ _ e) (fun i r a e => (p.suf _ _ _ _ e).length_le) hok hend h a as' rfl
  rw [run_sepList1, run_sepList0, h1]
  simp only [Option.map_some, h2 _ (Nat.le_refl _), and_self]

theorem run_commaList1 {g c : Bool} {α R : Type} [Env R] {ρ : R} (p : P R g c α) (i : Str) : (commaList1 p).run ρ i = (sepList1 commaSep p).run ρ i := rfl
theorem run_commaOrSpaceList1 {g c : Bool} {α R : Type} [Env R] {ρ : R} (p : P R g c α) (i : Str) :
    (commaOrSpaceList1 p).run ρ i = (sepList1 commaOrSpaceSep p).run ρ i := rfl

theorem manyLoop_fuel {α : Type} (p : Str → PRes α) (hcon : ∀ i r x, p i = some (r, x) → r.length < i.length) :
    ∀ n m i, i.length ≤ n → i.length ≤ m → manyLoop p n i = manyLoop p m i := by
  have h0 : ∀ n i, i.length ≤ 0 → manyLoop p n i = (i, []) := by
    intro n i hi
    cases n with
    | zero => rfl
    | succ n =>
      rw [manyLoop]
      cases h : p i with
      | none => rfl
      | some y => have := hcon _ _ _ h; omega
  intro n
  induction n with
  | zero => intro m i hi _; rw [h0 m i hi]; rfl
  | succ n ih =>
    intro m i hn hm
    cases m with
    | zero => rw [h0 _ i hm, h0 _ i hm]
    | succ m =>
      rw [manyLoop, manyLoop]
      cases h : p i with
      | none => rfl
      | some y =>
        have := hcon _ _ _ h
        simp only [ih m y.1 (by omega) (by omega)]

/-- Items one after another, read by `many0`. -/
theorem many_items {α : Type} {I : α → Str → Prop} {S : Str → Str → Prop} {p : Str → PRes α} {nx : Str → Str} {rest : Str}
    (Ok : Str → Prop) (hitem : ∀ a t u, I a t → Ok u → p (t ++ u) = some (nx u, a))
    (hsep : ∀ g b bs t, S g t → Items S I (b :: bs) t → Ok (g ++ (t ++ rest)) ∧ nx (g ++ (t ++ rest)) = t ++ rest)
    (hcon : ∀ i r x, p i = some (r, x) → r.length < i.length)
    (hok : Ok rest) (hend : p (nx rest) = none) {as : List α} {s : Str} (h : Items S I as s) :
    ∀ n, (s ++ rest).length ≤ n → manyLoop p n (s ++ rest) = (nx rest, as) := by
  induction h with
  | @one a s h =>
    intro n hn
    have h1 := hitem _ _ _ h hok
    have l1 := hcon _ _ _ h1
    cases n with
    | zero => omega
    | succ n =>
      rw [manyLoop, h1]
      cases n <;> simp [manyLoop, hend]
  | @cons a b as g s t h hg hl ih =>
    intro n hn
    obtain ⟨ho, hx⟩ := hsep g b as t hg hl
    have h1 := hitem _ _ _ h ho
    have l1 := hcon _ _ _ h1
    rw [List.append_assoc, List.append_assoc] at hn ⊢
    cases n with
    | zero => omega
    | succ n =>
      rw [hx] at h1 l1
      rw [manyLoop, h1]
      simp only [ih n (by omega)]

theorem many_read {g : Bool} {α R : Type} [Env R] {ρ : R} {p : P R g true α} {I : α → Str → Prop} {S : Str → Str → Prop} {nx : Str → Str} {rest : Str}
    (Ok : Str → Prop) (hitem : ∀ a t u, I a t → Ok u → p.run ρ (t ++ u) = some (nx u, a))
    (hsep : ∀ g b bs t, S g t → Items S I (b :: bs) t → Ok (g ++ (t ++ rest)) ∧ nx (g ++ (t ++ rest)) = t ++ rest)
    (hok : Ok rest) (hend : p.run ρ (nx rest) = none) {as : List α} {s : Str} (h : Items S I as s) :
    (many0 p).run ρ (s ++ rest) = some (nx rest, as) ∧ (many1 p).run ρ (s ++ rest) = some (nx rest, as) := by
  have h0 : (many0 p).run ρ (s ++ rest) = some (nx rest, as) := by
    rw [run_many0, many_items Ok hitem hsep (fun i r x e => p.con rfl _ _ _ _ e) hok hend h _ (Nat.le_refl _)]
  refine ⟨h0, ?_⟩
  have hn : as ≠ [] := by cases h <;> simp
  rw [run_many0] at h0
  have hm : (many1 p).run ρ (s ++ rest) = (P.map (fun x => x.1 :: x.2) (seq p (many0 p))).run ρ (s ++ rest) := rfl
  rw [hm, run_map, run_seq]
  cases hp : p.run ρ (s ++ rest) with
  | none =>
    cases hl : (s ++ rest).length with
    | zero => rw [hl, manyLoop] at h0; simp only [Option.some.injEq, Prod.mk.injEq] at h0; exact absurd h0.2.symm hn
    | succ n => rw [hl, manyLoop, hp] at h0; simp only [Option.some.injEq, Prod.mk.injEq] at h0; exact absurd h0.2.symm hn
  | some y =>
    have l1 := p.con rfl _ _ _ _ hp
    cases hl : (s ++ rest).length with
    | zero => omega
    | succ n =>
      rw [hl, manyLoop, hp] at h0
      simp only [Option.some.injEq, Prod.mk.injEq] at h0
      have hfuel : manyLoop (p.run ρ) y.1.length y.1 = manyLoop (p.run ρ) n y.1 :=
        manyLoop_fuel (p.run ρ) (fun i r a e => p.con rfl _ _ _ _ e) _ _ _ (Nat.le_refl _) (by omega)
      simp only [Option.bind_some, Option.map_some, run_many0, hfuel]
      rw [← h0.1, ← h0.2]

/-! ### Columns -/

theorem column_lead {f : Str} (h : FieldText f ∨ WildWord f) : ∃ w d, f = w ++ d ∧ LeadWord w ∧ w ≠ c!"t" ∧ w ≠ c!"f" ∧ DotTail d := by
  rcases h with h | h
  · obtain ⟨w, d, rfl, h', hd⟩ := fieldText_parts h
    exact ⟨w, d, rfl, name_lead h'.name, h'.notT, h'.notF, hd⟩
  · refine ⟨f, [], by simp, star_lead h, ?_, ?_, .nil⟩ <;> rintro rfl <;> exact absurd h.star (by decide)

theorem column_read {f u : Str} (h : FieldText f ∨ WildWord f) (hu : After u) : field.run () (f ++ u) = some (u, f) := by
  obtain ⟨w, d, rfl, hw, h1, h2, hd⟩ := column_lead h
  rw [List.append_assoc]
  exact run_field_dots hw h1 h2 hd hu

theorem column_head {f : Str} (h : FieldText f ∨ WildWord f) : ∃ c t, f = c :: t ∧ (isNameChar c = true ∨ c = '*') ∧ isDig c = false := by
  rcases h with h | h
  · obtain ⟨c, t, rfl, h1, h2⟩ := fieldText_head h
    exact ⟨c, t, rfl, .inl h1, h2⟩
  · obtain ⟨c, t, rfl⟩ := List.exists_cons_of_ne_nil (star_lead h).ne
    have hh := h.head c t rfl
    refine ⟨c, t, rfl, ?_, hh.1⟩
    rcases h.chars c (by simp) with h1 | h1 | h1
    · exact .inl h1
    · exact .inr h1
    · exact absurd h1 hh.2

theorem column_ne {f u : Str} (h : FieldText f ∨ WildWord f) {q : Char} (hq : isNameChar q = false ∧ q ≠ '*') : ∀ c t, f ++ u = c :: t → c ≠ q := by
  obtain ⟨c, t, rfl, h1, -⟩ := column_head h
  intro c' t' e
  simp only [List.cons_append, List.cons.injEq] at e
  rw [← e.1]
  rcases h1 with h1 | rfl
  · exact nameChar_ne h1 hq.1
  · exact fun e => hq.2 e.symm

theorem column_nonempty {f : Str} (h : FieldText f ∨ WildWord f) : f ≠ [] := by
  obtain ⟨c, t, rfl, -, -⟩ := column_head h; simp

theorem column_stops {f u : Str} (h : FieldText f ∨ WildWord f) : Stops isSpace (f ++ u) := by
  obtain ⟨c, t, rfl, h1, -⟩ := column_head h
  refine Stops.cons ?_
  rcases h1 with h1 | rfl
  · exact tokenChar_space (nameChar_token h1)
  · decide

theorem token_end {rest : Str} (h : Stops (fun c => tokenCont c || c == '"' || c == '\'') rest) : field.run () rest = none := by
  refine field_none (token_none (h.mono fun c hc => by simp [hc])) ?_ ?_ <;> intro c t e e' <;> have := h c t e <;> simp [e'] at this

theorem field_end {rest : Str} (h : End rest) : field.run () rest = none ∧ field.run () (rest.dropWhile isSpace) = none :=
  ⟨token_end (h.head (by decide)), token_end (h.drop_head (by decide))⟩

/-! ### Separators -/

theorem listSep_after {g u : Str} (h : ListSep g) : After (g ++ u) :=
  ⟨listSep_stops h (by decide), listSep_stops h (by decide), listSep_stops h (by decide)⟩

theorem commaSep_end {R : Type} [Env R] {ρ : R} {rest : Str} (h : ∀ c t, rest.dropWhile isSpace = c :: t → c ≠ ',') :
    (commaSep : P R true true Str).run ρ rest = none := by
  rw [commaSep, run_ws, tag_none h]; rfl

theorem commaOrSpace_end {R : Type} [Env R] {ρ : R} {rest : Str} (h : ∀ c t, rest.dropWhile isSpace = c :: t → c ≠ ',') {r m : Str}
    (hr : (commaOrSpaceSep : P R true true Str).run ρ rest = some (r, m)) : r = rest.dropWhile isSpace := by
  rw [commaOrSpaceSep, run_alt, commaSep_end h, Option.none_or, run_ms1] at hr
  cases rest with
  | nil => simp at hr
  | cons c t =>
    by_cases hc : isSpace c = true
    · simp only [hc, if_true, Option.some.injEq, Prod.mk.injEq] at hr
      rw [← hr.1, List.dropWhile_cons_of_pos hc]
    · simp [hc] at hr

theorem items_first {α : Type} {S : Str → Str → Prop} {I : α → Str → Prop} {P' : Str → Prop} (hp : ∀ a s u, I a s → P' (s ++ u)) {as : List α} {s : Str}
    (h : Items S I as s) (u : Str) : P' (s ++ u) := by
  cases h with
  | one h => exact hp _ _ _ h
  | cons h _ _ => rw [List.append_assoc]; exact hp _ _ _ h

theorem items_ne {α : Type} {S : Str → Str → Prop} {I : α → Str → Prop} (hp : ∀ a s, I a s → s ≠ []) {as : List α} {s : Str} (h : Items S I as s) : s ≠ [] := by
  cases h with
  | one h => exact hp _ _ h
  | cons h _ _ => simp [hp _ _ h]

theorem column_items {S : Str → Str → Prop} {fs : List Str} {s : Str} (h : Items S Column fs s) (u : Str) :
    Stops isSpace (s ++ u) ∧ ∀ q, isNameChar q = false ∧ q ≠ '*' → ∀ c t, s ++ u = c :: t → c ≠ q :=
  ⟨items_first (P' := Stops isSpace) (fun _ _ _ hc => column_stops hc.2) h u,
   fun _ hq => items_first (P' := fun x => ∀ c t, x = c :: t → c ≠ _) (fun _ _ _ hc => column_ne hc.2 hq) h u⟩

/-- a list of columns -/
theorem columns_read {fs : List Str} {s rest : Str} (h : Items byList Column fs s) (ha : After rest) (hc : ∀ c t, rest.dropWhile isSpace = c :: t → c ≠ ',')
    (hf : field.run () (rest.dropWhile isSpace) = none) : fieldList1.run () (s ++ rest) = some (rest, fs) ∧ fieldList0.run () (s ++ rest) = some (rest, fs) :=
  sepList1_read (nx := id) After
    (fun _ _ _ hi hu => by obtain ⟨rfl, hi⟩ := hi; exact column_read hi hu)
    (fun g b bs t hg hl => ⟨listSep_after hg, listSep_read hg (column_items hl _).1 ((column_items hl _).2 ',' (by decide))⟩)
    ha (fun r x hr => by rw [commaOrSpace_end hc hr]; exact hf) h

theorem columns_end {fs : List Str} {s rest : Str} (h : Items byList Column fs s) (he : End rest) :
    fieldList1.run () (s ++ rest) = some (rest, fs) ∧ fieldList0.run () (s ++ rest) = some (rest, fs) :=
  columns_read h he.after (he.drop_ne (by decide)) (field_end he).2

/-- columns with blanks between them -/
theorem many_columns {fs : List Str} {s rest : Str} (h : Items byGap Column fs s) (ha : After rest) (hf : field.run () (rest.dropWhile isSpace) = none) :
    (many0 (ws (lift field)) : G false (List Str)).run fix (s ++ rest) = some (rest.dropWhile isSpace, fs) ∧
    (many1 (ws (lift field)) : G true (List Str)).run fix (s ++ rest) = some (rest.dropWhile isSpace, fs) :=
  many_read (nx := List.dropWhile isSpace) After
    (fun _ _ _ hi hu => by obtain ⟨rfl, hi⟩ := hi; rw [run_ws, drop_stops (column_stops hi), run_lift, column_read hi hu]; rfl)
    (fun g b bs t hg hl => ⟨gap_after hg, drop_gap hg (column_items hl _).1⟩)
    ha (by rw [run_ws, dropWhile_idem, run_lift, hf]; rfl) h

theorem comma_after {g u : Str} (h : Comma g) : After (g ++ u) := by
  obtain ⟨h1, h2⟩ := h
  exact listSep_after (.comma h1 h2)

theorem comma_sep {R : Type} [Env R] {ρ : R} {g u : Str} (h : Comma g) (hu : Stops isSpace u) : ∃ m, (commaSep : P R true true Str).run ρ (g ++ u) = some (u, m) ∧
    (commaSep : P R true true Str).run ρ ((g ++ u).dropWhile isSpace) = some (u, m) := by
  obtain ⟨h1, h2⟩ := h
  refine ⟨c!",", ?_, ?_⟩
  · rw [List.append_assoc, List.cons_append]; exact comma_read h1 h2 hu
  · rw [List.append_assoc, List.cons_append, commaSep, run_ws, dropWhile_idem, ← run_ws]; exact comma_read h1 h2 hu

theorem comma_follow {g u : Str} (h : Comma g) (k : Nat) : Follow k (g ++ u) := by
  obtain ⟨h1, h2⟩ := h
  rw [List.append_assoc]
  exact Follow.blanks_close h1 (by decide)

end Verif
