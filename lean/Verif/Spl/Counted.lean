import Verif.Spl.Fix
/-
How many recursive calls a run of a parser makes.

A `Counted` parser is a parser of the grammar together with the number of calls to the recursive parser functions made when it runs on
a text.  The combinators count as nom runs them: `alt` runs the second alternative when the first has failed, `pair` runs the
second part where the first one stopped, and so on.  Parsers that do not recurse make no calls (`free`).  `Spl/Calls.lean` puts
the grammar together again from these; the parser inside is the one of `Spl/Grammar.lean` by definition.
-/
namespace Verif
open P

/-- How many calls are made, the call itself included, by each recursive parser function on each text. -/
abbrev Calls := NT → Str → Nat

/-- A parser and the number of recursive calls it makes on a text; as in `P`, only shorter texts are handed to recursive calls. -/
structure Counted (g c : Bool) (α : Type) where
  p : P Rec g c α
  count : Calls → Str → Nat
  grd : ∀ κ κ' i, (∀ n j, j.length < bound g i.length → κ n j = κ' n j) → count κ i = count κ' i

namespace Counted
variable {g c g₁ c₁ g₂ c₂ g₃ c₃ : Bool} {α β γ : Type}

/-- what is counted after a parser: nothing if it failed, else what runs on the remaining text -/
def after (res : PRes α) (next : Str → Nat) : Nat :=
  match res with
  | some (r, _) => next r
  | none => 0

/-- A parser that does not recurse. -/
def free (p : P Rec true c α) : Counted true c α := ⟨p, fun _ _ => 0, fun _ _ _ _ => rfl⟩

/-- A recursive call. -/
def rec_ (n : NT) : Counted false false n.ty := ⟨call n, fun κ i => κ n i, fun _ _ i h => h n i (by simp [bound])⟩

/-- A recursive call of one of the expression functions. -/
def recE (n : NT) (h : n.ty = Expr := by rfl) : Counted false false Expr :=
  ⟨callE n h, fun κ i => κ n i, fun _ _ i h => h n i (by simp [bound])⟩

def weak (p : Counted g c α) : Counted g false α := ⟨p.p.weak, p.count, p.grd⟩

def recast {g' c' : Bool} (p : Counted g c α) (hg : g = g') (hc : c = c') : Counted g' c' α := ⟨p.p.recast hg hc, p.count, hg ▸ p.grd⟩

def map (f : α → β) (p : Counted g c α) : Counted g c β := ⟨P.map f p.p, p.count, p.grd⟩

def verify (f : α → Bool) (p : Counted g c α) : Counted g c α := ⟨P.verify f p.p, p.count, p.grd⟩

def opt (p : Counted g c α) : Counted g false (Option α) := ⟨P.opt p.p, p.count, p.grd⟩

def allConsuming (p : Counted g c α) : Counted g c α := ⟨P.allConsuming p.p, p.count, p.grd⟩

/-- Both parts, the second where the first stopped. -/
def seq (p : Counted g₁ c₁ α) (q : Counted g₂ c₂ β) : Counted (g₁ && (c₁ || g₂)) (c₁ || c₂) (α × β) where
  p := P.seq p.p q.p
  count κ i := p.count κ i + after (p.p.run Spl.fix i) (q.count κ)
  grd κ κ' i h := by
    rw [p.grd κ κ' i fun n j hj => h n j (Nat.lt_of_lt_of_le hj (by cases g₁ <;> simp [bound]; split <;> omega))]
    cases hp : p.p.run Spl.fix i with
    | none => rfl
    | some ra =>
      obtain ⟨r, a⟩ := ra
      have hl := p.p.len hp
      simp only [after]
      rw [q.grd κ κ' r fun n j hj => h n j ?_]
      cases c₁ with
      | true =>
        have := p.p.con rfl _ _ _ _ hp
        cases g₁ <;> cases g₂ <;> simp [bound] at hj ⊢ <;> omega
      | false => cases g₁ <;> cases g₂ <;> simp [bound] at hj ⊢ <;> omega

def pre (p : Counted g₁ c₁ α) (q : Counted g₂ c₂ β) : Counted (g₁ && (c₁ || g₂)) (c₁ || c₂) β := map Prod.snd (seq p q)

def post (p : Counted g₁ c₁ α) (q : Counted g₂ c₂ β) : Counted (g₁ && (c₁ || g₂)) (c₁ || c₂) α := map Prod.fst (seq p q)

def delim (p : Counted g₁ c₁ α) (q : Counted g₂ c₂ β) (r : Counted g₃ c₃ γ) :
    Counted (g₁ && (c₁ || (g₂ && (c₂ || g₃)))) (c₁ || (c₂ || c₃)) β := pre p (post q r)

def sepPair (p : Counted g₁ c₁ α) (s : Counted g₂ c₂ γ) (q : Counted g₃ c₃ β) :
    Counted (g₁ && (c₁ || (g₂ && (c₂ || g₃)))) (c₁ || (c₂ || c₃)) (α × β) := seq p (pre s q)

/-- The second alternative runs when the first one has failed. -/
def alt (p : Counted g₁ c₁ α) (q : Counted g₂ c₂ α) : Counted (g₁ && g₂) (c₁ && c₂) α where
  p := P.alt p.p q.p
  count κ i := p.count κ i + (if (p.p.run Spl.fix i).isNone then q.count κ i else 0)
  grd κ κ' i h := by
    rw [p.grd κ κ' i fun n j hj => h n j (Nat.lt_of_lt_of_le hj (by cases g₁ <;> cases g₂ <;> simp [bound])),
      q.grd κ κ' i fun n j hj => h n j (Nat.lt_of_lt_of_le hj (by cases g₁ <;> cases g₂ <;> simp [bound]))]

/-- The calls of the loop of `many0`. -/
def manyCount (f : Str → PRes α) (k : Str → Nat) : Nat → Str → Nat
  | 0, _ => 0
  | n + 1, i => k i + after (f i) (manyCount f k n)

theorem manyCount_congr (f : Str → PRes α) (hf : ∀ i r a, f i = some (r, a) → r <:+ i) {k k' : Str → Nat} (m : Nat)
    (h : ∀ j, j.length ≤ m → k j = k' j) : ∀ n i, i.length ≤ m → manyCount f k n i = manyCount f k' n i
  | 0, _, _ => rfl
  | n + 1, i, hi => by
    rw [manyCount, manyCount, h i hi]
    cases hp : f i with
    | none => rfl
    | some ra =>
      have := (hf _ _ _ hp).length_le
      simp only [after, manyCount_congr f hf m h n ra.1 (by omega)]

def many0 (p : Counted g true α) : Counted g false (List α) where
  p := P.many0 p.p
  count κ i := manyCount (p.p.run Spl.fix) (p.count κ) i.length i
  grd κ κ' i h := manyCount_congr _ (p.p.suf _) i.length (fun j hj => p.grd κ κ' j fun n t ht =>
    h n t (Nat.lt_of_lt_of_le ht (bound_mono hj))) _ _ (Nat.le_refl _)

def many1 (p : Counted g true α) : Counted g true (List α) where
  p := P.many1 p.p
  count κ i := p.count κ i + after (p.p.run Spl.fix i) ((many0 p).count κ)
  grd κ κ' i h := by
    rw [p.grd κ κ' i h]
    cases hp : p.p.run Spl.fix i with
    | none => rfl
    | some ra =>
      simp only [after]
      rw [(many0 p).grd κ κ' ra.1 fun n j hj => h n j (Nat.lt_of_lt_of_le hj (bound_mono (p.p.len hp)))]

/-- The calls of the loop of `separated_list*` after the first element. -/
def sepCount (s : Str → PRes γ) (f : Str → PRes α) (ks k : Str → Nat) : Nat → Str → Nat
  | 0, _ => 0
  | n + 1, i => ks i + after (s i) fun r => k r + after (f r) (sepCount s f ks k n)

theorem sepCount_congr (s : Str → PRes γ) (f : Str → PRes α) (hs : ∀ i r a, s i = some (r, a) → r <:+ i)
    (hf : ∀ i r a, f i = some (r, a) → r <:+ i) {ks ks' k k' : Str → Nat} (m : Nat) (h : ∀ j, j.length ≤ m → ks j = ks' j)
    (h' : ∀ j, j.length ≤ m → k j = k' j) : ∀ n i, i.length ≤ m → sepCount s f ks k n i = sepCount s f ks' k' n i
  | 0, _, _ => rfl
  | n + 1, i, hi => by
    rw [sepCount, sepCount, h i hi]
    cases hp : s i with
    | none => rfl
    | some ra =>
      have h1 := (hs _ _ _ hp).length_le
      simp only [after]
      rw [h' ra.1 (by omega)]
      cases hq : f ra.1 with
      | none => rfl
      | some rb =>
        have h2 := (hf _ _ _ hq).length_le
        simp only [sepCount_congr s f hs hf m h h' n rb.1 (by omega)]

theorem sepCount_grd (s : Counted g₁ true γ) (p : Counted g₂ c₂ α) (κ κ' : Calls) (i : Str)
    (h : ∀ n j, j.length < bound (g₁ && g₂) i.length → κ n j = κ' n j) :
    p.count κ i + after (p.p.run Spl.fix i) (fun r => sepCount (s.p.run Spl.fix) (p.p.run Spl.fix) (s.count κ) (p.count κ) r.length r) =
    p.count κ' i + after (p.p.run Spl.fix i) (fun r => sepCount (s.p.run Spl.fix) (p.p.run Spl.fix) (s.count κ') (p.count κ') r.length r) := by
  have hp : ∀ j : Str, j.length ≤ i.length → p.count κ j = p.count κ' j := fun j hj => p.grd κ κ' j fun n t ht => h n t (by
    cases g₁ <;> cases g₂ <;> simp [bound] at ht ⊢ <;> omega)
  have hs : ∀ j : Str, j.length ≤ i.length → s.count κ j = s.count κ' j := fun j hj => s.grd κ κ' j fun n t ht => h n t (by
    cases g₁ <;> cases g₂ <;> simp [bound] at ht ⊢ <;> omega)
  rw [hp i (Nat.le_refl _)]
  cases hr : p.p.run Spl.fix i with
  | none => rfl
  | some ra =>
    simp only [after]
    rw [sepCount_congr _ _ (s.p.suf _) (p.p.suf _) i.length hs hp _ _ (p.p.len hr)]

def sepList0 (s : Counted g₁ true γ) (p : Counted g₂ c₂ α) : Counted (g₁ && g₂) false (List α) where
  p := P.sepList0 s.p p.p
  count κ i := p.count κ i + after (p.p.run Spl.fix i) fun r => sepCount (s.p.run Spl.fix) (p.p.run Spl.fix) (s.count κ) (p.count κ) r.length r
  grd := sepCount_grd s p

def sepList1 (s : Counted g₁ true γ) (p : Counted g₂ c₂ α) : Counted (g₁ && g₂) c₂ (List α) where
  p := P.sepList1 s.p p.p
  count κ i := p.count κ i + after (p.p.run Spl.fix i) fun r => sepCount (s.p.run Spl.fix) (p.p.run Spl.fix) (s.count κ) (p.count κ) r.length r
  grd := sepCount_grd s p

def ws (p : Counted g c α) : Counted g c α :=
  (delim (free ms0) p (free ms0)).recast (by cases g <;> cases c <;> rfl) (by cases c <;> rfl)

def wsLeft (p : Counted g c α) : Counted g c α := (pre (free ms0) p).recast (by cases g <;> rfl) (by cases c <;> rfl)

def parenthesized (p : Counted g c α) : Counted true true α :=
  (delim (free (wsRight (tag! "("))) p (free (P.wsLeft (tag! ")")))).recast (by cases g <;> cases c <;> rfl) (by cases c <;> rfl)

def commaList0 (p : Counted g c α) : Counted g false (List α) := (sepList0 (free commaSep) p).recast (by cases g <;> rfl) rfl

def commaList1 (p : Counted g c α) : Counted g c (List α) := (sepList1 (free commaSep) p).recast (by cases g <;> rfl) rfl

def commaOrSpaceList1 (p : Counted g c α) : Counted g c (List α) := (sepList1 (free commaOrSpaceSep) p).recast (by cases g <;> rfl) rfl

end Counted

@[inherit_doc] infixr:20 " <|||> " => Counted.alt

end Verif
