import Verif.Basic.Text
/-
Parser combinators with the semantics of nom 7 (`complete` parsers on `&str`).

A parser is a function from the recursion environment and the input to the
remaining input and a value.  Three facts are carried along by construction:

* `suf`  the remaining input is a suffix of the input;
* `con`  if the index `c` is `true`, success consumes at least one character;
* `grd`  if the index `g` is `true`, the environment is consulted only on inputs
         strictly shorter than the parser's own input (otherwise: not longer).
-/
namespace Verif

/-- Recursion environments: what it means for two of them to agree on all inputs
shorter than `n`. -/
class Env (R : Type) where
  agree : R → R → Nat → Prop
  mono : ∀ {a b : R} {m n : Nat}, agree a b m → n ≤ m → agree a b n

/-- Lexers do not recurse. -/
instance : Env Unit where
  agree _ _ _ := True
  mono _ _ := trivial

/-- Inputs of length `< bound g n` may be passed to the environment. -/
def bound (g : Bool) (n : Nat) : Nat := if g then n else n + 1

theorem bound_mono {g : Bool} {m n : Nat} (h : m ≤ n) : bound g m ≤ bound g n := by
  unfold bound; split <;> omega

theorem bound_le (g : Bool) (n : Nat) : bound g n ≤ n + 1 := by
  unfold bound; split <;> omega

theorem le_bound (g : Bool) (n : Nat) : n ≤ bound g n := by
  unfold bound; split <;> omega

/-- Parser result: remaining input and value, or recoverable error (`nom::Err::Error`). -/
abbrev PRes (α : Type) := Option (Str × α)

/-- See the file comment. -/
structure P (R : Type) [Env R] (g c : Bool) (α : Type) where
  run : R → Str → PRes α
  suf : ∀ ρ i r a, run ρ i = some (r, a) → r <:+ i
  con : c = true → ∀ ρ i r a, run ρ i = some (r, a) → r.length < i.length
  grd : ∀ ρ σ i, Env.agree ρ σ (bound g i.length) → run ρ i = run σ i

/-- Lexers: parsers without recursion. -/
abbrev L (c : Bool) (α : Type) := P Unit true c α

namespace P
variable {R : Type} [Env R] {g c g₁ c₁ g₂ c₂ g₃ c₃ : Bool} {α β γ : Type}

theorem len (p : P R g c α) {ρ : R} {i r : Str} {a : α} (h : p.run ρ i = some (r, a)) :
    r.length ≤ i.length := (p.suf ρ i r a h).length_le

/-- Use a lexer inside a recursive grammar. -/
def lift (p : L c α) : P R true c α where
  run _ i := p.run () i
  suf _ := p.suf ()
  con h _ := p.con h ()
  grd _ _ _ _ := rfl

/-- Forget consumption. -/
def weak (p : P R g c α) : P R g false α where
  run := p.run
  suf := p.suf
  con h := by simp at h
  grd := p.grd

/-- Succeed without consuming. -/
def pure (a : α) : P R true false α where
  run _ i := some (i, a)
  suf ρ i r b h := by simp at h; obtain ⟨rfl, _⟩ := h; exact List.suffix_refl _
  con h := by simp at h
  grd _ _ _ _ := rfl

/-- Always fail. -/
def fail : P R true true α where
  run _ _ := none
  suf ρ i r b h := by simp at h
  con _ ρ i r a h := by simp at h
  grd _ _ _ _ := rfl

/-- `nom::combinator::map` -/
def map (f : α → β) (p : P R g c α) : P R g c β where
  run ρ i := match p.run ρ i with
    | some (r, a) => some (r, f a)
    | none => none
  suf ρ i r b h := by
    cases hp : p.run ρ i with
    | none => simp [hp] at h
    | some ra => obtain ⟨r', a⟩ := ra; simp [hp] at h; obtain ⟨rfl, _⟩ := h; exact p.suf _ _ _ _ hp
  con hc ρ i r b h := by
    cases hp : p.run ρ i with
    | none => simp [hp] at h
    | some ra => obtain ⟨r', a⟩ := ra; simp [hp] at h; obtain ⟨rfl, _⟩ := h; exact p.con hc _ _ _ _ hp
  grd ρ σ i h := by simp only [p.grd ρ σ i h]

/-- Partial map: `map_res` / `unwrapped(map(..))` / `verify`. -/
def filterMap (f : α → Option β) (p : P R g c α) : P R g c β where
  run ρ i := match p.run ρ i with
    | some (r, a) => (match f a with | some b => some (r, b) | none => none)
    | none => none
  suf ρ i r b h := by
    cases hp : p.run ρ i with
    | none => simp [hp] at h
    | some ra =>
      obtain ⟨r', a⟩ := ra
      cases hf : f a with
      | none => simp [hp, hf] at h
      | some b' => simp [hp, hf] at h; obtain ⟨rfl, _⟩ := h; exact p.suf _ _ _ _ hp
  con hc ρ i r b h := by
    cases hp : p.run ρ i with
    | none => simp [hp] at h
    | some ra =>
      obtain ⟨r', a⟩ := ra
      cases hf : f a with
      | none => simp [hp, hf] at h
      | some b' => simp [hp, hf] at h; obtain ⟨rfl, _⟩ := h; exact p.con hc _ _ _ _ hp
  grd ρ σ i h := by simp only [p.grd ρ σ i h]

/-- `nom::combinator::verify` -/
def verify (f : α → Bool) (p : P R g c α) : P R g c α :=
  filterMap (fun a => if f a then some a else none) p

/-- `nom::sequence::pair` -/
def seq (p : P R g₁ c₁ α) (q : P R g₂ c₂ β) : P R (g₁ && (c₁ || g₂)) (c₁ || c₂) (α × β) where
  run ρ i := match p.run ρ i with
    | some (r, a) => (match q.run ρ r with | some (r', b) => some (r', (a, b)) | none => none)
    | none => none
  suf ρ i r ab h := by
    cases hp : p.run ρ i with
    | none => simp [hp] at h
    | some ra =>
      obtain ⟨r', a⟩ := ra
      cases hq : q.run ρ r' with
      | none => simp [hp, hq] at h
      | some rb =>
        obtain ⟨r'', b⟩ := rb
        simp [hp, hq] at h
        obtain ⟨rfl, _⟩ := h
        exact (q.suf _ _ _ _ hq).trans (p.suf _ _ _ _ hp)
  con hc ρ i r ab h := by
    cases hp : p.run ρ i with
    | none => simp [hp] at h
    | some ra =>
      obtain ⟨r', a⟩ := ra
      cases hq : q.run ρ r' with
      | none => simp [hp, hq] at h
      | some rb =>
        obtain ⟨r'', b⟩ := rb
        simp [hp, hq] at h
        obtain ⟨rfl, _⟩ := h
        have h1 := p.len hp
        have h2 := q.len hq
        cases hc₁ : c₁ with
        | true => have := p.con hc₁ _ _ _ _ hp; omega
        | false =>
          have hc₂ : c₂ = true := by simpa [hc₁] using hc
          have := q.con hc₂ _ _ _ _ hq; omega
  grd ρ σ i h := by
    have hp : p.run ρ i = p.run σ i := p.grd ρ σ i (Env.mono h (by cases g₁ <;> cases c₁ <;> cases g₂ <;> simp [bound]))
    rw [← hp]
    cases hp' : p.run ρ i with
    | none => rfl
    | some ra =>
      obtain ⟨r', a⟩ := ra
      have hl := p.len hp'
      have hq : q.run ρ r' = q.run σ r' := by
        apply q.grd
        apply Env.mono h
        cases hc₁ : c₁ with
        | true =>
          have hlt := p.con hc₁ _ _ _ _ hp'
          have := bound_le g₂ r'.length
          have := le_bound (g₁ && (true || g₂)) i.length
          omega
        | false =>
          cases g₁ <;> cases g₂ <;> simp [bound] <;> omega
      simp only [hq]

/-- `nom::sequence::preceded` -/
def pre (p : P R g₁ c₁ α) (q : P R g₂ c₂ β) : P R (g₁ && (c₁ || g₂)) (c₁ || c₂) β :=
  map Prod.snd (seq p q)

/-- `nom::sequence::terminated` -/
def post (p : P R g₁ c₁ α) (q : P R g₂ c₂ β) : P R (g₁ && (c₁ || g₂)) (c₁ || c₂) α :=
  map Prod.fst (seq p q)

/-- `nom::sequence::delimited` -/
def delim (p : P R g₁ c₁ α) (q : P R g₂ c₂ β) (r : P R g₃ c₃ γ) :
    P R (g₁ && (c₁ || (g₂ && (c₂ || g₃)))) (c₁ || (c₂ || c₃)) β :=
  pre p (post q r)

/-- `nom::sequence::separated_pair` -/
def sepPair (p : P R g₁ c₁ α) (s : P R g₂ c₂ γ) (q : P R g₃ c₃ β) :
    P R (g₁ && (c₁ || (g₂ && (c₂ || g₃)))) (c₁ || (c₂ || c₃)) (α × β) :=
  seq p (pre s q)

/-- `nom::branch::alt` for two alternatives. -/
def alt (p : P R g₁ c₁ α) (q : P R g₂ c₂ α) : P R (g₁ && g₂) (c₁ && c₂) α where
  run ρ i := match p.run ρ i with
    | some x => some x
    | none => q.run ρ i
  suf ρ i r a h := by
    cases hp : p.run ρ i with
    | none => simp only [hp] at h; exact q.suf _ _ _ _ h
    | some x => simp only [hp] at h; exact p.suf _ _ _ _ (hp.trans h)
  con hc ρ i r a h := by
    have hc' : c₁ = true ∧ c₂ = true := by simpa using hc
    cases hp : p.run ρ i with
    | none => simp only [hp] at h; exact q.con hc'.2 _ _ _ _ h
    | some x => simp only [hp] at h; exact p.con hc'.1 _ _ _ _ (hp.trans h)
  grd ρ σ i h := by
    have hp : p.run ρ i = p.run σ i := p.grd ρ σ i (Env.mono h (by cases g₁ <;> cases g₂ <;> simp [bound]))
    have hq : q.run ρ i = q.run σ i := q.grd ρ σ i (Env.mono h (by cases g₁ <;> cases g₂ <;> simp [bound]))
    simp only [hp, hq]

@[inherit_doc] infixr:20 " <||> " => P.alt

/-- `nom::combinator::opt` -/
def opt (p : P R g c α) : P R g false (Option α) where
  run ρ i := match p.run ρ i with
    | some (r, a) => some (r, some a)
    | none => some (i, none)
  suf ρ i r a h := by
    cases hp : p.run ρ i with
    | none => simp [hp] at h; obtain ⟨rfl, _⟩ := h; exact List.suffix_refl _
    | some ra => obtain ⟨r', a'⟩ := ra; simp [hp] at h; obtain ⟨rfl, _⟩ := h; exact p.suf _ _ _ _ hp
  con h := by simp at h
  grd ρ σ i h := by simp only [p.grd ρ σ i h]

/-- `nom::combinator::recognize`: the consumed text. -/
def recognize (p : P R g c α) : P R g c Str where
  run ρ i := match p.run ρ i with
    | some (r, _) => some (r, i.take (i.length - r.length))
    | none => none
  suf ρ i r a h := by
    cases hp : p.run ρ i with
    | none => simp [hp] at h
    | some ra => obtain ⟨r', a'⟩ := ra; simp [hp] at h; obtain ⟨rfl, _⟩ := h; exact p.suf _ _ _ _ hp
  con hc ρ i r a h := by
    cases hp : p.run ρ i with
    | none => simp [hp] at h
    | some ra => obtain ⟨r', a'⟩ := ra; simp [hp] at h; obtain ⟨rfl, _⟩ := h; exact p.con hc _ _ _ _ hp
  grd ρ σ i h := by simp only [p.grd ρ σ i h]

/-- `nom::combinator::peek` -/
def peek (p : P R g c α) : P R g false α where
  run ρ i := match p.run ρ i with
    | some (_, a) => some (i, a)
    | none => none
  suf ρ i r a h := by
    cases hp : p.run ρ i with
    | none => simp [hp] at h
    | some ra => obtain ⟨r', a'⟩ := ra; simp [hp] at h; obtain ⟨rfl, _⟩ := h; exact List.suffix_refl _
  con h := by simp at h
  grd ρ σ i h := by simp only [p.grd ρ σ i h]

/-- `nom::combinator::all_consuming` -/
def allConsuming (p : P R g c α) : P R g c α where
  run ρ i := match p.run ρ i with
    | some ([], a) => some ([], a)
    | _ => none
  suf ρ i r a h := by
    cases hp : p.run ρ i with
    | none => simp [hp] at h
    | some ra =>
      obtain ⟨r', a'⟩ := ra
      cases r' with
      | nil => simp [hp] at h; obtain ⟨rfl, _⟩ := h; exact p.suf _ _ _ _ hp
      | cons _ _ => simp [hp] at h
  con hc ρ i r a h := by
    cases hp : p.run ρ i with
    | none => simp [hp] at h
    | some ra =>
      obtain ⟨r', a'⟩ := ra
      cases r' with
      | nil => simp [hp] at h; obtain ⟨rfl, _⟩ := h; exact p.con hc _ _ _ _ hp
      | cons _ _ => simp [hp] at h
  grd ρ σ i h := by simp only [p.grd ρ σ i h]

/-- `nom::combinator::eof` -/
def eof : P R true false Str where
  run _ i := match i with
    | [] => some ([], [])
    | _ :: _ => none
  suf ρ i r a h := by cases i <;> simp at h; obtain ⟨rfl, _⟩ := h; exact List.suffix_refl _
  con h := by simp at h
  grd _ _ _ _ := rfl

/-- Loop of `many0`; the fuel is the number of remaining characters. -/
def manyLoop (f : Str → PRes α) : Nat → Str → Str × List α
  | 0, i => (i, [])
  | n + 1, i => match f i with
    | none => (i, [])
    | some (r, a) => match manyLoop f n r with
      | (r', as) => (r', a :: as)

theorem manyLoop_suf (f : Str → PRes α) (hf : ∀ i r a, f i = some (r, a) → r <:+ i) :
    ∀ n i, (manyLoop f n i).1 <:+ i := by
  intro n
  induction n with
  | zero => intro i; exact List.suffix_refl _
  | succ n ih =>
    intro i
    unfold manyLoop
    cases h : f i with
    | none => exact List.suffix_refl _
    | some ra => obtain ⟨r, a⟩ := ra; exact (ih r).trans (hf _ _ _ h)

theorem manyLoop_congr (f f' : Str → PRes α) (hf : ∀ i r a, f i = some (r, a) → r <:+ i) (m : Nat)
    (heq : ∀ j, j.length ≤ m → f j = f' j) :
    ∀ n i, i.length ≤ m → manyLoop f n i = manyLoop f' n i := by
  intro n
  induction n with
  | zero => intro i _; rfl
  | succ n ih =>
    intro i hi
    unfold manyLoop
    rw [← heq i hi]
    cases h : f i with
    | none => rfl
    | some ra =>
      obtain ⟨r, a⟩ := ra
      have := (hf _ _ _ h).length_le
      simp only [ih r (by omega)]

/-- `nom::multi::many0` (the element always consumes, so nom's check for
non-consuming elements is never triggered). -/
def many0 (p : P R g true α) : P R g false (List α) where
  run ρ i := some (manyLoop (p.run ρ) i.length i)
  suf ρ i r a h := by
    simp at h
    have := manyLoop_suf (p.run ρ) (p.suf ρ) i.length i
    rw [h] at this; exact this
  con h := by simp at h
  grd ρ σ i h := by
    have := manyLoop_congr (p.run ρ) (p.run σ) (p.suf ρ) i.length
      (fun j hj => p.grd ρ σ j (Env.mono h (bound_mono hj))) i.length i (Nat.le_refl _)
    simp only [this]

/-- `nom::multi::many1` -/
def many1 (p : P R g true α) : P R g true (List α) :=
  let q : P R g true (List α) := {
    run := (map (fun x => x.1 :: x.2) (seq p (many0 p))).run
    suf := (map (fun x => x.1 :: x.2) (seq p (many0 p))).suf
    con := fun _ => (map (fun x => x.1 :: x.2) (seq p (many0 p))).con rfl
    grd := fun ρ σ i h => (map (fun x => x.1 :: x.2) (seq p (many0 p))).grd ρ σ i
      (Env.mono h (by cases g <;> simp [bound])) }
  q

/-- Loop of `separated_list*` after the first element. -/
def sepLoop (s : Str → PRes γ) (f : Str → PRes α) : Nat → Str → Str × List α
  | 0, i => (i, [])
  | n + 1, i => match s i with
    | none => (i, [])
    | some (r, _) => match f r with
      | none => (i, [])
      | some (r', a) => match sepLoop s f n r' with
        | (r'', as) => (r'', a :: as)

theorem sepLoop_suf (s : Str → PRes γ) (f : Str → PRes α)
    (hs : ∀ i r a, s i = some (r, a) → r <:+ i) (hf : ∀ i r a, f i = some (r, a) → r <:+ i) :
    ∀ n i, (sepLoop s f n i).1 <:+ i := by
  intro n
  induction n with
  | zero => intro i; exact List.suffix_refl _
  | succ n ih =>
    intro i
    unfold sepLoop
    cases h : s i with
    | none => exact List.suffix_refl _
    | some ra =>
      obtain ⟨r, a⟩ := ra
      cases h' : f r with
      | none => simp [h']
      | some rb =>
        obtain ⟨r', b⟩ := rb
        simp only [h']
        exact (ih r').trans ((hf _ _ _ h').trans (hs _ _ _ h))

theorem sepLoop_congr (s s' : Str → PRes γ) (f f' : Str → PRes α)
    (hs : ∀ i r a, s i = some (r, a) → r <:+ i) (hf : ∀ i r a, f i = some (r, a) → r <:+ i) (m : Nat)
    (hseq : ∀ j, j.length ≤ m → s j = s' j)
    (heq : ∀ j, j.length ≤ m → f j = f' j) :
    ∀ n i, i.length ≤ m → sepLoop s f n i = sepLoop s' f' n i := by
  intro n
  induction n with
  | zero => intro i _; rfl
  | succ n ih =>
    intro i hi
    unfold sepLoop
    rw [← hseq i hi]
    cases h : s i with
    | none => rfl
    | some ra =>
      obtain ⟨r, a⟩ := ra
      have h1 := (hs _ _ _ h).length_le
      simp only []
      rw [← heq r (by omega)]
      cases h' : f r with
      | none => rfl
      | some rb =>
        obtain ⟨r', b⟩ := rb
        have h2 := (hf _ _ _ h').length_le
        simp only [ih r' (by omega)]

/-- `nom::multi::separated_list0`; the separator always consumes. -/
def sepList0 (s : P R g₁ true γ) (p : P R g₂ c₂ α) : P R (g₁ && g₂) false (List α) where
  run ρ i := match p.run ρ i with
    | none => some (i, [])
    | some (r, a) =>
      match sepLoop (s.run ρ) (p.run ρ) r.length r with
      | (r', as) => some (r', a :: as)
  suf ρ i r a h := by
    cases hp : p.run ρ i with
    | none => simp [hp] at h; obtain ⟨rfl, _⟩ := h; exact List.suffix_refl _
    | some ra =>
      obtain ⟨r', a'⟩ := ra
      simp [hp] at h
      obtain ⟨rfl, _⟩ := h
      exact (sepLoop_suf _ _ (s.suf ρ) (p.suf ρ) _ _).trans (p.suf _ _ _ _ hp)
  con h := by simp at h
  grd ρ σ i h := by
    have hp : p.run ρ i = p.run σ i := p.grd ρ σ i (Env.mono h (by cases g₁ <;> cases g₂ <;> simp [bound]))
    rw [← hp]
    cases hp' : p.run ρ i with
    | none => rfl
    | some ra =>
      obtain ⟨r, a⟩ := ra
      have hl := p.len hp'
      have := sepLoop_congr (s.run ρ) (s.run σ) (p.run ρ) (p.run σ) (s.suf ρ) (p.suf ρ) r.length
        (fun j hj => s.grd ρ σ j (Env.mono h (by cases g₁ <;> cases g₂ <;> simp [bound] <;> omega)))
        (fun j hj => p.grd ρ σ j (Env.mono h (by cases g₁ <;> cases g₂ <;> simp [bound] <;> omega)))
        r.length r (Nat.le_refl _)
      simp only [this]

/-- `nom::multi::separated_list1` -/
def sepList1 (s : P R g₁ true γ) (p : P R g₂ c₂ α) : P R (g₁ && g₂) c₂ (List α) where
  run ρ i := match p.run ρ i with
    | none => none
    | some (r, a) =>
      match sepLoop (s.run ρ) (p.run ρ) r.length r with
      | (r', as) => some (r', a :: as)
  suf ρ i r a h := by
    cases hp : p.run ρ i with
    | none => simp [hp] at h
    | some ra =>
      obtain ⟨r', a'⟩ := ra
      simp [hp] at h
      obtain ⟨rfl, _⟩ := h
      exact (sepLoop_suf _ _ (s.suf ρ) (p.suf ρ) _ _).trans (p.suf _ _ _ _ hp)
  con hc ρ i r a h := by
    cases hp : p.run ρ i with
    | none => simp [hp] at h
    | some ra =>
      obtain ⟨r', a'⟩ := ra
      simp [hp] at h
      obtain ⟨rfl, _⟩ := h
      have h1 := (sepLoop_suf _ _ (s.suf ρ) (p.suf ρ) r'.length r').length_le
      have h2 := p.con hc _ _ _ _ hp
      omega
  grd ρ σ i h := by
    have hp : p.run ρ i = p.run σ i := p.grd ρ σ i (Env.mono h (by cases g₁ <;> cases g₂ <;> simp [bound]))
    rw [← hp]
    cases hp' : p.run ρ i with
    | none => rfl
    | some ra =>
      obtain ⟨r, a⟩ := ra
      have hl := p.len hp'
      have := sepLoop_congr (s.run ρ) (s.run σ) (p.run ρ) (p.run σ) (s.suf ρ) (p.suf ρ) r.length
        (fun j hj => s.grd ρ σ j (Env.mono h (by cases g₁ <;> cases g₂ <;> simp [bound] <;> omega)))
        (fun j hj => p.grd ρ σ j (Env.mono h (by cases g₁ <;> cases g₂ <;> simp [bound] <;> omega)))
        r.length r (Nat.le_refl _)
      simp only [this]

/-- One character satisfying `f`: `one_of`, `none_of`, `anychar`. -/
def satisfy (f : Char → Bool) : P R true true Char where
  run _ i := match i with
    | [] => none
    | x :: xs => if f x then some (xs, x) else none
  suf ρ i r a h := by
    cases i with
    | nil => simp at h
    | cons x xs =>
      simp at h; obtain ⟨_, rfl, _⟩ := h; exact List.suffix_cons _ _
  con _ ρ i r a h := by
    cases i with
    | nil => simp at h
    | cons x xs => simp at h; obtain ⟨_, rfl, _⟩ := h; simp
  grd _ _ _ _ := rfl

/-- `take_while` -/
def takeWhile0 (f : Char → Bool) : P R true false Str where
  run _ i := some (i.dropWhile f, i.takeWhile f)
  suf ρ i r a h := by simp at h; obtain ⟨rfl, _⟩ := h; exact List.dropWhile_suffix _
  con h := by simp at h
  grd _ _ _ _ := rfl

/-- `take_while1` -/
def takeWhile1 (f : Char → Bool) : P R true true Str where
  run _ i := match i with
    | [] => none
    | x :: xs => if f x then some (xs.dropWhile f, x :: xs.takeWhile f) else none
  suf ρ i r a h := by
    cases i with
    | nil => simp at h
    | cons x xs =>
      simp at h; obtain ⟨_, rfl, _⟩ := h
      exact (List.dropWhile_suffix _).trans (List.suffix_cons _ _)
  con _ ρ i r a h := by
    cases i with
    | nil => simp at h
    | cons x xs =>
      simp at h; obtain ⟨_, rfl, _⟩ := h
      have := (List.dropWhile_suffix f (l := xs)).length_le
      simp; omega
  grd _ _ _ _ := rfl

end P

theorem stripPrefix?_some {t s r : Str} : stripPrefix? t s = some r ↔ s = t ++ r := by
  induction t generalizing s with
  | nil => simp [stripPrefix?, eq_comm]
  | cons x xs ih =>
    cases s with
    | nil => simp [stripPrefix?]
    | cons y ys =>
      by_cases hxy : x = y
      · subst hxy; simp [stripPrefix?, ih]
      · simp [stripPrefix?, hxy]; intro h; exact absurd h.symm hxy

theorem stripPrefixCI?_spec {t s m r : Str} (h : stripPrefixCI? t s = some (m, r)) :
    s = m ++ r ∧ m.length = t.length ∧ lower m = lower t := by
  induction t generalizing s m r with
  | nil => simp [stripPrefixCI?] at h; obtain ⟨rfl, rfl⟩ := h; simp
  | cons x xs ih =>
    cases s with
    | nil => simp [stripPrefixCI?] at h
    | cons y ys =>
      simp only [stripPrefixCI?] at h
      by_cases hxy : lowerC x = lowerC y
      · simp only [hxy, if_true] at h
        cases hr : stripPrefixCI? xs ys with
        | none => simp [hr] at h
        | some mr =>
          obtain ⟨m', r'⟩ := mr
          simp only [hr, Option.some.injEq, Prod.mk.injEq] at h
          obtain ⟨rfl, rfl⟩ := h
          obtain ⟨h1, h2, h3⟩ := ih hr
          refine ⟨by rw [h1]; rfl, by simp [h2], ?_⟩
          simp only [lower, List.map_cons] at h3 ⊢
          rw [h3, hxy]
      · simp [hxy] at h

namespace P
variable {R : Type} [Env R]

/-- `nom::bytes::complete::tag` for a tag `t :: ts` (all tags in the code are non-empty). -/
def tagL (t : Char) (ts : Str) : P R true true Str where
  run _ i := match stripPrefix? (t :: ts) i with
    | some r => some (r, t :: ts)
    | none => none
  suf ρ i r a h := by
    cases hp : stripPrefix? (t :: ts) i with
    | none => simp [hp] at h
    | some r' => simp [hp] at h; obtain ⟨rfl, _⟩ := h; rw [stripPrefix?_some] at hp; exact ⟨_, hp.symm⟩
  con _ ρ i r a h := by
    cases hp : stripPrefix? (t :: ts) i with
    | none => simp [hp] at h
    | some r' =>
      simp [hp] at h; obtain ⟨rfl, _⟩ := h; rw [stripPrefix?_some] at hp; subst hp
      simp; omega
  grd _ _ _ _ := rfl

/-- `nom::bytes::complete::tag_no_case`; returns the text as written in the
input.  Simplification: ASCII case folding instead of Unicode. -/
def tagNoCaseL (t : Char) (ts : Str) : P R true true Str where
  run _ i := match stripPrefixCI? (t :: ts) i with
    | some (m, r) => some (r, m)
    | none => none
  suf ρ i r a h := by
    cases hp : stripPrefixCI? (t :: ts) i with
    | none => simp [hp] at h
    | some mr =>
      obtain ⟨m', r'⟩ := mr
      simp [hp] at h; obtain ⟨rfl, rfl⟩ := h
      exact ⟨_, (stripPrefixCI?_spec hp).1.symm⟩
  con _ ρ i r a h := by
    cases hp : stripPrefixCI? (t :: ts) i with
    | none => simp [hp] at h
    | some mr =>
      obtain ⟨m', r'⟩ := mr
      simp [hp] at h; obtain ⟨rfl, rfl⟩ := h
      obtain ⟨h1, h2, _⟩ := stripPrefixCI?_spec hp
      subst h1; simp at h2; simp; omega
  grd _ _ _ _ := rfl

end P

open Lean in
/-- `tag! "abc"` is nom's `tag("abc")`. -/
syntax:max "tag! " str : term
open Lean in
/-- `tagi! "abc"` is nom's `tag_no_case("abc")`. -/
syntax:max "tagi! " str : term

open Lean in
macro_rules
  | `(tag! $s:str) => match s.getString.toList with
    | c :: cs => do
      let elems ← cs.mapM fun c => `($(Syntax.mkCharLit c))
      `(P.tagL $(Syntax.mkCharLit c) ([$(elems.toArray),*] : List Char))
    | [] => Macro.throwError "empty tag"
  | `(tagi! $s:str) => match s.getString.toList with
    | c :: cs => do
      let elems ← cs.mapM fun c => `($(Syntax.mkCharLit c))
      `(P.tagNoCaseL $(Syntax.mkCharLit c) ([$(elems.toArray),*] : List Char))
    | [] => Macro.throwError "empty tag"

end Verif
