import Verif.Lemmas.Run
import Verif.Lemmas.Text
/-
What the lexers do on runs of characters: words, digit strings and what follows them.
-/
namespace Verif
open P Lex

/-- `rest` does not begin with a character satisfying `f` -/
def Stops (f : Char → Bool) (rest : Str) : Prop := ∀ c s, rest = c :: s → f c = false

theorem Stops.nil (f : Char → Bool) : Stops f [] := by intro c s h; simp at h

theorem Stops.cons {f : Char → Bool} {c : Char} {s : Str} (h : f c = false) : Stops f (c :: s) := by
  intro c' s' e; simp only [List.cons.injEq] at e; rw [← e.1]; exact h

theorem Stops.mono {f g : Char → Bool} {s : Str} (h : Stops f s) (hg : ∀ c, g c = true → f c = true) :
    Stops g s := by
  intro c t e
  have := h c t e
  cases hc : g c with
  | false => rfl
  | true => rw [hg c hc] at this; simp at this

theorem dropWhile_run {f : Char → Bool} {ds rest : Str} (hd : ∀ c ∈ ds, f c = true) (hr : Stops f rest) :
    (ds ++ rest).dropWhile f = rest := by
  induction ds with
  | nil =>
    cases rest with
    | nil => rfl
    | cons c s => simp [hr c s rfl]
  | cons x xs ih =>
    simp only [List.cons_append, List.dropWhile_cons, hd x (by simp), if_true]
    exact ih fun c hc => hd c (by simp [hc])

theorem takeWhile_run {f : Char → Bool} {ds rest : Str} (hd : ∀ c ∈ ds, f c = true) (hr : Stops f rest) :
    (ds ++ rest).takeWhile f = ds := by
  induction ds with
  | nil =>
    cases rest with
    | nil => rfl
    | cons c s => simp [hr c s rfl]
  | cons x xs ih =>
    simp only [List.cons_append, List.takeWhile_cons, hd x (by simp), if_true]
    rw [ih fun c hc => hd c (by simp [hc])]

theorem stops_dropWhile (f : Char → Bool) (s : Str) : Stops f (s.dropWhile f) := by
  induction s with
  | nil => exact Stops.nil f
  | cons x xs ih =>
    rw [List.dropWhile_cons]
    split
    · exact ih
    · rename_i h; exact Stops.cons (by simpa using h)

theorem all_takeWhile (f : Char → Bool) (s : Str) : ∀ c ∈ s.takeWhile f, f c = true := by
  induction s with
  | nil => simp
  | cons x xs ih =>
    rw [List.takeWhile_cons]
    split
    · rename_i h
      intro c hc
      rcases List.mem_cons.1 hc with rfl | hc
      · exact h
      · exact ih c hc
    · simp

theorem run_takeWhile1 {R : Type} [Env R] {ρ : R} {f : Char → Bool} {ds rest : Str} (hne : ds ≠ [])
    (hd : ∀ c ∈ ds, f c = true) (hr : Stops f rest) :
    (takeWhile1 f : P R true true Str).run ρ (ds ++ rest) = some (rest, ds) := by
  obtain ⟨x, xs, rfl⟩ := List.exists_cons_of_ne_nil hne
  have hx := hd x (by simp)
  have hxs : ∀ c ∈ xs, f c = true := fun c hc => hd c (by simp [hc])
  simp [takeWhile1, hx, dropWhile_run hxs hr, takeWhile_run hxs hr]

theorem takeWhile1_none {R : Type} [Env R] {ρ : R} {f : Char → Bool} {s : Str} (h : Stops f s) :
    (takeWhile1 f : P R true true Str).run ρ s = none := by
  cases s with
  | nil => rfl
  | cons c s => simp [takeWhile1, h c s rfl]

theorem takeWhile1_some {R : Type} [Env R] {ρ : R} {f : Char → Bool} {i r s : Str}
    (h : (takeWhile1 f : P R true true Str).run ρ i = some (r, s)) :
    i = s ++ r ∧ s ≠ [] ∧ (∀ c ∈ s, f c = true) ∧ Stops f r := by
  cases i with
  | nil => simp [takeWhile1] at h
  | cons x xs =>
    simp only [takeWhile1] at h
    split at h
    · rename_i hx
      simp only [Option.some.injEq, Prod.mk.injEq] at h
      obtain ⟨rfl, rfl⟩ := h
      refine ⟨by simp, by simp, ?_, stops_dropWhile _ _⟩
      intro c hc
      rcases List.mem_cons.1 hc with rfl | hc
      · exact hx
      · exact all_takeWhile f xs c hc
    · simp at h

theorem run_satisfy {R : Type} [Env R] {ρ : R} (f : Char → Bool) (c : Char) (s : Str) :
    (satisfy f : P R true true Char).run ρ (c :: s) = if f c then some (s, c) else none := rfl

theorem manyLoop_satisfy {R : Type} [Env R] {ρ : R} (f : Char → Bool) : ∀ n i, i.length ≤ n →
    manyLoop ((satisfy f : P R true true Char).run ρ) n i = (i.dropWhile f, i.takeWhile f) := by
  intro n
  induction n with
  | zero => intro i hi; cases i with | nil => rfl | cons _ _ => simp at hi
  | succ n ih =>
    intro i hi
    cases i with
    | nil => rfl
    | cons c s =>
      simp only [manyLoop, run_satisfy, List.dropWhile_cons, List.takeWhile_cons]
      by_cases hc : f c
      · simp only [hc, if_true]
        rw [ih s (by simpa using hi)]
      · simp [hc]

theorem recognize_many1_satisfy {f : Char → Bool} {ds rest : Str} (hne : ds ≠ [])
    (hd : ∀ c ∈ ds, f c = true) (hr : Stops f rest) :
    (recognize (many1 (satisfy f)) : L true Str).run () (ds ++ rest) = some (rest, ds) := by
  rw [recognize_some]
  refine ⟨?_, rfl⟩
  obtain ⟨x, xs, rfl⟩ := List.exists_cons_of_ne_nil hne
  have hx := hd x (by simp)
  have hxs : ∀ c ∈ xs, f c = true := fun c hc => hd c (by simp [hc])
  rw [run_many1, List.cons_append, run_satisfy]
  simp only [hx, if_true, Option.map_some]
  rw [manyLoop_satisfy f _ _ (Nat.le_refl _), dropWhile_run hxs hr]
  exact ⟨_, rfl⟩

theorem run_tokenExtras {w rest : Str} (hne : w ≠ []) (hw : ∀ c ∈ w, isExtraChar c = true)
    (hr : Stops isExtraChar rest) (hres : notReserved w = true) :
    tokenExtras.run () (w ++ rest) = some (rest, w) := by
  rw [tokenExtras, run_verify, recognize_many1_satisfy hne hw hr]
  simp [Option.filter, hres]

/-! ### Tags that do not fit -/

theorem tag_none {R : Type} [Env R] {ρ : R} {t : Char} {ts i : Str} (h : ∀ c s, i = c :: s → c ≠ t) :
    (tagL t ts : P R true true Str).run ρ i = none := by
  rw [run_tag]
  cases i with
  | nil => rfl
  | cons c s =>
    have : t ≠ c := fun e => h c s rfl e.symm
    simp [stripPrefix?, this]

theorem tag_nil {R : Type} [Env R] {ρ : R} {t : Char} {ts : Str} :
    (tagL t ts : P R true true Str).run ρ [] = none := rfl

theorem tag_ne {R : Type} [Env R] {ρ : R} {t : Char} {ts : Str} {c : Char} {s : Str} (h : c ≠ t) :
    (tagL t ts : P R true true Str).run ρ (c :: s) = none :=
  tag_none fun c' s' e => by simp only [List.cons.injEq] at e; rw [← e.1]; exact h

theorem tag_same {R : Type} [Env R] {ρ : R} {t : Char} {s : Str} :
    (tagL t [] : P R true true Str).run ρ (t :: s) = some (s, [t]) := by
  rw [run_tag]; simp [stripPrefix?]

theorem tagi_ne {R : Type} [Env R] {ρ : R} {t : Char} {ts : Str} {c : Char} {s : Str}
    (h : lowerC t ≠ lowerC c) : (tagNoCaseL t ts : P R true true Str).run ρ (c :: s) = none := by
  rw [run_tagi]; simp [stripPrefixCI?, h]

theorem tagi_nil {R : Type} [Env R] {ρ : R} {t : Char} {ts : Str} :
    (tagNoCaseL t ts : P R true true Str).run ρ [] = none := rfl

/-- the letters time units begin with -/
def unitStart (c : Char) : Bool :=
  lowerC c == 's' || lowerC c == 'm' || lowerC c == 'h' || lowerC c == 'd' || lowerC c == 'w'

theorem timeUnit_none {i : Str} (h : ∀ c s, i = c :: s → unitStart c = false) :
    timeUnit.run () i = none := by
  cases i with
  | nil => rfl
  | cons c s =>
    have hc := h c s rfl
    simp only [unitStart, Bool.or_eq_false_iff, beq_eq_false_iff_ne, ne_eq] at hc
    obtain ⟨⟨⟨⟨h1, h2⟩, h3⟩, h4⟩, h5⟩ := hc
    have e1 : lowerC 's' ≠ lowerC c := fun e => h1 e.symm
    have e2 : lowerC 'm' ≠ lowerC c := fun e => h2 e.symm
    have e3 : lowerC 'h' ≠ lowerC c := fun e => h3 e.symm
    have e4 : lowerC 'd' ≠ lowerC c := fun e => h4 e.symm
    have e5 : lowerC 'w' ≠ lowerC c := fun e => h5 e.symm
    simp only [timeUnit, months, days, hours, minutes, weeks, seconds, unit, run_alt, run_map,
      tagi_ne e1, tagi_ne e2, tagi_ne e3, tagi_ne e4, tagi_ne e5, Option.or_none, Option.map_none]

end Verif

namespace Verif
open P Lex

/-! ### Words -/

/-- the characters that continue a `token` -/
def tokenCont (c : Char) : Bool := isTokenChar c || c == '\\'

theorem tokenStep_char {c : Char} {s : Str} (h : isTokenChar c = true) :
    tokenStep.run () (c :: s) = some (s, [c]) := by
  rw [tokenStep, run_alt, run_recognize, run_satisfy]
  simp [h]

theorem tokenStep_none {s : Str} (h : Stops tokenCont s) : tokenStep.run () s = none := by
  cases s with
  | nil => rfl
  | cons c s =>
    have hc := h c s rfl
    simp only [tokenCont, Bool.or_eq_false_iff, beq_eq_false_iff_ne] at hc
    rw [tokenStep, run_alt, run_recognize, run_satisfy, run_recognize, run_seq, tag_ne hc.2]
    simp [hc.1]

theorem manyLoop_token : ∀ (w rest : Str) (n : Nat), (w ++ rest).length ≤ n →
    (∀ c ∈ w, isTokenChar c = true) → Stops tokenCont rest →
    (manyLoop (tokenStep.run ()) n (w ++ rest)).1 = rest := by
  intro w
  induction w with
  | nil =>
    intro rest n _ _ hr
    cases n with
    | zero => rfl
    | succ n => simp [manyLoop, tokenStep_none hr]
  | cons c w ih =>
    intro rest n hn hw hr
    cases n with
    | zero => simp at hn
    | succ n =>
      simp only [List.cons_append, manyLoop, tokenStep_char (hw c (by simp))]
      exact ih rest n (by simpa using hn) (fun x hx => hw x (by simp [hx])) hr

theorem run_token {w rest : Str} (hne : w ≠ []) (hw : ∀ c ∈ w, isTokenChar c = true)
    (hr : Stops tokenCont rest) (hres : notReserved w = true) :
    token.run () (w ++ rest) = some (rest, w) := by
  rw [token, run_verify]
  have : (recognize (many1 tokenStep) : L true Str).run () (w ++ rest) = some (rest, w) := by
    rw [recognize_some]
    refine ⟨?_, rfl⟩
    obtain ⟨c, w, rfl⟩ := List.exists_cons_of_ne_nil hne
    rw [run_many1, List.cons_append, tokenStep_char (hw c (by simp))]
    rw [Option.map_some, manyLoop_token w rest _ (Nat.le_refl _) (fun x hx => hw x (by simp [hx])) hr]
    exact ⟨_, rfl⟩
  rw [this]
  simp [Option.filter, hres]

theorem token_none {s : Str} (h : Stops tokenCont s) : token.run () s = none := by
  rw [token, run_verify, run_recognize, run_many1, tokenStep_none h]; rfl

theorem run_tokenNotTF {w rest : Str} (hne : w ≠ []) (hw : ∀ c ∈ w, isTokenChar c = true)
    (hr : Stops tokenCont rest) (hres : notReserved w = true) (ht : w ≠ c!"t") (hf : w ≠ c!"f") :
    tokenNotTF.run () (w ++ rest) = some (rest, w) := by
  rw [tokenNotTF, run_verify, run_token hne hw hr hres]
  simp [Option.filter, ht, hf]

theorem run_field {w rest : Str} (hne : w ≠ []) (hw : ∀ c ∈ w, isTokenChar c = true)
    (hr : Stops tokenCont rest) (hdot : Stops (· == '.') rest) (hres : notReserved w = true)
    (ht : w ≠ c!"t") (hf : w ≠ c!"f") :
    field.run () (w ++ rest) = some (rest, w) := by
  rw [field, run_alt]
  have : fieldFmt.run () (w ++ rest) = some (rest, w) := by
    rw [fieldFmt, recognize_some]
    refine ⟨?_, rfl⟩
    rw [run_sepList1, run_alt, run_tokenNotTF hne hw hr hres ht hf]
    have htag : (tag! "." : L true Str).run () rest = none :=
      tag_none fun c s e => by have := hdot c s e; simpa using this
    cases rest with
    | nil => exact ⟨_, rfl⟩
    | cons c s => simp [sepLoop, htag]
  rw [this]; rfl

/-! ### Numbers -/

/-- the sign as written -/
inductive Sgn : Str → Bool → Prop
  | none : Sgn [] false
  | plus : Sgn c!"+" false
  | minus : Sgn c!"-" true

/-- a non-empty string of decimal digits -/
structure Digits (ds : Str) : Prop where
  ne : ds ≠ []
  dig : ∀ c ∈ ds, isDig c = true

/-- the integer with this sign and absolute value -/
def withSign (neg : Bool) (n : Nat) : Int := if neg then -(n : Int) else n

theorem Digits.head {ds : Str} (h : Digits ds) : ∃ d t, ds = d :: t ∧ isDig d = true := by
  obtain ⟨d, t, rfl⟩ := List.exists_cons_of_ne_nil h.ne
  exact ⟨d, t, rfl, h.dig d (by simp)⟩

theorem dig_ne {d : Char} (h : isDig d = true) {c : Char} (hc : isDig c = false) : d ≠ c := by
  rintro rfl; rw [h] at hc; simp at hc

theorem isDig_range {d : Char} (h : isDig d = true) : 48 ≤ d.toNat ∧ d.toNat ≤ 57 := by
  simp only [isDig, Bool.and_eq_true, decide_eq_true_eq] at h
  exact h

theorem dig_cases {d : Char} (h : isDig d = true) :
    d = '0' ∨ d = '1' ∨ d = '2' ∨ d = '3' ∨ d = '4' ∨ d = '5' ∨ d = '6' ∨ d = '7' ∨ d = '8' ∨ d = '9' := by
  have hr := isDig_range h
  have hd := Char.ofNat_toNat d
  have : d.toNat = 48 ∨ d.toNat = 49 ∨ d.toNat = 50 ∨ d.toNat = 51 ∨ d.toNat = 52 ∨ d.toNat = 53 ∨
    d.toNat = 54 ∨ d.toNat = 55 ∨ d.toNat = 56 ∨ d.toNat = 57 := by omega
  rcases this with e | e | e | e | e | e | e | e | e | e <;> rw [e] at hd <;> rw [← hd] <;> decide

/-- a fact about all characters that needs checking for the ten digits only -/
theorem dig_all {f : Char → Prop} (h : f '0' ∧ f '1' ∧ f '2' ∧ f '3' ∧ f '4' ∧ f '5' ∧ f '6' ∧ f '7' ∧ f '8' ∧ f '9')
    {d : Char} (hd : isDig d = true) : f d := by
  obtain ⟨h0, h1, h2, h3, h4, h5, h6, h7, h8, h9⟩ := h
  rcases dig_cases hd with rfl | rfl | rfl | rfl | rfl | rfl | rfl | rfl | rfl | rfl <;> assumption

theorem dig_token {d : Char} (h : isDig d = true) : isTokenChar d = true :=
  dig_all (f := fun d => isTokenChar d = true) (by decide) h

theorem run_digit1 {ds rest : Str} (hd : Digits ds) (hr : Stops isDig rest) :
    digit1.run () (ds ++ rest) = some (rest, ds) := run_takeWhile1 hd.ne hd.dig hr

theorem run_sign {sgn : Str} {neg : Bool} (hs : Sgn sgn neg) {ds rest : Str} (hd : Digits ds) :
    ∃ o, sign.run () (sgn ++ (ds ++ rest)) = some (ds ++ rest, o) ∧ (o = some c!"-" ↔ neg = true) := by
  rw [sign, run_opt, run_alt]
  cases hs with
  | none =>
    obtain ⟨d, t, rfl, hd0⟩ := hd.head
    have h1 : d ≠ '+' := dig_ne hd0 (by decide)
    have h2 : d ≠ '-' := dig_ne hd0 (by decide)
    rw [List.nil_append, List.cons_append, tag_ne h1, tag_ne h2]
    exact ⟨none, rfl, by simp⟩
  | plus => rw [List.singleton_append, tag_same]; exact ⟨_, rfl, by simp⟩
  | minus =>
    rw [List.singleton_append, tag_ne (by decide), tag_same]; exact ⟨_, rfl, by simp⟩

theorem run_int {sgn : Str} {neg : Bool} (hs : Sgn sgn neg) {ds rest : Str} (hd : Digits ds)
    (hr : Stops isDig rest) : int.run () (sgn ++ (ds ++ rest)) =
      if digitsVal ds < 2 ^ 63 then some (rest, withSign neg (digitsVal ds)) else none := by
  obtain ⟨o, ho, hneg⟩ := run_sign hs hd (rest := rest)
  rw [int, run_map, run_seq, ho, Option.bind_some, run_filterMap, run_digit1 hd hr, Option.bind_some]
  by_cases hv : digitsVal ds < 2 ^ 63
  · simp only [hv, if_true, Option.map_some]
    cases neg with
    | true => simp [hneg.2 rfl, withSign]
    | false =>
      have : o ≠ some c!"-" := fun e => by have := hneg.1 e; simp at this
      simp [this, withSign]
  · simp [hv]

/-- What the integer lexer accepts. -/
theorem int_some {i r : Str} {n : Int} (h : int.run () i = some (r, n)) :
    ∃ sgn neg ds, Sgn sgn neg ∧ Digits ds ∧ Stops isDig r ∧ digitsVal ds < 2 ^ 63 ∧
      i = sgn ++ (ds ++ r) ∧ n = withSign neg (digitsVal ds) := by
  rw [int, run_map, run_seq] at h
  obtain ⟨⟨r1, o, m⟩, h1, h2⟩ := Option.map_eq_some_iff.1 h
  simp only [Prod.mk.injEq] at h2
  obtain ⟨⟨r0, o'⟩, h3, h4⟩ := Option.bind_eq_some_iff.1 h1
  obtain ⟨⟨r2, m'⟩, h5, h6⟩ := Option.map_eq_some_iff.1 h4
  simp only [Prod.mk.injEq] at h6
  obtain ⟨rfl, rfl, rfl⟩ := h6
  rw [run_filterMap] at h5
  obtain ⟨⟨r3, ds⟩, h7, h8⟩ := Option.bind_eq_some_iff.1 h5
  obtain ⟨m2, h9, h10⟩ := Option.map_eq_some_iff.1 h8
  simp only [Prod.mk.injEq] at h10
  obtain ⟨rfl, rfl⟩ := h10
  obtain ⟨rfl, hne, hdig, hst⟩ := takeWhile1_some h7
  split at h9
  · rename_i hv
    simp only [Option.some.injEq] at h9
    subst h9
    obtain ⟨rfl, hn⟩ := h2
    rw [sign, run_opt, run_alt] at h3
    simp only [Option.some.injEq] at h3
    rcases hp : (tag! "+" : L true Str).run () i with _ | ⟨rp, sp⟩
    · rcases hm : (tag! "-" : L true Str).run () i with _ | ⟨rm, sm⟩
      · rw [hp, hm] at h3
        simp only [Option.or_none, Option.elim_none, Prod.mk.injEq] at h3
        obtain ⟨rfl, rfl⟩ := h3
        exact ⟨[], false, ds, .none, ⟨hne, hdig⟩, hst, hv, rfl, by rw [← hn]; simp [withSign]⟩
      · rw [hp, hm] at h3
        simp only [Option.none_or, Option.elim_some, Prod.mk.injEq] at h3
        obtain ⟨rfl, rfl⟩ := h3
        rw [run_tag] at hm
        obtain ⟨y, hy, e⟩ := Option.map_eq_some_iff.1 hm
        simp only [Prod.mk.injEq] at e
        obtain ⟨rfl, rfl⟩ := e
        rw [stripPrefix?_some] at hy
        exact ⟨c!"-", true, ds, .minus, ⟨hne, hdig⟩, hst, hv, hy, by rw [← hn]; simp [withSign]⟩
    · rw [hp] at h3
      simp only [Option.some_or, Option.elim_some, Prod.mk.injEq] at h3
      obtain ⟨rfl, rfl⟩ := h3
      rw [run_tag] at hp
      obtain ⟨y, hy, e⟩ := Option.map_eq_some_iff.1 hp
      simp only [Prod.mk.injEq] at e
      obtain ⟨rfl, rfl⟩ := e
      rw [stripPrefix?_some] at hy
      exact ⟨c!"+", false, ds, .plus, ⟨hne, hdig⟩, hst, hv, hy, by rw [← hn]; simp [withSign]⟩
  · simp at h9

end Verif

namespace Verif
open P Lex

/-! ### Lexers that do not apply to numbers -/

theorem byte_none {s : Str} (h : Stops isDig s) : byte.run () s = none := by
  rw [byte, run_recognize, run_verify, digit1, takeWhile1_none h]; rfl

theorem ipv4Addr_none {ds rest : Str} (hd : ∀ c ∈ ds, isDig c = true) (hr : Stops isDig rest)
    (hdot : Stops (· == '.') rest) : ipv4Addr.run () (ds ++ rest) = none := by
  rw [ipv4Addr, run_recognize, run_seq]
  by_cases hne : ds = []
  · subst hne; rw [List.nil_append, byte_none hr]; rfl
  · have hb : byte.run () (ds ++ rest) = none ∨ byte.run () (ds ++ rest) = some (rest, ds) := by
      rw [byte, run_recognize, run_verify, run_digit1 ⟨hne, hd⟩ hr]
      by_cases hl : ds.length ≤ 3
      · right; simp [Option.filter, hl]
      · left; simp [Option.filter, hl]
    rcases hb with hb | hb
    · rw [hb]; rfl
    · rw [hb, Option.bind_some, run_seq]
      have : (tag! "." : L true Str).run () rest = none :=
        tag_none fun c s e => by have := hdot c s e; simpa using this
      rw [this]; rfl

theorem ipv4Cidr_none {i : Str} (h : ipv4Addr.run () i = none) : ipv4Cidr.run () i = none := by
  rw [ipv4Cidr, run_recognize, run_sepPair, h]; rfl

theorem ip6Valid_digits {ds : Str} (hd : ∀ c ∈ ds, isDig c = true) : ip6Valid ds = false := by
  have htw : ds.takeWhile isDig = ds := by
    have := takeWhile_run hd (Stops.nil isDig); simpa using this
  have hdw : ds.dropWhile isDig = [] := by
    have := dropWhile_run hd (Stops.nil isDig); simpa using this
  have hcolon : ∀ t, stripPrefix? (':' :: t) ds = none := by
    intro t
    cases ds with
    | nil => rfl
    | cons d s =>
      have : ':' ≠ d := (dig_ne (hd d (by simp)) (by decide)).symm
      simp [stripPrefix?, this]
  by_cases hsmall : ds.isEmpty || decide (4 < ds.length)
  · simp only [ip6Valid, ip6Groups, if_true, ip6Number, htw, hsmall]
    simp [hcolon]
  · have hn : ip6Number ds = some [] := by simp [ip6Number, htw, hdw, hsmall]
    have : ip6Groups 8 0 ds = (1, []) := by
      rw [ip6Groups]
      simp only [if_true, hn]
      rfl
    simp [ip6Valid, this, stripPrefix?]

theorem ipv6Addr_none {ds rest : Str} (hd : ∀ c ∈ ds, isDig c = true) (hr : Stops isDig rest)
    (hcolon : Stops (· == ':') rest) : ipv6Addr.run () (ds ++ rest) = none := by
  have htag : (tag! ":" : L true Str).run () rest = none :=
    tag_none fun c s e => by have := hcolon c s e; simpa using this
  have htag' : ds ≠ [] → (tag! ":" : L true Str).run () (ds ++ rest) = none := by
    intro hne
    obtain ⟨d, t, rfl, hd0⟩ := Digits.head ⟨hne, hd⟩
    exact tag_ne (dig_ne hd0 (by decide))
  have hloop : ∀ (f : Str → PRes (Option Str)) (n : Nat) (s : Str), (tag! ":" : L true Str).run () s = none →
      sepLoop ((tag! ":" : L true Str).run ()) f n s = (s, []) := by
    intro f n s hs
    cases n with
    | zero => rfl
    | succ n => simp [sepLoop, hs]
  rw [ipv6Addr, run_verify, run_recognize, run_sepList1, run_opt, run_filterMap]
  by_cases hne : ds = []
  · subst hne
    rw [List.nil_append, digit1, takeWhile1_none hr, Option.bind_none, Option.elim_none, Option.map_some,
      hloop _ _ _ htag]
    simp [Option.filter, show ip6Valid [] = false from ip6Valid_digits (ds := []) (by simp)]
  · rw [run_digit1 ⟨hne, hd⟩ hr, Option.bind_some]
    by_cases hv : digitsVal ds < 2 ^ 16
    · simp only [hv, if_true, Option.map_some, Option.elim_some]
      rw [hloop _ _ _ htag]
      simp [Option.filter, ip6Valid_digits hd]
    · simp only [hv, if_false, Option.map_none, Option.elim_none, Option.map_some]
      rw [hloop _ _ _ (htag' hne)]
      simp [Option.filter, show ip6Valid [] = false from ip6Valid_digits (ds := []) (by simp)]

theorem doubleQuoted_none {s : Str} (h : ∀ c t, s = c :: t → c ≠ '"') : doubleQuoted.run () s = none := by
  rw [doubleQuoted, run_alt, run_delim, run_delim, tag_none h]; rfl

theorem singleQuoted_none {s : Str} (h : ∀ c t, s = c :: t → c ≠ '\'') : singleQuoted.run () s = none := by
  rw [singleQuoted, run_delim, tag_none h]; rfl

theorem variable_none {s : Str} (h : ∀ c t, s = c :: t → c ≠ '$') : variable_.run () s = none := by
  rw [variable_, run_delim, tag_none h]; rfl

theorem allConsuming_none {c : Bool} {α : Type} {p : L c α} {i : Str} (h : p.run () i = none) :
    (allConsuming p).run () i = none := by rw [run_allConsuming, h]; rfl

end Verif
