import Verif.Lemmas.TextsCmd
import Verif.Lemmas.Only
import Verif.Tests.Ext
import Verif.Tr.Commands
import Verif.Spl.Eq
/-
Where the words of a query come from.

C07 reserved words are names only when they are quoted; C58 every word of a parsed query was written in it.
-/
namespace Verif.Props
open Verif Verif.Spec Spl P

/-- C07.  In a parsed query every name - field, function, alias, data set, option naming a field, at any depth and
including sub-searches - that is a reserved word, in any casing, stands between quotes in the query.
(The argument of `TERM(..)` is free text, not a name.) -/
theorem C07_reserved_only_when_quoted {q : Str} {p : Pipeline} (h : parse q = some p) :
    textsP (fun s => Reserved s → ∃ i, Inside q i ∧ QuotedIn s i) (fun _ => True) p := by
  refine parse_texts (⟨Inside q, fun s => Reserved s → ∃ i, Inside q i ∧ QuotedIn s i, fun _ => True,
    fun h h' => .part h' h, fun h => .quoted h, fun _ h h' => absurd h' h, fun hi hs _ => ⟨_, hi, hs⟩, fun _ => trivial,
    fun _ => trivial, ?_, fun _ _ => trivial⟩ : Prov) .here h
  have : ∀ s ∈ defaultNames, ¬ Reserved s := by decide
  exact fun s hs h => absurd h (this s hs)

/-- the characters inside a query are characters of the query -/
theorem _root_.Verif.Spec.Inside.mem {q i : Str} (h : Inside q i) : ∀ c ∈ i, c ∈ q := by
  induction h with
  | here => exact fun _ h => h
  | part _ hs ih => exact fun c hc => ih c (hs.subset hc)
  | quoted _ ih =>
    intro c hc
    refine ih c (mem_unescape ?_ _ _ c (mem_unescape ?_ _ _ c hc))
    · simp
    · simp

theorem QuotedIn.quote {s i : Str} (h : QuotedIn s i) : '\'' ∈ i ∨ '"' ∈ i := by
  obtain ⟨q, w₁, w₂, hq, _, _, hi⟩ := h
  have : q ∈ i := hi.subset (by simp)
  rcases hq with rfl | rfl
  · exact .inl this
  · exact .inr this

/-- C07 for queries without quotes: no name at all is a reserved word. -/
theorem C07_no_reserved_names {q : Str} {p : Pipeline} (h : parse q = some p) (h1 : '\'' ∉ q) (h2 : '"' ∉ q) :
    textsP (fun s => ¬ Reserved s) (fun _ => True) p := by
  refine parse_texts (⟨Inside q, fun s => ¬ Reserved s, fun _ => True,
    fun h h' => .part h' h, fun h => .quoted h, fun _ h => h, fun hi hs => ?_, fun _ => trivial,
    fun _ => trivial, by decide, fun _ _ => trivial⟩ : Prov) .here h
  rcases QuotedIn.quote hs with hc | hc
  · exact absurd (Inside.mem hi _ hc) h1
  · exact absurd (Inside.mem hi _ hc) h2

/-- C07 for tokens: a bare identifier is never a reserved word. -/
theorem C07_token {i r s : Str} (h : Lex.token.run () i = some (r, s)) : ¬ Reserved s :=
  (Lex.token_from (K := ⟨fun _ => True, fun _ => True, fun _ => True, fun _ _ => trivial, fun _ => trivial, fun _ _ => trivial,
    fun _ _ => trivial, fun _ => trivial, fun _ => trivial, fun _ _ => trivial, fun _ _ => trivial⟩) i r s trivial h).2

example : Lex.token.run () c!"fromage by x" = some (c!" by x", c!"fromage") ∧ Lex.token.run () c!"froM by x" = none := by
  decide +kernel

/-- C07 for the keys of command options. -/
theorem C07_option_keys {i r : Str} {os : List (Str × Constant)} (h : Lex.commandOptions.run () i = some (r, os)) :
    ∀ o ∈ os, ¬ Reserved o.1 := by
  let K : Prov := ⟨fun _ => True, fun s => ¬ Reserved s ∨ True, fun _ => True, fun _ _ => trivial, fun _ => trivial,
    fun _ _ => .inr trivial, fun _ _ => .inr trivial, fun _ => trivial, fun _ => trivial, fun _ _ => .inr trivial,
    fun _ _ => trivial⟩
  have : Lex.commandOptions.From K () (fun os => ∀ o ∈ os, ¬ Reserved o.1) :=
    From.many0 (From.ws ((From.sepPair (Lex.token_from (K := K)) (Lex.constant_from (K := K))).mono fun _ h => h.1.2))
  exact this i r os trivial h

example : (Lex.commandOptions.run () c!"usenull=f limit=3 x").map (fun x => (x.1, x.2.map (·.1))) =
    some (c!"limit=3 x", [c!"usenull"]) := by decide +kernel

/-- C58.  Every name of a parsed query was written in the query, or in a search quoted in it, or is one of the six
names the parser supplies; every other text was written there or is one of the listed defaults. -/
theorem C58_words_written {q : Str} {p : Pipeline} (h : parse q = some p) :
    textsP (fun s => Inside q s ∨ s ∈ defaultNames) (fun s => Inside q s ∨ s ∈ defaultNames ∨ s ∈ defaultTexts) p := by
  refine parse_texts (⟨Inside q, fun s => Inside q s ∨ s ∈ defaultNames,
    fun s => Inside q s ∨ s ∈ defaultNames ∨ s ∈ defaultTexts,
    fun h h' => .part h' h, fun h => .quoted h, fun h _ => .inl h, fun {i s} hi hs => .inl (.part hi ?_), .inl,
    fun h => h.elim .inl fun h => .inr (.inl h), fun _ h => .inr h, fun _ h => .inr (.inr h)⟩ : Prov) .here h
  obtain ⟨c, w₁, w₂, _, _, _, hi'⟩ := hs
  exact List.IsInfix.trans ⟨c :: w₁, w₂ ++ [c], by simp⟩ hi'

/-- C58, about characters: a query made of characters of a set gives words made of characters of the set, apart
from the defaults. -/
theorem C58_characters {q : Str} {p : Pipeline} (h : parse q = some p) {S : Char → Prop} (hS : ∀ c ∈ q, S c) :
    textsP (fun s => (∀ c ∈ s, S c) ∨ s ∈ defaultNames)
      (fun s => (∀ c ∈ s, S c) ∨ s ∈ defaultNames ∨ s ∈ defaultTexts) p := by
  refine parse_texts (⟨Inside q, fun s => (∀ c ∈ s, S c) ∨ s ∈ defaultNames,
    fun s => (∀ c ∈ s, S c) ∨ s ∈ defaultNames ∨ s ∈ defaultTexts,
    fun h h' => .part h' h, fun h => .quoted h, fun h _ => .inl fun c hc => hS c (h.mem c hc),
    fun {i s} hi hs => .inl fun c hc => ?_, fun h => .inl fun c hc => hS c (h.mem c hc),
    fun h => h.elim .inl fun h => .inr (.inl h), fun _ h => .inr h, fun _ h => .inr (.inr h)⟩ : Prov) .here h
  obtain ⟨_, w₁, w₂, _, _, _, hi'⟩ := hs
  exact hS c (hi.mem c (hi'.subset (by simp [hc])))

/-! ### concrete queries -/

example : ∃ p, parse c!"search src=1 | stats count by host | eval total=if(isnull(a),b,c+1)" = some p ∧
    textsP (fun s => ¬ Reserved s) (fun _ => True) p := by
  obtain ⟨p, hp⟩ := Option.isSome_iff_exists.1
    (by decide +kernel : (parse c!"search src=1 | stats count by host | eval total=if(isnull(a),b,c+1)").isSome = true)
  exact ⟨p, hp, C07_no_reserved_names hp (by decide) (by decide)⟩

/-- Quoting makes a reserved word a name, and the quotes are needed. -/
theorem C07_quoted : parse c!"search 'and'=1" = some [.search (.binary (.const (.field c!"and")) c!"=" (.const (.int 1)))] ∧
    parse c!"search and=1" = none ∧ QuotedIn c!"and" c!"search 'and'=1" := by
  refine ⟨isParse_sound (by decide +kernel), Option.isNone_iff_eq_none.1 (by decide +kernel), '\'', [], [], .inl rfl, by simp,
    by simp, c!"search ", c!"=1", by decide⟩

/-- The text of `TERM(..)` may be a reserved word: the code keeps it as a field. -/
theorem C07_term : parse c!"search TERM(and)" = some [.search (.call c!"TERM" [.const (.field c!"and")])] :=
  isParse_sound (by decide +kernel)

/-- Where a whole reserved word stands, in any casing, no bare identifier is read. -/
theorem C07_reserved_stops {w rest : Str} (hw : Reserved w) (hr : Stops tokenCont rest) :
    Lex.token.run () (w ++ rest) = none := by
  cases h : Lex.token.run () (w ++ rest) with
  | none => rfl
  | some x =>
    have hne := Lex.reserved_ne_nil hw
    have hl : ∀ c ∈ w, Lex.isTokenChar c = true := by
      intro c hc
      have := Lex.reserved_letters hw c hc
      have ha : isAlnum c = true := by
        simp only [isAlnum, Bool.or_eq_true, Bool.and_eq_true, decide_eq_true_eq]
        exact this.elim (fun h => .inl (.inr h)) .inr
      simp only [Lex.isTokenChar, ha, Bool.true_or]
    rw [Lex.token, run_verify] at h
    have : (recognize (many1 Lex.tokenStep) : L true Str).run () (w ++ rest) = some (rest, w) := by
      rw [recognize_some]
      refine ⟨?_, rfl⟩
      obtain ⟨c, w, rfl⟩ := List.exists_cons_of_ne_nil hne
      rw [run_many1, List.cons_append, tokenStep_char (hl c (by simp))]
      rw [Option.map_some, manyLoop_token w rest _ (Nat.le_refl _) (fun x hx => hl x (by simp [hx])) hr]
      exact ⟨_, rfl⟩
    rw [this] at h
    have hn : Lex.notReserved w = false := by
      simp only [Lex.notReserved, Bool.not_eq_false', List.contains_eq_mem, decide_eq_true_eq]
      exact hw
    simp [Option.filter, hn] at h

example : Lex.token.run () (c!"LiKe" ++ c!"(a,b)") = none := C07_reserved_stops (by decide) (by intro c s h; cases h; decide)

/-- `like` and `in`, two functions the transpiler implements, are reserved words: they cannot be called. -/
theorem C07_like_in : parse c!"eval x=like(a,b)" = none ∧ parse c!"eval x=in(a,b)" = none ∧
    (parse c!"eval x=likes(a,b)").isSome = true :=
  ⟨Option.isNone_iff_eq_none.1 (by decide +kernel), Option.isNone_iff_eq_none.1 (by decide +kernel), by decide +kernel⟩

example : ∃ p, parse c!"map search=\"search a=\\\"b\\\"\"" = some p ∧
    textsP (fun s => Inside c!"map search=\"search a=\\\"b\\\"\"" s ∨ s ∈ defaultNames) (fun s =>
      Inside c!"map search=\"search a=\\\"b\\\"\"" s ∨ s ∈ defaultNames ∨ s ∈ defaultTexts) p := by
  obtain ⟨p, hp⟩ := Option.isSome_iff_exists.1
    (by decide +kernel : (parse c!"map search=\"search a=\\\"b\\\"\"").isSome = true)
  exact ⟨p, hp, C58_words_written hp⟩

example : ∃ p, parse c!"search src=1 | addtotals" = some p ∧
    textsP (fun s => (∀ c ∈ s, c.toNat < 128) ∨ s ∈ defaultNames)
      (fun s => (∀ c ∈ s, c.toNat < 128) ∨ s ∈ defaultNames ∨ s ∈ defaultTexts) p := by
  obtain ⟨p, hp⟩ := Option.isSome_iff_exists.1 (by decide +kernel : (parse c!"search src=1 | addtotals").isSome = true)
  exact ⟨p, hp, C58_characters hp (by decide)⟩

end Verif.Props
