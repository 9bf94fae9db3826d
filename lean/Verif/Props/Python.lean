import Verif.Lemmas.Python
import Verif.Spl.Eq
import Verif.Tr.Commands
import Verif.Tests.Ext
/-
C23 (the rendered text has exactly one reading) and C24 (string constants stay inside their Python
literal).
-/
namespace Verif.Props
open Verif Spl Spec Lemmas

/-! ### C23 -/

/-- C23, restricted to the trees `pyTree` is defined on: names and aliases without quotes,
backslashes and line ends, verbatim pieces that are one literal or name, operators Python has, and
no method call or alias directly on a negation or on verbatim code.  Python reads the text of such
a tree, in both positions it can be rendered for, as exactly that tree. -/
theorem C23_text_reads_as_tree_partial {e : PE} {t : PyE} (h : pyTree e = some t) :
    readPy (renderE e) = some t ∧ readPy (renderC e) = some t := ⟨read_render h, read_renderC h⟩

example : pyTree (.bin c!"*" (.bin c!"+" (.named c!"a") (.lit c!"1")) (.not (.fn c!"abs" [.named c!"b", .py c!"\"x\""]))) =
    some (.bin c!"*" (.bin c!"+" (fCall c!"col" [.str c!"a"]) (fCall c!"lit" [.num c!"1" []]))
      (.inv (fCall c!"abs" [fCall c!"col" [.str c!"b"], .str c!"x"]))) := by decide +kernel

/-- Two such trees with the same text are the same Python expression. -/
theorem C23_same_text_same_tree_partial {e e' : PE} {t t' : PyE} (h : pyTree e = some t) (h' : pyTree e' = some t')
    (he : renderE e = renderE e') : t = t' := by
  have a := read_render h
  rw [he, read_render h'] at a
  exact (Option.some.inj a).symm

example : renderE (.named c!"a") = renderE (.fn c!"col" [.py c!"'a'"]) ∧
    pyTree (.named c!"a") = pyTree (.fn c!"col" [.py c!"'a'"]) := ⟨by decide +kernel, by decide +kernel⟩

/-- Disagreement: a method called on a negation and the negation of a method call have the same
text, for every operand, method and argument list. -/
theorem C23_negation_loses_its_operand (e : PE) (f : Str) (args : List PE) :
    renderE (.method (.not e) f args) = renderE (.not (.method e f args)) ∧
    renderC (.method (.not e) f args) = renderC (.not (.method e f args)) := by
  simp only [renderE, renderC, List.append_assoc, and_self]

/-- ... and so have the alias of a negation and the negation of an alias. -/
theorem C23_negation_loses_its_alias (e : PE) (n : Str) :
    renderE (.aliased (.not e) n) = renderE (.not (.aliased e n)) := by
  simp only [renderE, List.append_assoc]

/-- The text of `tostring(NOT f)` is read as the negation of `f` cast to a string, for every field
name without quotes, backslashes and line ends. -/
theorem C23_cast_of_negation_is_misread (f : Str) (h : Plain '\'' f = true) :
    ∃ p, exprTr .disallow (.call c!"tostring" [.unary c!"NOT" (.const (.field f))]) = some p ∧
      p.unalias = .method (.not (.named f)) c!"cast" [pyStr c!"string"] ∧
      readPy (renderC p.unalias) =
        some (.inv (.call (.attr (fCall c!"col" [.str f]) c!"cast") [.str c!"string"])) := by
  refine ⟨_, rfl, rfl, ?_⟩
  have : renderC (.method (.not (.named f)) c!"cast" [pyStr c!"string"]) =
      renderC (.not (.method (.named f) c!"cast" [pyStr c!"string"])) :=
    (C23_negation_loses_its_operand _ _ _).2
  show readPy (renderC (.method (.not (.named f)) c!"cast" [pyStr c!"string"])) = _
  rw [this]
  apply read_renderC
  have e : codeTree (c!"\"string\"") = some (.str c!"string") := by decide +kernel
  simp only [pyTree, isReceiver, pyTrees, pyStr, h, if_true]
  rw [show c!"\"" ++ c!"string" ++ c!"\"" = c!"\"string\"" from rfl, e]
  have e' : isIdent c!"cast" = true := by decide +kernel
  rw [e']
  rfl

/-- The same at the level of queries. -/
theorem C23_cast_of_negation_query :
    parse c!"eval y=tostring(NOT a)" =
      some [.eval [(c!"y", .call c!"tostring" [.unary c!"NOT" (.const (.field c!"a"))])]] ∧
    renderPipeline ⟨.disallow, Tests.ext⟩ [.eval [(c!"y", .call c!"tostring" [.unary c!"NOT" (.const (.field c!"a"))])]] =
      some c!"spark.table('main').withColumn('y', ~F.col('a').cast(\"string\"),)" ∧
    readPy c!"~F.col('a').cast(\"string\")" =
      some (.inv (.call (.attr (fCall c!"col" [.str c!"a"]) c!"cast") [.str c!"string"])) :=
  ⟨isParse_sound (by decide +kernel), by decide +kernel, by decide +kernel⟩

/-! ### C24 -/

/-- Text between two quotes `q` that Python reads as itself: no quote `q`, no line end, and every
backslash is followed by a character with which it forms no escape sequence. -/
def Kept (q : Char) : Str → Bool
  | [] => true
  | c :: cs =>
    c != q && c != '\n' && c != '\r' &&
      if c = '\\' then
        match cs with
        | [] => false
        | d :: ds => escapeC d == some ['\\', d] && Kept q ds
      else Kept q cs

theorem if_some {α : Type} {c : Prop} [Decidable c] {a v : α} {b : Option α} (h : (if c then some a else b) = some v) :
    v = a ∨ b = some v := by
  by_cases hc : c
  · rw [if_pos hc] at h; injection h with h; exact .inl h.symm
  · rw [if_neg hc] at h; exact .inr h

theorem escape_length {d : Char} {v : Str} (h : escapeC d = some v) : v = ['\\', d] ∨ v.length = 1 := by
  unfold escapeC at h
  iterate 10
    replace h := if_some h
    rcases h with h | h
    · exact .inr (by rw [h]; rfl)
  split at h
  · cases h
  · injection h with h; exact .inl h.symm

theorem tail_length (q : Char) : ∀ (n : Nat) (s v r : Str), s.length ≤ n → strTail false q s = some (v, r) →
    v.length + r.length + 1 ≤ s.length
  | 0, s, v, r, hn, h => by cases s with | nil => cases h | cons => simp at hn
  | n + 1, [], v, r, hn, h => by cases h
  | n + 1, c :: cs, v, r, hn, h => by
    simp only [List.length_cons] at hn
    unfold strTail at h
    split at h
    · injection h with h; injection h with h1 h2; subst h1; subst h2; simp
    split at h
    · cases h
    split at h
    · cases cs with
      | nil => cases h
      | cons d ds =>
        simp only [Bool.false_eq_true, if_false] at h
        cases he : escapeC d with
        | none => simp only [he] at h; cases h
        | some w =>
          simp only [he] at h
          cases ht : strTail false q ds with
          | none => rw [ht] at h; cases h
          | some x =>
            rw [ht] at h
            injection h with h; injection h with h1 h2
            subst h1; subst h2
            have := tail_length q n ds x.1 x.2 (by simp at hn; omega) ht
            have hw : w.length ≤ 2 := by
              rcases escape_length he with h | h
              · rw [h]; simp
              · omega
            simp only [List.length_append, List.length_cons]
            omega
    · cases ht : strTail false q cs with
      | none => rw [ht] at h; cases h
      | some x =>
        rw [ht] at h
        injection h with h; injection h with h1 h2
        subst h1; subst h2
        have := tail_length q n cs x.1 x.2 (by omega) ht
        simp only [List.length_cons]
        omega

theorem tail_kept (q : Char) (hq : q = '"' ∨ q = '\'') : ∀ (n : Nat) (s : Str), s.length ≤ n →
    (strTail false q (s ++ [q]) = some (s, []) ↔ Kept q s = true)
  | _, [], _ => by simp [strTail, Kept]
  | 0, _ :: _, hn => by simp at hn
  | n + 1, c :: cs, hn => by
    simp only [List.length_cons] at hn
    rw [List.cons_append, strTail.eq_def, Kept.eq_def]
    simp only []
    by_cases h1 : c = q
    · rw [if_pos h1]; simp [h1]
    rw [if_neg h1]
    by_cases h2 : c = '\n' ∨ c = '\r'
    · rw [if_pos (by simpa using h2)]
      rcases h2 with h2 | h2 <;> simp [h2]
    rw [if_neg (by simpa using h2)]
    have h2' : (c != q && c != '\n' && c != '\r') = true := by
      rw [not_or] at h2
      simp [h1, h2.1, h2.2]
    rw [h2', Bool.true_and]
    by_cases h3 : c = '\\'
    · rw [if_pos h3, if_pos h3]
      cases cs with
      | nil =>
        have he : escapeC q = some [q] := by rcases hq with h | h <;> subst h <;> decide
        simp [he, strTail]
      | cons d ds =>
        simp only [List.cons_append, Bool.false_eq_true, if_false, Bool.and_eq_true, beq_iff_eq]
        have ih := tail_kept q hq n ds (by simp at hn; omega)
        cases he : escapeC d with
        | none => simp
        | some w =>
          simp only [Option.some.injEq]
          cases ht : strTail false q (ds ++ [q]) with
          | none =>
            rw [ht] at ih
            simp only [Option.map_none, reduceCtorEq, false_iff] at ih ⊢
            exact fun ⟨_, h⟩ => ih h
          | some x =>
            rw [ht] at ih
            simp only [Option.map_some, Option.some.injEq, Prod.mk.injEq]
            rcases escape_length he with hw | hw
            · subst hw
              rw [← ih, h3]
              simp only [List.cons_append, List.nil_append, List.cons.injEq, true_and, Option.some.injEq]
              constructor
              · rintro ⟨a, b⟩; exact Prod.ext a b
              · intro a; rw [a]; exact ⟨rfl, rfl⟩
            · have hl := tail_length q _ _ _ _ (Nat.le_refl _) ht
              simp only [List.length_append, List.length_cons, List.length_nil] at hl
              constructor
              · rintro ⟨a, b⟩
                have := congrArg List.length a
                simp only [List.length_append, List.length_cons] at this
                omega
              · rintro ⟨a, b⟩
                rw [a] at hw
                simp at hw
    · rw [if_neg h3, if_neg h3]
      have ih := tail_kept q hq n cs (by omega)
      rw [← ih]
      cases ht : strTail false q (cs ++ [q]) with
      | none => simp
      | some x =>
        simp only [Option.map_some, Option.some.injEq, Prod.mk.injEq, List.cons.injEq, true_and]
        constructor
        · rintro ⟨a, b⟩; exact Prod.ext a b
        · intro a; rw [a]; exact ⟨rfl, rfl⟩

theorem string_kept {q : Char} (hq : q = '"' ∨ q = '\'') (s : Str) :
    pyString (q :: (s ++ [q])) = some (s, []) ↔ Kept q s = true := by
  rw [← tail_kept q hq _ s (Nat.le_refl _)]
  unfold pyString openQuote
  have : (decide (q = '"') || decide (q = '\'')) = true := by rcases hq with h | h <;> simp [h]
  simp only [this, if_true]
  cases s with
  | nil => rcases hq with h | h <;> simp [h]
  | cons c cs =>
    by_cases h : c = q
    · subst h
      constructor
      · intro h
        split at h
        · cases h
        · exact h
      · intro h; rw [List.cons_append, strTail.eq_def] at h; simp at h
    · rw [if_neg (by intro h'; simp only [List.cons_append, List.take_succ_cons, List.cons.injEq] at h'; exact h h'.1)]

/-- C24 for string constants in expressions, exactly: the constant is written as a Python literal
whose value is the constant if and only if it contains no single quote, no line end and no backslash
that begins an escape sequence. -/
theorem C24_string_constant_exact (m : Mode) (s : Str) :
    ∃ code, exprTr m (.const (.str s)) = some (.lit code) ∧
      (pyString code = some (s, []) ↔ Kept '\'' s = true) := ⟨_, rfl, string_kept (.inr rfl) s⟩

/-- ... and the same, with double quotes, for the elements of an `IN` list. -/
theorem C24_in_element_exact (m : Mode) (f s : Str) :
    ∃ code, exprTr m (.fieldIn f [.const (.str s)]) = some (.bin c!"==" (.named f) (.py code)) ∧
      (pyString code = some (s, []) ↔ Kept '"' s = true) := ⟨_, rfl, string_kept (.inl rfl) s⟩

example : Kept '\'' c!"a \"b\" \\d*" = true ∧ Kept '\'' c!"it's" = false ∧ Kept '"' c!"it's" = true ∧
    Kept '\'' c!"C:\\new" = false := by decide +kernel

theorem codeTree_kept {q : Char} (hq : q = '"' ∨ q = '\'') {s : Str} (h : Kept q s = true) :
    codeTree (q :: (s ++ [q])) = some (.str s) := by
  unfold codeTree
  rw [(string_kept hq s).2 h]

/-- C24 for the constants that are kept: Python reads the whole column text as the literal column of
that string. -/
theorem C24_string_constant_partial (m : Mode) (s : Str) (h : Kept '\'' s = true) :
    ∃ p, exprTr m (.const (.str s)) = some p ∧ readPy (renderE p) = some (fCall c!"lit" [.str s]) := by
  refine ⟨_, rfl, read_render ?_⟩
  have := codeTree_kept (.inr rfl) h
  simp only [pyTree]
  rw [show c!"'" ++ s ++ c!"'" = '\'' :: (s ++ ['\'']) from rfl, this]
  rfl

example : readPy c!"F.lit('a \"b\" c')" = some (fCall c!"lit" [.str c!"a \"b\" c"]) := by decide +kernel

/-- ... and in a comparison with a field. -/
theorem C24_comparison_partial (m : Mode) (f s : Str) (hf : Plain '\'' f = true) (h : Kept '\'' s = true) :
    ∃ p, exprTr m (.binary (.const (.field f)) c!"=" (.const (.str s))) = some p ∧
      readPy (renderE p) = some (.bin c!"==" (fCall c!"col" [.str f]) (fCall c!"lit" [.str s])) := by
  refine ⟨.bin c!"==" (.named f) (.lit (c!"'" ++ s ++ c!"'")), rfl, read_render ?_⟩
  have := codeTree_kept (.inr rfl) h
  simp only [pyTree, hf, if_true]
  rw [show c!"'" ++ s ++ c!"'" = '\'' :: (s ++ ['\'']) from rfl, this]
  rfl

example : Plain '\'' c!"user name" = true ∧ Kept '\'' c!"say \"hi\"" = true := by decide +kernel

/-- Disagreement: a string constant can leave its literal and become code.  `where a="x') | F.lit('1"`
compares `a` with one string; Python reads the generated condition as a comparison with the result
of an or. -/
theorem C24_constant_becomes_code :
    parse c!"where a=\"x') | F.lit('1\"" =
      some [.where_ (.binary (.const (.field c!"a")) c!"=" (.const (.str c!"x') | F.lit('1")))] ∧
    renderPipeline ⟨.disallow, Tests.ext⟩
        [.where_ (.binary (.const (.field c!"a")) c!"=" (.const (.str c!"x') | F.lit('1")))] =
      some c!"spark.table('main').where((F.col('a') == F.lit('x') | F.lit('1')),)" ∧
    readPy c!"(F.col('a') == F.lit('x') | F.lit('1'))" =
      some (.bin c!"==" (fCall c!"col" [.str c!"a"])
        (.bin c!"|" (fCall c!"lit" [.str c!"x"]) (fCall c!"lit" [.str c!"1"]))) :=
  ⟨isParse_sound (by decide +kernel), by decide +kernel, by decide +kernel⟩

/-- Disagreement: `where a="C:\new"` compares with a text that has a line end in it. -/
theorem C24_backslash_is_reinterpreted :
    parse c!"where a=\"C:\\new\"" =
      some [.where_ (.binary (.const (.field c!"a")) c!"=" (.const (.str c!"C:\\new")))] ∧
    renderPipeline ⟨.disallow, Tests.ext⟩
        [.where_ (.binary (.const (.field c!"a")) c!"=" (.const (.str c!"C:\\new")))] =
      some c!"spark.table('main').where((F.col('a') == F.lit('C:\\new')),)" ∧
    readPy c!"(F.col('a') == F.lit('C:\\new'))" =
      some (.bin c!"==" (fCall c!"col" [.str c!"a"]) (fCall c!"lit" [.str c!"C:\new"])) :=
  ⟨isParse_sound (by decide +kernel), by decide +kernel, by decide +kernel⟩

end Verif.Props
