import Verif.Lemmas.Frag
import Verif.Props.Where
import Verif.Tr.Commands
import Verif.Tests.Ext
/-
C21 (expressions keep their meaning), C22 (operator spelling), C25 (IN lists), C26 (wildcards), C43
(case and validate).
-/
namespace Verif.Props
open Verif Spl Spec Lemmas

/-! ### C21 -/

/-- The text of a column with a known value evaluates to that value. -/
theorem text_of_means {p : PE} {f : Sem → Event → Val} (h : Means p f) (S : Sem) (row : Event) :
    textEval S row (renderE p) = some (f S row) ∧ textEval S row (renderC p) = some (f S row) := by
  obtain ⟨t, ht, et⟩ := h
  obtain ⟨o, ho, co, vo⟩ := et S row
  unfold textEval
  rw [read_render ht, read_renderC ht]
  simp only [Option.bind_some, ho, co, if_true, vo, and_self]

/-- C21 on the fragment `Frag`: fields, numbers, strings, comparisons, arithmetic, AND, OR, NOT,
IN lists, wildcards and the conditional functions, arbitrarily nested.  The expression is
translated, and the text of the translation (in each position it can be printed for, with and
without the alias a function call carries), read as Python and evaluated as a PySpark column, has
on every row and for every choice of the primitive operations the value of the expression. -/
theorem C21_meaning_partial (m : Mode) (e : Expr) (h : Frag m e = true) :
    ∃ p, exprTr m e = some p ∧ ∀ S row, (splEval S row e).isSome = true ∧
      textEval S row (renderE p) = splEval S row e ∧ textEval S row (renderC p) = splEval S row e ∧
      textEval S row (renderE p.unalias) = splEval S row e ∧
      textEval S row (renderC p.unalias) = splEval S row e := by
  obtain ⟨p, f, hp, ⟨h1, h2⟩, _, hs⟩ := frag_means m e h
  refine ⟨p, hp, fun S row => ?_⟩
  rw [hs S row]
  have a := text_of_means h1 S row
  have b := text_of_means h2 S row
  exact ⟨rfl, a.1, a.2, b.1, b.2⟩

/-- `if(NOT (a >= 1 AND b IN (1, "x*")), a + 2.50 * b, coalesce(c, "it is"))` -/
example : Frag .disallow (.call c!"if" [
    .unary c!"NOT" (.binary (.binary (.const (.field c!"a")) c!">=" (.const (.int 1))) c!"AND"
      (.fieldIn c!"b" [.const (.int 1), .const (.wildcard c!"x*")])),
    .binary (.const (.field c!"a")) c!"+" (.binary (.const (.double ⟨false, c!"2", c!"50"⟩)) c!"*" (.const (.field c!"b"))),
    .call c!"coalesce" [.const (.field c!"c"), .const (.str c!"it is")]]) = true := by decide +kernel

/-- `where`: the condition of the generated program has the value of the condition of the query. -/
theorem C21_where_partial (x : Ext) (e : Expr) (h : Frag .disallow e = true) :
    ∃ cond, renderPipeline ⟨.disallow, x⟩ [.where_ e] = some (c!"spark.table('main').where(" ++ cond ++ c!",)") ∧
      ∀ S row, textEval S row cond = splEval S row e := by
  obtain ⟨p, hp, hv⟩ := C21_meaning_partial .disallow e h
  refine ⟨renderE p.unalias, ?_, fun S row => (hv S row).2.2.2.1⟩
  simp only [renderPipeline, runCmds, transform, dispatch, whereTr, hp, Option.map_some]
  rfl

/-- `eval` with one assignment, likewise. -/
theorem C21_eval_partial (x : Ext) (n : Str) (e : Expr) (h : Frag .disallow e = true) :
    ∃ col, renderPipeline ⟨.disallow, x⟩ [.eval [(n, e)]] =
        some (c!"spark.table('main').withColumn('" ++ n ++ c!"', " ++ col ++ c!",)") ∧
      ∀ S row, textEval S row col = splEval S row e := by
  obtain ⟨p, f, hp, ⟨h1, h2⟩, _, hs⟩ := frag_means .disallow e h
  refine ⟨renderC p.unalias, ?_, fun S row => by rw [(text_of_means h2 S row).2, hs]⟩
  have hc : p.isCol = true := by
    exact means_isCol h1
  simp only [renderPipeline, runCmds, transform, dispatch, evalStandalone, evalLoop, hp, hc, if_true, Option.map_some]
  rfl

/-- A whole `where` query, from its text to the value of the generated condition: for every condition
of the fragment written with comparisons, IN, calls, NOT, AND, OR and parentheses in any layout and letter case. -/
theorem C21_where_query_partial (x : Ext) {s : Str} {e : Expr} (h : CondOr e s) (hf : Frag .disallow e = true) :
    ∃ cond, (parse (c!"where " ++ s)).bind (renderPipeline ⟨.disallow, x⟩) =
        some (c!"spark.table('main').where(" ++ cond ++ c!",)") ∧
      ∀ S row, (splEval S row e).isSome = true ∧ textEval S row cond = splEval S row e := by
  obtain ⟨cond, h1, h2⟩ := C21_where_partial x e hf
  obtain ⟨p, _, hv⟩ := C21_meaning_partial .disallow e hf
  exact ⟨cond, by rw [C08_where_partial h, Option.bind_some, h1], fun S row => ⟨(hv S row).1, h2 S row⟩⟩

/-- `a=1 b!=two` -/
example : (∃ e, CondOr e c!"a=1 b!=two" ∧ Frag .disallow e = true) := by
  have ca : CondTerm _ _ := .cmp (f := c!"a") (op := c!"=") (g₁ := []) (g₂ := []) (condName _ (by decide) (by decide)) .eq
    (.inl rfl) (.inl rfl) (rightInt 1 (by decide))
  have cb : CondTerm _ _ := .cmp (f := c!"b") (op := c!"!=") (g₁ := []) (g₂ := []) (condName _ (by decide) (by decide)) .ne
    (.inl rfl) (.inl rfl) (.lit (.word (w := c!"two") (.one ⟨by decide, by decide, by decide⟩) (by decide) (by decide)))
  exact ⟨_, .mk (es := []) (.single (es := [_]) (.next ca gap1 (by decide) (.one cb))), by decide +kernel⟩

/-- A whole `eval` query likewise, for every expression in the fragment written with blanks around its
operators. -/
theorem C21_eval_query_partial (x : Ext) {f s : Str} {e : Expr} (hf : IsName f) (ht : f ≠ c!"t") (hF : f ≠ c!"f")
    (hw : Written 9 e s) (h : Frag .disallow e = true) :
    ∃ col, (parse (c!"eval " ++ (f ++ '=' :: s))).bind (renderPipeline ⟨.disallow, x⟩) =
        some (c!"spark.table('main').withColumn('" ++ f ++ c!"', " ++ col ++ c!",)") ∧
      ∀ S row, textEval S row col = splEval S row e := by
  obtain ⟨col, h1, h2⟩ := C21_eval_partial x f e h
  exact ⟨col, by rw [C08_eval_partial hf ht hF hw, Option.bind_some, h1], h2⟩

/-- Disagreement: the literals `true` and `false` are written as names Python does not know. -/
theorem C21_truth_literals_undefined :
    parse c!"where a=true" = some [.where_ (.binary (.const (.field c!"a")) c!"=" (.const (.bool true)))] ∧
    renderPipeline ⟨.disallow, Tests.ext⟩ [.where_ (.binary (.const (.field c!"a")) c!"=" (.const (.bool true)))] =
      some c!"spark.table('main').where((F.col('a') == F.lit(true)),)" ∧
    readPy c!"(F.col('a') == F.lit(true))" =
      some (.bin c!"==" (fCall c!"col" [.str c!"a"]) (fCall c!"lit" [.name c!"true"])) ∧
    ∀ S row, textEval S row c!"(F.col('a') == F.lit(true))" = none := by
  have h : readPy c!"(F.col('a') == F.lit(true))" =
      some (.bin c!"==" (fCall c!"col" [.str c!"a"]) (fCall c!"lit" [.name c!"true"])) := by decide +kernel
  exact ⟨isParse_sound (by decide +kernel), by decide +kernel, h, fun S row => by unfold textEval; rw [h]; rfl⟩

/-! ### C22 -/

/-- C22 in `where`: AND, OR and NOT may be written in any letter case. -/
theorem C22_where_partial {s t op n g₁ g₂ : Str} {e e' : Expr} (hs : CondTerm e s) (ht : CondTerm e' t) (h₁ : Gap g₁) (h₂ : Gap g₂) :
    (lower op = c!"and" → parse (c!"where " ++ (s ++ g₁ ++ op ++ g₂ ++ t)) = parse (c!"where " ++ (s ++ c!" " ++ c!"AND" ++ c!" " ++ t))) ∧
    (lower op = c!"or" → parse (c!"where " ++ (s ++ g₁ ++ op ++ g₂ ++ t)) = parse (c!"where " ++ (s ++ c!" " ++ c!"OR" ++ c!" " ++ t))) ∧
    (lower n = c!"not" → parse (c!"where " ++ (n ++ g₁ ++ s)) = parse (c!"where " ++ (c!"NOT" ++ c!" " ++ s))) := by
  refine ⟨fun h => ?_, fun h => ?_, fun h => ?_⟩
  · rw [C08_where_partial (.mk (.single (.cons hs h h₁ h₂ (.one ht)))),
      C08_where_partial (.mk (.single (.cons (op := c!"AND") hs (by decide) gap1 gap1 (.one ht))))]
  · rw [C08_where_partial (.mk (.more (.one hs) h h₁ h₂ (.single (.one ht)))),
      C08_where_partial (.mk (.more (op := c!"OR") (.one hs) (by decide) gap1 gap1 (.single (.one ht))))]
  · rw [C08_where_partial (.mk (.single (.one (.not h h₁ hs)))),
      C08_where_partial (.mk (.single (.one (.not (n := c!"NOT") (by decide) gap1 hs))))]

example : CondTerm (.binary (.const (.field c!"a")) c!"=" (.const (.int 1))) c!"a=1" ∧ lower c!"aNd" = c!"and" := by
  refine ⟨?_, by decide⟩
  have : CondTerm _ _ := .cmp (f := c!"a") (op := c!"=") (g₁ := []) (g₂ := []) (condName _ (by decide) (by decide)) .eq
    (.inl rfl) (.inl rfl) (rightInt 1 (by decide))
  exact this

/-- Disagreement in `eval` and `search`: lower-case `and` and `or` become the words `and` and `or` of
Python, which no column has; the capital spellings become the column operators.  For every pair of
fields with plain names. -/
theorem C22_lower_case_fails (m : Mode) (a b : Str) (ha : Plain '\'' a = true) (hb : Plain '\'' b = true) :
    (∃ p, exprTr m (.binary (.const (.field a)) c!"and" (.const (.field b))) = some p ∧
      ∀ S row, textEval S row (renderE p) = none) ∧
    (∃ p, exprTr m (.binary (.const (.field a)) c!"or" (.const (.field b))) = some p ∧
      ∀ S row, textEval S row (renderE p) = none) ∧
    (∃ p, exprTr m (.binary (.const (.field a)) c!"AND" (.const (.field b))) = some p ∧
      ∀ S row, textEval S row (renderE p) = some (S.op .and (row a) (row b))) := by
  have hf : Frag m (.binary (.const (.field a)) c!"AND" (.const (.field b))) = true := by
    rw [Frag.eq_3 _ _ _ _ (fun w e => by cases e)]
    simp only [Frag, FragConst, ha, hb, Bool.and_self, Bool.true_and]
    decide +kernel
  refine ⟨⟨.bin c!"and" (.named a) (.named b), rfl, fun S row => ?_⟩, ⟨.bin c!"or" (.named a) (.named b), rfl, fun S row => ?_⟩, ?_⟩
  · have : pyTree (.bin c!"and" (.named a) (.named b)) =
        some (.bin c!"and" (fCall c!"col" [.str a]) (fCall c!"col" [.str b])) := by
      have h : (opLevel c!"and").isSome = true := by decide +kernel
      simp only [pyTree, ha, hb, if_true, h]
    unfold textEval
    rw [read_render this]
    have h : pyOp c!"and" = none := by decide +kernel
    simp only [Option.bind_some, pyEval, h, Option.bind_none]
  · have : pyTree (.bin c!"or" (.named a) (.named b)) =
        some (.bin c!"or" (fCall c!"col" [.str a]) (fCall c!"col" [.str b])) := by
      have h : (opLevel c!"or").isSome = true := by decide +kernel
      simp only [pyTree, ha, hb, if_true, h]
    unfold textEval
    rw [read_render this]
    have h : pyOp c!"or" = none := by decide +kernel
    simp only [Option.bind_some, pyEval, h, Option.bind_none]
  · obtain ⟨p, hp, hv⟩ := C21_meaning_partial m _ hf
    refine ⟨p, hp, fun S row => ?_⟩
    rw [(hv S row).2.1]
    have h : splOp c!"AND" = some .and := by decide +kernel
    rw [splEval.eq_3 _ _ _ _ _ (fun w e => by cases e)]
    simp only [splEval, constVal, h, Option.bind_some, Option.map_some]

example : Plain '\'' c!"user name" = true := by decide +kernel

/-- The same in whole queries, with `not` (rejected) and `::` (left as it is) added. -/
theorem C22_queries :
    (parse c!"search a=1 or b=2").bind (renderPipeline ⟨.disallow, Tests.ext⟩) =
      some c!"spark.table('main').where(((F.col('a') == F.lit(1)) or (F.col('b') == F.lit(2))),)" ∧
    (parse c!"search a=1 OR b=2").bind (renderPipeline ⟨.disallow, Tests.ext⟩) =
      some c!"spark.table('main').where(((F.col('a') == F.lit(1)) | (F.col('b') == F.lit(2))),)" ∧
    (parse c!"search not a=1").isSome = true ∧
    (parse c!"search not a=1").bind (renderPipeline ⟨.disallow, Tests.ext⟩) = none ∧
    (parse c!"search NOT a=1").bind (renderPipeline ⟨.disallow, Tests.ext⟩) =
      some c!"spark.table('main').where(~(F.col('a') == F.lit(1)),)" ∧
    (parse c!"eval x=a :: b").bind (renderPipeline ⟨.disallow, Tests.ext⟩) =
      some c!"spark.table('main').withColumn('x', F.col('a') :: F.col('b'),)" ∧
    (parse c!"eval x=a = b").bind (renderPipeline ⟨.disallow, Tests.ext⟩) =
      some c!"spark.table('main').withColumn('x', F.col('a') == F.col('b'),)" :=
  ⟨by decide +kernel, by decide +kernel, by decide +kernel, by decide +kernel, by decide +kernel, by decide +kernel,
    by decide +kernel⟩

/-! ### C25 -/

theorem or3_true (a b : Option Bool) : or3 a b = some true ↔ a = some true ∨ b = some true := by
  rcases a with _ | a <;> rcases b with _ | b <;> (try cases a) <;> (try cases b) <;> decide

theorem splIn_true (S : Sem) (v : Val) : ∀ {es : List Expr} {b : Option Bool}, splIn S v es = some b →
    (b = some true ↔ ∃ k, Expr.const k ∈ es ∧ inTest S v k = some (some true))
  | [], b, h => by
    simp only [splIn, Option.some.injEq] at h
    subst h
    simp
  | e :: es, b, h => by
    cases e with
    | const k =>
      simp only [splIn] at h
      cases ha : inTest S v k with
      | none => rw [ha] at h; cases h
      | some a =>
        cases hb : splIn S v es with
        | none => rw [ha, hb] at h; cases h
        | some c =>
          rw [ha, hb] at h
          simp only [Option.bind_some, Option.map_some, Option.some.injEq] at h
          subst h
          rw [or3_true, splIn_true S v hb]
          constructor
          · rintro (h | ⟨k', h1, h2⟩)
            · exact ⟨k, List.mem_cons_self .., by rw [ha, h]⟩
            · exact ⟨k', List.mem_cons_of_mem _ h1, h2⟩
          · rintro ⟨k', h1, h2⟩
            rcases List.mem_cons.1 h1 with h1 | h1
            · injection h1 with h1
              subst h1
              rw [ha] at h2
              exact .inl (Option.some.inj h2)
            · exact .inr ⟨k', h1, h2⟩
    | _ => simp [splIn] at h

/-- C25 for non-empty lists of plain values: the generated condition is true of a row exactly when
some element's test succeeds: equality, or for a wildcard the match. -/
theorem C25_in_list_partial (m : Mode) (f : Str) (es : List Expr) (hf : Plain '\'' f = true) (hne : es ≠ [])
    (hes : es.all FragElem = true) :
    ∃ p, exprTr m (.fieldIn f es) = some p ∧ ∀ S row, ∃ b, textEval S row (renderE p) = some (ofB b) ∧
      (b = some true ↔ ∃ k, Expr.const k ∈ es ∧ inTest S (row f) k = some (some true)) := by
  have hF : Frag m (.fieldIn f es) = true := by
    rw [Frag, hf, hes]
    cases es with
    | nil => exact absurd rfl hne
    | cons => simp
  obtain ⟨p, hp, hv⟩ := C21_meaning_partial m _ hF
  refine ⟨p, hp, fun S row => ?_⟩
  obtain ⟨h1, h2, _⟩ := hv S row
  rw [h2]
  simp only [splEval] at h1 ⊢
  cases hb : splIn S (row f) es with
  | none => rw [hb] at h1; cases h1
  | some b => exact ⟨b, rfl, splIn_true S _ hb⟩

example : [Expr.const (.int 1), .const (.wildcard c!"b*"), .const (.field c!"c"), .const (.str c!"d e")].all FragElem = true := by
  decide +kernel

/-- Disagreement: the empty list is translated to a condition that is always true. -/
theorem C25_empty_list_is_true (m : Mode) (f : Str) :
    ∃ p, exprTr m (.fieldIn f []) = some p ∧ ∀ S row, textEval S row (renderE p) = some (.bool true) := by
  refine ⟨.lit c!"True", rfl, fun S row => ?_⟩
  exact (text_of_means (means_lit (bool_const true)) S row).1

/-- Whole queries with an empty list; in `search` the constant is even looked for as a word. -/
theorem C25_empty_list_queries :
    parse c!"where g IN ()" = some [.where_ (.fieldIn c!"g" [])] ∧
    (parse c!"where g IN ()").bind (renderPipeline ⟨.disallow, Tests.ext⟩) =
      some c!"spark.table('main').where(F.lit(True),)" ∧
    (parse c!"search g IN ()").bind (renderPipeline ⟨.disallow, Tests.ext⟩) =
      some c!"spark.table('main').where(F.col('_raw').ilike(\"%True%\"),)" :=
  ⟨isParse_sound (by decide +kernel), by decide +kernel, by decide +kernel⟩

/-! ### C26 -/

/-- `Glob p s`: the text `s` is obtained from the pattern `p` by replacing each `*` by some text. -/
inductive Glob : Str → Str → Prop
  | nil : Glob [] []
  | star {p s : Str} (t : Str) : Glob p s → Glob ('*' :: p) (t ++ s)
  | lit {c : Char} {p s : Str} : c ≠ '*' → Glob p s → Glob (c :: p) (c :: s)

theorem star_match (p : List Tok1) : ∀ s : Str, tokMatch (.any :: p) s = true ↔ ∃ t u, s = t ++ u ∧ tokMatch p u = true
  | [] => by
    rw [tokMatch]
    simp only [Bool.or_false]
    constructor
    · intro h; exact ⟨[], [], rfl, h⟩
    · rintro ⟨t, u, h1, h2⟩
      have : u = [] := by
        cases u with
        | nil => rfl
        | cons => have := congrArg List.length h1; simp at this
      rw [this] at h2; exact h2
  | c :: s => by
    rw [tokMatch, Bool.or_eq_true, star_match p s]
    constructor
    · rintro (h | ⟨t, u, h1, h2⟩)
      · exact ⟨[], c :: s, rfl, h⟩
      · exact ⟨c :: t, u, by rw [h1]; rfl, h2⟩
    · rintro ⟨t, u, h1, h2⟩
      cases t with
      | nil => left; rw [List.nil_append] at h1; rw [h1]; exact h2
      | cons d t => injection h1 with _ h1; exact .inr ⟨t, u, h1, h2⟩

theorem glob_nil {c : Char} {p : Str} (h : Glob (c :: p) []) : c = '*' := by
  generalize hq : c :: p = q at h
  generalize hs : ([] : Str) = u at h
  cases h with
  | nil => cases hq
  | star t _ => injection hq
  | lit _ _ => cases hs

theorem glob_cons {c d : Char} {p s : Str} (hc : c ≠ '*') (h : Glob (c :: p) (d :: s)) : c = d ∧ Glob p s := by
  generalize hq : c :: p = q at h
  generalize hs : d :: s = u at h
  cases h with
  | nil => cases hq
  | star t _ => injection hq with hq _; exact absurd hq hc
  | lit _ h =>
    injection hq with h1 h2
    injection hs with h3 h4
    exact ⟨h1.trans h3.symm, by rw [h2, h4]; exact h⟩

theorem glob_match : ∀ (p s : Str), tokMatch (wildToks p) s = true ↔ Glob p s
  | [], s => by
    rw [wildToks, tokMatch]
    constructor
    · intro h; rw [List.isEmpty_iff] at h; rw [h]; exact .nil
    · intro h; cases h; rfl
  | c :: p, s => by
    rw [wildToks]
    by_cases hc : c = '*'
    · rw [if_pos hc, star_match]
      subst hc
      constructor
      · rintro ⟨t, u, rfl, h⟩; exact .star t ((glob_match p u).1 h)
      · intro h
        cases h with
        | star t h => exact ⟨t, _, rfl, (glob_match p _).2 h⟩
        | lit h => exact absurd rfl h
    · rw [if_neg hc]
      cases s with
      | nil =>
        rw [tokMatch]
        simp only [Bool.false_eq_true, false_iff]
        intro h
        exact hc (glob_nil h)
      | cons d s =>
        rw [tokMatch]
        simp only [Bool.and_eq_true, beq_iff_eq]
        constructor
        · rintro ⟨rfl, h⟩; exact .lit hc ((glob_match p s).1 h)
        · intro h
          have := glob_cons hc h
          exact ⟨this.1, (glob_match p s).2 this.2⟩

/-- C26 for patterns without `%`, `_`, quotes, backslashes and line ends, compared with a field by
`=`, `==` or `!=`: the condition is true of exactly the texts that are obtained from the pattern by
replacing each `*` by some text (for `!=`: of the others). -/
theorem C26_wildcard_partial (m : Mode) (f p : Str) (hf : Plain '\'' f = true) (hp : PlainPat p = true) :
    (∃ q, exprTr m (.binary (.const (.field f)) c!"=" (.const (.wildcard p))) = some q ∧
      ∀ S row s, S.text (row f) = some s →
        ∃ b, textEval S row (renderE q) = some (.bool b) ∧ (b = true ↔ Glob p s)) ∧
    (∃ q, exprTr m (.binary (.const (.field f)) c!"!=" (.const (.wildcard p))) = some q ∧
      ∀ S row s, S.text (row f) = some s →
        ∃ b, textEval S row (renderE q) = some (.bool b) ∧ (b = true ↔ ¬ Glob p s)) := by
  have hF : ∀ op, FragWildOp op = true → Frag m (.binary (.const (.field f)) op (.const (.wildcard p))) = true := by
    intro op ho
    simp only [Frag, FragConst, hf, ho, hp, isNegated]
    rfl
  constructor
  · obtain ⟨q, hq, hv⟩ := C21_meaning_partial m _ (hF c!"=" (by decide +kernel))
    refine ⟨q, hq, fun S row s hs => ⟨tokMatch (wildToks p) s, ?_, glob_match p s⟩⟩
    have h : splOp c!"=" = some .eq := by decide +kernel
    rw [(hv S row).2.1]
    simp only [splEval, constVal, Option.bind_some, h, if_true, Sem.matches, hs, Option.map_some, ofB]
  · obtain ⟨q, hq, hv⟩ := C21_meaning_partial m _ (hF c!"!=" (by decide +kernel))
    refine ⟨q, hq, fun S row s hs => ⟨!tokMatch (wildToks p) s, ?_, ?_⟩⟩
    · have h : splOp c!"!=" = some .ne := by decide +kernel
      rw [(hv S row).2.1]
      simp only [splEval, constVal, Option.bind_some, h, reduceCtorEq, Option.some.injEq, if_false, if_true, Sem.matches, hs,
        Option.map_some, not3, ofB]
    · rw [← glob_match]; simp

example : PlainPat c!"*.example.com" = true ∧ Glob c!"a*c*" c!"abcd" := by
  refine ⟨by decide +kernel, ?_⟩
  exact .lit (by decide) (.star c!"b" (.lit (by decide) (.star c!"d" .nil)))

/-- Disagreement: `_` and `%` in a pattern are special in the generated `like` call.  The query's
pattern `a_*` does not match `abc`, the generated condition does. -/
theorem C26_underscore_is_special :
    parse c!"search g=a_*" = some [.search (.binary (.const (.field c!"g")) c!"=" (.const (.wildcard c!"a_*")))] ∧
    (parse c!"search g=a_*").bind (renderPipeline ⟨.disallow, Tests.ext⟩) =
      some c!"spark.table('main').where(F.col('g').like(\"a_%\"),)" ∧
    ¬ Glob c!"a_*" c!"abc" ∧
    ∀ S row, S.text (row c!"g") = some c!"abc" →
      textEval S row c!"F.col('g').like(\"a_%\")" = some (.bool true) := by
  refine ⟨isParse_sound (by decide +kernel), by decide +kernel, ?_, fun S row hs => ?_⟩
  · rw [← glob_match, show wildToks c!"a_*" = [.lit 'a', .lit '_', .any] from by decide +kernel, tokMatch, tokMatch]; decide +kernel
  · have h : readPy c!"F.col('g').like(\"a_%\")" =
        some (.call (.attr (fCall c!"col" [.str c!"g"]) c!"like") [.str c!"a_%"]) := by decide +kernel
    unfold textEval
    rw [h]
    have ho : pyEval S row (fCall c!"col" [.str c!"g"]) = some (.column (row c!"g")) := rfl
    have ht : likeToks c!"a_%" = some [.lit 'a', .one, .any] := by decide +kernel
    rw [Option.bind_some, eval_method _ _ ho rfl]
    simp only [pyEvals, pyEval, Option.bind_some, Option.map_some]
    have : colMethod S (.column (row c!"g")) c!"like" [.const (.str c!"a_%")] = some (.column (.bool true)) := by
      unfold colMethod
      rw [if_pos (show (Obj.column (row c!"g")).isColumn = true from rfl), if_neg (by decide), if_pos rfl]
      simp only [ht, Option.map_some, Sem.matches, Obj.val, hs]
      have : tokMatch [.lit 'a', .one, .any] c!"abc" = true := by
        rw [tokMatch, tokMatch, tokMatch, tokMatch, tokMatch, tokMatch]; rfl
      rw [this]
      rfl
    rw [this]
    rfl

/-! ### C43 -/

/-- the argument list `c1, v1, ..., cn, vn` -/
def flatten : List (Expr × Expr) → List Expr
  | [] => []
  | (c, v) :: r => c :: v :: flatten r

/-- value of an expression -/
def valueOf (S : Sem) (row : Event) (e : Expr) : Val := (splEval S row e).getD .null

theorem flatten_frags (m : Mode) : ∀ {ps : List (Expr × Expr)}, (∀ x ∈ ps, Frag m x.1 = true ∧ Frag m x.2 = true) →
    Frags m (flatten ps) = true ∧ (flatten ps).length = 2 * ps.length
  | [], _ => ⟨rfl, rfl⟩
  | (c, v) :: ps, h => by
    have ih := flatten_frags m (ps := ps) (fun x hx => h x (List.mem_cons_of_mem _ hx))
    have h1 := h (c, v) (List.mem_cons_self ..)
    refine ⟨?_, ?_⟩
    · simp only [flatten, Frags, h1.1, h1.2, ih.1, Bool.and_self]
    · simp only [flatten, List.length_cons, ih.2]; omega

theorem flatten_evals (m : Mode) (S : Sem) (row : Event) : ∀ {ps : List (Expr × Expr)},
    (∀ x ∈ ps, Frag m x.1 = true ∧ Frag m x.2 = true) →
    ∃ vs, splEvals S row (flatten ps) = some vs ∧ vs.length = 2 * ps.length ∧
      pairUp vs = some (ps.map fun x => (valueOf S row x.1, valueOf S row x.2))
  | [], _ => ⟨[], rfl, rfl, rfl⟩
  | (c, v) :: ps, h => by
    obtain ⟨vs, h1, h2, h3⟩ := flatten_evals m S row (ps := ps) (fun x hx => h x (List.mem_cons_of_mem _ hx))
    have hf := h (c, v) (List.mem_cons_self ..)
    obtain ⟨_, f, _, _, _, hc⟩ := frag_means m c hf.1
    obtain ⟨_, g, _, _, _, hv⟩ := frag_means m v hf.2
    refine ⟨f S row :: g S row :: vs, ?_, by simp only [List.length_cons, h2]; omega, ?_⟩
    · simp only [flatten, splEvals, hc, hv, h1, Option.bind_some, Option.map_some]
    · simp only [pairUp, h3, Option.map_some, List.map_cons, valueOf, hc, hv, Option.getD_some]

/-- C43 for `case` without the runtime: the value of the generated column is the value beside the
first condition that is true, and null if no condition is true. -/
theorem C43_case_partial (ps : List (Expr × Expr)) (hne : ps ≠ [])
    (h : ∀ x ∈ ps, Frag .disallow x.1 = true ∧ Frag .disallow x.2 = true) :
    ∃ p, exprTr .disallow (.call c!"case" (flatten ps)) = some p ∧ ∀ S row,
      textEval S row (renderE p) = some (match ps.find? fun x => S.truth (valueOf S row x.1) = some true with
        | some x => valueOf S row x.2
        | none => .null) := by
  have hfl := flatten_frags .disallow h
  have hF : Frag .disallow (.call c!"case" (flatten ps)) = true := by
    have : ps.length ≠ 0 := fun e => hne (List.length_eq_zero_iff.1 e)
    simp only [Frag, hfl.1, FragFn, hfl.2]
    have h2 : (2 * ps.length) % 2 = 0 := by omega
    have h3 : 2 * ps.length ≠ 0 := by omega
    simp [h2]
    omega
  obtain ⟨p, hp, hv⟩ := C21_meaning_partial .disallow _ hF
  refine ⟨p, hp, fun S row => ?_⟩
  rw [(hv S row).2.1]
  obtain ⟨vs, h1, h2, h3⟩ := flatten_evals .disallow S row h
  have hvs : vs ≠ [] := by
    intro e; rw [e] at h2; exact hne (List.length_eq_zero_iff.1 (by simp only [List.length_nil] at h2; omega))
  simp only [splEval, h1, Option.bind_some]
  unfold splFn
  rw [if_pos rfl, if_neg hvs, h3, Option.map_some, List.map_map]
  congr 1
  clear hfl hF hp hv h1 h2 h3 hvs hne h
  induction ps with
  | nil => rfl
  | cons x ps ih =>
    rw [List.map_cons, List.find?_cons]
    simp only [Function.comp, pick, Bool.not_false]
    by_cases hc : S.truth (valueOf S row x.1) = some true
    · simp only [hc, if_true, decide_true]
    · simp only [hc, if_false, decide_false]
      exact ih

/-- C43 for `validate` without the runtime: the value beside the first condition that is false. -/
theorem C43_validate_partial (ps : List (Expr × Expr)) (hne : ps ≠ [])
    (h : ∀ x ∈ ps, Frag .disallow x.1 = true ∧ Frag .disallow x.2 = true) :
    ∃ p, exprTr .disallow (.call c!"validate" (flatten ps)) = some p ∧ ∀ S row,
      textEval S row (renderE p) = some (match ps.find? fun x => S.truth (valueOf S row x.1) = some false with
        | some x => valueOf S row x.2
        | none => .null) := by
  have hfl := flatten_frags .disallow h
  have hF : Frag .disallow (.call c!"validate" (flatten ps)) = true := by
    have : ps.length ≠ 0 := fun e => hne (List.length_eq_zero_iff.1 e)
    simp only [Frag, hfl.1, FragFn, hfl.2]
    have h2 : (2 * ps.length) % 2 = 0 := by omega
    have h3 : 2 * ps.length ≠ 0 := by omega
    simp [h2]
    omega
  obtain ⟨p, hp, hv⟩ := C21_meaning_partial .disallow _ hF
  refine ⟨p, hp, fun S row => ?_⟩
  rw [(hv S row).2.1]
  obtain ⟨vs, h1, h2, h3⟩ := flatten_evals .disallow S row h
  have hvs : vs ≠ [] := by
    intro e; rw [e] at h2; exact hne (List.length_eq_zero_iff.1 (by simp only [List.length_nil] at h2; omega))
  simp only [splEval, h1, Option.bind_some]
  unfold splFn
  rw [if_neg (by decide), if_pos rfl, if_neg hvs, h3, Option.map_some, List.map_map]
  congr 1
  clear hfl hF hp hv h1 h2 h3 hvs hne h
  induction ps with
  | nil => rfl
  | cons x ps ih =>
    rw [List.map_cons, List.find?_cons]
    simp only [Function.comp, pick, Bool.not_true]
    by_cases hc : S.truth (valueOf S row x.1) = some false
    · simp only [hc, if_true, decide_true]
    · simp only [hc, if_false, decide_false]
      exact ih

example : ∀ x ∈ [(Expr.binary (.const (.field c!"a")) c!"<" (.const (.int 5)), Expr.const (.str c!"low")),
    (.call c!"true" [], .const (.field c!"b"))], Frag .disallow x.1 = true ∧ Frag .disallow x.2 = true := by decide +kernel

/-- An odd number of arguments, or none, is rejected, whatever the arguments are. -/
theorem C43_odd_rejected (args : List Expr) (h : args.length % 2 = 1 ∨ args = []) :
    exprTr .disallow (.call c!"case" args) = none ∧ exprTr .disallow (.call c!"validate" args) = none := by
  have hl : ∀ es : List Expr, (argsTr .disallow es).length = es.length := by
    intro es; induction es with
    | nil => rfl
    | cons e es ih => rw [argsTr, List.length_cons, List.length_cons, ih]
  have key : ∀ neg, ∀ ms, mapArgs (argsTr .disallow args) = some ms → caseBody neg ms = none := by
    intro neg ms hm
    have hlen := mapArgs_length hm
    rw [hl] at hlen
    unfold caseBody
    rcases h with h | h
    · rw [if_neg (by omega)]
    · subst h
      have : ms = [] := List.length_eq_zero_iff.1 hlen
      subst this
      rfl
  constructor
  · rw [exprTr, evalFn_known (spec := ⟨c!"case", [], .mapped, fun _ _ ms => caseBody false ms⟩) rfl]
    cases hm : mapArgs (argsTr .disallow args) with
    | none => simp only [FnSpec.apply, bindParams, List.length_nil, List.drop_zero, hm, Option.map_none]
    | some ms => rw [apply_mapped _ _ _ hm, key false ms hm]; rfl
  · rw [exprTr, evalFn_known (spec := ⟨c!"validate", [], .mapped, fun _ _ ms => caseBody true ms⟩) rfl]
    cases hm : mapArgs (argsTr .disallow args) with
    | none => simp only [FnSpec.apply, bindParams, List.length_nil, List.drop_zero, hm, Option.map_none]
    | some ms => rw [apply_mapped _ _ _ hm, key true ms hm]; rfl

/-- Disagreement: `validate` passes over a condition that is unknown (null) as if it held. -/
theorem C43_validate_skips_unknown (f : Str) (hf : Plain '\'' f = true) :
    ∃ p, exprTr .disallow (.call c!"validate" [.const (.field f), .const (.int 1)]) = some p ∧
      ∀ S row, S.truth (row f) = none → textEval S row (renderE p) = some .null := by
  have := C43_validate_partial [(.const (.field f), .const (.int 1))] (by simp) (by
    intro x hx
    rw [List.mem_singleton] at hx
    subst hx
    exact ⟨hf, rfl⟩)
  obtain ⟨p, hp, hv⟩ := this
  refine ⟨p, hp, fun S row h => ?_⟩
  rw [hv S row]
  have hval : valueOf S row (.const (.field f)) = row f := rfl
  simp only [List.find?_cons, List.find?_nil, hval, h, reduceCtorEq, decide_false]

/-- With the runtime the arguments are passed on without any check. -/
theorem C43_runtime_accepts_odd :
    (parse c!"eval x=case(a=1,2,3)").bind (renderPipeline ⟨.allow, Tests.ext⟩) =
      some c!"df_1 = commands.eval(None, x=functions.eval.case((F.col('a') == F.lit(1)), F.lit(2), F.lit(3)))\ndf_1" := by
  decide +kernel

end Verif.Props
