import Verif.Props.Where
import Verif.Props.SearchRows
import Verif.Props.Forms
import Verif.Props.Program
/-
C95: what the two sides of a comparison in `where` are.
-/
namespace Verif.Props
open Verif P Lex Spl Spec Lemmas

/-! ### Comparisons with a number, a quoted text or a call -/

/-- the right sides that stand for themselves: numbers, quoted texts without stars, calls -/
inductive PlainRight : Expr → Str → Prop
  | int {n : Int} : isI64 n → PlainRight (.const (.int n)) (showInt n)
  | str {s : Str} : Quotable s → '*' ∉ s → PlainRight (.const (.str s)) ('"' :: (s ++ c!"\""))
  | call {f : Str} {es : List Expr} {g₁ g₂ s : Str} : IsName f → Blanks g₁ → Blanks g₂ → WrittenArgs es s →
      PlainRight (.call f es) (f ++ '(' :: (g₁ ++ (s ++ (g₂ ++ c!")"))))

theorem PlainRight.right {e : Expr} {s : Str} : PlainRight e s → CondRight e s
  | .int h => .lit (.int h)
  | .str h hs => .lit (.str h hs)
  | .call hf h1 h2 ha => .call hf h1 h2 ha

/-- A comparison of a field with a number, a quoted text or a call is read as written. -/
theorem C95_comparison_partial {f op g₁ g₂ t : Str} {r : Expr} (hf : CondName f) (ho : Op 6 op) (h1 : Blanks g₁) (h2 : Blanks g₂)
    (hr : PlainRight r t) :
    parse (c!"where " ++ (f ++ (g₁ ++ (op ++ (g₂ ++ t))))) = some [.where_ (.binary (.const (.field f)) op r)] :=
  C08_where_partial (.mk (es := []) (.single (es := []) (.one (.cmp hf ho h1 h2 hr.right))))

/-- `status >= 400` -/
example : parse c!"where status >= 400" = some [.where_ (.binary (.const (.field c!"status")) c!">=" (.const (.int 400)))] :=
  C95_comparison_partial (f := c!"status") (op := c!">=") (g₁ := c!" ") (g₂ := c!" ") (condName _ (by decide) (by decide)) .ge blanks1 blanks1
    (.int (n := 400) (by unfold isI64; omega))

/-! ### Comparisons with a word -/

theorem where_word_text {f w op g₁ g₂ : Str} (hf : CondName f) (ho : Op 6 op) (h1 : Blanks g₁) (h2 : Blanks g₂) (hw : FieldText w)
    (ht : lower w ∉ trueWords) (hn : lower w ∉ falseWords) :
    parse (c!"where " ++ (f ++ (g₁ ++ (op ++ (g₂ ++ w))))) = some [.where_ (.binary (.const (.field f)) op (.const (.str w)))] :=
  C08_where_partial (.mk (es := []) (.single (es := []) (.one (.cmp hf ho h1 h2 (.lit (.word hw ht hn))))))

/-- Disagreement, for all fields, comparisons and words: a word on the right of a comparison in `where` is the name of a
field, but it is read as a text.  `where a=b` compares the field `a` with the text "b". -/
theorem C95_word_is_a_text (x : Ext) {f w op g₁ g₂ : Str} (hf : CondName f) (ho : Op 6 op) (h1 : Blanks g₁) (h2 : Blanks g₂)
    (hw : FieldText w) (ht : lower w ∉ trueWords) (hn : lower w ∉ falseWords) (pf : Plain '\'' f = true) (pw : Plain '\'' w = true) :
    ∃ o cond, splOp op = some o ∧
      (parse (c!"where " ++ (f ++ (g₁ ++ (op ++ (g₂ ++ w)))))).bind (renderPipeline ⟨.disallow, x⟩) =
        some (c!"spark.table('main').where(" ++ cond ++ c!",)") ∧
      ∀ S row, textEval S row cond = some (S.op o (row f) (.str w)) ∧
        splEval S row (.binary (.const (.field f)) op (.const (.field w))) = some (S.op o (row f) (row w)) := by
  rw [where_word_text hf ho h1 h2 hw ht hn, Option.bind_some]
  have hfo : FragOp op = true := by cases ho <;> rfl
  obtain ⟨o, ho', _⟩ := op_pyOp hfo
  have he : Frag .disallow (.binary (.const (.field f)) op (.const (.str w))) = true := by
    simp [Frag, FragConst, pf, pw, hfo]
  obtain ⟨p, g, hp, ⟨⟨_, hm⟩, _, hs⟩⟩ := frag_means .disallow _ he
  refine ⟨o, renderE p.unalias, ho', ?_, fun S row => ⟨?_, ?_⟩⟩
  · simp only [renderPipeline, runCmds, transform, dispatch, whereTr, hp, Option.map_some, DF.mkWhere]
    rfl
  · rw [(text_of_means hm S row).1, ← hs]
    simp only [splEval, ho', Option.bind_some, constVal, Option.map_some]
  · simp only [splEval, ho', Option.bind_some, constVal, Option.map_some]

/-- `where src=dest` -/
example : CondName c!"src" ∧ Op 6 c!"=" ∧ FieldText c!"dest" ∧ lower c!"dest" ∉ trueWords ∧ lower c!"dest" ∉ falseWords ∧
    Plain '\'' c!"src" = true ∧ Plain '\'' c!"dest" = true :=
  ⟨condName _ (by decide) (by decide), .eq, .one ⟨by decide, by decide, by decide⟩, by decide, by decide, by decide, by decide⟩

/-- such a query, and an event it describes but the program drops -/
theorem C95_word_query :
    outOf .disallow c!"where src=dest" = some c!"spark.table('main').where((F.col('src') == F.lit('dest')),)" ∧
    splEval plainSem (fun _ => .str c!"10.0.0.1") (.binary (.const (.field c!"src")) c!"=" (.const (.field c!"dest"))) = some (.bool true) ∧
    textEval plainSem (fun _ => .str c!"10.0.0.1") c!"(F.col('src') == F.lit('dest'))" = some (.bool false) ∧
    outOf .disallow c!"search src=dest" = some c!"spark.table('main').where((F.col('src') == F.col('dest')),)" := by
  decide +kernel

/-! ### What is never read -/

/-- Disagreement, for all queries: no `where` ever compares two fields, calculates on either side, or has anything but the
name of a field on the left of a comparison. -/
theorem C95_sides {q : Str} {p : Pipeline} (h : parse q = some p) :
    everyP (fun _ => True) (fun c => ∀ e, c = .where_ e → CondShape e) p :=
  everyP_mono (fun _ _ => trivial) (fun c hc => by rintro e rfl; exact hc) p (parse_shape h)

theorem condShape_comparison {op : Str} {l r : Expr} (ho : op ∈ condOps) (h : CondShape (.binary l op r)) :
    (∃ f, l = .const (.field f)) ∧ ((∃ k, r = .const k ∧ ∀ g, k ≠ .field g) ∨ ∃ n as, r = .call n as) := by
  cases h with
  | cmp _ hk => exact ⟨⟨_, rfl⟩, .inl ⟨_, rfl, hk⟩⟩
  | cmpCall _ => exact ⟨⟨_, rfl⟩, .inr ⟨_, _, rfl⟩⟩
  | conn hop _ _ => rcases hop with rfl | rfl <;> exact absurd ho (by decide)

/-- Whatever the text of a query that is one `where` with one comparison: the left side is a field, and the right side is a
constant other than a field, or a call. -/
theorem C95_one_comparison {q op : Str} {l r : Expr} (ho : op ∈ condOps) (h : parse q = some [.where_ (.binary l op r)]) :
    (∃ f, l = .const (.field f)) ∧ ((∃ k, r = .const k ∧ ∀ g, k ≠ .field g) ∨ ∃ n as, r = .call n as) := by
  have := C95_sides h
  simp only [everyP, everyC] at this
  exact condShape_comparison ho (this.1.1 _ rfl)

example : (c!"=" ∈ condOps) ∧ parse c!"where a=len(b)" = some [.where_ (.binary (.const (.field c!"a")) c!"=" (.call c!"len" [.const (.field c!"b")]))] :=
  ⟨by decide, isParse_sound (by decide +kernel)⟩

/-- Conditions that are refused, two in which a number is taken for a field, and one in which a quotient is. -/
theorem C95_refused :
    (∀ q ∈ [c!"where len(x)>5", c!"where a+b>3", c!"where a>b+1", c!"where a='b'",
      c!"where a LIKE \"x%\"", c!"where if(a=b,1,0)=1", c!"where isnull(a) XOR isnull(b)"], (parse q).isNone) ∧
    outOf .disallow c!"where 5<a" = some c!"spark.table('main').where((F.col('5') < F.lit('a')),)" ∧
    outOf .disallow c!"where 1=1" = some c!"spark.table('main').where((F.col('1') == F.lit(1)),)" ∧
    outOf .disallow c!"where distance/time > 100" = some c!"spark.table('main').where((F.col('distance/time') > F.lit(100)),)" := by
  decide +kernel

end Verif.Props
