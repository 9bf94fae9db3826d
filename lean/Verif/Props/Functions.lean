import Verif.Props.Meaning
/-
C71: the functions of `eval` compute what is documented (head comment of /repo/src/functions/eval_fns.rs).
-/
namespace Verif.Props
open Verif Spl Spec Lemmas

/-- C71 for the calls in `FragPrim`: the mathematical, trigonometric, bitwise, hash, comparison and text functions
with the documented arguments.  The call is translated, and the text of the translation, read as Python and evaluated
as a PySpark column, applies the documented function to the values of the arguments, in the order written. -/
theorem C71_functions_partial (name : Str) (args : List Expr) (h : FragPrim name args = true) (ha : Frags .disallow args = true) :
    ∃ p, exprTr .disallow (.call name args) = some p ∧ ∀ S row, ∃ vs v, splEvals S row args = some vs ∧ splFn S name vs = some v ∧
      textEval S row (renderE p) = some v ∧ textEval S row (renderE p.unalias) = some v := by
  have hf : Frag .disallow (.call name args) = true := by
    rw [Frag]
    simp only [h, ha, Bool.or_true, Bool.and_true, beq_iff_eq]
  obtain ⟨p, hp, hv⟩ := C21_meaning_partial .disallow _ hf
  refine ⟨p, hp, fun S row => ?_⟩
  obtain ⟨h0, h1, _, h2, _⟩ := hv S row
  obtain ⟨v, hev⟩ := Option.isSome_iff_exists.1 h0
  have hc := hev
  rw [splEval] at hc
  cases hs : splEvals S row args with
  | none => rw [hs] at hc; cases hc
  | some vs =>
    rw [hs, Option.bind_some] at hc
    exact ⟨vs, v, rfl, hc, by rw [h1, hev], by rw [h2, hev]⟩

/-- `round(sqrt(a), 2)`, `replace(lower(b), "\d+\.", "n")`, `max(a, pow(b, 2), len(c))`, `bit_and(a, 7)` -/
example : FragPrim c!"round" [.call c!"sqrt" [.const (.field c!"a")], .const (.int 2)] = true ∧
    Frags .disallow [.call c!"sqrt" [.const (.field c!"a")], .const (.int 2)] = true ∧
    FragPrim c!"replace" [.call c!"lower" [.const (.field c!"b")], .const (.str c!"\\d+\\."), .const (.str c!"n")] = true ∧
    FragPrim c!"max" [.const (.field c!"a"), .call c!"pow" [.const (.field c!"b"), .const (.int 2)], .call c!"len" [.const (.field c!"c")]] = true ∧
    Frags .disallow [.const (.field c!"a"), .call c!"pow" [.const (.field c!"b"), .const (.int 2)], .call c!"len" [.const (.field c!"c")]] = true ∧
    FragPrim c!"bit_and" [.const (.field c!"a"), .const (.int 7)] = true := by decide +kernel

/-- What the functions with one fixed primitive compute, spelled out. -/
theorem C71_primitives_partial (name : Str) (args : List Expr) (n : Nat) (p : Prim) (hn : splPrims.lookup name = some (n, p)) (hc : name ∉ condNames)
    (h : FragPrim name args = true) (ha : Frags .disallow args = true) :
    ∃ e, exprTr .disallow (.call name args) = some e ∧ ∀ S row, ∃ vs, splEvals S row args = some vs ∧ vs.length = n ∧
      textEval S row (renderE e) = some (S.prim p vs) := by
  obtain ⟨e, he, hv⟩ := C71_functions_partial name args h ha
  refine ⟨e, he, fun S row => ?_⟩
  obtain ⟨vs, v, h1, h2, h3, _⟩ := hv S row
  rw [splFn_tail hc] at h2
  unfold splPrimFn at h2
  rw [hn] at h2
  simp only at h2
  split at h2
  · rename_i hl
    injection h2 with h2
    subst h2
    exact ⟨vs, h1, hl, h3⟩
  · cases h2

example : splPrims.lookup c!"atan2" = some (2, .atan2) ∧ c!"atan2" ∉ condNames ∧
    FragPrim c!"atan2" [.const (.field c!"y"), .const (.field c!"x")] = true := by decide +kernel

/-! ### arguments left out -/

theorem exact_none {name : Str} {spec : FnSpec} {args : List Expr} (hl : lookupFn name evalTable = some spec) (he : spec.rest = .exact)
    (hn : args.length ≠ spec.params.length) : exprTr .disallow (.call name args) = none := by
  rw [exprTr, evalFn_known hl]
  unfold FnSpec.apply
  have hal : ∀ es : List Expr, (argsTr .disallow es).length = es.length := by
    intro es
    induction es with
    | nil => rfl
    | cons e es ih => simp only [argsTr, List.length_cons, ih]
  cases bindParams spec.params (argsTr .disallow args) with
  | none => rfl
  | some vs =>
    simp only [he, hal]
    rw [if_neg (fun h => hn h.symm)]
    rfl

/-- Disagreement: every argument documented as optional has to be given, and functions documented for any number of
arguments take one number of them only; any other call is refused (without the runtime). -/
theorem C71_optional_arguments_refused (args : List Expr) :
    (∀ name ∈ [c!"round", c!"log", c!"trim", c!"ltrim", c!"rtrim"], args.length = 1 → exprTr .disallow (.call name args) = none) ∧
    (args.length = 2 → exprTr .disallow (.call c!"substr" args) = none) ∧
    (args.length = 2 → exprTr .disallow (.call c!"bit_not" args) = none) ∧
    (∀ name ∈ [c!"bit_and", c!"bit_or", c!"bit_xor", c!"in"], 2 < args.length → exprTr .disallow (.call name args) = none) ∧
    (1 < args.length → exprTr .disallow (.call c!"sum" args) = none) := by
  refine ⟨fun name hn h => ?_, fun h => exact_none rfl rfl (by rw [h]; decide), fun h => exact_none rfl rfl (by rw [h]; decide), fun name hn h => ?_,
    fun h => exact_none rfl rfl (by simp [fn1, FnSpec.one]; omega)⟩
  · simp only [List.mem_cons, List.not_mem_nil, or_false] at hn
    rcases hn with rfl | rfl | rfl | rfl | rfl <;> exact exact_none rfl rfl (by rw [h]; decide)
  · simp only [List.mem_cons, List.not_mem_nil, or_false] at hn
    rcases hn with rfl | rfl | rfl | rfl <;> exact exact_none rfl rfl (by simp [FnSpec.two]; omega)

/-- … and so are the base of `tonumber` and the format of `tostring`. -/
theorem C71_conversions_refused (name : Str) (a b : Expr) (h : name = c!"tonumber" ∨ name = c!"tostring") :
    exprTr .disallow (.call name [a, b]) = none := by
  rcases h with rfl | rfl
  all_goals
    rw [exprTr, evalFn_known rfl]
    simp only [FnSpec.apply, bindParams, bindParam, argsTr, List.length_cons, List.length_nil, List.drop, mapArgs]
    cases h1 : exprTr .disallow a <;> cases h2 : exprTr .disallow b <;> rfl

/-- Queries that are refused, and read. -/
theorem C71_refused_queries :
    (parse c!"eval x=round(y)").isSome = true ∧ (parse c!"eval x=round(y)").bind (renderPipeline ⟨.disallow, Tests.ext⟩) = none ∧
    (parse c!"eval x=log(y)").isSome = true ∧ (parse c!"eval x=log(y)").bind (renderPipeline ⟨.disallow, Tests.ext⟩) = none ∧
    (parse c!"eval x=substr(y, 2)").isSome = true ∧ (parse c!"eval x=substr(y, 2)").bind (renderPipeline ⟨.disallow, Tests.ext⟩) = none ∧
    (parse c!"eval x=trim(y)").isSome = true ∧ (parse c!"eval x=trim(y)").bind (renderPipeline ⟨.disallow, Tests.ext⟩) = none ∧
    (parse c!"eval x=tostring(y, \"commas\")").isSome = true ∧
    (parse c!"eval x=tostring(y, \"commas\")").bind (renderPipeline ⟨.disallow, Tests.ext⟩) = none := by decide +kernel

/-! ### functions that are translated to another one -/

/-- Disagreement: `log(x, b)` is the logarithm of `x` to base `b`; the translation computes the logarithm of `b` to
base `x` (the parameters of PySpark's `log` are in the other order). -/
theorem C71_log_is_swapped (x b : Str) (hx : Plain '\'' x = true) (hb : Plain '\'' b = true) :
    ∃ p, exprTr .disallow (.call c!"log" [.const (.field x), .const (.field b)]) = some p ∧ ∀ S row,
      splEval S row (.call c!"log" [.const (.field x), .const (.field b)]) = some (S.prim .logBase [row x, row b]) ∧
      textEval S row (renderE p) = some (S.prim .logBase [row b, row x]) := by
  have hm : Means (.fn c!"log" [.named x, .named b]) (fun S row => S.prim .logBase [row b, row x]) := by
    refine means_fn (fs := [fun _ row => row x, fun _ row => row b]) (by decide +kernel) ⟨⟨means_named hx, rfl⟩, ⟨means_named hb, rfl⟩, trivial⟩
      (fun S row os ho hv => ?_)
    rw [fFn_tail (by decide +kernel)]
    have hl : os.length = 2 := by have := congrArg List.length hv; simpa using this
    match os, hl, hv with
    | [y, z], _, hv =>
      simp only [List.map_cons, List.map_nil, List.cons.injEq, and_true] at hv
      simp only [List.all_cons, List.all_nil, Bool.and_true, Bool.and_eq_true] at ho
      refine ⟨_, (show sparkFn S c!"log" [y, z] = some (.column (S.prim .logBase [z.val, y.val])) from ?_), rfl, ?_⟩
      · unfold sparkFn
        rw [show (sparkPrims.find? fun w => w.1 == c!"log" && w.2.1 == [y, z].length) = none from rfl]
        cases z with
        | const v => cases ho.2
        | column v => simp only [ho.1, ho.2, Bool.and_self, if_true]
        | branches v => simp only [ho.1, ho.2, Bool.and_self, if_true]
      · rw [Obj.val, hv.1, hv.2]
  refine ⟨(PE.fn c!"log" [.named x, .named b]).withAlias c!"log", rfl, fun S row => ⟨rfl, ?_⟩⟩
  exact (text_of_means (means_alias hm rfl (by decide +kernel)) S row).1

example : Plain '\'' c!"value" = true ∧ Plain '\'' c!"base" = true := by decide +kernel

/-- The query of the documentation's kind. -/
theorem C71_log_query :
    (parse c!"eval x=log(8, 2)").bind (renderPipeline ⟨.disallow, Tests.ext⟩) =
      some c!"spark.table('main').withColumn('x', F.log(F.lit(8), F.lit(2)),)" ∧
    (∀ S row, textEval S row c!"F.log(F.lit(8), F.lit(2))" = some (S.prim .logBase [.num 2, .num 8])) ∧
    (∀ S row, splEval S row (.call c!"log" [.const (.int 8), .const (.int 2)]) = some (S.prim .logBase [.num 8, .num 2])) := by
  have h : readPy c!"F.log(F.lit(8), F.lit(2))" = some (fCall c!"log" [fCall c!"lit" [.num c!"8" []], fCall c!"lit" [.num c!"2" []]]) := by
    decide +kernel
  refine ⟨by decide +kernel, fun S row => ?_, fun S row => rfl⟩
  unfold textEval
  rw [h]
  rfl

/-- Disagreement: `sum` of a row's values is translated to the aggregate over all rows, which has no value on a row. -/
theorem C71_sum_is_an_aggregate :
    (parse c!"eval x=sum(a)").bind (renderPipeline ⟨.disallow, Tests.ext⟩) =
      some c!"spark.table('main').withColumn('x', F.sum(F.col('a')),)" ∧
    (∀ S row, textEval S row c!"F.sum(F.col('a'))" = none) ∧
    (∀ S row, splEval S row (.call c!"sum" [.const (.field c!"a")]) = some (row c!"a")) := by
  have h : readPy c!"F.sum(F.col('a'))" = some (fCall c!"sum" [fCall c!"col" [.str c!"a"]]) := by decide +kernel
  refine ⟨by decide +kernel, fun S row => ?_, fun S row => rfl⟩
  unfold textEval
  rw [h]
  rfl

/-- `tostring` of a field: agrees unless the value is a truth value … -/
theorem C71_tostring_partial (f : Str) (hf : Plain '\'' f = true) :
    ∃ p, exprTr .disallow (.call c!"tostring" [.const (.field f)]) = some p ∧ ∀ S row, (∀ b, row f ≠ .bool b) →
      splEval S row (.call c!"tostring" [.const (.field f)]) = some (S.prim .toText [row f]) ∧
      textEval S row (renderE p) = some (S.prim .toText [row f]) := by
  have hm : Means (.method (.named f) c!"cast" [pyStr c!"string"]) (fun S row => match row f with
      | .bool b => .str (if b then c!"true" else c!"false") | v => S.prim .toText [v]) := by
    obtain ⟨t, ht, et⟩ := means_named hf
    have hi : isIdent c!"cast" = true := by decide +kernel
    refine ⟨.call (.attr t c!"cast") [.str c!"string"], ?_, fun S row => ?_⟩
    · simp only [pyTree] at ht
      simp only [pyTree, ht, hi, isReceiver, Bool.and_self, if_true, pyTrees, pyStr]
      rfl
    · obtain ⟨o, ho, co, vo⟩ := et S row
      refine ⟨_, ?_, (rfl : Obj.isColumn (.column (match o.val with
        | .bool b => .str (if b then c!"true" else c!"false") | v => S.prim .toText [v])) = true), by rw [Obj.val, vo]⟩
      rw [eval_method _ _ ho co]
      simp only [pyEvals, pyEval, Option.bind_some, Option.map_some]
      unfold colMethod
      rw [if_pos co]
      rfl
  refine ⟨(PE.method (.named f) c!"cast" [pyStr c!"string"]).withAlias c!"tostring", rfl, fun S row hb => ⟨?_, ?_⟩⟩
  · show splPrimFn S c!"tostring" [row f] = _
    cases h : row f with
    | bool b => exact absurd h (hb b)
    | _ => rfl
  · rw [show (PE.method (.named f) c!"cast" [pyStr c!"string"]).withAlias c!"tostring" = .aliased (.method (.named f) c!"cast" [pyStr c!"string"]) c!"tostring" from rfl,
      (text_of_means (means_alias hm rfl (by decide +kernel)) S row).1]
    cases h : row f with
    | bool b => exact absurd h (hb b)
    | _ => rfl

/-- … and writes truth values in small letters, where SPL writes `True` and `False`. -/
theorem C71_tostring_truth_values :
    (parse c!"eval x=tostring(isnull(a))").bind (renderPipeline ⟨.disallow, Tests.ext⟩) =
      some c!"spark.table('main').withColumn('x', F.isnull(F.col('a')).cast(\"string\"),)" ∧
    ∀ S row, row c!"a" = .null →
      textEval S row c!"F.isnull(F.col('a')).cast(\"string\")" = some (.str c!"true") ∧
      splEval S row (.call c!"tostring" [.call c!"isnull" [.const (.field c!"a")]]) = some (.str c!"True") := by
  have h : readPy c!"F.isnull(F.col('a')).cast(\"string\")" =
      some (.call (.attr (fCall c!"isnull" [fCall c!"col" [.str c!"a"]]) c!"cast") [.str c!"string"]) := by decide +kernel
  refine ⟨by decide +kernel, fun S row ha => ⟨?_, ?_⟩⟩
  · unfold textEval
    rw [h]
    have hr : row ['a'] = .null := ha
    simp only [Option.bind_some, fCall, pyEval, pyEvals, if_true, Option.map_some]
    show ((fFn S row c!"isnull" [.column (row ['a'])]).bind fun o => (some [Obj.const (.str c!"string")]).bind (colMethod S o c!"cast")).bind _ = _
    rw [hr]
    rfl
  · simp [splEval, splEvals, splFn, splPrimFn, splPrims, constVal, ha, List.lookup]

/-- Disagreement: the second and third argument of `replace` may be fields; the translation takes their names for
the texts. -/
theorem C71_replace_takes_names (a b c : Str) :
    exprTr .disallow (.call c!"replace" [.const (.field a), .const (.field b), .const (.field c)]) =
      exprTr .disallow (.call c!"replace" [.const (.field a), .const (.str b), .const (.str c)]) ∧
    (exprTr .disallow (.call c!"replace" [.const (.field a), .const (.field b), .const (.field c)])).isSome = true :=
  ⟨rfl, rfl⟩

/-- Disagreement: the texts are put between quotes unescaped, so `\b`, a word boundary in the pattern, is a backspace
for Python; `\1`, the first group in the replacement, is not read as itself either. -/
theorem C71_replace_escapes :
    (parse c!"eval x=replace(y, \"\\bfoo\", \"bar\")").bind (renderPipeline ⟨.disallow, Tests.ext⟩) =
      some c!"spark.table('main').withColumn('x', F.regexp_replace(F.col('y'), \"\\bfoo\", \"bar\"),)" ∧
    readPy c!"F.regexp_replace(F.col('y'), \"\\bfoo\", \"bar\")" =
      some (fCall c!"regexp_replace" [fCall c!"col" [.str c!"y"], .str ['\x08', 'f', 'o', 'o'], .str c!"bar"]) ∧
    SelfText c!"\\bfoo" = false ∧ SelfText c!"\\1" = false ∧ SelfText c!"\\d+\\.\\w*" = true := by
  decide +kernel

/-- Disagreement: `split` is documented to split at the delimiter; PySpark's `split` takes a regular expression, in
which `.` and `|` stand for other texts than themselves.  The delimiter is passed on as it is. -/
theorem C71_split_delimiter_is_a_pattern (f d : Str) :
    (exprTr .disallow (.call c!"split" [.const (.field f), .const (.str d)])).map renderE =
      some (c!"F.split(F.col('" ++ f ++ c!"'), \"" ++ d ++ c!"\").alias('split')") ∧
    extractGroup c!"(.)" 1 c!"a.b" = some c!"a" := by
  constructor
  · show some (renderE _) = _
    simp [renderE, renderC, pyStr, renderArgs, joinWith, PE.withAlias, PE.unalias]
  · decide +kernel

/-- Disagreement: `avg` adds all values and divides by their number, so one missing value makes the result missing
(when adding nothing to something gives nothing); `random()` is a fraction below one, documented are whole numbers. -/
theorem C71_avg_and_random :
    (parse c!"eval x=avg(a, b)").bind (renderPipeline ⟨.disallow, Tests.ext⟩) =
      some c!"spark.table('main').withColumn('x', (F.col('a') + F.col('b')) / 2,)" ∧
    (∀ S row, textEval S row c!"(F.col('a') + F.col('b')) / 2" =
      some (S.op .div (S.op .add (row c!"a") (row c!"b")) (.num 2))) ∧
    (parse c!"eval x=random()").bind (renderPipeline ⟨.disallow, Tests.ext⟩) =
      some c!"spark.table('main').withColumn('x', F.rand(),)" := by
  have h : readPy c!"(F.col('a') + F.col('b')) / 2" =
      some (.bin c!"/" (.bin c!"+" (fCall c!"col" [.str c!"a"]) (fCall c!"col" [.str c!"b"])) (.num c!"2" [])) := by decide +kernel
  refine ⟨by decide +kernel, fun S row => ?_, by decide +kernel⟩
  unfold textEval
  rw [h]
  rfl

end Verif.Props
