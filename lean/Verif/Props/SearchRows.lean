import Verif.Lemmas.SearchFrag
import Verif.Props.Query
import Verif.Props.Meaning
import Verif.Props.Convert
/-
C74: the filter of a search keeps the events the search describes.
-/
namespace Verif.Props
open Verif Spl Spec Lemmas

/-- What is generated for a search without an index. -/
theorem search_text {neg : Bool} (x : Ext) (hx : Arranges x) (e : Expr) (h : SearchFrag neg e = true) :
    ∃ cond, renderPipeline ⟨.disallow, x⟩ [.search e] = some (c!"spark.table('main').where(" ++ cond ++ c!",)") ∧
      ∀ S row v, splEval S row e = some v → textEval S row cond = some v := by
  obtain ⟨p, f, hp, ⟨⟨hm, _⟩, _, hs⟩⟩ := frag_means .disallow e (searchFrag_frag .disallow e h)
  have hf := searchFrag_fixed .disallow e h p hp
  have ho : x.order [] = [] := List.perm_nil.1 (hx [])
  refine ⟨renderE p, ?_, fun S row v hv => ?_⟩
  · simp only [renderPipeline, runCmds, transform, dispatch, searchStandalone, split_searchFrag e h true, hp, Option.map_some,
      dedupStr, ho, unionSources, Option.getD_none, DF.mkWhere, fixed_search hf]
    rfl
  · rw [(text_of_means hm S row).1, ← hs, hv]

/-- **C74** (partial).  A search that compares fields with numbers, quoted texts, patterns and lists, combined with AND and
OR: the generated filter keeps a row exactly when the search condition is true of it.
Missing: unquoted words (`C74_word_is_a_column`), NOT on rows that lack a field (`C74_not_drops_rows`), bare terms (C27). -/
theorem C74_search_partial (x : Ext) (hx : Arranges x) (e : Expr) (h : SearchFrag false e = true) :
    ∃ cond, renderPipeline ⟨.disallow, x⟩ [.search e] = some (c!"spark.table('main').where(" ++ cond ++ c!",)") ∧
      ∀ S row, ∃ v keep, textEval S row cond = some v ∧ splSearch S row e = some keep ∧ (S.truth v = some true ↔ keep = true) := by
  obtain ⟨cond, h1, h2⟩ := search_text x hx e h
  refine ⟨cond, h1, fun S row => ?_⟩
  obtain ⟨b, h3, h4⟩ := splSearch_eval S row e h
  refine ⟨_, _, h2 S row _ h3, h4, ?_⟩
  rw [S.truth_ofB]
  simp

/-- **C74** (partial), with NOT: on rows on which every comparison is decided. -/
theorem C74_search_not_partial (x : Ext) (hx : Arranges x) (e : Expr) (h : SearchFrag true e = true) :
    ∃ cond, renderPipeline ⟨.disallow, x⟩ [.search e] = some (c!"spark.table('main').where(" ++ cond ++ c!",)") ∧
      ∀ S row, Decided S row e = true → ∃ v keep, textEval S row cond = some v ∧ splSearch S row e = some keep ∧ S.truth v = some keep := by
  obtain ⟨cond, h1, h2⟩ := search_text x hx e h
  refine ⟨cond, h1, fun S row hd => ?_⟩
  obtain ⟨b, h3, h4⟩ := splSearch_decided S row e h hd
  exact ⟨_, _, h2 S row _ h3, h4, S.truth_ofB _⟩

/-- **C74** (partial), with NOT: it is enough that the comparisons under NOT are decided. -/
theorem C74_search_nots_partial (x : Ext) (hx : Arranges x) (e : Expr) (h : SearchFrag true e = true) :
    ∃ cond, renderPipeline ⟨.disallow, x⟩ [.search e] = some (c!"spark.table('main').where(" ++ cond ++ c!",)") ∧
      ∀ S row, NotsDecided S row e = true →
        ∃ v keep, textEval S row cond = some v ∧ splSearch S row e = some keep ∧ (S.truth v = some true ↔ keep = true) := by
  obtain ⟨cond, h1, h2⟩ := search_text x hx e h
  refine ⟨cond, h1, fun S row hd => ?_⟩
  obtain ⟨b, h3, h4⟩ := splSearch_nots S row e h hd
  refine ⟨_, _, h2 S row _ h3, h4, ?_⟩
  rw [S.truth_ofB]
  simp

/-- **C74** (partial), from the text of the query. -/
theorem C74_query_partial (x : Ext) (hx : Arranges x) {q : Str} {e : Expr} (hq : QueryText [.search e] q) (h : SearchFrag false e = true) :
    ∃ cond, (parse q).bind (renderPipeline ⟨.disallow, x⟩) = some (c!"spark.table('main').where(" ++ cond ++ c!",)") ∧
      ∀ S row, ∃ v keep, textEval S row cond = some v ∧ splSearch S row e = some keep ∧ (S.truth v = some true ↔ keep = true) := by
  obtain ⟨cond, h1, h2⟩ := C74_search_partial x hx e h
  exact ⟨cond, by rw [C69_read_partial hq, Option.bind_some, h1], h2⟩

/-- `status>=400 (method="GET" OR path="/a*") code IN (1, x)` -/
def exampleCondition : Expr :=
  .binary (.binary (.binary (.const (.field c!"status")) c!">=" (.const (.int 400))) c!"AND"
    (.binary (.binary (.const (.field c!"method")) c!"=" (.const (.str c!"GET"))) c!"OR"
      (.binary (.const (.field c!"path")) c!"=" (.const (.wildcard c!"/a*"))))) c!"AND"
    (.fieldIn c!"code" [.const (.int 1), .const (.field c!"x")])

example : SearchFrag false exampleCondition = true ∧ SearchFrag true (.unary c!"NOT" exampleCondition) = true ∧
    parse c!"search status>=400 (method=\"GET\" OR path=\"/a*\") code IN (1, x)" = some [.search exampleCondition] :=
  ⟨by decide +kernel, by decide +kernel, isParse_sound (by decide +kernel)⟩

/-- a row on which the comparisons are decided, and what NOT says about it -/
example : Decided plainSem (fun _ => .str c!"GET") (.unary c!"NOT" (.binary (.const (.field c!"method")) c!"=" (.const (.str c!"GET")))) = true ∧
    splSearch plainSem (fun _ => .str c!"GET") (.unary c!"NOT" (.binary (.const (.field c!"method")) c!"=" (.const (.str c!"GET")))) = some false := by
  decide +kernel

/-- `path="/a" NOT method="GET"` on a row that has a method and no path: the comparison under NOT is decided, the other is not -/
example : parse c!"search path=\"/a\" NOT method=\"GET\"" = some [.search (.binary (.binary (.const (.field c!"path")) c!"=" (.const (.str c!"/a"))) c!"AND"
      (.unary c!"NOT" (.binary (.const (.field c!"method")) c!"=" (.const (.str c!"GET")))))] ∧
    SearchFrag true (.binary (.binary (.const (.field c!"path")) c!"=" (.const (.str c!"/a"))) c!"AND"
      (.unary c!"NOT" (.binary (.const (.field c!"method")) c!"=" (.const (.str c!"GET"))))) = true ∧
    NotsDecided plainSem (fun f => if f = c!"path" then .null else .str c!"POST") (.binary (.binary (.const (.field c!"path")) c!"=" (.const (.str c!"/a"))) c!"AND"
      (.unary c!"NOT" (.binary (.const (.field c!"method")) c!"=" (.const (.str c!"GET"))))) = true ∧
    Decided plainSem (fun f => if f = c!"path" then .null else .str c!"POST") (.binary (.binary (.const (.field c!"path")) c!"=" (.const (.str c!"/a"))) c!"AND"
      (.unary c!"NOT" (.binary (.const (.field c!"method")) c!"=" (.const (.str c!"GET"))))) = false :=
  ⟨isParse_sound (by decide +kernel), by decide +kernel, by decide +kernel, by decide +kernel⟩

/-- Disagreement, for all names: an unquoted word on the right of a comparison is taken for the name of another field.
`search method=GET` compares the fields `method` and `GET`, and keeps events that have no field `GET` and a
different method under no circumstances, and none with method GET either. -/
theorem C74_word_is_a_column (x : Ext) (hx : Arranges x) (f w : Str) (hf' : searchField f = true) (hw : w ≠ c!"index") (pf : Plain '\'' f = true)
    (pw : Plain '\'' w = true) :
    ∃ cond, renderPipeline ⟨.disallow, x⟩ [.search (.binary (.const (.field f)) c!"=" (.const (.field w)))] =
        some (c!"spark.table('main').where(" ++ cond ++ c!",)") ∧
      ∀ S row, textEval S row cond = some (ofB (S.cmp .eq (row f) (row w))) ∧
        splSearch S row (.binary (.const (.field f)) c!"=" (.const (.field w))) = some (S.cmp .eq (row f) (.str w) == some true) := by
  obtain ⟨hf, hb⟩ := searchField_ne hf'
  have he : Frag .disallow (.binary (.const (.field f)) c!"=" (.const (.field w))) = true := by
    simp [Frag, FragConst, pf, pw, FragOp]
  obtain ⟨p, g, hp, ⟨⟨hm, _⟩, _, hs⟩⟩ := frag_means .disallow _ he
  have hp' : p = .bin c!"==" (.named f) (.named w) := by
    have : exprTr .disallow (.binary (.const (.field f)) c!"=" (.const (.field w))) = some (.bin c!"==" (.named f) (.named w)) := rfl
    rw [this] at hp
    exact (Option.some.inj hp).symm
  have ho : x.order [] = [] := List.perm_nil.1 (hx [])
  refine ⟨renderE p, ?_, fun S row => ⟨?_, ?_⟩⟩
  · have hsp : splitConditions true (.binary (.const (.field f)) c!"=" (.const (.field w))) =
        some (some (.binary (.const (.field f)) c!"=" (.const (.field w))), []) := by
      simp [splitConditions, isIndex, hf, hw, recombine]
    simp only [renderPipeline, runCmds, transform, dispatch, searchStandalone, hsp, hp, Option.map_some,
      dedupStr, ho, unionSources, Option.getD_none, DF.mkWhere]
    rw [hp']
    rfl
  · rw [(text_of_means hm S row).1, ← hs]
    rfl
  · simp only [splSearch, if_neg hb, show splOp c!"=" = some .eq by decide, Option.bind_some, Option.map_some]
    rfl

/-- The query, and an event it describes but the program drops. -/
theorem C74_word_query :
    parse c!"search method=GET" = some [.search (.binary (.const (.field c!"method")) c!"=" (.const (.field c!"GET")))] ∧
    renderPipeline ⟨.disallow, Tests.ext⟩ [.search (.binary (.const (.field c!"method")) c!"=" (.const (.field c!"GET")))] =
      some c!"spark.table('main').where((F.col('method') == F.col('GET')),)" ∧
    splSearch plainSem (fun n => if n = c!"method" then .str c!"GET" else .null)
      (.binary (.const (.field c!"method")) c!"=" (.const (.field c!"GET"))) = some true ∧
    textEval plainSem (fun n => if n = c!"method" then .str c!"GET" else .null) c!"(F.col('method') == F.col('GET'))" = some .null :=
  ⟨isParse_sound (by decide +kernel), by decide +kernel, by decide +kernel, by decide +kernel⟩

/-- Disagreement, for all fields: `NOT` in a search keeps the events that lack the field; the generated filter drops them,
whenever a comparison with a missing value is unknown. -/
theorem C74_not_drops_rows (x : Ext) (hx : Arranges x) (f : Str) (hf : searchField f = true) (pf : Plain '\'' f = true) (n : Int) :
    ∃ cond, renderPipeline ⟨.disallow, x⟩ [.search (.unary c!"NOT" (.binary (.const (.field f)) c!"=" (.const (.int n))))] =
        some (c!"spark.table('main').where(" ++ cond ++ c!",)") ∧
      ∀ S row, S.cmp .eq (row f) (.num n) = none → textEval S row cond = some .null ∧
        splSearch S row (.unary c!"NOT" (.binary (.const (.field f)) c!"=" (.const (.int n)))) = some true := by
  have he : SearchFrag true (.unary c!"NOT" (.binary (.const (.field f)) c!"=" (.const (.int n)))) = true := by
    simp [SearchFrag, hf, pf, searchOps, SearchValue, FragConst]
  obtain ⟨cond, h1, h2⟩ := search_text x hx _ he
  refine ⟨cond, h1, fun S row hr => ⟨h2 S row _ ?_, ?_⟩⟩
  · have h : lower c!"NOT" = c!"not" := by decide
    have ho : splOp c!"=" = some .eq := by decide
    simp only [splEval, h, if_true, ho, constVal, Option.bind_some, Option.map_some, Sem.op, hr, Sem.neg, S.truth_ofB]
    rfl
  · have h : lower c!"NOT" = c!"not" := by decide
    have ho : splOp c!"=" = some .eq := by decide
    simp only [splSearch, if_neg (searchField_ne hf).2, h, if_true, ho, constVal, Option.bind_some, Option.map_some, hr]
    rfl

/-- A query, with an operation on values for which comparisons with nothing are unknown. -/
theorem C74_not_query :
    parse c!"search NOT status=200" = some [.search (.unary c!"NOT" (.binary (.const (.field c!"status")) c!"=" (.const (.int 200))))] ∧
    renderPipeline ⟨.disallow, Tests.ext⟩ [.search (.unary c!"NOT" (.binary (.const (.field c!"status")) c!"=" (.const (.int 200))))] =
      some c!"spark.table('main').where(~(F.col('status') == F.lit(200)),)" ∧
    plainSem.cmp .eq .null (.num 200) = none :=
  ⟨isParse_sound (by decide +kernel), by decide +kernel, by decide +kernel⟩

/-- Disagreement: a search compares texts without regard to letter case (SPL reference, search command); the generated
filter compares them as they are.  `splSearch` leaves letter case to the comparison both sides share, so the theorems
above say nothing about it. -/
theorem C74_letter_case :
    parse c!"search method=\"get\"" = some [.search (.binary (.const (.field c!"method")) c!"=" (.const (.str c!"get")))] ∧
    renderPipeline ⟨.disallow, Tests.ext⟩ [.search (.binary (.const (.field c!"method")) c!"=" (.const (.str c!"get")))] =
      some c!"spark.table('main').where((F.col('method') == F.lit('get')),)" ∧
    textEval plainSem (fun _ => .str c!"GET") c!"(F.col('method') == F.lit('get'))" = some (.bool false) :=
  ⟨isParse_sound (by decide +kernel), by decide +kernel, by decide +kernel⟩

end Verif.Props
