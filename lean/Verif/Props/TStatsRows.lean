import Verif.Spec.TStats
import Verif.Props.QueryRows
import Verif.Props.Shapes
import Verif.Props.Pipeline
import Verif.Props.Program
/-
C94: the rows of `tstats`.
-/
namespace Verif.Props
open Verif Spl Spec Lemmas

/-- The commands whose program is the one of `tstats` after the table. -/
def tstatsAs (t : TStats) : List Command :=
  (t.cond.map Command.where_).toList ++ [.stats ⟨1, false, c!" "⟩ t.exprs t.by_ false]

/-- The program of `tstats` is the one of the table with the condition and the statistics. -/
theorem tstats_as (x : Ext) (o : TStatsOpts) (ho : tstatsOptsOk o = true) (t : TStats) {dm nn : Option Str} (hm : dataModelTable dm nn = some t.dataset)
    (n : Nat) : transform ⟨.disallow, x⟩ (.tstats o t.exprs dm nn t.cond t.by_ none) ⟨n, none⟩ =
      runCmds ⟨.disallow, x⟩ (tstatsAs t) ⟨n, some (.source t.dataset)⟩ := by
  obtain ⟨es, ds, w, by_⟩ := t
  simp only [transform, dispatch, tstatsStandalone, ho, if_true, dataModelTr, dataModelStandalone, hm, Option.map_some]
  cases w with
  | none =>
    simp only [whereStep, tstatsAs, Option.map_none, Option.toList_none, List.nil_append, runCmds, transform, dispatch, statsStandalone, St.cur, St.put,
      Option.getD_some]
    cases statsLoop .disallow es (.source ds) with
    | none => rfl
    | some y => cases by_ <;> rfl
  | some e =>
    simp only [whereStep, tstatsAs, Option.map_some, Option.toList_some, List.singleton_append]
    simp only [runCmds, transform, dispatch, whereTr]
    cases exprTr .disallow e with
    | none => rfl
    | some p =>
      simp only [Option.map_some, statsStandalone, St.cur, St.put, Option.getD_some]
      cases statsLoop .disallow es ((DF.source ds).mkWhere p) with
      | none => rfl
      | some y => cases by_ <;> rfl

theorem dataset_table {dm nn : Option Str} {d : Str} (h : DatasetOf dm nn d) : dataModelTable dm nn = some d := by
  cases h with
  | model => rfl
  | node hr => exact table_of_node _ _ _ hr

/-- What has to be shown of a query that begins with `tstats`: one text, and on all tables the rows described. -/
def TstatsRows (x : Ext) (colsOf : Str → List Str) (q : List Command) (t : TStats) (cs : List Command) (ordered : Bool) (cols : List Str) (text : Str) : Prop :=
  renderPipeline ⟨.disallow, x⟩ q = some text ∧
    ∀ (S : Sem) (A : Aggs) (O O' : Arrangement) (T T' : Str → Frame), (∀ i, (T i).cols = colsOf i) → (∀ i, SameTable (T i) (T' i)) →
      DefiniteTstats S A O T t cs →
      ∃ F F', splTstats S A O T t cs = some F ∧ textRows S A O' T' text = some F' ∧ F.cols = cols ∧ SameTable F F' ∧
        (ordered = true → F'.rows = F.rows)

/-- **C94** (partial).  A query that begins with `tstats` over a dataset, with a condition, functions and fields in the fragment (`fitsTstats`), and
goes on as in C75: the generated program computes the statistics of the events of the dataset on which the condition holds. -/
theorem C94_rows_partial (x : Ext) (hx : Arranges x) (colsOf : Str → List Str) (o : TStatsOpts)
    (ho : o.prestats = false ∧ o.local = false ∧ o.append = false ∧ o.includeReducedBuckets = false) (t : TStats) {dm nn : Option Str}
    (hm : DatasetOf dm nn t.dataset) (cs : List Command) (ordered : Bool) (cols : List Str)
    (h : fitsTstats colsOf t cs = some (ordered, cols)) :
    ∃ text, TstatsRows x colsOf (.tstats o t.exprs dm nn t.cond t.by_ none :: cs) t cs ordered cols text := by
  have ho : tstatsOptsOk o = true := by simp [tstatsOptsOk, ho]
  have hm := dataset_table hm
  unfold fitsTstats at h
  split at h
  · rename_i hc
    simp only [Bool.and_eq_true] at hc
    obtain ⟨⟨hg, hp⟩, hw⟩ := hc
    have hfit : fitsCmds false (colsOf t.dataset) (tstatsAs t ++ cs) = some (ordered, cols) := by
      unfold tstatsAs
      cases hc : t.cond with
      | none => exact h
      | some e =>
        rw [hc] at hw
        simp only [Option.all_some, Bool.and_eq_true] at hw
        simp only [Option.map_some, Option.toList_some, List.cons_append]
        rw [fitsCmds, fitsCmd, searchFrag_frag .disallow e hw.1, hw.2]
        exact h
    obtain ⟨tr, h1, h2⟩ := cmds_steps x hx _ hg hfit
    have hsrc : progTree (.source t.dataset) = some ⟨[], mCall (.name c!"spark") c!"table" [.str t.dataset]⟩ := by
      simp only [progTree, hp, if_true]
    obtain ⟨s, k1, k2, k3⟩ := h1 ⟨1, some (.source t.dataset)⟩ _ hsrc (.inl rfl)
    refine ⟨s.cur.render.text, ?_, fun S A O O' T T' hc hs hd => ?_⟩
    · rw [runCmds_append] at k1
      simp only [renderPipeline, runCmds, tstats_as x o ho t hm]
      cases hr : runCmds ⟨.disallow, x⟩ (tstatsAs t) ⟨1, some (.source t.dataset)⟩ with
      | none => rw [hr] at k1; cases k1
      | some s1 =>
        rw [hr, Option.bind_some] at k1
        simp only [k1, Option.map_some, k2]
    have hF : frameEval S A O' T' (mCall (.name c!"spark") c!"table" [.str t.dataset]) = some (T' t.dataset) := by
      have : ColsOk (T' t.dataset).cols = true := by rw [(hs _).1, hc]; exact goodCols_ok hg
      simp only [mCall, frameEval, and_self, if_true, okFrame, this]
    have hev : ∃ F, t.events S (T t.dataset) = some F ∧
        ∀ rest, splRun S A O ((t.cond.map Command.where_).toList ++ rest) (T t.dataset) = splRun S A O rest F ∧
          (definiteCmds S A O rest F → definiteCmds S A O ((t.cond.map Command.where_).toList ++ rest) (T t.dataset)) := by
      unfold TStats.events
      cases hcd : t.cond with
      | none => exact ⟨_, rfl, fun rest => ⟨rfl, id⟩⟩
      | some e =>
        rw [hcd] at hw
        simp only [Option.all_some, Bool.and_eq_true] at hw
        let g : Event → Bool := fun r => (splSearch S r e).getD false
        have hgg : ∀ r ∈ (T t.dataset).rows, splSearch S r e = some (g r) ∧
            ((splEval S r e).map fun v => S.truth v == some true) = some (g r) := fun r hr => by
          obtain ⟨b, k1, k2⟩ := splSearch_nots S r e hw.1 (hd.1 e hcd r hr)
          simp only [g, k1, k2, Option.getD_some, Option.map_some, S.truth_ofB, and_self]
        have hcmd : splCmd S A O (T t.dataset) (.where_ e) = some ⟨(T t.dataset).cols, (T t.dataset).rows.filter g⟩ := by
          rw [splCmd, keepIf_filter fun r hr => (hgg r hr).2]
          rfl
        refine ⟨⟨(T t.dataset).cols, (T t.dataset).rows.filter g⟩, by dsimp only; rw [keepIf_filter fun r hr => (hgg r hr).1]; rfl, fun rest => ⟨?_, fun hd => ?_⟩⟩
        · simp only [Option.map_some, Option.toList_some, List.singleton_append, splRun, hcmd, Option.bind_some]
        · simp only [Option.map_some, Option.toList_some, List.singleton_append, definiteCmds]
          refine ⟨trivial, fun F' hF' => ?_⟩
          rw [hcmd] at hF'
          cases hF'
          exact hd
    obtain ⟨F0, e1, e2⟩ := hev
    have hd0 := hd.2 F0 e1
    have e3 := e2 (.stats ⟨1, false, c!" "⟩ t.exprs t.by_ false :: cs)
    obtain ⟨F, F', g1, g2, g3, g4⟩ := h2 S A O O' T' _ (T t.dataset) (T' t.dataset) hF ⟨(hs _).1, (hs _).2, by simp⟩ (hc _)
      (by rw [tstatsAs, List.append_assoc]; exact e3.2 hd0)
    refine ⟨F, F', ?_, ?_, g4, ⟨g3.1, g3.2.1⟩, g3.2.2⟩
    · rw [splTstats, e1, Option.bind_some, ← e3.1]
      rw [tstatsAs, List.append_assoc] at g1
      exact g1
    · rw [textRows, read_prog k3]
      exact g2
  · cases h

/-- **C94** (partial), from the text of the query. -/
theorem C94_text_partial (x : Ext) (hx : Arranges x) (colsOf : Str → List Str) (o : TStatsOpts)
    (ho : o.prestats = false ∧ o.local = false ∧ o.append = false ∧ o.includeReducedBuckets = false) (t : TStats) {dm nn : Option Str}
    (hm : DatasetOf dm nn t.dataset) (cs : List Command) {query : Str} (ht : QueryText (.tstats o t.exprs dm nn t.cond t.by_ none :: cs) query)
    (ordered : Bool) (cols : List Str) (h : fitsTstats colsOf t cs = some (ordered, cols)) :
    ∃ text, (parse query).bind (renderPipeline ⟨.disallow, x⟩) = some text ∧
      TstatsRows x colsOf (.tstats o t.exprs dm nn t.cond t.by_ none :: cs) t cs ordered cols text := by
  obtain ⟨text, h1, h2⟩ := C94_rows_partial x hx colsOf o ho t hm cs ordered cols h
  exact ⟨text, by rw [C69_read_partial ht, Option.bind_some, h1], h1, h2⟩

/-- a query in the fragment; a word on the right of a comparison is a text here -/
example :
    parse c!"tstats count sum(bytes) AS b from datamodel=Web where status=404 method=POST by host | where b>5" =
      some [.tstats ⟨false, false, false, false, false, false, 10000000, none⟩
        [.call c!"count" [], .alias (.call c!"sum" [.const (.field c!"bytes")]) c!"b"] (some c!"Web") none
        (some (.binary (.binary (.const (.field c!"status")) c!"=" (.const (.int 404))) c!"AND"
          (.binary (.const (.field c!"method")) c!"=" (.const (.str c!"POST")))))
        (some [⟨c!"host", none⟩]) none, .where_ (.binary (.const (.field c!"b")) c!">" (.const (.int 5)))] ∧
    fitsTstats (fun _ => [c!"host", c!"status", c!"method", c!"bytes"])
      ⟨[.call c!"count" [], .alias (.call c!"sum" [.const (.field c!"bytes")]) c!"b"], c!"Web",
        some (.binary (.binary (.const (.field c!"status")) c!"=" (.const (.int 404))) c!"AND"
          (.binary (.const (.field c!"method")) c!"=" (.const (.str c!"POST")))), some [⟨c!"host", none⟩]⟩
      [.where_ (.binary (.const (.field c!"b")) c!">" (.const (.int 5)))] = some (false, [c!"host", c!"count", c!"b"]) :=
  ⟨isParse_sound (by decide +kernel), by decide +kernel⟩

/-- a condition with NOT, decided on events that have the field -/
example (A : Aggs) (O : Arrangement) :
    parse c!"tstats count from datamodel=Web where NOT method=POST" =
      some [.tstats ⟨false, false, false, false, false, false, 10000000, none⟩ [.call c!"count" []] (some c!"Web") none
        (some (.unary c!"NOT" (.binary (.const (.field c!"method")) c!"=" (.const (.str c!"POST"))))) none none] ∧
    fitsTstats (fun _ => [c!"method"]) ⟨[.call c!"count" []], c!"Web",
      some (.unary c!"NOT" (.binary (.const (.field c!"method")) c!"=" (.const (.str c!"POST")))), none⟩ [] = some (true, [c!"count"]) ∧
    DefiniteTstats plainSem A O (fun _ => ⟨[c!"method"], [fun _ => .str c!"POST", fun _ => .str c!"GET"]⟩) ⟨[.call c!"count" []], c!"Web",
      some (.unary c!"NOT" (.binary (.const (.field c!"method")) c!"=" (.const (.str c!"POST")))), none⟩ [] := by
  refine ⟨isParse_sound (by decide +kernel), by decide +kernel, ?_, fun F _ => ?_⟩
  · intro e he r hr
    cases he
    simp only [List.mem_cons, List.not_mem_nil, or_false] at hr
    rcases hr with rfl | rfl <;> decide +kernel
  · refine ⟨fun ks h r _ k hk => ?_, fun _ _ => trivial⟩
    cases h
    cases hk

/-! ### what is left out -/

/-- Disagreement: `tstats` without a data model, over the events of an index, is refused. -/
theorem C94_index_fails (x : Ext) (o : TStatsOpts) (es : List Expr) (nn : Option Str) (w : Option Expr) (by_ : Option (List SpField)) (p : Option Str)
    (cs : List Command) : renderPipeline ⟨.disallow, x⟩ (.tstats o es none nn w by_ p :: cs) = none := by
  have : tstatsStandalone .disallow o es none nn w by_ p ⟨1, none⟩ = none := by
    unfold tstatsStandalone
    split
    · simp only [dataModelTr, dispatch, dataModelStandalone, dataModelTable, if_true, Option.map_none]
    · rfl
  simp only [renderPipeline, runCmds, transform, dispatch, this, Option.map_none]

example : parse c!"tstats count where index=web by host" = some [.tstats ⟨false, false, false, false, false, false, 10000000, none⟩
    [.call c!"count" []] none none (some (.binary (.const (.field c!"index")) c!"=" (.const (.str c!"web")))) (some [⟨c!"host", none⟩]) none] :=
  isParse_sound (by decide +kernel)

/-- Disagreement: events that lack the field grouped by are counted as a group, which `tstats` leaves out. -/
theorem C94_null_group (S : Sem) (A : Aggs) (O O' : Arrangement) (T : Str → Frame) (hT : T c!"Web" = ⟨[c!"host"], [fun _ => .null]⟩) :
    outOf .disallow c!"tstats count from datamodel=Web by host" =
      some c!"spark.table('Web').groupBy([\"host\", ]).agg(F.count(F.lit(1)).alias('count'),)" ∧
    (∃ F, splTstats S A O T ⟨[.call c!"count" []], c!"Web", none, some [⟨c!"host", none⟩]⟩ [] = some F ∧ F.rows = []) ∧
    ∃ F', textRows S A O' T c!"spark.table('Web').groupBy([\"host\", ]).agg(F.count(F.lit(1)).alias('count'),)" = some F' ∧ F'.rows.length = 1 := by
  refine ⟨by decide +kernel, ?_, ?_⟩
  · refine ⟨⟨[c!"host", c!"count"], O.of []⟩, ?_, List.perm_nil.1 (O.perm [])⟩
    simp only [splTstats, TStats.events, Option.bind_some, splRun, splCmd, hT]
    rfl
  · rw [textRows_of (e := mCall (mCall (mCall (.name c!"spark") c!"table" [.str c!"Web"]) c!"groupBy" [.list [.str c!"host"]]) c!"agg"
      [.call (.attr (fCall c!"count" [fCall c!"lit" [.num c!"1" []]]) c!"alias") [.str c!"count"]]) (by decide +kernel)]
    rw [frameEval_agg (F := ⟨[c!"host"], [fun _ => .null]⟩) _ _ (by
      simp only [mCall, frameEval, and_self, if_true, hT, okFrame]; rfl)]
    refine ⟨⟨[c!"host", c!"count"], O'.of [rowOf [(c!"host", .null), (c!"count", .num 1)]]⟩, rfl, ?_⟩
    exact (O'.perm _).length_eq

/-- Disagreements: bounds on the time are read as fields, and terms, further conditions after a node and times relative to now are not read. -/
theorem C94_conditions_fail :
    outOf .disallow c!"tstats count from datamodel=Web where earliest=5" =
      some c!"spark.table('Web').where((F.col('earliest') == F.lit(5)),).groupBy([]).agg(F.count(F.lit(1)).alias('count'),)" ∧
    ∀ q ∈ [c!"tstats count from datamodel=Web where error", c!"tstats count from datamodel=Web where nodename=Web.Proxy status=404",
      c!"tstats count from datamodel=Web where earliest=-5d"], outOf .disallow q = none := by
  decide +kernel

end Verif.Props
