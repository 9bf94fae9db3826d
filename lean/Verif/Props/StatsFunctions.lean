import Verif.Lemmas.Statistics
import Verif.Props.QueryRows
import Verif.Rt.Library
/-
C76: the functions of `stats` compute the statistic they are documented to compute.
-/
namespace Verif.Props
open Verif Verif.Spec Verif.Lemmas Verif.Rt

/-- functions whose statistic is computed, whatever order the rows come in -/
def exactStats : List Str :=
  [ c!"avg", c!"mean", c!"count", c!"dc", c!"distinct_count", c!"max", c!"min", c!"stdev", c!"stdevp", c!"sum", c!"sumsq", c!"var", c!"varp" ]

/-- `f(x) AS n` -/
def fieldStat (f x n : Str) : Expr := .alias (.call f [.const (.field x)]) n

/-- The sample variance of a single number is not defined. -/
def StatDefined (f : Str) (l : List Rat) : Prop := f = c!"stdev" ∨ f = c!"var" → l.length ≠ 1

/-- An expression computes the statistic of a field, in whatever order the rows come. -/
def IsStat (f x : Str) (t : PyE) : Prop :=
  ∀ (S : Sem) (root : Rat → Rat), Exact S → ∀ (rows rows' : List Event) (l : List Rat), rows'.Perm rows →
    asNumbers (fieldValues x rows) = some l → StatDefined f l →
    ∃ g, (splStats root).lookup f = some g ∧ sparkStat S root rows' t = some (.one (g l))

/-- what an aggregate becomes -/
def StatSteps (f x n : Str) : Prop :=
  ∃ p t, (∀ d, statsExpr .disallow d (fieldStat f x n) = some (d, p)) ∧ pyTree p = some t ∧ aliasOf t = some n ∧ IsStat f x t

theorem colRef_values (S : Sem) (rows : List Event) (x : Str) :
    each (colValue S (fCall c!"col" [.str x])) rows = some (rows.map fun r => r x) := agg_value S rows

theorem stat_alias (S : Sem) (root : Rat → Rat) (rows : List Event) (f : Str) (c : PyE) (rest : List PyE) (n : Str) :
    sparkStat S root rows (.call (.attr (fCall f (c :: rest)) c!"alias") [.str n]) = sparkStat S root rows (fCall f (c :: rest)) := by
  rfl

theorem stat_fn (S : Sem) (root : Rat → Rat) (rows : List Event) (f : Str) (c : PyE) (rest : List PyE) (h : hasAggregateL (c :: rest) = false) :
    sparkStat S root rows (fCall f (c :: rest)) = (each (colValue S c) rows).bind fun vs => sparkAggFn root f vs rest := by
  show (if _ then _ else _) = _
  rw [if_pos ⟨rfl, h⟩]

theorem stat_col (S : Sem) (root : Rat → Rat) (rows : List Event) (f x : Str) :
    sparkStat S root rows (fCall f [fCall c!"col" [.str x]]) = sparkAggFn root f (rows.map fun r => r x) [] := by
  rw [stat_fn S root rows f _ _ rfl, colRef_values, Option.bind_some]

/-- What a statistic of the Spark table gives on the rows in any order. -/
theorem stat_table {f : Str} {root : Rat → Rat} {g : List Rat → Val} (hg : (sparkStats root).lookup f = some g) {vs vs' : List Val} {l : List Rat}
    (hp : vs'.Perm vs) (hn : asNumbers (present vs) = some l) : sparkAggFn root f vs' [] = some (.one (g l)) := by
  obtain ⟨l', h1, h2⟩ := asNumbers_perm (hp.filter _) hn
  unfold present at *
  simp only [sparkAggFn, hg, present, h1, Option.map_some, sparkStats_perm root hg h2]

theorem sample_eq {l : List Rat} (h : l.length ≠ 1) (q : List Rat → Rat) : ofSome q l = if l.length < 2 then .null else .num (q l) := by
  cases l with
  | nil => rfl
  | cons a l =>
    cases l with
    | nil => exact absurd rfl h
    | cons => rfl

/-- the squares of a field -/
theorem squares {S : Sem} (hS : Exact S) (x : Str) : ∀ {rows : List Event} {l : List Rat}, asNumbers (fieldValues x rows) = some l →
    present (rows.map fun r => S.arith .mul (r x) (r x)) = (l.map fun q => q * q).map .num
  | [], l, h => by
    rw [asNumbers_iff] at h
    cases l with
    | nil => rfl
    | cons => cases h
  | r :: rows, l, h => by
    rw [asNumbers_iff] at h
    by_cases hr : r x = .null
    · have : fieldValues x (r :: rows) = fieldValues x rows := by simp [fieldValues, present, hr]
      rw [this] at h
      rw [List.map_cons, hr, hS.mul_null]
      have ih := squares hS x (rows := rows) ((asNumbers_iff _ _).2 h)
      simpa [present] using ih
    · have : fieldValues x (r :: rows) = r x :: fieldValues x rows := by simp [fieldValues, present, hr]
      rw [this] at h
      cases l with
      | nil => cases h
      | cons q l =>
        simp only [List.map_cons, List.cons.injEq] at h
        have ih := squares hS x (rows := rows) ((asNumbers_iff _ _).2 h.2)
        rw [List.map_cons, h.1, hS.mul]
        have h2 : ∀ (v : Rat) (vs : List Val), present (.num v :: vs) = .num v :: present vs := fun v vs => by simp [present]
        rw [h2, ih]
        rfl

theorem stat_simple {f x n : Str} (f' : Str) (hx : Plain '\'' x = true) (hn : Plain '\'' n = true)
    (h1 : ∀ d, statsExpr .disallow d (fieldStat f x n) = some (d, .aliased (.fn f' [.named x]) n))
    (h2 : funcTree f' = some (.attr (.name c!"F") f'))
    (h3 : ∀ (root : Rat → Rat) (rows rows' : List Event) (l : List Rat), rows'.Perm rows → asNumbers (fieldValues x rows) = some l →
      StatDefined f l → ∃ g, (splStats root).lookup f = some g ∧ sparkAggFn root f' (rows'.map fun r => r x) [] = some (.one (g l))) :
    StatSteps f x n := by
  refine ⟨.aliased (.fn f' [.named x]) n, .call (.attr (fCall f' [fCall c!"col" [.str x]]) c!"alias") [.str n], h1, ?_, rfl, ?_⟩
  · simp only [pyTree, hn, isReceiver, Bool.and_self, if_true, pyTrees, hx, h2]
    rfl
  · intro S root _ rows rows' l hp hl hv
    rw [stat_alias, stat_col]
    exact h3 root rows rows' l hp hl hv

theorem stat_lookup {f x n : Str} (f' : Str) (g g' : (Rat → Rat) → List Rat → Val) (hx : Plain '\'' x = true) (hn : Plain '\'' n = true)
    (h1 : ∀ d, statsExpr .disallow d (fieldStat f x n) = some (d, .aliased (.fn f' [.named x]) n))
    (h2 : funcTree f' = some (.attr (.name c!"F") f'))
    (h3 : ∀ root, (sparkStats root).lookup f' = some (g root)) (h4 : ∀ root, (splStats root).lookup f = some (g' root))
    (h5 : ∀ root l, StatDefined f l → g' root l = g root l) : StatSteps f x n :=
  stat_simple f' hx hn h1 h2 fun root rows rows' l hp hl hv =>
    ⟨g' root, h4 root, by rw [stat_table (h3 root) (hp.map fun r : Event => r x) hl, h5 root l hv]⟩

/-- One aggregate. -/
theorem exact_stat {f x n : Str} (hf : f ∈ exactStats) (hx : Plain '\'' x = true) (hn : Plain '\'' n = true) : StatSteps f x n := by
  simp only [exactStats, List.mem_cons, List.not_mem_nil, or_false] at hf
  rcases hf with rfl | rfl | rfl | rfl | rfl | rfl | rfl | rfl | rfl | rfl | rfl | rfl | rfl
  · exact stat_lookup c!"avg" _ _ hx hn (fun d => rfl) rfl (fun _ => rfl) (fun _ => rfl) fun _ _ _ => rfl
  · exact stat_lookup c!"avg" _ _ hx hn (fun d => rfl) rfl (fun _ => rfl) (fun _ => rfl) fun _ _ _ => rfl
  · refine stat_simple c!"count" hx hn (fun d => rfl) rfl fun root rows rows' l hp hl _ => ⟨_, rfl, ?_⟩
    have h1 : (present (rows'.map fun r => r x)).length = l.length := by
      have h2 := (fieldValues_perm x hp).length_eq
      rw [(asNumbers_iff _ _).1 hl, List.length_map] at h2
      exact h2
    show some (Outcome.one (.num (present (rows'.map fun r => r x)).length)) = _
    rw [h1]
  · exact stat_lookup c!"count_distinct" _ _ hx hn (fun d => rfl) rfl (fun _ => rfl) (fun _ => rfl) fun _ _ _ => rfl
  · exact stat_lookup c!"count_distinct" _ _ hx hn (fun d => rfl) rfl (fun _ => rfl) (fun _ => rfl) fun _ _ _ => rfl
  · exact stat_lookup c!"max" _ _ hx hn (fun d => rfl) rfl (fun _ => rfl) (fun _ => rfl) fun _ _ _ => rfl
  · exact stat_lookup c!"min" _ _ hx hn (fun d => rfl) rfl (fun _ => rfl) (fun _ => rfl) fun _ _ _ => rfl
  · refine stat_lookup c!"stddev_samp" _ _ hx hn (fun d => rfl) rfl (fun _ => rfl) (fun _ => rfl) fun root l h => ?_
    exact sample_eq (h (by simp)) _
  · exact stat_lookup c!"stddev_pop" _ _ hx hn (fun d => rfl) rfl (fun _ => rfl) (fun _ => rfl) fun _ _ _ => rfl
  · exact stat_lookup c!"sum" _ _ hx hn (fun d => rfl) rfl (fun _ => rfl) (fun _ => rfl) fun _ _ _ => rfl
  · refine ⟨.aliased (.fn c!"sum" [PE.mkBin (.named x) c!"*" (.named x)]) n,
      .call (.attr (fCall c!"sum" [.bin c!"*" (fCall c!"col" [.str x]) (fCall c!"col" [.str x])]) c!"alias") [.str n], fun d => rfl, ?_, rfl,
      fun S root hS rows rows' l hp hl _ => ?_⟩
    · simp only [pyTree, hn, isReceiver, Bool.and_self, if_true, pyTrees, PE.mkBin, PE.unalias, hx]
      rfl
    · rw [stat_alias, stat_fn S root rows' _ _ _ rfl]
      have he : each (colValue S (.bin c!"*" (fCall c!"col" [.str x]) (fCall c!"col" [.str x]))) rows' =
          some (rows'.map fun r => S.arith .mul (r x) (r x)) := each_map fun r _ => rfl
      rw [he, Option.bind_some]
      have h0 : asNumbers (present (rows.map fun r => S.arith .mul (r x) (r x))) = some (l.map fun q => q * q) :=
        (asNumbers_iff _ _).2 (squares hS x hl)
      refine ⟨_, rfl, ?_⟩
      rw [stat_table (root := root) (f := c!"sum") rfl (hp.map fun r : Event => S.arith .mul (r x) (r x)) h0]
      show some (Outcome.one (ofSome total (l.map _))) = some (Outcome.one (ofSome _ l))
      cases l <;> rfl
  · refine stat_lookup c!"var_samp" _ _ hx hn (fun d => rfl) rfl (fun _ => rfl) (fun _ => rfl) fun root l h => ?_
    exact sample_eq (h (by simp)) _
  · exact stat_lookup c!"var_pop" _ _ hx hn (fun d => rfl) rfl (fun _ => rfl) (fun _ => rfl) fun _ _ _ => rfl

/-! ### whole queries -/

theorem stats_loop {es : List (Str × Str × Str)} : ∀ (_ : ∀ e ∈ es, StatSteps e.1 e.2.1 e.2.2),
    ∃ ps ts, (∀ d, statsLoop .disallow (es.map fun e => fieldStat e.1 e.2.1 e.2.2) d = some (d, ps)) ∧ pyTrees ps = some ts ∧
      ps.length = es.length ∧ ts.length = es.length ∧ ∀ a ∈ es.zip ts, aliasOf a.2 = some a.1.2.2 ∧ IsStat a.1.1 a.1.2.1 a.2 := by
  induction es with
  | nil => exact fun _ => ⟨[], [], fun d => rfl, rfl, rfl, rfl, fun a h => by cases h⟩
  | cons e es ih =>
    intro h
    obtain ⟨p, t, h1, h2, h3, h4⟩ := h e (by simp)
    obtain ⟨ps, ts, i1, i2, i3, i4, i5⟩ := ih fun e' he => h e' (List.mem_cons_of_mem _ he)
    exact ⟨p :: ps, t :: ts, fun d => by simp only [List.map_cons, statsLoop, h1 d, i1 d], by simp only [pyTrees, h2, i2], by simp [i3],
      by simp [i4], fun a ha => by
        simp only [List.zip_cons_cons, List.mem_cons] at ha
        rcases ha with rfl | ha
        · exact ⟨h3, h4⟩
        · exact i5 a ha⟩

/-- The program of a `stats` command whose aggregates do not sort. -/
theorem stats_program (x : Ext) (so : StatsOpts) (es : List Expr) (by_ : Option (List SpField)) (dd : Bool) {ks : List Str} {ps : List PE} {ts : List PyE}
    (hb : byNames by_ = some ks) (hk : ∀ k ∈ ks, Plain '"' k = true) (hl : ∀ d, statsLoop .disallow es d = some (d, ps))
    (ht : pyTrees ps = some ts) (hne : ps ≠ []) :
    ∃ text, renderPipeline ⟨.disallow, x⟩ [.stats so es by_ dd] = some text ∧
      aggregatesOf text = some (mCall (.name c!"spark") c!"table" [.str c!"main"], ts) := by
  have hct : cnTrees ((by_.getD []).map byField) = some (ks.map .str) := by
    cases by_ with
    | none => simp only [byNames, Option.some.injEq] at hb; subst hb; rfl
    | some fs =>
      simp only [byNames] at hb
      split at hb
      · rename_i hs
        simp only [Option.some.injEq] at hb
        subst hb
        exact by_tree hs hk
      · cases hb
  have hps : ps.isEmpty = false := by
    cases ps with
    | nil => exact absurd rfl hne
    | cons => rfl
  have hp : progTree (.agg (.groupBy (.source c!"main") ((by_.getD []).map byField)) ps) =
      some ⟨[], mCall (mCall (mCall (.name c!"spark") c!"table" [.str c!"main"]) c!"groupBy" [.list (ks.map .str)]) c!"agg" ts⟩ := by
    simp only [progTree, show Plain '\'' c!"main" = true by decide +kernel, if_true, onResult, hct, Option.map_some, colTrees, hps, ht]
    rfl
  refine ⟨(DF.agg (.groupBy (.source c!"main") ((by_.getD []).map byField)) ps).render.text, ?_, ?_⟩
  · simp only [renderPipeline, runCmds, transform, dispatch, statsStandalone, hl, Option.map_some]
    rfl
  · simp only [aggregatesOf, read_prog hp]
    rfl

/-- **C76** (partial): every aggregate of a `stats` command computes the documented statistic of its field on every group of
rows, in whatever order Spark has them: average, number, number of different values, maximum, minimum, sum, sum of squares,
variance and standard deviation. -/
theorem C76_stats_partial (x : Ext) (so : StatsOpts) (es : List (Str × Str × Str)) (by_ : Option (List SpField)) (dd : Bool) (ks : List Str)
    (hb : byNames by_ = some ks) (hk : ∀ k ∈ ks, Plain '"' k = true) (hne : es ≠ [])
    (he : ∀ e ∈ es, e.1 ∈ exactStats ∧ Plain '\'' e.2.1 = true ∧ Plain '\'' e.2.2 = true) :
    ∃ text ts, renderPipeline ⟨.disallow, x⟩ [.stats so (es.map fun e => fieldStat e.1 e.2.1 e.2.2) by_ dd] = some text ∧
      aggregatesOf text = some (mCall (.name c!"spark") c!"table" [.str c!"main"], ts) ∧
      ts.length = es.length ∧ ∀ a ∈ es.zip ts, aliasOf a.2 = some a.1.2.2 ∧ IsStat a.1.1 a.1.2.1 a.2 := by
  obtain ⟨ps, ts, i1, i2, i3, i4⟩ := stats_loop fun e h => exact_stat (he e h).1 (he e h).2.1 (he e h).2.2
  obtain ⟨text, h1, h2⟩ := stats_program x so _ by_ dd hb hk i1 i2 (by
    rintro rfl
    cases es with
    | nil => exact hne rfl
    | cons => simp at i3)
  exact ⟨text, ts, h1, h2, i4⟩

/-- the example of a query with two groups of rows and three aggregates -/
example : parse c!"stats avg(bytes) AS mean, stdev(bytes) AS spread, sumsq(bytes) AS squares BY host" =
      some [.stats ⟨1, false, c!" "⟩ ([(c!"avg", c!"bytes", c!"mean"), (c!"stdev", c!"bytes", c!"spread"), (c!"sumsq", c!"bytes", c!"squares")].map
        fun e => fieldStat e.1 e.2.1 e.2.2) (some [⟨c!"host", none⟩]) false] ∧
    byNames (some [⟨c!"host", none⟩]) = some [c!"host"] ∧
    asNumbers (fieldValues c!"bytes" [fun _ => .num 1, fun _ => .null, fun _ => .num 3]) = some [1, 3] ∧ StatDefined c!"stdev" [1, 3] ∧
    ((splStats id).lookup c!"sumsq").map (fun g => g [1, 3]) = some (.num 10) ∧
    ((splStats id).lookup c!"var").map (fun g => g [1, 3]) = some (.num 2) :=
  ⟨isParse_sound (by decide +kernel), rfl, by decide +kernel, fun _ => by decide, by decide +kernel, by decide +kernel⟩

/-- The program of one aggregate. -/
theorem one_program (x : Ext) (so : StatsOpts) (e : Expr) (by_ : Option (List SpField)) (dd : Bool) {ks : List Str} {p : PE} {t : PyE}
    (hb : byNames by_ = some ks) (hk : ∀ k ∈ ks, Plain '"' k = true) (hl : ∀ d, statsExpr .disallow d e = some (d, p))
    (ht : pyTree p = some t) :
    ∃ text, renderPipeline ⟨.disallow, x⟩ [.stats so [e] by_ dd] = some text ∧
      aggregatesOf text = some (mCall (.name c!"spark") c!"table" [.str c!"main"], [t]) :=
  stats_program x so [e] by_ dd (ps := [p]) hb hk (fun d => by simp only [statsLoop, hl d]) (by simp only [pyTrees, ht]) (by simp)

/-- The single aggregate of a query `stats f(x) AS n BY …` and what it computes. -/
def OneStat (x : Ext) (so : StatsOpts) (e : Expr) (by_ : Option (List SpField)) (dd : Bool) (claim : PyE → Prop) : Prop :=
  ∃ text t, renderPipeline ⟨.disallow, x⟩ [.stats so [e] by_ dd] = some text ∧
    aggregatesOf text = some (mCall (.name c!"spark") c!"table" [.str c!"main"], [t]) ∧ claim t

theorem one_simple (x : Ext) (so : StatsOpts) {f c n : Str} (by_ : Option (List SpField)) (dd : Bool) {ks : List Str} (f' : Str) (rest : List PE)
    (rest' : List PyE) (hb : byNames by_ = some ks) (hk : ∀ k ∈ ks, Plain '"' k = true) (hc : Plain '\'' c = true) (hn : Plain '\'' n = true)
    (hl : ∀ d, statsExpr .disallow d (fieldStat f c n) = some (d, .aliased (.fn f' (.named c :: rest)) n))
    (hf : funcTree f' = some (.attr (.name c!"F") f')) (hr : pyTrees rest = some rest') (ha : hasAggregateL rest' = false)
    (claim : PyE → Prop) (h : (∀ S root rows, sparkStat S root rows (.call (.attr (fCall f' (fCall c!"col" [.str c] :: rest')) c!"alias") [.str n]) =
      sparkAggFn root f' (rows.map fun r => r c) rest') → claim (.call (.attr (fCall f' (fCall c!"col" [.str c] :: rest')) c!"alias") [.str n])) :
    OneStat x so (fieldStat f c n) by_ dd claim := by
  have ht : pyTree (.aliased (.fn f' (.named c :: rest)) n) = some (.call (.attr (fCall f' (fCall c!"col" [.str c] :: rest')) c!"alias") [.str n]) := by
    simp only [pyTree, hn, isReceiver, Bool.and_self, if_true, pyTrees, hc, hf, hr]
    rfl
  obtain ⟨text, h1, h2⟩ := one_program x so (fieldStat f c n) by_ dd hb hk hl ht
  refine ⟨text, _, h1, h2, h fun S root rows => ?_⟩
  rw [stat_alias, stat_fn S root rows f' _ rest' (by
    simp only [hasAggregateL, ha, Bool.or_false]
    rfl), colRef_values, Option.bind_some]

/-- **C76** (partial): `first` and `last` are the first and the last value of the field if Spark has the rows of the group in
the order of the events; `list` is then the list of the values if there are at most 100. -/
theorem C76_ordered_partial (x : Ext) (so : StatsOpts) (c n : Str) (by_ : Option (List SpField)) (dd : Bool) (ks : List Str)
    (hb : byNames by_ = some ks) (hk : ∀ k ∈ ks, Plain '"' k = true) (hc : Plain '\'' c = true) (hn : Plain '\'' n = true) :
    OneStat x so (fieldStat c!"first" c n) by_ dd (fun t => ∀ S root rows, sparkStat S root rows t = some (.one ((fieldValues c rows).head?.getD .null))) ∧
    OneStat x so (fieldStat c!"last" c n) by_ dd (fun t => ∀ S root rows, sparkStat S root rows t = some (.one ((fieldValues c rows).getLast?.getD .null))) ∧
    OneStat x so (fieldStat c!"list" c n) by_ dd (fun t => ∀ S root rows, (fieldValues c rows).length ≤ 100 →
      sparkStat S root rows t = some (.many (splList c rows))) := by
  refine ⟨?_, ?_, ?_⟩
  · exact one_simple x so by_ dd c!"first" [pyBool true] [.name c!"True"] hb hk hc hn (fun d => rfl) rfl (by decide +kernel) (by decide +kernel) _
      fun h S root rows => by rw [h]; rfl
  · exact one_simple x so by_ dd c!"last" [pyBool true] [.name c!"True"] hb hk hc hn (fun d => rfl) rfl (by decide +kernel) (by decide +kernel) _
      fun h S root rows => by rw [h]; rfl
  · refine one_simple x so by_ dd c!"collect_list" [] [] hb hk hc hn (fun d => rfl) rfl rfl rfl _ fun h S root rows hr => ?_
    rw [h]
    show some (Outcome.many (fieldValues c rows)) = _
    rw [splList, List.take_of_length_le hr]

/-- **C76** (partial): `values` has the different values of the field, each once (in an order Spark does not say). -/
theorem C76_values_partial (x : Ext) (so : StatsOpts) (c n : Str) (by_ : Option (List SpField)) (dd : Bool) (ks : List Str)
    (hb : byNames by_ = some ks) (hk : ∀ k ∈ ks, Plain '"' k = true) (hc : Plain '\'' c = true) (hn : Plain '\'' n = true) :
    OneStat x so (fieldStat c!"values" c n) by_ dd fun t => ∀ S root rows rows', rows'.Perm rows →
      ∃ vs, sparkStat S root rows' t = some (.many vs) ∧ vs.Nodup ∧ ∀ v, v ∈ vs ↔ v ∈ fieldValues c rows := by
  refine one_simple x so by_ dd c!"collect_set" [] [] hb hk hc hn (fun d => rfl) rfl rfl rfl _ fun h S root rows rows' hp => ?_
  refine ⟨distinctOf (fieldValues c rows'), by rw [h]; rfl, nodup_distinctOf _, fun v => ?_⟩
  rw [mem_distinctOf, (fieldValues_perm c hp).mem_iff]

/-! ### percentiles -/

theorem percent_expr {name f' alias : Str} {p : Nat} (h1 : statsSpec name = some (percentileSpec alias f' name))
    (h2 : parseU32 (replaceAll alias [] name) = some p) (h3 : statsSorts name = false) (d : DF) (c n : Str) :
    statsExpr .disallow d (fieldStat name c n) = some (d, .aliased (.fn f' [.named c, .py (percentText p)]) n) := by
  have ha : statsFnBareCol name (argsTr .disallow [.const (.field c)]) = some (.aliased (.fn f' [.named c, .py (percentText p)]) alias) := by
    simp only [statsFnBareCol, h1]
    show (((parseU32 (replaceAll alias [] name)).map fun p => PE.fn f' [.named c, .py (percentText p)]).map fun o => o.withAlias alias) = _
    rw [h2]
    rfl
  show ((statsFnBare name (argsTr .disallow [.const (.field c)]) d).map _) = _
  rw [statsFnBare, ha, h3]
  rfl

/-- the names are not those of other functions -/
def percentileName (name : Str) : Bool :=
  (lookupFn name statsTable).isNone && !c!"exactperc".isPrefixOf name && !c!"percentile".isPrefixOf name && !statsSorts name

theorem upperperc_names : ∀ p : Fin 101, percentileName (c!"upperperc" ++ showNat p) = true ∧ c!"upperperc".isPrefixOf (c!"upperperc" ++ showNat p) = true ∧
    parseU32 (replaceAll c!"upperperc" [] (c!"upperperc" ++ showNat p)) = some p.val := by decide +kernel

theorem percent_codes : ∀ p : Fin 101, (pyTree (.py (percentText p))).any (fun t => percentage t == some (mkRat p.val 100) && !hasAggregateL [t]) = true := by
  decide +kernel

/-- **C76** (partial): `upperperc`, followed by a number up to 100, is the nearest rank. -/
theorem C76_upperperc_partial (x : Ext) (so : StatsOpts) (c n : Str) (by_ : Option (List SpField)) (dd : Bool) (ks : List Str)
    (hb : byNames by_ = some ks) (hk : ∀ k ∈ ks, Plain '"' k = true) (hc : Plain '\'' c = true) (hn : Plain '\'' n = true) (p : Nat) (hp : p ≤ 100) :
    OneStat x so (fieldStat (c!"upperperc" ++ showNat p) c n) by_ dd fun t => ∀ S root rows rows' l, rows'.Perm rows →
      asNumbers (fieldValues c rows) = some l → sparkStat S root rows' t = some (.one (splPercentile p l)) := by
  obtain ⟨h1, h2, h3⟩ := upperperc_names ⟨p, by omega⟩
  have h4 := percent_codes ⟨p, by omega⟩
  simp only at h1 h2 h3 h4
  rw [Option.any_eq_true] at h4
  obtain ⟨t, ht, h4⟩ := h4
  simp only [Bool.and_eq_true, beq_iff_eq, Bool.not_eq_true'] at h4
  simp only [percentileName, Bool.and_eq_true, Bool.not_eq_true', Option.isNone_iff_eq_none] at h1
  refine one_simple x so by_ dd c!"percentile_approx" [.py (percentText p)] [t] hb hk hc hn
    (percent_expr (by simp only [statsSpec, h1.1.1.1, h1.1.1.2, h1.1.2, h2]; rfl) h3 h1.2 · c n) rfl (by simp only [pyTrees, ht]) h4.2 _
    fun h S root rows rows' l hp hl => ?_
  obtain ⟨l', k1, k2⟩ := asNumbers_perm (fieldValues_perm c hp) hl
  rw [h]
  show ((percentage t).bind fun q => (asNumbers (fieldValues c rows')).map fun l => Outcome.one (orNull (nearestRank q l))) = _
  rw [h4.1, k1, Option.bind_some, Option.map_some, splPercentile, nearestRank_perm _ k2]

example : parse c!"stats upperperc95(ms) AS slow" = some [.stats ⟨1, false, c!" "⟩ [fieldStat (c!"upperperc" ++ showNat 95) c!"ms" c!"slow"] none false] ∧
    splPercentile 95 [5, 1, 3] = .num 5 ∧ splPercentile 50 [1, 2] = .num 1 :=
  ⟨isParse_sound (by decide +kernel), by decide +kernel, by decide +kernel⟩

/-- **C76** (partial): `median` is the middle value of an odd number of values. -/
theorem C76_median_partial (x : Ext) (so : StatsOpts) (c n : Str) (by_ : Option (List SpField)) (dd : Bool) (ks : List Str)
    (hb : byNames by_ = some ks) (hk : ∀ k ∈ ks, Plain '"' k = true) (hc : Plain '\'' c = true) (hn : Plain '\'' n = true) :
    OneStat x so (fieldStat c!"median" c n) by_ dd fun t => ∀ S root rows rows' l, rows'.Perm rows →
      asNumbers (fieldValues c rows) = some l → l.length % 2 = 1 →
      ∃ g, (splStats root).lookup c!"median" = some g ∧ sparkStat S root rows' t = some (.one (g l)) := by
  refine one_simple x so by_ dd c!"percentile_approx" [.lit c!"0.5"] [fCall c!"lit" [.num c!"0" c!"5"]] hb hk hc hn (fun d => rfl) rfl
    (by decide +kernel) (by decide +kernel) _ fun h S root rows rows' l hp hl ho => ⟨_, rfl, ?_⟩
  obtain ⟨l', k1, k2⟩ := asNumbers_perm (fieldValues_perm c hp) hl
  rw [h]
  show ((some (numVal c!"0" c!"5")).bind fun q => (asNumbers (fieldValues c rows')).map fun l => Outcome.one (orNull (nearestRank q l))) = _
  rw [k1, Option.bind_some, Option.map_some, nearestRank_perm _ k2, nearestRank]
  have e : (numVal c!"0" c!"5" * (l.length : Rat)).ceil.toNat - 1 = l.length / 2 := by
    obtain ⟨k, hk⟩ : ∃ k, l.length = 2 * k + 1 := ⟨l.length / 2, by omega⟩
    have h0 : numVal c!"0" c!"5" = 1 / 2 := by decide +kernel
    have h1 : ((l.length : Nat) : Rat) = 2 * (k : Rat) + 1 := by rw [hk]; simp
    have h2 : (numVal c!"0" c!"5" * (l.length : Rat)).ceil = (k : Int) + 1 := by
      rw [h0, h1]
      have a1 := (Rat.lt_ceil_iff (x := 1 / 2 * (2 * (k : Rat) + 1)) (y := k)).2 (by
        show ((k : Int) : Rat) < _
        rw [Rat.intCast_natCast]
        grind)
      have a2 := (Rat.ceil_le_iff (x := 1 / 2 * (2 * (k : Rat) + 1)) (y := (k : Int) + 1)).2 (by
        rw [Rat.intCast_add, Rat.intCast_natCast]
        grind)
      omega
    rw [h2]
    omega
  rw [e]

/-! ### earliest and latest -/

/-- rows in the order of their time -/
def ByTime (rows : List Event) : Prop := rows.Pairwise fun a b => ∃ s t, timeOf a = some s ∧ timeOf b = some t ∧ s ≤ t

/-- The program: the rows are first sorted by their time. -/
theorem earliest_program (x : Ext) (so : StatsOpts) (latest : Bool) (c n : Str) (by_ : Option (List SpField)) (dd : Bool) {ks : List Str}
    (hb : byNames by_ = some ks) (hk : ∀ k ∈ ks, Plain '"' k = true) (hc : Plain '\'' c = true) (hn : Plain '\'' n = true) :
    ∃ text, renderPipeline ⟨.disallow, x⟩ [.stats so [fieldStat (if latest then c!"latest" else c!"earliest") c n] by_ dd] = some text ∧
      aggregatesOf text = some (mCall (mCall (.name c!"spark") c!"table" [.str c!"main"]) c!"orderBy"
          [.call (.attr (fCall c!"col" [.str c!"_time"]) c!"asc") []],
        [.call (.attr (fCall (if latest then c!"last" else c!"first") [fCall c!"col" [.str c], .name c!"True"]) c!"alias") [.str n]]) := by
  have hct : cnTrees ((by_.getD []).map byField) = some (ks.map .str) := by
    cases by_ with
    | none => simp only [byNames, Option.some.injEq] at hb; subst hb; rfl
    | some fs =>
      simp only [byNames] at hb
      split at hb
      · rename_i hs
        simp only [Option.some.injEq] at hb
        subst hb
        exact by_tree hs hk
      · cases hb
  let p : PE := .aliased (.fn (if latest then c!"last" else c!"first") [.named c, pyBool true]) n
  let d : DF := .agg (.groupBy (.orderBy (.source c!"main") [PE.mkMethod timeCol c!"asc" []]) ((by_.getD []).map byField)) [p]
  have hl : statsLoop .disallow [fieldStat (if latest then c!"latest" else c!"earliest") c n] (.source c!"main") =
      some (.orderBy (.source c!"main") [PE.mkMethod timeCol c!"asc" []], [p]) := by
    cases latest <;> rfl
  have ht : pyTree p = some (.call (.attr (fCall (if latest then c!"last" else c!"first") [fCall c!"col" [.str c], .name c!"True"]) c!"alias") [.str n]) := by
    have h1 : pyTree (pyBool true) = some (.name c!"True") := by decide +kernel
    have h2 : funcTree (if latest then c!"last" else c!"first") = some (.attr (.name c!"F") (if latest then c!"last" else c!"first")) := by
      cases latest <;> rfl
    simp only [p, pyTree, hn, isReceiver, Bool.and_self, if_true, pyTrees, hc, h1, h2]
    rfl
  have hk2 : colTrees [PE.mkMethod timeCol c!"asc" []] = some [.call (.attr (fCall c!"col" [.str c!"_time"]) c!"asc") []] := by decide +kernel
  have hp : progTree d = some ⟨[], mCall (mCall (mCall (mCall (.name c!"spark") c!"table" [.str c!"main"]) c!"orderBy"
      [.call (.attr (fCall c!"col" [.str c!"_time"]) c!"asc") []]) c!"groupBy" [.list (ks.map .str)]) c!"agg"
      [.call (.attr (fCall (if latest then c!"last" else c!"first") [fCall c!"col" [.str c], .name c!"True"]) c!"alias") [.str n]]⟩ := by
    have h3 : colTrees [p] = some [.call (.attr (fCall (if latest then c!"last" else c!"first") [fCall c!"col" [.str c], .name c!"True"]) c!"alias") [.str n]] := by
      simp only [colTrees, List.isEmpty_cons, pyTrees, ht]
      rfl
    simp only [d, progTree, show Plain '\'' c!"main" = true by decide +kernel, if_true, onResult, hct, Option.map_some, hk2, h3]
  refine ⟨d.render.text, ?_, ?_⟩
  · have hl' : statsLoop .disallow [fieldStat (if latest then c!"latest" else c!"earliest") c n] (St.cur ⟨1, none⟩) =
        some (.orderBy (.source c!"main") [PE.mkMethod timeCol c!"asc" []], [p]) := hl
    simp only [renderPipeline, runCmds, transform, dispatch, statsStandalone, hl', Option.map_some]
    rfl
  · simp only [aggregatesOf, read_prog hp]
    rfl

theorem fieldValues_filter (c : Str) (rows : List Event) : fieldValues c rows = (rows.filter fun r => r c ≠ .null).map fun r => r c := by
  rw [fieldValues, present, List.filter_map]
  rfl

/-- **C76** (partial): `earliest` and `latest` are the value of the earliest and the latest event with the field, if Spark keeps
the rows of a group in the order of the sorted table. -/
theorem C76_earliest_partial (x : Ext) (so : StatsOpts) (latest : Bool) (c n : Str) (by_ : Option (List SpField)) (dd : Bool) (ks : List Str)
    (hb : byNames by_ = some ks) (hk : ∀ k ∈ ks, Plain '"' k = true) (hc : Plain '\'' c = true) (hn : Plain '\'' n = true) :
    ∃ text t, renderPipeline ⟨.disallow, x⟩ [.stats so [fieldStat (if latest then c!"latest" else c!"earliest") c n] by_ dd] = some text ∧
      aggregatesOf text = some (mCall (mCall (.name c!"spark") c!"table" [.str c!"main"]) c!"orderBy"
          [.call (.attr (fCall c!"col" [.str c!"_time"]) c!"asc") []], [t]) ∧
      ∀ S root rows rows', rows'.Perm rows → ByTime rows' → (∀ r ∈ rows, timeOf r ≠ none) → fieldValues c rows ≠ [] →
        ∃ v, sparkStat S root rows' t = some (.one v) ∧ IsEarliest latest c rows v := by
  obtain ⟨text, h1, h2⟩ := earliest_program x so latest c n by_ dd hb hk hc hn
  refine ⟨text, _, h1, h2, fun S root rows rows' hp hs ht hne => ?_⟩
  have hv : sparkStat S root rows' (.call (.attr (fCall (if latest then c!"last" else c!"first") [fCall c!"col" [.str c], .name c!"True"]) c!"alias")
      [.str n]) = some (.one ((if latest then (fieldValues c rows').getLast? else (fieldValues c rows').head?).getD .null)) := by
    rw [stat_alias, stat_fn S root rows' _ _ _ rfl, colRef_values, Option.bind_some]
    cases latest <;> rfl
  have hne' : fieldValues c rows' ≠ [] := fun h => hne (by
    have := fieldValues_perm c hp
    rw [h] at this
    exact this.nil_eq.symm)
  rw [fieldValues_filter] at hne'
  rw [hv, fieldValues_filter]
  have hsub : (rows'.filter fun r => r c ≠ .null).Pairwise fun a b => ∃ s t, timeOf a = some s ∧ timeOf b = some t ∧ s ≤ t := hs.filter _
  have hmem : ∀ r, r ∈ rows'.filter (fun r => r c ≠ .null) ↔ r ∈ rows ∧ r c ≠ .null := fun r => by
    rw [List.mem_filter, hp.mem_iff]
    simp
  have hne2 : rows'.filter (fun r => r c ≠ .null) ≠ [] := fun h => hne' (by rw [h]; rfl)
  generalize rows'.filter (fun r => r c ≠ .null) = fs at hsub hmem hne2
  have refl : ∀ r ∈ rows, ∃ t, timeOf r = some t := fun r hr => Option.ne_none_iff_exists'.1 (ht r hr)
  cases latest with
  | false =>
    cases fs with
    | nil => exact absurd rfl hne2
    | cons r fs =>
      have hr := (hmem r).1 (by simp)
      obtain ⟨t, htr⟩ := refl r hr.1
      refine ⟨r c, rfl, r, hr.1, rfl, hr.2, t, htr, fun r' hr' hc' => ?_⟩
      rcases List.mem_cons.1 ((hmem r').2 ⟨hr', hc'⟩) with rfl | h
      · exact ⟨t, htr, Rat.le_refl⟩
      · obtain ⟨a, b, e1, e2, e3⟩ := (List.pairwise_cons.1 hsub).1 r' h
        rw [htr] at e1
        cases e1
        exact ⟨b, e2, e3⟩
  | true =>
    obtain ⟨fs, r, rfl⟩ : ∃ l a, fs = l ++ [a] := ⟨fs.dropLast, fs.getLast hne2, (List.dropLast_concat_getLast hne2).symm⟩
    have hr := (hmem r).1 (by simp)
    obtain ⟨t, htr⟩ := refl r hr.1
    refine ⟨r c, by simp, r, hr.1, rfl, hr.2, t, htr, fun r' hr' hc' => ?_⟩
    rcases List.mem_append.1 ((hmem r').2 ⟨hr', hc'⟩) with h | h
    · obtain ⟨a, b, e1, e2, e3⟩ := (List.pairwise_append.1 hsub).2.2 r' h r (by simp)
      rw [htr] at e2
      cases e2
      exact ⟨a, e1, e3⟩
    · rw [List.mem_singleton.1 h]
      exact ⟨t, htr, Rat.le_refl⟩

example : ByTime [fun n => if n = c!"_time" then .num 1 else .null, fun _ => .num 2] ∧
    fieldValues c!"x" [fun n => if n = c!"_time" then .num 1 else .null, fun _ => .num 2] ≠ [] :=
  ⟨List.pairwise_cons.2 ⟨fun b hb => by rw [List.mem_singleton.1 hb]; exact ⟨1, 2, rfl, rfl, by decide +kernel⟩, List.pairwise_singleton _ _⟩,
    by decide +kernel⟩

/-! ### functions that compute something else -/

/-- numbers compared and subtracted exactly -/
def numSem : Sem where
  cmp := fun _ _ _ => none
  arith := fun o a b => match o, a, b with
    | .sub, .num a, .num b => .num (a - b)
    | .mul, .num a, .num b => .num (a * b)
    | .div, .num a, .num b => .num (a / b)
    | _, _, _ => .null
  truth := fun | .bool b => some b | _ => none
  text := fun _ => none
  prim := fun _ _ => .null
  truth_ofB := fun b => by cases b <;> rfl

example : Exact numSem := ⟨fun _ _ => rfl, fun _ _ => rfl, rfl, rfl⟩

/-- `range` is translated into the maximum of differences from the minimum: an aggregate of an aggregate, which Spark refuses. -/
theorem C76_range_refused (x : Ext) (so : StatsOpts) (c n : Str) (by_ : Option (List SpField)) (dd : Bool) (ks : List Str)
    (hb : byNames by_ = some ks) (hk : ∀ k ∈ ks, Plain '"' k = true) (hc : Plain '\'' c = true) (hn : Plain '\'' n = true) :
    OneStat x so (fieldStat c!"range" c n) by_ dd fun t => ∀ S root rows, sparkStat S root rows t = none := by
  have ht : pyTree (.aliased (.fn c!"max" [PE.mkBin (.named c) c!"-" (.fn c!"min" [.named c])]) n) =
      some (.call (.attr (fCall c!"max" [.bin c!"-" (fCall c!"col" [.str c]) (fCall c!"min" [fCall c!"col" [.str c]])]) c!"alias") [.str n]) := by
    simp only [pyTree, hn, isReceiver, Bool.and_self, if_true, pyTrees, PE.mkBin, PE.unalias, hc]
    rfl
  obtain ⟨text, h1, h2⟩ := one_program x so (fieldStat c!"range" c n) by_ dd hb hk (fun d => rfl) ht
  refine ⟨text, _, h1, h2, fun S root rows => ?_⟩
  rw [stat_alias]
  rfl

/-- Of two values `median` is documented to be the higher one; the program gives the lower one. -/
theorem C76_median_even (x : Ext) (so : StatsOpts) (c n : Str) (by_ : Option (List SpField)) (dd : Bool) (ks : List Str)
    (hb : byNames by_ = some ks) (hk : ∀ k ∈ ks, Plain '"' k = true) (hc : Plain '\'' c = true) (hn : Plain '\'' n = true) :
    OneStat x so (fieldStat c!"median" c n) by_ dd fun t => ∀ S root,
      sparkStat S root [fun _ => .num 1, fun _ => .num 2] t = some (.one (.num 1)) ∧
        ((splStats root).lookup c!"median").map (fun g => g [1, 2]) = some (.num 2) := by
  refine one_simple x so by_ dd c!"percentile_approx" [.lit c!"0.5"] [fCall c!"lit" [.num c!"0" c!"5"]] hb hk hc hn (fun d => rfl) rfl
    (by decide +kernel) (by decide +kernel) _ fun h S root => ⟨?_, ?_⟩
  · rw [h]
    exact (by decide +kernel : sparkAggFn id c!"percentile_approx" [.num 1, .num 2] [fCall c!"lit" [.num c!"0" c!"5"]] = some (.one (.num 1)))
  · exact (by decide +kernel : some (orNull (ascending [1, 2])[1]?) = some (.num 2))

/-- `exactperc50` is documented to be one of the values (the nearest rank); the program gives a number between two of them. -/
theorem C76_exactperc_between (x : Ext) (so : StatsOpts) (c n : Str) (by_ : Option (List SpField)) (dd : Bool) (ks : List Str)
    (hb : byNames by_ = some ks) (hk : ∀ k ∈ ks, Plain '"' k = true) (hc : Plain '\'' c = true) (hn : Plain '\'' n = true) :
    OneStat x so (fieldStat c!"exactperc50" c n) by_ dd fun t => ∀ S root,
      sparkStat S root [fun _ => .num 1, fun _ => .num 2] t = some (.one (.num (3 / 2))) ∧ splPercentile 50 [1, 2] = .num 1 := by
  refine one_simple x so by_ dd c!"percentile" [.py c!"0.5"] [.num c!"0" c!"5"] hb hk hc hn
    (percent_expr (p := 50) (alias := c!"exactperc") rfl (by decide +kernel) (by decide +kernel) · c n) rfl (by decide +kernel) (by decide +kernel) _ fun h S root => ⟨?_, by decide +kernel⟩
  rw [h]
  exact (by decide +kernel : sparkAggFn id c!"percentile" [.num 1, .num 2] [.num c!"0" c!"5"] = some (.one (.num (3 / 2))))

theorem unknown_fn {f : Str} (h : f ∉ aggregateNames) (root : Rat → Rat) (vs : List Val) : sparkAggFn root f vs [] = none := by
  simp only [aggregateNames, List.mem_cons, List.not_mem_nil, or_false, not_or] at h
  have h1 : (sparkStats root).lookup f = none := by
    simp only [sparkStats, List.lookup_cons, List.lookup_nil, beq_eq_false_iff_ne.2 h.1, beq_eq_false_iff_ne.2 h.2.1, beq_eq_false_iff_ne.2 h.2.2.1,
      beq_eq_false_iff_ne.2 h.2.2.2.1, beq_eq_false_iff_ne.2 h.2.2.2.2.1, beq_eq_false_iff_ne.2 h.2.2.2.2.2.1, beq_eq_false_iff_ne.2 h.2.2.2.2.2.2.1,
      beq_eq_false_iff_ne.2 h.2.2.2.2.2.2.2.1, beq_eq_false_iff_ne.2 h.2.2.2.2.2.2.2.2.1, beq_eq_false_iff_ne.2 h.2.2.2.2.2.2.2.2.2.1]
  obtain ⟨_, _, _, _, _, _, _, _, _, _, c1, c2, c3, c4, c5, _⟩ := h
  simp only [sparkAggFn, h1, sparkCollect, if_neg c1, if_neg c2, if_neg c3, if_neg c4, if_neg c5]

theorem perc_names : ∀ p : Fin 101, ∀ pre ∈ [c!"perc", c!"p"], (statsSpec (pre ++ showNat p)).isNone = true ∧
    (pre ++ showNat p) ∉ statsUnsupported ∧ statsSorts (pre ++ showNat p) = false ∧
    funcTree (pre ++ showNat p) = some (.attr (.name c!"F") (pre ++ showNat p)) ∧ (pre ++ showNat p) ∉ aggregateNames := by
  decide +kernel

/-- `perc95(x)` and `p95(x)` are documented; the program calls a function `F.perc95` or `F.p95` that does not exist. -/
theorem C76_perc_unknown (x : Ext) (so : StatsOpts) (c n : Str) (by_ : Option (List SpField)) (dd : Bool) (ks : List Str)
    (hb : byNames by_ = some ks) (hk : ∀ k ∈ ks, Plain '"' k = true) (hc : Plain '\'' c = true) (hn : Plain '\'' n = true)
    (pre : Str) (hpre : pre = c!"perc" ∨ pre = c!"p") (p : Nat) (hp : p ≤ 100) :
    OneStat x so (fieldStat (pre ++ showNat p) c n) by_ dd fun t => ∀ S root rows, sparkStat S root rows t = none := by
  obtain ⟨h1, h2, h3, h4, h5⟩ := perc_names ⟨p, by omega⟩ pre (by rcases hpre with rfl | rfl <;> simp)
  simp only [Option.isNone_iff_eq_none] at h1 h2 h3 h4 h5
  refine one_simple x so by_ dd (pre ++ showNat p) [] [] hb hk hc hn (fun d => ?_) h4 rfl rfl _ fun h S root rows => ?_
  · show ((statsFnBare (pre ++ showNat p) (argsTr .disallow [.const (.field c)]) d).map _) = _
    rw [statsFnBare, statsFnBareCol, h1, h3]
    simp only [if_neg h2]
    rfl
  · rw [h, unknown_fn h5]

/-- `list` is documented to have up to 100 values; the program gives all of them. -/
theorem C76_list_all (x : Ext) (so : StatsOpts) (c n : Str) (by_ : Option (List SpField)) (dd : Bool) (ks : List Str)
    (hb : byNames by_ = some ks) (hk : ∀ k ∈ ks, Plain '"' k = true) (hc : Plain '\'' c = true) (hn : Plain '\'' n = true) :
    OneStat x so (fieldStat c!"list" c n) by_ dd fun t => ∀ S root rows, 100 < (fieldValues c rows).length →
      sparkStat S root rows t ≠ some (.many (splList c rows)) := by
  refine one_simple x so by_ dd c!"collect_list" [] [] hb hk hc hn (fun d => rfl) rfl rfl rfl _ fun h S root rows hr => ?_
  rw [h]
  intro he
  have he : some (Outcome.many (fieldValues c rows)) = some (.many (splList c rows)) := he
  simp only [Option.some.injEq, Outcome.many.injEq] at he
  have := congrArg List.length he
  rw [splList, List.length_take] at this
  omega

/-- `earliest_time(x)` and `latest_time(x)` are documented to be the time of an event with the field; the program takes events
without the field into account. -/
theorem C76_time_any_event (x : Ext) (so : StatsOpts) (latest : Bool) (c n : Str) (by_ : Option (List SpField)) (dd : Bool) (ks : List Str)
    (hb : byNames by_ = some ks) (hk : ∀ k ∈ ks, Plain '"' k = true) (hc : c ≠ c!"_time") (hn : Plain '\'' n = true) :
    OneStat x so (fieldStat (if latest then c!"latest_time" else c!"earliest_time") c n) by_ dd fun t => ∀ S root,
      ∃ rows, (∀ r ∈ rows, timeOf r ≠ none) ∧ fieldValues c rows ≠ [] ∧ ∃ v, sparkStat S root rows t = some (.one v) ∧ v ≠ splTime latest c rows := by
  have ht : pyTree (.aliased (.fn (if latest then c!"max" else c!"min") [timeCol]) n) =
      some (.call (.attr (fCall (if latest then c!"max" else c!"min") [fCall c!"col" [.str c!"_time"]]) c!"alias") [.str n]) := by
    have h1 : pyTree timeCol = some (fCall c!"col" [.str c!"_time"]) := by decide +kernel
    have h2 : funcTree (if latest then c!"max" else c!"min") = some (.attr (.name c!"F") (if latest then c!"max" else c!"min")) := by
      cases latest <;> rfl
    simp only [pyTree, hn, isReceiver, Bool.and_self, if_true, pyTrees, h1, h2]
    rfl
  obtain ⟨text, h1, h2⟩ := one_program x so (fieldStat (if latest then c!"latest_time" else c!"earliest_time") c n) by_ dd hb hk
    (fun d => by cases latest <;> rfl) ht
  refine ⟨text, _, h1, h2, fun S root => ?_⟩
  let e0 (q : Rat) : Event := fun m => if m = c!"_time" then .num q else .null
  let e1 (q : Rat) : Event := fun m => if m = c!"_time" then .num q else if m = c then .num 0 else .null
  have v0 : ∀ q, e0 q c = .null := fun q => if_neg hc
  have v1 : ∀ q, e1 q c = .num 0 := fun q => by show (if _ then _ else _) = _; rw [if_neg hc, if_pos rfl]
  have t0 : ∀ q, timeOf (e0 q) = some q := fun q => rfl
  have t1 : ∀ q, timeOf (e1 q) = some q := fun q => rfl
  have fv : ∀ a b d : Rat, fieldValues c [e0 a, e1 b, e0 d] = [.num 0] := fun a b d => by
    simp only [fieldValues, present, List.map_cons, List.map_nil, v0, v1]
    rfl
  have ft : ∀ a b d : Rat, [e0 a, e1 b, e0 d].filter (fun r => r c ≠ .null) = [e1 b] := fun a b d => by
    simp only [List.filter_cons, List.filter_nil, v0, v1]
    rfl
  refine ⟨[e0 1, e1 2, e0 3], fun r hr => ?_, by rw [fv]; simp, ?_⟩
  · simp only [List.mem_cons, List.not_mem_nil, or_false] at hr
    rcases hr with rfl | rfl | rfl <;> simp [t0, t1]
  · rw [stat_alias, stat_col]
    cases latest with
    | true =>
      refine ⟨.num 3, (by decide +kernel : sparkAggFn id c!"max" [.num 1, .num 2, .num 3] [] = some (.one (.num 3))), ?_⟩
      rw [splTime, ft]
      exact (by decide +kernel : Val.num 3 ≠ .num 2)
    | false =>
      refine ⟨.num 1, (by decide +kernel : sparkAggFn id c!"min" [.num 1, .num 2, .num 3] [] = some (.one (.num 1))), ?_⟩
      rw [splTime, ft]
      exact (by decide +kernel : Val.num 1 ≠ .num 2)

/-- `count(eval(status=404))` is documented; the program calls a function `F.eval` that does not exist. -/
theorem C76_count_eval :
    (do let q ← parse c!"stats count(eval(status=404)) AS missing"
        let text ← renderPipeline ⟨.disallow, Tests.ext⟩ q
        aggregatesOf text) =
      some (mCall (.name c!"spark") c!"table" [.str c!"main"],
        [.call (.attr (fCall c!"count" [fCall c!"eval" [.bin c!"==" (fCall c!"col" [.str c!"status"]) (fCall c!"lit" [.num c!"404" []])]]) c!"alias")
          [.str c!"missing"]]) ∧
    ∀ S root r rows, sparkStat S root (r :: rows)
      (.call (.attr (fCall c!"count" [fCall c!"eval" [.bin c!"==" (fCall c!"col" [.str c!"status"]) (fCall c!"lit" [.num c!"404" []])]]) c!"alias")
          [.str c!"missing"]) = none := by
  refine ⟨?_, fun S root r rows => ?_⟩
  · have hp : parse c!"stats count(eval(status=404)) AS missing" =
        some [.stats ⟨1, false, c!" "⟩ [.alias (.call c!"count" [.call c!"eval" [.binary (.const (.field c!"status")) c!"=" (.const (.int 404))]]) c!"missing"] none false] :=
      isParse_sound (by decide +kernel)
    rw [hp]
    decide +kernel
  · rw [stat_alias, stat_fn S root _ _ _ _ rfl]
    rfl

/-! ### with the runtime library -/

/-- The aggregate computed by a call of the library in the program of a `stats` command. -/
def LibraryStat (f x n : Str) : Prop :=
  ∃ p c t, statsRuntimeExpr .require (fieldStat f x n) = some (n, .expr p) ∧ evalRt p = some (.agg false (some c)) ∧ pyTree c = some t ∧ IsStat f x t

theorem lib_lookup {f x n : Str} (f' : Str) (g g' : (Rat → Rat) → List Rat → Val) (hx : Plain '\'' x = true)
    (h1 : statsRuntimeExpr .require (fieldStat f x n) = some (n, .expr (.fn (c!"functions.stats." ++ f) [.named x])))
    (h0 : evalRt (.fn (c!"functions.stats." ++ f) [.named x]) = some (.agg false (some (.fn f' [.named x]))))
    (h2 : funcTree f' = some (.attr (.name c!"F") f'))
    (h3 : ∀ root, (sparkStats root).lookup f' = some (g root)) (h4 : ∀ root, (splStats root).lookup f = some (g' root))
    (h5 : ∀ root l, StatDefined f l → g' root l = g root l) : LibraryStat f x n := by
  refine ⟨_, .fn f' [.named x], fCall f' [fCall c!"col" [.str x]], h1, h0, ?_, ?_⟩
  · simp only [pyTree, pyTrees, hx, if_true, h2]
    rfl
  · intro S root _ rows rows' l hp hl hv
    rw [stat_col]
    exact ⟨g' root, h4 root, by rw [stat_table (h3 root) (hp.map fun r : Event => r x) hl, h5 root l hv]⟩

/-- **C76** (partial), with the runtime library: average, maximum, minimum, range, variance and standard deviation. -/
theorem C76_library_partial (f x n : Str) (hx : Plain '\'' x = true)
    (hf : f ∈ [c!"avg", c!"mean", c!"max", c!"min", c!"stdev", c!"var", c!"varp", c!"range"]) : LibraryStat f x n := by
  simp only [List.mem_cons, List.not_mem_nil, or_false] at hf
  rcases hf with rfl | rfl | rfl | rfl | rfl | rfl | rfl | rfl
  · exact lib_lookup c!"avg" _ _ hx rfl rfl rfl (fun _ => rfl) (fun _ => rfl) fun _ _ _ => rfl
  · exact lib_lookup c!"avg" _ _ hx rfl rfl rfl (fun _ => rfl) (fun _ => rfl) fun _ _ _ => rfl
  · exact lib_lookup c!"max" _ _ hx rfl rfl rfl (fun _ => rfl) (fun _ => rfl) fun _ _ _ => rfl
  · exact lib_lookup c!"min" _ _ hx rfl rfl rfl (fun _ => rfl) (fun _ => rfl) fun _ _ _ => rfl
  · exact lib_lookup c!"stddev_samp" _ _ hx rfl rfl rfl (fun _ => rfl) (fun _ => rfl) fun _ _ h => sample_eq (h (by simp)) _
  · exact lib_lookup c!"var_samp" _ _ hx rfl rfl rfl (fun _ => rfl) (fun _ => rfl) fun _ _ h => sample_eq (h (by simp)) _
  · exact lib_lookup c!"var_pop" _ _ hx rfl rfl rfl (fun _ => rfl) (fun _ => rfl) fun _ _ _ => rfl
  · refine ⟨_, .bin c!"-" (.fn c!"max" [.named x]) (.fn c!"min" [.named x]),
      .bin c!"-" (fCall c!"max" [fCall c!"col" [.str x]]) (fCall c!"min" [fCall c!"col" [.str x]]), rfl, rfl, ?_, ?_⟩
    · simp only [pyTree, pyTrees, hx, if_true]
      rfl
    · intro S root hS rows rows' l hp hl _
      refine ⟨_, rfl, ?_⟩
      have h1 := stat_table (root := root) (f := c!"max") rfl (hp.map fun r : Event => r x) hl
      have h2 := stat_table (root := root) (f := c!"min") rfl (hp.map fun r : Event => r x) hl
      rw [← stat_col S] at h1 h2
      show (match pyOp c!"-", sparkStat S root rows' _, sparkStat S root rows' _ with
        | some o, some (.one a), some (.one b) => some (Outcome.one (S.op o a b)) | _, _, _ => none) = _
      rw [h1, h2]
      show some (Outcome.one (S.arith .sub (orNull (ascending l).getLast?) (orNull (ascending l).head?))) = _
      cases l with
      | nil => rw [show ascending [] = [] from rfl]; exact congrArg (fun v => some (Outcome.one v)) hS.sub_null
      | cons q l =>
        have hne : ascending (q :: l) ≠ [] := fun h => by
          have := (ascending_self (q :: l)).length_eq
          rw [h] at this
          cases this
        rw [List.getLast?_eq_some_getLast hne, List.head?_eq_some_head hne]
        simp only [orNull, hS.sub, ofSome, List.getLast?_eq_some_getLast hne, List.head?_eq_some_head hne, Option.getD_some]
        rfl

end Verif.Props
