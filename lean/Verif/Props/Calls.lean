import Verif.Lemmas.TypedFrames
import Verif.Props.Program
/-
C82: every call in a generated program is one PySpark admits.
-/
namespace Verif.Props
open Verif Spl Spec Lemmas Lemmas.Typing

mutual
theorem transform_typed {x : Ext} : ∀ (cmd : Command) (s s' : St), okCmd cmd = true → StT s → transform ⟨.disallow, x⟩ cmd s = some s' → StT s'
  | .addTotals a, s, s', _, hs, h => by
    simp only [transform, dispatch, addTotalsTr, Option.some.injEq] at h; subst h
    refine put_typed (withColumn_typed hs.cur (topT_of (joinAsD_typed (by decide) ?_ (colT_litOf (t := .float) rfl rfl rfl))))
    intro p hp
    obtain ⟨f, _, rfl⟩ := List.mem_map.1 hp
    exact total_typed f
  | .bin a, s, s', _, hs, h => by
    simp only [transform, dispatch, binCmdTr, Option.some.injEq] at h; subst h
    refine put_typed (withColumn_typed ?_ (topT_of (colT_named _)))
    split
    · exact withColumn_typed hs.cur (topT_of (colT_fn (hasTys_cons (colT_named _) (hasTys_cons (hasTy_str _) rfl)) (by decide) (by decide +kernel)))
    · exact hs.cur
  | .convert t cs, s, s', ho, hs, h => by
    simp only [transform, dispatch, convertTr, Option.map_eq_some_iff] at h
    obtain ⟨d, hd, rfl⟩ := h
    rw [okCmd] at ho
    exact put_typed (convertLoop_typed ho hs.cur hd)
  | .dataModel a, s, s', _, hs, h => by
    simp only [transform, dataModelTr, dispatch] at h
    exact dataModel_typed hs h
  | .eval as, s, s', ho, hs, h => by
    simp only [transform, dispatch, evalStandalone, Option.map_eq_some_iff] at h
    obtain ⟨d, hd, rfl⟩ := h
    rw [okCmd] at ho
    exact put_typed (evalLoop_typed ho hs.cur hd)
  | .fields r fs, s, s', _, hs, h => by
    simp only [transform, dispatch, fieldsTr, Option.some.injEq] at h; subst h
    exact put_typed (select_typed hs.cur (fun c hc => by obtain ⟨f, _, rfl⟩ := List.mem_map.1 hc; exact topT_of (colT_named f)))
  | .fillNull v fs, s, s', _, hs, h => by
    simp only [transform, dispatch, fillNullStandalone, Option.some.injEq] at h; subst h
    exact put_typed (fillna_typed hs.cur)
  | .head e k n, s, s', _, hs, h => by
    simp only [transform, dispatch, headTr, Option.map_eq_some_iff] at h
    obtain ⟨n, _, rfl⟩ := h
    exact put_typed (limit_typed hs.cur)
  | .join o fs sub, s, s', ho, hs, h => by
    simp only [transform, dispatch, joinTr] at h
    rw [okCmd] at ho
    unfold joinOutcome at h
    split at h
    · split at h
      · cases h
      · rename_i s1 h1
        split at h
        · cases h
        · rename_i right hr
          have hr' := runCmds_typed sub ⟨s.next, none⟩ s1 ho (fun d hd => by cases hd) h1 right hr
          split at h
          · split at h
            · cases h
            · rename_i cond hc
              simp only [Outcome.toOption, Option.some.injEq] at h; subst h
              intro d hd
              cases hd
              exact join_typed (alias_typed hs.cur) (alias_typed hr') (topT_of (joinTime_typed (joinAs_typed (by decide) joinKeys_typed hc)))
          · cases h
    · cases h
  | .lookup a, s, s', _, hs, h => by
    simp only [transform, dispatch, lookupTr] at h
    split at h
    · cases h
    · cases h
      exact put_typed (alias_typed hs.cur)
  | .makeResults a, s, s', ho, hs, h => by
    simp only [transform, dispatch, makeResultsTr, Option.some.injEq] at h; subst h
    rw [okCmd] at ho
    refine put_typed ?_
    have h0 := withColumn_typed (n := c!"_time") (range_typed a.count) (topT_of (colT_fn (f := c!"current_timestamp") (as := []) rfl (by decide) (by decide +kernel)))
    split
    · rename_i ha
      rw [ha] at ho
      have hg : a.serverGroup = none := by simpa using ho
      rw [hg]
      have hn := topT_of colT_None
      exact withColumn_typed (withColumn_typed (withColumn_typed (withColumn_typed (withColumn_typed (withColumn_typed h0 hn) hn) hn) hn)
        (topT_of (colT_lit (dquote_code _) rfl))) hn
    · exact h0
  | .multiSearch ps, s, s', ho, hs, h => by
    simp only [transform, dispatch] at h
    rw [okCmd] at ho
    split at h
    · cases h; exact hs
    · exact multi_typed _ _ none s' ho (fun d hd => by cases hd) h
  | .regex i r, s, s', _, hs, h => by
    simp only [transform, dispatch, regexTr, Option.map_eq_some_iff] at h
    obtain ⟨⟨f, inv⟩, _, rfl⟩ := h
    have hc : ColT (PE.fn c!"regexp_like" [.named f, pyRaw r]) :=
      colT_fn (hasTys_cons (colT_named f) (hasTys_cons (hasTy_raw r) rfl)) (by decide) (by decide +kernel)
    refine put_typed (mkWhere_typed hs.cur (topT_of ?_))
    cases inv
    · exact hc
    · exact colT_not hc
  | .rename as, s, s', _, hs, h => by
    simp only [transform, dispatch, renameTr, Option.some.injEq] at h; subst h
    exact put_typed (renames_typed hs.cur)
  | .rex a, s, s', _, hs, h => by
    simp only [transform, dispatch, rexTr] at h
    split at h
    · cases h
    · split at h
      · simp only [Option.map_eq_some_iff] at h
        obtain ⟨r, _, rfl⟩ := h
        exact put_typed (groups_typed hs.cur)
      · cases h
  | .sort ks n d, s, s', _, hs, h => by
    simp only [transform, dispatch, sortTr, Option.map_eq_some_iff] at h
    obtain ⟨cs, hc, rfl⟩ := h
    refine put_typed ?_
    split
    · exact limit_typed (orderBy_typed hs.cur (sortKeys_typed hc))
    · exact orderBy_typed hs.cur (sortKeys_typed hc)
  | .spath p i o, s, s', _, hs, h => by
    simp only [transform, dispatch, spathTr, Option.some.injEq] at h; subst h
    exact put_typed (withColumn_typed hs.cur (topT_of
      (colT_fn (hasTys_cons (colT_named _) (hasTys_cons (hasTy_str _) rfl)) (by decide) (by decide +kernel))))
  | .stats o es b d, s, s', ho, hs, h => by
    simp only [transform, dispatch, statsStandalone, Option.map_eq_some_iff] at h
    obtain ⟨⟨d, cs⟩, hd, rfl⟩ := h
    rw [okCmd] at ho
    obtain ⟨h1, h2⟩ := statsLoop_typed ho hs.cur hd
    exact put_typed (stats_typed h1 (fun k hk => by obtain ⟨f, _, rfl⟩ := List.mem_map.1 hk; exact byField_typed f) h2)
  | .table fs, s, s', _, hs, h => by
    simp only [transform, dispatch, tableTr, Option.some.injEq] at h; subst h
    exact put_typed (select_typed hs.cur (fun c hc => by obtain ⟨f, _, rfl⟩ := List.mem_map.1 hc; exact topT_of (colT_named f)))
  | .tstats o es dm nn w bf bp, s, s', ho, hs, h => by
    simp only [transform, dispatch] at h
    rw [okCmd, Bool.and_eq_true] at ho
    unfold tstatsStandalone at h
    split at h
    · split at h
      · cases h
      · rename_i s1 h1
        have hs1 : StT s1 := by
          simp only [dataModelTr, dispatch] at h1
          exact dataModel_typed hs h1
        split at h
        · cases h
        · rename_i d hd
          have hd1 : FrameT d .frame := by
            unfold whereStep at hd
            split at hd
            · cases hd; exact hs1.cur
            · simp only [Option.map_eq_some_iff] at hd
              obtain ⟨p, hp, rfl⟩ := hd
              exact mkWhere_typed hs1.cur (exprTr_typed _ p ho.2 hp)
          split at h
          · cases h
          · rename_i d2 cs h2
            obtain ⟨h3, h4⟩ := statsLoop_typed ho.1 hd1 h2
            split at h
            · cases h
              exact put_typed (stats_typed h3 (fun k hk => by obtain ⟨f, _, rfl⟩ := List.mem_map.1 hk; exact byField_typed f) h4)
            · cases h
              exact put_typed (stats_typed h3 (fun k hk => by cases hk) h4)
            · cases h
    · cases h
  | .where_ e, s, s', ho, hs, h => by
    simp only [transform, dispatch, whereTr, Option.map_eq_some_iff] at h
    obtain ⟨p, hp, rfl⟩ := h
    rw [okCmd] at ho
    exact put_typed (mkWhere_typed hs.cur (exprTr_typed e p ho hp))
  | .search e, s, s', ho, hs, h => by
    simp only [transform, dispatch] at h
    rw [okCmd] at ho
    exact search_typed ho hs h
  | .top _, _, _, ho, _, _ | .rare _, _, _, ho, _, _ | .tail _, _, _, ho, _, _ => by cases ho
  | .collect .., _, _, _, _, h | .dedup .., _, _, _, _, h | .eventStats .., _, _, _, _, h | .format .., _, _, _, _, h
  | .inputLookup .., _, _, _, _, h | .map .., _, _, _, _, h | .mvCombine .., _, _, _, _, h | .mvExpand .., _, _, _, _, h
  | .return_ .., _, _, _, _, h | .streamStats .., _, _, _, _, h => by simp [transform] at h

theorem runCmds_typed {x : Ext} : ∀ (cmds : List Command) (s s' : St), okCmds cmds = true → StT s → runCmds ⟨.disallow, x⟩ cmds s = some s' → StT s'
  | [], s, s', _, hs, h => by simp only [runCmds, Option.some.injEq] at h; subst h; exact hs
  | cmd :: cmds, s, s', ho, hs, h => by
    rw [okCmds, Bool.and_eq_true] at ho
    rw [runCmds] at h
    split at h
    · cases h
    · rename_i s1 h1
      exact runCmds_typed cmds s1 s' ho.2 (transform_typed cmd s s1 ho.1 hs h1) h

theorem multi_typed {x : Ext} : ∀ (ps : List (List Command)) (n : Nat) (acc : Option DF) (s' : St), okSearches ps = true →
    (∀ d, acc = some d → FrameT d .frame) → multiTr ⟨.disallow, x⟩ ps n acc = some s' → StT s'
  | [], n, acc, s', _, ha, h => by simp only [multiTr, Option.some.injEq] at h; subst h; exact ha
  | p :: ps, n, acc, s', ho, ha, h => by
    rw [okSearches, Bool.and_eq_true] at ho
    rw [multiTr] at h
    split at h
    · cases h
    · rename_i s1 h1
      split at h
      · cases h
      · rename_i d hd
        have h2 := runCmds_typed p ⟨n, none⟩ s1 ho.1 (fun d hd => by cases hd) h1 d hd
        refine multi_typed ps _ _ s' ho.2 ?_ h
        intro d' hd'
        cases hd'
        cases acc with
        | none => exact h2
        | some c => exact union_typed (ha c rfl) h2
end

/-- a query that may end with `tail` -/
theorem query_typed {x : Ext} : ∀ (cmds : List Command) (s s' : St), okQuery cmds = true → StT s → runCmds ⟨.disallow, x⟩ cmds s = some s' →
    ∀ d, s'.df = some d → FrameT d .frame ∨ FrameT d .rows := by
  intro cmds
  induction cmds with
  | nil => intro s s' _ hs h d hd; simp only [runCmds, Option.some.injEq] at h; subst h; exact .inl (hs d hd)
  | cons cmd cmds ih =>
    intro s s' ho hs h d hd
    by_cases ht : ∃ n, cmd = .tail n ∧ cmds = []
    · obtain ⟨n, rfl, rfl⟩ := ht
      simp only [runCmds, transform, dispatch, tailTr, Option.some.injEq] at h
      subst h
      cases hd
      exact .inr (tail_typed hs.cur)
    · have ho' : okCmd cmd = true ∧ okQuery cmds = true := by
        rw [okQuery, Bool.and_eq_true] at ho
        · exact ho
        · intro n h1 h2; exact ht ⟨n, h1, h2⟩
      rw [runCmds] at h
      split at h
      · cases h
      · rename_i s1 h1
        exact ih s1 s' ho'.2 (transform_typed cmd s s1 ho'.1 hs h1) h d hd

/-- **C82** (partial).  The program written without the library is an expression in which every function and method
exists, belongs to the object it is called on, and is given as many arguments of such kinds as its signature admits;
the whole is a data frame, or a list of rows after `tail`.  `okQuery` leaves out what fails, see below. -/
theorem C82_calls_partial {x : Ext} (hx : Arranges x) {p : Pipeline} (hp : plainP ⟨.disallow, x⟩ p = true) (ho : okQuery p = true)
    {txt : Str} (h : renderPipeline ⟨.disallow, x⟩ p = some txt) (hne : txt ≠ []) :
    ∃ e, readProg txt = some ⟨[], e⟩ ∧ (typeOf e = some .frame ∨ typeOf e = some .rows) := by
  obtain ⟨e, h1, _⟩ := C59_standalone_partial hx hp h hne
  obtain ⟨s, d, q, hs, hd, h2, h3, _⟩ := plain_reads hx hp (disallow_ordered p) h hne
  rw [h1] at h2
  cases h2
  refine ⟨e, h1, ?_⟩
  rcases query_typed p _ _ ho (fun d hd => by cases hd) hs d hd with h4 | h4
  · exact .inl (h4 e h3)
  · exact .inr (h4 e h3)

/-! ### what fails -/

/-- Functions as arguments: `mvzip` joins the elements with a lambda expression, whose parameters are columns. -/
example :
    outOf .disallow c!"eval z=mvzip(a, b, \"-\") | eval n=mvcount(z)" =
      some c!"spark.table('main').withColumn('z', F.zip_with(F.col('a'), F.col('b'), lambda left_, right_: F.concat_ws(r\"-\", left_, right_)),).withColumn('n', F.size(F.col('z')),)" ∧
    ((parse c!"eval z=mvzip(a, b, \"-\") | eval n=mvcount(z)").any fun p => plainP ⟨.disallow, Tests.ext⟩ p && okQuery p) = true ∧
    ((readPy c!"F.zip_with(F.col('a'), F.col('b'), lambda left_, right_: F.concat_ws(r\"-\", left_, right_))").bind typeOf) = some .col ∧
    ((readPy c!"F.zip_with(F.col('a'), F.col('b'), lambda left_, right_: F.concat_ws(r\"-\", left_, wrong_))").bind typeOf) = none ∧
    ((readPy c!"F.zip_with(F.col('a'), F.col('b'), lambda F, right_: F.concat_ws(r\"-\", right_))").bind typeOf) = none := by
  decide +kernel

/-- **C82** fails for every `top` and every `rare`: the program calls `F.count()` without its argument. -/
theorem C82_top_fails {x : Ext} (hx : Arranges x) {p : List Command} {a : TopRare} {c : Command} (hc : c = .top a ∨ c = .rare a)
    (hp : plainP ⟨.disallow, x⟩ (p ++ [c]) = true) {txt : Str} (h : renderPipeline ⟨.disallow, x⟩ (p ++ [c]) = some txt) (hne : txt ≠ []) :
    ∃ e, readProg txt = some ⟨[], e⟩ ∧ typeOf e = none := by
  obtain ⟨e, h1, _⟩ := C59_standalone_partial hx hp h hne
  obtain ⟨s, d, q, hs, hd, h2, h3, _⟩ := plain_reads hx hp (disallow_ordered _) h hne
  rw [h1] at h2
  cases h2
  refine ⟨e, h1, ?_⟩
  have run : ∀ (p : List Command) (s0 s : St), runCmds ⟨.disallow, x⟩ (p ++ [c]) s0 = some s → ∃ s1 dir, topRareTr dir a s1 = some s := by
    intro p
    induction p with
    | nil =>
      intro s0 s h
      simp only [List.nil_append, runCmds] at h
      split at h
      · cases h
      · rename_i s1 h1
        cases h
        rcases hc with rfl | rfl
        · exact ⟨s0, _, h1⟩
        · exact ⟨s0, _, h1⟩
    | cons cmd p ih =>
      intro s0 s h
      rw [List.cons_append, runCmds] at h
      split at h
      · cases h
      · exact ih _ _ h
  obtain ⟨s1, dir, ht⟩ := run p _ s hs
  have bad : ∀ d0 e, progTree (DF.agg d0 [PE.withAlias (.fn c!"count" []) a.countField]) = some ⟨[], e⟩ → typeOf e = none := by
    intro d0 e h
    simp only [progTree] at h
    obtain ⟨g, hg, h⟩ := Typing.onResult_some h
    simp only [PE.withAlias, PE.unalias, colTrees, List.isEmpty_cons, Bool.false_eq_true, if_false, Option.map_eq_some_iff] at h
    obtain ⟨ts, hts, rfl⟩ := h
    simp only [pyTrees] at hts
    split at hts
    · rename_i t ts' ht _
      cases hts
      simp only [pyTree] at ht
      split at ht
      · simp only [Option.map_eq_some_iff] at ht
        obtain ⟨u, hu, rfl⟩ := ht
        have hu : some _ = _ := hu
        cases hu
        have : typesOf (PyE.call (.attr (.call (.attr (.name c!"F") c!"count") []) c!"alias") [.str a.countField] :: ts') = none := by
          have h0 : typeOf (.call (.attr (.name c!"F") c!"count") []) = none := by decide +kernel
          rw [typesOf, typeOf, h0]
        rw [mCall, typeOf, this]
        split <;> first | rfl | (rename_i h; cases h)
      · cases ht
    · cases hts
  have step : ∀ (d : DF) (m : Str) (f : PyE → Option PyE), (∀ s e, f s = some e → ∃ as, e = mCall s m as) →
      (∀ e, progTree d = some ⟨[], e⟩ → typeOf e = none) → ∀ e, onResult (progTree d) f = some ⟨[], e⟩ → typeOf e = none := by
    intro d m f hf hd e h
    obtain ⟨s, hs, h⟩ := Typing.onResult_some h
    obtain ⟨as, rfl⟩ := hf s e h
    rw [mCall, typeOf, hd s hs]
  unfold topRareTr at ht
  split at ht
  · cases ht
  · simp only [Option.some.injEq] at ht
    subst ht
    cases hd
    revert h3
    have h1 : ∀ e, progTree (if a.showPercent = true then
        (DF.agg (DF.groupBy s1.cur ((a.by_.getD a.fields).map .name)) [PE.withAlias (.fn c!"count" []) a.countField]).mkWithColumn a.percentField
          (PE.mkBin (.named c!"count") c!"/" (.fn c!"sum" [.named c!"count"]))
      else DF.agg (DF.groupBy s1.cur ((a.by_.getD a.fields).map .name)) [PE.withAlias (.fn c!"count" []) a.countField]) = some ⟨[], e⟩ → typeOf e = none := by
      split
      · intro e h
        simp only [DF.mkWithColumn] at h
        rw [progTree] at h
        refine step _ c!"withColumn" _ ?_ (bad _) e h
        intro s e h
        split at h
        · simp only [Option.map_eq_some_iff] at h
          obtain ⟨t, _, rfl⟩ := h
          exact ⟨_, rfl⟩
        · cases h
      · exact bad _
    have h2 : ∀ d0, (∀ e, progTree d0 = some ⟨[], e⟩ → typeOf e = none) → ∀ ks e, progTree (.orderBy d0 ks) = some ⟨[], e⟩ → typeOf e = none := by
      intro d0 hd0 ks e h
      rw [progTree] at h
      refine step _ c!"orderBy" _ ?_ hd0 e h
      intro s e h
      simp only [Option.map_eq_some_iff] at h
      obtain ⟨t, _, rfl⟩ := h
      exact ⟨_, rfl⟩
    split
    · intro h
      rw [progTree] at h
      refine step _ c!"limit" _ ?_ (h2 _ h1 _) e h
      intro s e h
      cases h
      exact ⟨_, rfl⟩
    · exact h2 _ h1 _ e

/-- **C82** fails when a command follows `tail`, which makes a list of rows; for the values `true` and `false`; for
names of functions, which are passed on when the translation does not know them, and so for the percentiles `perc95` and
`p95`, for `sparkline`, and for the conversions; and for the server group of `makeresults`. -/
theorem C82_calls_fail :
    [ (c!"tail 5 | table a", c!"spark.table('main').tail(5).select(F.col('a'),)"),
      (c!"where a=true", c!"spark.table('main').where((F.col('a') == F.lit(true)),)"),
      (c!"eval x=toint(a)", c!"spark.table('main').withColumn('x', F.toint(F.col('a')),)"),
      (c!"stats perc95(a) AS p", c!"spark.table('main').groupBy([]).agg(F.perc95(F.col('a')).alias('p'),)"),
      (c!"stats p95(a) AS p", c!"spark.table('main').groupBy([]).agg(F.p95(F.col('a')).alias('p'),)"),
      (c!"stats sparkline(a)", c!"spark.table('main').groupBy([]).agg(F.sparkline(F.col('a')).alias('sparkline'),)"),
      (c!"convert num(a)", c!"spark.table('main').withColumn('a', F.num(F.col('a')),)"),
      (c!"top 3 a", c!"spark.table('main').groupBy([\"a\", ]).agg(F.count().alias('count'),).withColumn('percent', F.col('count') / F.sum(F.col('count')),).orderBy(F.col('count').desc(),).limit(3,)"),
      (c!"makeresults annotate=true splunk_server_group=g", c!"spark.range(0, 1, 1).withColumn('_time', F.current_timestamp(),).withColumn('_raw', F.lit(None),).withColumn('host', F.lit(None),).withColumn('source', F.lit(None),).withColumn('sourcetype', F.lit(None),).withColumn('splunk_server', F.lit(\"local\"),).withColumn('splunk_server_group', F.lit(g),)") ].all
      (fun q => outOf .disallow q.1 == some q.2 && ((readProg q.2).map fun p => (p.stmts.length, typeOf p.result)) == some (0, none)) = true := by
  decide +kernel

/-- Queries that meet the conditions of `C82_calls_partial`. -/
example : [c!"index=main source=web status>=400 | eval b=round(bytes / 1024, 2), w=if(isnull(u), \"none\", upper(u)) | stats count, avg(b) AS mean, dc(w) BY host | where mean>2 AND match(host, \"^w\")",
      c!"makeresults count=3 | eval x=substr(\"abc\", 2, 1) | fillnull value=0 | rename x AS z | table z, y",
      c!"a=1 | join type=left b [search index=x | fields b, c] | rename c AS d | tail 4"].all
    (fun s => plainText .disallow s && ((parse s).map okQuery) == some true && ((outOf .disallow s).bind readProg).isSome) = true := by
  decide +kernel

/-- A query that meets the conditions of `C82_top_fails`. -/
example : plainText .disallow c!"index=main | top 3 a by b" = true ∧
    ((parse c!"index=main | top 3 a by b").bind fun p => p.getLast?.map fun c => match c with | .top _ => true | _ => false) = some true := by
  decide +kernel

end Verif.Props
