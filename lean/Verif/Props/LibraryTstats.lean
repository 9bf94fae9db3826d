import Verif.Props.LibraryMore
/-
C67: `tstats fillnull_value=...` with statistics, a filter and a BY list.
-/
namespace Verif.Props
open Verif Verif.Rt Verif.Spec Verif.Lemmas.Library

/-- **C67.** With the library, `tstats fillnull_value=v` as the first command, with shared statistics, an optional shared filter and
an optional BY list, computes what `where` and `stats` compute from the table of the data model in which `v` is written into
every column where it is null.  Missing: statistics and filters outside the shared ones, PREFIX. -/
theorem C67_tstats_fill_query_partial {W x o es ls m nn w bf v n} (so) (dd : Bool) (o1 : o.prestats = false) (o2 : o.local = false)
    (o3 : o.append = false) (o4 : o.includeReducedBuckets = false) (o5 : o.fillnullValue = some v) (hp : Plain '"' v = true)
    (hm : Plain '"' m = true) (hn : ∀ k, nn = some k → Plain '"' k = true) (hw : ∀ e, w = some e → Shared e)
    (h0 : es ≠ []) (h : SharedStats es ls) (hd : ls.Nodup) (hl : ∀ l ∈ ls, l ∉ [c!"df", c!"by", c!"from_", c!"fill_null_value", c!"where"])
    (hk : ∀ l ∈ ls, Keyword l) (hW : W.lookup [(c!"index", .lit (c!"\"" ++ modelTable m nn ++ c!"\""))] = some (.source (modelTable m nn))) :
    ∃ t e u r, transform ⟨.allow, x⟩ (.tstats o es (some m) nn w bf none) ⟨n, none⟩ = some t ∧
      (∀ (V : Type) (S : Spark V) (cast : Str → Str → V), FillsNulls S cast → ∀ k : Str,
        (S.meaning e).map (fun r => cell S.null r k) = (S.table (modelTable m nn)).map (fun r =>
          if k ∈ (W.types (.source (modelTable m nn))).map (·.1) then filled S cast (W.types (.source (modelTable m nn))) v k (cell S.null r k)
          else cell S.null r k)) ∧
      runCmds ⟨.disallow, x⟩ ((w.map Command.where_).toList ++ [.stats so es bf dd]) ⟨n, some e⟩ = some u ∧
      runDF W t.cur = some r ∧ SameRows r u.cur := by
  obtain ⟨e, he⟩ := fillCols_total (code := c!"\"" ++ v ++ c!"\"") (.source (modelTable m nn)) (typeOf_own (types := W.types (.source (modelTable m nn))))
  obtain ⟨ks, vs, cs, g, k1, k2, k3, k4, k8, k5, k6, k7⟩ := stats_of sameRows_closed (m := .allow) (by decide) h
  have hcs : cs.isEmpty = false := by
    cases cs with
    | nil => exact absurd (List.length_eq_zero_iff.1 k4.symm) h0
    | cons => rfl
  obtain ⟨fl, hfl⟩ : ∃ fl : PV, fl = .val (.lit (c!"\"" ++ v ++ c!"\"")) := ⟨_, rfl⟩
  have hok : tstatsOptsOk o = true := by simp only [tstatsOptsOk, o1, o2, o3, o4]; rfl
  -- the filter
  obtain ⟨wk, wv, f, w1, w2, w3, w4, w5⟩ : ∃ wk wv, ∃ f : DF → DF, whereKwarg .allow w = some wk ∧ kwVals wk = some wv ∧
      (∀ d, whereStep .disallow w d = some (f d)) ∧
      ((wv = [] ∧ ∀ d, whereStepRt none d = some (f d)) ∨ ∃ v, wv = [(c!"where", v)] ∧ ∀ d, whereStepRt (some v) d = some (f d)) ∧ True := by
    cases w with
    | none => exact ⟨[], [], id, rfl, rfl, fun _ => rfl, .inl ⟨rfl, fun _ => rfl⟩, trivial⟩
    | some e =>
      obtain ⟨p, q, hs⟩ := shared_same (hw e rfl)
      have hv := hs.val
      rw [hs.flat] at hv
      refine ⟨[(c!"where", .expr p)], [(c!"where", .val (shape (isColumn e) q.unalias))], fun d => .where_ d q.unalias, ?_, ?_, ?_, .inr ⟨_, rfl, ?_⟩, trivial⟩
      · simp only [whereKwarg, hs.all, Option.map_some]
      · simp only [kwVals, reVal, hv, Option.map_some]
      · intro d; simp only [whereStep, hs.dis, Option.map_some, DF.mkWhere]
      · intro d; simp only [whereStepRt, exprCol, (shape_stands _ _).toExpr, Option.map_some]
  -- the BY list
  obtain ⟨bv, b1, b2⟩ : ∃ bv, kwVals (byKwarg bf) = some bv ∧
      ((bv = [] ∧ (bf.getD []) = []) ∨ bv = [(c!"by", .list ((bf.getD []).map fun f => .col (byField f).toPE))]) := by
    cases bf with
    | none => exact ⟨[], rfl, .inl ⟨rfl, rfl⟩⟩
    | some fs => exact ⟨_, by simp only [byKwarg, kwVals, reVal, by_vals, Option.map_some]; rfl, .inr rfl⟩
  -- the data model
  obtain ⟨fv, f1, f2⟩ : ∃ fv, reVal (.dict [(c!"datamodel", pyOptStr (some m)), (c!"nodename", pyOptStr nn)]) = some fv ∧
      specifier fv = some (m, nn) := by
    have hsm : strOf (c!"\"" ++ m ++ c!"\"") = some m := strOf_plain hm
    cases nn with
    | none =>
      refine ⟨.dict [(c!"datamodel", .lit (c!"\"" ++ m ++ c!"\"")), (c!"nodename", .lit c!"None")], rfl, ?_⟩
      have d1 : ∀ a b : RV, dictGet c!"datamodel" [(c!"datamodel", a), (c!"nodename", b)] = some a := fun _ _ => rfl
      have d2 : ∀ a b : RV, dictGet c!"nodename" [(c!"datamodel", a), (c!"nodename", b)] = some b := fun _ _ => rfl
      simp only [specifier, d1, d2, Option.bind_some, strVal, hsm, optStr, if_true]
    | some k =>
      refine ⟨.dict [(c!"datamodel", .lit (c!"\"" ++ m ++ c!"\"")), (c!"nodename", .lit (c!"\"" ++ k ++ c!"\""))], rfl, ?_⟩
      have d1 : ∀ a b : RV, dictGet c!"datamodel" [(c!"datamodel", a), (c!"nodename", b)] = some a := fun _ _ => rfl
      have d2 : ∀ a b : RV, dictGet c!"nodename" [(c!"datamodel", a), (c!"nodename", b)] = some b := fun _ _ => rfl
      have hne : ¬ (c!"\"" ++ k ++ c!"\"" = c!"None") := by simp
      simp only [specifier, d1, d2, Option.bind_some, strVal, hsm, optStr, if_neg hne, strOf_plain (hn k rfl), Option.map_some]
  have hl' : ∀ v ∈ vs, v.1 ∉ [c!"df", c!"by", c!"from_", c!"fill_null_value", c!"where"] := fun v hv =>
    hl v.1 (k3 ▸ List.mem_map.2 ⟨v, hv, rfl⟩)
  have gn : ∀ k ∈ [c!"df", c!"by", c!"from_", c!"fill_null_value", c!"where"], kwGet k vs = none := fun k hk =>
    kwGet_none fun hm => by
      obtain ⟨v, hv, rfl⟩ := List.mem_map.1 hm
      exact hl' v hv hk
  have hmem : ∀ k ∈ [c!"df", c!"by", c!"from_", c!"fill_null_value", c!"where"], k ∉ ls := fun k hk hm => hl k hm hk
  have kall : kwVals ([(c!"from_", .dict [(c!"datamodel", pyOptStr (some m)), (c!"nodename", pyOptStr nn)])] ++ [(c!"fill_null_value", .expr (pyStr v))] ++ wk ++ byKwarg bf ++ ks) =
      some ([(c!"from_", fv), (c!"fill_null_value", fl)] ++ wv ++ bv ++ vs) := by
    refine kwVals_append (kwVals_append (kwVals_append ?_ w2) b1) k2
    have hv' : reVal (.expr (pyStr v)) = some fl := hfl ▸ rfl
    simp only [List.cons_append, List.nil_append, kwVals, f1, hv']
  have hdis : distinct ([(c!"from_", fv), (c!"fill_null_value", fl)] ++ wv ++ bv ++ vs) = true := by
    apply distinct_of
    have e1 := hmem c!"from_" (by decide)
    have e2 := hmem c!"where" (by decide)
    have e3 := hmem c!"by" (by decide)
    have e4 := hmem c!"fill_null_value" (by decide)
    rcases w4 with ⟨rfl, _⟩ | ⟨z, rfl, _⟩ <;> rcases b2 with ⟨rfl, _⟩ | rfl <;> simp [k3, hd, e1, e2, e3, e4]
    have a1 : Keyword c!"from_" := by decide
    have a4 : Keyword c!"fill_null_value" := by decide
    have a2 : Keyword c!"where" := by decide
    have a3 : Keyword c!"by" := by decide
    rcases w4 with ⟨rfl, _⟩ | ⟨z, rfl, _⟩ <;> rcases b2 with ⟨rfl, _⟩ | rfl <;>
      simp only [List.map_append, List.map_cons, List.map_nil, k3, List.mem_append, List.mem_cons, List.not_mem_nil, or_false] <;>
      grind
  have ho : others [c!"by"] (others [c!"from_", c!"fill_null_value", c!"where"] ([(c!"from_", fv), (c!"fill_null_value", fl)] ++ wv ++ bv ++ vs)) = vs := by
    have hv : others [c!"by"] (others [c!"from_", c!"fill_null_value", c!"where"] vs) = vs := by
      rw [others_of (vs := vs) (fun v hv hb => hl' v hv (by
        simp only [List.mem_cons, List.not_mem_nil, or_false] at hb ⊢
        rcases hb with hb | hb | hb <;> simp [hb])), others_of (fun v hv hb => hl' v hv (by
        simp only [List.mem_singleton] at hb
        simp [hb]))]
    simp only [others, List.filter_append] at hv ⊢
    rw [hv]
    rcases w4 with ⟨rfl, _⟩ | ⟨z, rfl, _⟩ <;> rcases b2 with ⟨rfl, _⟩ | rfl <;> rfl
  have ho2 : others [c!"from_", c!"fill_null_value", c!"where"] ([(c!"from_", fv), (c!"fill_null_value", fl)] ++ wv ++ bv ++ vs) = bv ++ vs := by
    have hv : others [c!"from_", c!"fill_null_value", c!"where"] vs = vs := others_of (vs := vs) (fun v hv hb => hl' v hv (by
        simp only [List.mem_cons, List.not_mem_nil, or_false] at hb ⊢
        rcases hb with hb | hb | hb <;> simp [hb]))
    simp only [others, List.filter_append] at hv ⊢
    rw [hv]
    rcases w4 with ⟨rfl, _⟩ | ⟨z, rfl, _⟩ <;> rcases b2 with ⟨rfl, _⟩ | rfl <;> rfl
  have g1 : kwGet c!"df" ([(c!"from_", fv), (c!"fill_null_value", fl)] ++ wv ++ bv ++ vs) = none := by
    have := gn c!"df" (by decide)
    rcases w4 with ⟨rfl, _⟩ | ⟨z, rfl, _⟩ <;> rcases b2 with ⟨rfl, _⟩ | rfl <;> simp [kwGet, this]
  have g2 : kwGet c!"from_" ([(c!"from_", fv), (c!"fill_null_value", fl)] ++ wv ++ bv ++ vs) = some fv := by simp [kwGet]
  have g3 : kwGet c!"fill_null_value" ([(c!"from_", fv), (c!"fill_null_value", fl)] ++ wv ++ bv ++ vs) = some fl := by
    simp [kwGet]
  have g4 : ∀ d, whereStepRt (kwGet c!"where" ([(c!"from_", fv), (c!"fill_null_value", fl)] ++ wv ++ bv ++ vs)) d = some (f d) := by
    have := gn c!"where" (by decide)
    intro d
    rcases w4 with ⟨rfl, h⟩ | ⟨z, rfl, h⟩ <;> rcases b2 with ⟨rfl, _⟩ | rfl <;> simp [kwGet, this, h]
  have g5 : kwGet c!"df" (bv ++ vs) = none := by
    have := gn c!"df" (by decide)
    rcases b2 with ⟨rfl, _⟩ | rfl <;> simp [kwGet, this]
  have g6 : byCols (kwGet c!"by" (bv ++ vs)) = some ((bf.getD []).map fun f => (byField f).toPE) := by
    have := gn c!"by" (by decide)
    rcases b2 with ⟨rfl, hb⟩ | rfl
    · simp [this, hb, byCols]
    · simp [kwGet, byCols, by_cols]
  have hfill : fillStep W (some fl) (.source (modelTable m nn)) = some e := by
    have q1 : ∀ a : PV, kwGet c!"value" [(c!"value", a)] = some a := fun _ => rfl
    have q2 : ∀ a : PV, kwGet c!"fields" [(c!"value", a)] = none := fun _ => rfl
    have q3 : ∀ a : PV, (others [c!"value", c!"fields"] [(c!"value", a)]).isEmpty = true := fun _ => rfl
    simp only [hfl, fillStep, cmdFillNull, q1, q2, q3, List.isEmpty_nil, Bool.and_self, if_true, strOf_plain hp, Option.isSome_some, fillFields, he]
  refine ⟨St.putRuntime ⟨n, none⟩ c!"tstats" [] ([(c!"from_", .dict [(c!"datamodel", pyOptStr (some m)), (c!"nodename", pyOptStr nn)])] ++
      [(c!"fill_null_value", .expr (pyStr v))] ++ wk ++ byKwarg bf ++ ks), e,
    ⟨n, some (.agg (.groupBy (g (f e)) ((bf.getD []).map byField)) cs)⟩,
      .agg (.groupBy (g (f e)) (((bf.getD []).map fun f => (byField f).toPE).map .col)) cs, ?_, fun V S cast hS k => fillCols_values hS he, ?_, ?_,
      groups_of sameRows_closed (SameRows.refl _) (fun _ _ => trivial) k8⟩
  · simp only [transform, dispatch, tstatsRuntime, hok, if_true, w1, k1, Option.map_some, o5, orElse]
  · have hst : ∀ d, transform ⟨.disallow, x⟩ (.stats so es bf dd) ⟨n, some d⟩ = some ⟨n, some (.agg (.groupBy (g d) ((bf.getD []).map byField)) cs)⟩ := by
      intro d
      simp only [transform, dispatch, statsStandalone, St.cur, Option.getD_some, k6, Option.map_some, St.put]
    have hwh := w3 e
    cases w with
    | none =>
      simp only [whereStep, Option.some.injEq] at hwh
      simp only [Option.map_none, Option.toList_none, List.nil_append, runCmds, hst, ← hwh]
    | some a =>
      simp only [whereStep, Option.map_eq_some_iff] at hwh
      obtain ⟨q, hq, hf⟩ := hwh
      simp only [Option.map_some, Option.toList_some, List.cons_append, List.nil_append, runCmds, transform, dispatch, whereTr, hq, Option.map_some, St.put, St.cur,
        Option.getD_some, hf]
      have := hst (f e)
      simp only [transform, dispatch] at this
      rw [this]
  · simp only [St.putRuntime, St.cur, Option.getD_some, runDF, command, argVals, kall, hdis, if_true]
    rw [if_neg (by decide), if_neg (by decide), if_neg (by decide), if_neg (by decide), if_neg (by decide)]
    simp only [cmdTstats, List.isEmpty_nil, g1, Option.isNone_none, Bool.and_self, if_true, g2, Option.bind_some, f2, hW, g3, hfill, g4,
      ho2, cmdStats, g5, g6]
    rw [show others [c!"by"] (bv ++ vs) = vs from ho2 ▸ ho]
    simp only [k5, hcs]
    rfl

/-- `tstats fillnull_value=0 count, max(x) as top, latest(len(y)) from datamodel=M.n where x=1 by host` -/
example (types) : ∃ t e u r,
    transform ⟨.allow, Tests.ext⟩ (.tstats { tstatsOpts with fillnullValue := some c!"0" } statsExample (some c!"M") (some c!"M.n")
      (some (.binary (.const (.field c!"x")) c!"=" (.const (.int 1)))) (some [⟨c!"host", none⟩]) none) ⟨1, none⟩ = some t ∧
    (∀ (V : Type) (S : Spark V) (cast : Str → Str → V), FillsNulls S cast → ∀ k : Str,
      (S.meaning e).map (fun r => cell S.null r k) = (S.table (modelTable c!"M" (some c!"M.n"))).map (fun r =>
        if k ∈ ((delivered types).types (.source (modelTable c!"M" (some c!"M.n")))).map (·.1) then
          filled S cast ((delivered types).types (.source (modelTable c!"M" (some c!"M.n")))) c!"0" k (cell S.null r k)
        else cell S.null r k)) ∧
    runCmds ⟨.disallow, Tests.ext⟩ [.where_ (.binary (.const (.field c!"x")) c!"=" (.const (.int 1))),
      .stats ⟨1, false, c!" "⟩ statsExample (some [⟨c!"host", none⟩]) false] ⟨1, some e⟩ = some u ∧
    runDF (delivered types) t.cur = some r ∧ SameRows r u.cur :=
  C67_tstats_fill_query_partial ⟨1, false, c!" "⟩ false rfl rfl rfl rfl rfl (by decide) (by decide) (by rintro k ⟨⟩; decide)
    (by rintro e ⟨⟩; exact .binary (by decide) (.const rfl) (.const rfl) rfl rfl) (by decide) statsExample_ok (by decide) (by decide) (by decide)
    (lookup_delivered (by decide) (by decide))

end Verif.Props
