import Verif.Props.Frames
/-
C34-C39: sort, stats, top/rare, lookup, fillnull, bin.
-/
namespace Verif.Props
open Verif Verif.Spec

variable {V : Type}

/-! ### C34: sort -/

/-- a sort key as written: optional sign and field -/
structure SortKey where
  sign : Option Str
  field : Str

/-- descending: marked `-`; a trailing `desc` inverts every key -/
def SortKey.desc (k : SortKey) (trailing : Bool) : Bool := (k.sign == some c!"-") != trailing

/-- the Python text of one key -/
def SortKey.python (k : SortKey) (trailing : Bool) : Str :=
  c!"F.col('" ++ k.field ++ (if k.desc trailing then c!"').desc()" else c!"').asc()")

/-- the key as parsed -/
def SortKey.parsed (k : SortKey) : Option Str × Expr := (k.sign, .const (.field k.field))

theorem sortKeys_spec (d : Bool) : ∀ (ks : List (Option Str × Expr)) (cols : List PE), sortKeys d ks = some cols →
    ∃ keys : List SortKey, ks = keys.map SortKey.parsed ∧
      (∀ k ∈ keys, k.sign = none ∨ k.sign = some c!"+" ∨ k.sign = some c!"-") ∧
      cols.map renderC = keys.map (SortKey.python · d)
  | [], cols, h => by
    simp only [sortKeys, Option.some.injEq] at h
    subst h
    exact ⟨[], rfl, by simp, rfl⟩
  | (sg, e) :: ks, cols, h => by
    rw [sortKeys] at h
    split at h
    · simp at h
    · rename_i c hc
      split at h
      · simp at h
      · rename_i k hk
        split at h
        · simp at h
        · rename_i cs hcs
          simp only [Option.some.injEq] at h
          subst h
          obtain ⟨keys, rfl, hs, hr⟩ := sortKeys_spec d ks cs hcs
          unfold sortExpr at hc
          split at hc
          · rename_i f
            simp only [Option.some.injEq] at hc
            subst hc
            simp only [sortDir, Option.map_eq_some_iff] at hk
            obtain ⟨b, hb, rfl⟩ := hk
            have hb : (sg = none ∨ sg = some c!"+" ∨ sg = some c!"-") ∧ b = SortKey.desc ⟨sg, f⟩ d := by
              cases sg with
              | none =>
                simp only [Option.some.injEq] at hb
                subst hb
                refine ⟨.inl rfl, ?_⟩
                cases d <;> rfl
              | some g =>
                dsimp only at hb
                split at hb
                · rename_i hg
                  simp only [Option.some.injEq] at hb
                  subst hg; subst hb
                  refine ⟨.inr (.inl rfl), ?_⟩
                  cases d <;> rfl
                · split at hb
                  · rename_i hg
                    simp only [Option.some.injEq] at hb
                    subst hg; subst hb
                    refine ⟨.inr (.inr rfl), ?_⟩
                    cases d <;> rfl
                  · simp at hb
            refine ⟨⟨sg, f⟩ :: keys, rfl, ?_, ?_⟩
            · intro k hk
              rcases List.mem_cons.1 hk with rfl | hk
              · exact hb.1
              · exact hs k hk
            · rw [List.map_cons, List.map_cons, hr, hb.2]
              congr 1
              unfold SortKey.python
              cases SortKey.desc ⟨sg, f⟩ d <;>
                simp [renderC, renderE, PE.mkMethod, PE.unalias, renderArgs, joinWith]
          · simp at hc

/-- **C34** The ordering of a translated `sort` lists its keys in query order; a key is descending exactly
when it is marked `-`, or, with a trailing `desc`, exactly when it is not. -/
theorem C34_sort_keys (c : Ctx) (ks : List (Option Str × Expr)) (n : Int) (d : Bool) (s t : St)
    (h : transform c (.sort ks n d) s = some t) :
    ∃ (keys : List SortKey) (cols : List PE), ks = keys.map SortKey.parsed ∧
      (∀ k ∈ keys, k.sign = none ∨ k.sign = some c!"+" ∨ k.sign = some c!"-") ∧
      cols.map renderC = keys.map (SortKey.python · d) ∧
      t.cur = if n = 0 then .orderBy s.cur cols else .limit (.orderBy s.cur cols) (toU64 n) := by
  rw [transform] at h
  have h := dispatch_standalone h
  simp only [sortTr, Option.map_eq_some_iff] at h
  obtain ⟨cols, hc, rfl⟩ := h
  obtain ⟨keys, h1, h2, h3⟩ := sortKeys_spec d ks cols hc
  refine ⟨keys, cols, h1, h2, h3, ?_⟩
  by_cases hn : n = 0 <;> simp [hn, St.put, St.cur]

example : (parse c!"sort 0 -a, +b, c desc").bind (renderPipeline ⟨.disallow, ⟨fun _ => none, id⟩⟩) =
    some c!"spark.table('main').orderBy(F.col('a').asc(), F.col('b').desc(), F.col('c').desc(),)" := by decide +kernel

/-! ### C35: stats -/

/-- the `AS` name of a listed function -/
def asName : Expr → Option Str
  | .alias _ n => some n
  | .aliasedField _ n => some n
  | _ => none

/-- `d'` is `d` sorted by `_time` some number of times -/
inductive TimeSorted (d : DF) : DF → Prop
  | same : TimeSorted d d
  | sort {d' : DF} : TimeSorted d d' → TimeSorted d (.orderBy d' [.method (.named c!"_time") c!"asc" []])

/-- the Python text of a BY field -/
def byText (f : SpField) : Str :=
  match f.span with
  | none => c!"\"" ++ f.field ++ c!"\""
  | some t => c!"F.window(\"" ++ f.field ++ c!"\", \"" ++ showInt t.value ++ c!" " ++ t.scale ++ c!"\")"

theorem byField_text (f : SpField) : (byField f).render = byText f := by
  unfold byField byText
  cases f.span with
  | none => rfl
  | some t => simp [CN.render, renderC, renderArgs, renderE, joinWith, pyStr, spanText]

theorem unaliasName_snd (e : Expr) : (Expr.unaliasName e).2 = asName e := by
  cases e <;> rfl

/-- one aggregate column per function, the `i`-th named by the `AS` of the `i`-th function -/
def NamedAs : List Expr → List PE → Prop
  | [], [] => True
  | e :: es, p :: ps => (∀ a, asName e = some a → ∃ c, p = .aliased c a) ∧ NamedAs es ps
  | _, _ => False

theorem TimeSorted.trans {a b c : DF} (h : TimeSorted a b) (h' : TimeSorted b c) : TimeSorted a c := by
  induction h' with
  | same => exact h
  | sort _ ih => exact .sort ih

theorem statsExpr_spec {m : Mode} {d : DF} {e : Expr} {q : DF × PE} (h : statsExpr m d e = some q) :
    TimeSorted d q.1 ∧ ∀ a, asName e = some a → ∃ c, q.2 = .aliased c a := by
  unfold statsExpr at h
  split at h
  · rename_i n args al hu
    simp only [Option.map_eq_some_iff] at h
    obtain ⟨⟨d', c⟩, hs, rfl⟩ := h
    have hbare : ∀ r, statsFnBare n (argsTr m args) d = some r → TimeSorted d r.1 := by
      intro r hr
      simp only [statsFnBare, Option.map_eq_some_iff] at hr
      obtain ⟨_, _, rfl⟩ := hr
      dsimp only
      split
      · exact .sort .same
      · exact .same
    have hrt : ∀ r, statsFnRuntime n (argsTr m args) d = some r → TimeSorted d r.1 := by
      intro r hr
      simp only [statsFnRuntime, Option.map_eq_some_iff] at hr
      obtain ⟨_, _, rfl⟩ := hr
      exact .same
    refine ⟨show TimeSorted d (d', c).1 from ?_, ?_⟩
    · unfold statsFn at hs
      split at hs
      · exact hbare _ hs
      · exact hrt _ hs
      · unfold orElse at hs
        split at hs
        · rename_i hx
          simp only [Option.some.injEq] at hs
          subst hs
          exact hrt _ hx
        · exact hbare _ hs
    · intro a ha
      have : al = some a := by rw [← unaliasName_snd, hu] at ha; exact ha
      subst this
      exact ⟨_, rfl⟩
  · simp at h

theorem statsLoop_spec {m : Mode} : ∀ (es : List Expr) (d : DF) (q : DF × List PE), statsLoop m es d = some q →
    TimeSorted d q.1 ∧ NamedAs es q.2
  | [], d, q, h => by
    simp only [statsLoop, Option.some.injEq] at h
    subst h
    exact ⟨.same, trivial⟩
  | e :: es, d, q, h => by
    rw [statsLoop] at h
    split at h
    · simp at h
    · rename_i d' c hc
      split at h
      · simp at h
      · rename_i d'' cs hcs
        simp only [Option.some.injEq] at h
        subst h
        obtain ⟨h1, h2⟩ := statsExpr_spec hc
        obtain ⟨h3, h4⟩ := statsLoop_spec es d' _ hcs
        exact ⟨h1.trans h3, h2, h4⟩

/-- **C35** (standalone half) The program of `stats` groups the frame so far (at most sorted by time) by
exactly the BY fields and computes one aggregate per listed function, in order, named by its `AS`.
Missing for the full property: with the runtime library two functions can share a name
(`C35_runtime_collision`). -/
theorem C35_standalone_partial (x : Ext) (o : StatsOpts) (fs : List Expr) (bys : Option (List SpField)) (dd : Bool) (s t : St)
    (h : transform ⟨.disallow, x⟩ (.stats o fs bys dd) s = some t) :
    ∃ (d : DF) (keys : List CN) (aggs : List PE), t.cur = .agg (.groupBy d keys) aggs ∧
      TimeSorted s.cur d ∧ keys.map CN.render = (bys.getD []).map byText ∧
      aggs.length = fs.length ∧ NamedAs fs aggs := by
  simp only [transform, dispatch, statsStandalone, Option.map_eq_some_iff] at h
  obtain ⟨⟨d, aggs⟩, hl, rfl⟩ := h
  obtain ⟨h1, h2⟩ := statsLoop_spec fs s.cur _ hl
  refine ⟨d, _, aggs, rfl, h1, ?_, ?_, h2⟩
  · rw [List.map_map]
    congr 1
    funext f
    exact byField_text f
  · dsimp only at h2
    clear hl h1
    induction fs generalizing aggs with
    | nil => cases aggs with
      | nil => rfl
      | cons => exact absurd h2 id
    | cons f fs ih => cases aggs with
      | nil => exact absurd h2 id
      | cons a aggs => simp only [List.length_cons, ih aggs h2.2]

/-- the label of a function in the runtime form: its `AS` name, else the name of the function -/
def labelOf : Expr → Option Str
  | .alias e n => (labelOf e).map fun _ => n
  | .call f _ => some f
  | _ => none

theorem labelOf_eq : ∀ e : Expr, labelOf e = match Expr.unaliasName e with
    | (.call f _, al) => some (al.getD f)
    | _ => none
  | .alias e n => by
    rw [labelOf, labelOf_eq e, Expr.unaliasName]
    generalize Expr.unaliasName e = q
    obtain ⟨x, y⟩ := q
    cases x <;> rfl
  | .const _ | .fv .. | .fb .. | .fc .. | .unary .. | .call .. | .fieldIn .. | .timeModifier _ | .searchModifier _
  | .subSearch _ | .binary .. | .aliasedField .. => rfl

theorem statsRuntimeExprs_labels {m : Mode} : ∀ (es : List Expr) (ks : List (Str × RE)),
    statsRuntimeExprs m es = some ks → ks.map (some ∘ Prod.fst) = es.map labelOf
  | [], ks, h => by simp only [statsRuntimeExprs, Option.some.injEq] at h; subst h; rfl
  | e :: es, ks, h => by
    rw [statsRuntimeExprs] at h
    split at h
    · simp at h
    · rename_i k hk
      split at h
      · simp at h
      · rename_i ks' hks
        simp only [Option.some.injEq] at h
        subst h
        rw [List.map_cons, List.map_cons, statsRuntimeExprs_labels es ks' hks]
        congr 1
        rw [labelOf_eq]
        unfold statsRuntimeExpr at hk
        split at hk
        · rename_i n args al hu
          simp only [Option.map_eq_some_iff] at hk
          obtain ⟨xs, _, rfl⟩ := hk
          rw [hu]
          rfl
        · simp at hk

/-- **C35** (runtime half) One call, with one keyword per function in order, named by its `AS` (or by the
function), after the BY fields.  When the labels differ (and none is `by`) no keyword is repeated.
Missing: equal labels, see `C35_runtime_collision`. -/
theorem C35_runtime_partial (m : Mode) (fs : List Expr) (bys : Option (List SpField)) (s t : St)
    (h : statsRuntime m fs bys s = some t) :
    ∃ (byArg ks : List (Str × RE)), t = s.putRuntime c!"stats" [] (byArg ++ ks) ∧
      ks.map (some ∘ Prod.fst) = fs.map labelOf ∧
      byArg.map (fun k => k.1 ++ c!"=" ++ k.2.render) = (bys.toList.map fun l =>
        c!"by=[ " ++ joinWith c!", " (l.map fun f => match f.span with
          | none => c!"F.col('" ++ f.field ++ c!"')"
          | some _ => byText f) ++ c!" ]") ∧
      ((fs.filterMap labelOf).Nodup → c!"by" ∉ fs.filterMap labelOf → ((byArg ++ ks).map Prod.fst).Nodup) := by
  simp only [statsRuntime, Option.map_eq_some_iff] at h
  obtain ⟨ks, hk, rfl⟩ := h
  have hl := statsRuntimeExprs_labels fs ks hk
  have hf : fs.filterMap labelOf = ks.map Prod.fst := by
    have := congrArg (List.filterMap id) hl
    rw [List.filterMap_map, List.filterMap_map] at this
    have e1 : List.filterMap (id ∘ some ∘ Prod.fst) ks = ks.map Prod.fst := by
      rw [← List.filterMap_eq_map]; rfl
    rw [e1] at this
    exact this.symm
  refine ⟨byKwarg bys, ks, rfl, hl, ?_, ?_⟩
  · cases bys with
    | none => rfl
    | some l =>
      simp only [byKwarg, List.map_cons, List.map_nil, RE.render, List.map_map, Option.toList]
      congr 1
      have hrw : (fun f : SpField => renderE (byField f).toPE) = fun f => match f.span with
          | none => c!"F.col('" ++ f.field ++ c!"')"
          | some _ => byText f := ?_
      · rw [← hrw]; simp [Function.comp_def]
      funext f
      have := byField_text f
      simp only [Function.comp, byField] at this ⊢
      cases hs : f.span with
      | none => simp [CN.toPE, renderE]
      | some t =>
        rw [hs] at this
        simp only [CN.render] at this
        simp only [CN.toPE]
        rw [← this]
        rfl
  · intro h1 h2
    rw [hf] at h1 h2
    cases bys with
    | none => simpa [byKwarg] using h1
    | some l =>
      simp only [byKwarg, List.map_append, List.map_cons, List.map_nil, List.singleton_append, List.nodup_cons]
      exact ⟨h2, h1⟩

/-- Two sums in one `stats` are two arguments of the same name, which Python rejects. -/
theorem C35_runtime_collision :
    (parse c!"stats sum(a) sum(b)").bind (renderPipeline ⟨.allow, ⟨fun _ => none, id⟩⟩) =
      some c!"df_1 = commands.stats(None, sum=functions.stats.sum(F.col('a')), sum=functions.stats.sum(F.col('b')))\ndf_1" := by
  decide +kernel

example : (parse c!"stats sum(a) AS x latest(b) BY c d").bind (renderPipeline ⟨.disallow, ⟨fun _ => none, id⟩⟩) =
    some c!"spark.table('main').orderBy(F.col('_time').asc(),).groupBy([\"c\", \"d\", ]).agg(F.sum(F.col('a')).alias('x'), F.last(F.col('b'), True).alias('latest'),)" := by
  decide +kernel

end Verif.Props
