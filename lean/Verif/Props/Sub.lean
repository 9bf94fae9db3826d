import Verif.Props.Search
import Verif.Props.Names
import Verif.Lemmas.Shape
/-
C40 (join), C41 (multisearch), C52 (shape of a parsed query).
-/
set_option linter.unusedSectionVars false
namespace Verif.Props
open Verif Verif.Spec Verif.Lemmas

/-! ### C52 -/

/-- Every parsed query satisfies `Spec.cmdShape` and `Spec.exprShape` at every command and
expression, including those of sub-searches. -/
theorem C52_parsed_shape (q : Str) (p : Pipeline) (h : parse q = some p) : everyP exprShape cmdShape p :=
  Spl.parse_shape h

example : (parse c!"search a=1 AND NOT b IN (1,2) | join id [search index=x | table id] | sort -a").map List.length
    = some 3 := by decide +kernel

/-! ### C40 -/

/-- the test that the column `f` agrees on both sides -/
def sameField (f : Str) : PE := .bin c!"==" (.named (c!"LEFT." ++ f)) (.named (c!"RIGHT." ++ f))

/-- the test on the times -/
def timeTest (earlier : Bool) : PE :=
  .bin (if earlier then c!">=" else c!"<=") (.named c!"LEFT._time") (.named c!"RIGHT._time")

theorem joinKey_eq (f : Str) : joinKey f = sameField f := rfl

theorem joinBinFrom_and (cmp : PE → Bool) : ∀ (es : List Str) (e : PE), e.unalias = e →
    filterTruth cmp (joinBinFrom c!"&" e (es.map joinKey)) =
      (filterTruth cmp e && es.all fun f => cmp (sameField f)) ∧
    (joinBinFrom c!"&" e (es.map joinKey)).unalias = joinBinFrom c!"&" e (es.map joinKey)
  | [], e, h => by simp [joinBinFrom, h]
  | f :: fs, e, h => by
    have ih := joinBinFrom_and cmp fs (.bin c!"&" e (joinKey f)) rfl
    simp only [List.map_cons, joinBinFrom]
    refine ⟨?_, ih.2⟩
    rw [ih.1]
    have h2 : filterTruth cmp (.bin c!"&" e (joinKey f)) = (filterTruth cmp e && cmp (sameField f)) := by
      have h3 : joinKey f = sameField f := rfl
      have h4 : filterTruth cmp (sameField f) = cmp (sameField f) := by
        simp [sameField, filterTruth]
      simp [filterTruth, h3, h4]
    rw [h2, List.all_cons, Bool.and_assoc]

/-- A translated join keeps the current frame on the left and the sub-search's frame on the right,
has the kind asked for, and its condition holds exactly when every listed field (and nothing else)
agrees and, with `usetime`, the times are in the order asked for. -/
theorem C40_join_partial (c : Ctx) (o : JoinOpts) (fs : List Str) (sub : Pipeline) (s t : St)
    (h : transform c (.join o fs sub) s = some t) :
    o.max = 1 ∧ o.joinType ∈ [c!"inner", c!"left", c!"outer"] ∧
    ∃ (s' : St) (right : DF) (cond : PE),
      runCmds c sub ⟨s.next, none⟩ = some s' ∧ s'.df = some right ∧
      t.df = some (.join (.alias s.cur c!"LEFT") (.alias right c!"RIGHT") cond o.joinType) ∧
      ∀ cmp : PE → Bool, filterTruth cmp cond =
        ((fs.all fun f => cmp (sameField f)) && (!o.useTime || cmp (timeTest o.earlier))) := by
  rw [transform] at h
  have h := dispatch_standalone h
  unfold joinTr joinOutcome at h
  split at h
  · rename_i hmax
    refine ⟨hmax, ?_⟩
    split at h
    · simp [Outcome.toOption] at h
    · rename_i s' hs
      split at h
      · simp [Outcome.toOption] at h
      · rename_i right hr
        split at h
        · rename_i hty
          refine ⟨by simpa [or_assoc] using hty, s', right, ?_⟩
          cases fs with
          | nil => simp [joinAsBinaries, Outcome.toOption] at h
          | cons f fs =>
            simp only [List.map_cons, joinAsBinaries, Outcome.toOption, Option.some.injEq] at h
            refine ⟨_, hs, hr, by rw [← h]; rfl, fun cmp => ?_⟩
            have key := joinBinFrom_and cmp fs (joinKey f) rfl
            have h4 : filterTruth cmp (joinKey f) = cmp (sameField f) := by
              rw [joinKey_eq]; simp [sameField, filterTruth]
            unfold joinTime
            cases hu : o.useTime with
            | false => simp [key.2, key.1, h4]
            | true =>
              have h5 : ∀ a : PE, a.unalias = a → filterTruth cmp (PE.mkBin a c!"&" (PE.mkBin (.named c!"LEFT._time")
                  (if o.earlier then c!">=" else c!"<=") (.named c!"RIGHT._time"))).unalias =
                  (filterTruth cmp a && cmp (timeTest o.earlier)) := by
                intro a ha
                cases o.earlier <;> simp [PE.mkBin, PE.unalias, filterTruth, ha, timeTest]
              simp only [if_true]
              rw [h5 _ key.2, key.1, h4]
              simp
        · simp [Outcome.toOption] at h
  · simp [Outcome.toOption] at h

/-- `max` other than 1 and an unknown kind of join are rejected in every mode. -/
theorem C40_rejects (c : Ctx) (o : JoinOpts) (fs : List Str) (sub : Pipeline) (s : St)
    (h : o.max ≠ 1 ∨ o.joinType ∉ [c!"inner", c!"left", c!"outer"]) : transform c (.join o fs sub) s = none := by
  cases ht : transform c (.join o fs sub) s with
  | none => rfl
  | some t =>
    have := C40_join_partial c o fs sub s t ht
    rcases h with h | h
    · exact absurd this.1 h
    · exact absurd this.2.1 h

/-- Not every option that is not honoured is rejected: `overwrite` has no effect. -/
theorem C40_overwrite_ignored (c : Ctx) (o : JoinOpts) (fs : List Str) (sub : Pipeline) (s : St) (b : Bool) :
    transform c (.join { o with overwrite := b } fs sub) s = transform c (.join o fs sub) s := rfl

theorem C40_overwrite_query :
    (parse c!"join overwrite=false id [search index=x]").bind (renderPipeline ⟨.disallow, ⟨fun _ => none, id⟩⟩) =
    (parse c!"join overwrite=true id [search index=x]").bind (renderPipeline ⟨.disallow, ⟨fun _ => none, id⟩⟩) ∧
    ((parse c!"join overwrite=false id [search index=x]").bind
      (renderPipeline ⟨.disallow, ⟨fun _ => none, id⟩⟩)).isSome = true := by
  decide +kernel

mutual
theorem noPanicC (c : Ctx) : ∀ (cmd : Command) (s : St), everyC exprShape cmdShape cmd → panicsC c cmd s = false
  | .join o fs sub, s, h => by
    rw [everyC] at h
    have hp := noPanicP c sub ⟨s.next, none⟩ h.2
    have hf : fs ≠ [] := h.1
    rw [panicsC]
    split
    · rfl
    · split
      · rw [hp, Bool.false_or]
        split
        · rename_i hpan
          unfold joinOutcome at hpan
          split at hpan
          · split at hpan
            · simp at hpan
            · split at hpan
              · simp at hpan
              · split at hpan
                · split at hpan
                  · rename_i hj
                    cases fs with
                    | nil => exact absurd rfl hf
                    | cons f fs => simp [joinAsBinaries] at hj
                  · simp at hpan
                · simp at hpan
          · rename_i h1 _ h2; exact absurd h1 h2
        · rfl
      · rfl
  | .multiSearch ps, s, h => by
    rw [everyC] at h
    rw [panicsC]
    split
    · rfl
    · exact noPanicM c ps s.next h.2
  | .addTotals _, s, _ | .bin _, s, _ | .collect .., s, _ | .convert .., s, _ | .dataModel _, s, _ | .dedup .., s, _
  | .eval _, s, _ | .eventStats .., s, _ | .fields .., s, _ | .fillNull .., s, _ | .format .., s, _ | .head .., s, _
  | .inputLookup .., s, _ | .lookup _, s, _ | .makeResults _, s, _ | .map .., s, _ | .mvCombine .., s, _
  | .mvExpand .., s, _ | .rare _, s, _ | .regex .., s, _ | .rename _, s, _ | .return_ .., s, _ | .sort .., s, _
  | .spath .., s, _ | .stats .., s, _ | .streamStats .., s, _ | .table _, s, _ | .tail _, s, _ | .top _, s, _
  | .tstats .., s, _ | .where_ _, s, _ | .rex _, s, _ | .search _, s, _ => by simp only [panicsC]

theorem noPanicP (c : Ctx) : ∀ (p : List Command) (s : St), everyP exprShape cmdShape p → panicsP c p s = false
  | [], s, _ => by rw [panicsP]
  | cmd :: p, s, h => by
    rw [everyP] at h
    rw [panicsP, noPanicC c cmd s h.1, Bool.false_or]
    split
    · rfl
    · exact noPanicP c p _ h.2

theorem noPanicM (c : Ctx) : ∀ (ps : List (List Command)) (n : Nat), everyPs exprShape cmdShape ps → panicsM c ps n = false
  | [], n, _ => by rw [panicsM]
  | p :: ps, n, h => by
    rw [everyPs] at h
    rw [panicsM, noPanicP c p _ h.1, Bool.false_or]
    split
    · rfl
    · split
      · rfl
      · exact noPanicM c ps _ h.2
end

/-- The translation of a parsed query never panics, in any mode. -/
theorem C40_no_panic (q : Str) (p : Pipeline) (h : parse q = some p) (c : Ctx) : panicsP c p ⟨1, none⟩ = false :=
  noPanicP c p _ (Spl.parse_shape h)

/-- a join without fields, which the parser does not produce, would panic -/
example : panicsP ⟨.disallow, ⟨fun _ => none, id⟩⟩
    [.join ⟨c!"inner", false, true, true, 1⟩ [] [.table [c!"a"]]] ⟨1, none⟩ = true := by decide +kernel

/-- a join that is translated -/
example : ∃ t, transform ⟨.disallow, ⟨fun _ => none, id⟩⟩
    (.join ⟨c!"left", true, true, true, 1⟩ [c!"a", c!"b"] [.table [c!"a"]]) ⟨1, none⟩ = some t := ⟨_, rfl⟩

/-! ### C41 -/

/-- the union of the frames, in order -/
def unionOf : List DF → Option DF
  | [] => none
  | d :: ds => some (ds.foldl DF.unionByName d)

/-- the frame with the variables it assigns renamed -/
def mapNames (ρ : Str → Str) : DF → DF
  | .source n => .source n
  | .rawSource c => .rawSource c
  | .runtimeRoot n f a k => .runtimeRoot (ρ n) f a k
  | .runtime n s f a k => .runtime (ρ n) (mapNames ρ s) f a k
  | .named s n => .named (mapNames ρ s) (ρ n)
  | .select s c => .select (mapNames ρ s) c
  | .where_ s c => .where_ (mapNames ρ s) c
  | .groupBy s c => .groupBy (mapNames ρ s) c
  | .agg s c => .agg (mapNames ρ s) c
  | .withColumn s c n => .withColumn (mapNames ρ s) c n
  | .withColumnRenamed s o n => .withColumnRenamed (mapNames ρ s) o n
  | .orderBy s c => .orderBy (mapNames ρ s) c
  | .unionByName s o => .unionByName (mapNames ρ s) (mapNames ρ o)
  | .limit s n => .limit (mapNames ρ s) n
  | .tail s n => .tail (mapNames ρ s) n
  | .join s o c t => .join (mapNames ρ s) (mapNames ρ o) c t
  | .alias s n => .alias (mapNames ρ s) n
  | .arbitraryMethod s m p => .arbitraryMethod (mapNames ρ s) m p

/-- Renaming variables does not change what a frame means. -/
theorem mapNames_meaning {V : Type} (S : Spark V) (ρ : Str → Str) : ∀ d, S.meaning (mapNames ρ d) = S.meaning d
  | .source n | .rawSource c | .runtimeRoot .. => by simp [mapNames, Spark.meaning]
  | .runtime _ s .. | .named s _ | .select s _ | .where_ s _ | .groupBy s _ | .withColumn s _ _
  | .withColumnRenamed s _ _ | .orderBy s _ | .limit s _ | .tail s _ | .alias s _ | .arbitraryMethod s _ _ => by
    have := mapNames_meaning S ρ s
    simp only [mapNames, Spark.meaning, this]
  | .unionByName s o | .join s o _ _ => by
    have h1 := mapNames_meaning S ρ s
    have h2 := mapNames_meaning S ρ o
    simp only [mapNames, Spark.meaning, h1, h2]
  | .agg s c => by
    have h1 := mapNames_meaning S ρ s
    cases s <;> simp only [mapNames, Spark.meaning] at h1 ⊢ <;> first | rw [h1] | skip

theorem mapNames_id : ∀ d, mapNames (fun n => n) d = d
  | .source n | .rawSource c | .runtimeRoot .. => rfl
  | .runtime _ s .. | .named s _ | .select s _ | .where_ s _ | .groupBy s _ | .withColumn s _ _ | .agg s _
  | .withColumnRenamed s _ _ | .orderBy s _ | .limit s _ | .tail s _ | .alias s _ | .arbitraryMethod s _ _ => by
    simp only [mapNames, mapNames_id s]
  | .unionByName s o | .join s o _ _ => by simp only [mapNames, mapNames_id s, mapNames_id o]

/-- the state with the counter advanced by `k` and the variables renamed -/
def sh (ρ : Str → Str) (k : Nat) (s : St) : St := ⟨s.next + k, s.df.map (mapNames ρ)⟩

section
variable (ρ : Str → Str) (k : Nat)

theorem sh_cur (s : St) : (sh ρ k s).cur = mapNames ρ s.cur := by
  unfold St.cur sh
  cases s.df <;> rfl

theorem sh_put (s : St) (d : DF) : (sh ρ k s).put (mapNames ρ d) = sh ρ k (s.put d) := rfl

theorem sh_putRuntime (hρ : ρ (dfName n) = dfName (n + k)) (s : St) (hn : s.next = n) (f a kw) :
    (sh ρ k s).putRuntime f a kw = sh ρ k (s.putRuntime f a kw) := by
  subst hn
  unfold St.putRuntime sh
  cases s.df <;> simp [mapNames, hρ, Nat.add_right_comm]

theorem sh_map {α : Type} (s : St) (o : Option α) (g : α → DF) :
    (o.map fun a => (sh ρ k s).put (mapNames ρ (g a))) = (o.map fun a => s.put (g a)).map (sh ρ k) := by
  cases o <;> rfl

theorem mapNames_foldl {α : Type} (f g : DF → α → DF) (h : ∀ d a, mapNames ρ (f d a) = g (mapNames ρ d) a) :
    ∀ (l : List α) (d : DF), mapNames ρ (l.foldl f d) = l.foldl g (mapNames ρ d)
  | [], d => rfl
  | a :: l, d => by simp only [List.foldl_cons, mapNames_foldl f g h l, h]

theorem convertLoop_sh (t : Str) : ∀ (cs : List FieldConversion) (d : DF),
    convertLoop t cs (mapNames ρ d) = (convertLoop t cs d).map (mapNames ρ)
  | [], d => rfl
  | c :: cs, d => by
    simp only [convertLoop]
    cases convertFn t c with
    | none => rfl
    | some e => exact convertLoop_sh t cs (d.mkWithColumn (c.alias.getD c.field) e)

theorem evalLoop_sh (m : Mode) : ∀ (fs : List (Str × Expr)) (d : DF),
    evalLoop m fs (mapNames ρ d) = (evalLoop m fs d).map (mapNames ρ)
  | [], d => rfl
  | (n, e) :: fs, d => by
    simp only [evalLoop]
    cases exprTr m e with
    | none => rfl
    | some c =>
      dsimp only
      split
      · exact evalLoop_sh m fs (d.mkWithColumn n c)
      · rfl

theorem statsFnBare_sh (n : Str) (as : List Arg) (d : DF) :
    statsFnBare n as (mapNames ρ d) = (statsFnBare n as d).map fun x => (mapNames ρ x.1, x.2) := by
  unfold statsFnBare
  cases statsFnBareCol n as with
  | none => rfl
  | some e => simp only [Option.map_some]; split <;> rfl

theorem statsFn_sh (m : Mode) (n : Str) (as : List Arg) (d : DF) :
    statsFn m n as (mapNames ρ d) = (statsFn m n as d).map fun x => (mapNames ρ x.1, x.2) := by
  cases m with
  | disallow => exact statsFnBare_sh ρ n as d
  | require => simp only [statsFn, statsFnRuntime]; cases mapArgs as <;> rfl
  | allow =>
    simp only [statsFn, statsFnRuntime]
    cases mapArgs as with
    | none => exact statsFnBare_sh ρ n as d
    | some xs => rfl

theorem statsExpr_sh (m : Mode) (d : DF) (e : Expr) :
    statsExpr m (mapNames ρ d) e = (statsExpr m d e).map fun x => (mapNames ρ x.1, x.2) := by
  unfold statsExpr
  split
  · rw [statsFn_sh]
    simp only [Option.map_map]
    rfl
  · rfl

theorem statsLoop_sh (m : Mode) : ∀ (es : List Expr) (d : DF),
    statsLoop m es (mapNames ρ d) = (statsLoop m es d).map fun x => (mapNames ρ x.1, x.2)
  | [], d => rfl
  | e :: es, d => by
    simp only [statsLoop, statsExpr_sh]
    cases statsExpr m d e with
    | none => rfl
    | some x =>
      obtain ⟨d', c⟩ := x
      simp only [Option.map_some, statsLoop_sh m es d']
      cases statsLoop m es d' <;> rfl

theorem whereStep_sh (m : Mode) (w : Option Expr) (d : DF) :
    whereStep m w (mapNames ρ d) = (whereStep m w d).map (mapNames ρ) := by
  cases w with
  | none => rfl
  | some e => simp only [whereStep]; cases exprTr m e <;> rfl

theorem sh_dispatch (m : Mode) (_s : St) (rt sa rt' sa' : Option St) (h1 : m ≠ .disallow → rt' = rt.map (sh ρ k))
    (h2 : sa' = sa.map (sh ρ k)) : dispatch m rt' sa' = (dispatch m rt sa).map (sh ρ k) := by
  subst h2
  cases m with
  | disallow => rfl
  | require => exact h1 (by simp)
  | allow =>
    rw [h1 (by simp)]
    cases rt <;> rfl

theorem unionSources_sh : ∀ (l : List Str), (unionSources l).map (mapNames ρ) = unionSources l
  | [] => rfl
  | x :: xs => by
    simp only [unionSources, Option.map_some]
    rw [mapNames_foldl ρ _ (fun d n => .unionByName d (.source n)) (fun _ _ => rfl)]
    rfl

variable (m : Mode) (hρ : m ≠ .disallow → ∀ i, ρ (dfName i) = dfName (i + k))
include hρ

theorem sh_rt (hm : m ≠ .disallow) (s : St) (f a kw) :
    (sh ρ k s).putRuntime f a kw = sh ρ k (s.putRuntime f a kw) :=
  sh_putRuntime ρ k (hρ hm s.next) s rfl f a kw

theorem dataModelTr_sh (a : DataModel) (s : St) :
    dataModelTr m a (sh ρ k s) = (dataModelTr m a s).map (sh ρ k) := by
  unfold dataModelTr
  apply sh_dispatch ρ k m s
  · intro hm
    simp only [dataModelRuntime, Option.map_some, sh_rt ρ k m hρ hm]
  · unfold dataModelStandalone
    split
    · obtain ⟨n, df⟩ := s
      cases df with
      | none =>
        simp only [sh, Option.map_none]
        cases dataModelTable a.dataModelName a.datasetName <;> rfl
      | some d =>
        simp only [sh, Option.map_some]
        cases a.dataModelName <;> cases a.datasetName <;> rfl
    · rfl

theorem searchStandalone_sh (x : Ext) (e : Expr) (s : St) :
    searchStandalone ⟨m, x⟩ e (sh ρ k s) = (searchStandalone ⟨m, x⟩ e s).map (sh ρ k) := by
  unfold searchStandalone
  cases splitConditions true e with
  | none => rfl
  | some q =>
    obtain ⟨cond, is⟩ := q
    have hd : (unionSources (x.order (dedupStr is))).getD (sh ρ k s).cur =
        mapNames ρ ((unionSources (x.order (dedupStr is))).getD s.cur) := by
      have := unionSources_sh ρ (x.order (dedupStr is))
      cases hu : unionSources (x.order (dedupStr is)) with
      | none => simp only [Option.getD_none, sh_cur]
      | some d =>
        rw [hu, Option.map_some, Option.some.injEq] at this
        simp only [Option.getD_some, this]
    dsimp only
    rw [hd]
    cases cond with
    | none => rfl
    | some e =>
      dsimp only
      cases exprTr m e <;> rfl

theorem tstatsStandalone_sh (o : TStatsOpts) (es : List Expr) (dm nn : Option Str) (w : Option Expr)
    (bf : Option (List SpField)) (bp : Option Str) (s : St) :
    tstatsStandalone m o es dm nn w bf bp (sh ρ k s) = (tstatsStandalone m o es dm nn w bf bp s).map (sh ρ k) := by
  unfold tstatsStandalone
  split
  · rw [dataModelTr_sh ρ k m hρ]
    cases dataModelTr m ⟨dm, nn, some c!"search", false, o.allowOldSummaries, o.summariesOnly⟩ s with
    | none => rfl
    | some s =>
      simp only [Option.map_some, sh_cur, whereStep_sh]
      cases whereStep m w s.cur with
      | none => rfl
      | some d =>
        simp only [Option.map_some, statsLoop_sh]
        cases statsLoop m es d with
        | none => rfl
        | some y =>
          obtain ⟨d, aggs⟩ := y
          cases bf <;> cases bp <;> rfl
  · rfl

mutual
theorem transform_sh (x : Ext) : ∀ (cmd : Command) (s : St),
    transform ⟨m, x⟩ cmd (sh ρ k s) = (transform ⟨m, x⟩ cmd s).map (sh ρ k)
  | .addTotals a, s => by
    simp only [transform]
    refine sh_dispatch ρ k m s _ _ _ _ (fun _ => rfl) ?_
    simp only [addTotalsTr, sh_cur]; rfl
  | .bin a, s => by
    simp only [transform]
    refine sh_dispatch ρ k m s _ _ _ _ (fun _ => rfl) ?_
    simp only [binCmdTr, sh_cur]
    cases a.span <;> rfl
  | .convert t cs, s => by
    simp only [transform]
    refine sh_dispatch ρ k m s _ _ _ _ (fun _ => rfl) ?_
    simp only [convertTr, sh_cur, convertLoop_sh]
    cases convertLoop t cs s.cur <;> rfl
  | .dataModel a, s => by
    simp only [transform]
    exact dataModelTr_sh ρ k m hρ a s
  | .eval fs, s => by
    simp only [transform]
    refine sh_dispatch ρ k m s _ _ _ _ (fun hm => ?_) ?_
    · simp only [evalRuntime]
      cases evalKwargs m fs with
      | none => rfl
      | some ks => simp only [Option.map_some, sh_rt ρ k m hρ hm]
    · simp only [evalStandalone, sh_cur, evalLoop_sh]
      cases evalLoop m fs s.cur <;> rfl
  | .fields rm fs, s => by
    simp only [transform]
    refine sh_dispatch ρ k m s _ _ _ _ (fun _ => rfl) ?_
    simp only [fieldsTr, sh_cur]; rfl
  | .fillNull v fs, s => by
    simp only [transform]
    refine sh_dispatch ρ k m s _ _ _ _ (fun hm => ?_) ?_
    · simp only [fillNullRuntime, Option.map_some, sh_rt ρ k m hρ hm]
    · simp only [fillNullStandalone, sh_cur]; rfl
  | .head e kl n, s => by
    simp only [transform]
    refine sh_dispatch ρ k m s _ _ _ _ (fun _ => rfl) ?_
    simp only [headTr, sh_cur]
    cases headLimit e kl <;> rfl
  | .join o fs sub, s => by
    simp only [transform]
    refine sh_dispatch ρ k m s _ _ _ _ (fun _ => rfl) ?_
    have h := runCmds_sh x sub ⟨s.next, none⟩
    have h0 : sh ρ k ⟨s.next, none⟩ = ⟨(sh ρ k s).next, none⟩ := rfl
    rw [h0] at h
    rw [h]
    cases runCmds ⟨m, x⟩ sub ⟨s.next, none⟩ with
    | none => simp only [joinTr, joinOutcome, Option.map_none]; split <;> rfl
    | some s' =>
      obtain ⟨n', df'⟩ := s'
      simp only [joinTr, joinOutcome, Option.map_some, sh]
      cases df' with
      | none => split <;> rfl
      | some d =>
        simp only [Option.map_some]
        split
        · split
          · cases joinAsBinaries c!"&" (fs.map joinKey) with
            | none => rfl
            | some cond =>
              have := sh_cur ρ k s
              unfold sh at this
              simp only [Outcome.toOption, Option.map_some, this]
              rfl
          · rfl
        · rfl
  | .lookup a, s => by
    simp only [transform]
    refine sh_dispatch ρ k m s _ _ _ _ (fun _ => rfl) ?_
    simp only [lookupTr, sh_cur]
    cases lookupCols a.output <;> rfl
  | .makeResults a, s => by
    simp only [transform]
    refine sh_dispatch ρ k m s _ _ _ _ (fun _ => rfl) ?_
    simp only [makeResultsTr]
    cases a.annotate <;> rfl
  | .multiSearch ps, s => by
    cases ps with
    | nil =>
      simp only [transform]
      exact sh_dispatch ρ k m s _ _ _ _ (fun _ => rfl) rfl
    | cons p ps =>
      rw [transform, transform]
      · refine sh_dispatch ρ k m s _ _ _ _ (fun _ => rfl) ?_
        exact multi_sh x (p :: ps) s.next none
      · simp
      · simp
  | .rare a, s => by
    simp only [transform]
    refine sh_dispatch ρ k m s _ _ _ _ (fun _ => rfl) ?_
    simp only [topRareTr, sh_cur]
    by_cases h1 : a.useOther = true <;> by_cases h2 : a.showPercent = true <;> by_cases h3 : a.n = 0 <;>
      simp [h1, h2, h3, St.put, sh, mapNames, DF.mkWithColumn]
  | .top a, s => by
    simp only [transform]
    refine sh_dispatch ρ k m s _ _ _ _ (fun _ => rfl) ?_
    simp only [topRareTr, sh_cur]
    by_cases h1 : a.useOther = true <;> by_cases h2 : a.showPercent = true <;> by_cases h3 : a.n = 0 <;>
      simp [h1, h2, h3, St.put, sh, mapNames, DF.mkWithColumn]
  | .regex i r, s => by
    simp only [transform]
    refine sh_dispatch ρ k m s _ _ _ _ (fun _ => rfl) ?_
    simp only [regexTr, sh_cur, Option.map_map]
    rfl
  | .rename as, s => by
    simp only [transform]
    refine sh_dispatch ρ k m s _ _ _ _ (fun _ => rfl) ?_
    simp only [renameTr, sh_cur, Option.map_some]
    rw [← mapNames_foldl ρ (fun d a => .withColumnRenamed d a.1 a.2) _ (fun _ _ => rfl)]
    rfl
  | .rex a, s => by
    simp only [transform]
    refine sh_dispatch ρ k m s _ _ _ _ (fun _ => rfl) ?_
    simp only [rexTr, sh_cur]
    split
    · rfl
    · split
      · cases x.parseRe a.regex with
        | none => rfl
        | some r =>
          simp only [Option.map_some]
          rw [← mapNames_foldl ρ (rexCol a) _ (fun _ _ => rfl)]
          rfl
      · rfl
  | .sort ks n d, s => by
    simp only [transform]
    refine sh_dispatch ρ k m s _ _ _ _ (fun _ => rfl) ?_
    simp only [sortTr, sh_cur]
    cases sortKeys d ks with
    | none => rfl
    | some ks => by_cases h : n = 0 <;> simp [h, St.put, sh, mapNames]
  | .spath p i o, s => by
    simp only [transform]
    refine sh_dispatch ρ k m s _ _ _ _ (fun _ => rfl) ?_
    simp only [spathTr, sh_cur]; rfl
  | .stats o fs b d, s => by
    simp only [transform]
    refine sh_dispatch ρ k m s _ _ _ _ (fun hm => ?_) ?_
    · simp only [statsRuntime]
      cases statsRuntimeExprs m fs with
      | none => rfl
      | some ks => simp only [Option.map_some, sh_rt ρ k m hρ hm]
    · simp only [statsStandalone, sh_cur, statsLoop_sh]
      cases statsLoop m fs s.cur <;> rfl
  | .table fs, s => by
    simp only [transform]
    refine sh_dispatch ρ k m s _ _ _ _ (fun _ => rfl) ?_
    simp only [tableTr, sh_cur]; rfl
  | .tail n, s => by
    simp only [transform]
    refine sh_dispatch ρ k m s _ _ _ _ (fun _ => rfl) ?_
    simp only [tailTr, sh_cur]; rfl
  | .tstats o es dm nn w bf bp, s => by
    simp only [transform]
    refine sh_dispatch ρ k m s _ _ _ _ (fun hm => ?_) (tstatsStandalone_sh ρ k m hρ o es dm nn w bf bp s)
    simp only [tstatsRuntime]
    split
    · cases whereKwarg m w with
      | none => rfl
      | some wk =>
        dsimp only
        cases statsRuntimeExprs m es with
        | none => rfl
        | some ks => simp only [Option.map_some, sh_rt ρ k m hρ hm]
    · rfl
  | .where_ e, s => by
    simp only [transform]
    refine sh_dispatch ρ k m s _ _ _ _ (fun _ => rfl) ?_
    simp only [whereTr, sh_cur]
    cases exprTr m e <;> rfl
  | .search e, s => by
    simp only [transform]
    refine sh_dispatch ρ k m s _ _ _ _ (fun hm => ?_) (searchStandalone_sh ρ k m hρ x e s)
    simp only [searchRuntime]
    cases searchArgs m (breakAnds e) with
    | none => rfl
    | some q => simp only [Option.map_some, sh_rt ρ k m hρ hm]
  | .collect .., s | .dedup .., s | .eventStats .., s | .format .., s | .inputLookup .., s | .map .., s
  | .mvCombine .., s | .mvExpand .., s | .return_ .., s | .streamStats .., s => by simp only [transform, Option.map_none]

theorem runCmds_sh (x : Ext) : ∀ (p : List Command) (s : St),
    runCmds ⟨m, x⟩ p (sh ρ k s) = (runCmds ⟨m, x⟩ p s).map (sh ρ k)
  | [], s => by simp only [runCmds, Option.map_some]
  | c :: p, s => by
    simp only [runCmds, transform_sh x c s]
    cases transform ⟨m, x⟩ c s with
    | none => rfl
    | some s' => exact runCmds_sh x p s'

theorem multi_sh (x : Ext) : ∀ (ps : List (List Command)) (n : Nat) (acc : Option DF),
    multiTr ⟨m, x⟩ ps (n + k) (acc.map (mapNames ρ)) = (multiTr ⟨m, x⟩ ps n acc).map (sh ρ k)
  | [], n, acc => by simp only [multiTr, Option.map_some, sh]
  | p :: ps, n, acc => by
    have h := runCmds_sh x p ⟨n, none⟩
    have h0 : sh ρ k ⟨n, none⟩ = ⟨n + k, none⟩ := rfl
    rw [h0] at h
    simp only [multiTr, h]
    cases runCmds ⟨m, x⟩ p ⟨n, none⟩ with
    | none => rfl
    | some s =>
      obtain ⟨n', df⟩ := s
      cases df with
      | none => rfl
      | some d =>
        have h := multi_sh x ps n' (some (unionStep acc d))
        simp only [Option.map_some, sh]
        cases acc <;> exact h
end
end


/-- multisearch, one search after the other -/
theorem multiTr_spec (c : Ctx) : ∀ (ps : List Pipeline) (n : Nat) (acc : Option DF) (t : St),
    multiTr c ps n acc = some t →
    ∃ (ds : List DF) (ks : List Nat), ds.length = ps.length ∧ ks.length = ps.length ∧
      t.df = unionOf (acc.toList ++ ds) ∧
      ∀ (i : Nat) (p : Pipeline) (d : DF) (k : Nat), ps[i]? = some p → ds[i]? = some d → ks[i]? = some k →
        n ≤ k ∧ ∃ t0 : St, runCmds c p ⟨k, none⟩ = some t0 ∧ t0.df = some d
  | [], n, acc, t, h => by
    simp only [multiTr, Option.some.injEq] at h
    subst h
    refine ⟨[], [], rfl, rfl, ?_, by simp⟩
    cases acc <;> rfl
  | p :: ps, n, acc, t, h => by
    rw [multiTr] at h
    cases hr : runCmds c p ⟨n, none⟩ with
    | none => simp [hr] at h
    | some s =>
      simp only [hr] at h
      cases hd : s.df with
      | none => simp [hd] at h
      | some d =>
        simp only [hd] at h
        obtain ⟨ds, ks, h1, h2, h3, h4⟩ := multiTr_spec c ps s.next _ t h
        have hle : n ≤ s.next := (runCmds_grows c p ⟨n, none⟩ s hr).2.1
        refine ⟨d :: ds, n :: ks, by simp [h1], by simp [h2], ?_, ?_⟩
        · rw [h3]
          cases acc with
          | none => rfl
          | some a => rfl
        · intro i p' d' k hp hd' hk
          cases i with
          | zero =>
            simp only [List.getElem?_cons_zero, Option.some.injEq] at hp hd' hk
            subst hp; subst hd'; subst hk
            exact ⟨Nat.le_refl _, s, hr, hd⟩
          | succ i =>
            simp only [List.getElem?_cons_succ] at hp hd' hk
            obtain ⟨h5, h6⟩ := h4 i p' d' k hp hd' hk
            exact ⟨Nat.le_trans hle h5, h6⟩

theorem dfName_inj {a b : Nat} (h : dfName a = dfName b) : a = b :=
  showNat_inj (List.append_cancel_left h)

/-- there is a renaming that advances the number of every generated name -/
theorem renumber (k : Nat) : ∃ ρ : Str → Str, ∀ j, ρ (dfName j) = dfName (j + k) := by
  classical
  refine ⟨fun n => if h : ∃ j, n = dfName j then dfName (h.choose + k) else n, fun j => ?_⟩
  have h : ∃ i, dfName j = dfName i := ⟨j, rfl⟩
  simp only [h, dif_pos]
  rw [← dfName_inj h.choose_spec]

/-- translating from another counter only renumbers the generated names -/
theorem runCmds_from (c : Ctx) (p : Pipeline) (n : Nat) (t : St) (h : runCmds c p ⟨n + 1, none⟩ = some t) :
    ∃ (ρ : Str → Str) (t0 : St), (∀ j, ρ (dfName j) = dfName (j + n)) ∧ runCmds c p ⟨1, none⟩ = some t0 ∧
      t.df = t0.df.map (mapNames ρ) ∧ (c.mode = .disallow → t.df = t0.df) := by
  obtain ⟨m, x⟩ := c
  obtain ⟨ρ, hρ⟩ := renumber n
  have key := runCmds_sh ρ n m (fun _ => hρ) x p ⟨1, none⟩
  have e : sh ρ n ⟨1, none⟩ = ⟨n + 1, none⟩ := by simp [sh, Nat.add_comm]
  rw [e, h] at key
  cases h0 : runCmds ⟨m, x⟩ p ⟨1, none⟩ with
  | none => simp [h0] at key
  | some t0 =>
    rw [h0, Option.map_some, Option.some.injEq] at key
    refine ⟨ρ, t0, hρ, rfl, by rw [key]; rfl, fun hm => ?_⟩
    have key2 := runCmds_sh (fun a => a) n m (fun h => absurd hm h) x p ⟨1, none⟩
    have e : sh (fun a => a) n ⟨1, none⟩ = ⟨n + 1, none⟩ := by simp [sh, Nat.add_comm]
    rw [e, h, h0, Option.map_some, Option.some.injEq] at key2
    rw [key2]
    have h3 : mapNames (fun a => a) = id := funext mapNames_id
    simp [sh, h3]

/-- The frame of a translated multisearch is the union of exactly its searches, each once and in
order; each is the frame of the search translated alone up to the numbers of generated names (which
mean nothing, `mapNames_meaning`), and exactly that frame in standalone mode. -/
theorem C41_multisearch_partial (c : Ctx) (ps : List Pipeline) (s t : St) (hne : ps ≠ []) (hs : 1 ≤ s.next)
    (h : transform c (.multiSearch ps) s = some t) :
    ∃ ds : List DF, ds.length = ps.length ∧ t.df = unionOf ds ∧
      ∀ (i : Nat) (p : Pipeline) (d : DF), ps[i]? = some p → ds[i]? = some d →
        ∃ (k : Nat) (ρ : Str → Str) (t0 : St) (d0 : DF), (∀ j, ρ (dfName j) = dfName (j + k)) ∧
          runCmds c p ⟨1, none⟩ = some t0 ∧ t0.df = some d0 ∧ d = mapNames ρ d0 ∧ (c.mode = .disallow → d = d0) := by
  have h' : dispatch c.mode none (multiTr c ps s.next none) = some t := by
    cases ps with
    | nil => exact absurd rfl hne
    | cons p ps => rw [transform] at h; exact h; simp
  obtain ⟨ds, ks, h1, h2, h3, h4⟩ := multiTr_spec c ps s.next none t (dispatch_standalone h')
  refine ⟨ds, h1, h3, fun i p d hp hd => ?_⟩
  have hi : i < ks.length := by
    rw [h2]
    exact (List.getElem?_eq_some_iff.mp hp).1
  obtain ⟨h5, t0, h6, h7⟩ := h4 i p d ks[i] hp hd (List.getElem?_eq_getElem hi)
  have e : ks[i] = (ks[i] - 1) + 1 := by omega
  rw [e] at h6
  obtain ⟨ρ, t1, g1, g2, g3, g4⟩ := runCmds_from c p _ t0 h6
  rw [h7] at g3 g4
  cases h8 : t1.df with
  | none => simp [h8] at g3
  | some d0 =>
    rw [h8] at g3 g4
    simp only [Option.map_some, Option.some.injEq] at g3 g4
    exact ⟨_, ρ, t1, d0, g1, g2, h8, g3, g4⟩

/-- The current frame plays no role. -/
theorem C41_forgets_input (c : Ctx) (ps : List Pipeline) (n : Nat) (a b : Option DF) (hne : ps ≠ []) :
    transform c (.multiSearch ps) ⟨n, a⟩ = transform c (.multiSearch ps) ⟨n, b⟩ := by
  cases ps with
  | nil => exact absurd rfl hne
  | cons p ps =>
    rw [transform, transform]
    · simp
    · simp

/-- A multisearch is translated when each of its searches is, alone. -/
theorem C41_succeeds (c : Ctx) (hm : c.mode ≠ .require) (ps : List Pipeline) (s : St)
    (h : ∀ p ∈ ps, ∃ t0 : St, runCmds c p ⟨1, none⟩ = some t0 ∧ t0.df.isSome = true) (hs : 1 ≤ s.next) :
    (transform c (.multiSearch ps) s).isSome = true := by
  have key : ∀ (ps : List Pipeline) (n : Nat) (acc : Option DF), 1 ≤ n →
      (∀ p ∈ ps, ∃ t0 : St, runCmds c p ⟨1, none⟩ = some t0 ∧ t0.df.isSome = true) →
      (multiTr c ps n acc).isSome = true := by
    intro ps
    induction ps with
    | nil => intro n acc _ _; rw [multiTr]; rfl
    | cons p ps ih =>
      intro n acc hn h
      obtain ⟨t0, h1, h2⟩ := h p (by simp)
      obtain ⟨ρ, hρ⟩ := renumber (n - 1)
      obtain ⟨m, x⟩ := c
      have k := runCmds_sh ρ (n - 1) m (fun _ => hρ) x p ⟨1, none⟩
      have e : sh ρ (n - 1) ⟨1, none⟩ = ⟨n, none⟩ := by simp [sh]; omega
      rw [e, h1, Option.map_some] at k
      rw [multiTr, k]
      obtain ⟨n0, df0⟩ := t0
      cases df0 with
      | none => simp at h2
      | some d =>
        simp only [sh, Option.map_some]
        exact ih _ _ (by have := (runCmds_grows _ p _ _ h1).2.1; simp at this; omega) fun p hp => h p (by simp [hp])
  have h2 : ∀ o : Option St, o.isSome = true → (dispatch c.mode none o).isSome = true := by
    intro o ho
    cases hc : c.mode with
    | require => exact absurd hc hm
    | allow => simpa [dispatch, orElse] using ho
    | disallow => simpa [dispatch] using ho
  cases ps with
  | nil => rw [transform]; exact h2 _ rfl
  | cons p ps =>
    rw [transform]
    · exact h2 _ (key (p :: ps) s.next none hs h)
    · simp

/-- the text of a union of programs -/
def unionText : List Str → Str
  | [] => []
  | a :: rest => rest.foldl (fun acc b => acc ++ c!".unionByName(" ++ b ++ c!", allowMissingColumns=True,)") a

/-- In standalone mode the program text of a multisearch is the union of the program texts of its
searches. -/
theorem C41_standalone_text (x : Ext) (ps : List Pipeline) (txt : Str) (hne : ps ≠ [])
    (h : renderPipeline ⟨.disallow, x⟩ [.multiSearch ps] = some txt) :
    ∃ ts : List Str, ts.length = ps.length ∧ txt = unionText ts ∧
      ∀ (i : Nat) (p : Pipeline) (u : Str), ps[i]? = some p → ts[i]? = some u →
        renderPipeline ⟨.disallow, x⟩ p = some u := by
  simp only [renderPipeline, Option.map_eq_some_iff] at h
  obtain ⟨t, ht, h⟩ := h
  rw [runCmds] at ht
  cases h1 : transform ⟨.disallow, x⟩ (.multiSearch ps) ⟨1, none⟩ with
  | none => simp [h1] at ht
  | some u =>
    rw [h1] at ht
    simp only [runCmds, Option.some.injEq] at ht
    subst ht
    obtain ⟨ds, g1, g2, g3⟩ := C41_multisearch_partial _ ps _ _ hne (Nat.le_refl 1) h1
    refine ⟨ds.map fun d => d.render.text, by simp [g1], ?_, ?_⟩
    · rw [g2] at h
      rw [← h]
      cases ds with
      | nil => exact absurd (List.length_eq_zero_iff.mp g1.symm) hne
      | cons d ds =>
        simp only [unionOf, List.map_cons, unionText]
        clear h g1 g2 g3 h1
        induction ds generalizing d with
        | nil => rfl
        | cons e ds ih =>
          simp only [List.foldl_cons, List.map_cons]
          rw [ih]
          rfl
    · intro i p u hp hu
      rw [List.getElem?_map, Option.map_eq_some_iff] at hu
      obtain ⟨d, hd, rfl⟩ := hu
      obtain ⟨k, ρ, t0, d0, _, h5, h6, _, h7⟩ := g3 i p d hp hd
      simp only [renderPipeline, h5, Option.map_some, h6, h7 rfl]

example : (parse c!"multisearch [search index=a | table x] [search index=b]").bind
    (renderPipeline ⟨.disallow, ⟨fun _ => none, id⟩⟩) =
    some c!"spark.table('a').select(F.col('x'),).unionByName(spark.table('b'), allowMissingColumns=True,)" := by
  decide +kernel

/-- With the runtime the text is not a program: the assignments of the second search stand inside
the argument list. -/
theorem C41_runtime_text_broken : (parse c!"multisearch [search index=a] [search index=b]").bind
    (renderPipeline ⟨.allow, ⟨fun _ => none, id⟩⟩) =
    some c!"df_1 = commands.search(None, index=\"a\")\ndf_1.unionByName(df_2 = commands.search(None, index=\"b\")\ndf_2, allowMissingColumns=True,)" := by
  decide +kernel

end Verif.Props
