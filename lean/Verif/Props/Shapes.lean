import Verif.Props.Search
import Verif.Props.Stats
/-
C36-C41, C49, C50: top/rare, lookup, fillnull, bin, join, multisearch, datamodel, rex.
-/
namespace Verif.Props
open Verif Verif.Spec

variable {V : Type}

/-! ### C36: top and rare -/

/-- what `top`/`rare` should do: count per combination of the listed and the BY fields, optionally add
the share, order by the count column, cut, and drop the count column unless it is wanted -/
def wantedTop (rare : Bool) (a : TopRare) (d : DF) : DF :=
  let count := PE.named a.countField
  let d := DF.agg (.groupBy d ((a.fields ++ a.by_.getD []).map .name)) [.aliased (.fn c!"count" []) a.countField]
  let d := if a.showPercent then DF.withColumn d (.bin c!"/" count (.fn c!"sum" [count])) a.percentField else d
  let d := DF.orderBy d [.method count (if rare then c!"asc" else c!"desc") []]
  let d := if a.n = 0 then d else .limit d a.n
  if a.showCount then d else .arbitraryMethod d c!"drop" [.py (c!"\"" ++ a.countField ++ c!"\"")]

/-- **C36** Without BY fields, with the count shown under its default name, top and rare are translated
as wanted, and `useother` is rejected.  Missing: BY fields, another count name, a hidden count; see
`C36_by_replaces_fields`, `C36_count_name_ignored`, `C36_showcount_ignored`. -/
theorem C36_top_rare_partial (c : Ctx) (rare : Bool) (a : TopRare) (s : St) (hm : c.mode ≠ .require)
    (hb : a.by_ = none) (hc : a.countField = c!"count") (hs : a.showCount = true) :
    transform c (if rare then .rare a else .top a) s =
      if a.useOther then none else some (s.put (wantedTop rare a s.cur)) := by
  have hby : a.by_.getD a.fields = a.fields ++ a.by_.getD [] := by simp [hb]
  have key : ∀ dir, dir = (if rare then c!"asc" else c!"desc") → topRareTr dir a s =
      if a.useOther then none else some (s.put (wantedTop rare a s.cur)) := by
    intro dir hd
    subst hd
    unfold topRareTr wantedTop
    split
    · rfl
    · by_cases hn : a.n = 0 <;> by_cases hp : a.showPercent <;>
        simp [hs, hc, hn, hp, hby, PE.withAlias, PE.unalias, PE.mkBin, PE.mkMethod, DF.mkWithColumn]
  cases rare <;> simp only [Bool.false_eq_true, if_false, if_true, transform] <;> rw [key _ (by simp)] <;>
    cases hmode : c.mode <;> simp_all [dispatch, orElse]

example : (parse c!"top 3 showperc=f a, b").bind (renderPipeline ⟨.disallow, ⟨fun _ => none, id⟩⟩) =
    some c!"spark.table('main').groupBy([\"a\", \"b\", ]).agg(F.count().alias('count'),).orderBy(F.col('count').desc(),).limit(3,)" := by
  decide +kernel

/-- `top a BY b` counts per `b` only: the listed field is not used at all. -/
theorem C36_by_replaces_fields (c : Ctx) (rare : Bool) (a : TopRare) (s : St) (bs fs : List Str) (hb : a.by_ = some bs) :
    transform c (if rare then .rare a else .top a) s =
      transform c (if rare then .rare { a with fields := fs } else .top { a with fields := fs }) s := by
  cases rare <;> simp [transform, topRareTr, hb]

/-- `showcount=f` has no effect. -/
theorem C36_showcount_ignored (c : Ctx) (rare : Bool) (a : TopRare) (s : St) (b : Bool) :
    transform c (if rare then .rare a else .top a) s =
      transform c (if rare then .rare { a with showCount := b } else .top { a with showCount := b }) s := by
  cases rare <;> simp [transform, topRareTr]

/-- With `countfield=n` the ordering and the share still refer to `count`, a column that does not exist. -/
theorem C36_count_name_ignored :
    (parse c!"top countfield=n a BY b").bind (renderPipeline ⟨.disallow, ⟨fun _ => none, id⟩⟩) =
      some c!"spark.table('main').groupBy([\"b\", ]).agg(F.count().alias('n'),).withColumn('percent', F.col('count') / F.sum(F.col('count')),).orderBy(F.col('count').desc(),).limit(10,)" := by
  decide +kernel

/-! ### C37: lookup -/

/-- **C37** is refuted for every lookup: the program neither reads the lookup table nor adds a column.
What is left of the property: the rows of the frame so far are kept, and an output clause other than
OUTPUT is rejected. -/
theorem C37_lookup_partial (S : Spark V) (c : Ctx) (a : Lookup) (s t : St) (h : transform c (.lookup a) s = some t) :
    t.cur = .alias s.cur c!"main" ∧ S.meaning t.cur = S.meaning s.cur ∧ tablesRead t.cur = tablesRead s.cur ∧
      ∀ o, a.output = some o → upper o.kv = c!"OUTPUT" := by
  rw [transform] at h
  have h := dispatch_standalone h
  simp only [lookupTr] at h
  split at h
  · simp at h
  · rename_i cols hc
    simp only [Option.some.injEq] at h
    subst h
    refine ⟨rfl, rfl, rfl, fun o ho => ?_⟩
    rw [ho] at hc
    simp only [lookupCols] at hc
    split at hc
    · assumption
    · simp at hc

/-- The table of a lookup is never read. -/
theorem C37_never_reads : ∃ (q : Str) (p : Pipeline), parse q = some p ∧
    q = c!"table a | lookup users id AS uid OUTPUT name" ∧
    renderPipeline ⟨.disallow, ⟨fun _ => none, id⟩⟩ p =
      some c!"spark.table('main').select(F.col('a'),).alias('main',)" := by
  refine ⟨_, ((parse c!"table a | lookup users id AS uid OUTPUT name").getD []), ?_, rfl, ?_⟩
  · have : (parse c!"table a | lookup users id AS uid OUTPUT name").isSome = true := by decide +kernel
    cases h : parse c!"table a | lookup users id AS uid OUTPUT name" with
    | none => rw [h] at this; simp at this
    | some p => rfl
  · decide +kernel

/-! ### C38: fillnull -/

/-- **C38** Without a field list the program fills the whole frame; with the runtime library the call
carries exactly the list.  Missing: a list without the runtime library, which is ignored
(`C38_list_ignored`). -/
theorem C38_fillnull_partial (x : Ext) (v : Str) (fs : Option (List Str)) (s : St) :
    transform ⟨.disallow, x⟩ (.fillNull v none) s =
      some (s.put (.arbitraryMethod s.cur c!"fillna" [.py (c!"\"" ++ v ++ c!"\"")])) ∧
    transform ⟨.allow, x⟩ (.fillNull v fs) s =
      some (s.putRuntime c!"fill_null" [] [(c!"value", .expr (.py (c!"\"" ++ v ++ c!"\""))),
        (c!"fields", match fs with
          | none => .expr (.py c!"None")
          | some l => .list (l.map fun f => .py (c!"\"" ++ f ++ c!"\"")))]) := by
  refine ⟨rfl, ?_⟩
  cases fs <;> rfl

/-- Without the runtime library the list of fields has no effect. -/
theorem C38_list_ignored (x : Ext) (v : Str) (fs : Option (List Str)) (s : St) :
    transform ⟨.disallow, x⟩ (.fillNull v fs) s = transform ⟨.disallow, x⟩ (.fillNull v none) s := rfl

example : (parse c!"fillnull value=NA a b").bind (renderPipeline ⟨.disallow, ⟨fun _ => none, id⟩⟩) =
    some c!"spark.table('main').fillna(\"NA\",)" := by decide +kernel

/-! ### C39: bin -/

/-- the field whose values are to be bucketed -/
def FieldOrAlias.sourceField : FieldOrAlias → Str
  | .field f => f
  | .alias f _ => f

/-- what `bin span=.. f AS g` should do: the start of the time window of `f`, stored in `g` -/
def wantedBin (a : Bin) (t : TimeSpan) (d : DF) : DF :=
  let out := match a.field with | .field f => f | .alias _ g => g
  .withColumn (.withColumn d (.fn c!"window" [.named (FieldOrAlias.sourceField a.field),
    .py (c!"\"" ++ (showInt t.value ++ c!" " ++ t.scale) ++ c!"\"")]) out) (.named (out ++ c!".start")) out

/-- **C39** With a span, a field called `n` is bucketed as wanted.  Missing: every other field
(`C39_other_field`), and `bin` without a span (`C39_without_span`). -/
theorem C39_bin_partial (x : Ext) (a : Bin) (t : TimeSpan) (s : St) (hs : a.span = some t)
    (hf : FieldOrAlias.sourceField a.field = c!"n") :
    transform ⟨.disallow, x⟩ (.bin a) s = some (s.put (wantedBin a t s.cur)) := by
  obtain ⟨fld, sp, ms, b, st, en, al⟩ := a
  subst hs
  cases fld with
  | field f =>
    simp only [FieldOrAlias.sourceField] at hf
    subst hf
    rfl
  | alias f g =>
    simp only [FieldOrAlias.sourceField] at hf
    subst hf
    simp [transform, dispatch, binCmdTr, wantedBin, DF.mkWithColumn, PE.unalias, FieldOrAlias.outName,
      FieldOrAlias.sourceField, pyStr, spanText, orElse]

example : ∃ a : Bin, a.span = some ⟨5, c!"minutes"⟩ ∧ FieldOrAlias.sourceField a.field = c!"n" :=
  ⟨⟨.alias c!"n" c!"b", some ⟨5, c!"minutes"⟩, none, none, none, none, none⟩, rfl, rfl⟩

/-- For no other field is the program the wanted one. -/
theorem C39_other_field (x : Ext) (a : Bin) (t : TimeSpan) (s : St) (hs : a.span = some t)
    (hf : FieldOrAlias.sourceField a.field ≠ c!"n") :
    transform ⟨.disallow, x⟩ (.bin a) s ≠ some (s.put (wantedBin a t s.cur)) := by
  obtain ⟨fld, sp, ms, b, st, en, al⟩ := a
  subst hs
  intro h
  cases fld <;>
    simp [transform, dispatch, binCmdTr, wantedBin, St.put, DF.mkWithColumn, PE.unalias] at h <;>
    exact hf h.1.1.symm

/-- Without a span (`bins=`, `minspan=`, ...) the column is replaced by the field `start` of a structure
that was never computed. -/
theorem C39_without_span : (parse c!"bin bins=10 size AS bucket").bind (renderPipeline ⟨.disallow, ⟨fun _ => none, id⟩⟩) =
    some c!"spark.table('main').withColumn('bucket', F.col('bucket.start'),)" := by decide +kernel

theorem C39_other_field_query : (parse c!"bin span=1h _time").bind (renderPipeline ⟨.disallow, ⟨fun _ => none, id⟩⟩) =
    some c!"spark.table('main').withColumn('_time', F.window(F.col('n'), \"1 hours\"),).withColumn('_time', F.col('_time.start'),)" := by
  decide +kernel

/-! ### C49: data models -/

/-- the name of the table of a node below the root data set -/
theorem table_of_node (model root rest : Str) (hr : '.' ∉ root) :
    dataModelTable (some model) (some (root ++ c!"." ++ rest)) = some (model ++ c!"." ++ rest) := by
  have hsplit : ∀ (w r : Str), '.' ∉ w → splitOnC '.' (w ++ '.' :: r) = w :: splitOnC '.' r := by
    intro w r hw
    induction w with
    | nil => simp [splitOnC]
    | cons b w ih =>
      simp only [List.mem_cons, not_or] at hw
      simp only [List.cons_append, splitOnC, ih hw.2]
      simp [Ne.symm hw.1]
  have hne : ∀ r : Str, splitOnC '.' r ≠ [] := by
    intro r
    cases r with
    | nil => simp [splitOnC]
    | cons b r =>
      simp only [splitOnC]
      split
      · simp
      · split <;> simp
  have hjoin : ∀ r : Str, joinWith c!"." (splitOnC '.' r) = r := by
    intro r
    induction r with
    | nil => rfl
    | cons b r ih =>
      by_cases hb : b = '.'
      · subst hb
        simp only [splitOnC, if_true]
        cases hq : splitOnC '.' r with
        | nil => exact absurd hq (hne r)
        | cons q qs => rw [hq] at ih; simp [joinWith, ← ih]
      · simp only [splitOnC, hb, if_false]
        cases hq : splitOnC '.' r with
        | nil => rw [hq] at ih; simp [joinWith] at ih; simp [joinWith, ← ih]
        | cons q qs =>
          rw [hq] at ih
          cases qs with
          | nil => simp [joinWith] at ih ⊢; exact ih
          | cons q2 qs => simp [joinWith] at ih ⊢; exact ih
  have hl : splitOnC '.' (root ++ c!"." ++ rest) = root :: splitOnC '.' rest := by
    have := hsplit root rest hr
    simpa using this
  simp only [dataModelTable, hl, List.drop_succ_cons, List.drop_zero, hjoin]

/-- **C49** When the data model is given with its root data set and the node path starts at that data set
and goes further, the table is named by the model and the full path.
Missing: all other ways to write the two names (`C49_single_node`, `C49_root_dropped`). -/
theorem C49_table_partial (c : Ctx) (a : DataModel) (s : St) (hc : c.mode = .disallow) (hs : a.searchMode = some c!"search")
    (model root rest : Str) (hr : '.' ∉ root) (hd : s.df = none)
    (hm : a.dataModelName = some (model ++ c!"." ++ root)) (hn : a.datasetName = some (root ++ c!"." ++ rest)) :
    transform c (.dataModel a) s = some (s.put (.source (model ++ c!"." ++ root ++ c!"." ++ rest))) := by
  simp only [transform, dataModelTr, hc, dispatch, dataModelStandalone, hs, if_true, hd, hm, hn, table_of_node _ _ _ hr, Option.map_some]

example : (parse c!"datamodel Net.All All.Blocked search").bind (renderPipeline ⟨.disallow, ⟨fun _ => none, id⟩⟩) =
    some c!"spark.table('Net.All.Blocked')" := by decide +kernel

/-- A data set without a dot gives a name that ends in a dot and does not mention it. -/
theorem C49_single_node : (parse c!"datamodel Net All search").bind (renderPipeline ⟨.disallow, ⟨fun _ => none, id⟩⟩) =
    some c!"spark.table('Net.')" := by decide +kernel

/-- The first component of the node path is dropped even when the model name does not include it. -/
theorem C49_root_dropped : (parse c!"datamodel Net All.Blocked search").bind (renderPipeline ⟨.disallow, ⟨fun _ => none, id⟩⟩) =
    some c!"spark.table('Net.Blocked')" := by decide +kernel

/-! ### C50: rex -/

/-- number and optional name of a group, when it captures -/
def captured : ReGroup → List (Nat × Option Str)
  | .index i => [(i, none)]
  | .name n i => [(i, some n)]
  | .nonCapturing => []

mutual
/-- the capture groups of a pattern in the order of their opening parentheses -/
def captures : ReAst → List (Nat × Option Str)
  | .leaf | .classBracketed _ => []
  | .repetition a => captures a
  | .group k a => captured k ++ captures a
  | .alternation as | .concat as => capturesL as

/-- of a list of patterns -/
def capturesL : List ReAst → List (Nat × Option Str)
  | [] => []
  | a :: as => captures a ++ capturesL as
end

mutual
theorem visitClass_id : ∀ (k : ReClass) (gs : List (Nat × Option Str)), visitClass k gs = gs
  | .item i, gs => by rw [visitClass, visitItem_id i]
  | .binary l r, gs => by rw [visitClass, visitClass_id l, visitClass_id r]

theorem visitItem_id : ∀ (k : ReItem) (gs : List (Nat × Option Str)), visitItem k gs = gs
  | .leaf, gs => by rw [visitItem]
  | .bracketed k, gs => by rw [visitItem, visitClass_id k]
  | .union is, gs => by rw [visitItem, visitItems_id is]

theorem visitItems_id : ∀ (k : List ReItem) (gs : List (Nat × Option Str)), visitItems k gs = gs
  | [], gs => by rw [visitItems]
  | i :: is, gs => by rw [visitItems, visitItem_id i, visitItems_id is]
end

mutual
theorem visitNode_eq : ∀ (a : ReAst) (gs : List (Nat × Option Str)), visitNode a gs = gs ++ captures a
  | .leaf, gs => by rw [visitNode, captures]; simp
  | .classBracketed k, gs => by rw [visitNode, captures, visitClass_id]; simp
  | .repetition a, gs => by rw [visitNode, captures, visitNode_eq a]
  | .group k a, gs => by
    rw [visitNode, captures, visitNode_eq a]
    cases k <;> simp [pushGroup, captured]
  | .alternation as, gs => by rw [visitNode, captures, visitNodes_eq as]
  | .concat as, gs => by rw [visitNode, captures, visitNodes_eq as]

theorem visitNodes_eq : ∀ (as : List ReAst) (gs : List (Nat × Option Str)), visitNodes as gs = gs ++ capturesL as
  | [], gs => by rw [visitNodes, capturesL]; simp
  | a :: as, gs => by rw [visitNodes, capturesL, visitNode_eq a, visitNodes_eq as]; simp
end

/-- column name and Python text of the extraction of one group -/
def groupColumn (c : Rex) (g : Nat × Option Str) : Str × Str :=
  (g.2.getD (showNat g.1),
    c!"F.regexp_extract(F.col('" ++ c.field ++ c!"'), r\"" ++ c.regex ++ c!"\", " ++ showNat g.1 ++ c!")")

/-- a frame with some columns added in order -/
inductive Adds (d : DF) : List (Str × Str) → DF → Prop
  | none : Adds d [] d
  | add {cols : List (Str × Str)} {d' : DF} (n : Str) (e : PE) : Adds d cols d' →
      Adds d (cols ++ [(n, renderC e)]) (.withColumn d' e n)

/-- **C50** A translated `rex` adds exactly one column per capture group, in the order of the groups,
named by the group (or its number) and extracting that group's number from the configured field; the
frame so far is otherwise unchanged.  Whatever is not a single extraction is rejected. -/
theorem C50_one_column_per_group (c : Ctx) (a : Rex) (s t : St) (h : transform c (.rex a) s = some t) :
    ∃ r, c.ext.parseRe a.regex = some r ∧ Adds s.cur ((captures r).map (groupColumn a)) t.cur ∧
      a.maxMatch = 1 ∧ a.mode ≠ some c!"sed" := by
  rw [transform] at h
  have h := dispatch_standalone h
  unfold rexTr at h
  split at h
  · simp at h
  · rename_i hsed
    split at h
    · rename_i hmax
      simp only [Option.map_eq_some_iff] at h
      obtain ⟨r, hr, rfl⟩ := h
      refine ⟨r, hr, ?_, hmax, hsed⟩
      have hg : groupsOf r = captures r := by rw [groupsOf, visitNode_eq]; simp
      rw [hg]
      generalize captures r = gs
      have key : ∀ (gs : List (Nat × Option Str)) (cols : List (Str × Str)) (d : DF), Adds s.cur cols d →
          Adds s.cur (cols ++ gs.map (groupColumn a)) (gs.foldl (rexCol a) d) := by
        intro gs
        induction gs with
        | nil => intro cols d h; simpa using h
        | cons g gs ih =>
          intro cols d h
          have h1 := Adds.add (g.2.getD (showNat g.1))
            (.fn c!"regexp_extract" [.named a.field, pyRaw a.regex, pyInt g.1]) h
          have h2 := ih _ _ h1
          have e1 : renderC (.fn c!"regexp_extract" [.named a.field, pyRaw a.regex, pyInt g.1]) = (groupColumn a g).2 := by
            simp [renderC, renderArgs, renderE, joinWith, pyRaw, pyInt, groupColumn, showInt]
          rw [e1] at h2
          simpa [groupColumn, rexCol, DF.mkWithColumn, PE.unalias] using h2
      simpa [St.put, St.cur] using key gs [] s.cur .none
    · simp at h

example : ∃ r, captures r = [(1, some c!"user"), (2, none)] :=
  ⟨.concat [.group (.name c!"user" 1) (.repetition .leaf), .leaf, .group .nonCapturing (.group (.index 2) .leaf)], rfl⟩

example (x : Ext) (h : x.parseRe c!"(?<a>.)" = some (.group (.name c!"a" 1) .leaf)) :
    ∃ t, transform ⟨.disallow, x⟩ (.rex ⟨c!"_raw", 1, none, none, c!"(?<a>.)"⟩) ⟨1, none⟩ = some t ∧
      t.cur.render.text = c!"spark.table('main').withColumn('a', F.regexp_extract(F.col('_raw'), r\"(?<a>.)\", 1),)" := by
  simp only [transform, dispatch, rexTr, h]
  exact ⟨_, rfl, by decide +kernel⟩

end Verif.Props
