import Verif.Props.LibraryFrames
/-
C65 and C67, continued: the special fields of a first search, and what is written where values are missing.
-/
namespace Verif.Props
open Verif Verif.Spec Verif.Lemmas Verif.Rt

/-! ### C65 -/

/-- The special fields of a search, with the column the delivered settings look them up in. -/
def specialColumns : List (Str × Str) :=
  [ (c!"source", c!"_source"), (c!"sourcetype", c!"_sourcetype"), (c!"host", c!"_host"), (c!"hosttag", c!"_hosttag"),
    (c!"eventtype", c!"_eventtype"), (c!"eventtypetag", c!"_eventtypetag"), (c!"savedsplunk", c!"_savedsearch"),
    (c!"splunk_server", c!"_splunk_server") ]

/-- the plain translation of `index=i f=v` -/
theorem index_and_field {x f i v n} (hx : Arranges x) (hf : f ≠ c!"index") (hi : i ≠ c!"index") (hv : v ≠ c!"index") :
    transform ⟨.disallow, x⟩ (.search (.binary (.binary (.const (.field c!"index")) c!"=" (.const (.field i))) c!"AND"
        (.binary (.const (.field f)) c!"=" (.const (.field v))))) ⟨n, none⟩ =
      some (St.put ⟨n, none⟩ (.where_ (.source i) (.bin c!"==" (.named f) (.named v)))) := by
  have ho : x.order [i] = [i] := List.perm_singleton.1 (hx [i])
  have hs : splitConditions true (.binary (.binary (.const (.field c!"index")) c!"=" (.const (.field i))) c!"AND"
        (.binary (.const (.field f)) c!"=" (.const (.field v)))) = some (some (.binary (.const (.field f)) c!"=" (.const (.field v))), [i]) := by
    simp [splitConditions, hf, hi, hv, isIndex, recombine, Expr.asString]
  simp only [transform, dispatch, searchStandalone, hs, dedupStr, List.filter_nil, ho, unionSources, List.foldl_nil, Option.getD_some]
  rfl

/-- **C65 (refutation).** In a query that begins with `index=i f=v`, where `f` is a special field, the library as delivered
compares the column `_f` with the text `v`; the plain translation compares the column `f` with the column `v`. -/
theorem C65_special_first {types x f g i v n n'} (hx : Arranges x) (hf : (f, g) ∈ specialColumns) (hi : Plain '"' i = true) (h0 : i ≠ [])
    (hv : Plain '"' v = true) (hi' : i ≠ c!"index") (hv' : v ≠ c!"index") :
    ∃ t t', transform ⟨.allow, x⟩ (.search (.binary (.binary (.const (.field c!"index")) c!"=" (.const (.field i))) c!"AND"
        (.binary (.const (.field f)) c!"=" (.const (.field v))))) ⟨n, none⟩ = some t ∧
      transform ⟨.disallow, x⟩ (.search (.binary (.binary (.const (.field c!"index")) c!"=" (.const (.field i))) c!"AND"
        (.binary (.const (.field f)) c!"=" (.const (.field v))))) ⟨n', none⟩ = some t' ∧
      runDF (delivered types) t.cur =
        some (.where_ (.where_ (.source i) (.bin c!"==" (.named g) (pyStr v))) (.lit c!"True")) ∧
      t'.cur = .where_ (.source i) (.bin c!"==" (.named f) (.named v)) := by
  have hs : strOf ('"' :: (i ++ ['"'])) = some i := strOf_plain hi
  have hw : strOf ('"' :: (v ++ ['"'])) = some v := strOf_plain hv
  have he : i.isEmpty = false := by cases i with
    | nil => exact absurd rfl h0
    | cons => rfl
  have key : ∀ k ∈ [c!"source", c!"source_type", c!"host", c!"host_tag", c!"event_type", c!"event_type_tag", c!"saved_splunk", c!"splunk_server"],
      command (delivered types) none c!"search" [] [(c!"index", .expr (pyStr i)), (k, .expr (pyStr v))] =
      (defaultLookup [(c!"index", .lit (c!"\"" ++ i ++ c!"\"")), (k, .lit (c!"\"" ++ v ++ c!"\""))]).map fun d => .where_ d (.lit c!"True") := by
    intro k hk
    simp only [List.mem_cons, List.not_mem_nil, or_false] at hk
    rcases hk with rfl | rfl | rfl | rfl | rfl | rfl | rfl | rfl <;>
    · show (match defaultLookup [(c!"index", .lit (c!"\"" ++ i ++ c!"\"")), (_, .lit (c!"\"" ++ v ++ c!"\""))], some [], some [] with
        | some d, some ps, some ks => some (DF.where_ d (allOf (ps ++ ks)))
        | _, _, _ => none) = _
      cases defaultLookup [(c!"index", .lit (c!"\"" ++ i ++ c!"\"")), (_, .lit (c!"\"" ++ v ++ c!"\""))] <;> rfl
  simp only [specialColumns, List.mem_cons, List.not_mem_nil, or_false, Prod.mk.injEq] at hf
  rcases hf with ⟨rfl, rfl⟩ | ⟨rfl, rfl⟩ | ⟨rfl, rfl⟩ | ⟨rfl, rfl⟩ | ⟨rfl, rfl⟩ | ⟨rfl, rfl⟩ | ⟨rfl, rfl⟩ | ⟨rfl, rfl⟩ <;>
  · refine ⟨St.putRuntime ⟨n, none⟩ c!"search" [] [(c!"index", .expr (pyStr i)), (_, .expr (pyStr v))], _, rfl,
      index_and_field hx (by decide) hi' hv', ?_, rfl⟩
    rw [run_putRuntime]
    simp only
    rw [key _ (by decide)]
    simp [defaultLookup, textOf, dictGet, strVal, hs, hw, truthy, he, applyFilters, lookupFilters, RV.operand, pyStr]

example (types) : ∃ t t', transform ⟨.allow, Tests.ext⟩ (.search (.binary (.binary (.const (.field c!"index")) c!"=" (.const (.field c!"web"))) c!"AND"
        (.binary (.const (.field c!"host")) c!"=" (.const (.field c!"www1"))))) ⟨1, none⟩ = some t ∧
      transform ⟨.disallow, Tests.ext⟩ (.search (.binary (.binary (.const (.field c!"index")) c!"=" (.const (.field c!"web"))) c!"AND"
        (.binary (.const (.field c!"host")) c!"=" (.const (.field c!"www1"))))) ⟨1, none⟩ = some t' ∧
      runDF (delivered types) t.cur =
        some (.where_ (.where_ (.source c!"web") (.bin c!"==" (.named c!"_host") (pyStr c!"www1"))) (.lit c!"True")) ∧
      t'.cur = .where_ (.source c!"web") (.bin c!"==" (.named c!"host") (.named c!"www1")) :=
  C65_special_first arranges_id (by decide) (by decide) (by decide) (by decide) (by decide) (by decide)

/-! ### C67: values written where there are none -/

open Classical in
/-- What is assumed of Spark here: `F.when(c.isNull(), F.lit(v).cast(t)).otherwise(c)` is the value `cast t v` where the
column is null and the column elsewhere. -/
def FillsNulls {V : Type} (S : Spark V) (cast : Str → Str → V) : Prop :=
  ∀ f v t r, S.value (.method (.fn c!"when" [.method (.named f) c!"isNull" [], .method (.lit (c!"\"" ++ v ++ c!"\"")) c!"cast" [pyStr t]])
    c!"otherwise" [.named f]) r = if cell S.null r f = S.null then cast t v else cell S.null r f

open Classical in
/-- the value of a column after it is filled -/
noncomputable def filled {V : Type} (S : Spark V) (cast : Str → Str → V) (types : List (Str × Str)) (v : Str) (f : Str) (w : V) : V :=
  if w = S.null then (match typeOf f types with | some t => cast t v | none => w) else w

theorem setCol_same {V : Type} {null v : V} {n : Str} : ∀ r : Row V, cell null (setCol n v r) n = v
  | [] => by simp [setCol, cell]
  | (m, w) :: r => by
    rw [setCol]
    split
    · rename_i hm
      simp [cell, hm]
    · rename_i hm
      simp [cell, hm, setCol_same r]

theorem filled_twice {V : Type} {S : Spark V} {cast types v f w} : filled S cast types v f (filled S cast types v f w) = filled S cast types v f w := by
  unfold filled
  cases typeOf f types with
  | none => simp
  | some t =>
    by_cases h : w = S.null
    · subst h; simp
    · simp [h]

theorem fillCols_values {V : Type} {S : Spark V} {cast} (hS : FillsNulls S cast) {types v k} : ∀ {fs : List Str} {d e},
    fillCols types (c!"\"" ++ v ++ c!"\"") fs d = some e →
    (S.meaning e).map (fun r => cell S.null r k) =
      (S.meaning d).map (fun r => if k ∈ fs then filled S cast types v k (cell S.null r k) else cell S.null r k)
  | [], d, e, h => by simp only [fillCols, Option.some.injEq] at h; subst h; simp
  | f :: fs, d, e, h => by
    simp only [fillCols] at h
    split at h
    · cases h
    · rename_i t ht
      rw [fillCols_values hS h]
      simp only [Spark.meaning, List.map_map]
      refine List.map_congr_left fun r _ => ?_
      simp only [Function.comp]
      by_cases hk : k = f
      · subst hk
        have : cell S.null (setCol k (S.val (.method (.fn c!"when" [.method (.named k) c!"isNull" [],
            .method (.lit (c!"\"" ++ v ++ c!"\"")) c!"cast" [pyStr t]]) c!"otherwise" [.named k]) r) r) k =
            filled S cast types v k (cell S.null r k) := by
          rw [setCol_same]
          show S.value _ r = _
          rw [hS, filled, ht]
        rw [this]
        simp only [List.mem_cons, true_or, if_true, filled_twice, ite_self]
      · rw [setCol_cell hk]
        simp only [List.mem_cons, hk, false_or]

/-- **C67.** With the library, `fillnull value=v f1 f2 ...` after other commands writes `v`, as a value of the type of the
column, into the listed columns where they are null, and changes nothing else. -/
theorem C67_fillnull_values_partial {W x v fs d d'} {s : St} (hs : s.df = some d) (hr : runDF W d = some d') (hv : Plain '"' v = true)
    (hp : ∀ f ∈ fs, Plain '"' f = true) (hf : ∀ f ∈ fs, (typeOf f (W.types d')).isSome = true) :
    ∃ t e, transform ⟨.allow, x⟩ (.fillNull v (some fs)) s = some t ∧ runDF W t.cur = some e ∧
      ∀ (V : Type) (S : Spark V) (cast : Str → Str → V), FillsNulls S cast → ∀ k : Str,
        (S.meaning e).map (fun r => cell S.null r k) =
          (S.meaning d').map (fun r => if k ∈ fs then filled S cast (W.types d') v k (cell S.null r k) else cell S.null r k) := by
  obtain ⟨e, he⟩ := fillCols_total (code := c!"\"" ++ v ++ c!"\"") d' hf
  obtain ⟨h1, h2⟩ := listStrs_ok hp
  refine ⟨s.putRuntime c!"fill_null" [] [(c!"value", .expr (pyStr v)), (c!"fields", .list (fs.map pyStr))], e, rfl, ?_,
    fun V S cast hS k => fillCols_values hS he⟩
  rw [run_putRuntime, hs]
  have hkw : kwVals [(c!"value", .expr (pyStr v)), (c!"fields", .list (fs.map pyStr))] =
      some [(c!"value", .val (.lit (c!"\"" ++ v ++ c!"\""))), (c!"fields", .list (fs.map fun f => .lit (c!"\"" ++ f ++ c!"\"")))] := by
    simp only [kwVals, reVal, h1, Option.map_some, pyStr, evalRt]
  simp only [hr, command, argVals, hkw]
  have hd : ∀ a b : PV, distinct [(c!"value", a), (c!"fields", b)] = true := fun _ _ => rfl
  simp only [hd, if_true]
  rw [if_neg (by decide), if_neg (by decide), if_neg (by decide)]
  have g1 : ∀ a b : PV, kwGet c!"value" [(c!"value", a), (c!"fields", b)] = some a := fun _ _ => rfl
  have g2 : ∀ a b : PV, kwGet c!"fields" [(c!"value", a), (c!"fields", b)] = some b := fun _ _ => rfl
  have g3 : ∀ a b : PV, (others [c!"value", c!"fields"] [(c!"value", a), (c!"fields", b)]).isEmpty = true := fun _ _ => rfl
  simp only [cmdFillNull, g1, g2, g3, List.isEmpty_nil, Bool.and_self, if_true, strOf_plain hv, Option.isSome_some, fillFields, h2, he]

theorem typeOf_own {types : List (Str × Str)} : ∀ f ∈ types.map (·.1), (typeOf f types).isSome = true := by
  induction types with
  | nil => simp
  | cons a l ih =>
    intro f hf
    rw [List.map_cons, List.mem_cons] at hf
    simp only [typeOf]
    split
    · rfl
    · rename_i h
      exact ih f (hf.resolve_left fun e => h e.symm)

/-- **C67 (refutation).** `tstats fillnull_value=v` is ignored without the library. -/
theorem C67_tstats_fill_ignored {x o es dm nn w bf bp} {s : St} (v : Option Str) :
    transform ⟨.disallow, x⟩ (.tstats { o with fillnullValue := v } es dm nn w bf bp) s =
      transform ⟨.disallow, x⟩ (.tstats o es dm nn w bf bp) s := rfl

/-- **C67.** With the library, `tstats fillnull_value=v count` as the first command counts the rows of a table in which `v`
is written into every column where it is null. -/
theorem C67_tstats_fill_partial {W x o m v n} (o1 : o.prestats = false) (o2 : o.local = false) (o3 : o.append = false)
    (o4 : o.includeReducedBuckets = false) (o5 : o.fillnullValue = some v) (hm : Plain '"' m = true) (hv : Plain '"' v = true)
    (hW : W.lookup [(c!"index", .lit (c!"\"" ++ m ++ c!"\""))] = some (.source m)) :
    ∃ t e, transform ⟨.allow, x⟩ (.tstats o [.call c!"count" []] (some m) none none none none) ⟨n, none⟩ = some t ∧
      runDF W t.cur = some (.agg (.groupBy e []) [.aliased (.fn c!"count" [.lit c!"1"]) c!"count"]) ∧
      ∀ (V : Type) (S : Spark V) (cast : Str → Str → V), FillsNulls S cast → ∀ k : Str,
        (S.meaning e).map (fun r => cell S.null r k) = (S.table m).map (fun r =>
          if k ∈ (W.types (.source m)).map (·.1) then filled S cast (W.types (.source m)) v k (cell S.null r k) else cell S.null r k) := by
  obtain ⟨e, he⟩ := fillCols_total (code := c!"\"" ++ v ++ c!"\"") (.source m) (typeOf_own (types := W.types (.source m)))
  have hok : tstatsOptsOk o = true := by simp only [tstatsOptsOk, o1, o2, o3, o4]; rfl
  refine ⟨St.putRuntime ⟨n, none⟩ c!"tstats" [] [(c!"from_", .dict [(c!"datamodel", pyStr m), (c!"nodename", .py c!"None")]),
      (c!"fill_null_value", .expr (pyStr v)), (c!"count", .expr (.fn c!"functions.stats.count" []))], e, ?_, ?_,
    fun V S cast hS k => fillCols_values hS he⟩
  · simp only [transform, dispatch, tstatsRuntime, hok, if_true, o5, orElse]
    rfl
  · have hkw : kwVals [(c!"from_", .dict [(c!"datamodel", pyStr m), (c!"nodename", .py c!"None")]), (c!"fill_null_value", .expr (pyStr v)),
        (c!"count", .expr (.fn c!"functions.stats.count" []))] =
        some [(c!"from_", .dict [(c!"datamodel", .lit (c!"\"" ++ m ++ c!"\"")), (c!"nodename", .lit c!"None")]),
          (c!"fill_null_value", .val (.lit (c!"\"" ++ v ++ c!"\""))), (c!"count", .val (.agg false (some (.fn c!"count" [.lit c!"1"]))))] := rfl
    have hs : specifier (.dict [(c!"datamodel", .lit (c!"\"" ++ m ++ c!"\"")), (c!"nodename", .lit c!"None")]) = some (m, none) := by
      have d1 : ∀ a b : RV, dictGet c!"datamodel" [(c!"datamodel", a), (c!"nodename", b)] = some a := fun _ _ => rfl
      have d2 : ∀ a b : RV, dictGet c!"nodename" [(c!"datamodel", a), (c!"nodename", b)] = some b := fun _ _ => rfl
      simp only [specifier, d1, d2, Option.bind_some, strVal, strOf_plain hm, optStr, if_true]
    have h2 : modelTable m none = m := by
      have h0 : (splitOnC '.' ([] : Str)).drop 1 = [] := rfl
      simp only [modelTable, Option.getD_none, h0, List.append_nil]
      rw [show c!"." = ['.'] from rfl, join_split]
    rw [run_putRuntime]
    simp only [command, argVals, hkw]
    have e1 : ∀ a b c : PV, distinct [(c!"from_", a), (c!"fill_null_value", b), (c!"count", c)] = true := fun _ _ _ => rfl
    have e2 : ∀ a b c : PV, kwGet c!"from_" [(c!"from_", a), (c!"fill_null_value", b), (c!"count", c)] = some a := fun _ _ _ => rfl
    have e3 : ∀ a b c : PV, kwGet c!"df" [(c!"from_", a), (c!"fill_null_value", b), (c!"count", c)] = none := fun _ _ _ => rfl
    have e4 : ∀ a b c : PV, kwGet c!"fill_null_value" [(c!"from_", a), (c!"fill_null_value", b), (c!"count", c)] = some b := fun _ _ _ => rfl
    have e5 : ∀ a b c : PV, kwGet c!"where" [(c!"from_", a), (c!"fill_null_value", b), (c!"count", c)] = none := fun _ _ _ => rfl
    simp only [e1, if_true]
    rw [if_neg (by decide), if_neg (by decide), if_neg (by decide), if_neg (by decide), if_neg (by decide)]
    have g1 : ∀ a : PV, kwGet c!"value" [(c!"value", a)] = some a := fun _ => rfl
    have g2 : ∀ a : PV, kwGet c!"fields" [(c!"value", a)] = none := fun _ => rfl
    have g3 : ∀ a : PV, (others [c!"value", c!"fields"] [(c!"value", a)]).isEmpty = true := fun _ => rfl
    have hfill : fillStep W (some (.val (.lit (c!"\"" ++ v ++ c!"\"")))) (.source m) = some e := by
      simp only [fillStep, cmdFillNull, g1, g2, g3, List.isEmpty_nil, Bool.and_self, if_true, strOf_plain hv, Option.isSome_some, fillFields, he]
    simp only [cmdTstats, List.isEmpty_nil, e2, e3, e4, e5, Option.isNone_none, Bool.and_self, if_true, Option.bind_some, hs, h2, hW, hfill, whereStepRt]
    rfl

/-- Spark with texts as values, in which a null is the text `null` and a text cast to any type is that text. -/
def fillSpark (t : Table Str) : Spark Str where
  null := c!"null"
  table _ := t
  raw _ := t
  value e r := match e with
    | .method (.fn f [.method (.named g) m [], .method (.lit code) n _]) o _ =>
      if f = c!"when" ∧ m = c!"isNull" ∧ n = c!"cast" ∧ o = c!"otherwise" then
        if cell c!"null" r g = c!"null" then (code.drop 1).dropLast else cell c!"null" r g
      else []
    | _ => []
  holds _ _ := true
  autoName _ := []
  sort _ t := t
  aggregate _ _ t := t
  joined _ _ a b := a ++ b
  union a b := a ++ b
  method _ _ t := t
  command _ t _ _ := t.getD []

theorem fillSpark_fills (t : Table Str) : FillsNulls (fillSpark t) (fun _ v => v) := by
  intro f v ty r
  have : (List.drop 1 (c!"\"" ++ v ++ c!"\"")).dropLast = v := by simp
  simp only [fillSpark, and_self, if_true, this]
  congr

example : ∃ t e, transform ⟨.allow, Tests.ext⟩ (.fillNull c!"0" (some [c!"x"])) afterTable = some t ∧
    runDF (delivered fun _ => [(c!"x", c!"string"), (c!"y", c!"string")]) t.cur = some e ∧
      ∀ (V : Type) (S : Spark V) (cast : Str → Str → V), FillsNulls S cast → ∀ k : Str,
        (S.meaning e).map (fun r => cell S.null r k) = (S.meaning (DF.select DF.default [.named c!"x"])).map (fun r =>
          if k ∈ [c!"x"] then filled S cast [(c!"x", c!"string"), (c!"y", c!"string")] c!"0" k (cell S.null r k) else cell S.null r k) :=
  C67_fillnull_values_partial (s := afterTable) rfl rfl (by decide) (by decide) (by decide)

example (types) : ∃ t e, transform ⟨.allow, Tests.ext⟩ (.tstats { tstatsOpts with fillnullValue := some c!"0" } [.call c!"count" []] (some c!"M") none none none none)
      ⟨1, none⟩ = some t ∧
      runDF (delivered types) t.cur = some (.agg (.groupBy e []) [.aliased (.fn c!"count" [.lit c!"1"]) c!"count"]) ∧
      ∀ (V : Type) (S : Spark V) (cast : Str → Str → V), FillsNulls S cast → ∀ k : Str,
        (S.meaning e).map (fun r => cell S.null r k) = (S.table c!"M").map (fun r =>
          if k ∈ ((delivered types).types (.source c!"M")).map (·.1) then filled S cast ((delivered types).types (.source c!"M")) c!"0" k (cell S.null r k)
          else cell S.null r k) :=
  C67_tstats_fill_partial rfl rfl rfl rfl rfl (by decide) (by decide) (lookup_delivered (by decide) (by decide))

end Verif.Props
