import Verif.Props.Frames
import Verif.Props.Columns
/-
C20, C27, C28, C29, C48: the search command.
-/
namespace Verif.Props
open Verif Verif.Spec Verif.Lemmas

variable {V : Type}

/-! ### specification -/

/-- the iteration order of a set is some arrangement of its elements -/
def Arranges (x : Ext) : Prop := ∀ l, (x.order l).Perm l

/-- the bare field `index` -/
def isIndexField : Expr → Bool
  | .const (.field f) => f == c!"index"
  | _ => false

/-- the value of an `index=v` (or `v=index`) test -/
def indexTest : Expr → Option Str
  | .binary l op r =>
    if op = c!"=" then
      if isIndexField l && !isIndexField r then r.asString
      else if !isIndexField l && isIndexField r then l.asString
      else none
    else none
  | _ => none

/-- the field `index` is an operand somewhere in the tree of binary operations -/
def mentionsIndex : Expr → Bool
  | .binary l _ r => isIndexField l || isIndexField r || mentionsIndex l || mentionsIndex r
  | _ => false

/-- the `index=` values that have to hold for the condition to hold -/
def requiredIndexes : Expr → List Str
  | .binary l op r =>
    if op = c!"AND" then requiredIndexes l ++ requiredIndexes r
    else (indexTest (.binary l op r)).toList
  | _ => []

/-- the condition with the required `index=` tests taken as true -/
def holdsWithIndex (truth : Expr → Bool) : Expr → Bool
  | .binary l op r =>
    if op = c!"AND" then holdsWithIndex truth l && holdsWithIndex truth r
    else if (indexTest (.binary l op r)).isSome then true
    else truth (.binary l op r)
  | e => truth e

/-- `index` occurs otherwise than in a required test -/
def misplacedIndex : Expr → Bool
  | .binary l op r =>
    if op = c!"AND" then isIndexField l || isIndexField r || misplacedIndex l || misplacedIndex r
    else (indexTest (.binary l op r)).isNone && mentionsIndex (.binary l op r)
  | _ => false

/-- tables read by a frame -/
def tablesRead : DF → List Str
  | .source n => [n]
  | .rawSource _ | .runtimeRoot .. => []
  | .unionByName s o | .join s o _ _ => tablesRead s ++ tablesRead o
  | .runtime _ s _ _ _ | .named s _ | .select s _ | .agg s _ | .orderBy s _ | .arbitraryMethod s _ _
  | .where_ s _ | .withColumn s _ _ | .groupBy s _ | .withColumnRenamed s _ _ | .limit s _ | .tail s _
  | .alias s _ => tablesRead s

/-! ### facts about the split -/

theorem isIndex_eq (e : Expr) : isIndex e = isIndexField e := by
  unfold isIndex isIndexField
  split
  · rw [Bool.eq_iff_iff]; simp
  · simp

theorem split_false : ∀ (e : Expr) (q : Option Expr × List Str),
    splitConditions false e = some q → q = (some e, []) ∧ mentionsIndex e = false
  | .binary l sym r, q, h => by
    rw [splitConditions] at h
    simp only [Bool.false_eq_true, if_false, Bool.false_and] at h
    split at h
    · simp at h
    · split at h
      · simp at h
      · split at h
        · simp at h
        · rename_i hi
          split at h
          · simp at h
          · rename_i l' is hl
            split at h
            · simp at h
            · rename_i r' js hr
              obtain ⟨e1, m1⟩ := split_false l _ hl
              obtain ⟨e2, m2⟩ := split_false r _ hr
              simp only [Prod.mk.injEq] at e1 e2
              obtain ⟨rfl, rfl⟩ := e1
              obtain ⟨rfl, rfl⟩ := e2
              simp only [recombine, Option.map_some, Option.some.injEq] at h
              simp only [isIndex_eq, Bool.or_eq_true, not_or, Bool.not_eq_true] at hi
              exact ⟨h.symm, by simp [mentionsIndex, hi, m1, m2]⟩
  | .const _, q, h | .fv .., q, h | .fb .., q, h | .fc .., q, h | .unary .., q, h | .call .., q, h
  | .fieldIn .., q, h | .timeModifier _, q, h | .searchModifier _, q, h | .subSearch _, q, h | .alias .., q, h
  | .aliasedField .., q, h => by
    simp only [splitConditions, Option.some.injEq] at h
    exact ⟨h.symm, rfl⟩

/-- what `split_conditions` computes -/
theorem split_true (truth : Expr → Bool)
    (hand : ∀ l r, truth (.binary l c!"AND" r) = (truth l && truth r)) :
    ∀ (e : Expr) (c : Option Expr) (is : List Str), splitConditions true e = some (c, is) →
      is = requiredIndexes e ∧ holdsWithIndex truth e = c.elim true truth ∧ misplacedIndex e = false
  | .binary l sym r, c, is, h => by
    rw [splitConditions] at h
    simp only [if_true, Bool.true_and, isIndex_eq] at h
    split at h
    · rename_i hc
      simp only [Bool.and_eq_true, Bool.not_eq_true', decide_eq_true_eq] at hc
      obtain ⟨⟨h1, h2⟩, rfl⟩ := hc
      simp only [Option.map_eq_some_iff, Prod.mk.injEq] at h
      obtain ⟨v, hv, rfl, rfl⟩ := h
      have ht : indexTest (.binary l c!"=" r) = some v := by simp [indexTest, h1, h2, hv]
      refine ⟨?_, ?_, ?_⟩ <;> simp [requiredIndexes, holdsWithIndex, misplacedIndex, ht]
    · split at h
      · rename_i hc
        simp only [Bool.and_eq_true, Bool.not_eq_true', decide_eq_true_eq] at hc
        obtain ⟨⟨h1, h2⟩, rfl⟩ := hc
        simp only [Option.map_eq_some_iff, Prod.mk.injEq] at h
        obtain ⟨v, hv, rfl, rfl⟩ := h
        have ht : indexTest (.binary l c!"=" r) = some v := by simp [indexTest, h1, h2, hv]
        refine ⟨?_, ?_, ?_⟩ <;> simp [requiredIndexes, holdsWithIndex, misplacedIndex, ht]
      · split at h
        · simp at h
        · rename_i hi
          simp only [Bool.or_eq_true, not_or, Bool.not_eq_true] at hi
          by_cases hs : sym = c!"AND"
          · subst hs
            simp only [decide_true] at h
            split at h
            · simp at h
            · rename_i l' is' hl
              split at h
              · simp at h
              · rename_i r' js hr
                obtain ⟨e1, t1, m1⟩ := split_true truth hand l _ _ hl
                obtain ⟨e2, t2, m2⟩ := split_true truth hand r _ _ hr
                simp only [Option.map_eq_some_iff, Prod.mk.injEq] at h
                obtain ⟨x, hx, rfl, rfl⟩ := h
                refine ⟨by simp [requiredIndexes, e1, e2], ?_, by simp [misplacedIndex, hi, m1, m2]⟩
                simp only [holdsWithIndex, if_true, t1, t2]
                cases l' <;> cases r' <;> simp [recombine] at hx <;> subst hx <;> simp [hand]
          · simp only [hs, decide_false] at h
            split at h
            · simp at h
            · rename_i l' is' hl
              split at h
              · simp at h
              · rename_i r' js hr
                obtain ⟨e1, m1⟩ := split_false l _ hl
                obtain ⟨e2, m2⟩ := split_false r _ hr
                simp only [Prod.mk.injEq] at e1 e2
                obtain ⟨rfl, rfl⟩ := e1
                obtain ⟨rfl, rfl⟩ := e2
                simp only [recombine, Option.map_some, Option.some.injEq, Prod.mk.injEq] at h
                obtain ⟨rfl, rfl⟩ := h
                have ht : indexTest (.binary l sym r) = none := by simp [indexTest, hi]
                refine ⟨?_, ?_, ?_⟩ <;>
                  simp [requiredIndexes, holdsWithIndex, misplacedIndex, ht, hs, mentionsIndex, hi, m1, m2]
  | .const _, c, is, h | .fv .., c, is, h | .fb .., c, is, h | .fc .., c, is, h | .unary .., c, is, h
  | .call .., c, is, h | .fieldIn .., c, is, h | .timeModifier _, c, is, h | .searchModifier _, c, is, h
  | .subSearch _, c, is, h | .alias .., c, is, h | .aliasedField .., c, is, h => by
    simp only [splitConditions, Option.some.injEq, Prod.mk.injEq] at h
    obtain ⟨rfl, rfl⟩ := h
    exact ⟨rfl, rfl, rfl⟩

theorem dedup_mem (l : List Str) (a : Str) : a ∈ dedupStr l ↔ a ∈ l := by
  induction l with
  | nil => rfl
  | cons x l ih =>
    simp only [dedupStr, List.mem_cons, List.mem_filter, ih, decide_eq_true_eq]
    by_cases h : a = x <;> simp [h]

theorem dedup_nodup (l : List Str) : (dedupStr l).Nodup := by
  induction l with
  | nil => simp [dedupStr]
  | cons x l ih => exact List.nodup_cons.2 ⟨by simp, ih.filter _⟩

theorem tablesRead_union (l : List Str) (d : DF) (h : unionSources l = some d) : tablesRead d = l := by
  have key : ∀ (xs : List Str) (d : DF),
      tablesRead (xs.foldl (fun d n => .unionByName d (.source n)) d) = tablesRead d ++ xs := by
    intro xs
    induction xs with
    | nil => intro d; simp
    | cons x xs ih => intro d; rw [List.foldl_cons, ih]; simp [tablesRead]
  cases l with
  | nil => simp [unionSources] at h
  | cons x xs =>
    simp only [unionSources, Option.some.injEq] at h
    rw [← h, key]; rfl

/-! ### C28 -/

/-- **C28** A search translated without the runtime library reads, each once, exactly the tables its
condition requires (the frame so far when it requires none), and then filters by a condition which is
true of a row exactly when the original condition is, the required `index=` tests being taken as true.
`truth` is any valuation of expressions under which AND is conjunction. -/
theorem C28_index_split (x : Ext) (hx : Arranges x) (e : Expr) (s t : St)
    (h : transform ⟨.disallow, x⟩ (.search e) s = some t) :
    ∃ (d : DF) (rest : Option Expr),
      (requiredIndexes e = [] → d = s.cur) ∧
      (requiredIndexes e ≠ [] → (tablesRead d).Nodup ∧ ∀ a, a ∈ tablesRead d ↔ a ∈ requiredIndexes e) ∧
      (∀ truth : Expr → Bool, (∀ l r, truth (.binary l c!"AND" r) = (truth l && truth r)) →
        holdsWithIndex truth e = rest.elim true truth) ∧
      match rest with
      | none => t.cur = d
      | some c => ∃ p, exprTr .disallow c = some p ∧ t.cur = .where_ d (intoSearch p).unalias := by
  simp only [transform, dispatch, searchStandalone] at h
  split at h
  · simp at h
  · rename_i cond is hs
    have hall := fun truth hand => split_true truth hand e cond is hs
    have his : is = requiredIndexes e := (hall (fun _ => true) (by simp)).1
    refine ⟨(unionSources (x.order (dedupStr is))).getD s.cur, cond, ?_, ?_, fun truth hand => (hall truth hand).2.1, ?_⟩
    · intro h0
      rw [his, h0]
      have := (hx (dedupStr [])).length_eq
      simp only [dedupStr, List.length_nil, List.length_eq_zero_iff] at this
      simp [dedupStr, this, unionSources]
    · intro h0
      have hp := hx (dedupStr is)
      cases hu : unionSources (x.order (dedupStr is)) with
      | none =>
        exfalso
        have : x.order (dedupStr is) = [] := by
          cases ho : x.order (dedupStr is) with
          | nil => rfl
          | cons a l => rw [ho] at hu; simp [unionSources] at hu
        have h1 := hp.length_eq
        rw [this] at h1
        have h2 : dedupStr is = [] := List.length_eq_zero_iff.1 h1.symm
        rw [← his] at h0
        cases is with
        | nil => exact h0 rfl
        | cons a l => simp [dedupStr] at h2
      | some d =>
        simp only [Option.getD_some]
        rw [tablesRead_union _ _ hu]
        exact ⟨hp.nodup_iff.2 (dedup_nodup _), fun a => by rw [hp.mem_iff, dedup_mem, his]⟩
    · cases cond with
      | none => simp only [Option.some.injEq] at h; subst h; rfl
      | some c =>
        simp only [Option.map_eq_some_iff] at h
        obtain ⟨p, hp, rfl⟩ := h
        exact ⟨p, hp, rfl⟩

/-- **C28** `index` under OR, in any comparison other than a required `index=v`, or as a bare word, makes
the search fail. -/
theorem C28_misplaced_index_fails (x : Ext) (e : Expr) (s : St) (hm : misplacedIndex e = true) :
    transform ⟨.disallow, x⟩ (.search e) s = none := by
  simp only [transform, dispatch, searchStandalone]
  cases h : splitConditions true e with
  | none => rfl
  | some q =>
    have := (split_true (fun _ => true) (by simp) e q.1 q.2 h).2.2
    rw [hm] at this; simp at this

/-- `index=a x=1 index=b` -/
def exampleSearch : Expr :=
  .binary (.binary (.binary (.const (.field c!"index")) c!"=" (.const (.field c!"a"))) c!"AND"
    (.binary (.const (.field c!"x")) c!"=" (.const (.int 1)))) c!"AND"
    (.binary (.const (.field c!"index")) c!"=" (.const (.field c!"b")))

example : requiredIndexes exampleSearch = [c!"a", c!"b"] := by decide +kernel
example : renderPipeline ⟨.disallow, ⟨fun _ => none, id⟩⟩ [.search exampleSearch] =
    some c!"spark.table('a').unionByName(spark.table('b'), allowMissingColumns=True,).where((F.col('x') == F.lit(1)),)" := by
  decide +kernel
example : misplacedIndex (.binary exampleSearch c!"OR" (.const (.field c!"y"))) = true := by decide +kernel

/-! ### C29 -/

/-- **C29** A search that requires no index filters the rows of the commands before it.
Missing: searches that do require one, see `C29_index_replaces`. -/
theorem C29_narrows_partial (S : Spark V) (x : Ext) (hx : Arranges x) (e : Expr) (s t : St)
    (hi : requiredIndexes e = []) (h : transform ⟨.disallow, x⟩ (.search e) s = some t) :
    ∃ keep : Row V → Bool, S.meaning t.cur = (S.meaning s.cur).filter keep := by
  obtain ⟨d, rest, h1, _, _, h4⟩ := C28_index_split x hx e s t h
  rw [h1 hi] at h4
  cases rest with
  | none =>
    refine ⟨fun _ => true, ?_⟩
    rw [h4]
    exact (List.filter_eq_self.2 fun _ _ => rfl).symm
  | some c =>
    obtain ⟨p, _, ht⟩ := h4
    refine ⟨S.holds (intoSearch p).unalias, ?_⟩
    rw [ht]; rfl

/-- A search that requires an index forgets everything before it. -/
theorem C29_index_forgets (x : Ext) (hx : Arranges x) (e : Expr) (s s' : St) (hn : s.next = s'.next)
    (hi : requiredIndexes e ≠ []) :
    transform ⟨.disallow, x⟩ (.search e) s = transform ⟨.disallow, x⟩ (.search e) s' := by
  simp only [transform, dispatch, searchStandalone]
  cases hs : splitConditions true e with
  | none => rfl
  | some q =>
    obtain ⟨cond, is⟩ := q
    have his : is = requiredIndexes e := (split_true (fun _ => true) (by simp) e cond is hs).1
    have : ∃ d, unionSources (x.order (dedupStr is)) = some d := by
      have hp := (hx (dedupStr is)).length_eq
      rw [his] at hp ⊢
      cases ho : x.order (dedupStr (requiredIndexes e)) with
      | nil =>
        rw [ho] at hp
        cases hr : requiredIndexes e with
        | nil => exact absurd hr hi
        | cons a l => rw [hr] at hp; simp [dedupStr] at hp
      | cons a l => exact ⟨_, rfl⟩
    obtain ⟨d, hd⟩ := this
    have hput : ∀ d, s.put d = s'.put d := fun d => by simp [St.put, hn]
    dsimp only
    rw [hd]
    simp only [Option.getD_some, hput]

/-- **C29** fails: `table a | search index=i` is the whole of table `i`. -/
theorem C29_index_replaces : ∃ (S : Spark Nat) (s t : St) (e : Expr),
    transform ⟨.disallow, ⟨fun _ => none, id⟩⟩ (.table [c!"a"]) ⟨1, none⟩ = some s ∧
    transform ⟨.disallow, ⟨fun _ => none, id⟩⟩ (.search e) s = some t ∧
    ¬ ∃ keep : Row Nat → Bool, S.meaning t.cur = (S.meaning s.cur).filter keep := by
  refine ⟨flat [[(c!"a", 1), (c!"b", 2)]], _, _,
    .binary (.const (.field c!"index")) c!"=" (.const (.field c!"i")), rfl, rfl, ?_⟩
  rintro ⟨keep, h⟩
  have h1 : [(c!"a", 1), (c!"b", 2)] ∈ (flat [[(c!"a", 1), (c!"b", 2)]]).meaning
      (DF.select DF.default [.named c!"a"]) := by
    have h2 : [(c!"a", 1), (c!"b", 2)] ∈ (flat [[(c!"a", 1), (c!"b", 2)]]).meaning (.source c!"i") := by decide
    have h3 : (flat [[(c!"a", 1), (c!"b", 2)]]).meaning (.source c!"i") =
      ((flat [[(c!"a", 1), (c!"b", 2)]]).meaning (DF.select DF.default [.named c!"a"])).filter keep := h
    rw [h3] at h2
    exact (List.mem_filter.1 h2).1
  revert h1
  decide +kernel

example (x : Ext) (hx : Arranges x) : ∃ t, transform ⟨.disallow, x⟩ (.search (.const (.field c!"err"))) ⟨1, none⟩ = some t ∧
    requiredIndexes (.const (.field c!"err")) = [] := by
  have : x.order [] = [] := by have := (hx []).length_eq; simpa using this
  exact ⟨_, rfl, rfl⟩

/-! ### C20 -/

mutual
/-- every search of the command, at any depth, requires at most one index -/
def oneIndex : Command → Prop
  | .search e => ∀ a ∈ requiredIndexes e, ∀ b ∈ requiredIndexes e, a = b
  | .join _ _ sub => oneIndexes sub
  | .multiSearch ps => oneIndexes2 ps
  | _ => True

/-- the same for a pipeline -/
def oneIndexes : List Command → Prop
  | [] => True
  | c :: cs => oneIndex c ∧ oneIndexes cs

/-- the same for several pipelines -/
def oneIndexes2 : List (List Command) → Prop
  | [] => True
  | p :: ps => oneIndexes p ∧ oneIndexes2 ps
end

theorem order_same {x y : Ext} (hx : Arranges x) (hy : Arranges y) {l : List Str}
    (h : ∀ a ∈ l, ∀ b ∈ l, a = b) : x.order (dedupStr l) = y.order (dedupStr l) := by
  have hl : dedupStr l = [] ∨ ∃ a, dedupStr l = [a] := by
    have hnd := dedup_nodup l
    have h' : ∀ a ∈ dedupStr l, ∀ b ∈ dedupStr l, a = b := fun a ha b hb =>
      h a ((dedup_mem _ _).1 ha) b ((dedup_mem _ _).1 hb)
    generalize dedupStr l = k at hnd h'
    match k with
    | [] => exact .inl rfl
    | [a] => exact .inr ⟨a, rfl⟩
    | a :: b :: k =>
      have : a = b := h' a (by simp) b (by simp)
      subst this
      simp at hnd
  rcases hl with hl | ⟨a, hl⟩
  · rw [hl, List.perm_nil.1 (hx []), List.perm_nil.1 (hy [])]
  · rw [hl, List.perm_singleton.1 (hx [a]), List.perm_singleton.1 (hy [a])]

section
variable {x y : Ext} (hx : Arranges x) (hy : Arranges y) (hre : x.parseRe = y.parseRe)
include hx hy hre

mutual
theorem transform_order (m : Mode) : ∀ (cmd : Command) (s : St), oneIndex cmd →
    transform ⟨m, x⟩ cmd s = transform ⟨m, y⟩ cmd s
  | .search e, s, h => by
    have key : searchStandalone ⟨m, x⟩ e s = searchStandalone ⟨m, y⟩ e s := by
      unfold searchStandalone
      cases hs : splitConditions true e with
      | none => rfl
      | some q =>
        obtain ⟨cond, is⟩ := q
        have his : is = requiredIndexes e := (split_true (fun _ => true) (by simp) e cond is hs).1
        rw [oneIndex] at h
        have := order_same hx hy (l := is) (by rw [his]; exact h)
        dsimp only
        rw [this]
    simp only [transform, key]
  | .join o fs sub, s, h => by
    rw [oneIndex] at h
    simp only [transform, runCmds_order m sub _ h]
  | .multiSearch ps, s, h => by
    rw [oneIndex] at h
    cases ps with
    | nil => simp only [transform]
    | cons p ps =>
      rw [transform, transform]
      · simp only [multi_order m (p :: ps) s.next none h]
      · simp
      · simp
  | .rex a, s, _ => by simp only [transform, rexTr, hre]
  | .addTotals _, s, _ | .bin _, s, _ | .collect .., s, _ | .convert .., s, _ | .dataModel _, s, _ | .dedup .., s, _
  | .eval _, s, _ | .eventStats .., s, _ | .fields .., s, _ | .fillNull .., s, _ | .format .., s, _ | .head .., s, _
  | .inputLookup .., s, _ | .lookup _, s, _ | .makeResults _, s, _ | .map .., s, _ | .mvCombine .., s, _
  | .mvExpand .., s, _ | .rare _, s, _ | .regex .., s, _ | .rename _, s, _ | .return_ .., s, _ | .sort .., s, _
  | .spath .., s, _ | .stats .., s, _ | .streamStats .., s, _ | .table _, s, _ | .tail _, s, _ | .top _, s, _
  | .tstats .., s, _ | .where_ _, s, _ => by simp only [transform]

theorem runCmds_order (m : Mode) : ∀ (p : List Command) (s : St), oneIndexes p →
    runCmds ⟨m, x⟩ p s = runCmds ⟨m, y⟩ p s
  | [], s, _ => by simp only [runCmds]
  | c :: p, s, h => by
    rw [oneIndexes] at h
    simp only [runCmds, transform_order m c s h.1]
    cases transform ⟨m, y⟩ c s with
    | none => rfl
    | some s' => exact runCmds_order m p s' h.2

theorem multi_order (m : Mode) : ∀ (ps : List (List Command)) (k : Nat) (acc : Option DF), oneIndexes2 ps →
    multiTr ⟨m, x⟩ ps k acc = multiTr ⟨m, y⟩ ps k acc
  | [], k, acc, _ => by simp only [multiTr]
  | p :: ps, k, acc, h => by
    rw [oneIndexes2] at h
    simp only [multiTr, runCmds_order m p _ h.1]
    cases runCmds ⟨m, y⟩ p ⟨k, none⟩ with
    | none => rfl
    | some s =>
      dsimp only
      cases s.df with
      | none => rfl
      | some d => exact multi_order m ps _ _ h.2
end
end

/-- **C20** When no search requires two different indexes the rendered program does not depend on the
iteration order of hash sets.  Missing: searches over several indexes, see `C20_order_matters`. -/
theorem C20_deterministic_partial (x y : Ext) (hx : Arranges x) (hy : Arranges y) (hre : x.parseRe = y.parseRe)
    (fmt : Str → Option Str) (p : Pipeline) (hp : oneIndexes p) (allowRuntime formatCode : Bool) :
    renderPyspark x fmt p allowRuntime formatCode = renderPyspark y fmt p allowRuntime formatCode := by
  simp only [renderPyspark, renderPipeline, runCmds_order hx hy hre _ p _ hp]

/-- **C20** fails for two indexes: two iteration orders give two programs. -/
theorem C20_order_matters : ∃ (x y : Ext) (p : Pipeline), Arranges x ∧ Arranges y ∧ x.parseRe = y.parseRe ∧
    renderPipeline ⟨.disallow, x⟩ p ≠ renderPipeline ⟨.disallow, y⟩ p :=
  ⟨⟨fun _ => none, id⟩, ⟨fun _ => none, List.reverse⟩, [.search exampleSearch], fun l => .refl l,
    fun l => List.reverse_perm l, rfl, by decide +kernel⟩

/-- The two-index search is a query. -/
theorem C20_order_matters_query : (parse c!"index=a x=1 index=b").map
    (renderPipeline ⟨.disallow, ⟨fun _ => none, List.reverse⟩⟩) = some (renderPipeline ⟨.disallow, ⟨fun _ => none, List.reverse⟩⟩
      [.search exampleSearch]) := by decide +kernel

example : oneIndexes [.search (.binary (.const (.field c!"index")) c!"=" (.const (.field c!"a"))),
    .join ⟨c!"inner", false, true, false, 1⟩ [c!"x"] [.search (.const (.field c!"index"))]] := by
  simp [oneIndexes, oneIndex, requiredIndexes, indexTest, isIndexField, Expr.asString]

/-! ### C27 -/

/-- a rewritten search condition: no bare term at a Boolean position -/
def noBareTerm : PE → Bool
  | .named _ | .lit _ => false
  | .not r => noBareTerm r
  | .bin op l r => if op = c!"&" || op = c!"|" then noBareTerm l && noBareTerm r else true
  | .aliased c _ => noBareTerm c
  | _ => true

/-- truth of a search condition, given the truth of its comparisons and calls and of the containment
tests on the raw event; a bare term stands for such a test -/
def searchTruth (cmp : PE → Bool) (contains : Str → Bool) : PE → Bool
  | .named n => contains n
  | .lit c => contains (stripQuotes c)
  | .not r => !searchTruth cmp contains r
  | .bin op l r =>
    if op = c!"&" then searchTruth cmp contains l && searchTruth cmp contains r
    else if op = c!"|" then searchTruth cmp contains l || searchTruth cmp contains r
    else cmp (.bin op l r)
  | e => cmp e

/-- truth of a column condition: `&`, `|`, `~` are Boolean, everything else is given -/
def filterTruth (cmp : PE → Bool) : PE → Bool
  | .not r => !filterTruth cmp r
  | .bin op l r =>
    if op = c!"&" then filterTruth cmp l && filterTruth cmp r
    else if op = c!"|" then filterTruth cmp l || filterTruth cmp r
    else cmp (.bin op l r)
  | e => cmp e

/-- `_raw` contains the term, in any letter case -/
def rawContains (term : Str) : PE :=
  .method (.named c!"_raw") c!"ilike" [.py (c!"\"%" ++ term ++ c!"%\"")]

theorem rawTest_eq (t : Str) : rawTest t = rawContains t := by
  simp [rawTest, rawContains, PE.mkMethod, PE.unalias, pyStr]

variable {ok : Str → Bool}

theorem searchRw_noBare : ∀ (p : PE), clean ok p = true → noBareTerm (searchRw p) = true
  | .named _, _ => rfl
  | .lit _, _ => rfl
  | .not r, h => by
    rw [searchRw, noBareTerm]
    simp only [clean] at h
    exact searchRw_noBare r h
  | .bin op l r, h => by
    rw [searchRw]
    simp only [clean, Bool.and_eq_true] at h
    split
    · rename_i ho
      simp only [PE.mkBin, unalias_of_clean (searchRw_clean l h.1), unalias_of_clean (searchRw_clean r h.2), noBareTerm, ho,
        if_true, searchRw_noBare l h.1, searchRw_noBare r h.2, Bool.and_self]
    · rename_i ho
      simp only [noBareTerm, ho]
      rfl
  | .aliased _ _, h => by simp [clean] at h
  | .method .., _ => rfl
  | .fn .., _ => rfl
  | .py _, _ => rfl

theorem searchRw_idem : ∀ (p : PE), clean ok p = true → searchRw (searchRw p) = searchRw p
  | .named _, _ => rfl
  | .lit _, _ => rfl
  | .not r, h => by
    simp only [clean] at h
    simp only [searchRw, searchRw_idem r h]
  | .bin op l r, h => by
    simp only [clean, Bool.and_eq_true] at h
    rw [searchRw]
    split
    · rename_i ho
      simp only [PE.mkBin, unalias_of_clean (searchRw_clean l h.1), unalias_of_clean (searchRw_clean r h.2), searchRw, ho,
        if_true, searchRw_idem l h.1, searchRw_idem r h.2]
    · rename_i ho
      simp only [searchRw, ho]
      rfl
  | .aliased _ _, h => by simp [clean] at h
  | .method .., _ => rfl
  | .fn .., _ => rfl
  | .py _, _ => rfl

theorem searchRw_truth (cmp : PE → Bool) : ∀ (p : PE), clean ok p = true →
    filterTruth cmp (searchRw p) = searchTruth cmp (fun t => cmp (rawContains t)) p
  | .named n, _ => by simp only [searchRw, searchTruth, rawTest_eq, rawContains, filterTruth]
  | .lit c, _ => by simp only [searchRw, searchTruth, rawTest_eq, rawContains, filterTruth]
  | .not r, h => by
    simp only [clean] at h
    simp only [searchRw, filterTruth, searchTruth, searchRw_truth cmp r h]
  | .bin op l r, h => by
    simp only [clean, Bool.and_eq_true] at h
    have u1 := unalias_of_clean (searchRw_clean l h.1)
    have u2 := unalias_of_clean (searchRw_clean r h.2)
    rw [searchRw]
    by_cases h1 : op = c!"&"
    · subst h1
      simp [PE.mkBin, u1, u2, filterTruth, searchTruth, searchRw_truth cmp l h.1, searchRw_truth cmp r h.2]
    · by_cases h2 : op = c!"|"
      · subst h2
        simp [PE.mkBin, u1, u2, filterTruth, searchTruth, searchRw_truth cmp l h.1, searchRw_truth cmp r h.2]
      · simp [h1, h2, filterTruth, searchTruth]
  | .aliased _ _, h => by simp [clean] at h
  | .method .., _ => rfl
  | .fn .., _ => rfl
  | .py _, _ => rfl

/-- what the filter of a search is: the rewrite of the translated condition, without alias -/
theorem intoSearch_eq {p : PE} (h : topClean ok p = true) : (intoSearch p).unalias = searchRw p.unalias := by
  have hc := clean_unalias_of_top h
  have h1 := searchRw_clean _ hc
  unfold intoSearch
  cases p with
  | aliased c n =>
    simp only [topClean, Bool.and_eq_true] at h
    have hu : (PE.aliased c n).unalias = c := by
      cases c <;> first | rfl | (simp [PE.isCol] at h; done) | (simp [clean] at h)
    rw [hu] at h1 ⊢
    have h2 := searchRw_isCol c h.1
    simp only [PE.aliasName, PE.maybeAlias, PE.withAlias, unalias_of_clean h1]
    generalize searchRw c = q at h1 h2
    cases q <;> first | rfl | (simp [PE.isCol] at h2; done) | (simp [clean] at h1)
  | _ => simp [PE.maybeAlias, PE.aliasName, unalias_of_clean h1]

/-- **C27** The filter generated for a search condition without index terms: it is true of a row
exactly when the condition is, bare terms standing for case-insensitive containment in `_raw` and
comparisons, calls, AND, OR and NOT being unchanged; no bare term is left at a Boolean position; and
the rewrite changes nothing when applied again.
Missing: with the runtime library nothing is rewritten, see `C27_runtime_bare_term`. -/
theorem C27_search_filter_partial (e : Expr) (p : PE) (h : exprTr .disallow e = some p) (cmp : PE → Bool) :
    filterTruth cmp (intoSearch p).unalias = searchTruth cmp (fun t => cmp (rawContains t)) p.unalias ∧
    noBareTerm (intoSearch p).unalias = true ∧
    (intoSearch (intoSearch p).unalias).unalias = (intoSearch p).unalias := by
  have ht : topClean (fun _ => true) p = true := exprTr_top (fun _ _ => rfl) (fun _ _ => rfl) h
  have hc := clean_unalias_of_top ht
  have hc2 := searchRw_clean _ hc
  have hi : topClean (fun _ => true) (intoSearch p).unalias = true := by
    rw [intoSearch_eq ht]; exact topClean_of_clean hc2
  refine ⟨?_, ?_, ?_⟩
  · rw [intoSearch_eq ht]; exact searchRw_truth cmp _ hc
  · rw [intoSearch_eq ht]; exact searchRw_noBare _ hc
  · rw [intoSearch_eq hi, intoSearch_eq ht, unalias_of_clean hc2]
    exact searchRw_idem _ hc

/-- **C27** a quoted bare term is searched for without its quotes.  Missing: the empty term, see
`C27_empty_term`, and terms with a line break. -/
theorem C27_quoted_term_partial (s : Str) (h : s ≠ []) (hn : '\n' ∉ s) : stripQuotes (c!"'" ++ s ++ c!"'") = s := by
  cases s with
  | nil => exact absurd rfl h
  | cons a s =>
    simp only [List.mem_cons, not_or] at hn
    have : (a :: (s ++ ['\''])).dropLast = a :: s := by
      rw [show a :: (s ++ ['\'']) = (a :: s) ++ ['\''] from rfl, List.dropLast_concat]
    simp [stripQuotes, this, hn.1, hn.2, List.getLast?_cons, Ne.symm hn.1]

/-- but the empty term is not: `search ""` looks for two quote characters -/
theorem C27_empty_term : (parse c!"search \"\"").bind (renderPipeline ⟨.disallow, ⟨fun _ => none, id⟩⟩) =
    some c!"spark.table('main').where(F.col('_raw').ilike(\"%''%\"),)" := by decide +kernel

/-- With the runtime library bare terms are not rewritten: they are passed on as columns. -/
theorem C27_runtime_bare_term : (parse c!"search failed").bind (renderPipeline ⟨.allow, ⟨fun _ => none, id⟩⟩) =
    some c!"df_1 = commands.search(None, F.col('failed'))\ndf_1" := by decide +kernel

example : (parse c!"search failed NOT \"disk full\" code=5").bind (renderPipeline ⟨.disallow, ⟨fun _ => none, id⟩⟩) =
    some c!"spark.table('main').where(((F.col('_raw').ilike(\"%failed%\") & ~F.col('_raw').ilike(\"%disk full%\")) & (F.col('code') == F.lit(5))),)" := by
  decide +kernel

/-! ### C48 -/

/-- the conditions a row has to satisfy -/
def conjuncts : Expr → List Expr
  | .binary l op r => if op = c!"AND" then conjuncts l ++ conjuncts r else [.binary l op r]
  | e => [e]

/-- Splunk's special fields and the parameter of the runtime's `search` each is passed in -/
def specialFields : List (Str × Str) :=
  [(c!"index", c!"index"), (c!"source", c!"source"), (c!"sourcetype", c!"source_type"), (c!"host", c!"host"),
   (c!"hosttag", c!"host_tag"), (c!"eventtype", c!"event_type"), (c!"eventtypetag", c!"event_type_tag"),
   (c!"savedsplunk", c!"saved_splunk"), (c!"splunk_server", c!"splunk_server")]

/-- the keyword for an equality test on a field, `none` for any other condition -/
def keywordOf : Expr → Option Str
  | .binary (.const (.field f)) op _ =>
    if op = c!"=" || op = c!"==" then some ((specialFields.lookup f).getD f) else none
  | _ => none

/-- the value passed for an equality test: the plain text for a special field, else the column -/
def keywordValue (m : Mode) : Expr → Option PE
  | .binary (.const (.field f)) _ r =>
    if (specialFields.lookup f).isSome then
      match r with
      | .const (.field v) | .const (.str v) => some (pyStr v)
      | _ => none
    else exprTr m r
  | _ => none

theorem breakAnds_eq : ∀ e : Expr, breakAnds e = conjuncts e
  | .binary l sym r => by simp only [breakAnds, conjuncts, breakAnds_eq l, breakAnds_eq r]
  | .const _ | .fv .. | .fb .. | .fc .. | .unary .. | .call .. | .fieldIn .. | .timeModifier _ | .searchModifier _
  | .subSearch _ | .alias .. | .aliasedField .. => by simp only [breakAnds, conjuncts]

theorem searchKeyword_eq (f : Str) : searchKeyword f = specialFields.lookup f := by
  simp only [searchKeyword, specialFields, List.lookup]
  repeat' split
  all_goals simp_all

/-- The two lists of arguments in terms of the conditions. -/
theorem searchArgs_spec (m : Mode) : ∀ (es : List Expr) (ps : List RE) (ks : List (Str × RE)),
    searchArgs m es = some (ps, ks) →
      ps.map some = (es.filter fun c => (keywordOf c).isNone).map (fun c => (exprTr m c).map RE.expr) ∧
      ks.map (fun k => (some k.1, some k.2)) =
        (es.filter fun c => (keywordOf c).isSome).map (fun c => (keywordOf c, (keywordValue m c).map RE.expr))
  | [], ps, ks, h => by
    simp only [searchArgs, Option.some.injEq, Prod.mk.injEq] at h
    obtain ⟨rfl, rfl⟩ := h
    exact ⟨rfl, rfl⟩
  | e :: es, ps, ks, h => by
    rw [searchArgs] at h
    split at h
    · simp at h
    · rename_i a ha
      split at h
      · simp at h
      · rename_i ps' ks' hs
        obtain ⟨i1, i2⟩ := searchArgs_spec m es ps' ks' hs
        simp only [Option.some.injEq] at h
        have hpos : ∀ p, a = .pos p → keywordOf e = none ∧ exprTr m e = some p := by
          intro p hp
          subst hp
          unfold searchArg at ha
          split at ha
          · rename_i f sym r
            split at ha
            · split at ha
              · split at ha <;> simp at ha
              · simp at ha
            · split at ha
              · simp at ha
              · rename_i hop
                simp only [Option.map_eq_some_iff, SArg.pos.injEq] at ha
                obtain ⟨q, hq, rfl⟩ := ha
                exact ⟨by simp only [keywordOf, hop]; rfl, hq⟩
          · rename_i hne
            simp only [Option.map_eq_some_iff, SArg.pos.injEq] at ha
            obtain ⟨q, hq, rfl⟩ := ha
            refine ⟨?_, hq⟩
            unfold keywordOf
            split
            · exact absurd rfl (hne _ _ _)
            · rfl
        have hkw : ∀ k p, a = .kw k p → keywordOf e = some k ∧ keywordValue m e = some p := by
          intro k p hp
          subst hp
          unfold searchArg at ha
          split at ha
          · rename_i f sym r
            split at ha
            · rename_i k' hk'
              rw [searchKeyword_eq] at hk'
              split at ha
              · rename_i hop
                split at ha <;> simp only [Option.some.injEq, SArg.kw.injEq, reduceCtorEq] at ha <;>
                  obtain ⟨rfl, rfl⟩ := ha <;> simp [keywordOf, keywordValue, hop, hk'] <;> simpa using hop
              · simp at ha
            · rename_i hk'
              rw [searchKeyword_eq] at hk'
              split at ha
              · rename_i hop
                simp only [Option.map_eq_some_iff, SArg.kw.injEq] at ha
                obtain ⟨q, hq, rfl, rfl⟩ := ha
                simp only [keywordOf, keywordValue, hk', hop, if_true, Option.getD_none, Option.isSome_none,
                  Bool.false_eq_true, if_false, hq, and_self]
              · simp at ha
          · simp at ha
        cases a with
        | pos p =>
          obtain ⟨k1, k2⟩ := hpos p rfl
          simp only [Prod.mk.injEq] at h
          obtain ⟨rfl, rfl⟩ := h
          exact ⟨by simp [k1, k2, i1], by simp [k1, i2]⟩
        | kw k p =>
          obtain ⟨k1, k2⟩ := hkw k p rfl
          simp only [Prod.mk.injEq] at h
          obtain ⟨rfl, rfl⟩ := h
          exact ⟨by simp [k1, i1], by simp [k1, k2, i2]⟩

/-- **C48** The runtime form of a search is one call that passes each of its conditions exactly once:
equality tests on fields as keyword arguments, everything else as positional arguments, each group in
query order.  When the tested fields are passed under different keywords no keyword is repeated.
Missing: repeated keywords, which do occur (`C48_duplicate_keyword`). -/
theorem C48_runtime_search_partial (m : Mode) (e : Expr) (s t : St) (h : searchRuntime m e s = some t) :
    ∃ (ps : List RE) (ks : List (Str × RE)),
      t = s.putRuntime c!"search" ps ks ∧
      ps.map some = ((conjuncts e).filter fun c => (keywordOf c).isNone).map (fun c => (exprTr m c).map RE.expr) ∧
      ks.map (fun k => (some k.1, some k.2)) =
        ((conjuncts e).filter fun c => (keywordOf c).isSome).map (fun c => (keywordOf c, (keywordValue m c).map RE.expr)) ∧
      ps.length + ks.length = (conjuncts e).length ∧
      (((conjuncts e).filterMap keywordOf).Nodup → (ks.map Prod.fst).Nodup) := by
  simp only [searchRuntime, Option.map_eq_some_iff] at h
  obtain ⟨⟨ps, ks⟩, hs, rfl⟩ := h
  rw [breakAnds_eq] at hs
  obtain ⟨h1, h2⟩ := searchArgs_spec m _ ps ks hs
  refine ⟨ps, ks, rfl, h1, h2, ?_, ?_⟩
  · have l1 := congrArg List.length h1
    have l2 := congrArg List.length h2
    simp only [List.length_map] at l1 l2
    rw [l1, l2]
    generalize conjuncts e = es
    induction es with
    | nil => rfl
    | cons c cs ih =>
      cases hk : keywordOf c <;> simp [hk] <;> omega
  · have h3 : ks.map Prod.fst = (conjuncts e).filterMap keywordOf := by
      have := congrArg (List.filterMap Prod.fst) h2
      rw [List.filterMap_map, List.filterMap_map, List.filterMap_filter] at this
      have e1 : List.filterMap (Prod.fst ∘ fun k : Str × RE => (some k.1, some k.2)) ks = ks.map Prod.fst := by
        rw [← List.filterMap_eq_map]; rfl
      rw [e1] at this
      rw [this]
      congr 1
      funext c
      cases hk : keywordOf c <;> simp [hk]
    rw [h3]; exact id

example : (searchRuntime .allow (.binary (.binary (.const (.field c!"index")) c!"=" (.const (.field c!"i"))) c!"AND"
    (.binary (.binary (.const (.field c!"a")) c!"=" (.const (.int 1))) c!"AND" (.const (.field c!"err")))) ⟨1, none⟩).map
      (fun t => t.cur.render.text) =
    some c!"df_1 = commands.search(None, F.col('err'), index=\"i\", a=F.lit(1))\ndf_1" := by decide +kernel

/-- **C48** fails: a field tested twice is passed twice, which Python rejects; and so are two different
fields that share a parameter. -/
theorem C48_duplicate_keyword :
    (parse c!"search a=1 a=2").bind (renderPipeline ⟨.allow, ⟨fun _ => none, id⟩⟩) =
      some c!"df_1 = commands.search(None, a=F.lit(1), a=F.lit(2))\ndf_1" ∧
    (parse c!"search sourcetype=x source_type=y").bind (renderPipeline ⟨.allow, ⟨fun _ => none, id⟩⟩) =
      some c!"df_1 = commands.search(None, source_type=\"x\", source_type=F.col('y'))\ndf_1" := by
  decide +kernel

end Verif.Props
