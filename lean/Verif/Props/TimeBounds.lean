import Verif.Props.SearchRows
import Verif.Props.Program
/-
C89: the time range of a search.
-/
namespace Verif.Props
open Verif Spl Spec Lemmas

/-! ### times in a condition -/

/-- A time relative to now, a span or a time modifier stands somewhere in the condition, outside of calls. -/
def hasTime : Expr → Bool
  | .binary l _ r => hasTime l || hasTime r
  | .unary _ r => hasTime r
  | .const (.snapTime _) => true
  | .const (.timeSpan _) => true
  | .timeModifier _ => true
  | _ => false

theorem hasTime_expr (m : Mode) : ∀ e, hasTime e = true → exprTr m e = none
  | .binary l op r, h => by
    rw [hasTime, Bool.or_eq_true] at h
    rw [exprTr]
    rcases h with h | h
    · rw [hasTime_expr m l h]
      unfold binTr
      split
      · rfl
      · split
        · simp [hasTime] at h
        · rfl
      · rfl
    · rw [hasTime_expr m r h]
      unfold binTr
      split
      · simp [hasTime] at h
      · simp [hasTime] at h
      · cases exprTr m l <;> rfl
  | .unary op r, h => by
    rw [hasTime] at h
    rw [exprTr, hasTime_expr m r h]
    split <;> rfl
  | .const k, h => by
    cases k <;> first | rfl | simp [hasTime] at h
  | .timeModifier _, _ => by rw [exprTr]; all_goals simp
  | .fieldIn _ _, h | .call _ _, h | .fv _ _, h | .fb _ _, h | .fc _ _, h | .alias _ _, h | .aliasedField _ _, h | .searchModifier _, h
  | .subSearch _, h => by simp [hasTime] at h

theorem hasTime_notText {e : Expr} (h : hasTime e = true) : e.asString = none := by
  cases e <;> first | rfl | skip
  rename_i k
  cases k <;> first | rfl | simp [hasTime] at h

theorem hasTime_split : ∀ (e : Expr) (b : Bool) {o : Option Expr} {is : List Str}, hasTime e = true → splitConditions b e = some (o, is) →
    ∃ e', o = some e' ∧ hasTime e' = true
  | .binary l op r, b, o, is, h, hs => by
    rw [hasTime, Bool.or_eq_true] at h
    rw [splitConditions] at hs
    split at hs
    · rename_i hi
      simp only [Bool.and_eq_true] at hi
      have hl : hasTime l = false := by
        have := hi.1.1
        unfold isIndex at this
        split at this
        · rfl
        · cases this
      rw [hl] at h
      have := hasTime_notText (h.resolve_left (by simp))
      rw [this] at hs
      split at hs <;> simp at hs
    split at hs
    · rename_i hi
      simp only [Bool.and_eq_true] at hi
      have hr : hasTime r = false := by
        have := hi.1.2
        unfold isIndex at this
        split at this
        · rfl
        · cases this
      rw [hr] at h
      have := hasTime_notText (h.resolve_right (by simp))
      rw [this] at hs
      split at hs <;> simp at hs
    split at hs
    · cases hs
    simp only at hs
    split at hs
    · cases hs
    rename_i l' is' hl
    split at hs
    · cases hs
    rename_i r' js' hr
    simp only [Option.map_eq_some_iff, Prod.mk.injEq] at hs
    obtain ⟨e', he, rfl, -⟩ := hs
    rcases h with h | h
    · obtain ⟨l'', rfl, h'⟩ := hasTime_split l _ h hl
      cases r' with
      | none =>
        rw [recombine] at he
        split at he
        · exact ⟨_, (Option.some.inj he).symm, h'⟩
        · cases he
      | some r1 => exact ⟨_, (Option.some.inj he).symm, by rw [hasTime, h']; rfl⟩
    · obtain ⟨r'', rfl, h'⟩ := hasTime_split r _ h hr
      cases l' with
      | none =>
        rw [recombine] at he
        split at he
        · exact ⟨_, (Option.some.inj he).symm, h'⟩
        · cases he
      | some l1 => exact ⟨_, (Option.some.inj he).symm, by rw [hasTime, h', Bool.or_true]⟩
  | .unary .., b, o, is, h, hs | .const _, b, o, is, h, hs | .timeModifier _, b, o, is, h, hs => by
    simp only [splitConditions, Option.some.injEq, Prod.mk.injEq] at hs
    exact ⟨_, hs.1.symm, h⟩
  | .fieldIn _ _, _, _, _, h, _ | .call _ _, _, _, _, h, _ | .fv _ _, _, _, _, h, _ | .fb _ _, _, _, _, h, _ | .fc _ _, _, _, _, h, _
  | .alias _ _, _, _, _, h, _ | .aliasedField _ _, _, _, _, h, _ | .searchModifier _, _, _, _, h, _ | .subSearch _, _, _, _, h, _ => by
    simp [hasTime] at h

theorem hasTime_ands : ∀ e, hasTime e = true → ∃ t ∈ breakAnds e, hasTime t = true
  | .binary l op r, h => by
    rw [breakAnds]
    by_cases ha : op = c!"AND"
    · rw [if_pos ha]
      rw [hasTime, Bool.or_eq_true] at h
      rcases h with h | h
      · obtain ⟨t, h1, h2⟩ := hasTime_ands l h
        exact ⟨t, List.mem_append_left _ h1, h2⟩
      · obtain ⟨t, h1, h2⟩ := hasTime_ands r h
        exact ⟨t, List.mem_append_right _ h1, h2⟩
    · rw [if_neg ha]
      exact ⟨_, by simp, h⟩
  | .unary .., h | .const _, h | .timeModifier _, h => ⟨_, by simp [breakAnds], h⟩
  | .fieldIn _ _, h | .call _ _, h | .fv _ _, h | .fb _ _, h | .fc _ _, h | .alias _ _, h | .aliasedField _ _, h | .searchModifier _, h
  | .subSearch _, h => by simp [hasTime] at h

theorem hasTime_arg (m : Mode) {e : Expr} (h : hasTime e = true) : searchArg m e = none := by
  unfold searchArg
  split
  · rename_i f op r
    have hr : hasTime r = true := by simpa [hasTime] using h
    split
    · split
      · cases r with
        | const k => cases k <;> first | rfl | simp [hasTime] at hr
        | _ => rfl
      · rfl
    · split
      · rw [hasTime_expr m r hr]; rfl
      · rw [hasTime_expr m _ h]; rfl
  · rw [hasTime_expr m _ h]; rfl

theorem hasTime_args (m : Mode) : ∀ es, (∃ t ∈ es, hasTime t = true) → searchArgs m es = none
  | [], h => by simp at h
  | e :: es, h => by
    rw [searchArgs]
    by_cases he : hasTime e = true
    · rw [hasTime_arg m he]
    · obtain ⟨t, ht, h'⟩ := h
      have : t ∈ es := by
        rcases List.mem_cons.1 ht with rfl | h
        · exact absurd h' he
        · exact h
      rw [hasTime_args m es ⟨t, this, h'⟩]
      cases searchArg m e <;> rfl

/-- Disagreement: a search with a time relative to now (`earliest="-1d@d"`, `earliest=-24h`) anywhere in its condition is not
translated, with or without the runtime library, and so is no query that contains it. -/
theorem C89_relative_refused (c : Ctx) (p q : Pipeline) (e : Expr) (h : hasTime e = true) : renderPipeline c (p ++ .search e :: q) = none := by
  refine C14_failure c p q _ fun s => ?_
  have h1 : searchRuntime c.mode e s = none := by
    rw [searchRuntime, hasTime_args c.mode _ (hasTime_ands e h)]
    rfl
  have h2 : searchStandalone c e s = none := by
    rw [searchStandalone]
    cases hs : splitConditions true e with
    | none => rfl
    | some x =>
      obtain ⟨o, is⟩ := x
      obtain ⟨e', rfl, h'⟩ := hasTime_split e true h hs
      simp only [hasTime_expr c.mode e' h', Option.map_none]
  simp only [transform, h1, h2]
  unfold dispatch
  split <;> rfl

/-- Queries with the usual ways to say it. -/
example : outOf .disallow c!"search index=web earliest=\"-1d@d\" status=500" = none ∧ outOf .allow c!"search index=web earliest=\"-1d@d\" status=500" = none ∧
    outOf .allow c!"search status=500 earliest=-24h latest=-1h | stats count" = none ∧
    hasTime (.binary (.const (.field c!"earliest")) c!"=" (.const (.timeSpan ⟨-24, c!"hours"⟩))) = true ∧
    isParse (parse c!"search earliest=-24h") [.search (.binary (.const (.field c!"earliest")) c!"=" (.const (.timeSpan ⟨-24, c!"hours"⟩)))] = true ∧
    isParse (parse c!"search earliest=\"-1d@d\"") [.search (.binary (.const (.field c!"earliest")) c!"=" (.const (.snapTime ⟨some ⟨-1, c!"days"⟩, c!"days", none⟩)))] = true := by
  decide +kernel

/-! ### numbers of seconds -/

/-- `earliest=n` or `latest=n` -/
def boundTerm (late : Bool) (n : Int) : Expr := .binary (.const (.field (if late then c!"latest" else c!"earliest"))) c!"=" (.const (.int n))

/-- Disagreement: `earliest=n` and `latest=n` with a number of seconds do not bound the time of the events; the program compares
a column of this name, which the events do not have, so that none is left. -/
theorem C89_number_is_compared (x : Ext) (hx : Arranges x) (late : Bool) (n : Int) :
    ∃ cond, renderPipeline ⟨.disallow, x⟩ [.search (boundTerm late n)] = some (c!"spark.table('main').where(" ++ cond ++ c!",)") ∧
      (∀ S row, splSearch S row (boundTerm late n) = some (S.cmp (if late then .lt else .ge) (row c!"_time") (.num n) == some true)) ∧
      (∀ S row, textEval S row cond = some (ofB (S.cmp .eq (row (if late then c!"latest" else c!"earliest")) (.num n)))) := by
  have ho : x.order [] = [] := List.perm_nil.1 (hx [])
  have he : Frag .disallow (boundTerm late n) = true := by cases late <;> simp [boundTerm, Frag, FragConst, FragOp] <;> decide
  obtain ⟨p, g, hp, ⟨⟨hm, _⟩, _, hs⟩⟩ := frag_means .disallow _ he
  have hp' : p = .bin c!"==" (.named (if late then c!"latest" else c!"earliest")) (.lit (showInt n)) := by
    have : exprTr .disallow (boundTerm late n) = some (.bin c!"==" (.named (if late then c!"latest" else c!"earliest")) (.lit (showInt n))) := rfl
    rw [hp] at this
    exact Option.some.inj this
  refine ⟨renderE p, ?_, fun S row => ?_, fun S row => ?_⟩
  · have hsp : splitConditions true (boundTerm late n) = some (some (boundTerm late n), []) := by
      cases late <;> simp [boundTerm, splitConditions, isIndex, recombine]
    simp only [renderPipeline, runCmds, transform, dispatch, searchStandalone, hsp, hp, Option.map_some,
      dedupStr, ho, unionSources, Option.getD_none, DF.mkWhere]
    rw [hp']
    rfl
  · cases late
    · simp only [boundTerm, splSearch, Bool.false_eq_true, if_false, if_pos (show c!"earliest" ∈ boundWords by decide),
        show timeBound c!"earliest" = some .ge by decide, if_true]
    · simp only [boundTerm, splSearch, if_true, if_pos (show c!"latest" ∈ boundWords by decide),
        show timeBound c!"latest" = some .lt by decide]
  · rw [(text_of_means hm S row).1, ← hs]
    rfl

/-- A meaning in which numbers are compared. -/
def timeSem : Sem :=
  { plainSem with
    cmp := fun o a b => match o, a, b with
      | .eq, .num a, .num b => some (decide (a = b))
      | .lt, .num a, .num b => some (decide (a < b))
      | .ge, .num a, .num b => some (decide (b ≤ a))
      | _, _, _ => none }

/-- An event of the time asked for, which is not kept. -/
example : splSearch timeSem (fun f => if f = c!"_time" then .num 1700000000 else .null) (boundTerm false 1600000000) = some true ∧
    outOf .disallow c!"search earliest=1600000000" = some c!"spark.table('main').where((F.col('earliest') == F.lit(1600000000)),)" ∧
    textEval timeSem (fun f => if f = c!"_time" then .num 1700000000 else .null) c!"(F.col('earliest') == F.lit(1600000000))" = some .null ∧
    isParse (parse c!"search earliest=1600000000") [.search (boundTerm false 1600000000)] = true := by
  decide +kernel

/-- the time range written with comparisons of the time -/
def rangeTerm (n m : Int) : Expr :=
  .binary (.binary (.const (.field c!"_time")) c!">=" (.const (.int n))) c!"AND" (.binary (.const (.field c!"_time")) c!"<" (.const (.int m)))

/-- **C89** (partial): written with comparisons of `_time`, the range is the one meant with `earliest` and `latest`. -/
theorem C89_comparisons_partial (x : Ext) (hx : Arranges x) (n m : Int) :
    ∃ cond, renderPipeline ⟨.disallow, x⟩ [.search (rangeTerm n m)] = some (c!"spark.table('main').where(" ++ cond ++ c!",)") ∧
      ∀ S row, ∃ v keep, textEval S row cond = some v ∧ splSearch S row (.binary (boundTerm false n) c!"AND" (boundTerm true m)) = some keep ∧
        (S.truth v = some true ↔ keep = true) := by
  obtain ⟨cond, h1, h2⟩ := C74_search_partial x hx (rangeTerm n m) (by
    simp [rangeTerm, SearchFrag, searchField, boundWords, searchOps, SearchValue, FragConst]
    decide)
  refine ⟨cond, h1, fun S row => ?_⟩
  obtain ⟨v, keep, h3, h4, h5⟩ := h2 S row
  refine ⟨v, keep, h3, ?_, h5⟩
  rw [← h4]
  rfl

/-- The query, and an event in the range. -/
example : isParse (parse c!"search _time>=5 _time<9") [.search (rangeTerm 5 9)] = true ∧
    isParse (parse c!"search earliest=5 latest=9") [.search (.binary (boundTerm false 5) c!"AND" (boundTerm true 9))] = true ∧
    splSearch timeSem (fun f => if f = c!"_time" then .num 5 else .null) (.binary (boundTerm false 5) c!"AND" (boundTerm true 9)) = some true ∧
    splSearch timeSem (fun f => if f = c!"_time" then .num 9 else .null) (.binary (boundTerm false 5) c!"AND" (boundTerm true 9)) = some false := by
  decide +kernel

end Verif.Props
