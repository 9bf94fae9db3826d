import Verif.Tr.Commands
import Verif.Props.Arity
/-
C66: in a query that may use the library, `stats` uses it or fails; the fallback never happens.
-/
namespace Verif.Props
open Verif Verif.Lemmas

theorem exprs_mapArgs {m : Mode} : ∀ {es : List Expr}, exprsTr m es = none → mapArgs (argsTr m es) = none
  | [], h => by cases h
  | e :: es, h => by
    simp only [exprsTr] at h
    simp only [argsTr, mapArgs]
    cases he : exprTr m e with
    | none => rfl
    | some c =>
      rw [he] at h
      simp only [Option.map_some] at h ⊢
      split at h
      · rename_i hs
        rw [exprs_mapArgs hs]
      · cases h

/-- every statistic translates all of its arguments -/
theorem statsFnBare_none {name : Str} {as : List Arg} (h : mapArgs as = none) (d : DF) : statsFnBare name as d = none := by
  have one : ∀ (a : Str) (r : Rest) (b), r = .exact → FnSpec.apply ⟨a, [.expr], r, b⟩ as = none := by
    rintro a r b rfl
    unfold FnSpec.apply
    cases as with
    | nil => rfl
    | cons x xs =>
      cases hx : x.col with
      | none => simp only [bindParams, bindParam, hx, Option.map_none]
      | some c =>
        cases xs with
        | nil => simp [mapArgs, hx] at h
        | cons y ys => simp [bindParams, bindParam, hx]
  have all : ∀ (a : Str) (b), FnSpec.apply ⟨a, [], .mapped, b⟩ as = none := by
    intro a b
    simp only [FnSpec.apply, bindParams, List.length_nil, List.drop_zero, h]
    rfl
  have tab : ∀ f, lookupFn name statsTable = some f → f.apply as = none := by
    intro f hf
    have mem : ∀ (l : List (Str × FnSpec)), lookupFn name l = some f → ∃ n, (n, f) ∈ l := by
      intro l
      induction l with
      | nil => intro h; cases h
      | cons a l ih =>
        intro h
        simp only [lookupFn] at h
        split at h
        · cases h; exact ⟨a.1, by simp⟩
        · obtain ⟨n, hn⟩ := ih h; exact ⟨n, by simp [hn]⟩
    obtain ⟨n, hn⟩ := mem _ hf
    simp only [statsTable, List.mem_cons, Prod.mk.injEq, List.not_mem_nil, or_false] at hn
    rcases hn with ⟨_, rfl⟩ | ⟨_, rfl⟩ | ⟨_, rfl⟩ | ⟨_, rfl⟩ | ⟨_, rfl⟩ | ⟨_, rfl⟩ | ⟨_, rfl⟩ | ⟨_, rfl⟩ | ⟨_, rfl⟩ | ⟨_, rfl⟩ | ⟨_, rfl⟩ | ⟨_, rfl⟩ |
      ⟨_, rfl⟩ | ⟨_, rfl⟩ | ⟨_, rfl⟩ | ⟨_, rfl⟩ | ⟨_, rfl⟩ | ⟨_, rfl⟩ | ⟨_, rfl⟩ | ⟨_, rfl⟩ | ⟨_, rfl⟩ | ⟨_, rfl⟩ | ⟨_, rfl⟩ | ⟨_, rfl⟩ | ⟨_, rfl⟩ | ⟨_, rfl⟩
    all_goals first
      | exact all _ _
      | exact one _ _ _ rfl
  have spec : ∀ f, statsSpec name = some f → f.apply as = none := by
    intro f hf
    unfold statsSpec at hf
    split at hf
    · rename_i g hg; cases hf; exact tab f hg
    · split at hf
      · cases hf; exact one _ _ _ rfl
      · split at hf
        · cases hf; exact one _ _ _ rfl
        · split at hf
          · cases hf; exact one _ _ _ rfl
          · cases hf
  have hb : statsFnBareCol name as = none := by
    unfold statsFnBareCol
    split
    · rename_i f hf; exact spec f hf
    · split
      · rfl
      · simp only [passThrough, h]
        rfl
  rw [statsFnBare, hb]
  rfl

/-- **C66.**  Where the library may be used, `stats` is translated with it or not at all, so no program mixes statistics of the
library with the aggregation of plain PySpark, which refuses them. -/
theorem C66_all_or_nothing (funcs : List Expr) (by_ : Option (List SpField)) (s : St)
    (h : statsRuntime .allow funcs by_ s = none) : statsStandalone .allow funcs by_ s = none := by
  have expr : ∀ e d, statsRuntimeExpr .allow e = none → statsExpr .allow d e = none := by
    intro e d h
    unfold statsRuntimeExpr at h
    unfold statsExpr
    split at h
    · rename_i name args alias he
      simp only [Option.map_eq_none_iff] at h
      have h1 := exprs_mapArgs h
      simp only [statsFn, statsFnRuntime, h1, Option.map_none, orElse, statsFnBare_none h1]
    · rfl
  have loop : ∀ (es : List Expr) d, statsRuntimeExprs .allow es = none → statsLoop .allow es d = none := by
    intro es
    induction es with
    | nil => intro d h; cases h
    | cons e es ih =>
      intro d h
      simp only [statsRuntimeExprs] at h
      simp only [statsLoop]
      split at h
      · rename_i he
        rw [expr e d he]
      · split at h
        · rename_i hes
          cases statsExpr .allow d e with
          | none => rfl
          | some r => simp only [ih r.1 hes]
        · cases h
  simp only [statsRuntime, Option.map_eq_none_iff] at h
  simp only [statsStandalone, loop funcs s.cur h, Option.map_none]

/-- a query with such a function -/
example : statsRuntime .allow [.call c!"sum" [.const (.field c!"a")], .call c!"earliest_time" [.const (.wildcard c!"b*")]] none ⟨1, none⟩ = none := rfl

end Verif.Props
