import Verif.Lemmas.Frag
import Verif.Props.Where
import Verif.Tr.Commands
import Verif.Tests.Ext
/-
C44: mvindex.
-/
namespace Verif.Props
open Verif Spl Spec Lemmas

/-! ### Specification -/

/-- a position, negative ones counted from the end -/
def position (n : Nat) (i : Int) : Int := if i < 0 then i + n else i

/-- the element at a position -/
def elementAt {α} (xs : List α) (i : Int) : Option α :=
  if position xs.length i < 0 then none else xs[(position xs.length i).toNat]?

/-- the elements whose positions lie between two positions, inclusive -/
def elementsFrom {α} (xs : List α) (i j : Int) : List α :=
  (xs.zipIdx.filter fun x => decide (position xs.length i ≤ x.2 ∧ (x.2 : Int) ≤ position xs.length j)).map (·.1)

/-- What an array function of Spark yields. -/
inductive ArrayOut (α : Type)
  | elem (o : Option α)
  | array (l : List α)
  | error

/-- the integer written by a Python expression -/
def intOf : PyE → Option Int
  | .num w [] => some (digitsVal w)
  | .neg (.num w []) => some (-(digitsVal w : Int))
  | _ => none

/-- `get(array, index)`: the element at a 0-based index, null outside the array (also for negative indices). -/
def sparkGet {α} (xs : List α) (i : Int) : ArrayOut α := .elem (if i < 0 then none else xs[i.toNat]?)

/-- `slice(array, start, length)`: `start` is 1-based, counted from the end if negative; a start of 0 and a
negative length are errors; a start outside the array gives the empty array. -/
def sparkSlice {α} (xs : List α) (start len : Int) : ArrayOut α :=
  if start = 0 ∨ len < 0 then .error
  else
    let k := if start < 0 then start + xs.length else start - 1
    if k < 0 then .array [] else .array ((xs.drop k.toNat).take len.toNat)

/-- Value of `F.get(array, i)` and `F.slice(array, i, n)` when the array argument has the value `xs t`. -/
def arrayEval {α} (xs : PyE → List α) : PyE → Option (ArrayOut α)
  | .call (.attr (.name f) g) args =>
    if f = c!"F" ∧ g = c!"get" then
      match args with
      | [t, i] => (intOf i).map (sparkGet (xs t))
      | _ => none
    else if f = c!"F" ∧ g = c!"slice" then
      match args with
      | [t, i, n] => (intOf i).bind fun i => (intOf n).map (sparkSlice (xs t) i)
      | _ => none
    else none
  | _ => none

/-! ### Proof -/

theorem intOf_intE (n : Int) : intOf (intE n) = some n := by
  cases n with
  | ofNat n => simp [intE, intOf, digitsVal_showNat]
  | negSucc n => simp only [intE, intOf, digitsVal_showNat]; rfl

theorem mvindex_one (x : Expr) (i : Int) (h : Frag .disallow x = true) :
    ∃ p px t, exprTr .disallow (.call c!"mvindex" [x, .const (.int i)]) = some p ∧ exprTr .disallow x = some px ∧
      readPy (renderE px.unalias) = some t ∧ readPy (renderE p.unalias) = some (fCall c!"get" [t, intE i]) := by
  obtain ⟨px, _, hp, ⟨_, t, ht, _⟩, _⟩ := frag_means .disallow x h
  refine ⟨.aliased (.fn c!"get" [px.unalias, pyInt i]) c!"mvindex", px, t, ?_, hp, read_render ht, ?_⟩
  · rw [exprTr, evalFn_known (spec := ⟨c!"mvindex", [.expr, .int], .ignored,
      fun | [.e x, .i s], args, _ => mvindexBody x s args | _, _, _ => none⟩) rfl]
    simp only [argsTr, hp, Option.map_some]
    rfl
  · have hg : funcTree c!"get" = some (.attr (.name c!"F") c!"get") := by decide +kernel
    apply read_render
    simp only [PE.unalias, pyTree, pyTrees, hg, ht, pyInt, code_int]
    rfl

theorem mvindex_two (x : Expr) (i j : Int) (h : Frag .disallow x = true) :
    ∃ p px t, exprTr .disallow (.call c!"mvindex" [x, .const (.int i), .const (.int j)]) = some p ∧
      exprTr .disallow x = some px ∧ readPy (renderE px.unalias) = some t ∧
      readPy (renderE p.unalias) = some (fCall c!"slice" [t, intE (wrapI64 (i + 1)), intE (wrapI64 (j - i + 1))]) := by
  obtain ⟨px, _, hp, ⟨_, t, ht, _⟩, _⟩ := frag_means .disallow x h
  refine ⟨.aliased (.fn c!"slice" [px.unalias, pyInt (wrapI64 (i + 1)), pyInt (wrapI64 (j - i + 1))]) c!"mvindex", px, t,
    ?_, hp, read_render ht, ?_⟩
  · rw [exprTr, evalFn_known (spec := ⟨c!"mvindex", [.expr, .int], .ignored,
      fun | [.e x, .i s], args, _ => mvindexBody x s args | _, _, _ => none⟩) rfl]
    simp only [argsTr, hp, Option.map_some]
    rfl
  · have hg : funcTree c!"slice" = some (.attr (.name c!"F") c!"slice") := by decide +kernel
    apply read_render
    simp only [PE.unalias, pyTree, pyTrees, hg, ht, pyInt, code_int]
    rfl

theorem eval_get {α} (xs : PyE → List α) (t : PyE) (i : Int) :
    arrayEval xs (fCall c!"get" [t, intE i]) = some (sparkGet (xs t) i) := by
  simp only [arrayEval, fCall, and_self, if_true, intOf_intE, Option.map_some]

theorem eval_slice {α} (xs : PyE → List α) (t : PyE) (i n : Int) :
    arrayEval xs (fCall c!"slice" [t, intE i, intE n]) = some (sparkSlice (xs t) i n) := by
  simp only [arrayEval, fCall]
  rw [if_neg (by simp), if_pos ⟨trivial, trivial⟩]
  simp only [intOf_intE, Option.map_some, Option.bind_some]

theorem filter_range {α} (i j : Nat) : ∀ (xs : List α) (k : Nat),
    (((xs.zipIdx k).filter fun x => decide (i ≤ x.2 ∧ x.2 ≤ j)).map (·.1)) = (xs.drop (i - k)).take (j + 1 - max i k)
  | [], k => by simp
  | x :: xs, k => by
    rw [List.zipIdx_cons, List.filter_cons]
    have ih := filter_range i j xs (k + 1)
    by_cases h1 : i ≤ k
    · have e0 : i - k = 0 := by omega
      have e0' : i - (k + 1) = 0 := by omega
      rw [e0', List.drop_zero] at ih
      rw [e0, List.drop_zero]
      by_cases h2 : k ≤ j
      · rw [if_pos (by simp [h1, h2]), List.map_cons, ih]
        have : j + 1 - max i k = (j + 1 - max i (k + 1)) + 1 := by omega
        rw [this, List.take_succ_cons]
      · rw [if_neg (by simp [h2]), ih]
        have a : j + 1 - max i k = 0 := by omega
        have b : j + 1 - max i (k + 1) = 0 := by omega
        rw [a, b]; rfl
    · rw [if_neg (by simp [h1]), ih]
      have a : i - k = (i - (k + 1)) + 1 := by omega
      have b : max i k = max i (k + 1) := by omega
      rw [a, b, List.drop_succ_cons]

theorem elements_nat {α} (xs : List α) (i j : Nat) :
    elementsFrom xs i j = (xs.drop i).take (j + 1 - i) := by
  have := filter_range i j xs 0
  simp only [Nat.sub_zero, Nat.max_zero] at this
  rw [← this]
  unfold elementsFrom position
  congr 2
  funext x
  rw [if_neg (by omega), if_neg (by omega)]
  apply decide_eq_decide.2
  omega

theorem wrap_id {n : Int} (h1 : -(2 ^ 63) ≤ n) (h2 : n < 2 ^ 63) : wrapI64 n = n := by
  unfold wrapI64
  simp only
  split <;> omega

/-- C44 for non-negative positions: the text generated for `mvindex(x, i)` reads as a call whose value is
the element at position `i`, for every array; the text for `mvindex(x, i, j)` likewise gives the elements
from `i` to `j`.  (Release arithmetic; `j + 1` must not overflow.) -/
theorem C44_mvindex_partial (x : Expr) (i j : Nat) (hx : Frag .disallow x = true) (hi : i ≤ j) (hj : j + 1 < 2 ^ 63) :
    (∃ p px t u, exprTr .disallow (.call c!"mvindex" [x, .const (.int i)]) = some p ∧ exprTr .disallow x = some px ∧
      readPy (renderE px.unalias) = some t ∧ readPy (renderE p.unalias) = some u ∧
      ∀ {α} (xs : PyE → List α), arrayEval xs u = some (.elem (elementAt (xs t) i))) ∧
    (∃ p px t u, exprTr .disallow (.call c!"mvindex" [x, .const (.int i), .const (.int j)]) = some p ∧
      exprTr .disallow x = some px ∧ readPy (renderE px.unalias) = some t ∧ readPy (renderE p.unalias) = some u ∧
      ∀ {α} (xs : PyE → List α), arrayEval xs u = some (.array (elementsFrom (xs t) i j))) := by
  constructor
  · obtain ⟨p, px, t, h1, h2, h3, h4⟩ := mvindex_one x i hx
    refine ⟨p, px, t, _, h1, h2, h3, h4, fun xs => ?_⟩
    rw [eval_get, sparkGet, elementAt, position, if_neg (by omega), if_neg (by omega), if_neg (by omega)]
  · obtain ⟨p, px, t, h1, h2, h3, h4⟩ := mvindex_two x i j hx
    refine ⟨p, px, t, _, h1, h2, h3, h4, fun xs => ?_⟩
    rw [eval_slice, wrap_id (by omega) (by omega), wrap_id (by omega) (by omega), elements_nat, sparkSlice,
      if_neg (by omega)]
    simp only
    rw [if_neg (by omega), if_neg (by omega)]
    congr 4 <;> omega

example : Frag .disallow (.const (.field c!"values")) = true ∧ (1 : Nat) ≤ 3 ∧ 3 + 1 < 2 ^ 63 ∧
    elementsFrom [10, 11, 12, 13, 14] 1 3 = [11, 12, 13] := by
  refine ⟨by decide +kernel, by decide, by decide, by decide⟩

/-- Disagreement: a negative position gives null in every array, also where the array has the element. -/
theorem C44_negative_position_is_null (x : Expr) (i : Int) (hx : Frag .disallow x = true) (hi : i < 0) :
    ∃ p u, exprTr .disallow (.call c!"mvindex" [x, .const (.int i)]) = some p ∧ readPy (renderE p.unalias) = some u ∧
      ∀ {α} (xs : PyE → List α), arrayEval xs u = some (.elem none) := by
  obtain ⟨p, px, t, h1, h2, h3, h4⟩ := mvindex_one x i hx
  refine ⟨p, _, h1, h4, fun xs => ?_⟩
  rw [eval_get, sparkGet, if_pos hi]

/-- Disagreement: from the start to a position counted from the end gives nothing: an empty array or an error. -/
theorem C44_negative_end_fails (x : Expr) (i j : Int) (hx : Frag .disallow x = true) (hi : 0 ≤ i) (hi' : i < 2 ^ 62)
    (hj : j < 0) (hj' : -(2 ^ 62) ≤ j) :
    ∃ p u, exprTr .disallow (.call c!"mvindex" [x, .const (.int i), .const (.int j)]) = some p ∧
      readPy (renderE p.unalias) = some u ∧
      ∀ {α} (xs : PyE → List α), arrayEval xs u = some .error ∨ arrayEval xs u = some (.array []) := by
  obtain ⟨p, px, t, h1, h2, h3, h4⟩ := mvindex_two x i j hx
  refine ⟨p, _, h1, h4, fun xs => ?_⟩
  rw [eval_slice, wrap_id (by omega) (by omega), wrap_id (by omega) (by omega), sparkSlice]
  by_cases h : j - i + 1 < 0
  · rw [if_pos (.inr h)]; exact .inl rfl
  · have : j - i + 1 = 0 := by omega
    rw [if_neg (by omega), this]
    right
    simp only
    split <;> simp

/-- Disagreement: the last `k` elements: one too few are selected, and none but an error for `k = 1`. -/
theorem C44_last_elements_fail (x : Expr) (k : Nat) (hx : Frag .disallow x = true) (hk : 0 < k) (hk' : k < 2 ^ 62) :
    ∃ p px t u, exprTr .disallow (.call c!"mvindex" [x, .const (.int (-(k : Int))), .const (.int (-1))]) = some p ∧
      exprTr .disallow x = some px ∧ readPy (renderE px.unalias) = some t ∧
      readPy (renderE p.unalias) = some u ∧ ∀ {α} (xs : PyE → List α), k ≤ (xs t).length →
        elementsFrom (xs t) (-(k : Int)) (-1) = (xs t).drop ((xs t).length - k) ∧
        arrayEval xs u = some (if k = 1 then .error else .array ((xs t).drop ((xs t).length - (k - 1)))) := by
  obtain ⟨p, px, t, h1, h2, h3, h4⟩ := mvindex_two x (-(k : Int)) (-1) hx
  refine ⟨p, px, t, _, h1, h2, h3, h4, fun xs hl => ⟨?_, ?_⟩⟩
  · have : elementsFrom (xs t) (-(k : Int)) (-1) = elementsFrom (xs t) (((xs t).length - k : Nat) : Int) (((xs t).length - 1 : Nat) : Int) := by
      unfold elementsFrom position
      congr 2
      funext x
      rw [if_pos (by omega), if_pos (by omega), if_neg (by omega), if_neg (by omega)]
      apply decide_eq_decide.2
      omega
    rw [this, elements_nat]
    apply List.take_of_length_le
    rw [List.length_drop]
    omega
  · rw [eval_slice, wrap_id (by omega) (by omega), wrap_id (by omega) (by omega), sparkSlice]
    by_cases h : k = 1
    · subst h; rw [if_pos (by left; decide), if_pos rfl]
    · rw [if_neg (by omega), if_neg h]
      have hlt : -(k : Int) + 1 < 0 := by omega
      simp only [hlt, if_true]
      rw [if_neg (by omega)]
      have e : (-(k : Int) + 1 + (xs t).length).toNat = (xs t).length - (k - 1) := by omega
      rw [e]
      congr 2
      apply List.take_of_length_le
      rw [List.length_drop]
      omega

example : elementsFrom [10, 11, 12, 13] (-2) (-1) = [12, 13] := by decide

/-- The queries themselves. -/
theorem C44_queries :
    (parse c!"eval x=mvindex(a,-1)").bind (renderPipeline ⟨.disallow, Tests.ext⟩) =
      some c!"spark.table('main').withColumn('x', F.get(F.col('a'), -1),)" ∧
    (parse c!"eval x=mvindex(a,0,-2)").bind (renderPipeline ⟨.disallow, Tests.ext⟩) =
      some c!"spark.table('main').withColumn('x', F.slice(F.col('a'), 1, -1),)" ∧
    (parse c!"eval x=mvindex(a,-3,-1)").bind (renderPipeline ⟨.disallow, Tests.ext⟩) =
      some c!"spark.table('main').withColumn('x', F.slice(F.col('a'), -2, 3),)" ∧
    (parse c!"eval x=mvindex(a,1,2)").bind (renderPipeline ⟨.disallow, Tests.ext⟩) =
      some c!"spark.table('main').withColumn('x', F.slice(F.col('a'), 2, 2),)" :=
  ⟨by decide +kernel, by decide +kernel, by decide +kernel, by decide +kernel⟩

end Verif.Props
