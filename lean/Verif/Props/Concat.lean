import Verif.Props.Program
import Verif.Lemmas.Reads
/-
C60: the concatenation operator `.`.
-/
namespace Verif.Props
open Verif Verif.Spec Verif.Lemmas

theorem post_dot {n : Nat} {e : PyE} {s r r' m : Str} {x : Res} (hs : skipB s = '.' :: r) (hm : pyName (skipB r) = some (m, r'))
    (h : rd n (.post (.attr e m) r') = some x) : rd (n + 1) (.post e s) = some x := by
  show rdStep _ _ = _
  simp only [rdStep, hs, hm, if_true, h]

/-- the argument list `'s')` -/
theorem items_quoted {s r : Str} (h : Plain '\'' s = true) : rd 16 (.items ')' [] ('\'' :: s ++ c!"')" ++ r)) = some ([.str s], r) := by
  have hp : pyString ('\'' :: (s ++ '\'' :: ')' :: r)) = some (s, ')' :: r) :=
    pyString_plain (.inr rfl) h (tok_cons (by decide) (by decide) (by decide) (by decide))
  have e : ('\'' :: s ++ c!"')" ++ r) = '\'' :: (s ++ '\'' :: ')' :: r) := by simp
  rw [e]
  have hk : kwName ('\'' :: (s ++ '\'' :: ')' :: r)) = none := rfl
  have h1 : rd 3 (.lev 10 ('\'' :: (s ++ '\'' :: ')' :: r))) = some ([.str s], ')' :: r) :=
    step_prim (skipB_cons rfl) (by decide) (by decide) (prim_str hp (post_stop fun c r' hc => by
      rw [skipB_cons rfl] at hc
      cases hc
      exact ⟨by decide, by decide⟩))
  have h2 := lev_to h1 (by decide) 0 (by decide) fun i _ _ => by
    simp only [nextLev, skipB_cons (c := ')') (s := r) rfl]
    cases r with
    | nil => simp [opTok, isOpC]
    | cons d r => simp [opTok, isOpC, isIdStart, opTwo]
  exact items_last (skipB_cons rfl) (by decide) (rd_mono (item_expr hk h2) (by decide)) (skipB_cons rfl) (by decide)

/-- `F.col('s')` as a postfix chain -/
theorem post_col {e : PyE} {s r : Str} {n : Nat} {x : Res} (h : Plain '\'' s = true)
    (hx : rd (n + 16) (.post (.call (.attr e c!"col") [.str s]) r) = some x) :
    rd (n + 18) (.post e (c!".col('" ++ s ++ c!"')" ++ r)) = some x := by
  have e1 : (c!".col('" ++ s ++ c!"')" ++ r) = '.' :: c!"col" ++ ('(' :: ('\'' :: s ++ c!"')" ++ r)) := by simp
  rw [e1]
  refine post_attr (by decide +kernel) (fun c r' hc => by cases hc; rfl) ?_
  exact post_call (rd_mono (items_quoted h) (by omega)) rfl hx

/-- how Python reads `F.col('a') . F.col('b')` -/
def dotTree (a b : Str) : PyE :=
  .call (.attr (.attr (.call (.attr (.name c!"F") c!"col") [.str a]) c!"F") c!"col") [.str b]

theorem rd_dot {a b r : Str} (ha : Plain '\'' a = true) (hb : Plain '\'' b = true)
    (hr : ∀ c r', skipB r = c :: r' → c ≠ '.' ∧ c ≠ '(') :
    rd 80 (.lev 10 (c!"F.col('" ++ a ++ c!"') . F.col('" ++ b ++ c!"')" ++ r)) = some ([dotTree a b], r) := by
  have e : (c!"F.col('" ++ a ++ c!"') . F.col('" ++ b ++ c!"')" ++ r) =
      'F' :: (c!".col('" ++ a ++ c!"')" ++ (c!" . F" ++ (c!".col('" ++ b ++ c!"')" ++ r))) := by simp
  rw [e]
  refine step_prim (skipB_cons rfl) (by decide) (by decide) ?_
  refine prim_name (n := 78) (k := c!"F") (pyString_none (by decide) (by intro h; cases h)) (pyNumber_none rfl)
    (pyName_append (n := c!"F") (by decide +kernel) (fun c r' hc => by simp at hc; rw [← hc.1]; rfl)) ?_
  refine post_col (n := 60) ha ?_
  refine post_dot (n := 75) (r := ' ' :: 'F' :: (c!".col('" ++ b ++ c!"')" ++ r)) (m := c!"F") (r' := c!".col('" ++ b ++ c!"')" ++ r) ?_ ?_ ?_
  · exact skipB_space.trans (skipB_cons rfl)
  · rw [skipB_space, skipB_cons rfl]
    exact pyName_append (n := c!"F") (by decide +kernel) (fun c r' hc => by simp at hc; rw [← hc.1]; rfl)
  · exact post_col (n := 57) hb (post_stop hr)

/-- **C60** fails: the concatenation of two fields is translated to text that Python reads as an
attribute `F` of the first column, whose method `col` is called with the name of the second, with and
without the parentheses of an operand.  No operator is left. -/
theorem C60_concat_fails (m : Mode) {a b : Str} (ha : Plain '\'' a = true) (hb : Plain '\'' b = true) :
    ∃ p, exprTr m (.binary (.const (.field a)) c!"." (.const (.field b))) = some p ∧
      renderC p = c!"F.col('" ++ a ++ c!"') . F.col('" ++ b ++ c!"')" ∧
      readPy (renderC p) = some (dotTree a b) ∧ readPy (renderE p) = some (dotTree a b) := by
  have e1 : renderC (.bin c!"." (.named a) (.named b)) = c!"F.col('" ++ a ++ c!"') . F.col('" ++ b ++ c!"')" := by
    simp [renderC, renderE]
  have e2 : renderE (.bin c!"." (.named a) (.named b)) = '(' :: (c!"F.col('" ++ a ++ c!"') . F.col('" ++ b ++ c!"')" ++ c!")") := by
    simp [renderE]
  refine ⟨.bin c!"." (.named a) (.named b), rfl, e1, ?_, ?_⟩
  · have := rd_dot (r := []) ha hb (fun c r' h => by cases h)
    rw [List.append_nil] at this
    rw [e1]
    exact readPy_of ⟨_, lev_to this (by decide) 0 (by decide) fun i _ _ => by simp [nextLev, skipB, spanC, opTok]⟩ rfl
  · have := rd_dot (r := c!")") ha hb (fun c r' h => by cases h; exact ⟨by decide, by decide⟩)
    rw [e2]
    have h0 := lev_to this (by decide) 0 (by decide) fun i _ _ => by simp [nextLev, skipB, spanC, opTok, isSpace, isOpC]
    have h1 := step_prim (n := 91) (skipB_cons rfl) (by decide) (by decide) (prim_paren (n := 90) h0 rfl (post_stop (by simp [skipB, spanC])))
    exact readPy_of ⟨_, lev_to h1 (by decide) 0 (by decide) fun i _ _ => by simp [nextLev, skipB, spanC, opTok]⟩ rfl

/-- the whole program, for a query -/
example : outOf .disallow c!"eval y = a . b" = some c!"spark.table('main').withColumn('y', F.col('a') . F.col('b'),)" ∧
    readProg c!"spark.table('main').withColumn('y', F.col('a') . F.col('b'),)" = some
      ⟨[], mCall (mCall (.name c!"spark") c!"table" [.str c!"main"]) c!"withColumn" [.str c!"y", dotTree c!"a" c!"b"]⟩ := by
  decide +kernel

end Verif.Props
