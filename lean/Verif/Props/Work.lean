import Verif.Tr.Work
import Verif.Spec.Work
import Verif.Props.Size
/-
C104: how often expressions are translated.
-/
namespace Verif.Props
open Verif Verif.Spec Verif.Lemmas

/-! ### bounds -/

theorem mapCost_le : ∀ (as : List Arg) (ns : List Nat), mapCost as ns ≤ ns.sum
  | [], ns => by simp [mapCost]
  | _ :: _, [] => by simp [mapCost]
  | a :: as, n :: ns => by
    have := mapCost_le as ns
    rw [mapCost, List.sum_cons]
    split <;> omega

theorem paramsCost_le : ∀ (ps : List PK) (as : List Arg) (ns : List Nat), paramsCost ps as ns + (ns.drop ps.length).sum ≤ ns.sum
  | [], as, ns => by simp [paramsCost]
  | _ :: _, as, [] => by cases as <;> simp [paramsCost]
  | p :: ps, [], n :: ns => by
    have := paramsCost_le ps [] ns
    simp only [paramsCost, List.length_cons, List.drop_succ_cons, List.sum_cons]
    omega
  | p :: ps, a :: as, n :: ns => by
    have := paramsCost_le ps as ns
    simp only [paramsCost, List.length_cons, List.drop_succ_cons, List.sum_cons]
    split <;> split <;> omega

theorem spec_cost_le (f : FnSpec) (as : List Arg) (ns : List Nat) : f.cost as ns ≤ ns.sum := by
  have h1 := paramsCost_le f.params as ns
  have h2 := mapCost_le (as.drop f.params.length) (ns.drop f.params.length)
  unfold FnSpec.cost
  split <;> omega

theorem bareCost_le (name : Str) (as : List Arg) (ns : List Nat) : bareCost name as ns ≤ ns.sum := by
  unfold bareCost
  split
  · exact spec_cost_le _ _ _
  · split
    · omega
    · exact mapCost_le _ _

theorem runtimeCost_le (name : Str) (as : List Arg) (ns : List Nat) : runtimeCost name as ns ≤ ns.sum := by
  unfold runtimeCost
  split
  · exact spec_cost_le _ _ _
  · exact mapCost_le _ _

theorem binCost_le (l : Expr) (s : Str) (r : Expr) (p : Option PE) (a b : Nat) : binCost l s r p a b ≤ a + b := by
  unfold binCost
  repeat' split
  all_goals omega

mutual
/-- **C104** Without the library, and with the library alone, every part of an expression is translated at most once. -/
theorem C104_linear {m : Mode} (hm : m ≠ .allow) : ∀ e, exprCost m e ≤ parts e
  | .binary l s r => by
    have h1 := C104_linear hm l
    have h2 := C104_linear hm r
    have h3 := binCost_le l s r (exprTr m l) (exprCost m l) (exprCost m r)
    rw [exprCost, parts]; omega
  | .unary s r => by
    have h1 := C104_linear hm r
    rw [exprCost, parts]
    split <;> omega
  | .call name args => by
    have h1 := linear_all hm args
    have h2 := bareCost_le name (argsTr m args) (argsCost m args)
    have h3 := runtimeCost_le name (argsTr m args) (argsCost m args)
    rw [exprCost, parts]
    unfold callCost
    cases m with
    | disallow => simp only; omega
    | require => simp only; omega
    | allow => exact absurd rfl hm
  | .const _ | .fv _ _ | .fb _ _ | .fc _ _ | .aliasedField _ _ | .fieldIn _ _ | .alias _ _ | .timeModifier _ | .searchModifier _ | .subSearch _ =>
    Nat.le_refl _

theorem linear_all {m : Mode} (hm : m ≠ .allow) : ∀ es, (argsCost m es).sum ≤ partsAll es
  | [] => Nat.le_refl _
  | e :: es => by
    have h1 := C104_linear hm e
    have h2 := linear_all hm es
    rw [argsCost, partsAll, List.sum_cons]; omega
end

mutual
/-- **C104 (partial).** When the library may be used but need not be, every part is translated at most once for each set of nested calls around it. -/
theorem C104_depth_partial : ∀ (m : Mode) (e : Expr), exprCost m e ≤ parts e * 2 ^ callDepth e
  | m, .binary l s r => by
    have h1 := C104_depth_partial m l
    have h2 := C104_depth_partial m r
    have h3 := binCost_le l s r (exprTr m l) (exprCost m l) (exprCost m r)
    have h4 := Nat.mul_le_mul_left (parts l) (Nat.pow_le_pow_right (n := 2) (by decide) (Nat.le_max_left (callDepth l) (callDepth r)))
    have h5 := Nat.mul_le_mul_left (parts r) (Nat.pow_le_pow_right (n := 2) (by decide) (Nat.le_max_right (callDepth l) (callDepth r)))
    have h6 := Nat.two_pow_pos (max (callDepth l) (callDepth r))
    rw [exprCost, parts, callDepth, Nat.add_mul, Nat.add_mul, Nat.one_mul]; omega
  | m, .unary s r => by
    have h1 := C104_depth_partial m r
    have h6 := Nat.two_pow_pos (callDepth r)
    rw [exprCost, parts, callDepth, Nat.add_mul, Nat.one_mul]
    split <;> omega
  | m, .call name args => by
    have h1 := depth_all m args
    have h2 := bareCost_le name (argsTr m args) (argsCost m args)
    have h3 := runtimeCost_le name (argsTr m args) (argsCost m args)
    have h6 := Nat.two_pow_pos (callDepthAll args)
    have h4 : callCost m name (argsTr m args) (argsCost m args) ≤ 2 * (argsCost m args).sum := by
      unfold callCost
      repeat' split
      all_goals omega
    have h5 : partsAll args * (2 * 2 ^ callDepthAll args) = 2 * (partsAll args * 2 ^ callDepthAll args) := by
      rw [Nat.mul_left_comm]
    rw [exprCost, parts, callDepth, Nat.add_comm 1 (callDepthAll args), Nat.pow_succ, Nat.mul_comm _ 2, Nat.add_mul, Nat.one_mul]; omega
  | _, .const _ | _, .fv _ _ | _, .fb _ _ | _, .fc _ _ | _, .aliasedField _ _ | _, .fieldIn _ _ | _, .alias _ _ | _, .timeModifier _
  | _, .searchModifier _ | _, .subSearch _ => Nat.le_refl _

theorem depth_all : ∀ (m : Mode) (es : List Expr), (argsCost m es).sum ≤ partsAll es * 2 ^ callDepthAll es
  | _, [] => Nat.zero_le _
  | m, e :: es => by
    have h1 := C104_depth_partial m e
    have h2 := depth_all m es
    have h4 := Nat.mul_le_mul_left (parts e) (Nat.pow_le_pow_right (n := 2) (by decide) (Nat.le_max_left (callDepth e) (callDepthAll es)))
    have h5 := Nat.mul_le_mul_left (partsAll es) (Nat.pow_le_pow_right (n := 2) (by decide) (Nat.le_max_right (callDepth e) (callDepthAll es)))
    rw [argsCost, partsAll, List.sum_cons, callDepthAll, Nat.add_mul]; omega
end

/-! ### expressions the library can do -/

mutual
/-- An expression the library alone can translate is translated in the same way when the library may be used, without repetition. -/
theorem library_alone : ∀ (e : Expr) {p : PE}, exprTr .require e = some p → exprTr .allow e = some p ∧ exprCost .allow e ≤ parts e
  | .binary l s r, p, h => by
    have hl := fun q (h : exprTr .require l = some q) => library_alone l h
    have hr := fun q (h : exprTr .require r = some q) => library_alone r h
    rw [exprTr] at h
    rw [exprTr, exprCost, parts]
    have gen : ∀ op, generalBin (exprTr .require l) op (exprTr .require r) = some p →
        generalBin (exprTr .allow l) op (exprTr .allow r) = some p ∧
          exprCost .allow l + (if (exprTr .allow l).isSome then exprCost .allow r else 0) ≤ parts l + parts r := by
      intro op h
      unfold generalBin at h
      split at h
      · rename_i a b ha hb
        have h1 := hl a ha
        have h2 := hr b hb
        rw [h1.1, h2.1]
        refine ⟨h, ?_⟩
        simp only [Option.isSome_some, if_true]; omega
      · cases h
    unfold binTr at h ⊢
    unfold binCost
    split at h
    · unfold wildcardTr at h ⊢
      split at h
      · cases h
      · rename_i a ha
        have h1 := hl a ha
        rw [h1.1]
        exact ⟨h, by simp only; omega⟩
    · split at h
      · split at h
        · rename_i hop
          simp only [hop, if_true]
          exact ⟨h, by omega⟩
        · rename_i hop
          simp only [if_neg hop]
          have := gen _ h
          exact ⟨this.1, by omega⟩
      · have := gen _ h
        exact ⟨this.1, by simp only; omega⟩
    · have := gen _ h
      exact ⟨this.1, by simp only; omega⟩
  | .unary s r, p, h => by
    rw [exprTr] at h
    rw [exprTr, exprCost, parts]
    split at h
    · rename_i hs
      cases hr : exprTr .require r with
      | none => rw [hr] at h; cases h
      | some q =>
        have := library_alone r hr
        rw [hr] at h
        rw [if_pos hs, if_pos hs, this.1]
        exact ⟨h, by omega⟩
    · cases h
  | .call name args, p, h => by
    have key : evalFnRuntime name (argsTr .allow args) = some p ∧ runtimeCost name (argsTr .allow args) (argsCost .allow args) ≤ partsAll args := by
      rw [exprTr, evalFn] at h
      unfold evalFnRuntime at h ⊢
      unfold runtimeCost
      split at h
      · rename_i hn
        rw [if_pos hn, if_pos hn]
        exact library_network args h
      · rename_i hn
        rw [if_neg hn, if_neg hn]
        cases hm : mapArgs (argsTr .require args) with
        | none => rw [hm] at h; cases h
        | some xs =>
          have := library_all args hm
          have h2 := mapCost_le (argsTr .allow args) (argsCost .allow args)
          rw [hm] at h
          rw [this.1]
          exact ⟨h, by omega⟩
    rw [exprTr, evalFn, exprCost, parts, callCost]
    simp only [key.1, orElse, Option.isSome_some, if_true]
    exact ⟨trivial, by omega⟩
  | .const _, _, h | .fv _ _, _, h | .fb _ _, _, h | .fc _ _, _, h | .aliasedField _ _, _, h | .fieldIn _ _, _, h | .alias _ _, _, h
  | .timeModifier _, _, h | .searchModifier _, _, h | .subSearch _, _, h => ⟨h, Nat.le_refl _⟩

theorem library_all : ∀ (es : List Expr) {xs : List PE}, mapArgs (argsTr .require es) = some xs →
    mapArgs (argsTr .allow es) = some xs ∧ (argsCost .allow es).sum ≤ partsAll es
  | [], _, h => ⟨h, Nat.le_refl _⟩
  | e :: es, xs, h => by
    rw [argsTr, mapArgs] at h
    cases he : exprTr .require e with
    | none => rw [he] at h; cases h
    | some p =>
      have h1 := library_alone e he
      rw [he] at h
      cases hm : mapArgs (argsTr .require es) with
      | none => simp [hm] at h
      | some ys =>
        have h2 := library_all es hm
        rw [argsTr, mapArgs, h1.1, h2.1, argsCost, partsAll, List.sum_cons]
        refine ⟨?_, by omega⟩
        simpa [hm] using h

theorem library_network : ∀ (es : List Expr) {p : PE}, cidrmatchRuntime.apply (argsTr .require es) = some p →
    cidrmatchRuntime.apply (argsTr .allow es) = some p ∧ cidrmatchRuntime.cost (argsTr .allow es) (argsCost .allow es) ≤ partsAll es
  | [], _, h => by cases h
  | [a], _, h => by
    simp only [argsTr, FnSpec.apply, cidrmatchRuntime, bindParams, bindParam] at h
    cases ha : a.asString <;> simp [ha] at h
  | [a, b], p, h => by
    simp only [argsTr, FnSpec.apply, cidrmatchRuntime, bindParams, bindParam] at h ⊢
    cases hb : exprTr .require b with
    | none => rw [hb] at h; cases ha : a.asString <;> simp [ha] at h
    | some q =>
      have h1 := library_alone b hb
      rw [hb] at h
      rw [h1.1]
      cases ha : a.asString with
      | none => simp [ha] at h
      | some t =>
        rw [ha] at h
        refine ⟨h, ?_⟩
        simp [FnSpec.cost, paramsCost, argsCost, bindParam, ha, bindParams, partsAll]
        omega
  | a :: b :: c :: es, p, h => by
    simp only [argsTr, FnSpec.apply, cidrmatchRuntime, bindParams, bindParam] at h
    cases ha : a.asString <;> cases hb : exprTr .require b <;> simp [ha, hb] at h
end

/-- **C104 (partial).** Nothing is repeated in expressions the library alone can translate. -/
theorem C104_library_partial {e : Expr} (h : (exprTr .require e).isSome = true) : exprCost .allow e ≤ parts e := by
  obtain ⟨p, hp⟩ := Option.isSome_iff_exists.1 h
  exact (library_alone e hp).2

/-! ### repetition -/

/-- calls of `relative_time` around a text, one in another -/
def days : Nat → Str → Str
  | 0, t => t
  | n + 1, t => c!"relative_time(" ++ days n t ++ c!",\"@d\")"

/-- the expression it stands for -/
def dayExpr : Nat → Expr → Expr
  | 0, e => e
  | n + 1, e => .call c!"relative_time" [dayExpr n e, .const (.snapTime ⟨none, c!"days", none⟩)]

theorem days_length (n : Nat) (t : Str) : (days n t).length = 20 * n + t.length := by
  induction n with
  | zero => simp [days]
  | succ n ih => simp [days, ih]; omega

theorem days_written {e : Expr} {t : Str} (h : Written 9 e t) : ∀ n, Written 9 (dayExpr n e) (days n t)
  | 0 => h
  | n + 1 => by
    have h1 : Written 9 (.const (.snapTime ⟨none, c!"days", none⟩)) c!"\"@d\"" :=
      w_up (.value (.snap (s := c!"@d") (.mk (a := []) (m := c!"d") (s := c!"d") (b := []) .none (by decide) rfl .none (by simp)))) (by decide) (by decide)
    have h2 := WrittenArgs.more (g₁ := []) (g₂ := []) (days_written h n) (.inl rfl) (.inl rfl) (.one h1)
    have h3 := w_up (Written.call (f := c!"relative_time") (by decide) (by decide) h2) (k := 9) (by decide) (by decide)
    simpa [days, dayExpr] using h3

theorem days_column {e : Expr} {p : PE} (h : exprTr .allow e = some p) (hp : p.isCol = true) :
    ∀ n, ∃ q, exprTr .allow (dayExpr n e) = some q ∧ q.isCol = true
  | 0 => ⟨p, h, hp⟩
  | n + 1 => by
    obtain ⟨q, hq, _⟩ := days_column h hp n
    refine ⟨.aliased (.fn c!"date_trunc" [pyStr c!"day", .fn c!"to_timestamp" [q.unalias]]) c!"now", ?_, rfl⟩
    rw [dayExpr, exprTr, argsTr, argsTr, argsTr, hq]
    rfl

theorem days_cost {e : Expr} {p : PE} (h : exprTr .allow e = some p) (hp : p.isCol = true) : ∀ n, 2 ^ n * exprCost .allow e ≤ exprCost .allow (dayExpr n e)
  | 0 => by simp [dayExpr]
  | n + 1 => by
    have ih := days_cost h hp n
    obtain ⟨q, hq, _⟩ := days_column h hp n
    have : exprCost .allow (dayExpr (n + 1) e) = 1 + ((exprCost .allow (dayExpr n e) + 1) + exprCost .allow (dayExpr n e)) := by
      rw [dayExpr, exprCost, argsTr, argsTr, argsTr, argsCost, argsCost, argsCost, hq]
      rfl
    rw [this, Nat.pow_succ, Nat.mul_right_comm]
    omega

/-- **C104** is refuted: when the library may be used but need not be, nested calls of `relative_time`, which only the plain translation can do, are
translated twice at every level. -/
theorem C104_exponential (x : Ext) (n : Nat) : (c!"eval x=" ++ days n c!"a").length = 20 * n + 8 ∧
    parse (c!"eval x=" ++ days n c!"a") = some [.eval [(c!"x", dayExpr n (.const (.field c!"a")))]] ∧
    (renderPipeline ⟨.allow, x⟩ [.eval [(c!"x", dayExpr n (.const (.field c!"a")))]]).isSome = true ∧
    2 ^ n ≤ exprCost .allow (dayExpr n (.const (.field c!"a"))) := by
  have hw : Written 9 (.const (.field c!"a")) c!"a" := w_name (by decide) (by decide) (by decide) (by decide) (by decide)
  have h1 : exprTr .allow (.const (.field c!"a")) = some (.named c!"a") := rfl
  obtain ⟨q, hq, hc⟩ := days_column h1 rfl n
  refine ⟨?_, C69_read_partial (memks_query (days_written hw n) 0), ?_, ?_⟩
  · rw [List.length_append, days_length]; simp; omega
  · rw [renderPipeline, runCmds, transform]
    simp only [dispatch, evalRuntime, evalKwargs, hq, hc, if_true, Option.map_some, orElse, runCmds]
    rfl
  · have := days_cost h1 rfl n
    rwa [show exprCost .allow (.const (.field c!"a")) = 1 from rfl, Nat.mul_one] at this

/-- **C104** No polynomial in the length of the query bounds the number of translations. -/
theorem C104_no_polynomial : ¬ ∃ c d, ∀ q f e, parse q = some [.eval [(f, e)]] → exprCost .allow e ≤ c * (q.length + 1) ^ d := by
  rintro ⟨c, d, h⟩
  obtain ⟨m, hm⟩ := poly_lt c d
  obtain ⟨hl, hp, _, h2⟩ := C104_exponential Tests.ext (2 ^ m)
  have h1 := h _ _ _ hp
  have h3 : (c!"eval x=" ++ days (2 ^ m) c!"a").length + 1 ≤ 2 ^ (m + 5) := by
    rw [hl, Nat.pow_add]
    have : 0 < 2 ^ m := Nat.two_pow_pos m
    omega
  have h4 : c * ((c!"eval x=" ++ days (2 ^ m) c!"a").length + 1) ^ d ≤ 2 ^ c * 2 ^ ((m + 5) * d) := by
    refine Nat.mul_le_mul (Nat.le_of_lt Nat.lt_two_pow_self) ?_
    rw [Nat.pow_mul]
    exact Nat.pow_le_pow_left h3 d
  rw [← Nat.pow_add] at h4
  have h5 : 2 ^ (2 ^ m) ≤ 2 ^ (c + (m + 5) * d) := Nat.le_trans h2 (Nat.le_trans h1 h4)
  have h6 := (Nat.pow_le_pow_iff_right (by decide : 1 < 2)).1 h5
  omega

example : c!"eval x=" ++ days 2 c!"a" = c!"eval x=relative_time(relative_time(a,\"@d\"),\"@d\")" ∧ exprCost .allow (dayExpr 2 (.const (.field c!"a"))) = 10 ∧
    exprCost .disallow (dayExpr 2 (.const (.field c!"a"))) = 3 ∧ parts (dayExpr 2 (.const (.field c!"a"))) = 5 ∧
    callDepth (dayExpr 2 (.const (.field c!"a"))) = 2 := by decide +kernel

/-- An expression that meets the condition of `C104_library_partial`; `split` with a word does not. -/
example : (exprTr .require (.call c!"lower" [.call c!"trim" [.const (.field c!"a"), .const (.str c!"b")]])).isSome = true ∧
    exprCost .allow (.call c!"lower" [.call c!"trim" [.const (.field c!"a"), .const (.str c!"b")]]) = 4 ∧
    (exprTr .require (.call c!"split" [.const (.field c!"a"), .const (.wildcard c!"b*")])).isSome = false ∧
    exprCost .allow (.call c!"split" [.const (.field c!"a"), .const (.wildcard c!"b*")]) = 4 := by decide +kernel

end Verif.Props
