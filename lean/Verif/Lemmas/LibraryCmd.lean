import Verif.Lemmas.Library
import Verif.Rt.Commands
import Verif.Props.Search
/-
Commands of the runtime library against the plain translation.
-/
namespace Verif.Lemmas.Library
open Verif Verif.Rt Verif.Spec Verif.Props

theorem _root_.Verif.Spec.SameRows.refl (d : DF) : SameRows d d := fun _ _ _ => rfl

/-- a condition joined from parts with `&` -/
inductive AndOf : PE → List PE → Prop
  | one (q : PE) : AndOf q [q]
  | both {a b xs ys} (ha : AndOf a xs) (hb : AndOf b ys) : AndOf (.bin c!"&" a b) (xs ++ ys)

/-- the same with the parts in another order -/
def Conj (q : PE) (cs : List PE) : Prop := ∃ xs, AndOf q xs ∧ xs.Perm cs

theorem Conj.perm {q as bs} (h : Conj q as) (hp : as.Perm bs) : Conj q bs := by
  obtain ⟨xs, h1, h2⟩ := h
  exact ⟨xs, h1, h2.trans hp⟩

theorem Conj.one (q : PE) : Conj q [q] := ⟨[q], .one q, .refl _⟩

theorem Conj.both {a b xs ys} (ha : Conj a xs) (hb : Conj b ys) : Conj (.bin c!"&" a b) (xs ++ ys) := by
  obtain ⟨as, h1, h2⟩ := ha
  obtain ⟨bs, h3, h4⟩ := hb
  exact ⟨as ++ bs, .both h1 h3, h2.append h4⟩

theorem mid {a b c d : List PE} : (a ++ b ++ (c ++ d)).Perm (a ++ c ++ (b ++ d)) := by
  rw [List.append_assoc, List.append_assoc]
  refine List.Perm.append_left a ?_
  rw [← List.append_assoc, ← List.append_assoc]
  exact List.Perm.append_right d List.perm_append_comm

/-- A relation between the frames built with the library and without it that the commands preserve, as long as the fields
grouped by have names in `N`. -/
structure Closed (N : Str → Prop) (R : DF → DF → Prop) : Prop where
  source : ∀ n, R (.source n) (.source n)
  rawSource : ∀ n, R (.rawSource n) (.rawSource n)
  withColumn : ∀ {d e c n}, R d e → R (.withColumn d c n) (.withColumn e c n)
  renamed : ∀ {d e o n}, R d e → R (.withColumnRenamed d o n) (.withColumnRenamed e o n)
  select : ∀ {d e cs}, R d e → R (.select d cs) (.select e cs)
  where_ : ∀ {d e c}, R d e → R (.where_ d c) (.where_ e c)
  orderBy : ∀ {d e cs}, R d e → R (.orderBy d cs) (.orderBy e cs)
  limit : ∀ {d e n}, R d e → R (.limit d n) (.limit e n)
  tail : ∀ {d e n}, R d e → R (.tail d n) (.tail e n)
  conj : ∀ {d e q cs}, R d e → Conj q cs → R (.where_ d (allOf cs)) (.where_ e q)
  empty : ∀ {d e}, R d e → R (.where_ d (allOf [])) e
  groups : ∀ {d e ks cs}, R d e → (∀ n, CN.name n ∈ ks → N n) → (∀ c ∈ cs, ∃ p l, c = PE.aliased p l) →
    R (.agg (.groupBy d ((ks.map CN.toPE).map .col)) cs) (.agg (.groupBy e ks) cs)

theorem allOf_holds {V} {S : Spark V} (hS : S.Lawful) (r) : ∀ (cs : List PE) (a : PE),
    S.holds (cs.foldl (fun a c => .bin c!"&" a c) a) r = (S.holds a r && cs.all fun c => S.holds c r)
  | [], a => by simp
  | c :: cs, a => by
    rw [List.foldl_cons, allOf_holds hS r cs, hS.and_, List.all_cons, Bool.and_assoc]

theorem and_holds {V} {S : Spark V} (hS : S.Lawful) (r) {q xs} (h : AndOf q xs) : S.holds q r = xs.all fun c => S.holds c r := by
  induction h with
  | one q => simp
  | both ha hb iha ihb => rw [hS.and_, iha, ihb, List.all_append]

theorem sameRows_closed : Closed (fun _ => True) SameRows where
  source n := SameRows.refl _
  rawSource n := SameRows.refl _
  withColumn h V S hl := by simp only [Spark.meaning, h V S hl]
  renamed h V S hl := by simp only [Spark.meaning, h V S hl]
  select h V S hl := by simp only [Spark.meaning, h V S hl]
  where_ h V S hl := by simp only [Spark.meaning, h V S hl]
  orderBy h V S hl := by simp only [Spark.meaning, h V S hl]
  limit h V S hl := by simp only [Spark.meaning, h V S hl]
  tail h V S hl := by simp only [Spark.meaning, h V S hl]
  conj h hc V S hS := by
    obtain ⟨xs, h1, h2⟩ := hc
    simp only [Spark.meaning, h V S hS]
    congr 1
    funext r
    rw [and_holds hS r h1, allOf, allOf_holds hS, hS.true_, Bool.true_and]
    exact h2.symm.all_eq
  empty h V S hS := by
    simp only [Spark.meaning, h V S hS, allOf, List.foldl_nil]
    exact List.filter_eq_self.2 fun r _ => hS.true_ r
  groups {d e ks cs} h _ _ V S hl := by
    simp only [Spark.meaning, h V S hl, List.map_map]
    rw [← hl.keys ks cs]
    rfl

variable {N : Str → Prop} {R : DF → DF → Prop}

/-- the fields a command groups by have names in `N` -/
def ByOk (N : Str → Prop) : Command → Prop
  | .stats _ _ bys _ => ∀ f ∈ bys.getD [], N f.field
  | _ => True

theorem byOk_true (c : Command) : ByOk (fun _ => True) c := by
  unfold ByOk
  split
  · exact fun _ _ => trivial
  · trivial

/-- the state of the run with the library (first) and without it -/
def Runs (R : DF → DF → Prop) (W : World) (s s' : St) : Prop :=
  (s.df = none ∧ s'.df = none) ∨
    ∃ d e d', s.df = some d ∧ runDF W d = some e ∧ s'.df = some d' ∧ R e d'

theorem Runs.cur (hR : Closed N R) {W s s'} (h : Runs R W s s') : ∃ e, runDF W s.cur = some e ∧ R e s'.cur := by
  rcases h with ⟨h1, h2⟩ | ⟨d, e, d', h1, h2, h3, h4⟩
  · exact ⟨DF.default, by simp only [St.cur, h1]; rfl, by simp only [St.cur, h2]; exact hR.source _⟩
  · exact ⟨e, by simpa only [St.cur, h1, Option.getD_some] using h2, by simpa only [St.cur, h3, Option.getD_some] using h4⟩

theorem Runs.put {W} {s s' : St} {d d' e : DF} (h : runDF W d = some e) (h' : R e d') : Runs R W (s.put d) (s'.put d') :=
  .inr ⟨d, e, d', rfl, h, rfl, h'⟩

/-! ### `eval` -/

theorem evalKw {m} (hm : m ≠ .disallow) : ∀ {fs : List (Str × Expr)}, (∀ p ∈ fs, Shared p.2) →
    ∃ ks vs, evalKwargs m fs = some ks ∧ kwVals ks = some vs ∧ vs.map (·.1) = fs.map (·.1) ∧
      ∀ d, ∃ e, evalLoop .disallow fs d = some e ∧ evalCols vs d = some e
  | [], _ => ⟨[], [], rfl, rfl, rfl, fun d => ⟨d, rfl, rfl⟩⟩
  | (n, e) :: fs, h => by
    obtain ⟨p, q, hs⟩ := shared_same (h (n, e) List.mem_cons_self)
    obtain ⟨ks, vs, h1, h2, h3, h4⟩ := evalKw hm fun p hp => h p (List.mem_cons_of_mem _ hp)
    have hp : exprTr m e = some p := by
      cases m with
      | disallow => exact absurd rfl hm
      | allow => exact hs.all
      | require => exact hs.req
    refine ⟨(n, .expr p.unalias) :: ks, (n, .val (shape (isColumn e) q.unalias)) :: vs, ?_, ?_, ?_, fun d => ?_⟩
    · simp only [evalKwargs, hp, exprTr_isCol hp, if_true, h1]
    · simp only [kwVals, reVal, hs.val, Option.map_some, h2]
    · simp only [List.map_cons, h3]
    · obtain ⟨e', h5, h6⟩ := h4 (.withColumn d q.unalias n)
      refine ⟨e', ?_, ?_⟩
      · simp only [evalLoop, hs.dis, exprTr_isCol hs.dis, if_true, DF.mkWithColumn, h5]
      · simp only [evalCols, exprCol, (shape_stands _ _).toExpr, h6]

theorem kwGet_none {k : Str} : ∀ {vs : List (Str × PV)}, k ∉ vs.map (·.1) → kwGet k vs = none
  | [], _ => rfl
  | (n, v) :: vs, h => by
    simp only [List.map_cons, List.mem_cons, not_or] at h
    rw [kwGet, if_neg (Ne.symm h.1), kwGet_none h.2]

theorem kwName_of {n : Str} (h : Keyword n) : kwNameOk n = true := by
  simp only [kwNameOk, h.1, Bool.true_and, Bool.not_eq_true', List.contains_eq_mem, decide_eq_false_iff_not]
  exact h.2

theorem distinct_of : ∀ {vs : List (Str × PV)}, (vs.map (·.1)).Nodup → (∀ n ∈ vs.map (·.1), Keyword n) → distinct vs = true
  | [], _, _ => rfl
  | (n, v) :: vs, h, hk => by
    simp only [List.map_cons, List.nodup_cons] at h
    simp only [List.map_cons, List.mem_cons, forall_eq_or_imp] at hk
    simp only [distinct, distinct_of h.2 hk.2, kwName_of hk.1, Bool.and_true, Bool.not_eq_true', List.any_eq_false]
    intro p hp he
    exact h.1 (List.mem_map.2 ⟨p, hp, by simpa using he⟩)

theorem distinct_name : ∀ {vs : List (Str × PV)} {n}, n ∈ vs.map (·.1) → kwNameOk n = false → distinct vs = false
  | (k, v) :: vs, n, h, hn => by
    simp only [List.map_cons, List.mem_cons] at h
    rcases h with rfl | h
    · simp only [distinct, hn, Bool.false_and, Bool.and_false]
    · simp only [distinct, distinct_name h hn, Bool.and_false]

theorem distinct_not : ∀ {vs : List (Str × PV)}, ¬ (vs.map (·.1)).Nodup → distinct vs = false
  | [], h => by simp at h
  | (n, v) :: vs, h => by
    simp only [List.map_cons, List.nodup_cons] at h
    by_cases h : n ∈ vs.map (·.1)
    · obtain ⟨p, hp, he⟩ := List.mem_map.1 h
      have : (vs.any fun p => p.1 == n) = true := List.any_eq_true.2 ⟨p, hp, by simpa using he⟩
      simp only [distinct, this, Bool.not_true, Bool.false_and]
    · rename_i h'
      simp only [distinct, distinct_not (fun h'' => h' ⟨h, h''⟩), Bool.and_false]

theorem evalLoop_alike (hR : Closed N R) {m} : ∀ {fs : List (Str × Expr)} {d e d' e'}, R d d' → evalLoop m fs d = some e →
    evalLoop m fs d' = some e' → R e e'
  | [], d, e, d', e', h, h1, h2 => by
    simp only [evalLoop, Option.some.injEq] at h1 h2
    subst h1 h2; exact h
  | (n, x) :: fs, d, e, d', e', h, h1, h2 => by
    simp only [evalLoop] at h1 h2
    split at h1
    · simp at h1
    · rename_i c hc
      split at h1
      · rename_i hcc
        simp only [hc, hcc, if_true] at h2
        exact evalLoop_alike hR (hR.withColumn h) h1 h2
      · simp at h1

theorem eval_runs (hR : Closed N R) {W x fs s s'} {m : Mode} (hm : m ≠ .disallow) (hr : Runs R W s s') (hs : s.df ≠ none)
    (h : ∀ p ∈ fs, Shared p.2) (hd : (fs.map (·.1)).Nodup) (hn : c!"df" ∉ fs.map (·.1)) (hk : ∀ n ∈ fs.map (·.1), Keyword n) :
    ∃ t t', transform ⟨m, x⟩ (.eval fs) s = some t ∧ transform ⟨.disallow, x⟩ (.eval fs) s' = some t' ∧ Runs R W t t' := by
  rcases hr with ⟨h1, _⟩ | ⟨d, e, d', h1, h2, h3, h4⟩
  · exact absurd h1 hs
  · obtain ⟨ks, vs, k1, k2, k3, k4⟩ := evalKw hm h
    obtain ⟨f, f1, f2⟩ := k4 e
    obtain ⟨f', g1, _⟩ := k4 d'
    have hrt : transform ⟨m, x⟩ (.eval fs) s = some (s.putRuntime c!"eval" [] ks) := by
      cases m with
      | disallow => exact absurd rfl hm
      | allow => simp only [transform, dispatch, evalRuntime, k1, Option.map_some, orElse]
      | require => simp only [transform, dispatch, evalRuntime, k1, Option.map_some]
    refine ⟨_, s'.put f', hrt, ?_, .inr ⟨_, f, f', rfl, ?_, rfl, evalLoop_alike hR h4 f1 g1⟩⟩
    · simp only [transform, dispatch, evalStandalone, St.cur, h3, Option.getD_some, g1, Option.map_some]
    · simp only [h1, runDF, h2, command, argVals, k2, distinct_of (k3 ▸ hd) (k3 ▸ hk), if_true, cmdEval, List.isEmpty_nil,
        kwGet_none (k3 ▸ hn), Option.isNone_none, Bool.and_self, f2]

/-! ### `stats` -/

/-- evaluation of the arguments of a statistic, which keep their aliases -/
theorem exprs_of {m} (hm : m ≠ .disallow) : ∀ {args : List Expr}, (∀ a ∈ args, Shared a) →
    ∃ ps vs qs, exprsTr m args = some ps ∧ evalRts ps = some vs ∧ mapArgs (argsTr .disallow args) = some qs ∧ All2 Stands vs qs
  | [], _ => ⟨[], [], [], rfl, rfl, rfl, .nil⟩
  | a :: args, h => by
    obtain ⟨p, q, hs⟩ := shared_same (h a List.mem_cons_self)
    obtain ⟨ps, vs, qs, h1, h2, h3, h4⟩ := exprs_of hm fun b hb => h b (List.mem_cons_of_mem _ hb)
    have hp : exprTr m a = some p := by
      cases m with
      | disallow => exact absurd rfl hm
      | allow => exact hs.all
      | require => exact hs.req
    refine ⟨p :: ps, shape (isColumn a) q.unalias :: vs, q.unalias :: qs, ?_, ?_, ?_, .cons (shape_stands _ _) h4⟩
    · simp only [exprsTr, hp, h1]
    · have := hs.val
      rw [hs.flat] at this
      simp only [evalRts, this, h2]
    · simp only [argsTr, mapArgs, hs.dis, Option.map_some, h3]

/-- the two versions of a statistic agree -/
def StatAgree (name : Str) (n : Nat) : Prop :=
  ∀ (as : List Arg) (vs : List RV) (qs : List PE), qs.length = n → mapArgs as = some qs → All2 Stands vs qs →
    ∃ c, statsFnBareCol name as = some (.aliased c name) ∧ c.isCol = true ∧ c.unalias = c ∧
      statsCall name vs = some (.agg (statsSorts name) (some c))

theorem stat_agree1 {name : Str} {sorts : Bool} {f : PE → PE} (h1 : lookupFn name statsTable = some (.one name f))
    (h2 : lookupLib name libStats = some (statOf sorts f)) (hs : statsSorts name = sorts)
    (hf : ∀ x : PE, (f x).unalias = f x ∧ (f x).isCol = true) : StatAgree name 1 := by
  intro as vs qs hn ha hv
  obtain ⟨x, rfl⟩ := List.length_eq_one_iff.1 hn
  obtain ⟨v, rfl, h⟩ := hv.one
  obtain ⟨a, rfl⟩ := List.length_eq_one_iff.1 ((mapArgs_length ha).trans hn)
  have hx := mapArgs_one ha
  refine ⟨f x, ?_, (hf x).2, (hf x).1, ?_⟩
  · simp [statsFnBareCol, statsSpec, h1, FnSpec.apply, FnSpec.one, bindParams, bindParam, hx, PE.withAlias, (hf x).1]
  · simp [statsCall, h2, statOf, bindArgs, bindRest, h.conv, hs]

theorem stat_agree0 {name : Str} {c : PE} (h1 : statsFnBareCol name [] = some (.aliased c name))
    (h2 : statsCall name [] = some (.agg (statsSorts name) (some c))) (hf : c.isCol = true ∧ c.unalias = c) :
    StatAgree name 0 := by
  intro as vs qs hn ha hv
  obtain rfl : qs = [] := List.length_eq_zero_iff.1 hn
  cases hv
  obtain rfl : as = [] := List.length_eq_zero_iff.1 (by rw [mapArgs_length ha, hn])
  exact ⟨c, h1, hf.1, hf.2, h2⟩

theorem stat_agree {name : Str} {n : Nat} (h : (name, n) ∈ sharedStats) : StatAgree name n := by
  simp only [sharedStats, List.mem_cons, List.not_mem_nil, or_false, Prod.mk.injEq] at h
  rcases h with h | h | h | h | h | h | h | h | h | h | h | h | h | h | h | h | h | h
  all_goals obtain ⟨rfl, rfl⟩ := h
  all_goals first
    | exact stat_agree0 rfl rfl ⟨rfl, rfl⟩
    | exact stat_agree1 rfl rfl rfl (fun _ => ⟨rfl, rfl⟩)

theorem rtFn_stats (n : Str) (vs) : rtFn (c!"functions.stats." ++ n) vs = statsCall n vs := rfl

/-- the frame before an aggregate: sorted by time where the function asks for it -/
def sortFor (sorts : Bool) (d : DF) : DF := if sorts then .orderBy d [.method timeCol c!"asc" []] else d

theorem sortFor_alike (hR : Closed N R) {b d e} (h : R d e) : R (sortFor b d) (sortFor b e) := by
  cases b
  · exact h
  · exact hR.orderBy h

theorem call_of {m} (hm : m ≠ .disallow) {name args} (hn : (name, args.length) ∈ sharedStats) (ha : ∀ a ∈ args, Shared a) :
    ∃ ps c, exprsTr m args = some ps ∧ evalRt (.fn (c!"functions.stats." ++ name) ps) = some (.agg (statsSorts name) (some c)) ∧
      c.isCol = true ∧ c.unalias = c ∧ ∀ d, statsFn .disallow name (argsTr .disallow args) d =
        some (sortFor (statsSorts name) d, .aliased c name) := by
  obtain ⟨ps, vs, qs, h1, h2, h3, h4⟩ := exprs_of hm ha
  obtain ⟨c, k1, k2, k3, k4⟩ := stat_agree hn (argsTr .disallow args) vs qs
    (by rw [← mapArgs_length h3, argsTr_length]) h3 h4
  refine ⟨ps, c, h1, ?_, k2, k3, fun d => ?_⟩
  · simp only [evalRt, h2, rtFn_stats, k4]
  · simp only [statsFn, statsFnBare, k1, Option.map_some, sortFor]
    rfl

theorem stat_of {m} (hm : m ≠ .disallow) {e l} (h : SharedStat e l) :
    ∃ p c b, statsRuntimeExpr m e = some (l, .expr p) ∧ evalRt p = some (.agg b (some c)) ∧
      ∀ d, statsExpr .disallow d e = some (sortFor b d, .aliased c l) := by
  cases h with
  | @plain name args hn ha =>
    obtain ⟨ps, c, h1, h2, _, _, h5⟩ := call_of hm hn ha
    refine ⟨_, c, _, ?_, h2, fun d => ?_⟩
    · simp only [statsRuntimeExpr, Expr.unaliasName, h1, Option.map_some, Option.getD_none]
    · simp only [statsExpr, Expr.unaliasName, h5, Option.map_some, PE.maybeAlias]
  | @named name args label hn ha =>
    obtain ⟨ps, c, h1, h2, h3, h4, h5⟩ := call_of hm hn ha
    refine ⟨_, c, _, ?_, h2, fun d => ?_⟩
    · simp only [statsRuntimeExpr, Expr.unaliasName, h1, Option.map_some, Option.getD_some]
    · simp only [statsExpr, Expr.unaliasName, h5, Option.map_some, PE.maybeAlias, PE.withAlias, unalias_aliased h3, h4]

theorem stats_of (hR : Closed N R) {m} (hm : m ≠ .disallow) {es ls} (h : SharedStats es ls) :
    ∃ ks vs cs, ∃ g : DF → DF, statsRuntimeExprs m es = some ks ∧ kwVals ks = some vs ∧ vs.map (·.1) = ls ∧
      cs.length = es.length ∧ (∀ c ∈ cs, ∃ p l, c = PE.aliased p l) ∧ (∀ d, statCols vs d = some (g d, cs)) ∧ (∀ d, statsLoop .disallow es d = some (g d, cs)) ∧
      ∀ d e, R d e → R (g d) (g e) := by
  induction h with
  | nil => exact ⟨[], [], [], id, rfl, rfl, rfl, rfl, by simp, fun _ => rfl, fun _ => rfl, fun _ _ h => h⟩
  | @cons e l es ls h t ih =>
    obtain ⟨p, c, b, h1, h2, h3⟩ := stat_of hm h
    obtain ⟨ks, vs, cs, g, k1, k2, k3, k4, k8, k5, k6, k7⟩ := ih
    refine ⟨(l, .expr p) :: ks, (l, .val (.agg b (some c))) :: vs, .aliased c l :: cs, fun d => g (sortFor b d),
      ?_, ?_, ?_, ?_, ?_, fun d => ?_, fun d => ?_, fun d e h => k7 _ _ (sortFor_alike hR h)⟩
    · simp only [statsRuntimeExprs, h1, k1]
    · simp only [kwVals, reVal, h2, Option.map_some, k2]
    · simp only [List.map_cons, k3]
    · simp only [List.length_cons, k4]
    · intro c' hc'
      rcases List.mem_cons.1 hc' with rfl | hc'
      · exact ⟨_, _, rfl⟩
      · exact k8 c' hc'
    · simp only [statCols]
      rw [show (if b = true then DF.orderBy d [.method timeCol c!"asc" []] else d) = sortFor b d from rfl]
      simp only [k5]
    · simp only [statsLoop, h3, k6]

theorem by_vals : ∀ (fs : List SpField), evalRts (fs.map fun f => (byField f).toPE) =
    some (fs.map fun f => .col (byField f).toPE)
  | [] => rfl
  | f :: fs => by
    have : evalRt (byField f).toPE = some (.col (byField f).toPE) := by
      unfold byField
      split
      · rfl
      · simp only [CN.toPE, evalRt, evalRts, pyStr]
        rfl
    simp only [List.map_cons, evalRts, this, by_vals fs]

theorem by_cols : ∀ (fs : List SpField), listCols (fs.map fun f => .col (byField f).toPE) =
    some (fs.map fun f => (byField f).toPE)
  | [] => rfl
  | f :: fs => by simp only [List.map_cons, listCols, exprCol, RV.toExpr, by_cols fs]

theorem others_of {named : List Str} : ∀ {vs : List (Str × PV)}, (∀ v ∈ vs, v.1 ∉ named) → others named vs = vs := by
  intro vs h
  refine List.filter_eq_self.2 fun v hv => ?_
  simp only [Bool.not_eq_true', List.contains_eq_mem, decide_eq_false_iff_not]
  exact h v hv

theorem groups_of (hR : Closed N R) {d e : DF} {fs : List SpField} {cs : List PE} (h : R d e) (hb : ∀ f ∈ fs, N f.field) (hc : ∀ c ∈ cs, ∃ p l, c = PE.aliased p l) :
    R (.agg (.groupBy d ((fs.map fun f => (byField f).toPE).map .col)) cs) (.agg (.groupBy e (fs.map byField)) cs) := by
  have := hR.groups (ks := fs.map byField) h (fun n hn => by
    obtain ⟨f, hf, he⟩ := List.mem_map.1 hn
    have := hb f hf
    unfold byField at he
    split at he
    · simp only [CN.name.injEq] at he
      exact he ▸ this
    · cases he) hc
  rw [List.map_map (f := byField)] at this
  exact this

theorem stats_runs (hR : Closed N R) {W x o fs ls bys dd} {s s' : St} {m : Mode} (hm : m ≠ .disallow) (hr : Runs R W s s') (hs : s.df ≠ none)
    (h0 : fs ≠ []) (h : SharedStats fs ls) (hd : ls.Nodup) (h1 : c!"df" ∉ ls) (h2 : c!"by" ∉ ls) (hk : ∀ l ∈ ls, Keyword l)
    (hb : ∀ f ∈ bys.getD [], N f.field) :
    ∃ t t', transform ⟨m, x⟩ (.stats o fs bys dd) s = some t ∧ transform ⟨.disallow, x⟩ (.stats o fs bys dd) s' = some t' ∧
      Runs R W t t' := by
  rcases hr with ⟨e1, _⟩ | ⟨d, e, d', e1, e2, e3, e4⟩
  · exact absurd e1 hs
  · obtain ⟨ks, vs, cs, g, k1, k2, k3, k4, k8, k5, k6, k7⟩ := stats_of hR hm h
    have hrt : transform ⟨m, x⟩ (.stats o fs bys dd) s = some (s.putRuntime c!"stats" [] (byKwarg bys ++ ks)) := by
      cases m with
      | disallow => exact absurd rfl hm
      | allow => simp only [transform, dispatch, statsRuntime, k1, Option.map_some, orElse]
      | require => simp only [transform, dispatch, statsRuntime, k1, Option.map_some]
    have hcs : cs.isEmpty = false := by
      cases cs with
      | nil => exact absurd (List.length_eq_zero_iff.1 k4.symm) h0
      | cons => rfl
    have ho : others [c!"by"] vs = vs := others_of fun v hv hb => by
      simp only [List.mem_singleton] at hb
      exact h2 (k3 ▸ List.mem_map.2 ⟨v, hv, hb⟩)
    refine ⟨_, s'.put (.agg (.groupBy (g d') ((bys.getD []).map byField)) cs), hrt, ?_, .inr ⟨_, .agg (.groupBy (g e) (((bys.getD []).map fun f => (byField f).toPE).map .col)) cs, _, rfl, ?_, rfl,
      groups_of hR (k7 _ _ e4) hb k8⟩⟩
    · simp only [transform, dispatch, statsStandalone, St.cur, e3, Option.getD_some, k6, Option.map_some]
    · cases bys with
      | none =>
        simp only [e1, runDF, e2, command, argVals, byKwarg, List.nil_append, k2, distinct_of (k3 ▸ hd) (k3 ▸ hk), if_true]
        rw [if_neg (by decide), if_neg (by decide)]
        simp only [cmdStats, List.isEmpty_nil, kwGet_none (k3 ▸ h1), kwGet_none (k3 ▸ h2), Option.isNone_none,
          Bool.and_self, if_true, ho, k5, byCols, hcs]
        rfl
      | some bs =>
        have hdd : distinct ((c!"by", PV.list (bs.map fun f => .col (byField f).toPE)) :: vs) = true :=
          distinct_of (by simp only [List.map_cons, k3, List.nodup_cons]; exact ⟨h2, hd⟩)
            (by simp only [List.map_cons, k3, List.mem_cons, forall_eq_or_imp]; exact ⟨by decide, hk⟩)
        have hdf : kwGet c!"df" ((c!"by", PV.list (bs.map fun f => .col (byField f).toPE)) :: vs) = none := by
          rw [kwGet, if_neg (by decide), kwGet_none (k3 ▸ h1)]
        have hoo : others [c!"by"] ((c!"by", PV.list (bs.map fun f => .col (byField f).toPE)) :: vs) = vs := by
          rw [show others [c!"by"] ((c!"by", PV.list (bs.map fun f => .col (byField f).toPE)) :: vs) = others [c!"by"] vs from rfl, ho]
        simp only [e1, runDF, e2, command, argVals, byKwarg, List.cons_append, List.nil_append, kwVals, reVal, by_vals, Option.map_some, k2, hdd, if_true]
        rw [if_neg (by decide), if_neg (by decide)]
        have hby : kwGet c!"by" ((c!"by", PV.list (bs.map fun f => .col (byField f).toPE)) :: vs) =
            some (.list (bs.map fun f => .col (byField f).toPE)) := rfl
        simp only [cmdStats, List.isEmpty_nil, hdf, Option.isNone_none, Bool.and_self, if_true, hoo, k5, hby, byCols,
          by_cols, hcs, Option.getD_some]
        rfl

/-! ### commands that are not in the library -/

theorem put_runs {W x c} {s s' : St} {d d' e : DF} (h : dispatch .allow none (some (s.put d)) = transform ⟨.allow, x⟩ c s)
    (h' : dispatch .disallow none (some (s'.put d')) = transform ⟨.disallow, x⟩ c s') (hd : runDF W d = some e) (ha : R e d') :
    ∃ t t', transform ⟨.allow, x⟩ c s = some t ∧ transform ⟨.disallow, x⟩ c s' = some t' ∧ Runs R W t t' ∧ t.df ≠ none :=
  ⟨_, _, h.symm, h'.symm, Runs.put hd ha, by simp [St.put]⟩

theorem colArgs_named : ∀ fs : List Str, colArgs (fs.map .named) = some (fs.map .named)
  | [] => rfl
  | f :: fs => by simp only [List.map_cons, colArgs, colArg, evalRt, Option.bind_some, RV.column, colArgs_named fs]

theorem rename_alike (hR : Closed N R) : ∀ {as : List (Str × Str)} {d e : DF}, R d e →
    R (as.foldl (fun d a => .withColumnRenamed d a.1 a.2) d) (as.foldl (fun d a => .withColumnRenamed d a.1 a.2) e)
  | [], _, _, h => h
  | _ :: as, _, _, h => rename_alike hR (as := as) (hR.renamed h)

theorem rename_run {W} : ∀ {as : List (Str × Str)} {d e : DF}, runDF W d = some e →
    runDF W (as.foldl (fun d a => .withColumnRenamed d a.1 a.2) d) =
      some (as.foldl (fun d a => .withColumnRenamed d a.1 a.2) e)
  | [], _, _, h => h
  | a :: as, d, e, h => rename_run (as := as) (by simp only [runDF, h, Option.map_some])

theorem sort_keys {dd} : ∀ {ks : List (Option Str × Expr)},
    (∀ k ∈ ks, ∃ f, k.2 = .const (.field f) ∧ (k.1 = none ∨ k.1 = some c!"+" ∨ k.1 = some c!"-")) →
    ∃ cs, sortKeys dd ks = some cs ∧ colArgs cs = some cs
  | [], _ => ⟨[], rfl, rfl⟩
  | (sg, e) :: ks, h => by
    obtain ⟨f, hf, hsg⟩ := h _ List.mem_cons_self
    obtain ⟨cs, h1, h2⟩ := sort_keys (dd := dd) fun k hk => h k (List.mem_cons_of_mem _ hk)
    simp only at hf hsg
    subst hf
    obtain ⟨b, hb⟩ : ∃ b : Bool, sortDir (.named f) sg dd = some (.method (.named f) (if b then c!"desc" else c!"asc") []) := by
      rcases hsg with rfl | rfl | rfl
      · exact ⟨dd, rfl⟩
      · exact ⟨dd, rfl⟩
      · exact ⟨!dd, rfl⟩
    refine ⟨.method (.named f) (if b then c!"desc" else c!"asc") [] :: cs, ?_, ?_⟩
    · simp only [sortKeys, sortExpr, hb, h1]
    · simp only [colArgs, colArg, evalRt, evalRts, rtMethod, operands, Option.map_some, Option.bind_some, RV.column, h2]

/-! ### `search` -/

/-- a condition that evaluates to itself and that the rewriting for searches leaves alone -/
def Fixed (q : PE) : Prop := Native q ∧ searchRw q = q

theorem Native.noAlias {q} (h : Native q) : q.aliasName = none := by
  cases q with
  | aliased c n =>
    obtain ⟨h1, h2, _⟩ := h
    cases hc : c.isCol
    · cases c <;> simp_all [PE.isCol]
      simp [evalRt] at h1
    · exfalso
      rw [unalias_aliased hc] at h2
      have : ∀ p : PE, sizeOf p.unalias ≤ sizeOf p := by
        intro p
        induction p using PE.unalias.induct with
        | case1 => simp [PE.unalias]
        | case2 c n hn ih =>
          rw [PE.unalias]
          · simp; omega
          · exact hn
        | case3 e h1 h2 => 
          rw [PE.unalias]
          · exact Nat.le_refl _
          · exact h1
          · exact h2
      have := this c
      rw [h2] at this
      simp at this
      omega
  | _ => rfl

theorem Fixed.into {q} (h : Fixed q) : intoSearch q = q := by
  rw [intoSearch, h.1.2.1, h.2, h.1.noAlias]; rfl

theorem fixed_join {op a b} (ho : op = c!"&" ∨ op = c!"|") (ha : Fixed a) (hb : Fixed b) : Fixed (.bin op a b) := by
  refine ⟨native_bin (by rcases ho with rfl | rfl <;> rfl) ha.1 hb.1, ?_⟩
  have : (op = c!"&" || op = c!"|") = true := by rcases ho with rfl | rfl <;> rfl
  simp only [searchRw, this, if_true, PE.mkBin, ha.2, hb.2, ha.1.2.1, hb.1.2.1]

theorem fixed_not {a} (ha : Fixed a) : Fixed (.not a) := by
  refine ⟨⟨?_, rfl, rfl⟩, by simp only [searchRw, ha.2]⟩
  simp only [evalRt, ha.1.1]

theorem fixed_check {f e} (h : listElem e = true) : ∃ p, fieldInCheck f e = some p ∧ Fixed p := by
  obtain ⟨p, hp, hn⟩ := native_check (f := f) h
  refine ⟨p, hp, hn, ?_⟩
  unfold fieldInCheck at hp
  split at hp
  · split at hp <;> first
      | (simp at hp; done)
      | (simp only [Option.some.injEq] at hp; subst hp; rfl)
  · simp at hp

theorem fixed_checks {f} : ∀ {es : List Expr}, es.all listElem = true →
    ∃ ps, fieldInChecks f es = some ps ∧ ps.length = es.length ∧ ∀ p ∈ ps, Fixed p
  | [], _ => ⟨[], rfl, rfl, by simp⟩
  | e :: es, h => by
    simp only [List.all_cons, Bool.and_eq_true] at h
    obtain ⟨p, hp, np⟩ := fixed_check (f := f) h.1
    obtain ⟨ps, hps, hl, nps⟩ := fixed_checks (f := f) h.2
    refine ⟨p :: ps, by simp only [fieldInChecks, hp, hps], by simp [hl], ?_⟩
    intro q hq
    rcases List.mem_cons.1 hq with rfl | hq
    · exact np
    · exact nps q hq

theorem fixed_joins {op} (ho : op = c!"&" ∨ op = c!"|") : ∀ {ps : List PE} {x}, Fixed x → (∀ p ∈ ps, Fixed p) → Fixed (joinBinFrom op x ps)
  | [], x, hx, _ => by simpa [joinBinFrom] using hx
  | p :: ps, x, hx, h => by
    rw [joinBinFrom]
    have hp := h p List.mem_cons_self
    refine fixed_joins ho ?_ fun q hq => h q (List.mem_cons_of_mem _ hq)
    exact fixed_join ho hx hp

theorem filter_const {k} (h : filterK k = true) : ∃ p, constTr k = some p ∧ Native p ∧
    (∀ c, k ≠ .wildcard c) ∧ ∀ c, k ≠ .ipv4cidr c := by
  have hc : columnK k = true := by cases k <;> simp_all [filterK, columnK]
  obtain ⟨p, hp, hn⟩ := native_const hc
  refine ⟨p, hp, hn, ?_, ?_⟩ <;> rintro c rfl <;> simp [filterK] at h

/-- translation of a comparison with a constant -/
theorem cmp_tr {f op k p} (hp : constTr k = some p) (hn : Native p) (hw : ∀ c, k ≠ .wildcard c) (hi : ∀ c, k ≠ .ipv4cidr c) (m : Mode) :
    exprTr m (.binary (.const (.field f)) op (.const k)) = some (.bin (mapOp op) (.named f) p) := by
  have h1 : exprTr m (.const k) = some p := by simp only [exprTr, hp]
  have h2 : exprTr m (.const (.field f)) = some (.named f) := rfl
  rw [exprTr, h1, h2]
  unfold binTr
  split
  · rename_i c hc; simp only [Expr.const.injEq] at hc; exact absurd hc (hw c)
  · rename_i c hc; simp only [Expr.const.injEq] at hc; exact absurd hc (hi c)
  · simp only [generalBin, PE.mkBin, hn.2.1]
    rfl

theorem cmp_ops {op : Str} (h : op ∈ [c!"=", c!"==", c!"!=", c!"<", c!"<=", c!">", c!">="]) :
    colOps.contains (mapOp op) = true ∧ (mapOp op = c!"&" || mapOp op = c!"|") = false ∧ op ≠ c!"AND" ∧
      ((op = c!"=" ∨ op = c!"==") → mapOp op = c!"==") := by
  revert op; decide

theorem join_tr {l r a b op} {m : Mode} (hl : exprTr m l = some a) (hr : exprTr m r = some b) (h : ∀ k, r ≠ .const k)
    (ha : a.unalias = a) (hb : b.unalias = b) : exprTr m (.binary l op r) = some (.bin (mapOp op) a b) := by
  rw [exprTr, hl, hr]
  unfold binTr
  split
  · exact absurd rfl (h _)
  · exact absurd rfl (h _)
  · simp only [generalBin, PE.mkBin, ha, hb]

theorem filter_const_ne {e} (h : Filter e) : ∀ k, e ≠ .const k := by
  rintro k rfl; cases h

theorem filter_fixed {e} (h : Filter e) : ∃ q, (∀ m, exprTr m e = some q) ∧ Fixed q := by
  induction h with
  | @cmp f op k hf ho hk =>
    obtain ⟨p, hp, hn, hw, hi⟩ := filter_const hk
    obtain ⟨o1, o2, _⟩ := cmp_ops ho
    refine ⟨_, cmp_tr hp hn hw hi, native_bin o1 (native_named _) hn, ?_⟩
    simp only [searchRw, o2, Bool.false_eq_true, if_false]
  | @unlike f p hf =>
    exact ⟨.not (likeTest (.named f) p), fun m => rfl, fixed_not ⟨native_like (native_named _) _, rfl⟩⟩
  | @inList f es h0 h =>
    obtain ⟨ps, hps, hl, hn⟩ := fixed_checks (f := f) h
    refine ⟨_, fun m => by simp only [exprTr, fieldInTr, hps, Option.map_some]; rfl, ?_⟩
    cases ps with
    | nil => simp only [List.length_nil] at hl; exact absurd (List.length_eq_zero_iff.1 hl.symm) h0
    | cons p ps =>
      exact fixed_joins (.inr rfl) (hn p List.mem_cons_self) fun q hq => hn q (List.mem_cons_of_mem _ hq)
  | not he ih =>
    obtain ⟨q, hq, hf⟩ := ih
    refine ⟨.not q, fun m => ?_, fixed_not hf⟩
    simp only [exprTr, if_true, hq, Option.map_some, PE.mkNot, hf.1.2.1]
  | @or l r hl hr ihl ihr =>
    obtain ⟨a, ha, fa⟩ := ihl
    obtain ⟨b, hb, fb⟩ := ihr
    refine ⟨.bin c!"|" a b, fun m => ?_, fixed_join (.inr rfl) fa fb⟩
    exact join_tr (ha m) (hb m) (filter_const_ne hr) fa.1.2.1 fb.1.2.1
  | @and l r hl hr ihl ihr =>
    obtain ⟨a, ha, fa⟩ := ihl
    obtain ⟨b, hb, fb⟩ := ihr
    refine ⟨.bin c!"&" a b, fun m => ?_, fixed_join (.inl rfl) fa fb⟩
    exact join_tr (ha m) (hb m) (filter_const_ne hr) fa.1.2.1 fb.1.2.1

/-- what becomes of the conjuncts of a search: arguments, their values and the conditions -/
structure Parts (m : Mode) (es : List Expr) (pvs : List PV) (kvs : List (Str × PV)) (ps ks : List PE) : Prop where
  args : ∃ as kw, searchArgs m es = some (as, kw) ∧ argVals as = some pvs ∧ kwVals kw = some kvs
  pos : posConds pvs = some ps
  kw : kwConds (others searchParams kvs) = some ks

theorem searchArgs_append {m} : ∀ {as bs : List Expr} {ps ks ps' ks'}, searchArgs m as = some (ps, ks) →
    searchArgs m bs = some (ps', ks') → searchArgs m (as ++ bs) = some (ps ++ ps', ks ++ ks')
  | [], bs, ps, ks, ps', ks', h, h' => by
    simp only [searchArgs, Option.some.injEq, Prod.mk.injEq] at h
    obtain ⟨rfl, rfl⟩ := h
    simpa using h'
  | a :: as, bs, ps, ks, ps', ks', h, h' => by
    simp only [searchArgs] at h
    split at h
    · simp at h
    · rename_i y ha
      split at h
      · simp at h
      · rename_i ps2 ks2 hs
        have := searchArgs_append hs h'
        simp only [List.cons_append, searchArgs, ha, this]
        cases y <;> simp at h <;> obtain ⟨rfl, rfl⟩ := h <;> rfl

theorem argVals_append : ∀ {as bs : List RE} {vs ws}, argVals as = some vs → argVals bs = some ws →
    argVals (as ++ bs) = some (vs ++ ws)
  | [], bs, vs, ws, h, h' => by
    simp only [argVals, Option.some.injEq] at h
    subst h; simpa using h'
  | a :: as, bs, vs, ws, h, h' => by
    simp only [argVals] at h
    split at h
    · rename_i v vs2 hv hs
      simp only [Option.some.injEq] at h
      subst h
      simp only [List.cons_append, argVals, hv, argVals_append hs h']
    · simp at h

theorem kwVals_append : ∀ {as bs : List (Str × RE)} {vs ws}, kwVals as = some vs → kwVals bs = some ws →
    kwVals (as ++ bs) = some (vs ++ ws)
  | [], bs, vs, ws, h, h' => by
    simp only [kwVals, Option.some.injEq] at h
    subst h; simpa using h'
  | (k, a) :: as, bs, vs, ws, h, h' => by
    simp only [kwVals] at h
    split at h
    · rename_i v vs2 hv hs
      simp only [Option.some.injEq] at h
      subst h
      simp only [List.cons_append, kwVals, hv, kwVals_append hs h']
    · simp at h

theorem posConds_append : ∀ {as bs : List PV} {vs ws}, posConds as = some vs → posConds bs = some ws →
    posConds (as ++ bs) = some (vs ++ ws)
  | [], bs, vs, ws, h, h' => by
    simp only [posConds, Option.some.injEq] at h
    subst h; simpa using h'
  | a :: as, bs, vs, ws, h, h' => by
    simp only [posConds] at h
    split at h
    · rename_i v vs2 hv hs
      simp only [Option.some.injEq] at h
      subst h
      simp only [List.cons_append, posConds, hv, posConds_append hs h']
    · simp at h

theorem kwConds_append : ∀ {as bs : List (Str × PV)} {vs ws}, kwConds as = some vs → kwConds bs = some ws →
    kwConds (as ++ bs) = some (vs ++ ws)
  | [], bs, vs, ws, h, h' => by
    simp only [kwConds, Option.some.injEq] at h
    subst h; simpa using h'
  | (k, a) :: as, bs, vs, ws, h, h' => by
    simp only [kwConds] at h
    split at h
    · rename_i v vs2 hv hs
      simp only [Option.some.injEq] at h
      subst h
      simp only [List.cons_append, kwConds, hv, kwConds_append hs h']
    · simp at h

theorem Parts.append {m as bs pv kv ps ks pv' kv' ps' ks'} (h : Parts m as pv kv ps ks) (h' : Parts m bs pv' kv' ps' ks') :
    Parts m (as ++ bs) (pv ++ pv') (kv ++ kv') (ps ++ ps') (ks ++ ks') := by
  obtain ⟨a, k, h1, h2, h3⟩ := h.args
  obtain ⟨a', k', h1', h2', h3'⟩ := h'.args
  refine ⟨⟨_, _, searchArgs_append h1 h1', argVals_append h2 h2', kwVals_append h3 h3'⟩, posConds_append h.pos h'.pos, ?_⟩
  rw [others, List.filter_append]
  exact kwConds_append h.kw h'.kw

theorem parts_pos {m e q} (h : searchArg m e = some (.pos q)) (hq : Native q) : Parts m [e] [.val (.col q)] [] [q] [] := by
  refine ⟨⟨[.expr q], [], ?_, ?_, rfl⟩, rfl, rfl⟩
  · simp only [searchArgs, h]
  · simp only [argVals, reVal, hq.1, Option.map_some]

theorem reserved_params {f : Str} (h : f ∈ searchParams) : f ∈ reservedFields := by
  revert f; decide

theorem reserved_keyword {f : Str} (h : f ∉ reservedFields) : searchKeyword f = none := by
  unfold searchKeyword
  simp only [reservedFields, List.mem_cons, List.not_mem_nil, or_false, not_or] at h
  simp [h]

theorem parts_kw {m f r p} (hf : f ∉ reservedFields) (ho : op = c!"=" ∨ op = c!"==") (hr : exprTr m r = some p) (hn : Native p) :
    Parts m [.binary (.const (.field f)) op r] [] [(f, .val (.col p))] [] [.bin c!"==" (.named f) p] := by
  have hs : searchArg m (.binary (.const (.field f)) op r) = some (.kw f p) := by
    have : (op = c!"=" || op = c!"==") = true := by rcases ho with rfl | rfl <;> rfl
    simp only [searchArg, reserved_keyword hf, this, if_true, hr, Option.map_some]
  refine ⟨⟨[], [(f, .expr p)], ?_, rfl, ?_⟩, rfl, ?_⟩
  · simp only [searchArgs, hs]
  · simp only [kwVals, reVal, hn.1, Option.map_some]
  · rw [others_of (fun v hv hp => ?_)]
    · rfl
    · simp only [List.mem_singleton] at hv
      subst hv
      exact hf (reserved_params hp)

theorem testedFields_and {l r} : testedFields (.binary l c!"AND" r) = testedFields l ++ testedFields r := by
  simp only [testedFields, if_true]

theorem breakAnds_and {l r} : breakAnds (.binary l c!"AND" r) = breakAnds l ++ breakAnds r := by
  simp only [breakAnds, if_true]

theorem filter_parts {m e} (h : Filter e) : ∃ q pv kv ps ks, (∀ m, exprTr m e = some q) ∧ Fixed q ∧
    Parts m (breakAnds e) pv kv ps ks ∧ kv.map (·.1) = testedFields e ∧ (∀ v ∈ kv, v.1 ∉ reservedFields) ∧ Conj q (ps ++ ks) := by
  have single : ∀ {e}, Filter e → breakAnds e = [e] → testedFields e = [] → (∀ q, exprTr m e = some q → searchArg m e = some (.pos q)) →
      ∃ q pv kv ps ks, (∀ m, exprTr m e = some q) ∧ Fixed q ∧
    Parts m (breakAnds e) pv kv ps ks ∧ kv.map (·.1) = testedFields e ∧ (∀ v ∈ kv, v.1 ∉ reservedFields) ∧ Conj q (ps ++ ks) := by
    intro e h hb ht ha
    obtain ⟨q, hq, hf⟩ := filter_fixed h
    refine ⟨q, [.val (.col q)], [], [q], [], hq, hf, ?_, ht.symm, by simp, Conj.one q⟩
    rw [hb]
    exact parts_pos (ha q (hq m)) hf.1
  induction h with
  | @cmp f op k hf ho hk =>
    obtain ⟨p, hp, hn, hw, hi⟩ := filter_const hk
    obtain ⟨o1, o2, o3, o4⟩ := cmp_ops ho
    have hb : breakAnds (.binary (.const (.field f)) op (.const k)) = [.binary (.const (.field f)) op (.const k)] := by
      simp only [breakAnds, o3, if_false]
    by_cases he : op = c!"=" ∨ op = c!"=="
    · have hm := o4 he
      obtain ⟨q, hq, hfx⟩ := filter_fixed (.cmp hf ho hk)
      have hq' := cmp_tr (f := f) (op := op) hp hn hw hi
      rw [hm] at hq'
      refine ⟨_, [], [(f, .val (.col p))], [], [.bin c!"==" (.named f) p], hq', ?_, ?_, ?_, ?_, Conj.one _⟩
      · have : q = .bin c!"==" (.named f) p := by
          have := (hq m).symm.trans (hq' m)
          simpa using this
        rwa [← this]
      · rw [hb]
        exact parts_kw hf he (by simp only [exprTr, hp]) hn
      · simp only [testedFields, o3, if_false, he, if_true, List.map_cons, List.map_nil]
      · intro v hv
        simp only [List.mem_singleton] at hv
        subst hv
        exact hf
    · refine single (.cmp hf ho hk) hb ?_ ?_
      · simp only [testedFields, o3, if_false, he]
      · intro q hq
        have : (op = c!"=" || op = c!"==") = false := by simpa [not_or] using he
        simp only [searchArg, reserved_keyword hf, this, hq, Option.map_some]
        rfl
  | @unlike f p hf =>
    refine single (.unlike hf) rfl rfl fun q hq => ?_
    simp only [searchArg, reserved_keyword hf, hq, Option.map_some]
    rfl
  | inList h0 h =>
    refine single (.inList h0 h) rfl rfl fun q hq => ?_
    simp only [searchArg, hq, Option.map_some]
  | not he ih =>
    refine single (.not he) rfl rfl fun q hq => ?_
    simp only [searchArg, hq, Option.map_some]
  | or hl hr ihl ihr =>
    refine single (.or hl hr) rfl rfl fun q hq => ?_
    unfold searchArg
    split
    · rename_i heq
      simp only [Expr.binary.injEq] at heq
      exact absurd heq.1 (filter_const_ne hl _)
    · rw [hq]; rfl
  | @and l r hl hr ihl ihr =>
    obtain ⟨a, pv, kv, ps, ks, h1, h2, h3, h4, h5, h6⟩ := ihl
    obtain ⟨b, pv', kv', ps', ks', h1', h2', h3', h4', h5', h6'⟩ := ihr
    refine ⟨.bin c!"&" a b, pv ++ pv', kv ++ kv', ps ++ ps', ks ++ ks',
      fun m => join_tr (h1 m) (h1' m) (filter_const_ne hr) h2.1.2.1 h2'.1.2.1, fixed_join (.inl rfl) h2 h2', ?_, ?_, ?_, ?_⟩
    · rw [breakAnds_and]; exact h3.append h3'
    · rw [testedFields_and, List.map_append, h4, h4']
    · intro v hv
      rcases List.mem_append.1 hv with hv | hv
      · exact h5 v hv
      · exact h5' v hv
    · exact (h6.both h6').perm mid

theorem filter_noIndex {e} (h : Filter e) : isIndex e = false := by cases h <;> rfl

theorem filter_split {e} (h : Filter e) : ∀ b, splitConditions b e = some (some e, []) := by
  induction h with
  | @cmp f op k hf ho hk =>
    intro b
    have h1 : isIndex (.const (.field f)) = false := by
      simp only [isIndex, decide_eq_false_iff_not]
      rintro rfl
      exact hf (by decide)
    have h2 : isIndex (.const k) = false := by
      cases k <;> try rfl
      simpa [isIndex, filterK] using hk
    simp only [splitConditions, h1, h2, Bool.false_and, Bool.not_false, Bool.and_false, Bool.false_eq_true, if_false, Bool.or_self,
      recombine, Option.map_some, List.append_nil]
  | @unlike f p hf =>
    intro b
    have h1 : isIndex (.const (.field f)) = false := by
      simp only [isIndex, decide_eq_false_iff_not]
      rintro rfl
      exact hf (by decide)
    have h2 : isIndex (.const (.wildcard p)) = false := rfl
    simp only [splitConditions, h1, h2, Bool.false_and, Bool.not_false, Bool.and_false, Bool.false_eq_true, if_false, Bool.or_self,
      recombine, Option.map_some, List.append_nil]
  | inList | not => intro b; rfl
  | or hl hr ihl ihr | and hl hr ihl ihr =>
    intro b
    simp only [splitConditions, filter_noIndex hl, filter_noIndex hr, Bool.false_and, Bool.not_false, Bool.and_false, Bool.false_eq_true, if_false, Bool.or_self,
      ihl, ihr, recombine, Option.map_some, List.append_nil]

theorem cmdSearch_some {W d pv kv ps ks m es} (h : Parts m es pv kv ps ks) (hk : c!"df" ∉ kv.map (·.1)) :
    cmdSearch W (some d) pv kv = some (.where_ d (allOf (ps ++ ks))) := by
  simp only [cmdSearch, kwGet_none hk, Option.isNone_none, if_true, searchSource, h.pos, h.kw]

theorem search_runtime {x m e s pv kv ps ks} (hm : m ≠ .disallow) (h : Parts m (breakAnds e) pv kv ps ks) :
    ∃ as kw, transform ⟨m, x⟩ (.search e) s = some (s.putRuntime c!"search" as kw) ∧ argVals as = some pv ∧ kwVals kw = some kv := by
  obtain ⟨as, kw, h1, h2, h3⟩ := h.args
  refine ⟨as, kw, ?_, h2, h3⟩
  cases m with
  | disallow => exact absurd rfl hm
  | allow => simp only [transform, dispatch, searchRuntime, h1, Option.map_some, orElse]
  | require => simp only [transform, dispatch, searchRuntime, h1, Option.map_some]

theorem command_search {W src as kw pv kv} (h2 : argVals as = some pv) (h3 : kwVals kw = some kv)
    (hd : (kv.map (·.1)).Nodup) (hk : ∀ n ∈ kv.map (·.1), Keyword n) : command W src c!"search" as kw = cmdSearch W src pv kv := by
  simp only [command, h2, h3, distinct_of hd hk, if_true]
  rw [if_neg (by decide)]

theorem search_runs (hR : Closed N R) {W x e} {s s' : St} {m : Mode} (hm : m ≠ .disallow) (hx : Arranges x) (hr : Runs R W s s') (hs : s.df ≠ none)
    (h : Filter e) (hd : (testedFields e).Nodup) (hk : ∀ f ∈ testedFields e, Keyword f) :
    ∃ t t', transform ⟨m, x⟩ (.search e) s = some t ∧ transform ⟨.disallow, x⟩ (.search e) s' = some t' ∧ Runs R W t t' := by
  rcases hr with ⟨e1, _⟩ | ⟨d, e', d', e1, e2, e3, e4⟩
  · exact absurd e1 hs
  · obtain ⟨q, pv, kv, ps, ks, h1, h2, h3, h4, h5, h6⟩ := filter_parts (m := m) h
    obtain ⟨as, kw, k1, k2, k3⟩ := search_runtime (x := x) (s := s) hm h3
    have ho : x.order [] = [] := List.perm_nil.1 (hx [])
    refine ⟨_, s'.put (.where_ d' q), k1, ?_, .inr ⟨_, .where_ e' (allOf (ps ++ ks)), _, rfl, ?_, rfl, hR.conj e4 h6⟩⟩
    · simp only [transform, dispatch, searchStandalone, filter_split h, dedupStr, ho, unionSources, Option.getD_none, h1, Option.map_some,
        DF.mkWhere, h2.into, h2.1.2.1, St.cur, e3, Option.getD_some]
    · simp only [e1, runDF, e2]
      rw [command_search k2 k3 (h4 ▸ hd) (h4 ▸ hk)]
      refine cmdSearch_some h3 fun hdf => ?_
      obtain ⟨v, hv, he⟩ := List.mem_map.1 hdf
      exact h5 v hv (he ▸ (by decide))

/-! ### a search of an index -/

theorem indexed_const_ne {x e} (h : Indexed x e) : (∀ k, e ≠ .const k) ∧ isIndex e = false := by
  cases h <;> exact ⟨by simp, rfl⟩

/-- the rest of a split condition -/
def Rest (c : Option Expr) (cs : List PE) : Prop :=
  match c with
  | none => cs = []
  | some e => (∀ k, e ≠ .const k) ∧ ∃ q, exprTr .disallow e = some q ∧ Fixed q ∧ Conj q cs

theorem Rest.and {l r as bs} (hl : Rest l as) (hr : Rest r bs) : ∃ c, recombine l c!"AND" r = some c ∧
    (∃ cs, Rest c cs ∧ cs = as ++ bs) := by
  cases l with
  | none =>
    simp only [Rest] at hl
    subst hl
    cases r with
    | none => exact ⟨_, rfl, _, rfl, by simpa [Rest] using hr⟩
    | some r => exact ⟨some r, rfl, bs, hr, rfl⟩
  | some l =>
    cases r with
    | none =>
      simp only [Rest] at hr
      subst hr
      exact ⟨some l, rfl, as, hl, by simp⟩
    | some r =>
      obtain ⟨_, a, ha, fa, ca⟩ := hl
      obtain ⟨nr, b, hb, fb, cb⟩ := hr
      refine ⟨_, rfl, as ++ bs, ⟨by simp, .bin c!"&" a b, join_tr ha hb nr fa.1.2.1 fb.1.2.1, fixed_join (.inl rfl) fa fb, ca.both cb⟩, rfl⟩

theorem Rest.perm {c as bs} (h : Rest c as) (hp : as.Perm bs) : Rest c bs := by
  cases c with
  | none => simp only [Rest] at h ⊢; subst h; exact List.perm_nil.1 hp.symm
  | some e =>
    obtain ⟨h1, q, h2, h3, h4⟩ := h
    exact ⟨h1, q, h2, h3, h4.perm hp⟩

theorem indexed_parts {m x e} (h : Indexed x e) : ∃ c pv kv ps ks, splitConditions true e = some (c, [x]) ∧
    Parts m (breakAnds e) pv kv ps ks ∧ kv.map (·.1) = testedFields e ∧ c!"df" ∉ kv.map (·.1) ∧
    (kv.filter fun p => searchParams.contains p.1) = [(c!"index", .val (.lit (c!"\"" ++ x ++ c!"\"")))] ∧ Rest c (ps ++ ks) := by
  have off : ∀ {kv : List (Str × PV)}, (∀ v ∈ kv, v.1 ∉ reservedFields) → (kv.filter fun p => searchParams.contains p.1) = [] := by
    intro kv h
    rw [List.filter_eq_nil_iff]
    intro v hv hc
    simp only [List.contains_eq_mem, decide_eq_true_eq] at hc
    exact h v hv (reserved_params hc)
  have nodf : ∀ {kv : List (Str × PV)}, (∀ v ∈ kv, v.1 ∉ reservedFields) → c!"df" ∉ kv.map (·.1) := by
    intro kv h hdf
    obtain ⟨v, hv, he⟩ := List.mem_map.1 hdf
    exact h v hv (he ▸ (by decide))
  induction h with
  | @index v hv hx =>
    have hi : isIndex v = false := by
      rcases hv with rfl | rfl
      · simpa [isIndex] using hx
      · rfl
    have hs : v.asString = some x := by rcases hv with rfl | rfl <;> rfl
    have ha : searchArg m (.binary (.const (.field c!"index")) c!"=" v) = some (.kw c!"index" (pyStr x)) := by
      rcases hv with rfl | rfl <;> rfl
    refine ⟨none, [], [(c!"index", .val (.lit (c!"\"" ++ x ++ c!"\"")))], [], [], ?_, ⟨⟨[], [(c!"index", .expr (pyStr x))], ?_, rfl, rfl⟩, rfl, rfl⟩,
      rfl, by simp, rfl, rfl⟩
    · have : isIndex (.const (.field c!"index")) = true := rfl
      simp only [splitConditions, this, hi, Bool.not_false, Bool.and_self, decide_true, if_true, hs, Option.map_some]
    · rw [show breakAnds (.binary (.const (.field c!"index")) c!"=" v) = [.binary (.const (.field c!"index")) c!"=" v] from rfl]
      simp only [searchArgs, ha]
  | @left l r hl hr ih =>
    obtain ⟨c, pv, kv, ps, ks, h1, h2, h3, h4, h5, h6⟩ := ih
    obtain ⟨q, pv', kv', ps', ks', g1, g2, g3, g4, g5, g6⟩ := filter_parts (m := m) hr
    obtain ⟨c', k1, cs, k2, k3⟩ := h6.and (r := some r) ⟨filter_const_ne hr, q, g1 _, g2, g6⟩
    refine ⟨c', pv ++ pv', kv ++ kv', ps ++ ps', ks ++ ks', ?_, ?_, ?_, ?_, ?_, ?_⟩
    · simp only [splitConditions, (indexed_const_ne hl).2, filter_noIndex hr, Bool.false_and, Bool.not_false, Bool.and_false,
        Bool.false_eq_true, if_false, Bool.or_self, Bool.and_self, decide_true, h1, filter_split hr, k1, Option.map_some, List.append_nil]
    · rw [breakAnds_and]; exact h2.append g3
    · rw [testedFields_and, List.map_append, h3, g4]
    · rw [List.map_append, List.mem_append]; exact not_or.2 ⟨h4, nodf g5⟩
    · rw [List.filter_append, h5, off g5, List.append_nil]
    · exact (k3 ▸ k2).perm mid
  | @right l r hl hr ih =>
    obtain ⟨c, pv', kv', ps', ks', h1, h2, h3, h4, h5, h6⟩ := ih
    obtain ⟨q, pv, kv, ps, ks, g1, g2, g3, g4, g5, g6⟩ := filter_parts (m := m) hl
    have hrl : Rest (some l) (ps ++ ks) := ⟨filter_const_ne hl, q, g1 _, g2, g6⟩
    obtain ⟨c', k1, cs, k2, k3⟩ := hrl.and h6
    refine ⟨c', pv ++ pv', kv ++ kv', ps ++ ps', ks ++ ks', ?_, ?_, ?_, ?_, ?_, ?_⟩
    · simp only [splitConditions, (indexed_const_ne hr).2, filter_noIndex hl, Bool.false_and, Bool.not_false, Bool.and_false,
        Bool.false_eq_true, if_false, Bool.or_self, Bool.and_self, decide_true, h1, filter_split hl, k1, Option.map_some, List.nil_append]
    · rw [breakAnds_and]; exact g3.append h2
    · rw [testedFields_and, List.map_append, h3, g4]
    · rw [List.map_append, List.mem_append]; exact not_or.2 ⟨nodf g5, h4⟩
    · rw [List.filter_append, h5, off g5, List.nil_append]
    · exact (k3 ▸ k2).perm mid

/-- a first search of an index -/
theorem index_runs (hR : Closed N R) {W x e i n n'} {m : Mode} (hm : m ≠ .disallow) (hx : Arranges x)
    (hW : W.lookup [(c!"index", .lit (c!"\"" ++ i ++ c!"\""))] = some (.source i)) (h : Indexed i e) (hd : (testedFields e).Nodup)
    (hk : ∀ f ∈ testedFields e, Keyword f) :
    ∃ t t', transform ⟨m, x⟩ (.search e) ⟨n, none⟩ = some t ∧ transform ⟨.disallow, x⟩ (.search e) ⟨n', none⟩ = some t' ∧
      Runs R W t t' ∧ t.df ≠ none := by
  obtain ⟨c, pv, kv, ps, ks, h1, h2, h3, h4, h5, h6⟩ := indexed_parts (m := m) h
  obtain ⟨as, kw, k1, k2, k3⟩ := search_runtime (x := x) (s := ⟨n, none⟩) hm h2
  have ho : x.order [i] = [i] := List.perm_singleton.1 (hx [i])
  have hrun : runDF W (.runtimeRoot (dfName n) c!"search" as kw) = some (.where_ (.source i) (allOf (ps ++ ks))) := by
    rw [runDF, command_search k2 k3 (h3 ▸ hd) (h3 ▸ hk)]
    simp only [cmdSearch, kwGet_none h4, Option.isNone_none, if_true, searchSource, h5, given, Option.map_some, hW, h2.pos, h2.kw]
  cases c with
  | none =>
    refine ⟨_, ⟨n', some (.source i)⟩, k1, ?_, .inr ⟨_, _, _, rfl, hrun, rfl, ?_⟩, by simp [St.putRuntime]⟩
    · simp only [transform, dispatch, searchStandalone, h1, dedupStr, List.filter_nil, ho, unionSources, List.foldl_nil, Option.getD_some]
      rfl
    · simp only [Rest] at h6
      rw [h6]
      exact hR.empty (hR.source _)
  | some e' =>
    obtain ⟨_, q, hq, fq, cq⟩ := h6
    refine ⟨_, ⟨n', some (.where_ (.source i) q)⟩, k1, ?_, .inr ⟨_, _, _, rfl, hrun, rfl, ?_⟩, by simp [St.putRuntime]⟩
    · simp only [transform, dispatch, searchStandalone, h1, dedupStr, List.filter_nil, ho, unionSources, List.foldl_nil, Option.getD_some,
        hq, Option.map_some, DF.mkWhere, fq.into, fq.1.2.1]
      rfl
    · exact hR.conj (hR.source _) cq

/-! ### pipelines -/

theorem strip_none : ∀ {p f : Str}, p.contains '.' = true → f.contains '.' = false → stripPrefix? p f = none
  | [], _, h, _ => by cases h
  | _ :: _, [], _, _ => rfl
  | t :: ts, c :: cs, h, hf => by
    rw [stripPrefix?]
    split
    · rename_i e
      subst e
      simp only [List.contains_cons, Bool.or_eq_false_iff, Bool.or_eq_true] at h hf
      rcases h with h | h
      · rw [hf.1] at h; cases h
      · exact strip_none h hf.2
    · rfl

/-- columns added to both frames -/
theorem added {W : World} (hR : Closed N R) {d : DF} {e e' : DF} {n : Str} {c : PE} (he : runDF W d = some e) (ha : R e e') (hc : Native c) :
    runDF W (d.mkWithColumn n c) = some (.withColumn e c n) ∧ R (.withColumn e c n) (e'.mkWithColumn n c) := by
  simp only [DF.mkWithColumn, hc.2.1]
  refine ⟨?_, hR.withColumn ha⟩
  simp only [runDF, he, colArg, hc.1, Option.bind_some, RV.column]

theorem operands_py_col : ∀ {ps : List PE}, (∀ p ∈ ps, Native p ∨ ∃ c, p = .py c) → (evalRts ps).bind operands = some ps
  | [], _ => rfl
  | p :: ps, h => by
    have ih := operands_py_col fun q hq => h q (List.mem_cons_of_mem _ hq)
    rw [Option.bind_eq_some_iff] at ih
    obtain ⟨vs, h1, h2⟩ := ih
    rcases h p List.mem_cons_self with hp | ⟨c, rfl⟩
    · simp only [evalRts, hp.1, h1, Option.bind_some, operands, RV.operand, h2]
    · simp only [evalRts, evalRt, h1, Option.bind_some, operands, RV.operand, h2]

theorem native_fn {f : Str} {ps : List PE} (hf : f.contains '.' = false) (h : ∀ p ∈ ps, Native p ∨ ∃ c, p = .py c) : Native (.fn f ps) := by
  refine ⟨?_, rfl, rfl⟩
  have ih := operands_py_col h
  rw [Option.bind_eq_some_iff] at ih
  obtain ⟨vs, h1, h2⟩ := ih
  simp only [evalRt, h1, rtFn]
  rw [strip_none (by decide) hf, strip_none (by decide) hf]
  simp only [hf, h2, Option.map_some]
  rfl

theorem native_method {c : PE} {f : Str} {ps : List PE} (hc : Native c) (h : ∀ p ∈ ps, Native p ∨ ∃ c, p = .py c) : Native (PE.mkMethod c f ps) := by
  refine ⟨?_, rfl, rfl⟩
  have ih := operands_py_col h
  rw [Option.bind_eq_some_iff] at ih
  obtain ⟨vs, h1, h2⟩ := ih
  simp only [PE.mkMethod, hc.2.1, evalRt, hc.1, h1, rtMethod, h2, Option.map_some]

theorem native_mkBin {op l r} (ho : colOps.contains op = true) (hl : Native l) (hr : Native r) : Native (PE.mkBin l op r) := by
  rw [PE.mkBin, hl.2.1, hr.2.1]
  exact native_bin ho hl hr

theorem native_total (n : Str) : Native (addTotalsCol n) := by
  refine native_method (native_fn (by decide) ?_) ?_
  · simp only [List.mem_cons, List.not_mem_nil, or_false]
    rintro p (rfl | rfl)
    · refine .inl (native_method (native_method (native_named _) ?_) (by simp))
      simp [pyStr]
    · exact .inl (native_named _)
  · simp only [List.mem_cons, List.not_mem_nil, or_false]
    rintro p rfl
    exact .inl (native_lit ⟨'.', by decide, by decide⟩)

theorem native_totals (ns : List Str) : Native ((joinAsBinaries c!"+" (ns.map addTotalsCol)).getD (.lit c!"0.0")) := by
  cases ns with
  | nil => exact native_lit ⟨'.', by decide, by decide⟩
  | cons n ns =>
    simp only [List.map_cons, joinAsBinaries, Option.getD_some]
    refine native_join (by decide) (native_total n) fun p hp => ?_
    obtain ⟨m, _, rfl⟩ := List.mem_map.1 hp
    exact native_total m

theorem native_extract (c r : PE) (hc : Native c) (hr : ∃ t, r = .py t) (n : Int) : Native (.fn c!"regexp_extract" [c, r, pyInt n]) := by
  obtain ⟨t, rfl⟩ := hr
  refine native_fn (by decide) ?_
  simp only [List.mem_cons, List.not_mem_nil, or_false]
  rintro p (rfl | rfl | rfl)
  · exact .inl hc
  · exact .inr ⟨_, rfl⟩
  · exact .inr ⟨_, rfl⟩

theorem native_double_cast {c : PE} (hc : Native c) : Native (PE.mkMethod c c!"cast" [pyStr c!"double"]) :=
  native_method hc (by simp [pyStr])

theorem native_memk {c : PE} (hc : Native c) : Native (memkFn c) := by
  have hu : ∀ u : Str, (∃ x ∈ u, x ∉ c!"truefals") → Native (PE.mkBin
      (PE.fn c!"upper" [.fn c!"regexp_extract" [c, pyStr c!"(?i)^(\\d*\\.?\\d+)([kmg])$", pyInt 2]]) c!"==" (.lit u)) := by
    intro u h
    refine native_mkBin (by decide) (native_fn (by decide) ?_) (native_lit h)
    simp only [List.mem_cons, List.not_mem_nil, or_false]
    rintro p rfl
    exact .inl (native_extract _ _ hc ⟨_, rfl⟩ _)
  have two : ∀ {a b : PE}, Native a → Native b → ∀ p ∈ [a, b], Native p ∨ ∃ c, p = .py c := by
    intro a b ha hb p hp
    simp only [List.mem_cons, List.not_mem_nil, or_false] at hp
    rcases hp with rfl | rfl
    · exact .inl ha
    · exact .inl hb
  refine native_mkBin (by decide) (native_double_cast (native_extract _ _ hc ⟨_, rfl⟩ _)) ?_
  refine native_method (native_method (native_method (native_fn (by decide) ?_) ?_) ?_) ?_
  · exact two (hu _ ⟨'"', by decide, by decide⟩) (native_lit ⟨'.', by decide, by decide⟩)
  · exact two (hu _ ⟨'"', by decide, by decide⟩) (native_lit ⟨'.', by decide, by decide⟩)
  · exact two (hu _ ⟨'"', by decide, by decide⟩) (native_lit ⟨'.', by decide, by decide⟩)
  · simp only [List.mem_cons, List.not_mem_nil, or_false]
    rintro p rfl
    exact .inl (native_lit ⟨'.', by decide, by decide⟩)

theorem native_rmcomma {c : PE} (hc : Native c) : Native (rmcommaFn c) := by
  refine native_double_cast (native_fn (by decide) ?_)
  simp only [List.mem_cons, List.not_mem_nil, or_false]
  rintro p (rfl | rfl | rfl)
  · exact .inl hc
  · exact .inr ⟨_, rfl⟩
  · exact .inr ⟨_, rfl⟩

theorem native_rmunit {c : PE} (hc : Native c) : Native (rmunitFn c) :=
  native_double_cast (native_extract _ _ hc ⟨_, rfl⟩ _)

theorem native_convert {t : Str} {k : FieldConversion} (h : k.func = c!"memk" ∨ k.func = c!"rmunit" ∨ k.func = c!"rmcomma" ∨
    k.func = c!"ctime" ∧ t = c!"%m/%d/%Y %H:%M:%S") : ∃ p, convertFn t k = some p ∧ Native p := by
  rcases h with h | h | h | ⟨h, rfl⟩
  · exact ⟨_, by simp only [convertFn, h]; rfl, native_memk (native_named _)⟩
  · exact ⟨_, by simp only [convertFn, h]; rfl, native_rmunit (native_named _)⟩
  · exact ⟨_, by simp only [convertFn, h]; rfl, native_rmcomma (native_named _)⟩
  · refine ⟨.fn c!"date_format" [.named k.field, pyStr c!"MM/dd/yyyy HH:mm:ss"], ?_, ?_⟩
    · have : convertTimeFormat c!"%m/%d/%Y %H:%M:%S" = some c!"MM/dd/yyyy HH:mm:ss" := by decide +kernel
      simp only [convertFn, h, if_true, ctimeFn, this, Option.map_some]
    · refine native_fn (by decide) ?_
      simp only [List.mem_cons, List.not_mem_nil, or_false]
      rintro p (rfl | rfl)
      · exact .inl (native_named _)
      · exact .inr ⟨_, rfl⟩

theorem convert_added {W : World} (hR : Closed N R) {t : Str} : ∀ {ks : List FieldConversion} {d e e' : DF}, runDF W d = some e → R e e' →
    (∀ k ∈ ks, k.func = c!"memk" ∨ k.func = c!"rmunit" ∨ k.func = c!"rmcomma" ∨ k.func = c!"ctime" ∧ t = c!"%m/%d/%Y %H:%M:%S") →
    ∃ u v v', convertLoop t ks d = some u ∧ convertLoop t ks e' = some v' ∧ runDF W u = some v ∧ R v v'
  | [], d, e, e', he, ha, _ => ⟨_, _, _, rfl, rfl, he, ha⟩
  | k :: ks, d, e, e', he, ha, h => by
    obtain ⟨p, hp, hn⟩ := native_convert (h k List.mem_cons_self)
    obtain ⟨h1, h2⟩ := added hR (n := k.alias.getD k.field) he ha hn
    simp only [convertLoop, hp]
    exact convert_added hR h1 h2 fun k hk => h k (List.mem_cons_of_mem _ hk)

theorem rex_added {W : World} (hR : Closed N R) {c : Rex} : ∀ {gs : List (Nat × Option Str)} {d e e' : DF}, runDF W d = some e → R e e' →
    ∃ v, runDF W (gs.foldl (rexCol c) d) = some v ∧ R v (gs.foldl (rexCol c) e')
  | [], d, e, e', he, ha => ⟨_, he, ha⟩
  | g :: gs, d, e, e', he, ha => by
    obtain ⟨h1, h2⟩ := added hR (n := g.2.getD (showNat g.1)) he ha (native_extract (.named c.field) (pyRaw c.regex) (native_named _) ⟨_, rfl⟩ g.1)
    exact rex_added hR (gs := gs) (d := rexCol c d g) (e' := rexCol c e' g) h1 h2

theorem cmd_runs (hR : Closed N R) {W x c b} {s s' : St} (hx : Arranges x) (hr : Runs R W s s') (hs : b = false → s.df ≠ none) (h : SharedCmd (Readable x) b c)
    (hb : ByOk N c) :
    ∃ t t', transform ⟨.allow, x⟩ c s = some t ∧ transform ⟨.disallow, x⟩ c s' = some t' ∧ Runs R W t t' ∧ t.df ≠ none := by
  have ne : ∀ {s : St} {f as kw}, (s.putRuntime f as kw).df ≠ none := by simp [St.putRuntime]
  obtain ⟨e, he, ha⟩ := hr.cur hR
  cases h with
  | @search e h hd hk =>
    obtain ⟨t, t', h1, h2, h3⟩ := search_runs hR (x := x) (m := .allow) (by decide) hx hr (hs rfl) h hd hk
    refine ⟨t, t', h1, h2, h3, ?_⟩
    obtain ⟨q, pv, kv, ps, ks, _, _, k3, _⟩ := filter_parts (m := .allow) h
    obtain ⟨as, kw, k1, _⟩ := search_runtime (x := x) (s := s) (m := .allow) (by decide) k3
    rw [h1, Option.some.injEq] at k1
    exact k1 ▸ ne
  | @where_ _ e h hc =>
    obtain ⟨p, q, hs⟩ := shared_same h
    rw [hc] at hs
    refine put_runs (d := s.cur.mkWhere p) (d' := s'.cur.mkWhere q) (e := .where_ _ q.unalias) ?_ ?_ ?_ (hR.where_ ha)
    · simp only [transform, whereTr, hs.all, Option.map_some]
    · simp only [transform, whereTr, hs.dis, Option.map_some]
    · simp only [DF.mkWhere, runDF, he, colArg, hs.val, shape, if_true, Option.bind_some, RV.column]
  | @eval fs h hd hn hk =>
    obtain ⟨t, t', h1, h2, h3⟩ := eval_runs hR (x := x) (m := .allow) (by decide) hr (hs rfl) h hd hn hk
    refine ⟨t, t', h1, h2, h3, ?_⟩
    obtain ⟨ks, vs, k1, _⟩ := evalKw (m := .allow) (by decide) h
    simp only [transform, dispatch, evalRuntime, k1, Option.map_some, orElse, Option.some.injEq] at h1
    exact h1 ▸ ne
  | @stats o fs ls bys dd h0 h hd k1 k2 hk =>
    obtain ⟨t, t', h1, h2, h3⟩ := stats_runs hR (x := x) (o := o) (bys := bys) (dd := dd) (m := .allow) (by decide) hr (hs rfl) h0 h hd k1 k2 hk hb
    refine ⟨t, t', h1, h2, h3, ?_⟩
    obtain ⟨ks, vs, cs, g, k1, _⟩ := stats_of hR (m := .allow) (by decide) h
    simp only [transform, dispatch, statsRuntime, k1, Option.map_some, orElse, Option.some.injEq] at h1
    exact h1 ▸ ne
  | @fields _ rm fs =>
    refine put_runs (d := .select s.cur (fs.map .named)) (d' := .select s'.cur (fs.map .named)) rfl rfl ?_ (hR.select ha)
    simp only [runDF, he, colArgs_named]
  | @table _ fs =>
    refine put_runs (d := .select s.cur (fs.map .named)) (d' := .select s'.cur (fs.map .named)) rfl rfl ?_ (hR.select ha)
    simp only [runDF, he, colArgs_named]
  | @rename _ as =>
    exact put_runs (c := .rename as) rfl rfl (rename_run he) (rename_alike hR ha)
  | @tail _ n =>
    refine put_runs (d := .tail s.cur n) (d' := .tail s'.cur n) (e := .tail e n) rfl rfl ?_ (hR.tail ha)
    simp only [runDF, he, Option.map_some]
  | @head _ n kl nl =>
    refine put_runs (d := .limit s.cur (toU64 n)) (d' := .limit s'.cur (toU64 n)) (e := .limit e (toU64 n)) rfl rfl ?_ (hR.limit ha)
    simp only [runDF, he, Option.map_some]
  | @sort _ ks n dd h =>
    obtain ⟨cs, h1, h2⟩ := sort_keys (dd := dd) h
    by_cases hn : n ≠ 0
    · refine put_runs (d := .limit (.orderBy s.cur cs) (toU64 n)) (d' := .limit (.orderBy s'.cur cs) (toU64 n))
        (e := .limit (.orderBy e cs) (toU64 n)) ?_ ?_ ?_ (hR.limit (hR.orderBy ha))
      · simp only [transform, sortTr, h1, Option.map_some, if_pos hn]
      · simp only [transform, sortTr, h1, Option.map_some, if_pos hn]
      · simp only [runDF, he, h2, Option.map_some]
    · refine put_runs (d := .orderBy s.cur cs) (d' := .orderBy s'.cur cs) (e := .orderBy e cs) ?_ ?_ ?_ (hR.orderBy ha)
      · simp only [transform, sortTr, h1, Option.map_some, if_neg hn]
      · simp only [transform, sortTr, h1, Option.map_some, if_neg hn]
      · simp only [runDF, he, h2]
  | @spath _ p i o =>
    refine put_runs (c := .spath p i o) rfl rfl (e := .withColumn e (.fn c!"get_json_object" [.named i, pyStr (c!"$." ++ p)]) (o.getD p)) ?_
      (hR.withColumn ha)
    simp only [DF.mkWithColumn, PE.unalias, runDF, he, colArg, evalRt, evalRts, pyStr]
    rfl
  | @addTotals _ a =>
    obtain ⟨h1, h2⟩ := added hR (n := a.fieldName) he ha (native_totals a.fields)
    exact put_runs (c := .addTotals a) rfl rfl h1 h2
  | @bin _ a =>
    have hw : ∀ t, Native (.fn c!"window" [.named c!"n", pyStr (spanText t)]) := fun t => by
      refine native_fn (by decide) ?_
      simp only [List.mem_cons, List.not_mem_nil, or_false]
      rintro p (rfl | rfl)
      · exact .inl (native_named _)
      · exact .inr ⟨_, rfl⟩
    cases hsp : a.span with
    | none =>
      obtain ⟨h1, h2⟩ := added hR (n := a.field.outName) he ha (native_named (a.field.outName ++ c!"." ++ c!"start"))
      refine put_runs (c := .bin a) ?_ ?_ h1 h2
      · simp only [transform, binCmdTr, hsp]
      · simp only [transform, binCmdTr, hsp]
    | some t =>
      obtain ⟨h1, h2⟩ := added hR (n := a.field.outName) he ha (hw t)
      obtain ⟨h1, h2⟩ := added hR (n := a.field.outName) h1 h2 (native_named (a.field.outName ++ c!"." ++ c!"start"))
      refine put_runs (c := .bin a) ?_ ?_ h1 h2
      · simp only [transform, binCmdTr, hsp]
      · simp only [transform, binCmdTr, hsp]
  | @convert _ t ks h =>
    obtain ⟨u, v, v', h1, h2, h3, h4⟩ := convert_added hR he ha h
    refine put_runs (c := .convert t ks) ?_ ?_ h3 h4
    · simp only [transform, convertTr, h1, Option.map_some]
    · simp only [transform, convertTr, h2, Option.map_some]
  | @makeResults _ a h =>
    have hnone : Native (.lit c!"None") := native_lit ⟨'N', by decide, by decide⟩
    have hsrv : Native (.lit (c!"\"" ++ a.server ++ c!"\"")) := native_lit ⟨'"', by simp, by decide⟩
    obtain ⟨h1, h2⟩ := added hR (W := W) (n := c!"_time") (d := .rawSource (c!"spark.range(0, " ++ showInt a.count ++ c!", 1)")) rfl (hR.rawSource _)
      (native_fn (f := c!"current_timestamp") (ps := []) (by decide) (by simp))
    cases han : a.annotate with
    | false =>
      refine put_runs (c := .makeResults a) ?_ ?_ h1 h2
      · simp only [transform, makeResultsTr, han]; rfl
      · simp only [transform, makeResultsTr, han]; rfl
    | true =>
      obtain ⟨h1, h2⟩ := added hR (n := c!"_raw") h1 h2 hnone
      obtain ⟨h1, h2⟩ := added hR (n := c!"host") h1 h2 hnone
      obtain ⟨h1, h2⟩ := added hR (n := c!"source") h1 h2 hnone
      obtain ⟨h1, h2⟩ := added hR (n := c!"sourcetype") h1 h2 hnone
      obtain ⟨h1, h2⟩ := added hR (n := c!"splunk_server") h1 h2 hsrv
      obtain ⟨h1, h2⟩ := added hR (n := c!"splunk_server_group") h1 h2 hnone
      refine put_runs (c := .makeResults a) ?_ ?_ h1 h2
      · simp only [transform, makeResultsTr, han, h han, if_true]
      · simp only [transform, makeResultsTr, han, h han, if_true]
  | @regex _ i r h =>
    have hf : ∀ f, Native (.fn c!"regexp_like" [.named f, pyRaw r]) := fun f => by
      refine native_fn (by decide) ?_
      simp only [List.mem_cons, List.not_mem_nil, or_false]
      rintro p (rfl | rfl)
      · exact .inl (native_named _)
      · exact .inr ⟨_, rfl⟩
    have hw : ∀ {p}, Native p → runDF W (s.cur.mkWhere p) = some (.where_ e p) ∧ R (.where_ e p) (s'.cur.mkWhere p) := fun {p} hp => by
      simp only [DF.mkWhere, hp.2.1]
      refine ⟨?_, hR.where_ ha⟩
      simp only [runDF, he, colArg, hp.1, Option.bind_some, RV.column]
    have hn : ∀ f, Native (PE.mkNot (.fn c!"regexp_like" [.named f, pyRaw r])) := fun f => by
      refine ⟨?_, rfl, rfl⟩
      have := (hf f).1
      simp only [PE.mkNot, PE.unalias, evalRt] at this ⊢
      rw [this]
    cases i with
    | none => exact put_runs (c := .regex none r) rfl rfl (hw (hf _)).1 (hw (hf _)).2
    | some p =>
      obtain ⟨f, o⟩ := p
      rcases h f o rfl with rfl | rfl
      · exact put_runs (c := .regex (some (f, c!"=")) r) rfl rfl (hw (hf _)).1 (hw (hf _)).2
      · exact put_runs (c := .regex (some (f, c!"!=")) r) rfl rfl (hw (hn _)).1 (hw (hn _)).2
  | @rex _ a k1 k2 h =>
    obtain ⟨ast, hp⟩ := Option.isSome_iff_exists.1 h
    obtain ⟨v, h1, h2⟩ := rex_added hR (c := a) (gs := groupsOf ast) he ha
    refine put_runs (c := .rex a) ?_ ?_ h1 h2
    · simp only [transform, rexTr, if_neg k1, k2, if_true, hp, Option.map_some]
    · simp only [transform, rexTr, if_neg k1, k2, if_true, hp, Option.map_some]

theorem cmds_run (hR : Closed N R) {W x} (hx : Arranges x) : ∀ {cs : List Command} {s s' : St}, Runs R W s s' → s.df ≠ none →
    (∀ c ∈ cs, SharedCmd (Readable x) false c) → (∀ c ∈ cs, ByOk N c) →
    ∃ t t', runCmds ⟨.allow, x⟩ cs s = some t ∧ runCmds ⟨.disallow, x⟩ cs s' = some t' ∧ Runs R W t t' ∧ t.df ≠ none
  | [], s, s', hr, hs, _, _ => ⟨s, s', rfl, rfl, hr, hs⟩
  | c :: cs, s, s', hr, hs, h, hb => by
    obtain ⟨t, t', h1, h2, h3, h4⟩ := cmd_runs hR hx hr (fun _ => hs) (h c List.mem_cons_self) (hb c List.mem_cons_self)
    obtain ⟨u, u', k1, k2, k3⟩ := cmds_run hR hx h3 h4 (fun c hc => h c (List.mem_cons_of_mem _ hc)) fun c hc => hb c (List.mem_cons_of_mem _ hc)
    exact ⟨u, u', by simp only [runCmds, h1, k1], by simp only [runCmds, h2, k2], k3⟩

end Verif.Lemmas.Library
