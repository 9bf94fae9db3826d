import Verif.Rt.Magic
import Verif.Lemmas.Python
/-
The value of a Python expression depends on the variables it has.
-/
namespace Verif.Lemmas
open Verif Spec

variable {V : Type}

mutual
theorem lamVars_sub : ∀ (e : PyE), ∀ n ∈ lamVars e, n ∈ vars e
  | .name _, n, h | .num _ _, n, h | .str _, n, h => by simp [lamVars] at h
  | .attr e _, n, h | .kwarg _ e, n, h | .inv e, n, h | .neg e, n, h => by
    rw [lamVars] at h; rw [vars]; exact lamVars_sub e n h
  | .call f as, n, h => by
    rw [lamVars, List.mem_append] at h
    rw [vars, List.mem_append]
    exact h.imp (lamVars_sub f n) (lamVarsL_sub as n)
  | .list es, n, h | .dict es, n, h => by rw [lamVars] at h; rw [vars]; exact lamVarsL_sub es n h
  | .bin _ a b, n, h => by
    rw [lamVars, List.mem_append] at h
    rw [vars, List.mem_append]
    exact h.imp (lamVars_sub a n) (lamVars_sub b n)
  | .lam ps e, n, h => by rw [lamVars] at h; rw [vars]; exact h
theorem lamVarsL_sub : ∀ (es : List PyE), ∀ n ∈ lamVarsL es, n ∈ varsL es
  | [], n, h => by simp [lamVarsL] at h
  | e :: es, n, h => by
    rw [lamVarsL, List.mem_append] at h
    rw [varsL, List.mem_append]
    exact h.imp (lamVars_sub e n) (lamVarsL_sub es n)
end

theorem binds_mem (p p' : PyEnv V) : ∀ (ps : List Str) (vs : List V), vs.length = ps.length → ∀ n ∈ ps,
    ∃ v, p.binds ps vs n = some v ∧ p'.binds ps vs n = some v
  | [], _, _, n, h => by simp at h
  | q :: ps, [], h, _, _ => by simp at h
  | q :: ps, v :: vs, h, n, hn => by
    by_cases e : n = q
    · exact ⟨v, by rw [PyEnv.binds, PyEnv.set, if_pos e], by rw [PyEnv.binds, PyEnv.set, if_pos e]⟩
    · obtain ⟨w, h1, h2⟩ := binds_mem p p' ps vs (by simpa using h) n (by simpa [e] using hn)
      exact ⟨w, by rw [PyEnv.binds, PyEnv.set, if_neg e, h1], by rw [PyEnv.binds, PyEnv.set, if_neg e, h2]⟩

theorem binds_not (p : PyEnv V) : ∀ (ps : List Str) (vs : List V), ∀ n ∉ ps, p.binds ps vs n = p n
  | [], _, n, _ => by simp [PyEnv.binds]
  | q :: ps, [], n, _ => by simp [PyEnv.binds]
  | q :: ps, v :: vs, n, hn => by
    rw [List.mem_cons, not_or] at hn
    rw [PyEnv.binds, PyEnv.set, if_neg hn.1, binds_not p ps vs n hn.2]

/-- names in the body of a function -/
theorem look_body (O : PyOps V) {g g' p p' : PyEnv V} {ps : List Str} {e : PyE}
    (h : ∀ n ∈ (vars e).filter fun n => !ps.contains n, lookName O g PyEnv.none p n = lookName O g' PyEnv.none p' n) {vs : List V}
    (hv : vs.length = ps.length) : ∀ n ∈ vars e,
      lookName O g PyEnv.none (p.binds ps vs) n = lookName O g' PyEnv.none (p'.binds ps vs) n := by
  intro n hn
  by_cases hp : n ∈ ps
  · obtain ⟨v, h1, h2⟩ := binds_mem p p' ps vs hv n hp
    unfold lookName
    rw [h1, h2]
    rfl
  · have := h n (by simp [hn, hp])
    unfold lookName at this ⊢
    rw [binds_not p ps vs n hp, binds_not p' ps vs n hp]
    exact this

mutual
theorem eval_congr (O : PyOps V) : ∀ (e : PyE) {g l p g' l' p' : PyEnv V}, (∀ n ∈ vars e, lookName O g l p n = lookName O g' l' p' n) →
    (∀ n ∈ lamVars e, lookName O g PyEnv.none p n = lookName O g' PyEnv.none p' n) → evalPy O g l p e = evalPy O g' l' p' e
  | .name n, _, _, _, _, _, _, h, _ => by rw [evalPy, evalPy]; exact h n (by simp [vars])
  | .num _ _, _, _, _, _, _, _, _, _ | .str _, _, _, _, _, _, _, _, _ => by rw [evalPy, evalPy]
  | .kwarg _ _, _, _, _, _, _, _, _, _ => by rw [evalPy, evalPy]
  | .attr e _, _, _, _, _, _, _, h, h' | .inv e, _, _, _, _, _, _, h, h' | .neg e, _, _, _, _, _, _, h, h' => by
    rw [evalPy, evalPy, eval_congr O e (by rwa [vars] at h) (by rwa [lamVars] at h')]
  | .call f as, _, _, _, _, _, _, h, h' => by
    rw [vars] at h; rw [lamVars] at h'
    rw [evalPy, evalPy, eval_congr O f (fun n hn => h n (List.mem_append_left _ hn)) (fun n hn => h' n (List.mem_append_left _ hn)),
      evalArgs_congr O as (fun n hn => h n (List.mem_append_right _ hn)) (fun n hn => h' n (List.mem_append_right _ hn))]
  | .list es, _, _, _, _, _, _, h, h' | .dict es, _, _, _, _, _, _, h, h' => by
    rw [evalPy, evalPy, evalList_congr O es (by rwa [vars] at h) (by rwa [lamVars] at h')]
  | .bin _ a b, _, _, _, _, _, _, h, h' => by
    rw [vars] at h; rw [lamVars] at h'
    rw [evalPy, evalPy, eval_congr O a (fun n hn => h n (List.mem_append_left _ hn)) (fun n hn => h' n (List.mem_append_left _ hn)),
      eval_congr O b (fun n hn => h n (List.mem_append_right _ hn)) (fun n hn => h' n (List.mem_append_right _ hn))]
  | .lam ps e, g, _, p, g', _, p', _, h' => by
    rw [lamVars] at h'
    rw [evalPy, evalPy]
    congr 2
    funext vs
    by_cases hv : vs.length = ps.length
    · have hb := look_body O h' hv
      rw [if_pos hv, if_pos hv]
      exact eval_congr O e hb fun n hn => hb n (lamVars_sub e n hn)
    · rw [if_neg hv, if_neg hv]
theorem evalArgs_congr (O : PyOps V) : ∀ (es : List PyE) {g l p g' l' p' : PyEnv V}, (∀ n ∈ varsL es, lookName O g l p n = lookName O g' l' p' n) →
    (∀ n ∈ lamVarsL es, lookName O g PyEnv.none p n = lookName O g' PyEnv.none p' n) → evalPyArgs O g l p es = evalPyArgs O g' l' p' es
  | [], _, _, _, _, _, _, _, _ => by rw [evalPyArgs, evalPyArgs]
  | e :: es, g, l, p, g', l', p', h, h' => by
    rw [varsL] at h; rw [lamVarsL] at h'
    have h2 := evalArgs_congr O es (fun n hn => h n (List.mem_append_right _ hn)) (fun n hn => h' n (List.mem_append_right _ hn))
    have h1 : ∀ n x, e = .kwarg n x → evalPy O g l p x = evalPy O g' l' p' x := fun n x he => by
      subst he
      exact eval_congr O x (fun n hn => h n (List.mem_append_left _ (by rwa [vars]))) (fun n hn => h' n (List.mem_append_left _ (by rwa [lamVars])))
    have h3 := eval_congr O e (fun n hn => h n (List.mem_append_left _ hn)) (fun n hn => h' n (List.mem_append_left _ hn))
    cases e with
    | kwarg n x => rw [evalPyArgs, evalPyArgs, h1 n x rfl, h2]
    | _ => simp only [evalPyArgs, h3, h2]
theorem evalList_congr (O : PyOps V) : ∀ (es : List PyE) {g l p g' l' p' : PyEnv V}, (∀ n ∈ varsL es, lookName O g l p n = lookName O g' l' p' n) →
    (∀ n ∈ lamVarsL es, lookName O g PyEnv.none p n = lookName O g' PyEnv.none p' n) → evalPyList O g l p es = evalPyList O g' l' p' es
  | [], _, _, _, _, _, _, _, _ => by rw [evalPyList, evalPyList]
  | e :: es, _, _, _, _, _, _, h, h' => by
    rw [varsL] at h; rw [lamVarsL] at h'
    rw [evalPyList, evalPyList, eval_congr O e (fun n hn => h n (List.mem_append_left _ hn)) (fun n hn => h' n (List.mem_append_left _ hn)),
      evalList_congr O es (fun n hn => h n (List.mem_append_right _ hn)) (fun n hn => h' n (List.mem_append_right _ hn))]
end

/-! ### statements -/

/-- the statements of a program -/
def bodyOf (q : PyProg) : List Stmt := (q.stmts.map fun s => Stmt.assign s.1 s.2) ++ [.expr q.result]

/-- the variables assigned -/
def execStmts (O : PyOps V) (g : PyEnv V) : PyEnv V → List (Str × PyE) → Option (PyEnv V)
  | l, [] => some l
  | l, (n, e) :: ss => (evalPy O g l PyEnv.none e).bind fun v => execStmts O g (l.set n v) ss

theorem execAll_map (O : PyOps V) (g : PyEnv V) : ∀ (ss : List (Str × PyE)) (l : PyEnv V),
    execAll O g l (ss.map fun s => Stmt.assign s.1 s.2) = execStmts O g l ss
  | [], _ => rfl
  | (n, e) :: ss, l => by
    rw [List.map_cons, execAll, execStmts]
    congr 1
    funext v
    exact execAll_map O g ss _

theorem exec_body (O : PyOps V) {astParse : Str → Option (List Stmt)} {code : Str} {q : PyProg} (h : astParse code = some (bodyOf q)) (g l : PyEnv V) :
    execWithReturn O astParse code g l = (execStmts O g l q.stmts).bind fun l' => evalPy O g l' PyEnv.none q.result := by
  unfold execWithReturn
  rw [h]
  simp only [bodyOf, List.getLast?_concat, List.dropLast_concat, execAll_map]
  cases execStmts O g l q.stmts <;> rfl

/-- With the names used in functions among the global variables, the two dictionaries are as good as one namespace. -/
theorem exec_module (O : PyOps V) (g : PyEnv V) (r : PyE) : ∀ (ss : List (Str × PyE)) (known : List Str) (l : PyEnv V),
    inScope known ss r = true → (∀ n ∈ known, n ∉ constNames → (l n).isSome = true) →
    (∀ n ∈ (ss.flatMap fun s => lamVars s.2) ++ lamVars r, g n = l n ∧ n ∉ ss.map Prod.fst) →
    ((execStmts O g l ss).bind fun l' => evalPy O g l' PyEnv.none r) = moduleValue O l ss r := by
  have key : ∀ (e : PyE) (known : List Str) (l : PyEnv V), (vars e).all known.contains = true → (∀ n ∈ known, n ∉ constNames → (l n).isSome = true) →
      (∀ n ∈ lamVars e, g n = l n) → evalPy O g l PyEnv.none e = evalPy O l l PyEnv.none e := by
    intro e known l hs hk hg
    rw [List.all_eq_true] at hs
    refine eval_congr O e (fun n hn => ?_) fun n hn => ?_
    · unfold lookName
      split
      · rfl
      · rename_i hc
        have := hk n (List.contains_iff_mem.1 (hs n hn)) hc
        cases hl : l n with
        | none => rw [hl] at this; cases this
        | some v => rfl
    · unfold lookName
      rw [hg n hn]
  intro ss
  induction ss with
  | nil =>
    intro known l hs hk hg
    rw [inScope] at hs
    exact key r known l hs hk fun n hn => (hg n (by simpa using hn)).1
  | cons s ss ih =>
    obtain ⟨n, e⟩ := s
    intro known l hs hk hg
    rw [inScope, Bool.and_eq_true] at hs
    rw [execStmts, moduleValue, key e known l hs.1 hk fun m hm => (hg m (by simp [hm])).1, Option.bind_assoc]
    congr 1
    funext v
    refine ih (n :: known) (l.set n v) hs.2 (fun m hm hc => ?_) fun m hm => ?_
    · unfold PyEnv.set
      split
      · rfl
      · rename_i hmn
        exact hk m (by simpa [hmn] using hm) hc
    · have h1 := hg m (by
        rw [List.flatMap_cons, List.append_assoc]
        exact List.mem_append_right _ hm)
      rw [List.map_cons, List.mem_cons, not_or] at h1
      exact ⟨by rw [PyEnv.set, if_neg h1.2.1]; exact h1.1, h1.2.2⟩

end Verif.Lemmas
