import Verif.Lemmas.PyRun
import Verif.Props.Program
import Verif.Spl.Eq
/-
C98: the notebook command `%%spl` binds one variable to the value of the generated program.

The specification of what a program computes is `Spec/PyRun`.
-/
namespace Verif.Props
open Verif Verif.Spec Verif.Lemmas

variable {V : Type}

/-! ### the variables in functions -/

/-- An object that is given a function calls it at once: the call fails if the function always does.  In generated programs
`F.zip_with` is the only object that is given a function. -/
def CallsAtOnce (O : PyOps V) : Prop :=
  ∀ v vs ks f, O.fn f ∈ vs → (∀ ws, f ws = none) → O.call v vs ks = none

/-- Nothing but the function module is used inside functions, and if there is a function and it cannot find the module the
expression has no value. -/
def LamF (O : PyOps V) (g : PyEnv V) (e : PyE) : Prop :=
  (∀ v ∈ lamVars e, v = c!"F") ∧ (∀ n x, e ≠ .kwarg n x) ∧
    (CallsAtOnce O → g c!"F" = none → lamVars e ≠ [] → ∀ l, evalPy O g l PyEnv.none e = none)
def LamFL (O : PyOps V) (g : PyEnv V) (es : List PyE) : Prop :=
  (∀ v ∈ lamVarsL es, v = c!"F") ∧
    (CallsAtOnce O → g c!"F" = none → lamVarsL es ≠ [] → ∀ l, evalPyArgs O g l PyEnv.none es = none ∧ evalPyList O g l PyEnv.none es = none)

variable {O : PyOps V} {g : PyEnv V}

theorem lamFL_nil : LamFL O g [] := ⟨fun v h => by simp [lamVarsL] at h, fun _ _ h => absurd (by rw [lamVarsL]) h⟩

theorem args_none {e : PyE} {es : List PyE} {l : PyEnv V} (h : evalPyArgs O g l PyEnv.none es = none) : evalPyArgs O g l PyEnv.none (e :: es) = none := by
  cases e <;> simp only [evalPyArgs, h] <;> split <;> simp_all

theorem head_none {e : PyE} {es : List PyE} {l : PyEnv V} (h : evalPy O g l PyEnv.none e = none) (hk : ∀ n x, e ≠ .kwarg n x) :
    evalPyArgs O g l PyEnv.none (e :: es) = none := by
  cases e with
  | kwarg n x => exact absurd rfl (hk n x)
  | _ => simp only [evalPyArgs, h]

theorem lamFL_cons {e : PyE} {es : List PyE} (h : LamF O g e) (hs : LamFL O g es) : LamFL O g (e :: es) := by
  refine ⟨fun v hv => ?_, fun hc hg hn l => ?_⟩
  · rw [lamVarsL, List.mem_append] at hv
    exact hv.elim (h.1 v) (hs.1 v)
  · by_cases he : lamVars e = []
    · rw [lamVarsL, he, List.nil_append] at hn
      obtain ⟨h1, h2⟩ := hs.2 hc hg hn l
      exact ⟨args_none h1, by rw [evalPyList, h2]; split <;> simp_all⟩
    · have h1 := h.2.2 hc hg he l
      exact ⟨head_none h1 h.2.1, by rw [evalPyList, h1]⟩

theorem lamFL_kw {n : Str} {e : PyE} {es : List PyE} (h : LamF O g e) (hs : LamFL O g es) : LamFL O g (.kwarg n e :: es) := by
  refine ⟨fun v hv => ?_, fun hc hg hn l => ?_⟩
  · rw [lamVarsL, List.mem_append, lamVars] at hv
    exact hv.elim (h.1 v) (hs.1 v)
  · refine ⟨?_, by rw [evalPyList, evalPy]⟩
    by_cases he : lamVars e = []
    · rw [lamVarsL, lamVars, he, List.nil_append] at hn
      exact args_none (hs.2 hc hg hn l).1
    · rw [evalPyArgs, h.2.2 hc hg he l]

theorem lamVarsL_append : ∀ (es fs : List PyE), lamVarsL (es ++ fs) = lamVarsL es ++ lamVarsL fs
  | [], _ => by rw [lamVarsL]; rfl
  | e :: es, fs => by rw [List.cons_append, lamVarsL, lamVarsL, lamVarsL_append es fs, List.append_assoc]

theorem args_append {l : PyEnv V} {fs : List PyE} : ∀ {es : List PyE},
    evalPyArgs O g l PyEnv.none es = none ∨ evalPyArgs O g l PyEnv.none fs = none → evalPyArgs O g l PyEnv.none (es ++ fs) = none
  | [], h => by
    rcases h with h | h
    · rw [evalPyArgs] at h; cases h
    · exact h
  | e :: es, h => by
    rw [List.cons_append]
    by_cases h1 : evalPyArgs O g l PyEnv.none es = none ∨ evalPyArgs O g l PyEnv.none fs = none
    · exact args_none (args_append h1)
    · rw [not_or] at h1
      have h2 := h.resolve_right h1.2
      cases hes : evalPyArgs O g l PyEnv.none es with
      | none => exact absurd hes h1.1
      | some r =>
        obtain ⟨vs, ks⟩ := r
        cases e with
        | kwarg n x =>
          rw [evalPyArgs, hes] at h2
          rw [evalPyArgs]
          cases hx : evalPy O g l PyEnv.none x with
          | none => rfl
          | some v => rw [hx] at h2; cases h2
        | _ =>
          simp only [evalPyArgs, hes] at h2 ⊢
          split at h2
          · rename_i h3 h4
            cases h2
          · rename_i h3
            split
            · rename_i h4 h5
              exact absurd rfl (h3 _ _ _ h4)
            · rfl

theorem list_append {l : PyEnv V} {fs : List PyE} : ∀ {es : List PyE},
    evalPyList O g l PyEnv.none es = none ∨ evalPyList O g l PyEnv.none fs = none → evalPyList O g l PyEnv.none (es ++ fs) = none
  | [], h => by
    rcases h with h | h
    · rw [evalPyList] at h; cases h
    · exact h
  | e :: es, h => by
    rw [List.cons_append, evalPyList]
    cases he : evalPy O g l PyEnv.none e with
    | none => rfl
    | some v =>
      have : evalPyList O g l PyEnv.none (es ++ fs) = none := by
        refine list_append (h.imp_left fun h => ?_)
        rw [evalPyList, he] at h
        cases hes : evalPyList O g l PyEnv.none es with
        | none => rfl
        | some _ => rw [hes] at h; cases h
      rw [this]

theorem lamFL_append {es fs : List PyE} (h : LamFL O g es) (h' : LamFL O g fs) : LamFL O g (es ++ fs) := by
  unfold LamFL
  rw [lamVarsL_append]
  refine ⟨fun v hv => (List.mem_append.1 hv).elim (h.1 v) (h'.1 v), fun hc hg hn l => ?_⟩
  by_cases he : lamVarsL es = []
  · rw [he, List.nil_append] at hn
    obtain ⟨h1, h2⟩ := h'.2 hc hg hn l
    exact ⟨args_append (.inr h1), list_append (.inr h2)⟩
  · obtain ⟨h1, h2⟩ := h.2 hc hg he l
    exact ⟨args_append (.inl h1), list_append (.inl h2)⟩

theorem lamF_call {f : PyE} {as : List PyE} (h : LamF O g f) (hs : LamFL O g as) : LamF O g (.call f as) := by
  refine ⟨fun v hv => ?_, nofun, fun hc hg hn l => ?_⟩
  · rw [lamVars, List.mem_append] at hv
    exact hv.elim (h.1 v) (hs.1 v)
  · rw [evalPy]
    by_cases he : lamVars f = []
    · rw [lamVars, he, List.nil_append] at hn
      rw [(hs.2 hc hg hn l).1]
      split <;> simp_all
    · rw [h.2.2 hc hg he l]

theorem lamF_attr {e : PyE} {n : Str} (h : LamF O g e) : LamF O g (.attr e n) := by
  unfold LamF
  rw [lamVars]
  exact ⟨h.1, nofun, fun hc hg hn l => by rw [evalPy, h.2.2 hc hg hn l]; rfl⟩

theorem lamF_inv {e : PyE} (h : LamF O g e) : LamF O g (.inv e) := by
  unfold LamF
  rw [lamVars]
  exact ⟨h.1, nofun, fun hc hg hn l => by rw [evalPy, h.2.2 hc hg hn l]; rfl⟩

theorem lamF_list {es : List PyE} (h : LamFL O g es) : LamF O g (.list es) := by
  unfold LamF
  rw [lamVars]
  exact ⟨h.1, nofun, fun hc hg hn l => by rw [evalPy, (h.2 hc hg hn l).2]; rfl⟩

theorem lamF_dict {es : List PyE} (h : LamFL O g es) : LamF O g (.dict es) := by
  unfold LamF
  rw [lamVars]
  exact ⟨h.1, nofun, fun hc hg hn l => by rw [evalPy, (h.2 hc hg hn l).2]; rfl⟩

theorem lamF_bin {op : Str} {a b : PyE} (h : LamF O g a) (h' : LamF O g b) : LamF O g (.bin op a b) := by
  unfold LamF
  rw [lamVars]
  refine ⟨fun v hv => (List.mem_append.1 hv).elim (h.1 v) (h'.1 v), nofun, fun hc hg hn l => ?_⟩
  rw [evalPy]
  by_cases he : lamVars a = []
  · rw [he, List.nil_append] at hn
    rw [h'.2.2 hc hg hn l]
    split <;> simp_all
  · rw [h.2.2 hc hg he l]

theorem lamF_mCall {e : PyE} {n : Str} {as : List PyE} (h : LamF O g e) (hs : LamFL O g as) : LamF O g (mCall e n as) :=
  lamF_call (lamF_attr h) hs

theorem lamF_none {e : PyE} (h : lamVars e = []) (hk : ∀ n x, e ≠ .kwarg n x) : LamF O g e := by
  unfold LamF
  rw [h]
  exact ⟨fun v h => (by cases h), hk, fun _ _ h => absurd rfl h⟩

theorem lamF_name (n : Str) : LamF O g (.name n) := lamF_none (by rw [lamVars]) nofun
theorem lamF_str (n : Str) : LamF O g (.str n) := lamF_none (by rw [lamVars]) nofun
theorem lamF_num (n m : Str) : LamF O g (.num n m) := lamF_none (by rw [lamVars]) nofun

theorem codeTree_lamF {c : Str} {e : PyE} (h : codeTree c = some e) : LamF O g e := by
  unfold codeTree at h
  repeat' split at h
  all_goals first | cases h; done | (cases h; exact lamF_none (by simp only [lamVars]) nofun)

theorem pathTree_lamF : ∀ {ns : List Str} {e f : PyE}, pathTree e ns = some f → LamF O g e → LamF O g f
  | [], _, _, h, he => by rw [pathTree] at h; cases h; exact he
  | n :: ns, e, f, h, he => by
    rw [pathTree] at h
    split at h
    · exact pathTree_lamF h (lamF_attr he)
    · cases h

theorem funcTree_lamF {f : Str} {e : PyE} (h : funcTree f = some e) : LamF O g e := by
  unfold funcTree at h
  split at h
  · split at h
    · split at h
      · exact pathTree_lamF h (lamF_name _)
      · cases h
    · cases h
  · exact pathTree_lamF h (lamF_name _)

theorem lamTree_vars {c : Str} {e : PyE} (h : lamTree c = some e) : lamVars e = [c!"F"] ∧ (∀ n x, e ≠ .kwarg n x) ∧
    (g c!"F" = none → ∀ l, ∃ f, evalPy O g l PyEnv.none e = some (O.fn f) ∧ ∀ ws, f ws = none) := by
  unfold lamTree at h
  simp only at h
  split at h
  · split at h
    · cases h
      refine ⟨by simp [lamVars, fCall, vars, varsL], nofun, fun hg l => ⟨_, by rw [evalPy], fun ws => ?_⟩⟩
      split
      · have : evalPy O g PyEnv.none (PyEnv.none.binds [c!"left_", c!"right_"] ws) (.name c!"F") = none := by
          rw [evalPy, lookName, if_neg (by decide), binds_not _ _ _ _ (by decide), hg]
          rfl
        rw [fCall, evalPy, evalPy, this]
        rfl
      · rfl
    · cases h
  · cases h

mutual
theorem pyTree_lamF : ∀ {c : PE} {e : PyE}, pyTree c = some e → LamF O g e
  | .named n, e, h => by
    rw [pyTree] at h
    split at h <;> cases h
    exact lamF_call (lamF_attr (lamF_name _)) (lamFL_cons (lamF_str _) lamFL_nil)
  | .lit c, e, h => by
    rw [pyTree] at h
    simp only [Option.map_eq_some_iff] at h
    obtain ⟨v, hv, rfl⟩ := h
    exact lamF_call (lamF_attr (lamF_name _)) (lamFL_cons (codeTree_lamF hv) lamFL_nil)
  | .method col f args, e, h => by
    rw [pyTree] at h
    split at h
    · split at h
      · rename_i h1 h2
        cases h
        exact lamF_call (lamF_attr (pyTree_lamF h1)) (pyTrees_lamF h2)
      · cases h
    · cases h
  | .fn f args, e, h => by
    rw [pyTree] at h
    split at h
    · rename_i h1 h2
      cases h
      exact lamF_call (funcTree_lamF h1) (pyTrees_lamF h2)
    · rename_i h1 _
      simp only [Option.map_eq_some_iff] at h
      obtain ⟨ts, h2, rfl⟩ := h
      obtain ⟨h3, h4⟩ := lamTrees_lamF h2
      have hf := funcTree_lamF (O := O) (g := g) h1
      refine ⟨fun v hv => ?_, nofun, fun hc hg _ l => ?_⟩
      · rw [lamVars, List.mem_append] at hv
        exact hv.elim (hf.1 v) (h3 v)
      · rw [evalPy]
        rcases h4 hg l with h | ⟨vs, ks, f, h, hm, hw⟩
        · rw [h]; split <;> simp_all
        · rw [h]
          split
          · rename_i h5
            cases h5
            exact hc _ _ _ _ hm hw
          · rfl
    · cases h
  | .aliased col n, e, h => by
    rw [pyTree] at h
    split at h
    · simp only [Option.map_eq_some_iff] at h
      obtain ⟨t, h1, rfl⟩ := h
      exact lamF_call (lamF_attr (pyTree_lamF h1)) (lamFL_cons (lamF_str _) lamFL_nil)
    · cases h
  | .bin op l r, e, h => by
    rw [pyTree] at h
    split at h
    · split at h
      · rename_i h1 h2
        cases h
        exact lamF_bin (pyTree_lamF h1) (pyTree_lamF h2)
      · cases h
    · cases h
  | .not r, e, h => by
    rw [pyTree] at h
    simp only [Option.map_eq_some_iff] at h
    obtain ⟨t, h1, rfl⟩ := h
    exact lamF_inv (pyTree_lamF h1)
  | .py c, e, h => by rw [pyTree] at h; exact codeTree_lamF h
theorem pyTrees_lamF : ∀ {cs : List PE} {es : List PyE}, pyTrees cs = some es → LamFL O g es
  | [], es, h => by rw [pyTrees] at h; cases h; exact lamFL_nil
  | c :: cs, es, h => by
    rw [pyTrees] at h
    split at h
    · rename_i h1 h2
      cases h
      exact lamFL_cons (pyTree_lamF h1) (pyTrees_lamF h2)
    · cases h
theorem lamTrees_lamF : ∀ {cs : List PE} {es : List PyE}, lamTrees cs = some es → (∀ v ∈ lamVarsL es, v = c!"F") ∧
    (g c!"F" = none → ∀ l, evalPyArgs O g l PyEnv.none es = none ∨
      ∃ vs ks f, evalPyArgs O g l PyEnv.none es = some (vs, ks) ∧ O.fn f ∈ vs ∧ ∀ ws, f ws = none)
  | [], es, h => by rw [lamTrees] at h; cases h
  | c :: cs, es, h => by
    rw [lamTrees] at h
    split at h
    · rename_i t ts h1 h2
      cases h
      have h3 := pyTree_lamF h1
      obtain ⟨h4, h5⟩ := lamTrees_lamF h2
      refine ⟨fun v hv => ?_, fun hg l => ?_⟩
      · rw [lamVarsL, List.mem_append] at hv
        exact hv.elim (h3.1 v) (h4 v)
      · rcases h5 hg l with h | ⟨vs, ks, f, h, hm, hw⟩
        · exact .inl (args_none h)
        · cases ht : evalPy O g l PyEnv.none t with
          | none => exact .inl (head_none ht h3.2.1)
          | some v =>
            refine .inr ⟨v :: vs, ks, f, ?_, List.mem_cons_of_mem _ hm, hw⟩
            cases t with
            | kwarg n x => exact absurd rfl (h3.2.1 n x)
            | _ => simp only [evalPyArgs, ht, h]
    · unfold lastLam at h
      split at h
      · simp only [Option.map_eq_some_iff] at h
        obtain ⟨t, h1, rfl⟩ := h
        obtain ⟨h2, h3, h4⟩ := lamTree_vars (O := O) (g := g) h1
        refine ⟨fun v hv => ?_, fun hg l => ?_⟩
        · rw [lamVarsL, lamVarsL, h2] at hv
          simpa using hv
        · obtain ⟨f, h5, h6⟩ := h4 hg l
          refine .inr ⟨[O.fn f], [], f, ?_, List.mem_singleton.2 rfl, h6⟩
          cases t with
          | kwarg n x => exact absurd rfl (h3 n x)
          | _ => simp only [evalPyArgs, h5]
      · cases h
    · cases h
end

theorem dictTrees_lamF : ∀ {kvs : List (Str × PE)} {es : List PyE}, argTree.dictTrees kvs = some es → LamFL O g es
  | [], es, h => by rw [argTree.dictTrees] at h; cases h; exact lamFL_nil
  | (k, c) :: kvs, es, h => by
    rw [argTree.dictTrees] at h
    split at h
    · rename_i h1 h2
      cases h
      exact lamFL_cons (lamF_str _) (lamFL_cons (pyTree_lamF h1) (dictTrees_lamF h2))
    · cases h

theorem argTree_lamF {a : RE} {e : PyE} (h : argTree a = some e) : LamF O g e := by
  cases a with
  | expr c => rw [argTree] at h; exact pyTree_lamF h
  | list es =>
    rw [argTree] at h
    simp only [Option.map_eq_some_iff] at h
    obtain ⟨ts, h1, rfl⟩ := h
    exact lamF_list (pyTrees_lamF h1)
  | dict kvs =>
    rw [argTree] at h
    simp only [Option.map_eq_some_iff] at h
    obtain ⟨ts, h1, rfl⟩ := h
    exact lamF_dict (dictTrees_lamF h1)

theorem argTrees_lamF : ∀ {as : List RE} {es : List PyE}, argTrees as = some es → LamFL O g es
  | [], es, h => by rw [argTrees] at h; cases h; exact lamFL_nil
  | a :: as, es, h => by
    rw [argTrees] at h
    split at h
    · rename_i h1 h2
      cases h
      exact lamFL_cons (argTree_lamF h1) (argTrees_lamF h2)
    · cases h

theorem kwTrees_lamF : ∀ {ks : List (Str × RE)} {es : List PyE}, kwTrees ks = some es → LamFL O g es
  | [], es, h => by rw [kwTrees] at h; cases h; exact lamFL_nil
  | (n, a) :: ks, es, h => by
    rw [kwTrees] at h
    split at h
    · rename_i h1 h2
      cases h
      exact lamFL_kw (argTree_lamF h1) (kwTrees_lamF h2)
    · cases h

theorem cnTrees_lamF : ∀ {cs : List CN} {es : List PyE}, cnTrees cs = some es → LamFL O g es
  | [], es, h => by rw [cnTrees] at h; cases h; exact lamFL_nil
  | c :: cs, es, h => by
    rw [cnTrees] at h
    split at h
    · rename_i h1 h2
      cases h
      refine lamFL_cons ?_ (cnTrees_lamF h2)
      cases c with
      | col c => rw [cnTree] at h1; exact pyTree_lamF h1
      | name n =>
        rw [cnTree] at h1
        split at h1 <;> cases h1
        exact lamF_str _
    · cases h

theorem cmdTree_lamF {f : Str} {s e : PyE} {as : List RE} {ks : List (Str × RE)} (h : cmdTree f s as ks = some e) (hs : LamF O g s) : LamF O g e := by
  unfold cmdTree at h
  split at h
  · rename_i h1 h2
    split at h <;> cases h
    exact lamF_mCall (lamF_name _) (lamFL_cons hs (lamFL_append (argTrees_lamF h1) (kwTrees_lamF h2)))
  · cases h

theorem colTrees_lamF {cs : List PE} {es : List PyE} (h : colTrees cs = some es) : LamFL O g es := by
  unfold colTrees at h
  split at h
  · cases h
  · exact pyTrees_lamF h

/-- the same for a program -/
def LamFP (O : PyOps V) (g : PyEnv V) (q : PyProg) : Prop := (∀ s ∈ q.stmts, LamF O g s.2) ∧ LamF O g q.result

theorem onResult_lamF {p : Option PyProg} {f : PyE → Option PyE} {q : PyProg} (h : onResult p f = some q) (hp : ∀ r, p = some r → LamFP O g r)
    (hf : ∀ e t, LamF O g e → f e = some t → LamF O g t) : LamFP O g q := by
  obtain ⟨r, hr, hs, ho⟩ := onResult_stmts h
  have h1 := hp r hr
  exact ⟨hs ▸ h1.1, hf _ _ h1.2 ho⟩

theorem addStmt_lamF {n : Str} {ok : Bool} {p : Option PyProg} {f : PyE → Option PyE} {q : PyProg} (h : addStmt n ok p f = some q)
    (hp : ∀ r, p = some r → LamFP O g r) (hf : ∀ e t, LamF O g e → f e = some t → LamF O g t) : LamFP O g q := by
  unfold addStmt at h
  split at h
  · cases h
  · rename_i r
    split at h
    · simp only [Option.map_eq_some_iff] at h
      obtain ⟨e, he, rfl⟩ := h
      have h1 := hp r rfl
      refine ⟨fun s hs => ?_, lamF_name _⟩
      rw [List.mem_append, List.mem_singleton] at hs
      rcases hs with hs | rfl
      · exact h1.1 s hs
      · exact hf _ _ h1.2 he
    · cases h

theorem progTree_lamF : ∀ {d : DF} {q : PyProg}, progTree d = some q → LamFP O g q
  | .source n, q, h => by
    rw [progTree] at h
    split at h <;> cases h
    exact ⟨fun s hs => (by cases hs), lamF_mCall (lamF_name _) (lamFL_cons (lamF_str _) lamFL_nil)⟩
  | .rawSource c, q, h => by
    rw [progTree] at h
    simp only [Option.map_eq_some_iff] at h
    obtain ⟨e, he, rfl⟩ := h
    refine ⟨fun s hs => (by cases hs), ?_⟩
    unfold rangeTree at he
    simp only at he
    split at he
    · simp only [Option.map_eq_some_iff] at he
      obtain ⟨v, hv, rfl⟩ := he
      exact lamF_mCall (lamF_name _) (lamFL_cons (lamF_num _ _) (lamFL_cons (codeTree_lamF hv) (lamFL_cons (lamF_num _ _) lamFL_nil)))
    · cases he
  | .runtimeRoot n f as ks, q, h => by
    rw [progTree] at h
    exact addStmt_lamF h (fun r hr => by cases hr; exact ⟨fun s hs => (by cases hs), lamF_name _⟩) fun e t he ht => cmdTree_lamF ht he
  | .runtime n d f as ks, q, h => by
    rw [progTree] at h
    exact addStmt_lamF h (fun r hr => progTree_lamF hr) fun e t he ht => cmdTree_lamF ht he
  | .named d n, q, h => by
    rw [progTree] at h
    exact addStmt_lamF h (fun r hr => progTree_lamF hr) fun e t he ht => by cases ht; exact he
  | .select d cs, q, h | .agg d cs, q, h | .orderBy d cs, q, h => by
    rw [progTree] at h
    refine onResult_lamF h (fun r hr => progTree_lamF hr) fun e t he ht => ?_
    simp only [Option.map_eq_some_iff] at ht
    obtain ⟨ts, h1, rfl⟩ := ht
    exact lamF_mCall he (colTrees_lamF h1)
  | .where_ d c, q, h => by
    rw [progTree] at h
    refine onResult_lamF h (fun r hr => progTree_lamF hr) fun e t he ht => ?_
    simp only [Option.map_eq_some_iff] at ht
    obtain ⟨ts, h1, rfl⟩ := ht
    exact lamF_mCall he (lamFL_cons (pyTree_lamF h1) lamFL_nil)
  | .groupBy d cs, q, h => by
    rw [progTree] at h
    refine onResult_lamF h (fun r hr => progTree_lamF hr) fun e t he ht => ?_
    simp only [Option.map_eq_some_iff] at ht
    obtain ⟨ts, h1, rfl⟩ := ht
    exact lamF_mCall he (lamFL_cons (lamF_list (cnTrees_lamF h1)) lamFL_nil)
  | .withColumn d c n, q, h => by
    rw [progTree] at h
    refine onResult_lamF h (fun r hr => progTree_lamF hr) fun e t he ht => ?_
    split at ht
    · simp only [Option.map_eq_some_iff] at ht
      obtain ⟨ts, h1, rfl⟩ := ht
      exact lamF_mCall he (lamFL_cons (lamF_str _) (lamFL_cons (pyTree_lamF h1) lamFL_nil))
    · cases ht
  | .withColumnRenamed d o n, q, h => by
    rw [progTree] at h
    refine onResult_lamF h (fun r hr => progTree_lamF hr) fun e t he ht => ?_
    split at ht <;> cases ht
    exact lamF_mCall he (lamFL_cons (lamF_str _) (lamFL_cons (lamF_str _) lamFL_nil))
  | .unionByName d o, q, h => by
    rw [progTree] at h
    refine onResult_lamF h (fun r hr => progTree_lamF hr) fun e t he ht => ?_
    simp only [Option.map_eq_some_iff] at ht
    obtain ⟨t', h1, rfl⟩ := ht
    have := (progTree_lamF (operand_stmts h1)).2
    exact lamF_mCall he (lamFL_cons this (lamFL_kw (lamF_name _) lamFL_nil))
  | .limit d n, q, h | .tail d n, q, h => by
    rw [progTree] at h
    refine onResult_lamF h (fun r hr => progTree_lamF hr) fun e t he ht => ?_
    cases ht
    exact lamF_mCall he (lamFL_cons (lamF_num _ _) lamFL_nil)
  | .join d o c ty, q, h => by
    rw [progTree] at h
    refine onResult_lamF h (fun r hr => progTree_lamF hr) fun e t he ht => ?_
    split at ht
    · rename_i h1 h2 _
      cases ht
      exact lamF_mCall he (lamFL_cons (progTree_lamF (operand_stmts h1)).2 (lamFL_cons (pyTree_lamF h2) (lamFL_cons (lamF_str _) lamFL_nil)))
    · cases ht
  | .alias d n, q, h => by
    rw [progTree] at h
    refine onResult_lamF h (fun r hr => progTree_lamF hr) fun e t he ht => ?_
    split at ht <;> cases ht
    exact lamF_mCall he (lamFL_cons (lamF_str _) lamFL_nil)
  | .arbitraryMethod d m ps, q, h => by
    rw [progTree] at h
    refine onResult_lamF h (fun r hr => progTree_lamF hr) fun e t he ht => ?_
    split at ht
    · simp only [Option.map_eq_some_iff] at ht
      obtain ⟨ts, h1, rfl⟩ := ht
      exact lamF_mCall he (colTrees_lamF h1)
    · cases ht

/-! ### C98 -/

/-- `ast.parse` reads generated programs by Python's rules, and the formatter does not change what is read.  (What they do with other
texts is left open.) -/
structure PythonReads (astParse : Str → Option (List Stmt)) (fmt : Str → Option Str) : Prop where
  reads : ∀ t q, readProg t = some q → astParse t = some (bodyOf q)
  formatted : ∀ t u q, readProg t = some q → fmt t = some u → astParse u = some (bodyOf q)

theorem module_known (m : Modules V) : ∀ n ∈ globals, n ∉ constNames → (m.env n).isSome = true := by
  intro n hn hc
  simp only [globals, List.mem_cons, List.not_mem_nil, or_false] at hn
  rcases hn with rfl | rfl | rfl | rfl | rfl | rfl | rfl
  · rfl
  · rfl
  · rfl
  · rfl
  · exact absurd (by decide) hc
  · exact absurd (by decide) hc
  · exact absurd (by decide) hc

/-- the code of a cell -/
theorem cell_code {parse : Str → Option Pipeline} {x : Ext} {fmt astParse} (hr : PythonReads astParse fmt) (args : MagicArgs) {cell : Str} {p : Pipeline}
    (hp : parse cell = some p) {txt : Str} (ht : renderPipeline ⟨args.mode, x⟩ p = some txt) {q : PyProg} (h1 : readProg txt = some q) :
    ∃ code, convertSpl parse x fmt cell args.useRuntime args.formatCode = some code ∧ astParse code = some (bodyOf q) := by
  unfold MagicArgs.mode at ht
  unfold convertSpl renderPyspark
  simp only [hp, ht, Option.map_some, Option.some.injEq, exists_eq_left']
  split
  · cases hf : fmt txt with
    | none => exact hr.reads _ _ h1
    | some u => exact hr.formatted _ _ _ h1 hf
  · exact hr.reads _ _ h1

/-- **C98** (partial).  A cell with a plain query whose runtime commands are in front of the others binds the variable named by
`--var-name` to the value the generated program has when it is run by itself, whatever the notebook's variables are.
Missing: programs with a lambda expression need a notebook that has the function module under the name `F`
(`C98_lambda_fails`). -/
theorem C98_value_partial (O : PyOps V) (m : Modules V) {parse : Str → Option Pipeline} {x : Ext} (hx : Arranges x) {fmt astParse}
    (hr : PythonReads astParse fmt) {args : MagicArgs} (hd : args.dryRun = false) {cell : Str} {p : Pipeline} (hp : parse cell = some p)
    (hpl : plainP ⟨args.mode, x⟩ p = true) (ho : ordered args.mode .expr p = true) {txt : Str}
    (ht : renderPipeline ⟨args.mode, x⟩ p = some txt) (hne : txt ≠ []) :
    ∃ q, readProg txt = some q ∧ ∀ ns : PyEnv V, (q.lamVars = [] ∨ ns c!"F" = some m.F) →
      splMagic O m parse x fmt astParse args cell ns = (moduleValue O m.env q.stmts q.result).map fun v => ns.set args.varName v := by
  obtain ⟨s, d, q, hs, hdf, h1, h2, h3, _⟩ := plain_reads hx hpl ho ht hne
  refine ⟨q, h1, fun ns hF => ?_⟩
  obtain ⟨code, hc, ha⟩ := cell_code hr args hp ht h1
  unfold splMagic
  rw [hc]
  simp only [hd, Bool.false_eq_true, if_false]
  rw [exec_body O ha]
  congr 1
  refine exec_module O ns q.result q.stmts globals m.env h3 (module_known m) fun n hn => ?_
  have hnF : n = c!"F" := by
    have h4 := progTree_lamF (O := O) (g := ns) h2
    rw [List.mem_append, List.mem_flatMap] at hn
    rcases hn with ⟨s, hs, hn⟩ | hn
    · exact (h4.1 s hs).1 n hn
    · exact h4.2.1 n hn
  subst hnF
  constructor
  · rcases hF with h | h
    · rw [show (q.stmts.flatMap fun s => lamVars s.2) ++ lamVars q.result = [] from h] at hn
      cases hn
    · rw [h]; rfl
  · rw [stmts_assigned h2]
    obtain ⟨_, ks, h5, _⟩ := C18_names_distinct _ _ _ hs
    rw [hdf] at h5
    rw [show assigned d = ks.map dfName from h5, List.mem_map]
    rintro ⟨k, _, hk⟩
    simp [dfName] at hk

theorem exec_fails (r : PyE) : ∀ (ss : List (Str × PyE)) (l : PyEnv V),
    (∃ s ∈ ss, ∀ l, evalPy O g l PyEnv.none s.2 = none) ∨ (∀ l, evalPy O g l PyEnv.none r = none) →
    ((execStmts O g l ss).bind fun l' => evalPy O g l' PyEnv.none r) = none
  | [], l, h => by
    rcases h with ⟨s, hs, _⟩ | h
    · cases hs
    · exact h l
  | s :: ss, l, h => by
    rw [execStmts, Option.bind_assoc]
    cases he : evalPy O g l PyEnv.none s.2 with
    | none => rfl
    | some v =>
      refine exec_fails r ss _ (h.imp_left ?_)
      rintro ⟨t, ht, hf⟩
      rcases List.mem_cons.1 ht with rfl | ht
      · rw [hf l] at he; cases he
      · exact ⟨t, ht, hf⟩

/-- **C98** fails for programs with a lambda expression: in a notebook that has no variable `F` the cell raises an exception, as
the function given to `F.zip_with` looks `F` up among the notebook's variables only, although the program has a value when it is
run by itself (below). -/
theorem C98_lambda_fails (O : PyOps V) (hO : CallsAtOnce O) (m : Modules V) {parse : Str → Option Pipeline} {x : Ext} (hx : Arranges x) {fmt astParse}
    (hr : PythonReads astParse fmt) {args : MagicArgs} (hd : args.dryRun = false) {cell : Str} {p : Pipeline} (hp : parse cell = some p)
    (hpl : plainP ⟨args.mode, x⟩ p = true) (ho : ordered args.mode .expr p = true) {txt : Str}
    (ht : renderPipeline ⟨args.mode, x⟩ p = some txt) (hne : txt ≠ []) :
    ∃ q, readProg txt = some q ∧ (q.lamVars ≠ [] → ∀ ns : PyEnv V, ns c!"F" = none → splMagic O m parse x fmt astParse args cell ns = none) := by
  obtain ⟨s, d, q, hs, hdf, h1, h2, h3, _⟩ := plain_reads hx hpl ho ht hne
  refine ⟨q, h1, fun hv ns hF => ?_⟩
  obtain ⟨code, hc, ha⟩ := cell_code hr args hp ht h1
  unfold splMagic
  rw [hc]
  simp only [hd, Bool.false_eq_true, if_false]
  rw [exec_body O ha, exec_fails]
  · rfl
  have h4 := progTree_lamF (O := O) (g := ns) h2
  by_cases hr : lamVars q.result = []
  · rw [PyProg.lamVars, hr, List.append_nil] at hv
    obtain ⟨v, hv⟩ := List.exists_mem_of_ne_nil _ hv
    rw [List.mem_flatMap] at hv
    obtain ⟨s, hs, hv⟩ := hv
    exact .inl ⟨s, hs, (h4.1 s hs).2.2 hO hF (List.ne_nil_of_mem hv)⟩
  · exact .inr (h4.2.2.2 hO hF hr)

/-- **C98** No other variable of the notebook is changed, whatever the cell. -/
theorem C98_others_kept (O : PyOps V) (m : Modules V) {parse : Str → Option Pipeline} {x : Ext} {fmt astParse} {args : MagicArgs}
    {cell : Str} {ns ns' : PyEnv V} (h : splMagic O m parse x fmt astParse args cell ns = some ns') :
    (∀ n, n ≠ args.varName → ns' n = ns n) ∧ (args.dryRun = true → ns' = ns) ∧ (args.dryRun = false → (ns' args.varName).isSome = true) := by
  unfold splMagic at h
  split at h
  · cases h
  · split at h
    · rename_i hd
      cases h
      exact ⟨fun _ _ => rfl, fun _ => rfl, fun h => by rw [hd] at h; cases h⟩
    · rename_i hd
      simp only [Option.map_eq_some_iff] at h
      obtain ⟨v, _, rfl⟩ := h
      exact ⟨fun n hn => if_neg hn, fun h => absurd h hd, fun _ => by simp [PyEnv.set]⟩

/-- **C98** A cell that is converted to no code (an empty pipeline) binds the variable to `None`. -/
theorem C98_empty (O : PyOps V) (m : Modules V) {parse : Str → Option Pipeline} {x : Ext} {fmt astParse} (ha : astParse [] = some [])
    (hf : ∀ t, fmt [] = some t → t = []) {args : MagicArgs} (hd : args.dryRun = false) {cell : Str} {p : Pipeline} (hp : parse cell = some p)
    (ht : renderPipeline ⟨args.mode, x⟩ p = some []) (ns : PyEnv V) :
    splMagic O m parse x fmt astParse args cell ns = some (ns.set args.varName (O.const c!"None")) := by
  have : convertSpl parse x fmt cell args.useRuntime args.formatCode = some [] := by
    unfold MagicArgs.mode at ht
    unfold convertSpl renderPyspark
    simp only [hp, ht, Option.map_some, Option.some.injEq]
    split
    · cases h : fmt [] with
      | none => rfl
      | some u => exact hf u h
    · rfl
  unfold splMagic
  rw [this]
  simp only [hd, Bool.false_eq_true, if_false]
  unfold execWithReturn
  rw [ha]
  rfl

/-! ### examples -/

/-- Python objects that are their own text; a function is the text of what it gives. -/
def textOps : PyOps Str where
  const n := n
  num w f := w ++ (if f.isEmpty then [] else '.' :: f)
  str s := '\'' :: s ++ ['\'']
  list vs := c!"[" ++ joinWith c!", " vs ++ c!"]"
  dict vs := some (c!"{" ++ joinWith c!", " vs ++ c!"}")
  fn f := (f [c!"left_", c!"right_"]).getD c!"<error>"
  attr v n := some (v ++ '.' :: n)
  call v vs ks :=
    if vs.contains c!"<error>" then none
    else some (v ++ c!"(" ++ joinWith c!", " (vs ++ ks.map fun k => k.1 ++ '=' :: k.2) ++ c!")")
  inv v := some ('~' :: v)
  neg v := some ('-' :: v)
  bin op a b := some (a ++ c!" " ++ op ++ c!" " ++ b)

theorem textOps_calls : CallsAtOnce textOps := by
  intro v vs ks f hf hw
  have : textOps.fn f = c!"<error>" := by simp only [textOps, hw]; rfl
  rw [this] at hf
  simp only [textOps]
  rw [if_pos (List.contains_iff_mem.2 hf)]

/-- the objects -/
def textModules : Modules Str := ⟨c!"session", c!"pkg.functions", c!"pkg.commands", c!"pkg.F"⟩

/-- `ast.parse` on generated programs -/
def textParse (t : Str) : Option (List Stmt) := (readProg t).map bodyOf

theorem textParse_reads : PythonReads textParse (fun _ => none) :=
  ⟨fun t q h => by rw [textParse, h]; rfl, fun t u q _ h => by cases h⟩

/-- a cell in a notebook with the variables `ns`, and the value of a variable afterwards -/
def cellValue (useRuntime : Bool) (cell : Str) (ns : PyEnv Str) (n : Str) : Option (Option Str) :=
  (splMagic textOps textModules parse Tests.ext (fun _ => none) textParse { useRuntime } cell ns).map fun r => r n

/-- the value of the program run by itself -/
def ownValue (mode : Mode) (cell : Str) : Option Str :=
  ((outOf mode cell).bind readProg).bind fun q => moduleValue textOps textModules.env q.stmts q.result

/-- a notebook -/
def notebook : PyEnv Str := fun n => if n = c!"df_1" then some c!"mine" else if n = c!"spark" then some c!"other" else none

/-- The conditions of `C98_value_partial` hold; the notebook's own `df_1` and `spark` are neither used nor changed. -/
example :
    plainText .allow c!"search index=main | eval x=upper(a)" = true ∧
    cellValue true c!"search index=main | eval x=upper(a)" notebook c!"df" =
      some (some c!"pkg.commands.eval(pkg.commands.search(None, index='main'), x=pkg.functions.eval.upper(pkg.F.col('a')))") ∧
    ownValue .allow c!"search index=main | eval x=upper(a)" =
      some c!"pkg.commands.eval(pkg.commands.search(None, index='main'), x=pkg.functions.eval.upper(pkg.F.col('a')))" ∧
    cellValue true c!"search index=main | eval x=upper(a)" notebook c!"df_1" = some (some c!"mine") ∧
    cellValue true c!"search index=main | eval x=upper(a)" notebook c!"df_2" = some none ∧
    cellValue false c!"index=main | head 3" notebook c!"df" = (ownValue .disallow c!"index=main | head 3").map some := by
  decide +kernel

/-- The conditions of `C98_lambda_fails` hold: the cell fails in a notebook without `F`, the program by itself does not, and neither
does the cell in a notebook that has it. -/
example :
    plainText .disallow c!"index=main | eval x=mvzip(a,b)" = true ∧
    ((outOf .disallow c!"index=main | eval x=mvzip(a,b)").bind readProg).map PyProg.lamVars = some [c!"F"] ∧
    cellValue false c!"index=main | eval x=mvzip(a,b)" notebook c!"df" = none ∧
    ownValue .disallow c!"index=main | eval x=mvzip(a,b)" =
      some c!"session.table('main').withColumn('x', pkg.F.zip_with(pkg.F.col('a'), pkg.F.col('b'), pkg.F.concat_ws(',', left_, right_)))" ∧
    cellValue false c!"index=main | eval x=mvzip(a,b)" (notebook.set c!"F" c!"pkg.F") c!"df" =
      (ownValue .disallow c!"index=main | eval x=mvzip(a,b)").map some := by
  decide +kernel

/-- an empty search is converted to no code, and the variable is `None` -/
example : parse c!"" = some [] ∧ renderPipeline ⟨.allow, Tests.ext⟩ [] = some [] :=
  ⟨isParse_sound (by decide +kernel), by decide +kernel⟩

end Verif.Props
