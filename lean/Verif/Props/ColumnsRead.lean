import Verif.Lemmas.Within
import Verif.Props.Meaning
import Verif.Props.Program
/-
C73: a translated expression reads no other columns than the fields named in the expression.
-/
namespace Verif.Props
open Verif Spl Spec Lemmas Lemmas.Col

/-! ### what a column reads determines its value -/

theorem sparkFn_column {S : Sem} {f : Str} {as : List Obj} {o : Obj} (h : sparkFn S f as = some o) : o.isColumn = true := by
  unfold sparkFn at h
  split at h
  · split at h
    · cases h; rfl
    · cases h
  · split at h
    · repeat' split at h
      all_goals first
        | (cases h; rfl; done)
        | (rw [Option.map_eq_some_iff] at h; obtain ⟨ks, _, rfl⟩ := h; rfl)
        | cases h
    · split at h
      · split at h
        · cases h; rfl
        · split at h
          · split at h
            · split at h
              · cases h
              · cases h; rfl
            · cases h
          · split at h
            · split at h
              · split at h
                · cases h; rfl
                · simp only [Option.map_eq_some_iff] at h
                  obtain ⟨_, _, rfl⟩ := h
                  rfl
              · cases h
            · cases h
      · cases h
    · split at h
      · split at h
        · cases h; rfl
        · split at h
          · cases h; rfl
          · cases h
      · cases h
    · cases h

theorem fFn_column {S : Sem} {row : Event} {f : Str} {as : List Obj} {o : Obj} (h : fFn S row f as = some o) : o.isColumn = true := by
  unfold fFn at h
  by_cases h1 : f = c!"col"
  · rw [if_pos h1] at h
    split at h
    · cases h; rfl
    · cases h
  rw [if_neg h1] at h
  by_cases h2 : f = c!"lit"
  · rw [if_pos h2] at h
    split at h
    · cases h; rfl
    · cases h
  rw [if_neg h2] at h
  by_cases h3 : f = c!"when"
  · rw [if_pos h3] at h
    split at h
    · split at h
      · cases h; rfl
      · cases h
    · cases h
  rw [if_neg h3] at h
  by_cases h4 : f = c!"coalesce"
  · rw [if_pos h4] at h
    split at h
    · cases h; rfl
    · cases h
  rw [if_neg h4] at h
  by_cases h5 : f = c!"isnull"
  · rw [if_pos h5] at h
    split at h
    · split at h
      · cases h; rfl
      · cases h
    · cases h
  rw [if_neg h5] at h
  by_cases h6 : f = c!"isnotnull"
  · rw [if_pos h6] at h
    split at h
    · split at h
      · cases h; rfl
      · cases h
    · cases h
  rw [if_neg h6] at h
  exact sparkFn_column h

theorem colMethod_column {S : Sem} {r : Obj} {f : Str} {as : List Obj} {o : Obj} (h : colMethod S r f as = some o) :
    o.isColumn = true := by
  unfold colMethod at h
  by_cases h0 : ¬ r.isColumn = true
  · rw [if_neg h0] at h; cases h
  rw [if_pos (Classical.not_not.1 h0)] at h
  by_cases h1 : f = c!"alias"
  · rw [if_pos h1] at h
    split at h
    · cases h; rfl
    · cases h
  rw [if_neg h1] at h
  by_cases h2 : f = c!"like"
  · rw [if_pos h2] at h
    split at h
    · simp only [Option.map_eq_some_iff] at h
      obtain ⟨_, _, rfl⟩ := h
      rfl
    · cases h
  rw [if_neg h2] at h
  by_cases h3 : f = c!"when"
  · rw [if_pos h3] at h
    split at h
    · split at h
      · cases h; rfl
      · cases h
    · cases h
  rw [if_neg h3] at h
  by_cases h4 : f = c!"otherwise"
  · rw [if_pos h4] at h
    split at h
    · cases h; rfl
    · cases h
  rw [if_neg h4] at h
  by_cases h5 : f = c!"cast"
  · rw [if_pos h5] at h
    split at h
    · split at h
      · cases h; rfl
      · split at h
        · cases h; rfl
        · cases h
    · cases h
  rw [if_neg h5] at h
  split at h
  · repeat' split at h
    all_goals first
      | (cases h; rfl; done)
      | (simp only [Option.map_eq_some_iff] at h; obtain ⟨_, _, rfl⟩ := h; rfl)
      | cases h
  · split at h
    · cases h; rfl
    · cases h
  · cases h

theorem eval_const_str {S : Sem} {row : Event} {t : PyE} {n : Str} (h : pyEval S row t = some (.const (.str n))) : t = .str n := by
  cases t with
  | str s =>
    simp only [pyEval, Option.some.injEq, Obj.const.injEq, Val.str.injEq] at h
    rw [h]
  | name m =>
    simp only [pyEval] at h
    repeat' split at h
    all_goals simp at h
  | num w f => simp [pyEval] at h
  | neg e => cases e <;> simp [pyEval] at h
  | bin op l r =>
    exfalso
    simp only [pyEval, Option.bind_eq_some_iff] at h
    obtain ⟨_, _, _, _, _, _, h⟩ := h
    split at h <;> simp at h
  | inv e =>
    exfalso
    simp only [pyEval, Option.bind_eq_some_iff] at h
    obtain ⟨_, _, h⟩ := h
    split at h <;> simp at h
  | call f args =>
    exfalso
    cases f with
    | attr e g =>
      by_cases he : ∃ m, e = .name m
      · obtain ⟨m, rfl⟩ := he
        simp only [pyEval] at h
        split at h
        · simp only [Option.bind_eq_some_iff] at h
          obtain ⟨_, _, h⟩ := h
          simpa [Obj.isColumn] using fFn_column h
        · simp at h
      · have : pyEval S row (.call (.attr e g) args) = (pyEval S row e).bind fun o => (pyEvals S row args).bind (colMethod S o g) := by
          cases e with
          | name m => exact absurd ⟨m, rfl⟩ he
          | _ => simp only [pyEval]
        rw [this] at h
        simp only [Option.bind_eq_some_iff] at h
        obtain ⟨_, _, _, _, h⟩ := h
        simpa [Obj.isColumn] using colMethod_column h
    | _ => simp [pyEval] at h
  | _ => simp [pyEval] at h

theorem fFn_row {S : Sem} (r r' : Event) {f : Str} (hf : f ≠ c!"col") (as : List Obj) : fFn S r f as = fFn S r' f as := by
  unfold fFn
  rw [if_neg hf, if_neg hf]

theorem col_args {S : Sem} {r r' : Event} (args : List PyE) (h : ∀ c ∈ args.filterMap textName, r c = r' c) :
    pyEval S r (.call (.attr (.name c!"F") c!"col") args) = pyEval S r' (.call (.attr (.name c!"F") c!"col") args) := by
  have hv : ∀ r : Event, pyEval S r (.call (.attr (.name c!"F") c!"col") args) = (pyEvals S r args).bind (fFn S r c!"col") := by
    intro r
    simp only [pyEval, if_true]
  rw [hv, hv]
  match args, h with
  | [], _ => rfl
  | [a], h =>
    by_cases hs : ∃ n, a = .str n
    · obtain ⟨n, rfl⟩ := hs
      have := h n (by simp [textName])
      simp [pyEvals, pyEval, fFn, this]
    · have hn : ∀ r : Event, ((pyEvals S r [a]).bind (fFn S r c!"col")) = none := by
        intro r
        simp only [pyEvals, Option.map_some]
        cases hp : pyEval S r a with
        | none => rfl
        | some o =>
          simp only [Option.bind_some, fFn, if_true]
          split
          · rename_i n he
            simp only [List.cons.injEq, and_true] at he
            subst he
            exact absurd ⟨_, eval_const_str hp⟩ hs
          · rfl
      rw [hn, hn]
  | a :: b :: args, _ =>
    have hn : ∀ r : Event, ((pyEvals S r (a :: b :: args)).bind (fFn S r c!"col")) = none := by
      intro r
      simp only [pyEvals]
      cases pyEval S r a with
      | none => rfl
      | some o =>
        cases pyEval S r b with
        | none => rfl
        | some o' =>
          cases pyEvals S r args with
          | none => rfl
          | some os => simp [fFn]
    rw [hn, hn]

mutual
/-- The value of a column depends only on the columns it reads. -/
theorem eval_local (S : Sem) {r r' : Event} : ∀ (t : PyE), (∀ c ∈ colRefs t, r c = r' c) → pyEval S r t = pyEval S r' t
  | .name n, _ => by simp only [pyEval]
  | .num w f, _ => by simp only [pyEval]
  | .str s, _ => by simp only [pyEval]
  | .attr e f, _ => by simp only [pyEval]
  | .kwarg n e, _ => by simp only [pyEval]
  | .list es, _ => by simp only [pyEval]
  | .dict es, _ => by simp only [pyEval]
  | .lam ps e, _ => by simp only [pyEval]
  | .neg e, _ => by cases e <;> simp only [pyEval]
  | .inv e, h => by
    have := eval_local S e (by rwa [colRefs] at h)
    simp only [pyEval, this]
  | .bin op a b, h => by
    rw [colRefs] at h
    have h1 := eval_local S a fun c hc => h c (List.mem_append_left _ hc)
    have h2 := eval_local S b fun c hc => h c (List.mem_append_right _ hc)
    simp only [pyEval, h1, h2]
  | .call (.attr e g) args, h => by
    rw [colRefs] at h
    split at h
    · rename_i he
      rw [he]
      exact col_args args h
    · rename_i hne
      have ha := evals_local S args fun c hc => h c (List.mem_append_right _ hc)
      have he := eval_local S e fun c hc => h c (List.mem_append_left _ (by simpa [colRefs] using hc))
      by_cases hm : ∃ m, e = .name m
      · obtain ⟨m, rfl⟩ := hm
        simp only [pyEval]
        split
        · rename_i hm
          subst hm
          have hg : g ≠ c!"col" := fun e => hne (by rw [e])
          rw [ha]
          congr 1
          funext as
          exact fFn_row r r' hg as
        · rfl
      · have : ∀ r, pyEval S r (.call (.attr e g) args) = (pyEval S r e).bind fun o => (pyEvals S r args).bind (colMethod S o g) := by
          intro r
          cases e with
          | name m => exact absurd ⟨m, rfl⟩ hm
          | _ => simp only [pyEval]
        rw [this, this, he, ha]
  | .call (.name _) args, h | .call (.num _ _) args, h | .call (.str _) args, h | .call (.call _ _) args, h | .call (.kwarg _ _) args, h
  | .call (.list _) args, h | .call (.dict _) args, h | .call (.inv _) args, h | .call (.neg _) args, h | .call (.bin _ _ _) args, h
  | .call (.lam _ _) args, h => by
    simp only [pyEval]

theorem evals_local (S : Sem) {r r' : Event} : ∀ (ts : List PyE), (∀ c ∈ colRefsL ts, r c = r' c) → pyEvals S r ts = pyEvals S r' ts
  | [], _ => by simp only [pyEvals]
  | t :: ts, h => by
    rw [colRefsL] at h
    have h1 := eval_local S t fun c hc => h c (List.mem_append_left _ hc)
    have h2 := evals_local S ts fun c hc => h c (List.mem_append_right _ hc)
    simp only [pyEvals, h1, h2]
end

/-- **C73** (partial): the text of a translated expression is read as Python, the columns it names with `F.col` are
fields the expression names, and on rows that agree in these fields it has the same value, if it has one.
Missing: `plainE`, without which the text is not always Python (C59); the SQL text of an address test
(`F.expr("cidr_match(…)")`) is not looked into. -/
theorem C73_expression_partial (m : Mode) (e : Expr) (p : PE) (he : plainE e = true) (h : exprTr m e = some p) :
    ∃ t, readPy (renderC p.unalias) = some t ∧ readPy (renderE p.unalias) = some t ∧ (∀ c ∈ colRefs t, c ∈ exprFields e) ∧
      ∀ S r r', (∀ c ∈ exprFields e, r c = r' c) →
        textEval S r (renderC p.unalias) = textEval S r' (renderC p.unalias) ∧
        textEval S r (renderE p.unalias) = textEval S r' (renderE p.unalias) := by
  obtain ⟨t, ht, _⟩ := wf_tree _ (wf_unalias p (expr_good m e p he h).wf).1
  have hr := refs_expr h ht
  refine ⟨t, read_renderC ht, read_render ht, hr, fun S r r' ha => ?_⟩
  have hl := eval_local S t fun c hc => ha c (hr c hc)
  unfold textEval
  rw [read_render ht, read_renderC ht]
  simp only [Option.bind_some, hl, and_self]

/-- `if(a > 1 AND b IN (x, "y*"), lower(c), foo(a))`; the elements of the list are texts -/
example : plainE (.call c!"if" [.binary (.binary (.const (.field c!"a")) c!">" (.const (.int 1))) c!"AND"
      (.fieldIn c!"b" [.const (.field c!"x"), .const (.wildcard c!"y*")]), .call c!"lower" [.const (.field c!"c")],
      .call c!"foo" [.const (.field c!"a")]]) = true ∧
    exprFields (.call c!"if" [.binary (.binary (.const (.field c!"a")) c!">" (.const (.int 1))) c!"AND"
      (.fieldIn c!"b" [.const (.field c!"x"), .const (.wildcard c!"y*")]), .call c!"lower" [.const (.field c!"c")],
      .call c!"foo" [.const (.field c!"a")]]) = [c!"a", c!"b", c!"c", c!"a"] ∧
    (exprTr .disallow (.call c!"if" [.binary (.binary (.const (.field c!"a")) c!">" (.const (.int 1))) c!"AND"
      (.fieldIn c!"b" [.const (.field c!"x"), .const (.wildcard c!"y*")]), .call c!"lower" [.const (.field c!"c")],
      .call c!"foo" [.const (.field c!"a")]])).isSome = true := by
  decide +kernel

/-- the columns a program reads -/
def progRefs (p : PyProg) : List Str := p.stmts.flatMap (fun s => colRefs s.2) ++ colRefs p.result

/-- **C73** (partial), queries: the program made of `where` reads only the fields of the condition, the program made of an
`eval` with one assignment only the fields on its right-hand side. -/
theorem C73_where_partial (x : Ext) (e : Expr) (he : plainE e = true) (txt : Str)
    (h : renderPipeline ⟨.disallow, x⟩ [.where_ e] = some txt) :
    ∃ q, readProg txt = some q ∧ ∀ c ∈ progRefs q, c ∈ exprFields e := by
  simp only [renderPipeline, runCmds, transform, dispatch, whereTr] at h
  cases hp : exprTr .disallow e with
  | none => simp [hp] at h
  | some p =>
    simp only [hp, Option.map_some, Option.some.injEq] at h
    obtain ⟨t, ht, _⟩ := wf_tree _ (wf_unalias p (expr_good _ e p he hp).wf).1
    have hr := refs_expr hp ht
    have hq : progTree (.where_ (.source c!"main") p.unalias) =
        some ⟨[], mCall (mCall (.name c!"spark") c!"table" [.str c!"main"]) c!"where" [t]⟩ := by
      simp only [progTree, show Plain '\'' c!"main" = true by decide +kernel, if_true, onResult, ht, Option.map_some]
    refine ⟨_, by rw [← h]; exact read_prog hq, fun c hc => hr c ?_⟩
    simpa [progRefs, mCall, colRefs, colRefsL] using hc

theorem C73_eval_partial (x : Ext) (n : Str) (hn : Plain '\'' n = true) (e : Expr) (he : plainE e = true) (txt : Str)
    (h : renderPipeline ⟨.disallow, x⟩ [.eval [(n, e)]] = some txt) :
    ∃ q, readProg txt = some q ∧ ∀ c ∈ progRefs q, c ∈ exprFields e := by
  simp only [renderPipeline, runCmds, transform, dispatch, evalStandalone, evalLoop] at h
  cases hp : exprTr .disallow e with
  | none => simp [hp] at h
  | some p =>
    simp only [hp, exprTr_isCol hp, if_true, Option.map_some, Option.some.injEq] at h
    obtain ⟨t, ht, _⟩ := wf_tree _ (wf_unalias p (expr_good _ e p he hp).wf).1
    have hr := refs_expr hp ht
    have hq : progTree (.withColumn (.source c!"main") p.unalias n) =
        some ⟨[], mCall (mCall (.name c!"spark") c!"table" [.str c!"main"]) c!"withColumn" [.str n, t]⟩ := by
      simp only [progTree, show Plain '\'' c!"main" = true by decide +kernel, if_true, onResult, ht, hn, Option.map_some]
    refine ⟨_, by rw [← h]; exact read_prog hq, fun c hc => hr c ?_⟩
    simpa [progRefs, mCall, colRefs, colRefsL] using hc

end Verif.Props
