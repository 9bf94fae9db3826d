import Verif.Rt.Library
import Verif.Spec.Runtime
import Verif.Props.Runtime
import Verif.Lemmas.Meaning
import Verif.Lemmas.Numbers
/-
Evaluation of generated expressions with the runtime library.
-/
namespace Verif.Lemmas.Library
open Verif Verif.Rt Verif.Spec Verif.Props

/-- the expression is its own value -/
def Native (p : PE) : Prop := evalRt p = some (.col p) ∧ p.unalias = p ∧ p.isCol = true

/-- a value standing for the column `q` -/
def Stands (v : RV) (q : PE) : Prop := v = .col q ∨ v = .obj (some q)

theorem Stands.toExpr {v q} (h : Stands v q) : v.toExpr = some (some q) := by
  rcases h with rfl | rfl <;> rfl

theorem Stands.conv {v q} (h : Stands v q) : conv .expr v = some (.e (some q)) := by
  cases v <;> simp [Rt.conv, h.toExpr]

/-- the value with which an expression of a kind is represented -/
def shape (column : Bool) (q : PE) : RV := if column then .col q else .obj (some q)

theorem shape_stands (b q) : Stands (shape b q) q := by
  cases b
  · exact .inr rfl
  · exact .inl rfl

theorem unalias_aliased {c : PE} {n : Str} (h : c.isCol = true) : (PE.aliased c n).unalias = c.unalias := by
  cases c <;> simp_all [PE.unalias, PE.isCol]

theorem unalias_withAlias {c : PE} {n : Str} (h : c.isCol = true) (hu : c.unalias = c) : (c.withAlias n).unalias = c := by
  rw [PE.withAlias, hu, unalias_aliased h, hu]

theorem isCol_unalias : ∀ {p : PE}, p.isCol = true → p.unalias.isCol = true
  | .named _, _ | .lit _, _ | .method .., _ | .fn .., _ | .bin .., _ | .not _, _ => rfl
  | .aliased c n, _ => by
    cases h : c.isCol
    · cases c <;> simp_all [PE.isCol, PE.unalias]
    · rw [unalias_aliased h]; exact isCol_unalias h

/-- what is shown of an expression: the translations and the value -/
structure Same (column : Bool) (e : Expr) (p q : PE) : Prop where
  req : exprTr .require e = some p
  all : exprTr .allow e = some p
  dis : exprTr .disallow e = some q
  val : evalRt p.unalias = some (shape column q.unalias)
  flat : p.unalias = p

theorem Native.same {e p} (h : Native p) (hr : ∀ m, exprTr m e = some p) : Same true e p p :=
  ⟨hr _, hr _, hr _, by rw [h.2.1]; exact h.1, h.2.1⟩

theorem native_bin {op l r} (ho : colOps.contains op = true) (hl : Native l) (hr : Native r) : Native (.bin op l r) := by
  refine ⟨?_, rfl, rfl⟩
  simp only [evalRt, hl.1, hr.1, rtBin, ho, if_true]

theorem native_bin_py {op l c} (ho : colOps.contains op = true) (hl : Native l) : Native (.bin op l (.py c)) := by
  refine ⟨?_, rfl, rfl⟩
  simp only [evalRt, hl.1, rtBin, ho, if_true]

theorem native_like {c} (h : Native c) (s : Str) : Native (likeTest c s) := by
  refine ⟨?_, rfl, rfl⟩
  simp only [likeTest, PE.mkMethod, h.2.1, evalRt, h.1, evalRts, pyStr, rtMethod, operands, RV.operand, Option.map_some]

theorem native_named (n) : Native (.named n) := ⟨rfl, rfl, rfl⟩

theorem native_check {f e} (h : listElem e = true) : ∃ p, fieldInCheck f e = some p ∧ Native p := by
  unfold listElem at h
  split at h
  · exact ⟨_, rfl, native_like (native_named _) _⟩
  · exact ⟨_, rfl, native_bin_py rfl (native_named _)⟩
  · rename_i k _ _
    cases k <;> simp [columnK] at h
    all_goals exact ⟨_, rfl, native_bin_py rfl (native_named _)⟩
  · simp at h

theorem native_checks {f} : ∀ {es : List Expr}, es.all listElem = true →
    ∃ ps, fieldInChecks f es = some ps ∧ ∀ p ∈ ps, Native p
  | [], _ => ⟨[], rfl, by simp⟩
  | e :: es, h => by
    simp only [List.all_cons, Bool.and_eq_true] at h
    obtain ⟨p, hp, np⟩ := native_check (f := f) h.1
    obtain ⟨ps, hps, nps⟩ := native_checks (f := f) h.2
    refine ⟨p :: ps, by simp only [fieldInChecks, hp, hps], ?_⟩
    intro q hq
    rcases List.mem_cons.1 hq with rfl | hq
    · exact np
    · exact nps q hq

theorem native_join {op} (ho : colOps.contains op = true) : ∀ {ps : List PE} {x}, Native x → (∀ p ∈ ps, Native p) → Native (joinBinFrom op x ps)
  | [], x, hx, _ => by simpa [joinBinFrom] using hx
  | p :: ps, x, hx, h => by
    rw [joinBinFrom]
    refine native_join ho ?_ fun q hq => h q (List.mem_cons_of_mem _ hq)
    exact native_bin ho hx (h p List.mem_cons_self)

theorem native_in {f es} (h : es.all listElem = true) : ∃ p, fieldInTr f es = some p ∧ Native p := by
  obtain ⟨ps, hps, nps⟩ := native_checks (f := f) h
  refine ⟨_, by simp only [fieldInTr, hps, Option.map_some]; rfl, ?_⟩
  cases ps with
  | nil => exact ⟨rfl, rfl, rfl⟩
  | cons p ps =>
    exact native_join rfl (nps p List.mem_cons_self) fun q hq => nps q (List.mem_cons_of_mem _ hq)

/-! ### arguments -/

theorem len2 {α} : ∀ {l : List α}, l.length = 2 → ∃ a b, l = [a, b]
  | [a, b], _ => ⟨a, b, rfl⟩

theorem len3 {α} : ∀ {l : List α}, l.length = 3 → ∃ a b c, l = [a, b, c]
  | [a, b, c], _ => ⟨a, b, c, rfl⟩

/-- the elements correspond -/
inductive All2 {α β} (R : α → β → Prop) : List α → List β → Prop
  | nil : All2 R [] []
  | cons {a b as bs} (h : R a b) (t : All2 R as bs) : All2 R (a :: as) (b :: bs)

theorem All2.one {α β} {R : α → β → Prop} {as b} (h : All2 R as [b]) : ∃ a, as = [a] ∧ R a b := by
  cases h with | cons h t => cases t; exact ⟨_, rfl, h⟩

theorem All2.two {α β} {R : α → β → Prop} {as b c} (h : All2 R as [b, c]) : ∃ a a', as = [a, a'] ∧ R a b ∧ R a' c := by
  cases h with | cons h t => obtain ⟨_, rfl, h'⟩ := t.one; exact ⟨_, _, rfl, h, h'⟩

theorem All2.three {α β} {R : α → β → Prop} {as b c d} (h : All2 R as [b, c, d]) :
    ∃ a a' a'', as = [a, a', a''] ∧ R a b ∧ R a' c ∧ R a'' d := by
  cases h with | cons h t => obtain ⟨_, _, rfl, h', h''⟩ := t.two; exact ⟨_, _, _, rfl, h, h', h''⟩

/-- translated arguments: what both modes and the evaluation make of them -/
structure Args (args : List Expr) (ps : List PE) (vs : List RV) (qs : List PE) : Prop where
  req : mapArgs (argsTr .require args) = some ps
  all : mapArgs (argsTr .allow args) = some ps
  dis : mapArgs (argsTr .disallow args) = some qs
  val : evalRts ps = some vs
  stands : All2 Stands vs qs
  flat : ∀ q ∈ qs, q.unalias = q ∧ q.isCol = true
  kinds : vs = (args.zip qs).map fun x => shape (isColumn x.1) x.2

theorem args_of : ∀ {args : List Expr}, (∀ a ∈ args, ∃ p q, Same (isColumn a) a p q) → ∃ ps vs qs, Args args ps vs qs
  | [], _ => ⟨[], [], [], rfl, rfl, rfl, rfl, .nil, by simp, rfl⟩
  | a :: args, h => by
    obtain ⟨p, q, hs⟩ := h a List.mem_cons_self
    obtain ⟨ps, vs, qs, ha⟩ := args_of fun b hb => h b (List.mem_cons_of_mem _ hb)
    refine ⟨p.unalias :: ps, shape (isColumn a) q.unalias :: vs, q.unalias :: qs, ?_, ?_, ?_, ?_, ?_, ?_, ?_⟩
    · simp only [argsTr, mapArgs, hs.req, Option.map_some, ha.req]
    · simp only [argsTr, mapArgs, hs.all, Option.map_some, ha.all]
    · simp only [argsTr, mapArgs, hs.dis, Option.map_some, ha.dis]
    · simp only [evalRts, hs.val, ha.val]
    · exact .cons (shape_stands _ _) ha.stands
    · intro x hx
      rcases List.mem_cons.1 hx with rfl | hx
      · exact ⟨Lemmas.unalias_idem q, isCol_unalias (exprTr_isCol hs.dis)⟩
      · exact ha.flat x hx
    · simp only [List.zip_cons_cons, List.map_cons, ha.kinds]

theorem mapArgs_length : ∀ {as : List Arg} {qs}, mapArgs as = some qs → as.length = qs.length
  | [], qs, h => by simp only [mapArgs, Option.some.injEq] at h; subst h; rfl
  | a :: as, qs, h => by
    simp only [mapArgs] at h
    split at h
    · simp at h
    · split at h
      · simp at h
      · rename_i _ xs hxs
        simp only [Option.some.injEq] at h; subst h
        simp only [List.length_cons, mapArgs_length hxs]

theorem mapArgs_one {a : Arg} {x} (h : mapArgs [a] = some [x]) : a.col = some x := by
  simp only [mapArgs] at h
  split at h <;> simp_all

theorem mapArgs_cons {a : Arg} {as x xs} (h : mapArgs (a :: as) = some (x :: xs)) : a.col = some x ∧ mapArgs as = some xs := by
  simp only [mapArgs] at h
  split at h
  · simp at h
  · split at h
    · simp at h
    · simp_all

theorem argsTr_length {m} : ∀ {es : List Expr}, (argsTr m es).length = es.length
  | [] => rfl
  | e :: es => by simp only [argsTr, List.length_cons, argsTr_length]

/-- The two versions of a function build the same column from arguments standing for `qs`. -/
structure Agree (column : Bool) (name : Str) (n : Nat) : Prop where
  notCidr : name ≠ c!"cidrmatch"
  agree : ∀ (as : List Arg) (vs : List RV) (qs : List PE), qs.length = n → mapArgs as = some qs →
    All2 Stands vs qs → (∀ q ∈ qs, q.unalias = q ∧ q.isCol = true) →
    ∃ q, evalFnBare name as = some q ∧ evalCall (runtimeEvalName name) vs = some (shape column q.unalias)

theorem rtFn_eval (n : Str) (vs) : rtFn (c!"functions.eval." ++ n) vs = evalCall n vs := rfl

theorem Agree.same {column name args} (h : Agree column name args.length) (hc : column = isColumn (.call name args))
    (ha : ∀ a ∈ args, ∃ p q, Same (isColumn a) a p q) : ∃ p q, Same (isColumn (.call name args)) (.call name args) p q := by
  obtain ⟨ps, vs, qs, A⟩ := args_of ha
  obtain ⟨q, hq, hv⟩ := h.agree (argsTr .disallow args) vs qs (by rw [← mapArgs_length A.dis, argsTr_length]) A.dis A.stands A.flat
  refine ⟨.fn (c!"functions.eval." ++ runtimeEvalName name) ps, q, ?_, ?_, ?_, ?_, rfl⟩
  · simp only [exprTr, evalFn, evalFnRuntime, if_neg h.notCidr, A.req, Option.map_some]
  · simp only [exprTr, evalFn, evalFnRuntime, if_neg h.notCidr, A.all, Option.map_some, orElse]
  · simp only [exprTr, evalFn, hq]
  · rw [PE.unalias, ← hc, ← hv]
    · simp only [evalRt, A.val, rtFn_eval]
    all_goals simp

theorem agree0 {name alias : Str} {c : PE} (hc : name ≠ c!"cidrmatch") (h1 : lookupFn name evalTable = some (.nullary alias c))
    (h2 : lookupLib (runtimeEvalName name) libEval = some (lib0 c)) (hf : c.unalias = c ∧ c.isCol = true) : Agree false name 0 := by
  refine ⟨hc, fun as vs qs hn ha hv hq => ?_⟩
  obtain rfl : qs = [] := List.length_eq_zero_iff.1 hn
  cases hv
  have has : as = [] := List.length_eq_zero_iff.1 (by rw [mapArgs_length ha, hn])
  subst has
  refine ⟨c.withAlias alias, by simp [evalFnBare, h1, FnSpec.apply, FnSpec.nullary, bindParams], ?_⟩
  rw [unalias_withAlias hf.2 hf.1]
  simp [evalCall, h2, LibFn.call, lib0, bindArgs, bindRest, retVal, shape]

theorem agree1 {name alias : Str} {column : Bool} {f g : PE → PE} (hc : name ≠ c!"cidrmatch")
    (h1 : lookupFn name evalTable = some (.one alias f))
    (h2 : lookupLib (runtimeEvalName name) libEval = some (lib1 (!column) g))
    (hg : ∀ x : PE, x.unalias = x → g x = f x) (hf : ∀ x : PE, (f x).unalias = f x ∧ (f x).isCol = true) :
    Agree column name 1 := by
  refine ⟨hc, fun as vs qs hn ha hv hq => ?_⟩
  obtain ⟨x, rfl⟩ := List.length_eq_one_iff.1 hn
  obtain ⟨v, rfl, h⟩ := hv.one
  obtain ⟨a, rfl⟩ := List.length_eq_one_iff.1 ((mapArgs_length ha).trans hn)
  have hx := mapArgs_one ha
  refine ⟨(f x).withAlias alias, by simp [evalFnBare, h1, FnSpec.apply, FnSpec.one, bindParams, bindParam, hx], ?_⟩
  rw [unalias_withAlias (hf x).2 (hf x).1]
  simp [evalCall, h2, LibFn.call, lib1, bindArgs, bindRest, h.conv, hg x (hq x (by simp)).1]
  cases column <;> rfl

theorem agree2 {name alias : Str} {f g : PE → PE → PE} (hc : name ≠ c!"cidrmatch")
    (h1 : lookupFn name evalTable = some (.two alias f))
    (h2 : lookupLib (runtimeEvalName name) libEval = some (lib2 g))
    (hg : ∀ x y : PE, x.unalias = x → g x y = f x y) (hf : ∀ x y : PE, (f x y).unalias = f x y ∧ (f x y).isCol = true) :
    Agree false name 2 := by
  refine ⟨hc, fun as vs qs hn ha hv hq => ?_⟩
  obtain ⟨x, y, rfl⟩ := len2 hn
  obtain ⟨v, w, rfl, h, hw⟩ := hv.two
  obtain ⟨a, b, rfl⟩ := len2 ((mapArgs_length ha).trans hn)
  obtain ⟨hx, hy⟩ := mapArgs_cons ha
  have hy := mapArgs_one hy
  refine ⟨(f x y).withAlias alias, by simp [evalFnBare, h1, FnSpec.apply, FnSpec.two, bindParams, bindParam, hx, hy], ?_⟩
  rw [unalias_withAlias (hf x y).2 (hf x y).1]
  simp [evalCall, h2, LibFn.call, lib2, bindArgs, bindRest, h.conv, hw.conv, hg x y (hq x (by simp)).1, retVal, shape]

theorem agree_if : Agree false c!"if" 3 := by
  refine ⟨by decide, fun as vs qs hn ha hv hq => ?_⟩
  obtain ⟨x, y, z, rfl⟩ := len3 hn
  obtain ⟨v, w, u, rfl, h, hw, hu⟩ := hv.three
  obtain ⟨a, b, c, rfl⟩ := len3 ((mapArgs_length ha).trans hn)
  obtain ⟨ha', hb'⟩ := mapArgs_cons ha
  obtain ⟨hb', hc'⟩ := mapArgs_cons hb'
  have hc' := mapArgs_one hc'
  refine ⟨(PE.method (.fn c!"when" [x, y]) c!"otherwise" [z]).withAlias c!"if", ?_, ?_⟩
  · have : lookupFn c!"if" evalTable = some ⟨c!"if", [.expr, .expr, .expr], .exact,
      fun | [.e c, .e t, .e e], _, _ =>
            some (PE.mkMethod (.fn c!"when" [c, t]) c!"otherwise" [e])
          | _, _, _ => none⟩ := rfl
    simp [evalFnBare, this, FnSpec.apply, bindParams, bindParam, ha', hb', hc', PE.mkMethod, PE.unalias]
  · rw [unalias_withAlias rfl rfl]
    have : lookupLib (runtimeEvalName c!"if") libEval = some ⟨[(.expr, true), (.expr, true), (.expr, true)], none, true,
      fun | [.e (some c), .e (some t), .e (some f)] =>
            some (.col (.method (.fn c!"when" [c, t]) c!"otherwise" [f]))
          | _ => none⟩ := rfl
    simp [evalCall, this, LibFn.call, bindArgs, bindRest, h.conv, hw.conv, hu.conv, retVal, shape]

/-- `max` and `min` of one argument -/
theorem agree_pick {name : Str} {f : PE → PE → PE} (hc : name ≠ c!"cidrmatch")
    (h1 : lookupFn name evalTable = some ⟨name, [], .mapped, fun _ _ ms => foldArgs f ms⟩)
    (h2 : lookupLib (runtimeEvalName name) libEval = some ⟨[], some .expr, true,
      fun | [.e (some x)] => some (.col x) | [.e none] => some .other | _ => none⟩) : Agree false name 1 := by
  refine ⟨hc, fun as vs qs hn ha hv hq => ?_⟩
  obtain ⟨x, rfl⟩ := List.length_eq_one_iff.1 hn
  obtain ⟨v, rfl, h⟩ := hv.one
  refine ⟨x.withAlias name, ?_, ?_⟩
  · simp [evalFnBare, h1, FnSpec.apply, bindParams, ha, foldArgs]
  · obtain ⟨hx, hx'⟩ := hq x (by simp)
    rw [unalias_withAlias hx' hx]
    simp [evalCall, h2, LibFn.call, bindArgs, bindRest, h.conv, retVal, shape]

theorem bind_rest : ∀ {vs : List RV} {qs}, All2 Stands vs qs → bindRest (some .expr) vs = some (qs.map fun q => .e (some q))
  | _, _, .nil => rfl
  | _, _, .cons h t => by simp only [bindRest, h.conv, bind_rest t, List.map_cons]

theorem colsOf_map : ∀ {qs : List PE}, colsOf (qs.map fun q => .e (some q)) = some qs
  | [] => rfl
  | q :: qs => by simp only [List.map_cons, colsOf, colsOf_map, Option.map_some]

theorem agree_coalesce (n : Nat) : Agree false c!"coalesce" n := by
  refine ⟨by decide, fun as vs qs hn ha hv hq => ?_⟩
  refine ⟨(PE.fn c!"coalesce" qs).withAlias c!"coalesce", ?_, ?_⟩
  · have : lookupFn c!"coalesce" evalTable = some ⟨c!"coalesce", [], .mapped, fun _ _ ms => some (.fn c!"coalesce" ms)⟩ := rfl
    simp [evalFnBare, this, FnSpec.apply, bindParams, ha]
  · rw [unalias_withAlias rfl rfl]
    have : lookupLib (runtimeEvalName c!"coalesce") libEval = some ⟨[], some .expr, true,
      fun as => (colsOf as).map fun cs => .col (.fn c!"coalesce" cs)⟩ := rfl
    simp [evalCall, this, LibFn.call, bindArgs, bind_rest hv, colsOf_map, retVal, shape]

theorem agree_shared {name : Str} {n : Nat} (h : (name, n) ∈ sharedFns) : Agree (columnFns.contains name) name n := by
  simp only [sharedFns, List.mem_cons, List.not_mem_nil, or_false, Prod.mk.injEq] at h
  rcases h with h | h | h | h | h | h | h | h | h | h | h | h | h | h | h | h | h | h | h | h | h | h | h | h | h | h | h |
    h | h | h | h | h | h | h | h | h | h | h | h | h | h | h | h | h | h | h | h | h | h | h | h
  all_goals obtain ⟨rfl, rfl⟩ := h
  all_goals first
    | exact agree0 (by decide) rfl rfl ⟨rfl, rfl⟩
    | exact agree_if
    | exact agree_pick (by decide) rfl rfl
    | exact agree1 (by decide) rfl rfl (fun _ _ => rfl) (fun _ => ⟨rfl, rfl⟩)
    | exact agree2 (by decide) rfl rfl (fun _ _ _ => rfl) (fun _ _ => ⟨rfl, rfl⟩)
    | exact agree2 (by decide) rfl rfl (fun x _ hx => by simp [PE.mkMethod, hx]) (fun _ _ => ⟨rfl, rfl⟩)
    | exact agree1 (by decide) rfl rfl (fun x hx => by simp [PE.mkMethod, hx]; rfl) (fun _ => ⟨rfl, rfl⟩)

/-! ### expressions -/

theorem native_lit {c : Str} (h : ∃ x ∈ c, x ∉ c!"truefals") : Native (.lit c) := by
  refine ⟨?_, rfl, rfl⟩
  obtain ⟨x, hx, hn⟩ := h
  have h1 : c ≠ c!"true" := by
    rintro rfl
    have : ∀ y ∈ c!"true", y ∈ c!"truefals" := by decide
    exact hn (this x hx)
  have h2 : c ≠ c!"false" := by
    rintro rfl
    have : ∀ y ∈ c!"false", y ∈ c!"truefals" := by decide
    exact hn (this x hx)
  simp [evalRt, rtLit, h1, h2]

theorem dig_notin {x : Char} (h : isDig x = true) : x ∉ c!"truefals" := by
  intro hx
  have : ∀ y ∈ c!"truefals", isDig y = false := by decide
  rw [this x hx] at h
  exact absurd h (by simp)

theorem native_int (n : Int) : Native (.lit (showInt n)) := by
  apply native_lit
  cases n with
  | ofNat n =>
    obtain ⟨h1, h2, _⟩ := Lemmas.showNat_ok n
    cases hs : showNat n with
    | nil => exact absurd hs h2
    | cons x xs =>
      refine ⟨x, by simp [showInt, hs], dig_notin ?_⟩
      rw [hs] at h1
      simp only [List.all_cons, Bool.and_eq_true] at h1
      exact h1.1
  | negSucc n => exact ⟨'-', by simp [showInt], by decide⟩

theorem strip_ok : ∀ {w : Str}, w.all isDig = true → ∃ x ∈ stripLeadingZeros w, isDig x = true
  | [], _ => ⟨'0', by simp [stripLeadingZeros], rfl⟩
  | [c], h => ⟨c, by simp [stripLeadingZeros], by simpa using h⟩
  | c :: d :: cs, h => by
    simp only [List.all_cons, Bool.and_eq_true] at h
    rw [stripLeadingZeros]
    · split
      · exact strip_ok (by simp [h.2])
      · exact ⟨c, by simp, h.1⟩
    · simp

theorem native_double {d : Dbl} (h : d.whole.all isDig = true) : Native (.lit d.text) := by
  apply native_lit
  obtain ⟨x, hx, hd⟩ := strip_ok h
  exact ⟨x, by simp [Dbl.text, hx], dig_notin hd⟩

theorem native_quoted (s : Str) : Native (.lit (c!"'" ++ s ++ c!"'")) :=
  native_lit ⟨'\'', by simp, by decide⟩

theorem native_const {k : Constant} (h : columnK k = true) : ∃ p, constTr k = some p ∧ Native p := by
  cases k <;> simp [columnK] at h
  · exact ⟨_, rfl, native_int _⟩
  · exact ⟨_, rfl, native_double (by simpa using h)⟩
  · exact ⟨_, rfl, native_quoted _⟩
  · exact ⟨_, rfl, native_named _⟩
  · exact ⟨_, rfl, native_quoted _⟩

theorem mapOp_ok {op : Str} (h : op ∈ sharedOps) : colOps.contains (mapOp op) = true := by
  revert op; decide

theorem general_same {l op r pl ql pr qr} (ho : op ∈ sharedOps) (hl : Same true l pl ql) (hr : Same true r pr qr) :
    (∀ m, generalBin (exprTr m l) (mapOp op) (exprTr m r) = binTr l op r (exprTr m l) (exprTr m r)) →
    ∃ p q, Same true (.binary l op r) p q := by
  intro hb
  refine ⟨PE.mkBin pl (mapOp op) pr, PE.mkBin ql (mapOp op) qr, ?_, ?_, ?_, ?_, rfl⟩
  · rw [exprTr, ← hb, hl.req, hr.req]; rfl
  · rw [exprTr, ← hb, hl.all, hr.all]; rfl
  · rw [exprTr, ← hb, hl.dis, hr.dis]; rfl
  · have h1 := hl.val
    have h2 := hr.val
    simp only [shape, if_true] at h1 h2 ⊢
    simp only [PE.mkBin, PE.unalias, evalRt, h1, h2, rtBin, mapOp_ok ho, if_true]

theorem bin_same {l op r pl ql pr qr} (ho : op ∈ sharedOps) (hl : Same true l pl ql) (hr : Same true r pr qr) :
    ∃ p q, Same true (.binary l op r) p q := by
  by_cases hc : ∃ c k, l = .const (.field c) ∧ r = .const (.ipv4cidr k) ∧ mapOp op = c!"=="
  · obtain ⟨c, k, rfl, rfl, hm⟩ := hc
    refine ⟨_, _, Native.same (p := .fn c!"expr" [pyStr (c!"cidr_match('" ++ k ++ c!"', " ++ c ++ c!")")])
      ⟨?_, rfl, rfl⟩ fun m => ?_⟩
    · simp only [evalRt, evalRts, pyStr]
      rfl
    · simp only [exprTr, binTr, hm, if_true]
  · refine general_same ho hl hr fun m => ?_
    unfold binTr
    split
    · have := hr.req
      simp [exprTr, constTr] at this
    · split
      · rename_i _ k _ c
        have : ¬ mapOp op = c!"==" := fun h => hc ⟨c, k, rfl, rfl, h⟩
        rw [if_neg this]
      · rfl
    · rfl

theorem pattern_same {l op p pl ql} (hl : Same true l pl ql) (ho : op = c!"=" ∨ op = c!"==" ∨ op = c!"!=") :
    ∃ p' q', Same true (.binary l op (.const (.wildcard p))) p' q' := by
  have hv := hl.val
  simp only [shape, if_true] at hv
  rcases ho with rfl | rfl | rfl
  · refine ⟨likeTest pl p, likeTest ql p, ?_, ?_, ?_, ?_, rfl⟩
    · rw [exprTr, hl.req]; rfl
    · rw [exprTr, hl.all]; rfl
    · rw [exprTr, hl.dis]; rfl
    · simp only [likeTest, PE.mkMethod, PE.unalias, evalRt, hv, evalRts, pyStr, rtMethod, operands, RV.operand, shape,
        if_true, Option.map_some]
  · refine ⟨likeTest pl p, likeTest ql p, ?_, ?_, ?_, ?_, rfl⟩
    · rw [exprTr, hl.req]; rfl
    · rw [exprTr, hl.all]; rfl
    · rw [exprTr, hl.dis]; rfl
    · simp only [likeTest, PE.mkMethod, PE.unalias, evalRt, hv, evalRts, pyStr, rtMethod, operands, RV.operand, shape,
        if_true, Option.map_some]
  · refine ⟨PE.mkNot (likeTest pl p), PE.mkNot (likeTest ql p), ?_, ?_, ?_, ?_, rfl⟩
    · rw [exprTr, hl.req]; rfl
    · rw [exprTr, hl.all]; rfl
    · rw [exprTr, hl.dis]; rfl
    · simp only [PE.mkNot, likeTest, PE.mkMethod, PE.unalias, evalRt, hv, evalRts, pyStr, rtMethod, operands, RV.operand, shape,
        if_true, Option.map_some]

theorem not_same {e pe qe} (h : Same true e pe qe) : ∃ p q, Same true (.unary c!"NOT" e) p q := by
  refine ⟨PE.mkNot pe, PE.mkNot qe, ?_, ?_, ?_, ?_, rfl⟩
  · simp only [exprTr, if_true, h.req, Option.map_some]
  · simp only [exprTr, if_true, h.all, Option.map_some]
  · simp only [exprTr, if_true, h.dis, Option.map_some]
  · have := h.val
    simp only [shape, if_true] at this ⊢
    simp only [PE.mkNot, PE.unalias, evalRt, this]

theorem shared_same {e : Expr} (h : Shared e) : ∃ p q, Same (isColumn e) e p q := by
  induction h with
  | const h =>
    obtain ⟨p, hp, np⟩ := native_const h
    exact ⟨p, p, np.same fun m => by rw [exprTr]; exact hp⟩
  | @binary l op r ho _ _ cl cr ihl ihr =>
    obtain ⟨pl, ql, hl⟩ := ihl
    obtain ⟨pr, qr, hr⟩ := ihr
    rw [cl] at hl
    rw [cr] at hr
    exact bin_same ho hl hr
  | @pattern l op p _ cl ho ihl =>
    obtain ⟨pl, ql, hl⟩ := ihl
    rw [cl] at hl
    exact pattern_same hl ho
  | not _ ce ih =>
    obtain ⟨p, q, h⟩ := ih
    rw [ce] at h
    exact not_same h
  | @inList f es h =>
    obtain ⟨p, hp, np⟩ := native_in (f := f) h
    exact ⟨p, p, np.same fun m => by rw [exprTr]; exact hp⟩
  | call hn _ ih => exact (agree_shared hn).same rfl ih
  | coalesce _ ih => exact (agree_coalesce _).same rfl ih

end Verif.Lemmas.Library
