import Verif.Lemmas.Library
import Verif.Rt.Commands
import Verif.Props.Program
/-
C61-C63: expressions that call the runtime library, against the library.
-/
namespace Verif.Props
open Verif Verif.Rt Verif.Spec Verif.Lemmas.Library

/-! ### C61: the calls succeed -/

/-- a Python literal -/
def isLiteral : RV → Bool
  | .lit _ => true
  | _ => false

theorem retVal_notLit (a r) : isLiteral (retVal a r) = false := by
  cases r with
  | col c => cases a <;> rfl
  | _ => rfl

theorem evalCall_notLit {n vs v} (h : evalCall n vs = some v) : isLiteral v = false := by
  unfold evalCall at h
  split at h
  · simp at h
  · unfold LibFn.call at h
    split at h
    · simp at h
    · obtain ⟨r, _, rfl⟩ := Option.map_eq_some_iff.1 h
      exact retVal_notLit _ _

theorem statsCall_notLit {n vs v} (h : statsCall n vs = some v) : isLiteral v = false := by
  unfold statsCall at h
  split at h
  · simp at h
  · split at h
    · simp at h
    · obtain ⟨r, _, rfl⟩ := Option.map_eq_some_iff.1 h
      rfl

/-- no translated expression evaluates to a Python literal -/
theorem evalRt_notLit {p v} (hc : p.isCol = true) (h : evalRt p = some v) : isLiteral v = false := by
  cases p with
  | py => simp [PE.isCol] at hc
  | named => simp only [evalRt, Option.some.injEq] at h; subst h; rfl
  | lit c =>
    simp only [evalRt, rtLit] at h
    split at h <;> simp at h
    subst h; rfl
  | aliased e n =>
    simp only [evalRt] at h
    split at h <;> simp at h
    subst h; rfl
  | not e =>
    simp only [evalRt] at h
    split at h <;> simp at h
    subst h; rfl
  | bin op l r =>
    simp only [evalRt] at h
    split at h
    · unfold rtBin at h
      split at h
      · split at h <;> simp at h <;> subst h <;> rfl
      · simp at h
    · simp at h
  | method c f as =>
    simp only [evalRt] at h
    split at h
    · unfold rtMethod at h
      split at h
      · obtain ⟨r, _, rfl⟩ := Option.map_eq_some_iff.1 h
        rfl
      · simp at h
    · simp at h
  | fn f as =>
    simp only [evalRt] at h
    split at h
    · unfold rtFn at h
      split at h
      · exact evalCall_notLit h
      · split at h
        · exact statsCall_notLit h
        · split at h
          · simp at h
          · obtain ⟨r, _, rfl⟩ := Option.map_eq_some_iff.1 h
            rfl
    · simp at h

theorem evalRts_notLit : ∀ {ps vs}, (∀ p ∈ ps, PE.isCol p = true) → evalRts ps = some vs → ∀ v ∈ vs, isLiteral v = false
  | [], vs, _, h => by simp only [evalRts, Option.some.injEq] at h; subst h; simp
  | p :: ps, vs, hc, h => by
    simp only [evalRts] at h
    split at h
    · rename_i v vs' hv hvs
      simp only [Option.some.injEq] at h
      subst h
      intro w hw
      rcases List.mem_cons.1 hw with rfl | hw
      · exact evalRt_notLit (hc p List.mem_cons_self) hv
      · exact evalRts_notLit (fun x hx => hc x (List.mem_cons_of_mem _ hx)) hvs w hw
    · simp at h

/-- annotations that take only literals -/
def strict : PTy → Bool
  | .int | .str | .never => true
  | _ => false

theorem conv_strict {t v} (ht : strict t = true) (hv : isLiteral v = false) : conv t v = none := by
  cases t <;> simp [strict] at ht <;> cases v <;> simp_all [conv, isLiteral]

theorem bindRest_strict {t v vs} (ht : strict t = true) (hv : isLiteral v = false) : bindRest (some t) (v :: vs) = none := by
  simp only [bindRest, conv_strict ht hv]

theorem bindArgs_strict {rest} : ∀ {ps : List (PTy × Bool)} {vs}, (ps.any fun p => p.2 && strict p.1) = true →
    (∀ v ∈ vs, isLiteral v = false) → bindArgs rest ps vs = none
  | [], vs, h, _ => by simp at h
  | (t, req) :: ps, [], h, hv => by
    simp only [List.any_cons, Bool.or_eq_true, Bool.and_eq_true] at h
    simp only [bindArgs]
    split
    · rfl
    · rename_i hr
      rcases h with h | h
      · exact absurd h.1 hr
      · rw [bindArgs_strict h hv]
  | (t, req) :: ps, v :: vs, h, hv => by
    simp only [List.any_cons, Bool.or_eq_true, Bool.and_eq_true] at h
    simp only [bindArgs]
    rcases h with h | h
    · rw [conv_strict h.2 (hv v List.mem_cons_self)]
    · rw [bindArgs_strict h fun w hw => hv w (List.mem_cons_of_mem _ hw)]
      split <;> simp_all

/-- a second argument for a parameter that takes only literals -/
theorem bindArgs_second {rest t p q ps v w vs} (ht : strict t = true) (hw : isLiteral w = false) :
    bindArgs rest ((p, q) :: (t, false) :: ps) (v :: w :: vs) = none := by
  simp only [bindArgs]
  split
  · rfl
  · rw [conv_strict ht hw]

/-- the library call never succeeds on values that are not literals -/
theorem call_broken {name vs} (hn : name ∈ brokenFns) (hv : ∀ v ∈ vs, isLiteral v = false) :
    evalCall (runtimeEvalName name) vs = none := by
  have key : ∀ f : LibFn, lookupLib (runtimeEvalName name) libEval = some f →
      ((f.params.any fun p => p.2 && strict p.1) = true ∨ ∀ as, f.body as = none) →
      evalCall (runtimeEvalName name) vs = none := by
    intro f hf h
    simp only [evalCall, hf, LibFn.call]
    rcases h with h | h
    · rw [bindArgs_strict h hv]
    · split
      · rfl
      · simp [h]
  have miss : lookupLib (runtimeEvalName name) libEval = none → evalCall (runtimeEvalName name) vs = none := by
    intro h; simp only [evalCall, h]
  simp only [brokenFns, List.mem_cons, List.not_mem_nil, or_false] at hn
  rcases hn with rfl | rfl | rfl | rfl | rfl | rfl | rfl | rfl | rfl | rfl | rfl | rfl | rfl | rfl | rfl | rfl | rfl |
    rfl | rfl | rfl | rfl | rfl
  all_goals first
    | exact miss rfl
    | exact key _ rfl (.inl rfl)
    | exact key _ rfl (.inr fun _ => rfl)

theorem call_two {name v w vs} (hn : name ∈ brokenWithTwo) (hw : isLiteral w = false) :
    evalCall (runtimeEvalName name) (v :: w :: vs) = none := by
  have pick : ∀ f : LibFn, lookupLib (runtimeEvalName name) libEval = some f → f.params = [] → f.rest = some .expr →
      (∀ a b as, f.body (a :: b :: as) = none) → evalCall (runtimeEvalName name) (v :: w :: vs) = none := by
    intro f hf hp hr hb
    simp only [evalCall, hf, LibFn.call, hp, hr, bindArgs, bindRest]
    cases conv .expr v with
    | none => rfl
    | some a => cases conv .expr w with
      | none => rfl
      | some b => cases bindRest (some .expr) vs with
        | none => rfl
        | some as => simp [hb]
  simp only [brokenWithTwo, List.mem_cons, List.not_mem_nil, or_false] at hn
  rcases hn with rfl | rfl | rfl | rfl
  · have h : lookupLib (runtimeEvalName c!"round") libEval = some ⟨[(.expr, true), (.int, false)], none, true,
      fun | [.e (some x), .dflt] => some (.col (.fn c!"round" [x, .py c!"0"]))
          | [.e (some x), .k n] => some (.col (.fn c!"round" [x, kArg n]))
          | _ => none⟩ := rfl
    simp only [evalCall, h, LibFn.call, bindArgs_second (t := .int) rfl hw]
  · exact pick _ rfl rfl rfl (fun a _ _ => by cases a with | e c => cases c <;> rfl | _ => rfl)
  · exact pick _ rfl rfl rfl (fun a _ _ => by cases a with | e c => cases c <;> rfl | _ => rfl)
  · have h : lookupLib (runtimeEvalName c!"relative_time") libEval = some ⟨[(.expr, true), (.never, false), (.never, false), (.never, false)], none, true,
      fun | .e (some x) :: _ => some (.col (.fn c!"to_timestamp" [x])) | _ => none⟩ := rfl
    simp only [evalCall, h, LibFn.call, bindArgs_second (t := .never) rfl hw]

theorem mapArgs_isCol {m} : ∀ {es : List Expr} {ps}, mapArgs (argsTr m es) = some ps → ∀ p ∈ ps, p.isCol = true
  | [], ps, h => by simp only [argsTr, mapArgs, Option.some.injEq] at h; subst h; simp
  | e :: es, ps, h => by
    simp only [argsTr, mapArgs] at h
    split at h
    · simp at h
    · rename_i x hx
      split at h
      · simp at h
      · rename_i xs hxs
        simp only [Option.some.injEq] at h; subst h
        obtain ⟨y, hy, rfl⟩ := Option.map_eq_some_iff.1 hx
        intro p hp
        rcases List.mem_cons.1 hp with rfl | hp
        · exact isCol_unalias (exprTr_isCol hy)
        · exact mapArgs_isCol hxs p hp

/-- with the library required, a call is a call of the library -/
theorem require_call {name args p} (hn : name ≠ c!"cidrmatch") (h : exprTr .require (.call name args) = some p) :
    ∃ ps, mapArgs (argsTr .require args) = some ps ∧ p = .fn (c!"functions.eval." ++ runtimeEvalName name) ps := by
  simp only [exprTr, evalFn, evalFnRuntime, if_neg hn] at h
  obtain ⟨ps, h1, h2⟩ := Option.map_eq_some_iff.1 h
  exact ⟨ps, h1, h2.symm⟩

theorem evalCall_of {name : Str} {ps : List PE}
    (h : ∀ vs, evalRts ps = some vs → evalCall name vs = none) : evalRt (.fn (c!"functions.eval." ++ name) ps) = none := by
  simp only [evalRt]
  split
  · rename_i vs hvs
    rw [rtFn_eval]; exact h vs hvs
  · rfl

theorem broken_ne {name : Str} (h : name ∈ brokenFns ∨ name ∈ brokenWithTwo) : name ≠ c!"cidrmatch" := by
  rintro rfl
  revert h
  decide

/-- **C61 (refutation).** A call of one of these functions, whatever its arguments, becomes a call
of the runtime library that raises an exception. -/
theorem C61_library_call_raises {name args p} (hn : name ∈ brokenFns)
    (h : exprTr .require (.call name args) = some p) : evalRt p = none := by
  obtain ⟨ps, hps, rfl⟩ := require_call (broken_ne (.inl hn)) h
  exact evalCall_of fun vs hvs => call_broken hn (evalRts_notLit (mapArgs_isCol hps) hvs)

/-- **C61 (refutation).** `round`, `max`, `min` and `relative_time` of two or more arguments raise. -/
theorem C61_second_argument_raises {name a b args p} (hn : name ∈ brokenWithTwo)
    (h : exprTr .require (.call name (a :: b :: args)) = some p) : evalRt p = none := by
  obtain ⟨ps, hps, rfl⟩ := require_call (broken_ne (.inr hn)) h
  refine evalCall_of fun vs hvs => ?_
  have hl := evalRts_notLit (mapArgs_isCol hps) hvs
  have hlen : vs.length = args.length + 2 := by
    have h1 := mapArgs_length hps
    rw [argsTr_length] at h1
    have h2 : ∀ {ps vs}, evalRts ps = some vs → vs.length = ps.length := by
      intro ps
      induction ps with
      | nil => intro vs h; simp only [evalRts, Option.some.injEq] at h; subst h; rfl
      | cons p ps ih =>
        intro vs h
        simp only [evalRts] at h
        split at h
        · rename_i _ _ _ hvs
          simp only [Option.some.injEq] at h; subst h
          simp [ih hvs]
        · simp at h
    rw [h2 hvs, ← h1]; rfl
  match vs, hlen with
  | v :: w :: vs, _ => exact call_two hn (hl w (by simp))

/-- **C61 (refutation).** `tostring` of one argument raises, whatever the argument is. -/
theorem C61_tostring_raises {a p} (h : exprTr .require (.call c!"tostring" [a]) = some p) : evalRt p = none := by
  obtain ⟨ps, hps, rfl⟩ := require_call (by decide) h
  refine evalCall_of fun vs hvs => ?_
  have hl : lookupLib (runtimeEvalName c!"tostring") libEval = some ⟨[(.any, true), (.any, false)], none, false,
      fun | [.v (.obj (some x)), .v (.col f)] => some (.col (.fn c!"udfs.tostring" [x, f])) | _ => none⟩ := rfl
  have h1 := mapArgs_length hps
  rw [argsTr_length] at h1
  match ps, h1 with
  | [p], _ =>
    simp only [evalRts] at hvs
    split at hvs
    · simp only [Option.some.injEq] at hvs
      rename_i v vs' _ hv
      cases hv
      subst hvs
      simp only [evalCall, hl, LibFn.call, bindArgs, conv, bindRest, Bool.false_eq_true, if_false]
      cases v <;> first | rfl | (rename_i c; cases c <;> rfl)
    · cases hvs

/-- every one of these functions but `in`, `sum` and `printf` has a working translation for plain PySpark -/
example : ∀ x ∈ [ (c!"memk", c!"a"), (c!"rmcomma", c!"a"), (c!"rmunit", c!"a"), (c!"bit_shift_left", c!"a,2"),
      (c!"bit_shift_right", c!"a,2"), (c!"strftime", c!"a,\"%Y\""), (c!"strptime", c!"a,\"%Y\""),
      (c!"mvappend", c!"a,b"), (c!"mvindex", c!"a,1"), (c!"mvzip", c!"a,b"), (c!"split", c!"a,\"x\""),
      (c!"avg", c!"a,b"), (c!"ltrim", c!"a,\"x\""), (c!"replace", c!"a,\"x\",\"y\""), (c!"rtrim", c!"a,\"x\""),
      (c!"substr", c!"a,1,2"), (c!"trim", c!"a,\"x\""), (c!"log", c!"a,2"), (c!"tonumber", c!"a"), (c!"tostring", c!"a"), (c!"round", c!"a,2"),
      (c!"max", c!"a,b"), (c!"min", c!"a,b")],
    (outOf .disallow (c!"eval y=" ++ x.1 ++ c!"(" ++ x.2 ++ c!")")).isSome = true := by decide +kernel

/-- a call that is made with the library and raises, while plain PySpark has a translation -/
example : ∃ p, exprTr .require (.call c!"trim" [.const (.field c!"a"), .const (.str c!"x")]) = some p ∧ evalRt p = none ∧
    (exprTr .disallow (.call c!"trim" [.const (.field c!"a"), .const (.str c!"x")])).isSome = true :=
  ⟨_, rfl, C61_library_call_raises (name := c!"trim") (args := [.const (.field c!"a"), .const (.str c!"x")]) (by decide) rfl, rfl⟩

example : ∃ p, exprTr .require (.call c!"round" [.const (.field c!"a"), .const (.int 2)]) = some p ∧ evalRt p = none ∧
    (exprTr .disallow (.call c!"round" [.const (.field c!"a"), .const (.int 2)])).isSome = true :=
  ⟨_, rfl, C61_second_argument_raises (name := c!"round") (a := .const (.field c!"a")) (b := .const (.int 2)) (args := []) (by decide) rfl, rfl⟩

/-- **C61 (partial).** The interchangeable expressions translate, and every library call in their
translation succeeds. -/
theorem C61_library_call_succeeds_partial {e : Expr} (h : Shared e) :
    ∃ p, exprTr .require e = some p ∧ exprTr .allow e = some p ∧ (evalRt p.unalias).isSome = true := by
  obtain ⟨p, q, h⟩ := shared_same h
  exact ⟨p, h.req, h.all, by rw [h.val]; rfl⟩

/-- `if(isnull(x), lower(y), coalesce(z, "none"))` -/
def sharedExample : Expr :=
  .call c!"if" [.call c!"isnull" [.const (.field c!"x")],
    .binary (.call c!"len" [.const (.field c!"y")]) c!"+" (.const (.int 1)),
    .call c!"coalesce" [.const (.field c!"z"), .const (.str c!"none")]]

theorem sharedExample_ok : Shared sharedExample := by
  refine .call (by decide) ?_
  intro a ha
  simp only [List.mem_cons, List.not_mem_nil, or_false] at ha
  rcases ha with rfl | rfl | rfl
  · refine .call (by decide) ?_
    simp only [List.mem_cons, List.not_mem_nil, or_false]
    rintro _ rfl
    exact .const rfl
  · refine .binary (by decide) (.call (by decide) ?_) (.const rfl) rfl rfl
    simp only [List.mem_cons, List.not_mem_nil, or_false]
    rintro _ rfl
    exact .const rfl
  · refine .coalesce ?_
    simp only [List.mem_cons, List.not_mem_nil, or_false]
    rintro _ (rfl | rfl)
    · exact .const rfl
    · exact .const rfl

example : ∃ p, exprTr .require sharedExample = some p ∧ (evalRt p.unalias).isSome = true := by
  obtain ⟨p, h, _, h'⟩ := C61_library_call_succeeds_partial sharedExample_ok
  exact ⟨p, h, h'⟩

/-! ### C62: the same column -/

/-- the column a value stands for where an expression is expected -/
def standsFor (v : RV) : Option PE := v.toExpr.bind id

/-- **C62 (partial).** For the interchangeable expressions, the code that uses the runtime library
computes exactly the column of the plain PySpark code. -/
theorem C62_same_column_partial {e : Expr} (h : Shared e) :
    ∃ p q, exprTr .allow e = some p ∧ exprTr .disallow e = some q ∧
      (evalRt p.unalias).bind standsFor = some q.unalias := by
  obtain ⟨p, q, h⟩ := shared_same h
  refine ⟨p, q, h.all, h.dis, ?_⟩
  rw [h.val, Option.bind_some, standsFor, (shape_stands _ _).toExpr]
  rfl

example : ∃ p q, exprTr .allow sharedExample = some p ∧ exprTr .disallow sharedExample = some q ∧
    (evalRt p.unalias).bind standsFor = some q.unalias := C62_same_column_partial sharedExample_ok

/-- values of the arguments of a call -/
theorem call_value {m name args ps} (hm : m ≠ .disallow) (hn : name ≠ c!"cidrmatch")
    (h : mapArgs (argsTr m args) = some ps) : exprTr m (.call name args) = some (.fn (c!"functions.eval." ++ runtimeEvalName name) ps) := by
  cases m with
  | disallow => exact absurd rfl hm
  | _ => simp only [exprTr, evalFn, evalFnRuntime, if_neg hn, h, Option.map_some, orElse]

/-- **C62 (refutation).** `bit_and` of any two expressions is the null literal when the library is
used. -/
theorem C62_bit_and_is_null {a b : Expr} (ha : Shared a) (hb : Shared b) :
    ∃ p q, exprTr .allow (.call c!"bit_and" [a, b]) = some p ∧ exprTr .disallow (.call c!"bit_and" [a, b]) = some q ∧
      (evalRt p.unalias).bind standsFor = some (.lit c!"None") ∧ q.unalias ≠ .lit c!"None" := by
  obtain ⟨ps, vs, qs, A⟩ := args_of (args := [a, b]) (by
    intro x hx
    simp only [List.mem_cons, List.not_mem_nil, or_false] at hx
    rcases hx with rfl | rfl
    · exact shared_same ha
    · exact shared_same hb)
  have hl := mapArgs_length A.dis
  obtain ⟨x, y, rfl⟩ := len2 (hl.symm.trans (argsTr_length (m := .disallow) (es := [a, b])))
  obtain ⟨v, w, rfl, hv, hw⟩ := A.stands.two
  obtain ⟨h1, h2⟩ := mapArgs_cons A.dis
  have h2 := mapArgs_one h2
  refine ⟨_, (PE.mkMethod x c!"bitwiseAND" [y]).withAlias c!"bit_and", call_value (by decide) (by decide) A.all, ?_, ?_, ?_⟩
  · have : lookupFn c!"bit_and" evalTable = some (.two c!"bit_and" fun x y => PE.mkMethod x c!"bitwiseAND" [y]) := rfl
    simp only [exprTr, evalFn, evalFnBare, this, FnSpec.apply, FnSpec.two, argsTr, bindParams, bindParam]
    simp only at h1 h2
    simp [h1, h2]
  · have : lookupLib (runtimeEvalName c!"bit_and") libEval = some ⟨[(.expr, true), (.expr, true)], none, true,
      fun | [.e (some _), .e (some _)] => some .none_ | _ => none⟩ := rfl
    simp only [PE.unalias, evalRt, A.val, rtFn_eval, evalCall, this]
    simp [LibFn.call, bindArgs, bindRest, hv.conv, hw.conv, retVal, standsFor, RV.toExpr]
  · rw [unalias_withAlias rfl rfl]
    simp [PE.mkMethod]

example : ∃ p q, exprTr .allow (.call c!"bit_and" [.const (.field c!"x"), .const (.int 3)]) = some p ∧
    exprTr .disallow (.call c!"bit_and" [.const (.field c!"x"), .const (.int 3)]) = some q ∧
    (evalRt p.unalias).bind standsFor = some (.lit c!"None") ∧ q.unalias ≠ .lit c!"None" :=
  C62_bit_and_is_null (.const rfl) (.const rfl)

/-- an `Expr` object that is no column -/
def noColumn : Option RV → Bool
  | some (.obj none) => true
  | _ => false

theorem colsOf_len {qs : List PE} : ∀ {vs : List RV}, All2 Stands vs qs →
    bindArgs (some .expr) [] vs = some (qs.map fun q => .e (some q)) := fun h => by
  simpa [bindArgs] using bind_rest h

/-- **C62 (refutation).** `case` with any branches is, when the library is used, an object that is
not a column. -/
theorem C62_case_is_no_column {args : List Expr} (ha : ∀ a ∈ args, Shared a) (h0 : args ≠ []) (h2 : args.length % 2 = 0) :
    ∃ p, exprTr .allow (.call c!"case" args) = some p ∧ noColumn (evalRt p.unalias) = true := by
  obtain ⟨ps, vs, qs, A⟩ := args_of (args := args) fun a h => shared_same (ha a h)
  refine ⟨_, call_value (by decide) (by decide) A.all, ?_⟩
  have hl : qs.length = args.length := by rw [← mapArgs_length A.dis, argsTr_length]
  have hne : qs ≠ [] := by
    rintro rfl
    exact h0 (List.length_eq_zero_iff.1 hl.symm)
  have : lookupLib (runtimeEvalName c!"case") libEval = some ⟨[], some .expr, true, fun as => match colsOf as with
      | none => none
      | some cs => if cs.length % 2 = 0 && !cs.isEmpty then some .other else none⟩ := rfl
  have he : qs.isEmpty = false := by cases qs <;> simp_all
  simp only [PE.unalias, evalRt, A.val, rtFn_eval, evalCall, this, LibFn.call, colsOf_len A.stands, colsOf_map]
  simp [hl, h2, he, retVal, noColumn]

example : ∃ p, exprTr .allow (.call c!"case" [.binary (.const (.field c!"x")) c!">" (.const (.int 1)), .const (.str c!"a")]) = some p ∧
    noColumn (evalRt p.unalias) = true := by
  refine C62_case_is_no_column ?_ (by simp) rfl
  simp only [List.mem_cons, List.not_mem_nil, or_false]
  rintro _ (rfl | rfl)
  · exact .binary (by decide) (.const rfl) (.const rfl) rfl rfl
  · exact .const rfl

/-! ### C63: results as operands -/

theorem shape_false {q : PE} : shape false q = .obj (some q) := rfl

/-- **C63 (refutation).** The result of a library function that returns a wrapper object cannot be
an operand: any operator raises, on either side. -/
theorem C63_operand_raises {l r : Expr} {op : Str} {p : PE} (hs : Shared l) (hc : isColumn l = false)
    (hr : ∀ k, r ≠ .const (.ipv4cidr k)) (hw : ∀ k, r ≠ .const (.wildcard k))
    (h : exprTr .allow (.binary l op r) = some p) : evalRt p = none := by
  obtain ⟨pl, ql, hl⟩ := shared_same hs
  rw [hc] at hl
  rw [exprTr, hl.all] at h
  unfold binTr at h
  split at h
  · exact absurd rfl (hw _)
  · exact absurd rfl (hr _)
  · simp only [generalBin] at h
    split at h
    · rename_i a b ha _
      simp only [Option.some.injEq] at ha h
      subst ha h
      simp only [PE.mkBin, evalRt, hl.val, shape_false]
      split
      · rename_i x y hx _
        simp only [Option.some.injEq] at hx
        subst hx
        simp only [rtBin]
        split <;> rfl
      · rfl
    · simp at h

/-- the same for the right operand -/
theorem C63_right_operand_raises {l r : Expr} {op : Str} {p : PE} (hs : Shared r) (hc : isColumn r = false)
    (h : exprTr .allow (.binary l op r) = some p) : evalRt p = none := by
  obtain ⟨pr, qr, hr⟩ := shared_same hs
  rw [hc] at hr
  rw [exprTr, hr.all] at h
  unfold binTr at h
  split at h
  · have := hr.all; simp [exprTr, constTr] at this
  · simp [isColumn] at hc
  · simp only [generalBin] at h
    split at h
    · rename_i a b _ hb
      simp only [Option.some.injEq] at hb h
      subst hb h
      simp only [PE.mkBin, evalRt, hr.val, shape_false]
      split
      · rename_i x y _ hy
        simp only [Option.some.injEq] at hy
        subst hy
        cases x <;> simp [rtBin]
      · rfl
    · simp at h

/-- the same for `NOT` -/
theorem C63_negation_raises {e : Expr} {p : PE} (hs : Shared e) (hc : isColumn e = false)
    (h : exprTr .allow (.unary c!"NOT" e) = some p) : evalRt p = none := by
  obtain ⟨pe, qe, he⟩ := shared_same hs
  rw [hc] at he
  simp only [exprTr, if_true, he.all, Option.map_some, Option.some.injEq] at h
  subst h
  simp only [PE.mkNot, evalRt, he.val, shape_false]

/-- **C63 (refutation).** `where f(x)` with such a function raises when the library is allowed. -/
theorem C63_where_raises {W : World} {x : Ext} {e : Expr} {s t : St} (hs : Shared e) (hc : isColumn e = false)
    (h : transform ⟨.allow, x⟩ (.where_ e) s = some t) : runDF W t.cur = none := by
  obtain ⟨p, q, he⟩ := shared_same hs
  rw [hc] at he
  simp only [transform, dispatch, orElse, whereTr, he.all, Option.map_some, Option.some.injEq] at h
  subst h
  simp only [St.put, St.cur, Option.getD_some, DF.mkWhere, runDF, colArg, he.val, shape_false, Option.bind_some, RV.column]
  split <;> simp_all

/-- **C63 (partial).** When the condition is a column, `where` filters by the column of the plain
PySpark code. -/
theorem C63_where_partial {W : World} {x : Ext} {e : Expr} {s s' : St} (hs : Shared e) (hc : isColumn e = true)
    (hd : runDF W s.cur = some s'.cur) :
    ∃ t t', transform ⟨.allow, x⟩ (.where_ e) s = some t ∧ transform ⟨.disallow, x⟩ (.where_ e) s' = some t' ∧
      runDF W t.cur = some t'.cur := by
  obtain ⟨p, q, he⟩ := shared_same hs
  rw [hc] at he
  refine ⟨s.put (s.cur.mkWhere p), s'.put (s'.cur.mkWhere q), ?_, ?_, ?_⟩
  · simp only [transform, dispatch, orElse, whereTr, he.all, Option.map_some]
  · simp only [transform, dispatch, whereTr, he.dis, Option.map_some]
  · have hv := he.val
    simp only [shape, if_true] at hv
    simp only [St.put, St.cur, Option.getD_some, DF.mkWhere, runDF, colArg, hv, Option.bind_some, RV.column]
    simp only [St.cur] at hd
    rw [hd]

example : ∃ p, exprTr .allow (.binary (.call c!"abs" [.const (.field c!"x")]) c!"+" (.const (.int 1))) = some p ∧ evalRt p = none := by
  refine ⟨_, rfl, C63_operand_raises (l := .call c!"abs" [.const (.field c!"x")]) (op := c!"+") (r := .const (.int 1)) (.call (by decide) ?_) rfl ?_ ?_ rfl⟩
  · simp only [List.mem_cons, List.not_mem_nil, or_false]
    rintro _ rfl
    exact .const rfl
  · simp
  · simp

example (W : World) (x : Ext) : ∃ t, transform ⟨.allow, x⟩ (.where_ (.call c!"isnull" [.const (.field c!"x")])) ⟨0, none⟩ = some t ∧
    runDF W t.cur = none := by
  refine ⟨_, rfl, C63_where_raises (x := x) (s := ⟨0, none⟩) (e := .call c!"isnull" [.const (.field c!"x")]) (.call (by decide) ?_) rfl rfl⟩
  simp only [List.mem_cons, List.not_mem_nil, or_false]
  rintro _ rfl
  exact .const rfl

end Verif.Props
