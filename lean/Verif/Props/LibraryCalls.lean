import Verif.Props.LibraryMore
import Verif.Props.Networks
/-
C61, C62, C65 and C83, continued: calls of the library with plain values, `validate`, truth values, first searches without an index,
and networks with too long a prefix.
-/
namespace Verif.Props
open Verif Verif.Spec Verif.Lemmas Verif.Lemmas.Library Verif.Rt

/-! ### C61: plain values -/

theorem isIntText_showInt (n : Int) : isIntText (showInt n) = true := by
  have key : ∀ n : Nat, (!(showNat n).isEmpty && (showNat n).all isDig) = true := fun n => by
    have := showNat_ok n
    cases h : showNat n with
    | nil => exact absurd h this.2.1
    | cons c s => rw [h] at this; simp [this.1]
  cases n with
  | ofNat n =>
    show isIntText (showNat n) = true
    have h := key n
    unfold isIntText
    split
    · rename_i ds e
      rw [e] at h
      simp at h
      exact absurd h.1 (by decide)
    · exact h
  | negSucc n =>
    show isIntText ('-' :: showNat (n + 1)) = true
    exact key (n + 1)

/-- **C61** The functions with parameters that are no columns work when they are given plain values, as Python code can: the failures of
`C61_library_call_raises` come from the columns the translation passes for them. -/
theorem C61_plain_values (c : PE) (n k : Int) {s r : Str} (hs : Plain '"' s = true) (hr : Plain '"' r = true) :
    evalCall c!"substr" [.col c, .lit (showInt n), .lit (showInt k)] = some (.col (.fn c!"substring" [c, .py (showInt n), .py (showInt k)])) ∧
    evalCall c!"mvindex" [.col c, .lit (showInt n)] = some (.obj (some (.fn c!"get" [c, .py (showInt n)]))) ∧
    evalCall c!"round" [.col c, .lit (showInt n)] = some (.obj (some (.fn c!"round" [c, .py (showInt n)]))) ∧
    evalCall c!"bit_shift_left" [.col c, .lit (showInt n)] = some (.obj (some (.fn c!"shiftleft" [c, .py (showInt n)]))) ∧
    evalCall c!"bit_shift_right" [.col c, .lit (showInt n)] = some (.obj (some (.fn c!"shiftright" [c, .py (showInt n)]))) ∧
    (∀ f ∈ [c!"ltrim", c!"rtrim", c!"trim"], evalCall f [.col c, .lit (c!"\"" ++ s ++ c!"\"")] = some (.col (.fn f [c, .py (c!"\"" ++ s ++ c!"\"")]))) ∧
    evalCall c!"split" [.col c, .lit (c!"\"" ++ s ++ c!"\"")] = some (.obj (some (.fn c!"split" [c, .py (c!"\"" ++ s ++ c!"\"")]))) ∧
    evalCall c!"replace" [.col c, .lit (c!"\"" ++ s ++ c!"\""), .lit (c!"\"" ++ r ++ c!"\"")] =
      some (.col (.fn c!"regexp_replace" [c, .py (c!"\"" ++ s ++ c!"\""), .py (c!"\"" ++ r ++ c!"\"")])) ∧
    (∀ f ∈ [(c!"percentile", c!"percentile_approx"), (c!"upperperc", c!"percentile_approx"), (c!"exactperc", c!"percentile")],
      statsCall f.1 [.col c, .lit (showInt n)] = some (.agg false (some (.fn f.2 [c, .fn c!"int.percent" [.py (showInt n)]])))) := by
  have i1 : conv .int (.lit (showInt n)) = some (.k (showInt n)) := by simp [conv, isIntText_showInt]
  have i2 : conv .int (.lit (showInt k)) = some (.k (showInt k)) := by simp [conv, isIntText_showInt]
  have s1 : conv .str (.lit (c!"\"" ++ s ++ c!"\"")) = some (.k (c!"\"" ++ s ++ c!"\"")) := by rw [conv, strOf_plain hs]; rfl
  have s2 : conv .str (.lit (c!"\"" ++ r ++ c!"\"")) = some (.k (c!"\"" ++ r ++ c!"\"")) := by rw [conv, strOf_plain hr]; rfl
  have e : conv .expr (.col c) = some (.e (some c)) := rfl
  have get : ∀ {name : Str} {f : LibFn} {vs : List RV}, lookupLib name libEval = some f → evalCall name vs = f.call vs := by
    intro name f vs h; rw [evalCall, h]
  refine ⟨?_, ?_, ?_, ?_, ?_, ?_, ?_, ?_, ?_⟩
  · rw [get (name := c!"substr") rfl]; simp [LibFn.call, bindArgs, e, i1, i2, bindRest, retVal, kArg]
  · rw [get (name := c!"mvindex") rfl]; simp [LibFn.call, bindArgs, e, i1, bindRest, retVal, kArg]
  · rw [get (name := c!"round") rfl]; simp [LibFn.call, bindArgs, e, i1, bindRest, retVal, kArg]
  · rw [get (name := c!"bit_shift_left") rfl]; simp [LibFn.call, bindArgs, e, i1, bindRest, retVal, kArg]
  · rw [get (name := c!"bit_shift_right") rfl]; simp [LibFn.call, bindArgs, e, i1, bindRest, retVal, kArg]
  · intro f hf
    simp only [List.mem_cons, List.not_mem_nil, or_false] at hf
    rcases hf with rfl | rfl | rfl
    · rw [get (name := c!"ltrim") rfl]; simp only [LibFn.call, bindArgs, e, s1, bindRest, kArg]; rfl
    · rw [get (name := c!"rtrim") rfl]; simp only [LibFn.call, bindArgs, e, s1, bindRest, kArg]; rfl
    · rw [get (name := c!"trim") rfl]; simp only [LibFn.call, bindArgs, e, s1, bindRest, kArg]; rfl
  · rw [get (name := c!"split") rfl]; simp only [LibFn.call, bindArgs, e, s1, bindRest, kArg]; rfl
  · rw [get (name := c!"replace") rfl]; simp only [LibFn.call, bindArgs, e, s1, s2, bindRest, kArg]; rfl
  · intro f hf
    simp only [List.mem_cons, List.not_mem_nil, or_false] at hf
    rcases hf with rfl | rfl | rfl
    · rw [statsCall, show lookupLib c!"percentile" libStats = some (statPerc c!"percentile_approx") from rfl]
      simp [statPerc, bindArgs, e, i1, bindRest, kArg]
    · rw [statsCall, show lookupLib c!"upperperc" libStats = some (statPerc c!"percentile_approx") from rfl]
      simp [statPerc, bindArgs, e, i1, bindRest, kArg]
    · rw [statsCall, show lookupLib c!"exactperc" libStats = some (statPerc c!"percentile") from rfl]
      simp [statPerc, bindArgs, e, i1, bindRest, kArg]

example : Plain '"' c!"a b" = true ∧ showInt (-1) = c!"-1" := by decide

/-- **C61** Truth values are written as the names `true` and `false`, which Python does not have: the code of either raises, with and without the
library. -/
theorem C61_truth_raises (m : Mode) (b : Bool) {p : PE} (h : exprTr m (.const (.bool b)) = some p) : evalRt p = none := by
  cases b <;> · cases h; rfl

example : ∀ b, (exprTr .allow (.const (.bool b))).isSome = true := by intro b; cases b <;> rfl

/-! ### C62: validate -/

theorem objs_map : ∀ qs : List PE, objsOf (qs.map fun q => .v (.obj (some q))) = some qs
  | [] => rfl
  | q :: qs => by simp only [List.map_cons, objsOf, objs_map qs, Option.map_some]

theorem bind_any : ∀ vs : List RV, bindRest (some .any) vs = some (vs.map .v)
  | [] => rfl
  | v :: vs => by simp only [bindRest, conv, bind_any vs, List.map_cons]

theorem kinds_objs : ∀ {args : List Expr} {qs : List PE}, (∀ a ∈ args, isColumn a = false) → qs.length = args.length →
    ((args.zip qs).map fun x => shape (isColumn x.1) x.2) = qs.map fun q => RV.obj (some q)
  | [], [], _, _ => rfl
  | a :: args, q :: qs, h, hl => by
    have h1 := h a List.mem_cons_self
    have h2 := kinds_objs (args := args) (qs := qs) (fun b hb => h b (List.mem_cons_of_mem _ hb)) (by simpa using hl)
    simp only [List.zip_cons_cons, List.map_cons, h1, h2]
    rfl

theorem caseFrom_native : ∀ (k : Nat) {neg : Bool} {acc : PE} {ms : List PE}, ms.length ≤ k → acc.unalias = acc → acc.isCol = true →
    (caseFrom neg acc ms).unalias = caseFrom neg acc ms ∧ (caseFrom neg acc ms).isCol = true
  | _, _, _, [], _, h, h' => ⟨h, h'⟩
  | _, _, _, [_], _, h, h' => ⟨h, h'⟩
  | 0, _, _, _ :: _ :: _, hk, _, _ => by simp at hk
  | k + 1, neg, acc, c :: v :: rest, hk, h, h' => by
    rw [caseFrom]
    exact caseFrom_native k (by simp at hk; omega) rfl rfl

theorem caseBody_native {neg : Bool} {ms : List PE} {b : PE} (h : caseBody neg ms = some b) : b.unalias = b ∧ b.isCol = true := by
  unfold caseBody at h
  split at h
  · split at h
    · cases h; exact caseFrom_native _ (Nat.le_refl _) rfl rfl
    · cases h
  · cases h

/-- **C62 (partial).** `validate` of results of the library is the column of plain PySpark. -/
theorem C62_validate_partial {args : List Expr} (ha : ∀ a ∈ args, Shared a) (hc : ∀ a ∈ args, isColumn a = false) {q : PE}
    (h : exprTr .disallow (.call c!"validate" args) = some q) :
    ∃ p, exprTr .allow (.call c!"validate" args) = some p ∧ (evalRt p.unalias).bind standsFor = some q.unalias := by
  obtain ⟨ps, vs, qs, A⟩ := args_of (args := args) fun a h => shared_same (ha a h)
  refine ⟨_, call_value (by decide) (by decide) A.all, ?_⟩
  have hl : qs.length = args.length := by rw [Lemmas.mapArgs_length A.dis, argsTr_length]
  have hv : vs = qs.map fun q => RV.obj (some q) := by rw [A.kinds, kinds_objs hc hl]
  have h1 : lookupLib (runtimeEvalName c!"validate") libEval = some ⟨[], some .any, true, fun as => match objsOf as with
      | none => none
      | some cs => (caseBody true cs).map .col⟩ := rfl
  have h2 : lookupFn c!"validate" evalTable = some ⟨c!"validate", [], .mapped, fun _ _ ms => caseBody true ms⟩ := rfl
  simp only [exprTr, evalFn, evalFnBare, h2, FnSpec.apply, bindParams, List.length_nil, List.drop_zero, A.dis, Option.map_eq_some_iff] at h
  obtain ⟨b, hb, rfl⟩ := h
  have h3 : objsOf ((qs.map fun q => RV.obj (some q)).map .v) = some qs := by
    rw [List.map_map]; exact objs_map qs
  have hu : (b.withAlias c!"validate").unalias = b := by
    obtain ⟨h4, h5⟩ := caseBody_native hb
    exact unalias_withAlias h5 h4
  simp only [PE.unalias, evalRt, A.val, rtFn_eval, evalCall, h1, LibFn.call, bindArgs, hv, bind_any, h3, hb, Option.map_some, retVal, if_true,
    Option.bind_some, standsFor, RV.toExpr, hu, id]

example : (∀ a ∈ [Expr.call c!"isnull" [.const (.field c!"x")], .call c!"abs" [.const (.field c!"y")]], isColumn a = false) ∧
    (exprTr .disallow (.call c!"validate" [.call c!"isnull" [.const (.field c!"x")], .call c!"abs" [.const (.field c!"y")]])).isSome = true := by
  decide

/-- **C62 (refutation).** `validate` raises as soon as one of its arguments is a plain column. -/
theorem C62_validate_raises {args : List Expr} (ha : ∀ a ∈ args, Shared a) (hc : ∃ a ∈ args, isColumn a = true) :
    ∃ p, exprTr .allow (.call c!"validate" args) = some p ∧ evalRt p.unalias = none := by
  obtain ⟨ps, vs, qs, A⟩ := args_of (args := args) fun a h => shared_same (ha a h)
  refine ⟨_, call_value (by decide) (by decide) A.all, ?_⟩
  have hl : qs.length = args.length := by rw [Lemmas.mapArgs_length A.dis, argsTr_length]
  have key : ∀ {args : List Expr} {qs : List PE}, qs.length = args.length → (∃ a ∈ args, isColumn a = true) →
      objsOf (((args.zip qs).map fun x => shape (isColumn x.1) x.2).map .v) = none := by
    intro args
    induction args with
    | nil => rintro qs _ ⟨a, h, _⟩; cases h
    | cons a args ih =>
      intro qs hl hc
      cases qs with
      | nil => cases hl
      | cons q qs =>
        simp only [List.zip_cons_cons, List.map_cons]
        cases h : isColumn a with
        | true => rfl
        | false =>
          obtain ⟨b, hb, hb'⟩ := hc
          rcases List.mem_cons.1 hb with rfl | hb
          · rw [h] at hb'; cases hb'
          · have := ih (qs := qs) (by simpa using hl) ⟨b, hb, hb'⟩
            show (objsOf _).map _ = none
            rw [this]; rfl
  have h1 : lookupLib (runtimeEvalName c!"validate") libEval = some ⟨[], some .any, true, fun as => match objsOf as with
      | none => none
      | some cs => (caseBody true cs).map .col⟩ := rfl
  simp only [PE.unalias, evalRt, A.val, rtFn_eval, evalCall, h1, LibFn.call, bindArgs, A.kinds, bind_any, key hl hc, Option.map_none]

example : isColumn (.const (.field c!"x")) = true ∧ Shared (.const (.field c!"x")) := ⟨rfl, .const rfl⟩

/-! ### C65: a first search without an index -/

/-- The plain translation of a search without an index reads the table `main`. -/
theorem main_table {x e n c} (hx : Arranges x) (hs : splitConditions true e = some (some e, [])) (hc : exprTr .disallow e = some c) :
    transform ⟨.disallow, x⟩ (.search e) ⟨n, none⟩ = some (St.put ⟨n, none⟩ (DF.mkWhere (.source c!"main") (intoSearch c))) := by
  have ho : x.order [] = [] := List.perm_nil.1 (hx [])
  simp only [transform, dispatch, searchStandalone, hs, dedupStr, ho, unionSources, hc]
  rfl

/-- **C65 (refutation).** In a query that begins with `source=a sourcetype=b`, the library as delivered reads the table `a_b_silver` and tests
nothing more; the plain translation reads `main` and compares the columns. -/
theorem C65_source_first {types x a b n n'} (hx : Arranges x) (ha : Plain '"' a = true) (hb : Plain '"' b = true) (ha0 : a ≠ []) (hb0 : b ≠ [])
    (ha' : a ≠ c!"index") (hb' : b ≠ c!"index") :
    ∃ t t', transform ⟨.allow, x⟩ (.search (.binary (.binary (.const (.field c!"source")) c!"=" (.const (.field a))) c!"AND"
        (.binary (.const (.field c!"sourcetype")) c!"=" (.const (.field b))))) ⟨n, none⟩ = some t ∧
      transform ⟨.disallow, x⟩ (.search (.binary (.binary (.const (.field c!"source")) c!"=" (.const (.field a))) c!"AND"
        (.binary (.const (.field c!"sourcetype")) c!"=" (.const (.field b))))) ⟨n', none⟩ = some t' ∧
      runDF (delivered types) t.cur = some (.where_ (.source (a ++ c!"_" ++ b ++ c!"_silver")) (.lit c!"True")) ∧
      t'.cur = .where_ (.source c!"main") (.bin c!"&" (.bin c!"==" (.named c!"source") (.named a)) (.bin c!"==" (.named c!"sourcetype") (.named b))) := by
  have hs : strOf ('"' :: (a ++ ['"'])) = some a := strOf_plain ha
  have hw : strOf ('"' :: (b ++ ['"'])) = some b := strOf_plain hb
  have he : a.isEmpty = false := by cases a with
    | nil => exact absurd rfl ha0
    | cons => rfl
  have he' : b.isEmpty = false := by cases b with
    | nil => exact absurd rfl hb0
    | cons => rfl
  refine ⟨St.putRuntime ⟨n, none⟩ c!"search" [] [(c!"source", .expr (pyStr a)), (c!"source_type", .expr (pyStr b))], _, rfl,
    main_table hx ?_ rfl, ?_, rfl⟩
  · simp [splitConditions, ha', hb', isIndex, recombine]
  · rw [run_putRuntime]
    simp only
    show (match defaultLookup [(c!"source", .lit (c!"\"" ++ a ++ c!"\"")), (c!"source_type", .lit (c!"\"" ++ b ++ c!"\""))], some [], some [] with
        | some d, some ps, some ks => some (DF.where_ d (allOf (ps ++ ks)))
        | _, _, _ => none) = _
    simp [defaultLookup, textOf, dictGet, strVal, hs, hw, truthy, he, he', applyFilters, lookupFilters, presentTexts, joinWith, allOf]

/-- **C65 (refutation).** The same with only one of the two fields. -/
theorem C65_source_only {types x f a n n'} (hx : Arranges x) (hf : f ∈ [c!"source", c!"sourcetype"]) (ha : Plain '"' a = true) (ha0 : a ≠ [])
    (ha' : a ≠ c!"index") :
    ∃ t t', transform ⟨.allow, x⟩ (.search (.binary (.const (.field f)) c!"=" (.const (.field a)))) ⟨n, none⟩ = some t ∧
      transform ⟨.disallow, x⟩ (.search (.binary (.const (.field f)) c!"=" (.const (.field a)))) ⟨n', none⟩ = some t' ∧
      runDF (delivered types) t.cur = some (.where_ (.source (a ++ c!"_silver")) (.lit c!"True")) ∧
      t'.cur = .where_ (.source c!"main") (.bin c!"==" (.named f) (.named a)) := by
  have hs : strOf ('"' :: (a ++ ['"'])) = some a := strOf_plain ha
  have he : a.isEmpty = false := by cases a with
    | nil => exact absurd rfl ha0
    | cons => rfl
  simp only [List.mem_cons, List.not_mem_nil, or_false] at hf
  have key : ∀ k ∈ [c!"source", c!"source_type"], command (delivered types) none c!"search" [] [(k, .expr (pyStr a))] =
      some (.where_ (.source (a ++ c!"_silver")) (.lit c!"True")) := by
    intro k hk
    simp only [List.mem_cons, List.not_mem_nil, or_false] at hk
    rcases hk with rfl | rfl <;>
    · show (match defaultLookup [(_, .lit (c!"\"" ++ a ++ c!"\""))], some [], some [] with
          | some d, some ps, some ks => some (DF.where_ d (allOf (ps ++ ks)))
          | _, _, _ => none) = _
      simp [defaultLookup, textOf, dictGet, strVal, hs, truthy, he, applyFilters, lookupFilters, presentTexts, joinWith, allOf]
  rcases hf with rfl | rfl
  · refine ⟨St.putRuntime ⟨n, none⟩ c!"search" [] [(c!"source", .expr (pyStr a))], _, rfl, main_table hx ?_ rfl, ?_, rfl⟩
    · simp [splitConditions, ha', isIndex, recombine]
    · rw [run_putRuntime]; exact key _ (by decide)
  · refine ⟨St.putRuntime ⟨n, none⟩ c!"search" [] [(c!"source_type", .expr (pyStr a))], _, rfl, main_table hx ?_ rfl, ?_, rfl⟩
    · simp [splitConditions, ha', isIndex, recombine]
    · rw [run_putRuntime]; exact key _ (by decide)

example : Plain '"' c!"web" = true ∧ Plain '"' c!"access" = true ∧ c!"web" ≠ c!"index" ∧ Arranges Tests.ext := ⟨rfl, rfl, by decide, arranges_id⟩

/-! ### C83: too long a prefix -/

/-- **C83** A network whose prefix is longer than an address has no IPv4 address in it, rather than failing. -/
theorem C83_long_prefix (v : V6) (x net : Addr) {len : Nat} (h : 32 < len) : cidrMatch v x.text (netText net len) = false := by
  have hd : '/' ∉ showNat len := dig_ne rfl
  have hp : prefixLength (showNat len) = none := by
    have h1 : prefixOfDigits (showNat len) = none := by
      unfold prefixOfDigits
      rw [digitsVal_showNat, if_neg]
      simp; omega
    have h2 : '.' ∉ showNat len := dig_ne rfl
    have h3 : parseIPv4 (showNat len) = none := by
      unfold parseIPv4
      rw [split_nodot h2]
    rw [prefixLength, h1]
    simp only [prefixOfDotted, h3]
  have h1 : ipAddress v x.text = some (.four (addrVal x)) := by
    unfold ipAddress
    rw [if_neg (text_noSlash x), parse_text]
  have h2 : ipv4Network (netText net len) = none := by
    unfold ipv4Network netText
    rw [splitC_cons (text_noSlash net), splitC_none hd]
    simp only [parse_text, hp]
  simp only [cidrMatch, h1, ipNetwork, h2]
  cases v.network (netText net len) <;> rfl

example : netText ⟨10, 0, 0, 0⟩ 33 = c!"10.0.0.0/33" := by decide

end Verif.Props
