import Verif.Spec.Renaming
/-
The translation of expressions commutes with other names for the fields.
-/
namespace Verif.Lemmas
open Verif Spec

variable {ρ : Str → Str}

theorem renPs_map (l : List PE) : renPs ρ l = l.map (renP ρ) := by
  induction l with
  | nil => rfl
  | cons p ps ih => rw [renPs, ih, List.map_cons]

theorem renEs_map (l : List Expr) : renEs ρ l = l.map (renE ρ) := by
  induction l with
  | nil => rfl
  | cons p ps ih => rw [renEs, ih, List.map_cons]

theorem ren_unalias (p : PE) : (renP ρ p).unalias = renP ρ p.unalias := by
  fun_induction PE.unalias p with
  | case1 => rfl
  | case2 c n h ih =>
    rw [renP]
    cases c with
    | py => exact absurd rfl (h _)
    | _ => rw [← ih]; rfl
  | case3 e h1 h2 =>
    cases e with
    | aliased c n =>
      cases c with
      | py => exact absurd rfl (h1 _ _)
      | _ => exact absurd rfl (h2 _ _)
    | _ => rfl

theorem ren_isCol (p : PE) : (renP ρ p).isCol = p.isCol := by cases p <;> rfl

theorem ren_mkBin (l : PE) (op : Str) (r : PE) : PE.mkBin (renP ρ l) op (renP ρ r) = renP ρ (PE.mkBin l op r) := by
  simp only [PE.mkBin, renP, ren_unalias]

theorem ren_mkNot (r : PE) : PE.mkNot (renP ρ r) = renP ρ (PE.mkNot r) := by simp only [PE.mkNot, renP, ren_unalias]

theorem ren_mkMethod (c : PE) (f : Str) (as : List PE) : PE.mkMethod (renP ρ c) f (renPs ρ as) = renP ρ (PE.mkMethod c f as) := by
  simp only [PE.mkMethod, renP, ren_unalias]

theorem ren_withAlias (c : PE) (n : Str) : PE.withAlias (renP ρ c) (ρ n) = renP ρ (PE.withAlias c n) := by simp only [PE.withAlias, renP, ren_unalias]

theorem ren_joinFrom (op : Str) (ps : List PE) : ∀ p, joinBinFrom op (renP ρ p) (ps.map (renP ρ)) = renP ρ (joinBinFrom op p ps) := by
  induction ps with
  | nil => intro p; rfl
  | cons q qs ih => intro p; rw [List.map_cons, joinBinFrom, joinBinFrom, ← ih]; rfl

theorem ren_join (op : Str) (ps : List PE) : joinAsBinaries op (ps.map (renP ρ)) = (joinAsBinaries op ps).map (renP ρ) := by
  cases ps with
  | nil => rfl
  | cons p ps => simp only [List.map_cons, joinAsBinaries, ren_joinFrom, Option.map_some]

/-! ### Arguments -/

def renV (ρ : Str → Str) : ArgVal → ArgVal
  | .e x => .e (renP ρ x)
  | .i n => .i n
  | .s t => .s t

def renA (ρ : Str → Str) (a : Arg) : Arg := ⟨renE ρ a.src, a.col.map (renP ρ)⟩

theorem ren_asInt (e : Expr) : (renE ρ e).asInt = e.asInt := by
  cases e with
  | const c => cases c <;> rfl
  | _ => rfl

theorem ren_asString {e : Expr} (h : isFieldE e = false) : (renE ρ e).asString = e.asString := by
  cases e with
  | const c =>
    cases c with
    | field => simp [isFieldE] at h
    | _ => rfl
  | _ => rfl

theorem ren_mapArgs (as : List Arg) : mapArgs (as.map (renA ρ)) = (mapArgs as).map fun l => l.map (renP ρ) := by
  induction as with
  | nil => rfl
  | cons a as ih =>
    rw [List.map_cons, mapArgs, mapArgs, ih]
    cases h : a.col with
    | none => simp [renA, h]
    | some x =>
      simp only [renA, h, Option.map_some]
      cases mapArgs as <;> rfl

/-- no field where a text is expected -/
def TextsOk : List PK → List Arg → Prop
  | p :: ps, a :: as => (p = .str → isFieldE a.src = false) ∧ TextsOk ps as
  | _, _ => True

theorem ren_bind (ps : List PK) : ∀ as : List Arg, TextsOk ps as → bindParams ps (as.map (renA ρ)) = (bindParams ps as).map fun l => l.map (renV ρ) := by
  induction ps with
  | nil => intro as _; rfl
  | cons p ps ih =>
    intro as h
    cases as with
    | nil => rfl
    | cons a as =>
      have hp : bindParam p (renA ρ a) = (bindParam p a).map (renV ρ) := by
        cases p with
        | expr => simp only [bindParam, renA]; cases a.col <;> rfl
        | int => simp only [bindParam, renA, ren_asInt]; cases a.src.asInt <;> rfl
        | str => simp only [bindParam, renA, ren_asString (h.1 rfl)]; cases a.src.asString <;> rfl
      rw [List.map_cons, bindParams, bindParams, hp, ih as h.2]
      cases bindParam p a with
      | none => rfl
      | some v => cases bindParams ps as <;> rfl

/-- The body of a function commutes with other names. -/
def Opq (f : FnSpec) : Prop := ∀ (ρ : Str → Str), (∀ n ∈ keptNames, ρ n = n) → ∀ (vs : List ArgVal) (args : List Arg) (ms : List PE),
  (f.alias = c!"mvzip" → ∀ a, args[2]? = some a → isFieldE a.src = false) →
    f.body (vs.map (renV ρ)) (args.map (renA ρ)) (ms.map (renP ρ)) = (f.body vs args ms).map (renP ρ)

theorem apply_ren {f : FnSpec} (ho : Opq f) (hk : ∀ n ∈ keptNames, ρ n = n) (ha : ρ f.alias = f.alias) {as : List Arg} (ht : TextsOk f.params as)
    (hz : f.alias = c!"mvzip" → ∀ a, as[2]? = some a → isFieldE a.src = false) :
    f.apply (as.map (renA ρ)) = (f.apply as).map (renP ρ) := by
  have hw : ∀ o : Option PE, (o.map (renP ρ)).map (fun o => o.withAlias f.alias) = (o.map fun o => o.withAlias f.alias).map (renP ρ) := by
    intro o
    cases o with
    | none => rfl
    | some p => simp only [Option.map_some, ← ren_withAlias, ha]
  unfold FnSpec.apply
  rw [ren_bind _ _ ht]
  cases hb : bindParams f.params as with
  | none => rfl
  | some vs =>
    simp only [Option.map_some]
    cases hr : f.rest with
    | exact =>
      simp only [List.length_map]
      split
      · rw [show ([] : List PE) = [].map (renP ρ) from rfl, ho ρ hk vs as [] hz, hw]; rfl
      · rfl
    | ignored =>
      simp only
      rw [show ([] : List PE) = [].map (renP ρ) from rfl, ho ρ hk vs as [] hz, hw]; rfl
    | mapped =>
      simp only
      rw [← List.map_drop, ren_mapArgs]
      cases hm : mapArgs (as.drop f.params.length) with
      | none => rfl
      | some ms => simp only [Option.map_some]; rw [ho ρ hk vs as ms hz, hw]

theorem opq_one (al : Str) (f : PE → PE) (h : ∀ ρ : Str → Str, (∀ n ∈ keptNames, ρ n = n) → ∀ x, f (renP ρ x) = renP ρ (f x)) : Opq (.one al f) := by
  intro ρ hk vs args ms _
  match vs with
  | [.e x] => simp [FnSpec.one, renV, h ρ hk]
  | [] | [.i _] | [.s _] | .e _ :: _ :: _ | .i _ :: _ :: _ | .s _ :: _ :: _ => rfl

theorem opq_two (al : Str) (f : PE → PE → PE) (h : ∀ (ρ : Str → Str) x y, f (renP ρ x) (renP ρ y) = renP ρ (f x y)) : Opq (.two al f) := by
  intro ρ hk vs args ms _
  match vs with
  | [.e x, .e y] => simp [FnSpec.two, renV, h]
  | [] => rfl
  | [v] => cases v <;> rfl
  | [.i _, v] => cases v <;> rfl
  | [.s _, v] => cases v <;> rfl
  | [.e _, .i _] | [.e _, .s _] => rfl
  | u :: v :: w :: l => cases u <;> cases v <;> rfl

theorem ren_caseFrom (neg : Bool) : ∀ (ms : List PE) (acc : PE), caseFrom neg (renP ρ acc) (ms.map (renP ρ)) = renP ρ (caseFrom neg acc ms)
  | [], acc | [_], acc => rfl
  | c :: v :: rest, acc => by
    rw [List.map_cons, List.map_cons, caseFrom, caseFrom, ← ren_caseFrom neg rest]
    congr 1
    cases neg
    · exact ren_mkMethod _ _ [c, v]
    · have := ren_mkMethod (ρ := ρ) acc c!"when" [PE.mkNot c, v]
      simp only [if_true]
      rw [← this]
      simp [renPs, ren_mkNot]

theorem ren_caseBody (neg : Bool) (ms : List PE) : caseBody neg (ms.map (renP ρ)) = (caseBody neg ms).map (renP ρ) := by
  unfold caseBody
  rw [List.length_map]
  split
  · match ms with
    | [] => rfl
    | [_] => rfl
    | c :: v :: rest =>
      simp only [List.map_cons, Option.map_some, ← ren_caseFrom]
      cases neg
      · rfl
      · simp [renP, renPs, ren_mkNot]
  · rfl

theorem ren_fold (f : PE → PE → PE) (h : ∀ x y, f (renP ρ x) (renP ρ y) = renP ρ (f x y)) (ms : List PE) :
    foldArgs f (ms.map (renP ρ)) = (foldArgs f ms).map (renP ρ) := by
  cases ms with
  | nil => rfl
  | cons x xs =>
    simp only [List.map_cons, foldArgs, Option.map_some, Option.some.injEq]
    induction xs generalizing x with
    | nil => rfl
    | cons y ys ih => simp only [List.map_cons, List.foldl_cons, h, ih]

theorem ren_mvindex (x : PE) (n : Int) (args : List Arg) : mvindexBody (renP ρ x) n (args.map (renA ρ)) = (mvindexBody x n args).map (renP ρ) := by
  unfold mvindexBody
  rw [List.getElem?_map]
  cases args[2]? with
  | none => rfl
  | some a =>
    simp only [Option.map_some, renA, ren_asInt]
    cases a.src.asInt <;> rfl

theorem ren_mvzip (x y : PE) (args : List Arg) (h : ∀ a, args[2]? = some a → isFieldE a.src = false) :
    mvzipBody (renP ρ x) (renP ρ y) (args.map (renA ρ)) = (mvzipBody x y args).map (renP ρ) := by
  unfold mvzipBody
  rw [List.getElem?_map]
  cases ha : args[2]? with
  | none => rfl
  | some a =>
    simp only [Option.map_some, renA, ren_asString (h a ha)]
    cases a.src.asString <;> rfl

theorem ren_relative (t : PE) (s : SnapTime) : relativeTimeBody (renP ρ t) s = (relativeTimeBody t s).map (renP ρ) := by
  have ho : ∀ (p : PE) (o : TimeSpan), offsetTime (renP ρ p) o = renP ρ (offsetTime p o) := fun p o => by unfold offsetTime; exact ren_mkBin p _ (.fn _ [.py _])
  have hr : ∀ (p : PE) u, roundTime (renP ρ p) u = (roundTime p u).map (renP ρ) := fun p u => by unfold roundTime; cases roundUnit u <;> rfl
  unfold relativeTimeBody
  have h1 : (PE.fn c!"to_timestamp" [renP ρ t]) = renP ρ (.fn c!"to_timestamp" [t]) := rfl
  rw [h1]
  cases s.span with
  | none =>
    simp only [hr]
    cases roundTime (.fn c!"to_timestamp" [t]) s.snap with
    | none => rfl
    | some p => simp only [Option.map_some]; cases s.snapOffset <;> simp only [ho]
  | some o =>
    simp only [ho, hr]
    cases roundTime (offsetTime (.fn c!"to_timestamp" [t]) o) s.snap with
    | none => rfl
    | some p => simp only [Option.map_some]; cases s.snapOffset <;> simp only [ho]

theorem ren_relativeArgs (t : PE) (args : List Arg) : relativeTimeArgs (renP ρ t) (args.map (renA ρ)) = (relativeTimeArgs t args).map (renP ρ) := by
  unfold relativeTimeArgs
  rw [List.getElem?_map]
  cases args[1]? with
  | none => rfl
  | some a =>
    simp only [Option.map_some, renA]
    cases a.src with
    | const c =>
      cases c with
      | snapTime s => exact ren_relative t s
      | _ => rfl
    | _ => rfl

theorem ren_avg (ms : List PE) : ((foldArgs (fun v c => PE.mkBin v c!"+" c) (ms.map (renP ρ))).map fun o => PE.mkBin o c!"/" (pyInt (ms.map (renP ρ)).length)) =
    (((foldArgs (fun v c => PE.mkBin v c!"+" c) ms).map fun o => PE.mkBin o c!"/" (pyInt ms.length))).map (renP ρ) := by
  rw [List.length_map, ren_fold (fun v c => PE.mkBin v c!"+" c) (fun x y => ren_mkBin x _ y)]
  cases foldArgs (fun v c => PE.mkBin v c!"+" c) ms with
  | none => rfl
  | some p => exact congrArg some (ren_mkBin p _ (.py _))

theorem opq_eval : ∀ x ∈ evalTable, Opq x.2 := by
  unfold evalTable
  simp only [List.forall_mem_cons, List.not_mem_nil, false_implies, implies_true, and_true]
  repeat' apply And.intro
  all_goals first
    | (refine opq_one _ _ fun ρ hk x => ?_; simp only [memkFn, rmunitFn, rmcommaFn, PE.mkMethod, PE.mkBin, renP, renPs, ren_unalias, PE.unalias, pyStr, pyInt]; done)
    | (refine opq_two _ _ fun ρ x y => ?_; simp only [PE.mkMethod, renP, renPs, ren_unalias]; done)
    | (intro ρ hk vs args ms _; rfl)
    | skip
  all_goals
    intro ρ hk vs args ms hz
    first
    | exact ren_caseBody _ ms
    | (simp only [Option.map_some, renP, renPs_map]; done)
    | exact ren_fold (fun v c => .fn c!"greatest" [v, c]) (fun _ _ => rfl) ms
    | exact ren_fold (fun v c => .fn c!"least" [v, c]) (fun _ _ => rfl) ms
    | exact ren_avg ms
    | (rcases vs with _ | ⟨_ | _ | _, _ | ⟨_ | _ | _, _ | ⟨_ | _ | _, _ | ⟨_, _⟩⟩⟩⟩ <;> rcases ms with _ | ⟨_, _⟩ <;> first
       | rfl
       | exact congrArg some (ren_mkMethod _ _ [.py _])
       | exact ren_relativeArgs _ _
       | exact ren_mvindex _ _ _
       | exact ren_mvzip _ _ _ (hz rfl)
       | (simp only [List.map_cons, List.map_nil, renV]; cases convertTimeFormat _ <;> rfl))

theorem textsOk_of {as : List Arg} : ∀ {ps : List PK}, (∀ (i : Nat) a, ps[i]? = some .str → as[i]? = some a → isFieldE a.src = false) → TextsOk ps as
  | [], _ => by cases as <;> trivial
  | p :: ps, h => by
    cases as with
    | nil => trivial
    | cons a as =>
      refine ⟨fun hp => h 0 a (by rw [hp]; rfl) rfl, textsOk_of fun i b hi hb => h (i + 1) b ?_ ?_⟩
      · rw [List.getElem?_cons_succ]; exact hi
      · rw [List.getElem?_cons_succ]; exact hb

theorem lookupFn_inTable {n : Str} {f : FnSpec} : ∀ {t : List (Str × FnSpec)}, lookupFn n t = some f → (n, f) ∈ t
  | (k, g) :: t, h => by
    unfold lookupFn at h
    split at h
    · next hk => cases h; subst hk; exact List.mem_cons_self
    · exact List.mem_cons_of_mem _ (lookupFn_inTable h)

/-- which parameters of the functions are texts -/
theorem text_params : ∀ x ∈ evalTable, ∀ i < x.2.params.length, x.2.params[i]? = some .str → i ∈ (textArgs.lookup x.1).getD [] := by
  have h : (evalTable.map fun x => (x.1, x.2.params)).all (fun x => (List.range x.2.length).all fun i => !(x.2[i]? == some .str) || ((textArgs.lookup x.1).getD []).contains i) = true := by decide +kernel
  intro x hx i hi hs
  rw [List.all_eq_true] at h
  have := h (x.1, x.2.params) (List.mem_map.2 ⟨x, hx, rfl⟩)
  rw [List.all_eq_true] at this
  have := this i (List.mem_range.2 hi)
  simpa [hs] using this

theorem mvzip_only : ∀ x ∈ evalTable, x.2.alias = c!"mvzip" → x.1 = c!"mvzip" := by
  have h : (evalTable.map fun x => (x.1, x.2.alias)).all (fun x => !(x.2 == c!"mvzip") || x.1 == c!"mvzip") = true := by decide +kernel
  intro x hx ha
  rw [List.all_eq_true] at h
  have := h (x.1, x.2.alias) (List.mem_map.2 ⟨x, hx, rfl⟩)
  simpa [ha] using this

theorem kept_eval {x : Str × FnSpec} (hx : x ∈ evalTable) : x.2.alias ∈ keptNames := by
  unfold keptNames
  exact List.mem_append_left _ (List.mem_append_left _ (List.mem_map.2 ⟨x, hx, rfl⟩))

theorem ren_evalFnBare (hk : ∀ n ∈ keptNames, ρ n = n) {name : Str} (hn : ρ name = name) {as : List Arg}
    (ht : ∀ i ∈ (textArgs.lookup name).getD [], ∀ a, as[i]? = some a → isFieldE a.src = false) :
    evalFnBare name (as.map (renA ρ)) = (evalFnBare name as).map (renP ρ) := by
  unfold evalFnBare
  cases hf : lookupFn name evalTable with
  | some f =>
    have hm := lookupFn_inTable hf
    refine apply_ren (opq_eval _ hm) hk (hk _ (kept_eval hm)) (textsOk_of fun i a hi ha => ?_) fun hz a ha => ?_
    · exact ht i (text_params _ hm i ((List.getElem?_eq_some_iff.1 hi).1) hi) a ha
    · refine ht 2 ?_ a ha
      have := mvzip_only _ hm hz
      simp only at this
      rw [this]
      decide
  | none =>
    simp only
    split
    · rfl
    · unfold passThrough
      rw [ren_mapArgs]
      cases mapArgs as with
      | none => rfl
      | some xs => simp [renP, renPs_map, hn]

theorem ren_cidrRuntime : Opq cidrmatchRuntime := by
  intro ρ hk vs args ms hz
  unfold cidrmatchRuntime
  rcases vs with _ | ⟨_ | _ | _, _ | ⟨_ | _ | _, _ | ⟨_ | _ | _, _ | ⟨_, _⟩⟩⟩⟩ <;> rfl

theorem ren_evalFnRuntime (hk : ∀ n ∈ keptNames, ρ n = n) {name : Str} {as : List Arg}
    (ht : ∀ i ∈ (textArgs.lookup name).getD [], ∀ a, as[i]? = some a → isFieldE a.src = false) :
    evalFnRuntime name (as.map (renA ρ)) = (evalFnRuntime name as).map (renP ρ) := by
  unfold evalFnRuntime
  split
  · next h =>
    subst h
    refine apply_ren ren_cidrRuntime hk (hk _ (by decide +kernel)) (textsOk_of fun i a hi ha => ht i ?_ a ha) fun hz => ?_
    · match i with
      | 0 => decide
      | 1 => simp [cidrmatchRuntime] at hi
      | i + 2 => simp [cidrmatchRuntime] at hi
    · exact absurd hz (by decide)
  · rw [ren_mapArgs]
    cases mapArgs as with
    | none => rfl
    | some xs => simp [renP, renPs_map]

theorem ren_evalFn (m : Mode) (hk : ∀ n ∈ keptNames, ρ n = n) {name : Str} (hn : ρ name = name) {as : List Arg}
    (ht : ∀ i ∈ (textArgs.lookup name).getD [], ∀ a, as[i]? = some a → isFieldE a.src = false) :
    evalFn m name (as.map (renA ρ)) = (evalFn m name as).map (renP ρ) := by
  cases m with
  | disallow => exact ren_evalFnBare hk hn ht
  | require => exact ren_evalFnRuntime hk ht
  | allow =>
    unfold evalFn
    simp only [ren_evalFnBare hk hn ht, ren_evalFnRuntime hk ht]
    cases evalFnRuntime name as <;> rfl

theorem ren_const (c : Constant) : exprTr m (renE ρ (.const c)) = (exprTr m (.const c)).map (renP ρ) := by
  cases c <;> rfl

theorem ren_fieldIn (f : Str) (es : List Expr) : fieldInTr (ρ f) es = (fieldInTr f es).map (renP ρ) := by
  have h1 : ∀ e, fieldInCheck (ρ f) e = (fieldInCheck f e).map (renP ρ) := by
    intro e
    cases e with
    | const c => cases c <;> rfl
    | _ => rfl
  have h2 : fieldInChecks (ρ f) es = (fieldInChecks f es).map fun l => l.map (renP ρ) := by
    induction es with
    | nil => rfl
    | cons e es ih =>
      rw [fieldInChecks, fieldInChecks, h1, ih]
      cases fieldInCheck f e with
      | none => rfl
      | some c => cases fieldInChecks f es <;> rfl
  unfold fieldInTr
  rw [h2]
  cases fieldInChecks f es with
  | none => rfl
  | some cs =>
    simp only [Option.map_some, ren_join]
    cases joinAsBinaries c!"|" cs <;> rfl

theorem ren_general (l : Option PE) (op : Str) (r : Option PE) : generalBin (l.map (renP ρ)) op (r.map (renP ρ)) = (generalBin l op r).map (renP ρ) := by
  cases l <;> cases r <;> simp [generalBin, ren_mkBin]

theorem ren_like (p : PE) (w : Str) : likeTest (renP ρ p) w = renP ρ (likeTest p w) := ren_mkMethod p _ [.py _]

theorem ren_wildcard (l : Option PE) (op w : Str) : wildcardTr (l.map (renP ρ)) op w = (wildcardTr l op w).map (renP ρ) := by
  cases l with
  | none => rfl
  | some p =>
    simp only [wildcardTr, Option.map_some, ren_like, ren_mkNot]
    split
    · rfl
    · split
      · rfl
      · split <;> rfl

theorem ren_binTr (l : Expr) (s : Str) (r : Expr) (x y : Option PE) (h : (isFieldE l && isNetE r) = false) :
    binTr (renE ρ l) s (renE ρ r) (x.map (renP ρ)) (y.map (renP ρ)) = (binTr l s r x y).map (renP ρ) := by
  cases r with
  | const c =>
    cases c with
    | wildcard w => exact ren_wildcard _ _ _
    | ipv4cidr w =>
      cases l with
      | const d =>
        cases d with
        | field => simp [isFieldE, isNetE] at h
        | _ => exact ren_general _ _ _
      | _ => exact ren_general _ _ _
    | _ => exact ren_general _ _ _
  | _ => exact ren_general _ _ _

theorem args_src (m : Mode) : ∀ (es : List Expr) (i : Nat) (a : Arg), (argsTr m es)[i]? = some a → es[i]? = some a.src
  | [], i, a, h => by simp [argsTr] at h
  | e :: es, 0, a, h => by rw [argsTr] at h; simp at h; subst h; rfl
  | e :: es, i + 1, a, h => by
    rw [argsTr, List.getElem?_cons_succ] at h
    rw [List.getElem?_cons_succ]
    exact args_src m es i a h

mutual
theorem ren_expr (m : Mode) (hk : ∀ n ∈ keptNames, ρ n = n) : ∀ e : Expr, opaqueE e = true → (∀ n ∈ calledIn e, ρ n = n) → exprTr m (renE ρ e) = (exprTr m e).map (renP ρ)
  | .binary l s r, h, hc => by
    rw [opaqueE, Bool.and_eq_true, Bool.and_eq_true] at h
    rw [calledIn] at hc
    rw [renE, exprTr, exprTr, ren_expr m hk l h.1.1 fun n hn => hc n (List.mem_append_left _ hn), ren_expr m hk r h.1.2 fun n hn => hc n (List.mem_append_right _ hn)]
    exact ren_binTr l s r _ _ (by simpa only [Bool.not_eq_true'] using h.2)
  | .unary s r, h, hc => by
    rw [opaqueE] at h
    rw [calledIn] at hc
    rw [renE, exprTr, exprTr, ren_expr m hk r h hc]
    split
    · cases exprTr m r <;> simp [ren_mkNot]
    · rfl
  | .call f as, h, hc => by
    rw [opaqueE, Bool.and_eq_true] at h
    rw [calledIn] at hc
    rw [renE, exprTr, exprTr, ren_args m hk as h.1 fun n hn => hc n (List.mem_cons_of_mem _ hn)]
    refine ren_evalFn m hk (hc f List.mem_cons_self) fun i hi a ha => ?_
    have h2 := List.all_eq_true.1 h.2 i hi
    have ha' : as[i]? = some a.src := args_src m as i a ha
    rw [ha'] at h2
    simpa using h2
  | .const c, _, _ => ren_const c
  | .fieldIn f es, _, _ => by rw [renE, exprTr, exprTr]; exact ren_fieldIn f es
  | .alias e n, _, _ => by rw [renE, exprTr, exprTr] <;> simp
  | .fv .., _, _ | .fb .., _, _ | .fc .., _, _ | .aliasedField .., _, _ | .timeModifier _, _, _ | .searchModifier _, _, _ | .subSearch _, _, _ => rfl
theorem ren_args (m : Mode) (hk : ∀ n ∈ keptNames, ρ n = n) : ∀ es : List Expr, opaqueEs es = true → (∀ n ∈ calledInL es, ρ n = n) → argsTr m (renEs ρ es) = (argsTr m es).map (renA ρ)
  | [], _, _ => rfl
  | e :: es, h, hc => by
    rw [opaqueEs, Bool.and_eq_true] at h
    rw [calledInL] at hc
    rw [renEs, argsTr, argsTr, ren_expr m hk e h.1 fun n hn => hc n (List.mem_append_left _ hn), ren_args m hk es h.2 fun n hn => hc n (List.mem_append_right _ hn), List.map_cons]
    congr 1
    cases h : exprTr m e <;> simp [renA, ren_unalias]
end

end Verif.Lemmas
