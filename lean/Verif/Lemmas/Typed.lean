import Verif.Spec.Types
import Verif.Props.Alias
import Verif.Tr.Commands
import Verif.Lemmas.Python
import Verif.Lemmas.Numbers
/-
Translated columns have the type of a column.
-/
namespace Verif.Lemmas.Typing
open Verif Verif.Lemmas Verif.Props Verif.Spec

/-- the code, where it is an expression, has the type -/
def codeHas (c : Str) (t : Ty) : Prop := ∀ e, codeTree c = some e → typeOf e = some t

mutual
/-- The type of a column expression without an alias; bare code is no column. -/
def HasTy : PE → Ty → Prop
  | .named _, t => t = .col
  | .lit c, t => t = .col ∧ ∃ σ, codeHas c σ ∧ Par.any.accepts σ = true
  | .method c f as, t => t = .col ∧ HasTy c .col ∧ ∃ ts, HasTys as ts ∧ callable columnSigs f ts = true
  | .fn f as, t => t = .col ∧ f.contains '.' = false ∧ ∃ ts, HasTys as ts ∧ callable functionSigs f ts = true
  | .aliased _ _, _ => False
  | .bin op l r, t => t = .col ∧ op ∈ columnOps ∧ HasTy l .col ∧ ∃ σ, HasTy r σ ∧ Par.any.accepts σ = true
  | .not r, t => t = .col ∧ HasTy r .col
  | .py c, t => t ≠ .col ∧ codeHas c t ∧ ∀ e, lamTree c = some e → typeOf e = some t

/-- the types of a list -/
def HasTys : List PE → List Ty → Prop
  | [], ts => ts = []
  | e :: es, ts => ∃ σ σs, ts = σ :: σs ∧ HasTy e σ ∧ HasTys es σs
end

/-- a column -/
abbrev ColT (e : PE) : Prop := HasTy e .col

/-- a column, possibly with a name -/
def TopT : PE → Prop
  | .aliased c _ => ColT c
  | e => ColT e

theorem colT_isCol {e : PE} (h : ColT e) : e.isCol = true := by
  cases e <;> first | rfl | (simp [ColT, HasTy] at h)

theorem colT_unalias {e : PE} (h : ColT e) : e.unalias = e := by
  cases e <;> first | rfl | (simp [ColT, HasTy] at h)

theorem topT_unalias {e : PE} (h : TopT e) : ColT e.unalias := by
  cases e with
  | aliased c n =>
    have hc : ColT c := h
    have := colT_unalias hc
    have h2 := colT_isCol hc
    cases c <;> simp_all [PE.unalias, PE.isCol]
  | _ => exact h

theorem topT_of {e : PE} (h : ColT e) : TopT e := by
  cases e <;> first | exact h | (simp [ColT, HasTy] at h)

/-! ### from the type of the tree to the type of the program -/

theorem typesOf_cons {e : PyE} {es : List PyE} {t : Ty} {ts : List Ty} (h : typeOf e = some t) (hs : typesOf es = some ts) :
    typesOf (e :: es) = some (t :: ts) := by rw [typesOf, h, hs]

theorem typeOf_f {f : Str} {as : List PyE} {ts : List Ty} (h : typesOf as = some ts) (hc : callable functionSigs f ts = true) :
    typeOf (fCall f as) = some .col := by
  have h0 : typeOf (.name c!"F") = some .functions := by simp [typeOf, nameType]
  rw [fCall, typeOf, h0, h]
  simp only [callType, hc, if_true]

theorem typeOf_m {e : PyE} {f : Str} {as : List PyE} {ts : List Ty} (he : typeOf e = some .col) (h : typesOf as = some ts)
    (hc : callable columnSigs f ts = true) : typeOf (.call (.attr e f) as) = some .col := by
  rw [typeOf, he, h]
  simp only [callType, hc, if_true]

mutual
theorem typed_tree : ∀ (p : PE) (t : Ty) (e : PyE), HasTy p t → pyTree p = some e → typeOf e = some t := by
  intro p t e hp h
  match p with
  | .named n =>
    simp only [HasTy] at hp; subst hp
    simp only [pyTree] at h
    split at h
    · cases h
      exact typeOf_f (ts := [.text]) rfl (by decide +kernel)
    · cases h
  | .lit c =>
    simp only [HasTy] at hp
    obtain ⟨rfl, σ, hc, hσ⟩ := hp
    simp only [pyTree, Option.map_eq_some_iff] at h
    obtain ⟨v, hv, rfl⟩ := h
    refine typeOf_f (ts := [σ]) (typesOf_cons (hc v hv) rfl) ?_
    revert hσ; cases σ <;> decide +kernel
  | .method c f as =>
    simp only [HasTy] at hp
    obtain ⟨rfl, hc, ts, hs, hok⟩ := hp
    simp only [pyTree] at h
    split at h
    · split at h
      · rename_i a b ha hb
        cases h
        exact typeOf_m (typed_tree c _ a hc ha) (typed_trees as ts b hs hb) hok
      · cases h
    · cases h
  | .fn f as =>
    simp only [HasTy] at hp
    obtain ⟨rfl, hd, ts, hs, hok⟩ := hp
    obtain ⟨a, b, ha, hb, rfl⟩ := fn_tree h
    have ht : typesOf b = some ts := hb.elim (typed_trees as ts b hs) (typed_lams as ts b hs)
    simp only [funcTree, hd, Bool.false_eq_true, if_false, pathTree] at ha
    split at ha
    · cases ha
      exact typeOf_f ht hok
    · cases ha
  | .aliased c n => simp [HasTy] at hp
  | .bin op l r =>
    simp only [HasTy] at hp
    obtain ⟨rfl, ho, hl, σ, hr, hσ⟩ := hp
    simp only [pyTree] at h
    split at h
    · split at h
      · rename_i a b ha hb
        cases h
        rw [typeOf, typed_tree l _ a hl ha, typed_tree r _ b hr hb]
        exact if_pos ⟨ho, .inl ⟨rfl, hσ⟩⟩
      · cases h
    · cases h
  | .not r =>
    simp only [HasTy] at hp
    obtain ⟨rfl, hr⟩ := hp
    simp only [pyTree, Option.map_eq_some_iff] at h
    obtain ⟨v, hv, rfl⟩ := h
    rw [typeOf, typed_tree r _ v hr hv]; rfl
  | .py c =>
    simp only [HasTy] at hp
    exact hp.2.1 e h

theorem typed_lams : ∀ (ps : List PE) (ts : List Ty) (es : List PyE), HasTys ps ts → lamTrees ps = some es →
    typesOf es = some ts := by
  intro ps ts es hp h
  match ps with
  | [] => simp [lamTrees] at h
  | p :: ps =>
    simp only [HasTys] at hp
    obtain ⟨σ, σs, rfl, h1, h2⟩ := hp
    rcases lams_cases h with ⟨t, us, ht, hu, rfl⟩ | ⟨c, t, rfl, rfl, ht, rfl⟩
    · exact typesOf_cons (typed_tree p σ t h1 ht) (typed_lams ps σs us h2 hu)
    · simp only [HasTy] at h1
      simp only [HasTys] at h2
      subst h2
      exact typesOf_cons (h1.2.2 t ht) rfl

theorem typed_trees : ∀ (ps : List PE) (ts : List Ty) (es : List PyE), HasTys ps ts → pyTrees ps = some es →
    typesOf es = some ts := by
  intro ps ts es hp h
  match ps with
  | [] =>
    simp only [HasTys] at hp; subst hp
    simp only [pyTrees] at h; cases h; rfl
  | p :: ps =>
    simp only [HasTys] at hp
    obtain ⟨σ, σs, rfl, h1, h2⟩ := hp
    simp only [pyTrees] at h
    split at h
    · rename_i a b ha hb
      cases h
      exact typesOf_cons (typed_tree p σ a h1 ha) (typed_trees ps σs b h2 hb)
    · cases h
end

/-- a column with a name is still a column -/
theorem typed_top {p : PE} {e : PyE} (hp : TopT p) (h : pyTree p = some e) : typeOf e = some .col := by
  cases p with
  | aliased c n =>
    simp only [pyTree] at h
    split at h
    · simp only [Option.map_eq_some_iff] at h
      obtain ⟨v, hv, rfl⟩ := h
      exact typeOf_m (ts := [.text]) (typed_tree c _ v hp hv) rfl (by decide +kernel)
    · cases h
  | _ => exact typed_tree _ _ e hp h

/-! ### code -/

theorem str_code {c : Str} (hc : ∀ d ds, c = d :: ds → (d = '"' ∨ d = '\'')) : codeHas c .text := by
  intro e h
  rcases code_cases h with ⟨v, _, rfl⟩ | ⟨n, hn, rfl⟩ | ⟨d, n, rfl, hn, rfl⟩ | ⟨hi, rfl⟩
  · rfl
  · obtain ⟨d, ds, rfl, hd⟩ := pyNumber_head hn
    rcases hc d ds rfl with rfl | rfl <;> exact absurd hd (by decide)
  · rcases hc '-' d rfl with h | h <;> exact absurd h (by decide)
  · cases c with
    | nil => simp [isIdent] at hi
    | cons d ds =>
      rcases hc d ds rfl with rfl | rfl <;> simp [isIdent, isIdStart] at hi

theorem dquote_code (s : Str) : codeHas (c!"\"" ++ s ++ c!"\"") .text := str_code (by
  intro d ds h; simp at h; exact .inl h.1.symm)

theorem quote_code (s : Str) : codeHas (c!"'" ++ s ++ c!"'") .text := str_code (by
  intro d ds h; simp at h; exact .inr h.1.symm)

theorem raw_code (s : Str) : codeHas (c!"r\"" ++ s ++ c!"\"") .text := by
  intro e h
  rcases code_cases h with ⟨v, _, rfl⟩ | ⟨n, hn, rfl⟩ | ⟨d, n, hd, hn, rfl⟩ | ⟨hi, rfl⟩
  · rfl
  · obtain ⟨d, ds, hc, hd⟩ := pyNumber_head hn
    simp at hc
    obtain ⟨rfl, _⟩ := hc
    exact absurd hd (by decide)
  · simp at hd
  · simp [isIdent, isIdStart, isIdChar] at hi

theorem int_code (n : Int) : codeHas (showInt n) .int := by
  intro e h
  rw [code_int] at h; cases h
  cases n <;> rfl

theorem num_code {d : Dbl} (h : decimal d = true) : ∃ σ, (σ = .int ∨ σ = .float) ∧ codeHas d.text σ := by
  refine ⟨if stripTrailingZeros d.frac = [] then .int else .float, by split <;> simp, ?_⟩
  intro e he
  rw [code_dbl h] at he; cases he
  unfold dblE
  cases d.neg <;> by_cases hf : stripTrailingZeros d.frac = [] <;> simp [typeOf, hf]

theorem hasTy_code {c : Str} {t : Ty} (ht : t ≠ .col) (h : codeHas c t) (hl : c.head? ≠ some 'l') : HasTy (.py c) t :=
  ⟨ht, h, fun _ he => absurd (lam_head he) hl⟩

theorem hasTy_codeOf {c : Str} {t : Ty} {e : PyE} (ht : t ≠ .col) (h : codeHas c t) (hl : codeTree c = some e) : HasTy (.py c) t :=
  ⟨ht, h, fun _ he => absurd he (lam_code hl)⟩

theorem hasTy_str (s : Str) : HasTy (pyStr s) .text := hasTy_code (by decide) (dquote_code s) (by simp)
theorem hasTy_raw (s : Str) : HasTy (pyRaw s) .text := hasTy_code (by decide) (raw_code s) (by simp)
theorem hasTy_int (n : Int) : HasTy (pyInt n) .int := hasTy_codeOf (by decide) (int_code n) (code_int n)
theorem hasTy_bool (b : Bool) : HasTy (pyBool b) .bool := by
  refine hasTy_code (by decide) ?_ (by cases b <;> decide)
  cases b <;> (intro e h; have h : some _ = _ := h; cases h; decide +kernel)

/-! ### building columns -/

theorem hasTys_cons {e : PE} {es : List PE} {t : Ty} {ts : List Ty} (h : HasTy e t) (hs : HasTys es ts) : HasTys (e :: es) (t :: ts) :=
  ⟨t, ts, rfl, h, hs⟩

theorem hasTys_cols : ∀ {es : List PE}, (∀ e ∈ es, ColT e) → HasTys es (List.replicate es.length .col)
  | [], _ => rfl
  | e :: es, h => hasTys_cons (h e (by simp)) (hasTys_cols fun x hx => h x (by simp [hx]))

theorem colT_fn {f : Str} {as : List PE} {ts : List Ty} (hs : HasTys as ts) (hd : f.contains '.' = false)
    (hc : callable functionSigs f ts = true) : ColT (.fn f as) := ⟨rfl, hd, ts, hs, hc⟩

theorem colT_method {c : PE} {f : Str} {as : List PE} {ts : List Ty} (h : ColT c) (hs : HasTys as ts)
    (hc : callable columnSigs f ts = true) : ColT (PE.mkMethod c f as) := by
  unfold PE.mkMethod
  rw [colT_unalias h]
  exact ⟨rfl, h, ts, hs, hc⟩

theorem colT_bin {l r : PE} {op : Str} (hl : ColT l) (ho : op ∈ columnOps) (hr : ColT r) : ColT (PE.mkBin l op r) := by
  unfold PE.mkBin
  rw [colT_unalias hl, colT_unalias hr]
  exact ⟨rfl, ho, hl, .col, hr, rfl⟩

theorem colT_binCode {l : PE} {c op : Str} {t : Ty} (hl : ColT l) (ho : op ∈ columnOps) (hr : HasTy (.py c) t) (ht : Par.any.accepts t = true) :
    ColT (PE.mkBin l op (.py c)) := by
  unfold PE.mkBin
  rw [colT_unalias hl]
  exact ⟨rfl, ho, hl, t, hr, ht⟩

theorem colT_not {r : PE} (h : ColT r) : ColT (PE.mkNot r) := by
  unfold PE.mkNot
  rw [colT_unalias h]
  exact ⟨rfl, h⟩

theorem colT_lit {c : Str} {t : Ty} (h : codeHas c t) (ht : Par.any.accepts t = true) : ColT (.lit c) := ⟨rfl, t, h, ht⟩

theorem colT_litOf {c : Str} {e : PyE} {t : Ty} (h : codeTree c = some e) (he : typeOf e = some t) (ht : Par.any.accepts t = true) : ColT (.lit c) :=
  colT_lit (fun e' h' => by rw [h] at h'; cases h'; exact he) ht

theorem callable_all {f : Str} {p : Par} (h : (f, (⟨[], [], some p⟩ : Sig)) ∈ functionSigs) {ts : List Ty} (ht : ∀ t ∈ ts, p.accepts t = true) :
    callable functionSigs f ts = true := by
  refine List.any_eq_true.2 ⟨_, h, ?_⟩
  simp only [BEq.rfl, Bool.true_and, Sig.fits]
  cases ts with
  | nil => rfl
  | cons t ts => simpa [Sig.tail] using ht

/-! ### the bodies of the function tables -/

/-- A body that makes columns out of columns. -/
def Makes (f : FnSpec) : Prop :=
  ∀ vs args ms r, (∀ x, ArgVal.e x ∈ vs → ColT x) → (∀ x ∈ ms, ColT x) → f.body vs args ms = some r → ColT r

theorem makes_one (a : Str) (f : PE → PE) (hf : ∀ x, ColT x → ColT (f x)) : Makes (.one a f) := by
  intro vs args ms r hv hm h
  unfold FnSpec.one at h
  dsimp only at h
  split at h
  · cases h; exact hf _ (hv _ (by simp))
  · cases h

theorem makes_two (a : Str) (f : PE → PE → PE) (hf : ∀ x y, ColT x → ColT y → ColT (f x y)) : Makes (.two a f) := by
  intro vs args ms r hv hm h
  unfold FnSpec.two at h
  dsimp only at h
  split at h
  · cases h; exact hf _ _ (hv _ (by simp)) (hv _ (by simp))
  · cases h

theorem makes_nullary (a : Str) (e : PE) (he : ColT e) : Makes (.nullary a e) := by
  intro vs args ms r hv hm h
  simp only [FnSpec.nullary, Option.some.injEq] at h; subst h
  exact he

theorem caseFrom_typed (neg : Bool) : ∀ (ms : List PE) (acc : PE), (∀ x ∈ ms, ColT x) → ColT acc → ColT (caseFrom neg acc ms)
  | [], acc, _, ha => by simpa [caseFrom] using ha
  | [_], acc, _, ha => by simpa [caseFrom] using ha
  | c :: v :: rest, acc, hm, ha => by
    rw [caseFrom]
    refine caseFrom_typed neg rest _ (fun x hx => hm x (by simp [hx])) ?_
    have hv : ColT v := hm v (by simp)
    have hc : ColT c := hm c (by simp)
    cases neg
    · exact colT_method ha (hasTys_cons hc (hasTys_cons hv rfl)) (by decide +kernel)
    · exact colT_method ha (hasTys_cons (colT_not hc) (hasTys_cons hv rfl)) (by decide +kernel)

theorem caseBody_typed {neg : Bool} {ms : List PE} {r : PE} (hm : ∀ x ∈ ms, ColT x) (h : caseBody neg ms = some r) : ColT r := by
  unfold caseBody at h
  split at h
  · split at h
    · rename_i c v rest _
      cases h
      refine caseFrom_typed neg _ _ (fun x hx => hm x (by simp [hx])) ?_
      have hv : ColT v := hm v (by simp)
      have hc : ColT c := hm c (by simp)
      cases neg
      · exact colT_fn (hasTys_cons hc (hasTys_cons hv rfl)) (by decide) (by decide +kernel)
      · exact colT_fn (hasTys_cons (colT_not hc) (hasTys_cons hv rfl)) (by decide) (by decide +kernel)
    · cases h
  · cases h

theorem foldArgs_typed {f : PE → PE → PE} {ms : List PE} {r : PE} (hf : ∀ a b, ColT a → ColT b → ColT (f a b))
    (hm : ∀ x ∈ ms, ColT x) (h : foldArgs f ms = some r) : ColT r := by
  cases ms with
  | nil => cases h
  | cons x xs =>
    simp only [foldArgs, Option.some.injEq] at h
    subst h
    have hx : ColT x := hm x (by simp)
    have hm' : ∀ y ∈ xs, ColT y := fun y hy => hm y (by simp [hy])
    clear hm
    induction xs generalizing x with
    | nil => exact hx
    | cons y ys ih =>
      exact ih _ (hf _ _ hx (hm' y (by simp))) (fun z hz => hm' z (by simp [hz]))

theorem offsetTime_typed {t : PE} (o : TimeSpan) (h : ColT t) : ColT (offsetTime t o) :=
  colT_bin h (by decide) (colT_fn (hasTys_cons (hasTy_str _) rfl) (by decide) (by decide +kernel))

theorem relativeTime_typed {t : PE} {args : List Arg} {r : PE} (ht : ColT t) (h : relativeTimeArgs t args = some r) : ColT r := by
  unfold relativeTimeArgs at h
  split at h
  · rename_i s _
    have h0 : ColT (PE.fn c!"to_timestamp" [t]) := colT_fn (hasTys_cons ht rfl) (by decide) (by decide +kernel)
    have h1 : ∀ u x, ColT x → ColT (PE.fn c!"date_trunc" [pyStr u, x]) := fun u x hx =>
      colT_fn (hasTys_cons (hasTy_str u) (hasTys_cons hx rfl)) (by decide) (by decide +kernel)
    unfold relativeTimeBody roundTime at h
    dsimp only at h
    cases hr : roundUnit s.snap with
    | none => simp [hr] at h
    | some u =>
      simp only [hr, Option.map_some, Option.some.injEq] at h
      subst h
      cases s.span <;> cases s.snapOffset
      · exact h1 _ _ h0
      · exact offsetTime_typed _ (h1 _ _ h0)
      · exact h1 _ _ (offsetTime_typed _ h0)
      · exact offsetTime_typed _ (h1 _ _ (offsetTime_typed _ h0))
  · cases h

theorem mvindex_typed {x : PE} {n : Int} {args : List Arg} {r : PE} (hx : ColT x) (h : mvindexBody x n args = some r) : ColT r := by
  unfold mvindexBody at h
  split at h
  · cases h
    exact colT_fn (hasTys_cons hx (hasTys_cons (hasTy_int _) rfl)) (by decide) (by decide +kernel)
  · split at h
    · cases h
    · cases h
      exact colT_fn (hasTys_cons hx (hasTys_cons (hasTy_int _) (hasTys_cons (hasTy_int _) rfl))) (by decide) (by decide +kernel)

theorem memk_typed {x : PE} (hx : ColT x) : ColT (memkFn x) := by
  have hre : ∀ n, ColT (.fn c!"regexp_extract" [x, pyStr c!"(?i)^(\\d*\\.?\\d+)([kmg])$", pyInt n]) := fun n =>
    colT_fn (hasTys_cons hx (hasTys_cons (hasTy_str _) (hasTys_cons (hasTy_int n) rfl))) (by decide) (by decide +kernel)
  have hl : ∀ c, c ∈ [c!"1.0", c!"1024.0", c!"1048576.0"] → ColT (.lit c) := by
    intro c hc
    refine colT_lit (t := .float) (fun e h => ?_) rfl
    simp only [List.mem_cons, List.not_mem_nil, or_false] at hc
    rcases hc with rfl | rfl | rfl <;> (have h : some _ = _ := h; cases h; rfl)
  have hu : ∀ k, ColT (PE.mkBin (.fn c!"upper" [.fn c!"regexp_extract" [x, pyStr c!"(?i)^(\\d*\\.?\\d+)([kmg])$", pyInt 2]]) c!"=="
      (.lit (c!"\"" ++ k ++ c!"\""))) := fun k =>
    colT_bin (colT_fn (hasTys_cons (hre 2) rfl) (by decide) (by decide +kernel)) (by decide) (colT_lit (dquote_code k) rfl)
  unfold memkFn
  refine colT_bin (colT_method (hre 1) (hasTys_cons (hasTy_str _) rfl) (by decide +kernel)) (by decide) ?_
  refine colT_method ?_ (hasTys_cons (hl _ (by simp)) rfl) (by decide +kernel)
  refine colT_method ?_ (hasTys_cons (hu c!"G") (hasTys_cons (hl _ (by simp)) rfl)) (by decide +kernel)
  refine colT_method ?_ (hasTys_cons (hu c!"M") (hasTys_cons (hl _ (by simp)) rfl)) (by decide +kernel)
  exact colT_fn (hasTys_cons (hu c!"K") (hasTys_cons (hl _ (by simp)) rfl)) (by decide) (by decide +kernel)

theorem rmcomma_typed {x : PE} (hx : ColT x) : ColT (rmcommaFn x) :=
  colT_method (colT_fn (hasTys_cons hx (hasTys_cons (hasTy_str _) (hasTys_cons (hasTy_str _) rfl))) (by decide) (by decide +kernel))
    (hasTys_cons (hasTy_str _) rfl) (by decide +kernel)

theorem rmunit_typed {x : PE} (hx : ColT x) : ColT (rmunitFn x) :=
  colT_method (colT_fn (hasTys_cons hx (hasTys_cons (hasTy_str _) (hasTys_cons (hasTy_int _) rfl))) (by decide) (by decide +kernel))
    (hasTys_cons (hasTy_str _) rfl) (by decide +kernel)

theorem makes_fn1 {a f : Str} (hd : f.contains '.' = false) (hc : callable functionSigs f [.col] = true) : Makes (fn1 a f) :=
  makes_one _ _ fun _ hx => colT_fn (hasTys_cons hx rfl) hd hc

theorem makes_fn2 {a f : Str} (hd : f.contains '.' = false) (hc : callable functionSigs f [.col, .col] = true) : Makes (fn2 a f) :=
  makes_two _ _ fun _ _ hx hy => colT_fn (hasTys_cons hx (hasTys_cons hy rfl)) hd hc

theorem lambda_code (s : Str) : HasTy (.py (c!"lambda left_, right_: F.concat_ws(r\"" ++ s ++ c!"\", left_, right_)")) .func := by
  refine ⟨by decide, fun e h => ?_, fun e h => ?_⟩
  · exfalso
    rcases code_cases h with ⟨v, hv, rfl⟩ | ⟨n, hn, rfl⟩ | ⟨d, n, hd, hn, rfl⟩ | ⟨hi, rfl⟩
    · obtain ⟨d, ds, hc, hd⟩ := pyString_head hv
      simp at hc
      obtain ⟨rfl, _⟩ := hc
      simp at hd
    · obtain ⟨d, ds, hc, hd⟩ := pyNumber_head hn
      simp at hc
      obtain ⟨rfl, _⟩ := hc
      exact absurd hd (by decide)
    · simp at hd
    · simp [isIdent, isIdStart, isIdChar] at hi
  · obtain ⟨d, v, _, _, rfl⟩ := lam_cases h
    have h1 : typesIn [c!"left_", c!"right_"] [.str v, .name c!"left_", .name c!"right_"] = some [.text, .col, .col] := by
      simp [typesIn, isParam, typeOf]
    rw [fCall, typeOf, h1]
    exact if_pos ⟨rfl, by decide, by decide +kernel⟩

theorem mvzip_typed {x y : PE} {args : List Arg} {r : PE} (hx : ColT x) (hy : ColT y) (h : mvzipBody x y args = some r) : ColT r := by
  unfold mvzipBody at h
  split at h
  · cases h
  · cases h
    exact colT_fn (hasTys_cons hx (hasTys_cons hy (hasTys_cons (t := .func) (lambda_code _) rfl))) (by decide) (by decide +kernel)

theorem makes_eval : ∀ x ∈ evalTable, Makes x.2 := by
  unfold evalTable
  simp only [List.forall_mem_cons, List.not_mem_nil, false_implies, implies_true, and_true]
  repeat' apply And.intro
  all_goals try (exact makes_fn1 (by decide) (by decide +kernel))
  all_goals try (exact makes_fn2 (by decide) (by decide +kernel))
  all_goals try (exact makes_one _ _ fun _ => memk_typed)
  all_goals try (exact makes_one _ _ fun _ => rmunit_typed)
  all_goals try (exact makes_one _ _ fun _ => rmcomma_typed)
  all_goals try (exact makes_two _ _ fun _ _ hx hy => colT_method hx (hasTys_cons hy rfl) (by decide +kernel))
  all_goals try (exact makes_one _ _ fun _ hx => colT_method hx (hasTys_cons (hasTy_str _) rfl) (by decide +kernel))
  all_goals try (exact makes_one _ _ fun _ hx => colT_fn (hasTys_cons hx (hasTys_cons (hasTy_int _) rfl)) (by decide) (by decide +kernel))
  all_goals try (exact makes_nullary _ _ (colT_fn (as := []) rfl (by decide) (by decide +kernel)))
  all_goals try (refine makes_nullary _ _ (colT_litOf rfl rfl ?_); decide +kernel)
  all_goals try (exact makes_one _ _ fun _ hx => colT_method (colT_fn (hasTys_cons hx (hasTys_cons (hasTy_str _) rfl)) (by decide) (by decide +kernel)) rfl (by decide +kernel))
  all_goals
    intro vs args ms r hv hm h
    dsimp only at h
    first
      | exact caseBody_typed hm h
      | skip
  all_goals try
    (split at h
     · first
         | exact relativeTime_typed (hv _ (by simp)) h
         | exact mvindex_typed (hv _ (by simp)) h
         | exact mvzip_typed (hv _ (by simp)) (hv _ (by simp)) h
         | (cases h; exact colT_fn (hasTys_cons (hv _ (by simp)) (hasTys_cons (hasTy_int _) rfl)) (by decide) (by decide +kernel))
         | (cases h; exact colT_fn (hasTys_cons (hv _ (by simp)) (hasTys_cons (hasTy_str _) rfl)) (by decide) (by decide +kernel))
         | (cases h; exact colT_fn (hasTys_cons (hasTy_str _) rfl) (by decide) (by decide +kernel))
         | (cases h; exact colT_fn (hasTys_cons (hv _ (by simp)) (hasTys_cons (hasTy_str _) (hasTys_cons (hasTy_str _) rfl))) (by decide) (by decide +kernel))
         | (cases h; exact colT_fn (hasTys_cons (hv _ (by simp)) (hasTys_cons (hasTy_int _) (hasTys_cons (hasTy_int _) rfl))) (by decide) (by decide +kernel))
         | (cases h; exact colT_method (hv _ (by simp)) (hasTys_cons (hasTy_str _) rfl) (by decide +kernel))
         | (cases h
            exact colT_method (colT_fn (hasTys_cons (hv _ (by simp)) (hasTys_cons (hv _ (by simp)) rfl)) (by decide) (by decide +kernel))
              (hasTys_cons (hv _ (by simp)) rfl) (by decide +kernel))
         | (simp only [Option.map_eq_some_iff] at h
            obtain ⟨t, _, rfl⟩ := h
            exact colT_fn (hasTys_cons (hv _ (by simp)) (hasTys_cons (hasTy_str _) rfl)) (by decide) (by decide +kernel))
     · cases h)
  all_goals try
    (cases h
     refine colT_fn (hasTys_cols hm) (by decide) (callable_all (p := .c) (by unfold functionSigs; simp) ?_)
     intro t ht
     rw [List.eq_of_mem_replicate ht]; rfl)
  · simp only [Option.map_eq_some_iff] at h
    obtain ⟨o, ho, rfl⟩ := h
    have := foldArgs_typed (fun a b ha hb => colT_bin (op := c!"+") ha (by decide) hb) hm ho
    exact colT_binCode this (by decide) (hasTy_int _) rfl
  · exact foldArgs_typed (f := fun v c => .fn c!"greatest" [v, c])
      (fun a b ha hb => colT_fn (hasTys_cons ha (hasTys_cons hb rfl)) (by decide) (by decide +kernel)) hm h
  · exact foldArgs_typed (f := fun v c => .fn c!"least" [v, c])
      (fun a b ha hb => colT_fn (hasTys_cons ha (hasTys_cons hb rfl)) (by decide) (by decide +kernel)) hm h

/-! ### calls -/

/-- The columns of an argument list are columns. -/
def ArgsT (as : List Arg) : Prop := ∀ a ∈ as, ∀ x, a.col = some x → ColT x

theorem mapArgs_typed {as : List Arg} {xs : List PE} (ha : ArgsT as) (h : mapArgs as = some xs) :
    (∀ x ∈ xs, ColT x) ∧ xs.length = as.length := by
  induction as generalizing xs with
  | nil => cases h; simp
  | cons a as ih =>
    rw [mapArgs] at h
    split at h
    · cases h
    · rename_i x hx
      split at h
      · cases h
      · rename_i ys hys
        cases h
        obtain ⟨h1, h2⟩ := ih (fun b hb => ha b (List.mem_cons_of_mem _ hb)) hys
        refine ⟨fun e he => ?_, by simp [h2]⟩
        rcases List.mem_cons.mp he with rfl | he
        · exact ha a (by simp) _ hx
        · exact h1 e he

theorem bindParams_typed {ps : List PK} {as : List Arg} {vs : List ArgVal} (ha : ArgsT as) (h : bindParams ps as = some vs) :
    ∀ x, ArgVal.e x ∈ vs → ColT x := by
  induction ps generalizing as vs with
  | nil => cases h; intro x hx; simp at hx
  | cons p ps ih =>
    cases as with
    | nil => cases h
    | cons a as =>
      rw [bindParams] at h
      split at h
      · cases h
      · rename_i v hv
        split at h
        · cases h
        · rename_i vs0 hvs
          cases h
          intro x hx
          rcases List.mem_cons.mp hx with rfl | hx
          · cases p with
            | expr =>
              simp only [bindParam, Option.map_eq_some_iff] at hv
              obtain ⟨y, hy, he⟩ := hv
              cases he
              exact ha a (by simp) _ hy
            | int => simp [bindParam] at hv
            | str => simp [bindParam] at hv
          · exact ih (fun b hb => ha b (List.mem_cons_of_mem _ hb)) hvs x hx

theorem apply_typed {f : FnSpec} (hf : Makes f) {as : List Arg} {r : PE} (ha : ArgsT as) (h : f.apply as = some r) : TopT r := by
  unfold FnSpec.apply at h
  split at h
  · cases h
  · rename_i vs hvs
    simp only [Option.map_eq_some_iff] at h
    obtain ⟨o, ho, rfl⟩ := h
    have key : ColT o := by
      have hv := bindParams_typed ha hvs
      cases hr : f.rest with
      | exact =>
        simp only [hr] at ho
        split at ho
        · exact hf _ _ _ _ hv (by simp) ho
        · cases ho
      | ignored => simp only [hr] at ho; exact hf _ _ _ _ hv (by simp) ho
      | mapped =>
        simp only [hr] at ho
        split at ho
        · cases ho
        · rename_i ms hms
          exact hf _ _ _ _ hv (mapArgs_typed (fun a hm => ha a (List.mem_of_mem_drop hm)) hms).1 ho
    unfold PE.withAlias
    rw [colT_unalias key]
    exact key

theorem passThrough_typed {n : Str} {as : List Arg} {p : PE} (ha : ArgsT as)
    (hc : (callable functionSigs n (List.replicate as.length .col) && !n.contains '.') = true) (h : passThrough n as = some p) : TopT p := by
  simp only [passThrough, Option.map_eq_some_iff] at h
  obtain ⟨xs, hxs, rfl⟩ := h
  obtain ⟨h1, h2⟩ := mapArgs_typed ha hxs
  simp only [Bool.and_eq_true, Bool.not_eq_true'] at hc
  exact colT_fn (hasTys_cols h1) hc.2 (by rw [h2]; exact hc.1)

theorem evalFunctions_known : ∀ f ∈ evalFunctions, (lookupFn f evalTable).isSome = true ∨ f ∈ evalUnsupported := by
  have h : (evalFunctions.all fun f => (lookupFn f evalTable).isSome || evalUnsupported.contains f) = true := by decide +kernel
  intro f hf
  simpa using List.all_eq_true.1 h f hf

theorem evalFn_typed {n : Str} {as : List Arg} {p : PE} (ha : ArgsT as) (hc : okEval n as.length = true)
    (h : evalFn .disallow n as = some p) : TopT p := by
  unfold evalFn at h
  dsimp only at h
  unfold evalFnBare at h
  split at h
  · rename_i f hf
    exact apply_typed (makes_eval _ (lookupFn_mem hf)) ha h
  · rename_i hn
    split at h
    · cases h
    · rename_i hu
      unfold okEval at hc
      rw [Bool.or_eq_true] at hc
      rcases hc with hc | hc
      · rcases evalFunctions_known n (by simpa using hc) with h1 | h1
        · rw [hn] at h1; cases h1
        · exact absurd h1 hu
      · exact passThrough_typed ha hc h

/-! ### expressions -/

theorem op_typed {op : Str} (h : okOps.contains op = true) : mapOp op ∈ columnOps := by
  have h' : (okOps.all fun o => columnOps.contains (mapOp o)) = true := by decide +kernel
  simpa using List.all_eq_true.1 h' op (by simpa using h)

theorem likeTest_typed {x : PE} {q : Str} (hx : TopT x) : ColT (likeTest x q) := by
  exact ⟨rfl, topT_unalias hx, [.text], hasTys_cons (hasTy_str _) rfl, by decide +kernel⟩

theorem binTop_typed {l r : PE} {op : Str} (hl : TopT l) (ho : op ∈ columnOps) (hr : TopT r) : ColT (PE.mkBin l op r) :=
  ⟨rfl, ho, topT_unalias hl, .col, topT_unalias hr, rfl⟩

theorem binTr_typed {l s r a b p} (ho : okOps.contains s = true) (ha : ∀ x, a = some x → TopT x) (hb : ∀ x, b = some x → TopT x)
    (h : binTr l s r a b = some p) : ColT p := by
  have hg : generalBin a (mapOp s) b = some p → ColT p := by
    intro h
    unfold generalBin at h
    split at h
    · cases h; exact binTop_typed (ha _ rfl) (op_typed ho) (hb _ rfl)
    · cases h
  have hw : ∀ q, wildcardTr a (mapOp s) q = some p → ColT p := by
    intro q h
    unfold wildcardTr at h
    split at h
    · cases h
    · repeat' split at h
      · cases h; exact likeTest_typed (ha _ rfl)
      · cases h; exact likeTest_typed (ha _ rfl)
      · cases h; exact colT_not (likeTest_typed (ha _ rfl))
      · cases h
  unfold binTr at h
  split at h
  · exact hw _ h
  · split at h
    · split at h
      · cases h; exact colT_fn (hasTys_cons (hasTy_str _) rfl) (by decide) (by decide +kernel)
      · exact hg h
    · exact hg h
  · exact hg h

theorem colT_named (f : Str) : ColT (.named f) := rfl

theorem fieldInCheck_typed {f e p} (ho : okMember e = true) (h : fieldInCheck f e = some p) : ColT p := by
  unfold fieldInCheck at h
  repeat' split at h
  all_goals first
    | (cases h; exact likeTest_typed (topT_of (colT_named f)))
    | (cases h; exact colT_binCode (colT_named f) (by decide) (hasTy_bool _) rfl)
    | (cases h; exact colT_binCode (colT_named f) (by decide) (hasTy_int _) rfl)
    | (cases h; exact colT_binCode (colT_named f) (by decide) (hasTy_str _) rfl)
    | (cases h
       obtain ⟨σ, hσ, hc⟩ := num_code (show decimal _ = true from ho)
       refine colT_binCode (t := σ) (colT_named f) (by decide) (hasTy_codeOf ?_ hc (code_dbl ho)) ?_ <;> rcases hσ with rfl | rfl <;> decide)
    | cases h

theorem fieldInChecks_typed {f es ps} (ho : es.all okMember = true) (h : fieldInChecks f es = some ps) : ∀ p ∈ ps, ColT p := by
  induction es generalizing ps with
  | nil => cases h; simp
  | cons e es ih =>
    rw [List.all_cons, Bool.and_eq_true] at ho
    rw [fieldInChecks] at h
    repeat' split at h
    · cases h
    · cases h
    · rename_i _ c hc _ cs hcs
      cases h
      intro p hp
      rcases List.mem_cons.mp hp with rfl | hp
      · exact fieldInCheck_typed ho.1 hc
      · exact ih ho.2 hcs p hp

theorem joinBinFrom_typed {op : Str} (ho : op ∈ columnOps) : ∀ {ps : List PE} {x : PE}, ColT x → (∀ p ∈ ps, ColT p) →
    ColT (joinBinFrom op x ps) := by
  intro ps
  induction ps with
  | nil => intro x hx _; simpa [joinBinFrom] using hx
  | cons p ps ih =>
    intro x hx hp
    rw [joinBinFrom]
    exact ih ⟨rfl, ho, hx, .col, hp p (by simp), rfl⟩ (fun q hq => hp q (by simp [hq]))

theorem joinAs_typed {op : Str} (ho : op ∈ columnOps) {ps : List PE} (hp : ∀ p ∈ ps, ColT p) {p : PE} (h : joinAsBinaries op ps = some p) :
    ColT p := by
  cases ps with
  | nil => cases h
  | cons q ps =>
    cases h
    exact joinBinFrom_typed ho (hp q (by simp)) (fun r hr => hp r (by simp [hr]))

theorem joinAsD_typed {op : Str} (ho : op ∈ columnOps) {ps : List PE} (hp : ∀ p ∈ ps, ColT p) {d : PE} (hd : ColT d) :
    ColT ((joinAsBinaries op ps).getD d) := by
  cases h : joinAsBinaries op ps with
  | none => exact hd
  | some p => exact joinAs_typed ho hp h

theorem colT_True : ColT (.lit c!"True") := colT_litOf (t := .bool) rfl (by decide +kernel) rfl
theorem colT_None : ColT (.lit c!"None") := colT_litOf (t := .none) rfl (by decide +kernel) rfl

theorem argsTr_length (m : Mode) : ∀ es : List Expr, (argsTr m es).length = es.length
  | [] => rfl
  | e :: es => by rw [argsTr, List.length_cons, List.length_cons, argsTr_length m es]

mutual
theorem exprTr_typed : ∀ (e : Expr) (p : PE), okExpr e = true → exprTr .disallow e = some p → TopT p := by
  intro e p ho h
  match e with
  | .binary l s r =>
    rw [exprTr] at h
    simp only [okExpr, Bool.and_eq_true] at ho
    exact topT_of (binTr_typed ho.1.1 (fun x hx => exprTr_typed l x ho.1.2 hx) (fun x hx => exprTr_typed r x ho.2 hx) h)
  | .unary s r =>
    rw [exprTr] at h
    rw [okExpr] at ho
    split at h
    · simp only [Option.map_eq_some_iff] at h
      obtain ⟨o, ho', rfl⟩ := h
      exact ⟨rfl, topT_unalias (exprTr_typed r o ho ho')⟩
    · cases h
  | .const k =>
    rw [exprTr] at h
    unfold constTr at h
    split at h
    all_goals first
      | (cases h; exact topT_of (colT_named _))
      | (cases h; exact topT_of (colT_lit (int_code _) rfl))
      | (cases h; exact topT_of (colT_lit (quote_code _) rfl))
      | (cases h
         obtain ⟨σ, hσ, hc⟩ := num_code (show decimal _ = true from ho)
         exact topT_of (colT_lit hc (by rcases hσ with rfl | rfl <;> rfl)))
      | (simp [okExpr] at ho; done)
      | cases h
  | .fieldIn f es =>
    rw [exprTr] at h
    rw [okExpr] at ho
    simp only [fieldInTr, Option.map_eq_some_iff] at h
    obtain ⟨cs, hcs, rfl⟩ := h
    exact topT_of (joinAsD_typed (by decide) (fieldInChecks_typed ho hcs) colT_True)
  | .call n args =>
    rw [exprTr] at h
    simp only [okExpr, Bool.and_eq_true] at ho
    exact evalFn_typed (argsTr_typed args ho.2) (by rw [argsTr_length]; exact ho.1) h
  | .fv .. | .fb .. | .fc .. | .alias .. | .aliasedField .. | .searchModifier .. | .subSearch ..
  | .timeModifier .. => simp [exprTr] at h

theorem argsTr_typed : ∀ (es : List Expr), okExprs es = true → ArgsT (argsTr .disallow es) := by
  intro es ho
  match es with
  | [] => simp [argsTr, ArgsT]
  | e :: es =>
    rw [argsTr]
    simp only [okExprs, Bool.and_eq_true] at ho
    intro a ha x hx
    rcases List.mem_cons.mp ha with rfl | ha
    · simp only [Option.map_eq_some_iff] at hx
      obtain ⟨o, ho', rfl⟩ := hx
      exact topT_unalias (exprTr_typed e o ho.1 ho')
    · exact argsTr_typed es ho.2 a ha x hx
end

theorem rawTest_typed (s : Str) : ColT (rawTest s) :=
  colT_method (colT_named _) (hasTys_cons (hasTy_str _) rfl) (by decide +kernel)

theorem searchRw_typed : ∀ (p : PE), ColT p → ColT (searchRw p)
  | .named n, _ => rawTest_typed n
  | .lit c, _ => rawTest_typed _
  | .not r, h => ⟨rfl, searchRw_typed r h.2⟩
  | .bin op l r, h => by
    rw [searchRw]
    split
    · obtain ⟨_, ho, hl, σ, hr, hσ⟩ := h
      cases r with
      | py c =>
        unfold PE.mkBin
        rw [colT_unalias (searchRw_typed l hl)]
        exact ⟨rfl, ho, searchRw_typed l hl, σ, hr, hσ⟩
      | aliased c n => exact absurd hr (by simp [HasTy])
      | _ =>
        have hs : σ = .col := by first | exact hr | exact hr.1
        subst hs
        exact colT_bin (searchRw_typed l hl) ho (searchRw_typed _ hr)
    · exact h
  | .aliased c n, h => absurd h (by simp [ColT, HasTy])
  | .method c f as, h => h
  | .fn f as, h => h
  | .py c, h => h

/-- the condition of a search -/
theorem intoSearch_typed {p : PE} (h : TopT p) : ColT (intoSearch p).unalias := by
  have h1 := searchRw_typed _ (topT_unalias h)
  unfold intoSearch PE.maybeAlias
  split
  · unfold PE.withAlias
    rw [colT_unalias h1]
    exact topT_unalias (e := .aliased _ _) h1
  · exact topT_unalias (topT_of h1)

end Verif.Lemmas.Typing
