import Verif.Lemmas.Numbers
import Verif.Spec.Fragment
import Verif.Tr.Expr
/-
Lemmas for the meaning of translated expressions.
-/
namespace Verif.Lemmas
open Verif Spec

/-- The Python expression of `p` is a column whose value is `f`. -/
def Means (p : PE) (f : Sem → Event → Val) : Prop :=
  ∃ t, pyTree p = some t ∧ ∀ S row, ∃ o, pyEval S row t = some o ∧ o.isColumn = true ∧ o.val = f S row

/-- The verbatim code `c` is a Python constant of value `v`. -/
def IsConst (c : Str) (v : Val) : Prop :=
  ∃ t, codeTree c = some t ∧ ∀ S row, pyEval S row t = some (.const v)

/-- The Python expression of `p` is a column made of `when` branches. -/
def Branches (p : PE) (bs : Sem → Event → List (Option Bool × Val)) : Prop :=
  isReceiver p = true ∧ p.unalias = p ∧
    ∃ t, pyTree p = some t ∧ ∀ S row, pyEval S row t = some (.branches (bs S row))

theorem plain_const {s : Str} (h : Plain '\'' s = true) : IsConst (c!"'" ++ s ++ c!"'") (.str s) :=
  ⟨_, codeTree_quote h, fun _ _ => rfl⟩

theorem plain_dconst {s : Str} (h : Plain '"' s = true) : IsConst (c!"\"" ++ s ++ c!"\"") (.str s) :=
  ⟨_, codeTree_dquote h, fun _ _ => rfl⟩

theorem int_const (n : Int) : IsConst (showInt n) (.num n) := ⟨_, code_int n, fun S row => eval_int S row n⟩

theorem dbl_const {d : Dbl} (h : NumeralOk d = true) : IsConst d.text (.num (dblVal d)) :=
  ⟨_, code_dbl h, fun S row => eval_dbl S row d⟩

theorem bool_const (b : Bool) : IsConst (if b then c!"True" else c!"False") (.bool b) := by
  cases b
  · exact ⟨.name c!"False", by decide +kernel, fun _ _ => rfl⟩
  · exact ⟨.name c!"True", by decide +kernel, fun _ _ => rfl⟩

theorem none_const : IsConst c!"None" .null := ⟨.name c!"None", by decide +kernel, fun _ _ => rfl⟩

theorem eval_fCall (S : Sem) (row : Event) (f : Str) (args : List PyE) :
    pyEval S row (fCall f args) = (pyEvals S row args).bind (fFn S row f) := by
  simp only [fCall, pyEval, if_true]

theorem eval_method {S : Sem} {row : Event} {t : PyE} {o : Obj} (f : Str) (args : List PyE)
    (h : pyEval S row t = some o) (ho : o.isColumn = true) :
    pyEval S row (.call (.attr t f) args) = (pyEvals S row args).bind (colMethod S o f) := by
  cases t with
  | name n =>
    exfalso
    simp only [pyEval] at h
    have : ∀ v, o = .const v → False := by intro v e; subst e; cases ho
    repeat' split at h
    all_goals first | (injection h with h; exact this _ h.symm) | cases h
  | _ =>
    rw [pyEval.eq_6]
    · rw [h, Option.bind_some]
    · intro m e; cases e

theorem means_named {n : Str} (h : Plain '\'' n = true) : Means (.named n) (fun _ row => row n) := by
  refine ⟨fCall c!"col" [.str n], by simp only [pyTree, h, if_true], fun S row => ⟨.column (row n), ?_, rfl, rfl⟩⟩
  rw [eval_fCall]
  rfl

theorem means_lit {c : Str} {v : Val} (h : IsConst c v) : Means (.lit c) (fun _ _ => v) := by
  obtain ⟨t, ht, he⟩ := h
  refine ⟨fCall c!"lit" [t], by simp only [pyTree, ht, Option.map_some], fun S row => ⟨.column v, ?_, rfl, rfl⟩⟩
  rw [eval_fCall]
  simp only [pyEvals, he, Option.bind_some, Option.map_some]
  rfl

theorem means_bin {l r : PE} {f g : Sem → Event → Val} {op : Str} {o : Oper} (hl : Means l f) (hr : Means r g)
    (ho : pyOp op = some o) (hop : (opLevel op).isSome = true) :
    Means (.bin op l r) (fun S row => S.op o (f S row) (g S row)) := by
  obtain ⟨a, ha, ea⟩ := hl
  obtain ⟨b, hb, eb⟩ := hr
  refine ⟨.bin op a b, by simp only [pyTree, ha, hb, hop, if_true], fun S row => ?_⟩
  obtain ⟨x, hx, cx, vx⟩ := ea S row
  obtain ⟨y, hy, _, vy⟩ := eb S row
  refine ⟨.column (S.op o x.val y.val), ?_, rfl, by rw [vx, vy]; rfl⟩
  simp only [pyEval, ho, hx, hy, cx, Option.bind_some, Bool.true_or, if_true]

theorem means_bin_py {l : PE} {f : Sem → Event → Val} {c : Str} {v : Val} {op : Str} {o : Oper} (hl : Means l f)
    (hr : IsConst c v) (ho : pyOp op = some o) (hop : (opLevel op).isSome = true) :
    Means (.bin op l (.py c)) (fun S row => S.op o (f S row) v) := by
  obtain ⟨a, ha, ea⟩ := hl
  obtain ⟨b, hb, eb⟩ := hr
  refine ⟨.bin op a b, by simp only [pyTree, ha, hb, hop, if_true], fun S row => ?_⟩
  obtain ⟨x, hx, cx, vx⟩ := ea S row
  refine ⟨.column (S.op o x.val v), ?_, rfl, by rw [vx]; rfl⟩
  simp only [pyEval, ho, hx, eb, cx, Option.bind_some, Bool.true_or, if_true, Obj.val]

theorem means_not {r : PE} {f : Sem → Event → Val} (h : Means r f) : Means (.not r) (fun S row => S.neg (f S row)) := by
  obtain ⟨a, ha, ea⟩ := h
  refine ⟨.inv a, by simp only [pyTree, ha, Option.map_some], fun S row => ?_⟩
  obtain ⟨x, hx, cx, vx⟩ := ea S row
  refine ⟨.column (S.neg x.val), ?_, rfl, by rw [vx]; rfl⟩
  simp only [pyEval, hx, cx, Option.bind_some, if_true]

theorem means_alias {p : PE} {f : Sem → Event → Val} {n : Str} (h : Means p f) (hr : isReceiver p = true)
    (hn : Plain '\'' n = true) : Means (.aliased p n) f := by
  obtain ⟨a, ha, ea⟩ := h
  refine ⟨.call (.attr a c!"alias") [.str n], by simp only [pyTree, ha, hr, hn, Bool.and_self, if_true, Option.map_some],
    fun S row => ?_⟩
  obtain ⟨x, hx, cx, vx⟩ := ea S row
  refine ⟨.column x.val, ?_, rfl, vx⟩
  rw [eval_method _ _ hx cx]
  simp only [pyEvals, pyEval, Option.bind_some, Option.map_some]
  unfold colMethod
  rw [if_pos cx, if_pos rfl]

theorem isIdent_like : isIdent c!"like" = true := by decide +kernel
theorem isIdent_when : isIdent c!"when" = true := by decide +kernel
theorem isIdent_otherwise : isIdent c!"otherwise" = true := by decide +kernel

theorem starToPercent_cons (c : Char) (cs : Str) :
    starToPercent (c :: cs) = (if c = '*' then '%' else c) :: starToPercent cs := by
  unfold starToPercent replaceAll
  simp only [List.length_cons, replaceAux, stripPrefix?]
  by_cases h : c = '*'
  · subst h; simp
  · rw [if_neg (fun e => h e.symm), if_neg h]

theorem like_wild : ∀ {p : Str}, PlainPat p = true → likeToks (starToPercent p) = some (wildToks p)
  | [], _ => rfl
  | c :: cs, h => by
    simp only [PlainPat, Plain, List.all_cons, Bool.and_eq_true, bne_iff_ne] at h
    have ih : likeToks (starToPercent cs) = some (wildToks cs) := by
      apply like_wild
      simp only [PlainPat, Plain, Bool.and_eq_true]
      exact ⟨h.1.2, h.2.2⟩
    rw [starToPercent_cons, likeToks.eq_def, wildToks]
    by_cases hc : c = '*'
    · simp [hc, ih]
    · simp [hc, h.1.1.1.1.2, h.2.1.1, h.2.1.2, ih]

theorem star_plain : ∀ {p : Str}, Plain '"' p = true → Plain '"' (starToPercent p) = true
  | [], h => h
  | c :: cs, h => by
    rw [starToPercent_cons]
    simp only [Plain, List.all_cons, Bool.and_eq_true] at h ⊢
    refine ⟨?_, star_plain h.2⟩
    split
    · decide
    · exact h.1

theorem means_like {l : PE} {f : Sem → Event → Val} {p : Str} (h : Means l f) (hr : isReceiver l = true)
    (hp : PlainPat p = true) :
    Means (.method l c!"like" [pyStr (starToPercent p)]) (fun S row => ofB (S.matches (f S row) (wildToks p))) := by
  obtain ⟨a, ha, ea⟩ := h
  have hp' : Plain '"' p = true := by
    simp only [PlainPat, Bool.and_eq_true] at hp; exact hp.1
  obtain ⟨b, hb, eb⟩ := plain_dconst (star_plain hp')
  refine ⟨.call (.attr a c!"like") [b], ?_, fun S row => ?_⟩
  · simp only [pyTree, ha, hr, isIdent_like, Bool.and_self, if_true, pyTrees, pyStr, hb]
  obtain ⟨x, hx, cx, vx⟩ := ea S row
  refine ⟨.column (ofB (S.matches x.val (wildToks p))), ?_, rfl, by rw [vx]; rfl⟩
  rw [eval_method _ _ hx cx]
  simp only [pyEvals, eb, Option.bind_some, Option.map_some]
  unfold colMethod
  rw [if_pos cx, if_neg (by decide), if_pos rfl]
  simp only [like_wild hp, Option.map_some]

/-- primitive operations that never give a value -/
def blankSem : Sem :=
  ⟨fun _ _ _ => none, fun _ _ _ => .null, fun | .bool b => some b | _ => none, fun _ => none, fun _ _ => .null,
    fun b => by cases b <;> rfl⟩

theorem means_isCol {p : PE} {f : Sem → Event → Val} (h : Means p f) : p.isCol = true := by
  cases p with
  | py c =>
    exfalso
    obtain ⟨t, ht, et⟩ := h
    obtain ⟨o, ho, co, _⟩ := et blankSem (fun _ => .null)
    have hc : ∃ v, o = .const v := by
      simp only [pyTree] at ht
      rcases code_cases ht with ⟨v, _, rfl⟩ | ⟨n, _, rfl⟩ | ⟨d, n, _, _, rfl⟩ | ⟨_, rfl⟩
      · exact ⟨_, (Option.some.inj ho).symm⟩
      · exact ⟨_, (Option.some.inj ho).symm⟩
      · exact ⟨_, (Option.some.inj ho).symm⟩
      · simp only [pyEval] at ho
        repeat' split at ho
        all_goals first | exact ⟨_, (Option.some.inj ho).symm⟩ | cases ho
    obtain ⟨v, rfl⟩ := hc
    cases co
  | _ => rfl

/-! ### aliases -/

theorem unalias_idem : ∀ p : PE, p.unalias.unalias = p.unalias
  | .named _ => rfl
  | .lit _ => rfl
  | .method _ _ _ => rfl
  | .fn _ _ => rfl
  | .bin _ _ _ => rfl
  | .not _ => rfl
  | .py _ => rfl
  | .aliased c n => by
    cases c with
    | py => rfl
    | named | lit | method | fn | bin | not => rfl
    | aliased c' n' =>
      rw [PE.unalias]
      · exact unalias_idem _
      · intro c h; cases h

/-! ### three-valued or -/

theorem or3_false (a : Option Bool) : or3 a (some false) = a := by
  cases a with
  | none => rfl
  | some a => cases a <;> rfl

theorem or3_assoc (a b c : Option Bool) : or3 (or3 a b) c = or3 a (or3 b c) := by
  rcases a with _ | a <;> rcases b with _ | b <;> rcases c with _ | c <;>
    (try cases a) <;> (try cases b) <;> (try cases c) <;> rfl

theorem not3_not3 (a : Option Bool) : not3 (not3 a) = a := by
  rcases a with _ | a <;> (try cases a) <;> rfl

/-! ### when -/

theorem branches_fn {c v : PE} {f g : Sem → Event → Val} (hc : Means c f) (hv : Means v g) :
    Branches (.fn c!"when" [c, v]) (fun S row => [(S.truth (f S row), g S row)]) := by
  obtain ⟨a, ha, ea⟩ := hc
  obtain ⟨b, hb, eb⟩ := hv
  refine ⟨rfl, rfl, fCall c!"when" [a, b], ?_, fun S row => ?_⟩
  · have : funcTree c!"when" = some (.attr (.name c!"F") c!"when") := by decide +kernel
    simp only [pyTree, this, pyTrees, ha, hb]
    rfl
  obtain ⟨x, hx, cx, vx⟩ := ea S row
  obtain ⟨y, hy, _, vy⟩ := eb S row
  rw [eval_fCall]
  simp only [pyEvals, hx, hy, Option.bind_some, Option.map_some]
  show (if x.isColumn then some (Obj.branches [(S.truth x.val, y.val)]) else none) = _
  rw [cx, if_pos rfl, vx, vy]

theorem branches_when {p c v : PE} {bs : Sem → Event → List (Option Bool × Val)} {f g : Sem → Event → Val}
    (hp : Branches p bs) (hc : Means c f) (hv : Means v g) :
    Branches (PE.mkMethod p c!"when" [c, v]) (fun S row => bs S row ++ [(S.truth (f S row), g S row)]) := by
  obtain ⟨hr, hu, t, ht, et⟩ := hp
  obtain ⟨a, ha, ea⟩ := hc
  obtain ⟨b, hb, eb⟩ := hv
  unfold PE.mkMethod
  rw [hu]
  refine ⟨rfl, rfl, .call (.attr t c!"when") [a, b], ?_, fun S row => ?_⟩
  · simp only [pyTree, ht, hr, isIdent_when, Bool.and_self, if_true, pyTrees, ha, hb]
  obtain ⟨x, hx, cx, vx⟩ := ea S row
  obtain ⟨y, hy, _, vy⟩ := eb S row
  rw [eval_method _ _ (et S row) rfl]
  simp only [pyEvals, hx, hy, Option.bind_some, Option.map_some]
  show (if x.isColumn then some (Obj.branches (bs S row ++ [(S.truth x.val, y.val)])) else none) = _
  rw [cx, if_pos rfl, vx, vy]

theorem means_branches {p : PE} {bs : Sem → Event → List (Option Bool × Val)} (h : Branches p bs) :
    Means p (fun S row => pick false (bs S row)) := by
  obtain ⟨_, _, t, ht, et⟩ := h
  exact ⟨t, ht, fun S row => ⟨_, et S row, rfl, rfl⟩⟩

theorem means_otherwise {p v : PE} {bs : Sem → Event → List (Option Bool × Val)} {g : Sem → Event → Val}
    (hp : Branches p bs) (hv : Means v g) :
    Means (PE.mkMethod p c!"otherwise" [v]) (fun S row => pick false (bs S row ++ [(some true, g S row)])) := by
  obtain ⟨hr, hu, t, ht, et⟩ := hp
  obtain ⟨b, hb, eb⟩ := hv
  unfold PE.mkMethod
  rw [hu]
  refine ⟨.call (.attr t c!"otherwise") [b], ?_, fun S row => ?_⟩
  · simp only [pyTree, ht, hr, isIdent_otherwise, Bool.and_self, if_true, pyTrees, hb]
  obtain ⟨y, hy, _, vy⟩ := eb S row
  refine ⟨.column (pick false (bs S row ++ [(some true, y.val)])), ?_, rfl, by rw [vy]; rfl⟩
  rw [eval_method _ _ (et S row) rfl]
  simp only [pyEvals, hy, Option.bind_some, Option.map_some]
  rfl

/-- columns and their values, position by position -/
def MeansL : List PE → List (Sem → Event → Val) → Prop
  | [], [] => True
  | p :: ps, f :: fs => (Means p f ∧ p.unalias = p) ∧ MeansL ps fs
  | _, _ => False

theorem meansL_trees : ∀ {ps : List PE} {fs : List (Sem → Event → Val)}, MeansL ps fs →
    ∃ ts, pyTrees ps = some ts ∧ ∀ S row, ∃ os, pyEvals S row ts = some os ∧ os.all Obj.isColumn = true ∧
      os.map Obj.val = fs.map fun f => f S row
  | [], [], _ => ⟨[], rfl, fun _ _ => ⟨[], rfl, rfl, rfl⟩⟩
  | p :: ps, f :: fs, h => by
    obtain ⟨⟨⟨t, ht, et⟩, _⟩, h2⟩ := h
    obtain ⟨ts, hts, ets⟩ := meansL_trees h2
    refine ⟨t :: ts, by simp only [pyTrees, ht, hts], fun S row => ?_⟩
    obtain ⟨o, ho, co, vo⟩ := et S row
    obtain ⟨os, hos, cos, vos⟩ := ets S row
    refine ⟨o :: os, by simp only [pyEvals, ho, hos, Option.bind_some, Option.map_some], ?_, ?_⟩
    · rw [List.all_cons, co, cos]; rfl
    · rw [List.map_cons, List.map_cons, vo, vos]
  | [], _ :: _, h => h.elim
  | _ :: _, [], h => h.elim

theorem meansL_length : ∀ {ps : List PE} {fs : List (Sem → Event → Val)}, MeansL ps fs → ps.length = fs.length
  | [], [], _ => rfl
  | _ :: _, _ :: _, h => by rw [List.length_cons, List.length_cons, meansL_length h.2]
  | [], _ :: _, h => h.elim
  | _ :: _, [], h => h.elim

/-- conditions and values in alternation -/
def pairF : List (Sem → Event → Val) → List ((Sem → Event → Val) × (Sem → Event → Val))
  | c :: v :: rest => (c, v) :: pairF rest
  | _ => []

/-- the condition of a branch -/
def condB (neg : Bool) (S : Sem) (v : Val) : Option Bool := if neg then not3 (S.truth v) else S.truth v

theorem means_cond {neg : Bool} {c : PE} {f : Sem → Event → Val} (h : Means c f) (hu : c.unalias = c) :
    ∃ g, Means (if neg then PE.mkNot c else c) g ∧ ∀ S row, S.truth (g S row) = condB neg S (f S row) := by
  cases neg with
  | false => exact ⟨f, h, fun _ _ => rfl⟩
  | true =>
    refine ⟨fun S row => S.neg (f S row), ?_, fun S row => ?_⟩
    · rw [if_pos rfl]; unfold PE.mkNot; rw [hu]; exact means_not h
    · simp only [Sem.neg, S.truth_ofB, condB, if_true]

theorem branches_congr {p : PE} {a b : Sem → Event → List (Option Bool × Val)} (h : Branches p a)
    (e : ∀ S row, a S row = b S row) : Branches p b := by
  have : a = b := by funext S row; exact e S row
  rw [← this]; exact h

theorem means_congr {p : PE} {a b : Sem → Event → Val} (h : Means p a) (e : ∀ S row, a S row = b S row) : Means p b := by
  have : a = b := by funext S row; exact e S row
  rw [← this]; exact h

theorem case_from (neg : Bool) : ∀ (n : Nat) {ms : List PE} {fs : List (Sem → Event → Val)} {acc : PE}
    {bs : Sem → Event → List (Option Bool × Val)}, ms.length ≤ n → MeansL ms fs → ms.length % 2 = 0 → Branches acc bs →
    Branches (caseFrom neg acc ms)
      (fun S row => bs S row ++ (pairF fs).map fun x => (condB neg S (x.1 S row), x.2 S row))
  | _, [], [], acc, bs, _, _, _, h => by
    rw [caseFrom]
    · exact branches_congr h (fun S row => by simp [pairF])
    · intro c v rest e; cases e
  | 0, _ :: _, _, _, _, hn, _, _, _ => by simp at hn
  | n + 1, c :: v :: ms, f :: g :: fs, acc, bs, hn, hm, he, h => by
    obtain ⟨⟨hc, uc⟩, ⟨hv, _⟩, hm⟩ := hm
    rw [caseFrom]
    obtain ⟨k, hk, ek⟩ := means_cond (neg := neg) hc uc
    have := case_from neg n (by simp at hn; omega) hm (by simp at he; omega) (branches_when h hk hv)
    refine branches_congr this (fun S row => ?_)
    simp only [pairF, List.map_cons, List.append_assoc, List.cons_append, List.nil_append, ek]
  | _ + 1, [_], _, _, _, _, _, he, _ => by simp at he
  | _ + 1, _ :: _ :: _, [_], _, _, _, hm, _, _ => by exact hm.2.elim
  | _ + 1, _ :: _, [], _, _, _, hm, _, _ => by exact hm.elim
  | _, [], _ :: _, _, _, _, hm, _, _ => by exact hm.elim

theorem case_body (neg : Bool) {ms : List PE} {fs : List (Sem → Event → Val)} (hm : MeansL ms fs)
    (he : ms.length % 2 = 0) (hne : ms ≠ []) :
    ∃ p, caseBody neg ms = some p ∧
      Branches p (fun S row => (pairF fs).map fun x => (condB neg S (x.1 S row), x.2 S row)) := by
  unfold caseBody
  rw [if_pos he]
  match ms, fs, hm with
  | [], _, _ => exact absurd rfl hne
  | [_], _, _ => simp at he
  | c :: v :: ms, f :: g :: fs, hm =>
    obtain ⟨⟨hc, uc⟩, ⟨hv, _⟩, hm⟩ := hm
    obtain ⟨k, hk, ek⟩ := means_cond (neg := neg) hc uc
    refine ⟨_, rfl, ?_⟩
    have := case_from neg ms.length (Nat.le_refl _) hm (by simp at he; omega) (branches_fn hk hv)
    refine branches_congr this (fun S row => ?_)
    simp only [pairF, List.map_cons, List.cons_append, List.nil_append, ek]
  | _ :: _ :: _, [_], hm => exact hm.2.elim
  | _ :: _ :: _, [], hm => exact hm.elim

theorem pick_neg : ∀ (bs : List (Option Bool × Val)), pick false (bs.map fun x => (not3 x.1, x.2)) = pick true bs
  | [] => rfl
  | (c, v) :: rest => by
    rw [List.map_cons, pick, pick, pick_neg rest]
    rcases c with _ | c <;> (try cases c) <;> rfl

theorem pair_up : ∀ (fs : List (Sem → Event → Val)) (S : Sem) (row : Event), fs.length % 2 = 0 →
    pairUp (fs.map fun f => f S row) = some ((pairF fs).map fun x => (x.1 S row, x.2 S row))
  | [], _, _, _ => rfl
  | [_], _, _, h => by simp at h
  | c :: v :: fs, S, row, h => by
    simp only [List.map_cons, pairUp, pairF, pair_up fs S row (by simp at h; omega), Option.map_some]

theorem means_fn {f : Str} {ps : List PE} {fs : List (Sem → Event → Val)} {g : Sem → Event → Val} (hf : funcTree f = some (.attr (.name c!"F") f))
    (h : MeansL ps fs)
    (hg : ∀ S row os, os.all Obj.isColumn = true → os.map Obj.val = fs.map (fun f => f S row) →
      ∃ o, fFn S row f os = some o ∧ o.isColumn = true ∧ o.val = g S row) :
    Means (.fn f ps) g := by
  obtain ⟨ts, hts, ets⟩ := meansL_trees h
  refine ⟨fCall f ts, by simp only [pyTree, hf, hts]; rfl, fun S row => ?_⟩
  obtain ⟨os, hos, cos, vos⟩ := ets S row
  obtain ⟨o, ho, co, vo⟩ := hg S row os cos vos
  refine ⟨o, ?_, co, vo⟩
  rw [eval_fCall, hos]
  exact ho

end Verif.Lemmas
