import Verif.Lemmas.Kept
/-
The mathematical and text functions are translated to columns of the same value.
-/
namespace Verif.Lemmas
open Verif Spec

/-- the functions `splFn` looks at first -/
def condNames : List Str :=
  [c!"case", c!"validate", c!"if", c!"true", c!"false", c!"null", c!"coalesce", c!"isnull", c!"isnotnull"]

theorem splFn_tail {name : Str} (h : name ∉ condNames) (S : Sem) (vs : List Val) : splFn S name vs = splPrimFn S name vs := by
  simp only [condNames, List.mem_cons, not_or, List.not_mem_nil, not_false_eq_true, and_true] at h
  obtain ⟨h1, h2, h3, h4, h5, h6, h7, h8, h9⟩ := h
  unfold splFn
  rw [if_neg h1, if_neg h2, if_neg h3, if_neg h4, if_neg h5, if_neg h6, if_neg h7, if_neg h8, if_neg h9]

/-- the functions `fFn` looks at first -/
def sparkCond : List Str := [c!"col", c!"lit", c!"when", c!"coalesce", c!"isnull", c!"isnotnull"]

theorem fFn_tail {f : Str} (h : f ∉ sparkCond) (S : Sem) (row : Event) (os : List Obj) : fFn S row f os = sparkFn S f os := by
  simp only [sparkCond, List.mem_cons, not_or, List.not_mem_nil, not_false_eq_true, and_true] at h
  obtain ⟨h1, h2, h3, h4, h5, h6⟩ := h
  unfold fFn
  rw [if_neg h1, if_neg h2, if_neg h3, if_neg h4, if_neg h5, if_neg h6]

theorem means_prim {f : Str} {ps : List PE} {fs : List (Sem → Event → Val)} {p : Prim} (hf : funcTree f = some (.attr (.name c!"F") f))
    (hc : f ∉ sparkCond) (hp : ∃ a b, (sparkPrims.find? fun x => x.1 == f && x.2.1 == fs.length) = some (a, b, p)) (h : MeansL ps fs) :
    Means (.fn f ps) (fun S row => S.prim p (fs.map fun f => f S row)) := by
  obtain ⟨a, b, hp⟩ := hp
  refine means_fn hf h (fun S row os ho hv => ?_)
  have hl : os.length = fs.length := by have := congrArg List.length hv; simpa using this
  rw [fFn_tail hc]
  unfold sparkFn
  rw [hl, hp]
  simp only [ho, if_true, hv]
  exact ⟨_, rfl, rfl, rfl⟩

theorem kept_call {name a : Str} {es : List Expr} {args : List Arg} {b : PE} {fs : List (Sem → Event → Val)} {g : Sem → Event → Val}
    (he : evalFn .disallow name args = some (b.withAlias a)) (hc : name ∉ condNames) (hm : Means b g) (hr : isReceiver b = true)
    (hu : b.unalias = b) (ha : Plain '\'' a = true) (hev : ∀ S row, splEvals S row es = some (fs.map fun f => f S row))
    (hg : ∀ S row, splPrimFn S name (fs.map fun f => f S row) = some (g S row)) :
    ∃ p f, evalFn .disallow name args = some p ∧ Kept1 (.call name es) p f := by
  refine ⟨_, _, he, kept_alias hm hr hu ha fun S row => ?_⟩
  simp only [splEval, hev, Option.bind_some]
  rw [splFn_tail hc, hg]

theorem spl_prim {name : Str} {n : Nat} {p : Prim} (h : splPrims.lookup name = some (n, p)) (S : Sem) {vs : List Val} (hl : vs.length = n) :
    splPrimFn S name vs = some (S.prim p vs) := by
  unfold splPrimFn
  rw [h]
  simp only [hl, if_true]

theorem mapped_one {args : List Arg} {ms : List PE} {fs : List (Sem → Event → Val)} (hmap : mapArgs args = some ms) (hms : MeansL ms fs)
    (hlen : ms.length = 1) : ∃ a c f, args = [a] ∧ ms = [c] ∧ fs = [f] ∧ a.col = some c ∧ Means c f ∧ c.unalias = c := by
  have hal := mapArgs_length hmap
  match ms, fs, hms with
  | [c], [f], hms =>
    match args, hmap, hal with
    | [a], hmap, _ =>
      refine ⟨a, c, f, rfl, rfl, rfl, ?_, hms.1.1, hms.1.2⟩
      simp only [mapArgs] at hmap
      cases h1 : a.col <;> simp [h1] at hmap ⊢
      exact hmap

theorem mapped_two {args : List Arg} {ms : List PE} {fs : List (Sem → Event → Val)} (hmap : mapArgs args = some ms) (hms : MeansL ms fs)
    (hlen : ms.length = 2) : ∃ a b c d f g, args = [a, b] ∧ ms = [c, d] ∧ fs = [f, g] ∧ a.col = some c ∧ b.col = some d ∧
      (Means c f ∧ c.unalias = c) ∧ (Means d g ∧ d.unalias = d) := by
  have hal := mapArgs_length hmap
  match ms, fs, hms with
  | [c, d], [f, g], hms =>
    match args, hmap, hal with
    | [a, b], hmap, _ =>
      refine ⟨a, b, c, d, f, g, rfl, rfl, rfl, ?_, ?_, hms.1, hms.2.1⟩
      all_goals
        simp only [mapArgs] at hmap
        cases h1 : a.col <;> cases h2 : b.col <;> simp [h1, h2] at hmap ⊢
        first | exact hmap.1 | exact hmap.2

theorem prim1 {name a sp : Str} {p : Prim} {es : List Expr} {args : List Arg} {ms : List PE} {fs : List (Sem → Event → Val)}
    (hl : lookupFn name evalTable = some (fn1 a sp)) (hs : splPrims.lookup name = some (1, p))
    (hp : ∃ a b, (sparkPrims.find? fun x => x.1 == sp && x.2.1 == 1) = some (a, b, p))
    (hk : name ∉ condNames ∧ sp ∉ sparkCond ∧ Plain '\'' a = true ∧ funcTree sp = some (.attr (.name c!"F") sp))
    (hmap : mapArgs args = some ms) (hlen : ms.length = 1) (hms : MeansL ms fs)
    (hev : ∀ S row, splEvals S row es = some (fs.map fun f => f S row)) :
    ∃ p f, evalFn .disallow name args = some p ∧ Kept1 (.call name es) p f := by
  obtain ⟨a1, c, f, rfl, rfl, rfl, hcol, hc⟩ := mapped_one hmap hms hlen
  have he : evalFn .disallow name [a1] = some ((PE.fn sp [c]).withAlias a) := by
    rw [evalFn_known hl]
    simp only [fn1, FnSpec.one, FnSpec.apply, bindParams, bindParam, hcol, Option.map_some, List.length_cons, List.length_nil]
    rfl
  exact kept_call he hk.1 (means_prim (fs := [f]) hk.2.2.2 hk.2.1 hp hms) rfl rfl hk.2.2.1 hev (fun S row => spl_prim hs S rfl)

theorem prim2 {name a sp : Str} {p : Prim} {es : List Expr} {args : List Arg} {ms : List PE} {fs : List (Sem → Event → Val)}
    (hl : lookupFn name evalTable = some (fn2 a sp)) (hs : splPrims.lookup name = some (2, p))
    (hp : ∃ a b, (sparkPrims.find? fun x => x.1 == sp && x.2.1 == 2) = some (a, b, p))
    (hk : name ∉ condNames ∧ sp ∉ sparkCond ∧ Plain '\'' a = true ∧ funcTree sp = some (.attr (.name c!"F") sp))
    (hmap : mapArgs args = some ms) (hlen : ms.length = 2) (hms : MeansL ms fs)
    (hev : ∀ S row, splEvals S row es = some (fs.map fun f => f S row)) :
    ∃ p f, evalFn .disallow name args = some p ∧ Kept1 (.call name es) p f := by
  obtain ⟨a1, a2, c, d, f, g, rfl, rfl, rfl, h1, h2, _⟩ := mapped_two hmap hms hlen
  have he : evalFn .disallow name [a1, a2] = some ((PE.fn sp [c, d]).withAlias a) := by
    rw [evalFn_known hl]
    simp only [fn2, FnSpec.two, FnSpec.apply, bindParams, bindParam, h1, h2, Option.map_some, List.length_cons, List.length_nil]
    rfl
  exact kept_call he hk.1 (means_prim (fs := [f, g]) hk.2.2.2 hk.2.1 hp hms) rfl rfl hk.2.2.1 hev (fun S row => spl_prim hs S rfl)

/-- a function of a column and Python constants -/
theorem means_mixed {f : Str} {p : PE} {cs : List Str} {vs : List Val} {g h : Sem → Event → Val}
    (hf : funcTree f = some (.attr (.name c!"F") f)) (hp : Means p g) (hcs : cs.length = vs.length)
    (hc : ∀ x ∈ cs.zip vs, IsConst x.1 x.2)
    (hg : ∀ S row o, o.isColumn = true → o.val = g S row → ∃ o', fFn S row f (o :: vs.map .const) = some o' ∧ o'.isColumn = true ∧ o'.val = h S row) :
    Means (.fn f (p :: cs.map .py)) h := by
  have hts : ∀ (cs : List Str) (vs : List Val), cs.length = vs.length → (∀ x ∈ cs.zip vs, IsConst x.1 x.2) →
      ∃ ts, pyTrees (cs.map .py) = some ts ∧ ∀ S row, pyEvals S row ts = some (vs.map .const) := by
    intro cs
    induction cs with
    | nil => intro vs hl _; cases vs with
      | nil => exact ⟨[], rfl, fun _ _ => rfl⟩
      | cons => cases hl
    | cons c cs ih =>
      intro vs hl hc
      cases vs with
      | nil => cases hl
      | cons v vs =>
        obtain ⟨ts, h1, h2⟩ := ih vs (by simpa using hl) (fun x hx => hc x (by simp [hx]))
        obtain ⟨t, ht, et⟩ := hc (c, v) (by simp)
        refine ⟨t :: ts, ?_, fun S row => ?_⟩
        · simp only [List.map_cons, pyTrees, pyTree, ht, h1]
        · simp only [pyEvals, et, h2, Option.bind_some, Option.map_some, List.map_cons]
  obtain ⟨ts, h1, h2⟩ := hts cs vs hcs hc
  obtain ⟨t, ht, et⟩ := hp
  refine ⟨fCall f (t :: ts), ?_, fun S row => ?_⟩
  · simp only [pyTree, hf, pyTrees, ht, h1]; rfl
  · obtain ⟨o, ho, co, vo⟩ := et S row
    obtain ⟨o', h3, h4, h5⟩ := hg S row o co vo
    refine ⟨o', ?_, h4, h5⟩
    rw [eval_fCall]
    simp only [pyEvals, ho, h2, Option.bind_some, Option.map_some]
    exact h3

/-- a method with a column argument -/
theorem means_method {f : Str} {p q : PE} {g k h : Sem → Event → Val} (hi : isIdent f = true) (hp : Means p g) (hr : isReceiver p = true) (hq : Means q k)
    (hg : ∀ S row o o', o.isColumn = true → o.val = g S row → o'.isColumn = true → o'.val = k S row →
      ∃ x, colMethod S o f [o'] = some x ∧ x.isColumn = true ∧ x.val = h S row) :
    Means (.method p f [q]) h := by
  obtain ⟨t, ht, et⟩ := hp
  obtain ⟨u, hu, eu⟩ := hq
  refine ⟨.call (.attr t f) [u], ?_, fun S row => ?_⟩
  · simp only [pyTree, ht, hr, hi, Bool.and_self, if_true, pyTrees, hu]
  · obtain ⟨o, ho, co, vo⟩ := et S row
    obtain ⟨o', ho', co', vo'⟩ := eu S row
    obtain ⟨x, h1, h2, h3⟩ := hg S row o o' co vo co' vo'
    refine ⟨x, ?_, h2, h3⟩
    rw [eval_method _ _ ho co]
    simp only [pyEvals, ho', Option.bind_some, Option.map_some]
    exact h1

theorem sha {name : Str} {n : Int} {p : Prim} {es : List Expr} {args : List Arg} {ms : List PE} {fs : List (Sem → Event → Val)}
    (hl : lookupFn name evalTable = some (.one name fun x => .fn c!"sha2" [x, pyInt n])) (hs : splPrims.lookup name = some (1, p))
    (hk : name ∉ condNames ∧ Plain '\'' name = true) (hp : n = 256 ∧ p = .sha256 ∨ n = 512 ∧ p = .sha512)
    (hmap : mapArgs args = some ms) (hlen : ms.length = 1) (hms : MeansL ms fs)
    (hev : ∀ S row, splEvals S row es = some (fs.map fun f => f S row)) :
    ∃ p f, evalFn .disallow name args = some p ∧ Kept1 (.call name es) p f := by
  obtain ⟨a1, c, f, rfl, rfl, rfl, hcol, hc⟩ := mapped_one hmap hms hlen
  have he : evalFn .disallow name [a1] = some ((PE.fn c!"sha2" [c, pyInt n]).withAlias name) := by
    rw [evalFn_known hl]
    simp only [FnSpec.one, FnSpec.apply, bindParams, bindParam, hcol, Option.map_some, List.length_cons, List.length_nil]
    rfl
  have hm : Means (.fn c!"sha2" [c, pyInt n]) (fun S row => S.prim p [f S row]) := by
    refine means_mixed (cs := [showInt n]) (vs := [.num n]) (by decide +kernel) hc.1 rfl ?_ ?_
    · intro x hx
      simp only [List.zip_cons_cons, List.zip_nil_right, List.mem_cons, List.not_mem_nil, or_false] at hx
      subst hx
      exact int_const n
    · intro S row o ho hv
      rw [fFn_tail (by decide +kernel)]
      rcases hp with ⟨rfl, rfl⟩ | ⟨rfl, rfl⟩
      · exact ⟨_, (show sparkFn S c!"sha2" [o, .const (.num 256)] = some (.column (S.prim .sha256 [o.val])) by
          unfold sparkFn
          rw [show (sparkPrims.find? fun x => x.1 == c!"sha2" && x.2.1 == [o, Obj.const (.num 256)].length) = none from rfl]
          simp only [ho, if_true]), rfl, by rw [Obj.val, hv]⟩
      · exact ⟨_, (show sparkFn S c!"sha2" [o, .const (.num 512)] = some (.column (S.prim .sha512 [o.val])) by
          unfold sparkFn
          rw [show (sparkPrims.find? fun x => x.1 == c!"sha2" && x.2.1 == [o, Obj.const (.num 512)].length) = none from rfl]
          simp only [ho, if_true]
          rw [if_neg (by decide +kernel)]), rfl, by rw [Obj.val, hv]⟩
  exact kept_call he hk.1 hm rfl rfl hk.2 hev (fun S row => spl_prim hs S rfl)

theorem prim1_means {name : Str} {es : List Expr} {args : List Arg} {ms : List PE} {fs : List (Sem → Event → Val)}
    (hn : name ∈ prim1Names) (hmap : mapArgs args = some ms) (hlen : ms.length = 1) (hms : MeansL ms fs)
    (hev : ∀ S row, splEvals S row es = some (fs.map fun f => f S row)) :
    ∃ p f, evalFn .disallow name args = some p ∧ Kept1 (.call name es) p f := by
  simp only [prim1Names, List.mem_cons, List.not_mem_nil, or_false] at hn
  rcases hn with h | h | h | h | h | h | h | h | h | h | h | h | h | h | h | h | h | h | h | h | h | h | h | h | h | h | h | h <;> subst h
  case inr.inr.inl =>
    obtain ⟨a1, c, f, rfl, rfl, rfl, hcol, hc⟩ := mapped_one hmap hms hlen
    have he : evalFn .disallow c!"ceil" [a1] = some ((PE.fn c!"ceil" [c]).withAlias c!"ceil") := by
      unfold evalFn evalFnBare
      rw [show lookupFn c!"ceil" evalTable = none from rfl]
      simp only [passThrough, hmap]
      rfl
    exact kept_call he (by decide +kernel) (means_prim (fs := [f]) (by decide +kernel) (by decide +kernel) ⟨_, _, rfl⟩ hms) rfl rfl (by decide +kernel) hev
      (fun S row => spl_prim rfl S rfl)
  all_goals first
    | exact prim1 rfl rfl ⟨_, _, rfl⟩ (by decide +kernel) hmap hlen hms hev
    | exact sha rfl rfl (by decide +kernel) (.inl ⟨rfl, rfl⟩) hmap hlen hms hev
    | exact sha rfl rfl (by decide +kernel) (.inr ⟨rfl, rfl⟩) hmap hlen hms hev

theorem prim2_means {name : Str} {es : List Expr} {args : List Arg} {ms : List PE} {fs : List (Sem → Event → Val)}
    (hn : name ∈ prim2Names) (hmap : mapArgs args = some ms) (hlen : ms.length = 2) (hms : MeansL ms fs)
    (hev : ∀ S row, splEvals S row es = some (fs.map fun f => f S row)) :
    ∃ p f, evalFn .disallow name args = some p ∧ Kept1 (.call name es) p f := by
  simp only [prim2Names, List.mem_cons, List.not_mem_nil, or_false] at hn
  rcases hn with h | h | h | h | h | h <;> subst h
  case inr.inr.inr.inr.inr =>
    obtain ⟨a1, a2, c, d, f, g, rfl, rfl, rfl, h1, h2, _⟩ := mapped_two hmap hms hlen
    have he : evalFn .disallow c!"nullif" [a1, a2] = some ((PE.fn c!"nullif" [c, d]).withAlias c!"nullif") := by
      rw [evalFn_known (spec := fn2 c!"nullif" c!"nullif") rfl]
      simp only [fn2, FnSpec.two, FnSpec.apply, bindParams, bindParam, h1, h2, Option.map_some, List.length_cons, List.length_nil]
      rfl
    have hm : Means (.fn c!"nullif" [c, d]) (fun S row => if S.cmp .eq (f S row) (g S row) = some true then .null else f S row) := by
      refine means_fn (by decide +kernel) hms (fun S row os ho hv => ?_)
      rw [fFn_tail (by decide +kernel)]
      have hl : os.length = 2 := by have := congrArg List.length hv; simpa using this
      match os, hl, hv with
      | [x, y], _, hv =>
        simp only [List.map_cons, List.map_nil, List.cons.injEq, and_true] at hv
        simp only [List.all_cons, List.all_nil, Bool.and_true, Bool.and_eq_true] at ho
        refine ⟨_, (show sparkFn S c!"nullif" [x, y] = some (.column (if S.cmp .eq x.val y.val = some true then .null else x.val)) from ?_), rfl, ?_⟩
        · unfold sparkFn
          rw [show (sparkPrims.find? fun z => z.1 == c!"nullif" && z.2.1 == [x, y].length) = none from rfl]
          cases y with
          | const v => cases ho.2
          | column v => simp only [ho.1, ho.2, Bool.and_self, if_true]; rfl
          | branches v => simp only [ho.1, ho.2, Bool.and_self, if_true]; rfl
        · rw [Obj.val, hv.1, hv.2]
    exact kept_call he (by decide +kernel) hm rfl rfl (by decide +kernel) hev (fun S row => rfl)
  all_goals exact prim2 rfl rfl ⟨_, _, rfl⟩ (by decide +kernel) hmap hlen hms hev

theorem method2 {name a sp : Str} {es : List Expr} {args : List Arg} {ms : List PE} {fs : List (Sem → Event → Val)} {k : Sem → Val → Val → Val}
    (hl : lookupFn name evalTable = some (.two a fun x y => PE.mkMethod x sp [y]))
    (hs : ∀ S v w, splPrimFn S name [v, w] = some (k S v w))
    (hp : ∀ S o o', o.isColumn = true → o'.isColumn = true → colMethod S o sp [o'] = some (.column (k S o.val o'.val)))
    (hk : name ∉ condNames ∧ Plain '\'' a = true ∧ isIdent sp = true)
    (hmap : mapArgs args = some ms) (hlen : ms.length = 2) (hms : MeansL ms fs)
    (hev : ∀ S row, splEvals S row es = some (fs.map fun f => f S row)) (hr : ∀ q qs, ms = q :: qs → isReceiver q = true) :
    ∃ p f, evalFn .disallow name args = some p ∧ Kept1 (.call name es) p f := by
  obtain ⟨a1, a2, c, d, f, g, rfl, rfl, rfl, h1, h2, hc, hd⟩ := mapped_two hmap hms hlen
  have he : evalFn .disallow name [a1, a2] = some ((PE.method c sp [d]).withAlias a) := by
    rw [evalFn_known hl]
    simp only [FnSpec.two, FnSpec.apply, bindParams, bindParam, h1, h2, Option.map_some, List.length_cons, List.length_nil, PE.mkMethod, hc.2]
    rfl
  have hm : Means (.method c sp [d]) (fun S row => k S (f S row) (g S row)) :=
    means_method hk.2.2 hc.1 (hr _ _ rfl) hd.1 (fun S row o o' ho hv ho' hv' => ⟨_, hp S o o' ho ho', rfl, by rw [Obj.val, hv, hv']⟩)
  exact kept_call he hk.1 hm rfl rfl hk.2.1 hev (fun S row => hs S _ _)

theorem primMethod_means {name : Str} {es : List Expr} {args : List Arg} {ms : List PE} {fs : List (Sem → Event → Val)}
    (hn : (name, ms.length) ∈ primMethodNames) (hmap : mapArgs args = some ms) (hms : MeansL ms fs)
    (hev : ∀ S row, splEvals S row es = some (fs.map fun f => f S row)) (hr : ∀ q qs, ms = q :: qs → isReceiver q = true) :
    ∃ p f, evalFn .disallow name args = some p ∧ Kept1 (.call name es) p f := by
  simp only [primMethodNames, List.mem_cons, List.not_mem_nil, or_false, Prod.mk.injEq] at hn
  rcases hn with ⟨rfl, h⟩ | ⟨rfl, h⟩ | ⟨rfl, h⟩ | ⟨rfl, h⟩ | ⟨rfl, h⟩
  · obtain ⟨a1, c, f, rfl, rfl, rfl, hcol, hc⟩ := mapped_one hmap hms h
    have he : evalFn .disallow c!"tonumber" [a1] = some ((PE.method c c!"cast" [pyStr c!"double"]).withAlias c!"tonumber") := by
      rw [evalFn_known (spec := ⟨c!"tonumber", [.expr], .mapped,
        fun | [.e x], _, [] => some (PE.mkMethod x c!"cast" [pyStr c!"double"]) | _, _, _ => none⟩) rfl]
      simp only [FnSpec.apply, bindParams, bindParam, hcol, Option.map_some, List.length_cons, List.length_nil, List.drop, mapArgs, PE.mkMethod, hc.2]
    have hm : Means (.method c c!"cast" [pyStr c!"double"]) (fun S row => S.prim .toNumber [f S row]) := by
      obtain ⟨t, ht, et⟩ := hc.1
      have hi : isIdent c!"cast" = true := by decide +kernel
      refine ⟨.call (.attr t c!"cast") [.str c!"double"], ?_, fun S row => ?_⟩
      · simp only [pyTree, ht, hr _ _ rfl, hi, Bool.and_self, if_true, pyTrees, pyStr]
        rfl
      · obtain ⟨o, ho, co, vo⟩ := et S row
        refine ⟨.column (S.prim .toNumber [o.val]), ?_, rfl, by rw [Obj.val, vo]⟩
        rw [eval_method _ _ ho co]
        simp only [pyEvals, pyEval, Option.bind_some, Option.map_some]
        unfold colMethod
        rw [if_pos co]
        rfl
    exact kept_call he (by decide +kernel) hm rfl rfl (by decide +kernel) hev (fun S row => rfl)
  · exact method2 (k := fun S v w => S.prim .bitAnd [v, w]) rfl (fun _ _ _ => rfl)
      (fun S o o' ho ho' => by unfold colMethod; simp only [ho, ho', if_true]; rfl) (by decide +kernel) hmap h hms hev hr
  · exact method2 (k := fun S v w => S.prim .bitOr [v, w]) rfl (fun _ _ _ => rfl)
      (fun S o o' ho ho' => by unfold colMethod; simp only [ho, ho', if_true]; rfl) (by decide +kernel) hmap h hms hev hr
  · exact method2 (k := fun S v w => S.prim .bitXor [v, w]) rfl (fun _ _ _ => rfl)
      (fun S o o' ho ho' => by unfold colMethod; simp only [ho, ho', if_true]; rfl) (by decide +kernel) hmap h hms hev hr
  · exact method2 (k := fun S v w => ofB (S.cmp .eq v w)) rfl
      (fun S v w => show some (ofB (or3 (S.cmp .eq v w) (some false))) = _ by rw [or3_false])
      (fun S o o' ho ho' => by unfold colMethod; simp only [ho, ho', if_true]; rfl) (by decide +kernel) hmap h hms hev hr

theorem fold_means {sp : Str} {p : Prim} (hf : funcTree sp = some (.attr (.name c!"F") sp)) (hc : sp ∉ sparkCond)
    (hp : ∃ a b, (sparkPrims.find? fun x => x.1 == sp && x.2.1 == 2) = some (a, b, p)) :
    ∀ {ms : List PE} {fs : List (Sem → Event → Val)} {c : PE} {f : Sem → Event → Val}, Means c f → c.unalias = c → MeansL ms fs →
      Means (ms.foldl (fun v c => .fn sp [v, c]) c) (fun S row => (fs.map fun f => f S row).foldl (fun a b => S.prim p [a, b]) (f S row)) ∧
        (ms.foldl (fun v c => .fn sp [v, c]) c).unalias = ms.foldl (fun v c => .fn sp [v, c]) c
  | [], [], _, _, h, hu, _ => ⟨h, hu⟩
  | d :: ms, g :: fs, c, f, h, hu, hms => by
    have := means_prim (fs := [f, g]) (ps := [c, d]) hf hc hp ⟨⟨h, hu⟩, hms.1, trivial⟩
    exact fold_means (c := .fn sp [c, d]) (f := fun S row => S.prim p [f S row, g S row]) hf hc hp this rfl hms.2
  | [], _ :: _, _, _, _, _, h => h.elim
  | _ :: _, [], _, _, _, _, h => h.elim

theorem fold_receiver {sp : Str} : ∀ {ms : List PE} {c : PE}, ms ≠ [] → isReceiver (ms.foldl (fun v c => PE.fn sp [v, c]) c) = true
  | [_], _, _ => rfl
  | _ :: d :: ms, _, _ => by rw [List.foldl_cons]; exact fold_receiver (by simp)

theorem extremum {name sp : Str} {p : Prim} {es : List Expr} {args : List Arg} {ms : List PE} {fs : List (Sem → Event → Val)}
    (hl : lookupFn name evalTable = some ⟨name, [], .mapped, fun _ _ ms => foldArgs (fun v c => .fn sp [v, c]) ms⟩)
    (hs : ∀ S vs, splPrimFn S name vs = foldVals (fun a b => S.prim p [a, b]) vs)
    (hp : ∃ a b, (sparkPrims.find? fun x => x.1 == sp && x.2.1 == 2) = some (a, b, p))
    (hk : name ∉ condNames ∧ sp ∉ sparkCond ∧ Plain '\'' name = true ∧ funcTree sp = some (.attr (.name c!"F") sp))
    (hmap : mapArgs args = some ms) (hlen : 2 ≤ ms.length) (hms : MeansL ms fs)
    (hev : ∀ S row, splEvals S row es = some (fs.map fun f => f S row)) :
    ∃ p f, evalFn .disallow name args = some p ∧ Kept1 (.call name es) p f := by
  match ms, fs, hms with
  | c :: ms, f :: fs, hms =>
    have hne : ms ≠ [] := by intro e; rw [e] at hlen; simp at hlen
    have hm := fold_means hk.2.2.2 hk.2.1 hp hms.1.1 hms.1.2 hms.2
    have he : evalFn .disallow name args = some ((ms.foldl (fun v c => PE.fn sp [v, c]) c).withAlias name) := by
      rw [evalFn_known hl, apply_mapped _ _ _ hmap]
      rfl
    exact kept_call he hk.1 hm.1 (fold_receiver hne) hm.2 hk.2.2.1 hev (fun S row => by rw [hs]; rfl)

theorem pi_const : IsConst c!"3.141592653589793" (.num (mkRat 3141592653589793 1000000000000000)) := by
  refine ⟨.num c!"3" c!"141592653589793", by decide +kernel, fun S row => ?_⟩
  rw [pyEval]
  rfl

theorem tail_const {a b : Expr} {es : List Expr} {f g : Sem → Event → Val} {fs : List (Sem → Event → Val)} {v : Val}
    (hb : ∀ S row, splEval S row b = some v) (hev : ∀ S row, splEvals S row (a :: b :: es) = some ((f :: g :: fs).map fun f => f S row))
    (S : Sem) (row : Event) : g S row = v ∧ splEvals S row es = some (fs.map fun f => f S row) := by
  have := hev S row
  simp only [splEvals, hb, Option.bind_some] at this
  cases h1 : splEval S row a with
  | none => rw [h1] at this; cases this
  | some w =>
    cases h2 : splEvals S row es with
    | none => rw [h1, h2] at this; cases this
    | some ws =>
      rw [h1, h2] at this
      simp only [Option.bind_some, Option.map_some, Option.some.injEq, List.map_cons, List.cons.injEq] at this
      exact ⟨this.2.1.symm, by rw [this.2.2]⟩

theorem zip_int {n : Int} : ∀ x ∈ [showInt n].zip [Val.num n], IsConst x.1 x.2 := by
  intro x hx
  simp only [List.zip_cons_cons, List.zip_nil_right, List.mem_cons, List.not_mem_nil, or_false] at hx
  subst hx
  exact int_const n

theorem zip_two {c d : Str} {v w : Val} (h : IsConst c v) (h' : IsConst d w) : ∀ x ∈ [c, d].zip [v, w], IsConst x.1 x.2 := by
  intro x hx
  simp only [List.zip_cons_cons, List.zip_nil_right, List.mem_cons, List.not_mem_nil, or_false] at hx
  rcases hx with rfl | rfl
  · exact h
  · exact h'

theorem int_param {name a sp : Str} {p : Prim} {e : Expr} {n : Int} {ms : List PE} {fs : List (Sem → Event → Val)}
    (hl : lookupFn name evalTable = some ⟨a, [.expr, .int], .exact, fun | [.e x, .i p], _, _ => some (.fn sp [x, pyInt p]) | _, _, _ => none⟩)
    (hs : splPrims.lookup name = some (2, p)) (hk : name ∉ condNames ∧ sp ∉ sparkCond ∧ Plain '\'' a = true ∧ funcTree sp = some (.attr (.name c!"F") sp))
    (hp : ∀ S o, o.isColumn = true → sparkFn S sp [o, .const (.num n)] = some (.column (S.prim p [o.val, .num n])))
    (hmap : mapArgs (argsTr .disallow [e, .const (.int n)]) = some ms) (hms : MeansL ms fs) (hlen : ms.length = 2)
    (hev : ∀ S row, splEvals S row [e, .const (.int n)] = some (fs.map fun f => f S row)) :
    ∃ p f, evalFn .disallow name (argsTr .disallow [e, .const (.int n)]) = some p ∧ Kept1 (.call name [e, .const (.int n)]) p f := by
  obtain ⟨a1, a2, c, d, f, g, hargs, rfl, rfl, h1, h2, hc, hd⟩ := mapped_two hmap hms hlen
  have hv := tail_const (v := .num n) (fun _ _ => rfl) hev
  simp only [argsTr, List.cons.injEq, and_true] at hargs
  obtain ⟨rfl, rfl⟩ := hargs
  have he : evalFn .disallow name (argsTr .disallow [e, .const (.int n)]) = some ((PE.fn sp [c, pyInt n]).withAlias a) := by
    rw [evalFn_known hl]
    simp only [argsTr, FnSpec.apply, bindParams, bindParam, Option.map_some, List.length_cons, List.length_nil, Expr.asInt]
    simp only at h1
    rw [h1]
    rfl
  have hm : Means (.fn sp [c, pyInt n]) (fun S row => S.prim p [f S row, .num n]) := by
    refine means_mixed (cs := [showInt n]) (vs := [.num n]) hk.2.2.2 hc.1 rfl zip_int ?_
    intro S row o ho hv
    rw [fFn_tail hk.2.1]
    exact ⟨_, hp S o ho, rfl, by rw [Obj.val, hv]⟩
  refine kept_call he hk.1 hm rfl rfl hk.2.2.1 hev (fun S row => ?_)
  rw [spl_prim hs S rfl, List.map_cons, List.map_cons, List.map_nil, (hv S row).1]

theorem primInt_means {name : Str} {a b : Expr} {ms : List PE} {fs : List (Sem → Event → Val)} (hn : name ∈ primIntNames) (hb : isIntConst b = true)
    (hmap : mapArgs (argsTr .disallow [a, b]) = some ms) (hms : MeansL ms fs) (hlen : ms.length = 2)
    (hev : ∀ S row, splEvals S row [a, b] = some (fs.map fun f => f S row)) :
    ∃ p f, evalFn .disallow name (argsTr .disallow [a, b]) = some p ∧ Kept1 (.call name [a, b]) p f := by
  have : ∃ n, b = .const (.int n) := by
    unfold isIntConst at hb
    split at hb
    · exact ⟨_, rfl⟩
    · cases hb
  obtain ⟨n, rfl⟩ := this
  simp only [primIntNames, List.mem_cons, List.not_mem_nil, or_false] at hn
  rcases hn with h | h | h <;> subst h
  all_goals
    refine int_param rfl rfl (by decide +kernel) (fun S o ho => ?_) hmap hms hlen hev
    unfold sparkFn
    simp only [ho, if_true]
    rfl

theorem mapped_three {args : List Arg} {ms : List PE} {fs : List (Sem → Event → Val)} (hmap : mapArgs args = some ms) (hms : MeansL ms fs)
    (hlen : ms.length = 3) : ∃ a as c d e f g h, args = a :: as ∧ ms = [c, d, e] ∧ fs = [f, g, h] ∧ a.col = some c ∧ Means c f ∧ c.unalias = c := by
  have hal := mapArgs_length hmap
  match ms, fs, hms with
  | [c, d, e], [f, g, h], hms =>
    match args, hmap, hal with
    | [a, a2, a3], hmap, _ =>
      refine ⟨a, _, c, d, e, f, g, h, rfl, rfl, rfl, ?_, hms.1.1, hms.1.2⟩
      simp only [mapArgs] at hmap
      cases h1 : a.col <;> cases h2 : a2.col <;> cases h3 : a3.col <;> simp [h1, h2, h3] at hmap ⊢
      exact hmap.1

theorem substr_means {a : Expr} {n k : Int} {ms : List PE} {fs : List (Sem → Event → Val)}
    (hmap : mapArgs (argsTr .disallow [a, .const (.int n), .const (.int k)]) = some ms) (hms : MeansL ms fs) (hlen : ms.length = 3)
    (hev : ∀ S row, splEvals S row [a, .const (.int n), .const (.int k)] = some (fs.map fun f => f S row)) :
    ∃ p f, evalFn .disallow c!"substr" (argsTr .disallow [a, .const (.int n), .const (.int k)]) = some p ∧
      Kept1 (.call c!"substr" [a, .const (.int n), .const (.int k)]) p f := by
  obtain ⟨a1, as, c, d, e, f, g, h, hargs, rfl, rfl, h1, hc⟩ := mapped_three hmap hms hlen
  have hv := tail_const (v := .num n) (fun _ _ => rfl) hev
  simp only [argsTr, List.cons.injEq] at hargs
  obtain ⟨rfl, rfl⟩ := hargs
  simp only at h1
  have he : evalFn .disallow c!"substr" (argsTr .disallow [a, .const (.int n), .const (.int k)]) = some ((PE.fn c!"substring" [c, pyInt n, pyInt k]).withAlias c!"substr") := by
    rw [evalFn_known rfl]
    simp only [argsTr, FnSpec.apply, bindParams, bindParam, Option.map_some, List.length_cons, List.length_nil, Expr.asInt, h1]
    rfl
  have hm : Means (.fn c!"substring" [c, pyInt n, pyInt k]) (fun S row => S.prim .substring [f S row, .num n, .num k]) := by
    refine means_mixed (cs := [showInt n, showInt k]) (vs := [.num n, .num k]) (by decide +kernel) hc.1 rfl (zip_two (int_const n) (int_const k)) ?_
    intro S row o ho hv
    rw [fFn_tail (by decide +kernel)]
    refine ⟨.column (S.prim .substring [o.val, .num n, .num k]), ?_, rfl, by rw [Obj.val, hv]⟩
    show sparkFn S c!"substring" [o, .const (.num n), .const (.num k)] = _
    unfold sparkFn
    simp only [ho, if_true]
    rfl
  refine kept_call he (by decide +kernel) hm rfl rfl (by decide +kernel) hev (fun S row => ?_)
  have hw := (hv S row).2
  simp only [splEvals, splEval, constVal, Option.bind_some, Option.map_some, List.map_cons, List.map_nil, Option.some.injEq, List.cons.injEq, and_true] at hw
  rw [spl_prim rfl S rfl, List.map_cons, List.map_cons, List.map_cons, List.map_nil, (hv S row).1, hw]

theorem self_const {s : Str} (h : SelfText s = true) : IsConst (c!"\"" ++ s ++ c!"\"") (.str s) := by
  unfold SelfText at h
  split at h
  · rename_i t ht
    rw [beq_iff_eq] at h
    subst h
    exact ⟨_, ht, fun _ _ => rfl⟩
  · cases h

theorem replace_means {a : Expr} {re new : Str} {ms : List PE} {fs : List (Sem → Event → Val)} (hr : SelfText re = true) (hn : Plain '"' new = true) (hd : '$' ∉ new)
    (hmap : mapArgs (argsTr .disallow [a, .const (.str re), .const (.str new)]) = some ms) (hms : MeansL ms fs) (hlen : ms.length = 3)
    (hev : ∀ S row, splEvals S row [a, .const (.str re), .const (.str new)] = some (fs.map fun f => f S row)) :
    ∃ p f, evalFn .disallow c!"replace" (argsTr .disallow [a, .const (.str re), .const (.str new)]) = some p ∧
      Kept1 (.call c!"replace" [a, .const (.str re), .const (.str new)]) p f := by
  obtain ⟨a1, as, c, d, e, f, g, h, hargs, rfl, rfl, h1, hc⟩ := mapped_three hmap hms hlen
  have hv := tail_const (v := .str re) (fun _ _ => rfl) hev
  have hb : '\\' ∉ new := by
    intro hin
    have := List.all_eq_true.1 hn _ hin
    revert this; decide
  simp only [argsTr, List.cons.injEq] at hargs
  obtain ⟨rfl, rfl⟩ := hargs
  simp only at h1
  have he : evalFn .disallow c!"replace" (argsTr .disallow [a, .const (.str re), .const (.str new)]) = some ((PE.fn c!"regexp_replace" [c, pyStr re, pyStr new]).withAlias c!"replace") := by
    rw [evalFn_known rfl]
    simp only [argsTr, FnSpec.apply, bindParams, bindParam, Option.map_some, List.length_cons, List.length_nil, Expr.asString, h1]
    rfl
  have hm : Means (.fn c!"regexp_replace" [c, pyStr re, pyStr new]) (fun S row => S.prim .regexReplace [f S row, .str re, .str new]) := by
    refine means_mixed (cs := [c!"\"" ++ re ++ c!"\"", c!"\"" ++ new ++ c!"\""]) (vs := [.str re, .str new]) (by decide +kernel) hc.1 rfl (zip_two (self_const hr) (plain_dconst hn)) ?_
    intro S row o ho hv
    rw [fFn_tail (by decide +kernel)]
    refine ⟨.column (S.prim .regexReplace [o.val, .str re, .str new]), ?_, rfl, by rw [Obj.val, hv]⟩
    show sparkFn S c!"regexp_replace" [o, .const (.str re), .const (.str new)] = _
    unfold sparkFn
    simp only [ho, if_true, hd, hb, or_self, if_false]
    rfl
  refine kept_call he (by decide +kernel) hm rfl rfl (by decide +kernel) hev (fun S row => ?_)
  have hw := (hv S row).2
  simp only [splEvals, splEval, constVal, Option.bind_some, Option.map_some, List.map_cons, List.map_nil, Option.some.injEq, List.cons.injEq, and_true] at hw
  rw [List.map_cons, List.map_cons, List.map_cons, List.map_nil, (hv S row).1, ← hw]
  show (if '\\' ∈ new then none else some (S.prim .regexReplace [f S row, .str re, .str new])) = _
  rw [if_neg hb]

theorem int_of {b : Expr} (hb : isIntConst b = true) : ∃ n, b = .const (.int n) := by
  unfold isIntConst at hb
  split at hb
  · exact ⟨_, rfl⟩
  · cases hb

theorem text_of {b : Expr} (hb : isPlainText b = true) : ∃ s, b = .const (.str s) ∧ SelfText s = true := by
  unfold isPlainText at hb
  split at hb
  · exact ⟨_, rfl, hb⟩
  · cases hb

theorem new_of {b : Expr} (hb : isPlainNew b = true) : ∃ s, b = .const (.str s) ∧ Plain '"' s = true ∧ '$' ∉ s := by
  unfold isPlainNew at hb
  split at hb
  · rw [Bool.and_eq_true] at hb
    exact ⟨_, rfl, hb.1, fun h => by have := List.all_eq_true.1 hb.2 _ h; revert this; decide⟩
  · cases hb

/-- All the calls of mathematical and text functions. -/
theorem prim_means {name : Str} {es : List Expr} {ms : List PE} {fs : List (Sem → Event → Val)}
    (hfn : FragPrim name es = true) (hmap : mapArgs (argsTr .disallow es) = some ms) (hlen : ms.length = es.length)
    (hms : MeansL ms fs) (hev : ∀ S row, splEvals S row es = some (fs.map fun f => f S row))
    (hr : ∀ a as q qs, es = a :: as → ms = q :: qs → isNegated a = false → isReceiver q = true) :
    ∃ p f, evalFn .disallow name (argsTr .disallow es) = some p ∧ Kept1 (.call name es) p f := by
  have hfl := meansL_length hms
  have hal := mapArgs_length hmap
  unfold FragPrim at hfn
  simp only [Bool.or_eq_true, Bool.and_eq_true, beq_iff_eq, List.contains_iff_mem, decide_eq_true_eq] at hfn
  rcases hfn with ((((⟨hn, h1⟩ | ⟨hn, h2⟩) | ⟨hn, hh⟩) | ⟨rfl, h0⟩) | ⟨hn, h2⟩) | hfn
  · exact prim1_means hn hmap (by omega) hms hev
  · exact prim2_means hn hmap (by omega) hms hev
  · refine primMethod_means (by rw [hlen]; exact hn) hmap hms hev (fun q qs hq => ?_)
    cases es with
    | nil => cases hh
    | cons a as => exact hr a as q qs rfl hq (by simpa using hh)
  · have : es = [] := List.length_eq_zero_iff.1 h0
    subst this
    refine ⟨_, _, rfl, kept_alias (means_lit pi_const) rfl rfl (by decide +kernel) fun S row => ?_⟩
    rfl
  · rcases hn with rfl | rfl
    · exact extremum rfl (fun _ _ => rfl) ⟨_, _, rfl⟩ (by decide +kernel) hmap (by omega) hms hev
    · exact extremum rfl (fun _ _ => rfl) ⟨_, _, rfl⟩ (by decide +kernel) hmap (by omega) hms hev
  · split at hfn
    · simp only [Bool.and_eq_true, List.contains_iff_mem] at hfn
      exact primInt_means hfn.1 hfn.2 hmap hms hlen hev
    · simp only [Bool.or_eq_true, Bool.and_eq_true, beq_iff_eq] at hfn
      rcases hfn with ⟨⟨rfl, hb⟩, hc⟩ | ⟨⟨rfl, hb⟩, hc⟩
      · obtain ⟨n, rfl⟩ := int_of hb
        obtain ⟨k, rfl⟩ := int_of hc
        exact substr_means hmap hms hlen hev
      · obtain ⟨re, rfl, h1⟩ := text_of hb
        obtain ⟨new, rfl, h2, h3⟩ := new_of hc
        exact replace_means h1 h2 h3 hmap hms hlen hev
    · cases hfn

end Verif.Lemmas
