import Verif.Props.Multivalue
import Verif.Props.Program
import Verif.Spec.Mv
/-
C88: mvcount, mvappend, split and mvzip.
-/
namespace Verif.Props
open Verif Spl Spec Lemmas

/-! ### the columns -/

/-- An expression of the fragment and the Python expression its column is read as. -/
def ReadAs (e : Expr) (t : PyE) : Prop := ∃ p, exprTr .disallow e = some p ∧ readPy (renderE p.unalias) = some t

theorem frag_tree {e : Expr} (h : Frag .disallow e = true) : ∃ p t, exprTr .disallow e = some p ∧ pyTree p.unalias = some t := by
  obtain ⟨p, _, hp, ⟨_, t, ht, _⟩, _⟩ := frag_means .disallow e h
  exact ⟨p, t, hp, ht⟩

theorem args_trees : ∀ {es : List Expr}, (∀ e ∈ es, Frag .disallow e = true) →
    ∃ ps ts, mapArgs (argsTr .disallow es) = some ps ∧ pyTrees ps = some ts ∧ ts.length = es.length ∧
      ∀ (i : Nat) e t, es[i]? = some e → ts[i]? = some t → ReadAs e t
  | [], _ => ⟨[], [], rfl, rfl, rfl, by simp⟩
  | e :: es, h => by
    obtain ⟨p, t, hp, ht⟩ := frag_tree (h e (by simp))
    obtain ⟨ps, ts, h1, h2, h3, h4⟩ := args_trees (es := es) fun e he => h e (by simp [he])
    refine ⟨p.unalias :: ps, t :: ts, ?_, ?_, by simp [h3], ?_⟩
    · simp only [argsTr, mapArgs, hp, Option.map_some, h1]
    · simp only [pyTrees, ht, h2]
    · intro i e' t' he ht'
      cases i with
      | zero =>
        simp only [List.getElem?_cons_zero, Option.some.injEq] at he ht'
        subst he; subst ht'
        exact ⟨p, hp, read_render ht⟩
      | succ i => exact h4 i e' t' he ht'

theorem mvcount_reads {e : Expr} (h : Frag .disallow e = true) :
    ∃ t, ReadAs e t ∧ ReadAs (.call c!"mvcount" [e]) (fCall c!"size" [t]) := by
  obtain ⟨p, t, hp, ht⟩ := frag_tree h
  refine ⟨t, ⟨p, hp, read_render ht⟩, .aliased (.fn c!"size" [p.unalias]) c!"mvcount", ?_, ?_⟩
  · rw [exprTr, evalFn_known (spec := fn1 c!"mvcount" c!"size") rfl]
    simp only [argsTr, hp, Option.map_some]
    rfl
  · have hg : funcTree c!"size" = some (.attr (.name c!"F") c!"size") := by decide +kernel
    apply read_render
    simp only [PE.unalias, pyTree, pyTrees, hg, ht]
    rfl

theorem mvappend_reads {es : List Expr} (h : ∀ e ∈ es, Frag .disallow e = true) :
    ∃ ts : List PyE, ts.length = es.length ∧ (∀ (i : Nat) e t, es[i]? = some e → ts[i]? = some t → ReadAs e t) ∧
      ReadAs (.call c!"mvappend" es) (fCall c!"concat" ts) := by
  obtain ⟨ps, ts, h1, h2, h3, h4⟩ := args_trees h
  refine ⟨ts, h3, h4, .aliased (.fn c!"concat" ps) c!"mvappend", ?_, ?_⟩
  · rw [exprTr, evalFn_known (spec := ⟨c!"mvappend", [], .mapped, fun _ _ ms => some (.fn c!"concat" ms)⟩) rfl, apply_mapped _ _ _ h1]
    rfl
  · have hg : funcTree c!"concat" = some (.attr (.name c!"F") c!"concat") := by decide +kernel
    apply read_render
    simp only [PE.unalias, pyTree, hg, h2]
    rfl

theorem split_reads {e : Expr} {d : Str} (h : Frag .disallow e = true) (hd : Plain '"' d = true) :
    ∃ t, ReadAs e t ∧ ReadAs (.call c!"split" [e, .const (.str d)]) (fCall c!"split" [t, .str d]) := by
  obtain ⟨p, t, hp, ht⟩ := frag_tree h
  refine ⟨t, ⟨p, hp, read_render ht⟩, .aliased (.fn c!"split" [p.unalias, pyStr d]) c!"split", ?_, ?_⟩
  · rw [exprTr, evalFn_known (spec := ⟨c!"split", [.expr, .str], .exact,
      fun | [.e x, .s d], _, _ => some (.fn c!"split" [x, pyStr d]) | _, _, _ => none⟩) rfl]
    simp only [argsTr, hp, Option.map_some]
    rfl
  · have hg : funcTree c!"split" = some (.attr (.name c!"F") c!"split") := by decide +kernel
    have hc : codeTree (c!"\"" ++ d ++ c!"\"") = some (.str d) := codeTree_dquote hd
    apply read_render
    simp only [PE.unalias, pyTree, pyTrees, hg, ht, pyStr, hc]
    rfl

/-! ### mvcount -/

/-- **C88** (partial): the number of values of a field that has several of them in an array. -/
theorem C88_mvcount_partial {e : Expr} (h : Frag .disallow e = true) :
    ∃ t u, ReadAs e t ∧ ReadAs (.call c!"mvcount" [e]) u ∧
      ∀ (ofNull : MV) (x : PyE → MV) (l : List Str), x t = .array (l.map some) → l ≠ [] →
        ∃ n, splMvcount l = some n ∧ mvEval ofNull x u = some (.number n) := by
  obtain ⟨t, h1, h2⟩ := mvcount_reads h
  refine ⟨t, _, h1, h2, fun ofNull x l hl hne => ⟨l.length, by rw [splMvcount, if_neg hne], ?_⟩⟩
  simp only [mvEval, fCall, if_true, hl, sparkSize, List.length_map]

/-- Disagreement: a single value counts as one, but a column of texts has no size, so the program fails; and an empty array counts as
zero, where there should be no count at all. -/
theorem C88_mvcount_single_fails {e : Expr} (h : Frag .disallow e = true) :
    ∃ t u, ReadAs e t ∧ ReadAs (.call c!"mvcount" [e]) u ∧
      ∀ (ofNull : MV) (x : PyE → MV), (∀ s, x t = .text s → splMvcount [s] = some 1 ∧ mvEval ofNull x u = none) ∧
        (x t = .array [] → splMvcount [] = none ∧ mvEval ofNull x u = some (.number 0)) := by
  obtain ⟨t, h1, h2⟩ := mvcount_reads h
  refine ⟨t, _, h1, h2, fun ofNull x => ⟨fun s hs => ⟨rfl, ?_⟩, fun hs => ⟨rfl, ?_⟩⟩⟩
  · simp only [mvEval, fCall, if_true, hs, sparkSize]
  · simp only [mvEval, fCall, if_true, hs, sparkSize, List.length_nil]
    rfl

/-! ### mvappend -/

theorem allArrays_map : ∀ ls : List (List (Option Str)), allArrays (ls.map .array) = some ls
  | [] => rfl
  | l :: ls => by simp [allArrays, allArrays_map ls]

theorem allTexts_map : ∀ ss : List Str, allTexts (ss.map .text) = some ss
  | [] => rfl
  | s :: ss => by simp [allTexts, allTexts_map ss]

/-- **C88** (partial): the values of several fields, all of which have them in arrays. -/
theorem C88_mvappend_partial {es : List Expr} (h : ∀ e ∈ es, Frag .disallow e = true) (hne : es ≠ []) :
    ∃ (ts : List PyE) (u : PyE), ts.length = es.length ∧ (∀ (i : Nat) e t, es[i]? = some e → ts[i]? = some t → ReadAs e t) ∧ ReadAs (.call c!"mvappend" es) u ∧
      ∀ (ofNull : MV) (x : PyE → MV) (ls : List (List Str)), ts.map x = ls.map (fun l => .array (l.map some)) →
        mvEval ofNull x u = some (.array ((splMvappend ls).map some)) := by
  obtain ⟨ts, h1, h2, h3⟩ := mvappend_reads h
  refine ⟨ts, _, h1, h2, h3, fun ofNull x ls hl => ?_⟩
  have hls : ls ≠ [] := by
    rintro rfl
    have : ts = [] := by simpa using hl
    rw [this] at h1
    exact hne (List.eq_nil_of_length_eq_zero h1.symm)
  obtain ⟨l, ls, rfl⟩ := List.exists_cons_of_ne_nil hls
  have hm : (ts.map x) = ((l :: ls).map fun l => l.map some).map MV.array := by rw [hl, List.map_map]; rfl
  have hn : MV.null ∉ ts.map x := by rw [hl]; simp
  have hf : (ts.map x).filter (· ≠ .null) = ts.map x := by
    rw [List.filter_eq_self]
    intro a ha
    have : a ≠ .null := fun e => hn (e ▸ ha)
    simpa using this
  unfold mvEval fCall
  simp only [if_true, if_neg (show c!"concat" ≠ c!"size" by decide), sparkConcat, hf]
  have ha : allTexts (ts.map x) = none := by rw [hm]; rfl
  have hb := hm ▸ allArrays_map ((l :: ls).map fun l : List Str => l.map some)
  simp only [ha, hb, if_neg hn, splMvappend, List.map_flatten]

/-- Disagreement: single values are not collected but written one after the other into one text, and one missing field makes
the result missing. -/
theorem C88_mvappend_fails {es : List Expr} (h : ∀ e ∈ es, Frag .disallow e = true) :
    ∃ (ts : List PyE) (u : PyE), ts.length = es.length ∧ (∀ (i : Nat) e t, es[i]? = some e → ts[i]? = some t → ReadAs e t) ∧ ReadAs (.call c!"mvappend" es) u ∧
      (∀ (ofNull : MV) (x : PyE → MV) (ss : List Str), ts.map x = ss.map .text →
        splMvappend (ss.map ([·])) = ss ∧ mvEval ofNull x u = some (.text ss.flatten)) ∧
      ∀ (ofNull : MV) (x : PyE → MV), .null ∈ ts.map x → mvEval ofNull x u = some .null ∨ mvEval ofNull x u = none := by
  obtain ⟨ts, h1, h2, h3⟩ := mvappend_reads h
  refine ⟨ts, _, h1, h2, h3, fun ofNull x ss hs => ⟨?_, ?_⟩, fun ofNull x hn => ?_⟩
  · clear hs
    induction ss with
    | nil => rfl
    | cons s ss ih =>
      rw [splMvappend] at ih ⊢
      rw [List.map_cons, List.flatten_cons, ih]
      rfl
  · have hn : MV.null ∉ ts.map x := by rw [hs]; simp
    have hf : (ts.map x).filter (· ≠ .null) = ts.map x := by
      rw [List.filter_eq_self]
      intro a ha
      have : a ≠ .null := fun e => hn (e ▸ ha)
      simpa using this
    unfold mvEval fCall
    simp only [if_true, if_neg (show c!"concat" ≠ c!"size" by decide), sparkConcat, hf]
    have ha := hs ▸ allTexts_map ss
    simp only [ha, if_neg hn]
  · unfold mvEval fCall
    simp only [if_true, if_neg (show c!"concat" ≠ c!"size" by decide), sparkConcat]
    simp only [if_pos hn]
    split
    · exact .inl rfl
    · exact .inl rfl
    · exact .inr rfl

/-! ### split -/

/-- the pieces found by scanning -/
theorem cutAt_pieces {d : Str} (hd : d ≠ []) : ∀ (k : Nat) (acc s : Str), s.length < k →
    (∀ a b, acc.reverse ++ s = a ++ d ++ b → acc.length ≤ a.length) → Pieces d (acc.reverse ++ s) (cutAt d k acc s)
  | 0, acc, s, h, _ => absurd h (by omega)
  | k + 1, acc, s, h, hfirst => by
    unfold cutAt
    cases hs : stripPrefix? d s with
    | some r =>
      have e := stripPrefix?_some.1 hs
      subst e
      dsimp only
      have hr : r.length < k := by
        have : 0 < d.length := List.length_pos_iff.2 hd
        rw [List.length_append] at h
        omega
      have := cutAt_pieces hd k [] r hr (by simp)
      rw [List.reverse_nil, List.nil_append] at this
      rw [← List.append_assoc]
      refine .cut (fun a' b' e => ?_) this
      rw [List.length_reverse]
      exact hfirst a' b' (by rw [← e, List.append_assoc])
    | none =>
      have hno : ∀ b, s ≠ d ++ b := fun b e => by
        rw [stripPrefix?_some.2 e] at hs
        cases hs
      cases s with
      | nil =>
        dsimp only
        rw [List.append_nil]
        refine .last fun a b e => ?_
        have := hfirst a b (by rw [List.append_nil]; exact e)
        have hl := congrArg List.length e
        simp only [List.length_reverse, List.length_append] at hl
        have : 0 < d.length := List.length_pos_iff.2 hd
        omega
      | cons c cs =>
        dsimp only
        have := cutAt_pieces hd k (c :: acc) cs (by simpa using h) (fun a b e => by
          rw [List.reverse_cons, List.append_assoc, List.singleton_append] at e
          have h1 := hfirst a b e
          rcases Nat.lt_or_ge acc.length a.length with hlt | hge
          · rw [List.length_cons]; omega
          · exfalso
            have hl : acc.reverse.length = a.length := by rw [List.length_reverse]; omega
            rw [List.append_assoc] at e
            exact hno _ (List.append_inj e hl).2)
        rwa [List.reverse_cons, List.append_assoc, List.singleton_append] at this

/-- **C88** (partial): a text split at a delimiter of characters without a meaning in regular expressions. -/
theorem C88_split_partial {e : Expr} {d : Str} (h : Frag .disallow e = true) (hp : Plain '"' d = true) (hne : d ≠ [])
    (hd : ∀ c ∈ d, c ∉ regexMeta) :
    ∃ t u, ReadAs e t ∧ ReadAs (.call c!"split" [e, .const (.str d)]) u ∧
      ∀ (ofNull : MV) (x : PyE → MV), (x t = .null → mvEval ofNull x u = some .null) ∧
        ∀ s, x t = .text s → ∃ l, Pieces d s l ∧ mvEval ofNull x u = some (.array (l.map some)) := by
  obtain ⟨t, h1, h2⟩ := split_reads h hp
  refine ⟨t, _, h1, h2, fun ofNull x => ⟨fun hx => ?_, fun s hx => ⟨cutAt d (s.length + 1) [] s, ?_, ?_⟩⟩⟩
  · simp only [mvEval, fCall, if_true, if_neg (show c!"split" ≠ c!"size" by decide), if_neg (show c!"split" ≠ c!"concat" by decide), hx]
  · have := cutAt_pieces hne (s.length + 1) [] s (by omega) (by simp)
    simpa using this
  · have ha : (d.all fun c => c ∉ regexMeta) = true := by
      rw [List.all_eq_true]
      intro c hc
      simpa using hd c hc
    simp only [mvEval, fCall, if_true, if_neg (show c!"split" ≠ c!"size" by decide), if_neg (show c!"split" ≠ c!"concat" by decide), hx, sparkSplit,
      if_neg hne, ha, Option.map_some]

/-- What the pieces are does not depend on how they are found. -/
theorem pieces_unique {d : Str} : ∀ {s : Str} {l l' : List Str}, Pieces d s l → Pieces d s l' → l = l' := by
  intro s l l' h
  induction h generalizing l' with
  | last hn =>
    intro h'
    cases h' with
    | last _ => rfl
    | cut _ _ => exact absurd rfl (hn _ _)
  | @cut a b l hf _ ih =>
    intro h'
    generalize hs : a ++ d ++ b = s at h'
    cases h' with
    | last hn => exact absurd hs.symm (hn _ _)
    | @cut a' b' l' hf' h'' =>
      have hl : a.length = a'.length := Nat.le_antisymm (hf _ _ hs) (hf' _ _ hs.symm)
      rw [List.append_assoc, List.append_assoc] at hs
      obtain ⟨rfl, hb⟩ := List.append_inj hs hl
      obtain ⟨-, rfl⟩ := List.append_inj hb rfl
      rw [ih h'']

theorem cutWhere_all {p : Char → Bool} : ∀ (s : Str), (∀ c ∈ s, p c = true) → cutWhere p [] s = List.replicate (s.length + 1) []
  | [], _ => rfl
  | c :: cs, h => by
    rw [cutWhere, if_pos (h c (by simp)), cutWhere_all cs fun c hc => h c (by simp [hc])]
    rfl

/-- Disagreement: the delimiter is used as a regular expression.  A text without line ends split at dots gives nothing but empty
texts, one more than it has characters; split at bars it gives its characters and an empty text. -/
theorem C88_split_fails {e : Expr} (h : Frag .disallow e = true) :
    (∃ t u, ReadAs e t ∧ ReadAs (.call c!"split" [e, .const (.str c!".")]) u ∧
      ∀ (ofNull : MV) (x : PyE → MV) (s : Str), x t = .text s → (∀ c ∈ s, lineEnd c = false) →
        mvEval ofNull x u = some (.array (List.replicate (s.length + 1) (some [])))) ∧
    ∃ t u, ReadAs e t ∧ ReadAs (.call c!"split" [e, .const (.str c!"|")]) u ∧
      ∀ (ofNull : MV) (x : PyE → MV) (s : Str), x t = .text s →
        mvEval ofNull x u = some (.array ((s.map fun c => some [c]) ++ [some []])) := by
  constructor
  · obtain ⟨t, h1, h2⟩ := split_reads (d := c!".") h (by decide +kernel)
    refine ⟨t, _, h1, h2, fun ofNull x s hx hs => ?_⟩
    have hcut := cutWhere_all (p := fun c => !lineEnd c) s fun c hc => by rw [hs c hc]; rfl
    simp only [mvEval, fCall, if_true, if_neg (show c!"split" ≠ c!"size" by decide), if_neg (show c!"split" ≠ c!"concat" by decide), hx, sparkSplit,
      if_neg (show c!"." ≠ [] by decide), show (c!".".all fun c => c ∉ regexMeta) = false by decide +kernel, Bool.false_eq_true, if_false, hcut,
      Option.map_some, List.map_replicate]
  · obtain ⟨t, h1, h2⟩ := split_reads (d := c!"|") h (by decide +kernel)
    refine ⟨t, _, h1, h2, fun ofNull x s hx => ?_⟩
    simp only [mvEval, fCall, if_true, if_neg (show c!"split" ≠ c!"size" by decide), if_neg (show c!"split" ≠ c!"concat" by decide), hx, sparkSplit,
      if_neg (show c!"|" ≠ [] by decide), show (c!"|".all fun c => c ∉ regexMeta) = false by decide +kernel, Bool.false_eq_true, if_false,
      if_neg (show c!"|" ≠ c!"." by decide), Option.map_some, List.map_append, List.map_map, List.map_cons, List.map_nil]
    rfl

/-- The pieces of an address, and what the program makes of it. -/
example : Pieces c!"." c!"10.0.1" [c!"10", c!"0", c!"1"] ∧ sparkSplit c!"." c!"10.0" = some [[], [], [], [], []] ∧
    sparkSplit c!"::" c!"a::b:c::" = some [c!"a", c!"b:c", []] ∧ (∀ c ∈ c!"::", c ∉ regexMeta) ∧
    outOf .disallow c!"eval x=split(ip, \".\"), y=split(a, \"|\")" =
      some c!"spark.table('main').withColumn('x', F.split(F.col('ip'), \".\"),).withColumn('y', F.split(F.col('a'), \"|\"),)" := by
  refine ⟨?_, by decide +kernel, by decide +kernel, by decide +kernel, by decide +kernel⟩
  have : Pieces c!"." c!"10.0.1" (cutAt c!"." 7 [] c!"10.0.1") := by
    simpa using cutAt_pieces (d := c!".") (by decide) 7 [] c!"10.0.1" (by decide) (by simp)
  exact this

/-! ### mvzip -/

/-- the arguments of `mvzip`: two fields and perhaps a delimiter -/
def zipArgs (a b : Expr) (d : Option Str) : List Expr := [a, b] ++ (d.map fun d => .const (.str d)).toList

/-- the function the elements are joined with -/
def zipLam (d : Str) : PyE := .lam [c!"left_", c!"right_"] (fCall c!"concat_ws" [.str d, .name c!"left_", .name c!"right_"])

theorem mvzip_reads {a b : Expr} {d : Option Str} (ha : Frag .disallow a = true) (hb : Frag .disallow b = true) (hd : rawOk (d.getD c!",") = true) :
    ∃ ta tb, ReadAs a ta ∧ ReadAs b tb ∧ ReadAs (.call c!"mvzip" (zipArgs a b d)) (fCall c!"zip_with" [ta, tb, zipLam (d.getD c!",")]) := by
  obtain ⟨pa, ta, ha1, ha2⟩ := frag_tree ha
  obtain ⟨pb, tb, hb1, hb2⟩ := frag_tree hb
  refine ⟨ta, tb, ⟨pa, ha1, read_render ha2⟩, ⟨pb, hb1, read_render hb2⟩, .aliased (.fn c!"zip_with" [pa.unalias, pb.unalias,
      .py (c!"lambda left_, right_: F.concat_ws(r\"" ++ d.getD c!"," ++ c!"\", left_, right_)")]) c!"mvzip", ?_, ?_⟩
  · rw [exprTr, evalFn_known (spec := ⟨c!"mvzip", [.expr, .expr], .mapped,
      fun | [.e l, .e r], args, _ => mvzipBody l r args | _, _, _ => none⟩) rfl]
    cases d with
    | none =>
      simp only [zipArgs, Option.map_none, Option.toList_none, List.append_nil, argsTr, ha1, hb1, Option.map_some]
      rfl
    | some d =>
      simp only [zipArgs, Option.map_some, Option.toList_some, List.cons_append, List.nil_append, argsTr, ha1, hb1]
      rfl
  · have hg : funcTree c!"zip_with" = some (.attr (.name c!"F") c!"zip_with") := by decide +kernel
    apply read_render
    refine tree_fn hg (.inr ?_)
    rw [lamTrees, ha2, lamTrees, hb2, lam_last (lamTree_raw hd), zipLam]

theorem mvzip_value {d : Str} (ofNull : MV) (x : PyE → MV) (ta tb : PyE) :
    mvEval ofNull x (fCall c!"zip_with" [ta, tb, zipLam d]) = sparkZip (fun l r => concatWs d [l, r]) (x ta) (x tb) := by
  simp [mvEval, fCall, zipLam, pairText]

theorem zipAll_pairs (d : Str) : ∀ (la lb : List Str), la.length = lb.length →
    zipAll (fun l r => concatWs d [l, r]) (la.map some) (lb.map some) = splMvzip d la lb
  | [], [], _ => rfl
  | [], _ :: _, h => by cases h
  | _ :: _, [], h => by cases h
  | a :: la, b :: lb, h => by
    have := zipAll_pairs d la lb (by simpa using h)
    rw [splMvzip] at this ⊢
    simp only [List.map_cons, zipAll, this, List.zipWith_cons_cons]
    rfl

theorem zipAll_length (f : Option Str → Option Str → Str) : ∀ la lb, (zipAll f la lb).length = max la.length lb.length
  | [], lb => by simp [zipAll]
  | a :: la, [] => by simp [zipAll]
  | a :: la, b :: lb => by
    simp only [zipAll, List.length_cons, zipAll_length f la lb]
    omega

/-- **C88** (partial): the values of two fields with equally many of them, joined in pairs by the delimiter, which is a comma if
none is given. -/
theorem C88_mvzip_partial {a b : Expr} {d : Option Str} (ha : Frag .disallow a = true) (hb : Frag .disallow b = true) (hd : rawOk (d.getD c!",") = true) :
    ∃ ta tb u, ReadAs a ta ∧ ReadAs b tb ∧ ReadAs (.call c!"mvzip" (zipArgs a b d)) u ∧
      ∀ (ofNull : MV) (x : PyE → MV) (la lb : List Str), x ta = .array (la.map some) → x tb = .array (lb.map some) → la.length = lb.length →
        mvEval ofNull x u = some (.array ((splMvzip (d.getD c!",") la lb).map some)) := by
  obtain ⟨ta, tb, h1, h2, h3⟩ := mvzip_reads ha hb hd
  refine ⟨ta, tb, _, h1, h2, h3, fun ofNull x la lb hla hlb h => ?_⟩
  rw [mvzip_value, hla, hlb, sparkZip, zipAll_pairs _ la lb h]

/-- Disagreement: with different numbers of values there are as many pairs as values of the field with more of them, not as many
as of the field with fewer; and a single value, which is a text, makes the program fail. -/
theorem C88_mvzip_lengths_fail {a b : Expr} {d : Option Str} (ha : Frag .disallow a = true) (hb : Frag .disallow b = true)
    (hd : rawOk (d.getD c!",") = true) :
    ∃ ta tb u, ReadAs a ta ∧ ReadAs b tb ∧ ReadAs (.call c!"mvzip" (zipArgs a b d)) u ∧
      ∀ (ofNull : MV) (x : PyE → MV), (∀ la lb : List Str, x ta = .array (la.map some) → x tb = .array (lb.map some) → la.length ≠ lb.length →
          ∃ l : List Str, mvEval ofNull x u = some (.array (l.map some)) ∧ l.length = max la.length lb.length ∧
            (splMvzip (d.getD c!",") la lb).length = min la.length lb.length) ∧
        ∀ s, x ta = .text s → mvEval ofNull x u = none := by
  obtain ⟨ta, tb, h1, h2, h3⟩ := mvzip_reads ha hb hd
  refine ⟨ta, tb, _, h1, h2, h3, fun ofNull x => ⟨fun la lb hla hlb _ => ?_, fun s hs => ?_⟩⟩
  · refine ⟨_, by rw [mvzip_value, hla, hlb, sparkZip], ?_, ?_⟩
    · rw [zipAll_length, List.length_map, List.length_map]
    · rw [splMvzip, List.length_zipWith]
  · rw [mvzip_value, hs]
    cases x tb <;> rfl

/-- Names and numbers in pairs, and what becomes of a missing number. -/
example :
    outOf .disallow c!"eval x=mvzip(n, p, \": \"), y=mvzip(n, p)" =
      some (c!"spark.table('main').withColumn('x', F.zip_with(F.col('n'), F.col('p'), lambda left_, right_: F.concat_ws(r\": \", left_, right_)),)" ++
        c!".withColumn('y', F.zip_with(F.col('n'), F.col('p'), lambda left_, right_: F.concat_ws(r\",\", left_, right_)),)") ∧
    splMvzip c!": " [c!"a", c!"b"] [c!"1", c!"2"] = [c!"a: 1", c!"b: 2"] ∧ splMvzip c!"," [c!"a", c!"b"] [c!"1"] = [c!"a,1"] ∧
    zipAll (fun l r => concatWs c!"," [l, r]) [some c!"a", some c!"b"] [some c!"1"] = [c!"a,1", c!"b"] ∧
    rawOk c!": " = true ∧ Frag .disallow (.const (.field c!"n")) = true := by decide +kernel

/-- The whole call is read, the lambda expression with it. -/
example : readPy c!"F.zip_with(F.col('n'), F.col('p'), lambda left_, right_: F.concat_ws(r\": \", left_, right_))" =
    some (fCall c!"zip_with" [fCall c!"col" [.str c!"n"], fCall c!"col" [.str c!"p"], zipLam c!": "]) := by decide +kernel

/-- Counting and appending. -/
example :
    outOf .disallow c!"eval x=mvcount(split(a, \";\")), y=mvappend(a, b)" =
      some c!"spark.table('main').withColumn('x', F.size(F.split(F.col('a'), \";\")),).withColumn('y', F.concat(F.col('a'), F.col('b')),)" ∧
    splMvcount [c!"a", c!"b"] = some 2 ∧ splMvappend [[c!"a"], [c!"b", c!"c"]] = [c!"a", c!"b", c!"c"] ∧ splMvappend [[c!"a"], [c!"b"]] ≠ [c!"ab"] := by
  decide +kernel

end Verif.Props
