import Verif.Lemmas.Plain
/-
Pipelines of plain commands are translated to programs in which every variable is assigned before it
is used.
-/
namespace Verif.Lemmas
open Verif Spec

/-! ### search terms -/

theorem rawTest_body {s : Str} (h : Plain '"' s = true) : Body (rawTest s) := by
  refine body_method (c := .named c!"_raw") ⟨by decide +kernel, rfl, rfl, fun _ => rfl⟩ (by decide +kernel) ?_
  simp only [wfL, Bool.and_true]
  exact wf_pyStr (plain_append (plain_append (by decide) h) (by decide))

theorem searchRw_wf : ∀ (p : PE), wf p = true → wf (searchRw p) = true ∧ (isReceiver p = true → isReceiver (searchRw p) = true)
  | .named n, h => by
    rw [wf] at h
    have := rawTest_body (word2 h)
    rw [searchRw]; exact ⟨this.wf, fun _ => this.recv⟩
  | .lit c, h => by
    rw [wf, Bool.and_eq_true] at h
    have := rawTest_body h.2
    rw [searchRw]; exact ⟨this.wf, fun _ => this.recv⟩
  | .not r, h => by
    rw [wf] at h
    rw [searchRw, wf]
    exact ⟨(searchRw_wf r h).1, fun h => by cases h⟩
  | .bin op l r, h => by
    rw [searchRw]
    split
    · simp only [wf, Bool.and_eq_true] at h
      have := body_bin h.1.1 (searchRw_wf l h.1.2).1 (searchRw_wf r h.2).1
      exact ⟨this.wf, fun _ => this.recv⟩
    · exact ⟨h, fun _ => rfl⟩
  | .aliased (.py c) n, h => by simp [wf, isReceiver] at h
  | .aliased (.named c) n, h | .aliased (.lit c) n, h | .aliased (.not c) n, h | .aliased (.bin _ _ c) n, h
  | .aliased (.aliased _ c) n, h | .aliased (.method _ _ c) n, h | .aliased (.fn _ c) n, h => by
    rw [wf, Bool.and_eq_true, Bool.and_eq_true] at h
    have h1 := searchRw_wf _ h.2
    have h2 := wf_unalias _ h1.1
    have h3 := h2.2 (h1.2 h.1.1)
    rw [searchRw]
    · refine ⟨?_, fun _ => rfl⟩
      rw [PE.withAlias, wf, h3, h.1.2, h2.1]; rfl
    · intro c h; cases h
  | .method .., h | .fn .., h | .py _, h => ⟨h, fun h => h⟩

theorem intoSearch_wf {p : PE} (h : wf p = true) : wf (intoSearch p) = true := by
  have h0 := wf_unalias p h
  have h1 := searchRw_wf _ h0.1
  unfold intoSearch
  cases p with
  | aliased c n =>
    simp only [PE.aliasName, PE.maybeAlias]
    have hw := h
    simp only [wf, Bool.and_eq_true] at hw
    have h2 := wf_unalias _ h1.1
    have h3 := h2.2 (h1.2 (h0.2 rfl))
    rw [PE.withAlias, wf, h3, hw.1.2, h2.1]; rfl
  | _ => exact h1.1

/-! ### programs in scope -/

/-- the variables of an expression are those of another one and known names -/
def Within (r' r : PyE) : Prop := ∀ v ∈ vars r', v ∈ vars r ∨ globals.contains v = true

theorem inScope_mono {r r' : PyE} (hr : Within r' r) : ∀ {ss : List (Str × PyE)} {known : List Str},
    (∀ v, globals.contains v = true → known.contains v = true) → inScope known ss r = true → inScope known ss r' = true
  | [], known, hk, h => by
    rw [inScope, List.all_eq_true] at *
    intro v hv
    rcases hr v hv with h1 | h1
    · exact h v h1
    · exact hk v h1
  | (n, e) :: ss, known, hk, h => by
    rw [inScope, Bool.and_eq_true] at *
    refine ⟨h.1, inScope_mono hr (fun v hv => ?_) h.2⟩
    rw [List.contains_cons, hk v hv, Bool.or_true]

theorem inScope_add {r e : PyE} {n : Str} (hr : Within e r) : ∀ {ss : List (Str × PyE)} {known : List Str},
    (∀ v, globals.contains v = true → known.contains v = true) → inScope known ss r = true →
    inScope known (ss ++ [(n, e)]) (.name n) = true
  | [], known, hk, h => by
    rw [inScope, List.all_eq_true] at h
    rw [List.nil_append, inScope, inScope, Bool.and_eq_true, List.all_eq_true]
    refine ⟨fun v hv => ?_, by simp [vars]⟩
    rcases hr v hv with h1 | h1
    · exact h v h1
    · exact hk v h1
  | (m, f) :: ss, known, hk, h => by
    rw [inScope, Bool.and_eq_true] at h
    rw [List.cons_append, inScope, Bool.and_eq_true]
    refine ⟨h.1, inScope_add hr (fun v hv => ?_) h.2⟩
    rw [List.contains_cons, hk v hv, Bool.or_true]

/-- A frame with a program in which all variables are known; with `b` an expression. -/
def Ok (b : Bool) (d : DF) : Prop :=
  ∃ p, progTree d = some p ∧ inScope globals p.stmts p.result = true ∧ (b = true → p.stmts = []) ∧
    (p.stmts.all fun s => isCommand s.2) = true

theorem Ok.weaken {b : Bool} {d : DF} (h : Ok b d) : Ok false d :=
  let ⟨p, h1, h2, _, h3⟩ := h
  ⟨p, h1, h2, (fun h => by cases h), h3⟩

theorem ok_step {b : Bool} {d d' : DF} {f : PyE → Option PyE} (h : Ok b d) (he : progTree d' = onResult (progTree d) f)
    (hf : ∀ e, ∃ t, f e = some t ∧ Within t e) : Ok b d' := by
  obtain ⟨p, hp, hs, hb, hc⟩ := h
  obtain ⟨t, ht, hw⟩ := hf p.result
  refine ⟨⟨p.stmts, t⟩, ?_, inScope_mono hw (fun _ h => h) hs, hb, hc⟩
  rw [he, hp]
  simp only [onResult, ht, Option.map_some]

/-- a method call with arguments over the known names -/
theorem within_call {e : PyE} {m : Str} {ts : List PyE} (h : (varsL ts).all globals.contains = true) : Within (mCall e m ts) e := by
  intro v hv
  rw [List.all_eq_true] at h
  simp only [mCall, vars, List.mem_append] at hv
  rcases hv with hv | hv
  · exact .inl hv
  · exact .inr (h v hv)

theorem ok_method {b : Bool} {d d' : DF} {m : Str} {ts : List PyE} (h : Ok b d)
    (he : progTree d' = onResult (progTree d) fun e => some (mCall e m ts)) (hv : (varsL ts).all globals.contains = true) : Ok b d' :=
  ok_step h he fun _ => ⟨_, rfl, within_call hv⟩

theorem col_trees {cs : List PE} (hne : cs ≠ []) (h : wfL cs = true) : ∃ ts, colTrees cs = some ts ∧ (varsL ts).all globals.contains = true := by
  obtain ⟨ts, h1, h2⟩ := wfL_trees cs h
  refine ⟨ts, ?_, h2⟩
  unfold colTrees
  rw [if_neg (by simpa using hne), h1]

theorem ok_source {b : Bool} {n : Str} (h : Word n = true) : Ok b (.source n) := by
  refine ⟨_, by rw [progTree, if_pos (word1 h)], ?_, fun _ => rfl, rfl⟩
  simp only [inScope, mCall, vars, varsL]
  decide

theorem ok_default {b : Bool} : Ok b DF.default := ok_source (by decide)

theorem ok_select {b : Bool} {d : DF} {cs : List PE} (h : Ok b d) (hne : cs ≠ []) (hc : wfL cs = true) : Ok b (.select d cs) := by
  obtain ⟨ts, h1, h2⟩ := col_trees hne hc
  exact ok_method h (by rw [progTree, h1]; rfl) h2

theorem ok_agg {b : Bool} {d : DF} {cs : List PE} (h : Ok b d) (hne : cs ≠ []) (hc : wfL cs = true) : Ok b (.agg d cs) := by
  obtain ⟨ts, h1, h2⟩ := col_trees hne hc
  exact ok_method h (by rw [progTree, h1]; rfl) h2

theorem ok_orderBy {b : Bool} {d : DF} {cs : List PE} (h : Ok b d) (hne : cs ≠ []) (hc : wfL cs = true) : Ok b (.orderBy d cs) := by
  obtain ⟨ts, h1, h2⟩ := col_trees hne hc
  exact ok_method h (by rw [progTree, h1]; rfl) h2

theorem ok_where {b : Bool} {d : DF} {c : PE} (h : Ok b d) (hc : wf c = true) : Ok b (d.mkWhere c) := by
  obtain ⟨t, h1, h2⟩ := wf_tree _ (wf_unalias c hc).1
  unfold DF.mkWhere
  exact ok_method h (by rw [progTree, h1]; rfl) (by simpa [varsL] using h2)

theorem ok_withTree {b : Bool} {d : DF} {n : Str} {c : PE} (h : Ok b d) (hn : Word n = true)
    (hc : ∃ t, pyTree c.unalias = some t ∧ (vars t).all globals.contains = true) : Ok b (d.mkWithColumn n c) := by
  obtain ⟨t, h1, h2⟩ := hc
  unfold DF.mkWithColumn
  exact ok_method (ts := [.str n, t]) h (by rw [progTree, h1]; simp only [word1 hn]; rfl) (by simpa [varsL, vars] using h2)

theorem ok_withColumn {b : Bool} {d : DF} {n : Str} {c : PE} (h : Ok b d) (hn : Word n = true) (hc : wf c = true) : Ok b (d.mkWithColumn n c) :=
  ok_withTree h hn (wf_tree _ (wf_unalias c hc).1)

theorem ok_renamed {b : Bool} {d : DF} {o n : Str} (h : Ok b d) (ho : Word o = true) (hn : Word n = true) : Ok b (.withColumnRenamed d o n) :=
  ok_method (ts := [.str o, .str n]) h (by rw [progTree]; simp only [word1 hn, word1 ho]; rfl) rfl

theorem ok_limit {b : Bool} {d : DF} {n : Nat} (h : Ok b d) : Ok b (.limit d n) :=
  ok_method (ts := [natTree n]) h (by rw [progTree]) rfl

theorem ok_tail {b : Bool} {d : DF} {n : Nat} (h : Ok b d) : Ok b (.tail d n) :=
  ok_method (ts := [natTree n]) h (by rw [progTree]) rfl

theorem ok_alias {b : Bool} {d : DF} {n : Str} (h : Ok b d) (hn : Word n = true) : Ok b (.alias d n) :=
  ok_method (ts := [.str n]) h (by rw [progTree]; simp only [word1 hn]; rfl) rfl

theorem ok_arbitrary {b : Bool} {d : DF} {m : Str} {cs : List PE} (h : Ok b d) (hm : isIdent m = true) (hne : cs ≠ []) (hc : wfL cs = true) :
    Ok b (.arbitraryMethod d m cs) := by
  obtain ⟨ts, h1, h2⟩ := col_trees hne hc
  exact ok_method h (by rw [progTree, h1]; simp only [hm]; rfl) h2

/-- a grouping column -/
def cnOk : CN → Bool
  | .col c => wf c
  | .name n => Word n

theorem cn_trees : ∀ {cs : List CN}, (∀ c ∈ cs, cnOk c = true) → ∃ ts, cnTrees cs = some ts ∧ (varsL ts).all globals.contains = true
  | [], _ => ⟨[], rfl, rfl⟩
  | c :: cs, h => by
    obtain ⟨ts, h1, h2⟩ := cn_trees fun c hc => h c (List.mem_cons_of_mem _ hc)
    have h0 := h c (by simp)
    have : ∃ t, cnTree c = some t ∧ (vars t).all globals.contains = true := by
      cases c with
      | col c => exact wf_tree c h0
      | name n => exact ⟨.str n, by simp only [cnTree, word2 h0]; rfl, rfl⟩
    obtain ⟨t, h3, h4⟩ := this
    exact ⟨t :: ts, by rw [cnTrees, h3, h1], by rw [varsL, List.all_append, h4, h2]; rfl⟩

theorem ok_groupBy {b : Bool} {d : DF} {cs : List CN} (h : Ok b d) (hc : ∀ c ∈ cs, cnOk c = true) : Ok b (.groupBy d cs) := by
  obtain ⟨ts, h1, h2⟩ := cn_trees hc
  exact ok_method (ts := [.list ts]) h (by rw [progTree, h1]; rfl) (by simpa [varsL, vars] using h2)

theorem ok_operand {d : DF} (h : Ok true d) : ∃ e, operand (progTree d) = some e ∧ (vars e).all globals.contains = true := by
  obtain ⟨⟨ss, e⟩, h1, h2, h3, _⟩ := h
  have := h3 rfl
  dsimp only at this
  subst this
  rw [h1]
  exact ⟨e, rfl, h2⟩

theorem ok_union {b : Bool} {d o : DF} (h : Ok b d) (ho : Ok true o) : Ok b (.unionByName d o) := by
  obtain ⟨e, h1, h2⟩ := ok_operand ho
  refine ok_method (ts := [e, .kwarg c!"allowMissingColumns" (.name c!"True")]) h (by rw [progTree, h1]; rfl) ?_
  simp only [varsL, vars, List.all_append, h2]
  decide

theorem ok_join {b : Bool} {d o : DF} {c : PE} {ty : Str} (h : Ok b d) (ho : Ok true o) (hc : wf c = true) (ht : Word ty = true) :
    Ok b (d.mkJoin o c ty) := by
  obtain ⟨e, h1, h2⟩ := ok_operand ho
  obtain ⟨t, h3, h4⟩ := wf_tree _ (wf_unalias c hc).1
  unfold DF.mkJoin
  refine ok_method (ts := [e, t, .str ty]) h (by rw [progTree, h1, h3, word1 ht]) ?_
  simp only [varsL, vars, List.all_append, h2, h4]
  decide

/-! ### runtime calls -/

/-- an argument of a runtime call -/
def reOk : RE → Bool
  | .expr e => wf e
  | .list es => wfL es
  | .dict kvs => kvs.all fun kv => Word kv.1 && wf kv.2

theorem dict_tree : ∀ {kvs : List (Str × PE)}, (kvs.all fun kv => Word kv.1 && wf kv.2) = true →
    ∃ ts, argTree.dictTrees kvs = some ts ∧ (varsL ts).all globals.contains = true
  | [], _ => ⟨[], rfl, rfl⟩
  | (k, e) :: kvs, h => by
    rw [List.all_cons, Bool.and_eq_true, Bool.and_eq_true] at h
    obtain ⟨ts, h1, h2⟩ := dict_tree h.2
    obtain ⟨t, h3, h4⟩ := wf_tree e h.1.2
    exact ⟨.str k :: t :: ts, by rw [argTree.dictTrees, h1, h3, word2 h.1.1],
      by simp only [varsL, vars, List.all_append, h2, h4]; rfl⟩

theorem arg_tree {a : RE} (h : reOk a = true) : ∃ t, argTree a = some t ∧ (vars t).all globals.contains = true := by
  cases a with
  | expr e => exact wf_tree e h
  | list es =>
    obtain ⟨ts, h1, h2⟩ := wfL_trees es h
    exact ⟨.list ts, by simp only [argTree, h1]; rfl, h2⟩
  | dict kvs =>
    obtain ⟨ts, h1, h2⟩ := dict_tree h
    exact ⟨.dict ts, by simp only [argTree, h1]; rfl, h2⟩

theorem arg_trees : ∀ {as : List RE}, as.all reOk = true → ∃ ts, argTrees as = some ts ∧ (varsL ts).all globals.contains = true
  | [], _ => ⟨[], rfl, rfl⟩
  | a :: as, h => by
    rw [List.all_cons, Bool.and_eq_true] at h
    obtain ⟨t, h1, h2⟩ := arg_tree h.1
    obtain ⟨ts, h3, h4⟩ := arg_trees h.2
    exact ⟨t :: ts, by rw [argTrees, h1, h3], by rw [varsL, List.all_append, h2, h4]; rfl⟩

theorem kw_trees : ∀ {ks : List (Str × RE)}, kwsOk (ks.map (·.1)) = true → (ks.all fun k => reOk k.2) = true →
    ∃ ts, kwTrees ks = some ts ∧ (varsL ts).all globals.contains = true ∧ argsOk ts = true ∧ ts.all isKw = true ∧
      ∀ n, (ts.any fun a => kwOf a == some n) = (ks.map (·.1)).contains n
  | [], _, _ => ⟨[], rfl, rfl, rfl, rfl, fun _ => rfl⟩
  | (n, a) :: ks, hn, h => by
    rw [List.all_cons, Bool.and_eq_true] at h
    unfold kwsOk at hn
    simp only [List.map_cons, List.all_cons, Bool.and_eq_true, List.nodup_cons, decide_eq_true_eq] at hn
    obtain ⟨⟨h0, h0'⟩, hd, hd'⟩ := hn
    obtain ⟨t, h1, h2⟩ := arg_tree h.1
    obtain ⟨ts, h3, h4, h5, h6, h7⟩ := kw_trees (ks := ks) (by unfold kwsOk; simp only [h0', hd', decide_true]; rfl) h.2
    unfold kwOk at h0
    refine ⟨.kwarg n t :: ts, by rw [kwTrees, h0, h1, h3], by rw [varsL, vars, List.all_append, h2, h4]; rfl, ?_, ?_, fun m => ?_⟩
    · rw [argsOk, h5, h6, h7 n]
      simpa using hd
    · rw [List.all_cons, h6]; rfl
    · rw [List.any_cons, List.map_cons, List.contains_cons, h7 m]
      congr 1
      show ((some n : Option Str) == some m) = (m == n)
      rw [Bool.eq_iff_iff, beq_iff_eq, beq_iff_eq]
      exact ⟨fun h => (Option.some.inj h).symm, fun h => by rw [h]⟩

theorem cmd_tree {f : Str} {as : List RE} {ks : List (Str × RE)} (hf : isIdent f = true) (ha : as.all reOk = true)
    (hn : kwsOk (ks.map (·.1)) = true) (hk : (ks.all fun k => reOk k.2) = true) (e : PyE) :
    ∃ t, cmdTree f e as ks = some t ∧ Within t e ∧ isCommand t = true := by
  obtain ⟨ts, h1, h2⟩ := arg_trees ha
  obtain ⟨us, h3, h4, h5, _⟩ := kw_trees hn hk
  refine ⟨mCall (.name c!"commands") f (e :: (ts ++ us)), by rw [cmdTree, hf, h1, h3]; simp only [h5, if_true], ?_, by simp only [mCall, isCommand]; decide⟩
  intro v hv
  simp only [mCall, vars, varsL, List.mem_append, List.mem_cons, List.not_mem_nil, or_false] at hv
  rcases hv with rfl | hv | hv
  · exact .inr (by decide)
  · exact .inl hv
  · have : varsL (ts ++ us) = varsL ts ++ varsL us := by
      clear h1 h2 hv
      induction ts with
      | nil => rfl
      | cons t ts ih => rw [List.cons_append, varsL, varsL, ih, List.append_assoc]
    rw [this, List.mem_append] at hv
    rw [List.all_eq_true] at h2 h4
    exact .inr (hv.elim (h2 v) (h4 v))

theorem dfName_ok (n : Nat) : isIdent (dfName n) = true ∧ pyConsts.contains (dfName n) = false := by
  have hd := (showNat_ok n).1
  have h1 : (dfName n).all isIdChar = true := by
    rw [dfName, List.all_append, Bool.and_eq_true]
    refine ⟨by decide, List.all_eq_true.2 ?_⟩
    · intro c hc
      have := List.all_eq_true.1 hd c hc
      unfold isIdChar
      have e : ('0' ≤ c && c ≤ '9') = isDig c := rfl
      rw [e, this, Bool.or_true]
  have h2 : ∀ k : Str, ¬ (c!"df_").isPrefixOf k → (dfName n == k) = false := by
    intro k hk
    rw [beq_eq_false_iff_ne]
    rintro rfl
    exact hk (by simp [dfName])
  have h3 : ∀ ks : List Str, (ks.all fun k => !(c!"df_").isPrefixOf k) = true → ks.contains (dfName n) = false := by
    intro ks hks
    rw [List.contains_eq_any_beq, List.any_eq_false]
    intro k hk
    have := List.all_eq_true.1 hks k hk
    rw [h2 k (fun e => by rw [e] at this; cases this)]
    simp
  refine ⟨?_, h3 _ (by decide)⟩
  have h4 := h3 pyKeywords (by decide)
  unfold isIdent
  have e : dfName n = 'd' :: ('f' :: '_' :: showNat n) := rfl
  rw [e] at h1 h4 ⊢
  simp only
  rw [List.all_cons, Bool.and_eq_true] at h1
  rw [h1.2, h4]
  decide

end Verif.Lemmas
