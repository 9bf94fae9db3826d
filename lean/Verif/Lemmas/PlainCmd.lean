import Verif.Lemmas.PlainProg
/-
The commands, one by one.
-/
namespace Verif.Lemmas
open Verif Spec

/-! ### stages -/

/-- What is known of a frame at a stage. -/
def Fine : Stage → DF → Prop
  | .expr, d => Ok true d
  | .var, d => Ok false d ∧ (Ok true d ∨ isVar d = true)
  | .mixed, d => Ok false d

/-- the frame of a state -/
def FineS (st : Stage) (s : St) : Prop := ∀ d, s.df = some d → Fine st d

/-- is it an expression? -/
def Stage.isExpr : Stage → Bool
  | .expr => true
  | _ => false

theorem Fine.ok {st : Stage} {d : DF} (h : Fine st d) : Ok (Stage.isExpr st) d := by
  cases st with
  | expr => exact h
  | var => exact h.1
  | mixed => exact h

theorem fine_cur {st : Stage} {s : St} (h : FineS st s) : Ok (Stage.isExpr st) s.cur := by
  unfold St.cur
  cases hd : s.df with
  | none => exact ok_default
  | some d => exact (h d hd).ok

/-- A command without statements. -/
def Keeps (s : St) (o : Option St) : Prop := ∀ b s', Ok b s.cur → o = some s' → ∀ d, s'.df = some d → Ok b d

theorem keeps_none {s : St} : Keeps s none := fun _ _ _ h => by cases h

theorem keeps_put {s : St} {d : DF} (h : ∀ b, Ok b s.cur → Ok b d) : Keeps s (some (s.put d)) := by
  intro b s' hb hs d' hd
  cases hs
  cases hd
  exact h b hb

theorem keeps_map {s : St} {α : Type} {o : Option α} {f : α → DF} (h : ∀ a, o = some a → ∀ b, Ok b s.cur → Ok b (f a)) :
    Keeps s (o.map fun a => s.put (f a)) := by
  intro b s' hb hs d hd
  simp only [Option.map_eq_some_iff] at hs
  obtain ⟨a, ha, rfl⟩ := hs
  cases hd
  exact h a ha b hb

theorem keeps_stage {st st' : Stage} {s s' : St} (hk : Keeps s (some s')) (hn : st.next false = some st') (h : FineS st s) : FineS st' s' := by
  intro d hd
  have := hk _ _ (fine_cur h) rfl d hd
  cases st <;> simp only [Stage.next, Option.some.injEq] at hn <;> subst hn
  · exact this
  · exact this
  · exact this

/-- A runtime command. -/
structure Runs (s : St) (o : Option St) : Prop where
  run : ∀ s', o = some s' → ∃ f as ks, s' = s.putRuntime f as ks ∧ isIdent f = true ∧ as.all reOk = true ∧
    kwsOk (ks.map (·.1)) = true ∧ (ks.all fun k => reOk k.2) = true

theorem addStmt_put {n : Str} {ok : Bool} {p : PyProg} {f : PyE → Option PyE} {t : PyE} (hn : isIdent n = true) (hc : pyConsts.contains n = false)
    (ho : (ok || p.stmts.isEmpty) = true) (hf : f p.result = some t) : addStmt n ok (some p) f = some ⟨p.stmts ++ [(n, t)], .name n⟩ := by
  simp only [addStmt, hn, hc, ho, hf]
  rfl

theorem runs_stage {st st' : Stage} {s s' : St} (hr : Runs s (some s')) (hn : st.next true = some st') (h : FineS st s) : FineS st' s' := by
  obtain ⟨f, as, ks, rfl, hf, ha, hk, hk'⟩ := hr.run _ rfl
  obtain ⟨h1, h2⟩ := dfName_ok s.next
  intro d hd
  unfold St.putRuntime at hd
  simp only [Option.some.injEq] at hd
  have hst : st' = .var ∧ st ≠ .mixed := by cases st <;> simp [Stage.next] at hn <;> simp [← hn]
  rw [hst.1]
  cases hs : s.df with
  | none =>
    rw [hs] at hd
    subst hd
    obtain ⟨t, ht, hw, hcm⟩ := cmd_tree hf ha hk hk' (.name c!"None")
    refine ⟨⟨_, addStmt_put h1 h2 rfl ht, inScope_add hw (fun _ h => h) (by decide), (fun h => by cases h),
      by simp [hcm]⟩, .inr rfl⟩
  | some d0 =>
    rw [hs] at hd
    subst hd
    have h0 := h d0 hs
    obtain ⟨p, hp, hsc, _, hcs⟩ := h0.ok
    have hv : (isVar d0 || p.stmts.isEmpty) = true := by
      have key : Ok true d0 → p.stmts.isEmpty = true := by
        rintro ⟨q, hq, _, hq', _⟩
        rw [hp] at hq; cases hq
        rw [hq' rfl]; rfl
      cases st with
      | expr => rw [key h0, Bool.or_true]
      | var => rcases h0.2 with h | h; · rw [key h, Bool.or_true]
               · rw [h]; rfl
      | mixed => exact absurd rfl hst.2
    obtain ⟨t, ht, hw, hcm⟩ := cmd_tree hf ha hk hk' p.result
    refine ⟨⟨_, by rw [progTree, hp]; exact addStmt_put h1 h2 hv ht, inScope_add hw (fun _ h => h) hsc, (fun h => by cases h),
      by rw [List.all_append, hcs]; simp [hcm]⟩, .inr rfl⟩

/-! ### commands without statements -/

theorem all_wf_named {fs : List Str} (h : fs.all Word = true) : wfL (fs.map .named) = true := by
  rw [wfL_iff]
  intro e he
  obtain ⟨f, hf, rfl⟩ := List.mem_map.1 he
  rw [wf]; exact List.all_eq_true.1 h f hf

theorem addTotals_keeps {a : AddTotals} {s : St} (h : (Word a.fieldName && a.fields.all Word) = true) : Keeps s (addTotalsTr a s) := by
  rw [Bool.and_eq_true] at h
  refine keeps_put fun _ hb => ok_withColumn hb h.1 (join_body (by decide +kernel) ⟨by decide +kernel, rfl, rfl⟩ ?_).wf
  intro q hq
  obtain ⟨f, hf, rfl⟩ := List.mem_map.1 hq
  have hw : wf (.named f) = true := by rw [wf]; exact List.all_eq_true.1 h.2 f hf
  unfold addTotalsCol
  refine body_method (body_fn (by decide +kernel) ?_).col (by decide +kernel) (by decide +kernel)
  simp only [PE.mkMethod, PE.unalias, wfL, wf, isReceiver, Bool.and_true]
  rw [wf] at hw
  rw [hw]
  decide +kernel

theorem spanText_word {t : TimeSpan} (h : Word t.scale = true) : Word (spanText t) = true :=
  word_append (word_append (showInt_plain _) (by decide)) h

theorem bin_keeps {a : Bin} {s : St} (h : (Word (match a.field with | .field f => f | .alias _ n => n) && span? a.span) = true) :
    Keeps s (binCmdTr a s) := by
  have e : (match a.field with | .field f => f | .alias _ n => n) = a.field.outName := by cases a.field <;> rfl
  rw [e, Bool.and_eq_true] at h
  have hw : wf (.named (a.field.outName ++ c!"." ++ c!"start")) = true := by
    rw [wf]; exact word_append (word_append h.1 (by decide)) (by decide)
  unfold binCmdTr
  cases hs : a.span with
  | none => exact keeps_put fun _ hb => ok_withColumn hb h.1 hw
  | some t =>
    have hsp := h.2
    rw [hs] at hsp
    unfold span? spanOk at hsp
    rw [Bool.and_eq_true] at hsp
    refine keeps_put fun _ hb => ok_withColumn (ok_withColumn hb h.1 ?_) h.1 hw
    refine (body_fn (by decide +kernel) ?_).wf
    rw [wfL, wfL, wf_pyStr (word2 (spanText_word hsp.1))]
    decide +kernel

theorem convertFn_wf {t : Str} {f : FieldConversion} {p : PE} (ht : Word t = true) (hf : Word f.field = true) (hi : isIdent f.func = true)
    (h : convertFn t f = some p) : wf p = true := by
  have hw : wf (.named f.field) = true := by rw [wf]; exact hf
  unfold convertFn at h
  dsimp only at h
  split at h
  · simp only [ctimeFn, Option.map_eq_some_iff] at h
    obtain ⟨u, hu, rfl⟩ := h
    exact (body_fn (by decide +kernel) (by simp [wfL, hw, wf_pyStr (word2 (convertTimeFormat_word ht hu))])).wf
  split at h
  · cases h; exact (memk_body hw).wf
  split at h
  · cases h; exact (rmunit_body hw).wf
  split at h
  · cases h; exact (rmcomma_body hw).wf
  cases h
  exact (aliased_ok (body_fn (funcOk_ident hi) (by simp [wfL, hw])) (ident_word hi)).1

theorem convertLoop_ok {t : Str} (ht : Word t = true) {b : Bool} : ∀ {cs : List FieldConversion} {d d' : DF},
    (cs.all fun f => Word f.field && word? f.alias && isIdent f.func) = true → Ok b d → convertLoop t cs d = some d' → Ok b d'
  | [], d, d', _, hb, h => by cases h; exact hb
  | f :: cs, d, d', hc, hb, h => by
    simp only [List.all_cons, Bool.and_eq_true] at hc
    rw [convertLoop] at h
    split at h
    · cases h
    · rename_i e he
      refine convertLoop_ok ht hc.2 (ok_withColumn hb ?_ (convertFn_wf ht hc.1.1.1 hc.1.2 he)) h
      have := hc.1.1.2
      cases ha : f.alias with
      | none => exact hc.1.1.1
      | some a => rw [ha] at this; exact this

theorem convert_keeps {t : Str} {cs : List FieldConversion} {s : St}
    (h : (Word t && cs.all fun f => Word f.field && word? f.alias && isIdent f.func) = true) : Keeps s (convertTr t cs s) := by
  rw [Bool.and_eq_true] at h
  exact keeps_map (f := fun d => d) fun _ hd _ hb => convertLoop_ok h.1 h.2 hb hd

theorem evalLoop_ok {m : Mode} {b : Bool} : ∀ {fs : List (Str × Expr)} {d d' : DF},
    (fs.all fun a => Word a.1 && plainE a.2) = true → Ok b d → evalLoop m fs d = some d' → Ok b d'
  | [], d, d', _, hb, h => by cases h; exact hb
  | (n, e) :: fs, d, d', hc, hb, h => by
    simp only [List.all_cons, Bool.and_eq_true] at hc
    rw [evalLoop] at h
    split at h
    · cases h
    · rename_i c hc'
      split at h
      · exact evalLoop_ok hc.2 (ok_withColumn hb hc.1.1 (expr_good m e c hc.1.2 hc').wf) h
      · cases h

theorem eval_keeps {m : Mode} {fs : List (Str × Expr)} {s : St} (h : (fs.all fun a => Word a.1 && plainE a.2) = true) :
    Keeps s (evalStandalone m fs s) :=
  keeps_map (f := fun d => d) fun _ hd _ hb => evalLoop_ok h hb hd

theorem select_keeps {fs : List Str} {s : St} (h : (fs.all Word && !fs.isEmpty) = true) : Keeps s (some (s.put (.select s.cur (fs.map .named)))) := by
  rw [Bool.and_eq_true] at h
  refine keeps_put fun _ hb => ok_select hb ?_ (all_wf_named h.1)
  intro e
  rw [List.map_eq_nil_iff] at e
  subst e
  exact absurd h.2 (by decide)

theorem fillNull_keeps {v : Str} {fs : Option (List Str)} {s : St} (h : Word v = true) : Keeps s (fillNullStandalone v fs s) :=
  keeps_put fun _ hb => ok_arbitrary hb (by decide +kernel) (by simp) (by rw [wfL, wf_pyStr (word2 h)]; rfl)

theorem head_keeps {e : Expr} {k : Bool} {s : St} : Keeps s (headTr e k s) :=
  keeps_map (f := fun n => .limit s.cur (toU64 n)) fun _ _ _ hb => ok_limit hb

theorem lookup_keeps {a : Lookup} {s : St} : Keeps s (lookupTr a s) := by
  unfold lookupTr
  dsimp only
  split
  · exact keeps_none
  · exact keeps_put fun _ hb => ok_alias hb (by decide)

theorem ok_range {b : Bool} (n : Int) : Ok b (.rawSource (c!"spark.range(0, " ++ showInt n ++ c!", 1)")) := by
  obtain ⟨t, ht, hv⟩ : ∃ t, codeTree (showInt n) = some t ∧ (vars t).all globals.contains = true := by
    have := codeOk_int n
    unfold codeOk at this
    split at this
    · rename_i t ht; exact ⟨t, ht, this⟩
    · cases this
  refine ⟨⟨[], mCall (.name c!"spark") c!"range" [.num c!"0" [], t, .num c!"1" []]⟩, ?_, ?_, fun _ => rfl, rfl⟩
  · rw [progTree]
    have e : ((c!"spark.range(0, " ++ showInt n ++ c!", 1)").drop 15).take ((c!"spark.range(0, " ++ showInt n ++ c!", 1)").length - 19) = showInt n := by
      have e1 : (c!"spark.range(0, " ++ showInt n ++ c!", 1)").drop 15 = showInt n ++ c!", 1)" := by
        rw [List.append_assoc]; rfl
      have e2 : (c!"spark.range(0, " ++ showInt n ++ c!", 1)").length - 19 = (showInt n).length := by
        simp only [List.length_append, List.length_cons, List.length_nil]; omega
      rw [e1, e2, List.take_left]
    unfold rangeTree
    dsimp only
    rw [e, if_pos rfl, ht]
    rfl
  · simp only [inScope, mCall, vars, varsL, List.all_append, hv]
    decide

theorem makeResults_keeps {a : MakeResults} {s : St} (h : (Word a.server && (!a.annotate || a.serverGroup == none)) = true) :
    Keeps s (makeResultsTr a s) := by
  rw [Bool.and_eq_true] at h
  have hn : wf (.lit c!"None") = true := by decide +kernel
  refine keeps_put fun b _ => ?_
  have h0 : Ok b ((DF.rawSource (c!"spark.range(0, " ++ showInt a.count ++ c!", 1)")).mkWithColumn c!"_time" (.fn c!"current_timestamp" [])) :=
    ok_withColumn (ok_range a.count) (by decide) (by decide +kernel)
  split
  · rename_i ha
    have hg : a.serverGroup = none := by simpa [ha] using h.2
    rw [hg]
    refine ok_withColumn (ok_withTree (ok_withColumn (ok_withColumn (ok_withColumn (ok_withColumn h0
      (by decide) hn) (by decide) hn) (by decide) hn) (by decide) hn) (by decide) ?_) (by decide) hn
    refine ⟨fCall c!"lit" [.str a.server], ?_, vars_fCall rfl⟩
    show pyTree (.lit _) = _
    rw [pyTree, List.singleton_append, codeTree_dquote (word2 h.1)]
    rfl
  · exact h0


theorem topRare_keeps {dir : Str} (hd : isIdent dir = true) {a : TopRare} {s : St}
    (h : (a.fields.all Word && (a.by_.getD []).all Word && Word a.countField && Word a.percentField) = true) : Keeps s (topRareTr dir a s) := by
  simp only [Bool.and_eq_true] at h
  obtain ⟨⟨⟨h1, h2⟩, h3⟩, h4⟩ := h
  unfold topRareTr
  split
  · exact keeps_none
  · refine keeps_put fun b hb => ?_
    have hg : ∀ c ∈ (a.by_.getD a.fields).map CN.name, cnOk c = true := by
      intro c hc
      obtain ⟨f, hf, rfl⟩ := List.mem_map.1 hc
      show Word f = true
      refine List.all_eq_true.1 ?_ f hf
      cases hby : a.by_ with
      | none => exact h1
      | some fs => rw [hby] at h2; exact h2
    have hc : Ok b (DF.agg (DF.groupBy s.cur ((a.by_.getD a.fields).map .name)) [PE.withAlias (.fn c!"count" []) a.countField]) := by
      refine ok_agg (ok_groupBy hb hg) (by simp) ?_
      have := (aliased_ok (body_fn (f := c!"count") (args := []) (by decide +kernel) rfl) h3).1
      simp only [wfL, PE.withAlias, PE.unalias, this]
      rfl
    have ho : ∀ d, Ok b d → Ok b (DF.orderBy d [PE.mkMethod (.named c!"count") dir []]) := fun d hd' => by
      refine ok_orderBy hd' (by simp) ?_
      rw [wfL, (body_method ⟨by decide +kernel, rfl, rfl, fun _ => rfl⟩ hd rfl).wf]
      rfl
    have hp : ∀ d, Ok b d → Ok b (DF.mkWithColumn d a.percentField (PE.mkBin (.named c!"count") c!"/" (.fn c!"sum" [.named c!"count"]))) :=
      fun d hd' => ok_withColumn hd' h4 (by decide +kernel)
    split <;> split
    · exact ok_limit (ho _ (hp _ hc))
    · exact ok_limit (ho _ hc)
    · exact ho _ (hp _ hc)
    · exact ho _ hc

theorem codeOk_raw {s : Str} (h : rawOk s = true) : codeOk (c!"r\"" ++ s ++ c!"\"") = true := codeOk_of (t := .str s) (codeTree_raw h) rfl

theorem wf_pyRaw {s : Str} (h : rawOk s = true) : wf (pyRaw s) = true := by unfold pyRaw; rw [wf]; exact codeOk_raw h

theorem regex_keeps {i : Option (Str × Str)} {r : Str} {s : St} (h : (word? (i.map (·.1)) && rawOk r) = true) : Keeps s (regexTr i r s) := by
  rw [Bool.and_eq_true] at h
  refine keeps_map (f := fun x : Str × Bool => s.cur.mkWhere (if x.2 then PE.mkNot (PE.fn c!"regexp_like" [.named x.1, pyRaw r]) else
    PE.fn c!"regexp_like" [.named x.1, pyRaw r])) fun x hx b hb => ?_
  have hf : Word x.1 = true := by
    split at hx
    · cases hx; decide
    · rename_i f c
      have hw : Word f = true := h.1
      split at hx
      · cases hx; exact hw
      · split at hx <;> cases hx; exact hw
  have hw : wf (PE.fn c!"regexp_like" [.named x.1, pyRaw r]) = true :=
    (body_fn (by decide +kernel) (by simp [wfL, wf_pyRaw h.2, wf, hf])).wf
  refine ok_where hb ?_
  split
  · exact wf_mkNot hw
  · exact hw

theorem rename_keeps {as : List (Str × Str)} {s : St} (h : (as.all fun a => Word a.1 && Word a.2) = true) : Keeps s (renameTr as s) := by
  refine keeps_put fun b hb => ?_
  generalize s.cur = d at hb
  induction as generalizing d with
  | nil => exact hb
  | cons a as ih =>
    simp only [List.all_cons, Bool.and_eq_true] at h
    exact ih (by simpa using h.2) _ (ok_renamed hb h.1.1 h.1.2)

theorem showNat_word (n : Nat) : Word (showNat n) = true := digits_word (showNat_ok n).1

theorem rex_keeps {c : Ctx} {a : Rex} {s : St} (h : (Word a.field && rawOk a.regex &&
    (match c.ext.parseRe a.regex with | none => true | some t => (groupsOf t).all fun g => word? g.2)) = true) : Keeps s (rexTr c.ext a s) := by
  simp only [Bool.and_eq_true] at h
  obtain ⟨⟨h1, h2⟩, h3⟩ := h
  unfold rexTr
  split
  · exact keeps_none
  split
  · refine keeps_map (f := fun t => (groupsOf t).foldl (rexCol a) s.cur) fun t ht b hb => ?_
    rw [ht] at h3
    dsimp only at h3
    generalize s.cur = d at hb
    generalize groupsOf t = gs at h3
    induction gs generalizing d with
    | nil => exact hb
    | cons g gs ih =>
      rw [List.all_cons, Bool.and_eq_true] at h3
      refine ih _ (ok_withColumn hb ?_ ?_) h3.2
      · have := h3.1
        cases hg : g.2 with
        | none => exact showNat_word _
        | some n => rw [hg] at this; exact this
      · exact (body_fn (by decide +kernel) (by simp [wfL, wf_pyRaw h2, wf, h1, wf_pyInt])).wf
  · exact keeps_none

theorem sortKeys_wf {desc : Bool} : ∀ {ks : List (Option Str × Expr)} {cs : List PE}, (ks.all fun k => plainE k.2) = true →
    sortKeys desc ks = some cs → wfL cs = true ∧ cs.length = ks.length
  | [], cs, _, h => by cases h; exact ⟨rfl, rfl⟩
  | (g, e) :: ks, cs, hk, h => by
    rw [List.all_cons, Bool.and_eq_true] at hk
    rw [sortKeys] at h
    split at h
    · cases h
    · rename_i c hc
      split at h
      · cases h
      · rename_i k hk'
        split at h
        · cases h
        · rename_i ks' hks
          cases h
          obtain ⟨h1, h2⟩ := sortKeys_wf hk.2 hks
          refine ⟨?_, by simp [h2]⟩
          rw [wfL, h1, Bool.and_true]
          unfold sortExpr at hc
          split at hc
          · cases hc
            have hw := hk.1
            rw [plainE, plainK] at hw
            simp only [sortDir, Option.map_eq_some_iff] at hk'
            obtain ⟨d, _, rfl⟩ := hk'
            refine (body_method ⟨by rw [wf]; exact hw, rfl, rfl, fun _ => rfl⟩ ?_ rfl).wf
            split <;> decide +kernel
          · cases hc

theorem sort_keeps {ks : List (Option Str × Expr)} {n : Int} {d : Bool} {s : St} (h : (!ks.isEmpty && ks.all fun k => plainE k.2) = true) :
    Keeps s (sortTr ks n d s) := by
  rw [Bool.and_eq_true] at h
  refine keeps_map (f := fun cs => if n ≠ 0 then .limit (.orderBy s.cur cs) (toU64 n) else .orderBy s.cur cs) fun cs hcs b hb => ?_
  obtain ⟨h1, h2⟩ := sortKeys_wf h.2 hcs
  have ho : Ok b (.orderBy s.cur cs) := by
    refine ok_orderBy hb ?_ h1
    rintro rfl
    cases ks with
    | nil => exact absurd h.1 (by decide)
    | cons k ks => cases h2
  split
  · exact ok_limit ho
  · exact ho

theorem spath_keeps {p i : Str} {o : Option Str} {s : St} (h : (Word p && Word i && word? o) = true) : Keeps s (spathTr p i o s) := by
  simp only [Bool.and_eq_true] at h
  refine keeps_put fun b hb => ok_withColumn hb ?_ ?_
  · cases o with
    | none => exact h.1.1
    | some o => exact h.2
  · refine (body_fn (by decide +kernel) ?_).wf
    have := wf_pyStr (word2 (word_append (a := c!"$.") (by decide) h.1.1))
    rw [wfL, wfL, this, wf, h.1.2]; rfl

theorem where_keeps {m : Mode} {e : Expr} {s : St} (h : plainE e = true) : Keeps s (whereTr m e s) :=
  keeps_map (f := fun c => s.cur.mkWhere c) fun c hc _ hb => ok_where hb (expr_good m e c h hc).wf

theorem tail_keeps {n : Nat} {s : St} : Keeps s (tailTr n s) := keeps_put fun _ hb => ok_tail hb

end Verif.Lemmas
