import Verif.Lemmas.Typed
import Verif.Spec.Program
/-
Translated commands have the type of a data frame.
-/
namespace Verif.Lemmas.Typing
open Verif Verif.Lemmas Verif.Props Verif.Spec

/-! ### statistics -/

theorem makes_stats : ∀ x ∈ statsTable, Makes x.2 := by
  unfold statsTable
  simp only [List.forall_mem_cons, List.not_mem_nil, false_implies, implies_true, and_true]
  repeat' apply And.intro
  all_goals try (exact makes_fn1 (by decide) (by decide +kernel))
  all_goals try (exact makes_one _ _ fun _ hx => colT_fn (hasTys_cons hx (hasTys_cons (hasTy_bool _) rfl)) (by decide) (by decide +kernel))
  · intro vs args ms r hv hm h
    dsimp only at h
    split at h
    · cases h
      exact colT_fn (hasTys_cons (colT_litOf (t := .int) rfl rfl rfl) rfl) (by decide) (by decide +kernel)
    · cases h
      exact colT_fn (hasTys_cons (hm _ (by simp)) rfl) (by decide) (by decide +kernel)
    · cases h
  · exact makes_one _ _ fun _ hx => colT_fn (hasTys_cons hx (hasTys_cons (colT_litOf (t := .float) rfl rfl rfl) rfl)) (by decide) (by decide +kernel)
  · exact makes_one _ _ fun _ hx => colT_fn (hasTys_cons (colT_bin hx (by decide)
      (colT_fn (hasTys_cons hx rfl) (by decide) (by decide +kernel))) rfl) (by decide) (by decide +kernel)
  · exact makes_one _ _ fun _ hx => colT_fn (hasTys_cons (colT_bin hx (by decide) hx) rfl) (by decide) (by decide +kernel)
  · intro vs args ms r hv hm h
    cases h
    exact colT_fn (hasTys_cons (colT_named _) rfl) (by decide) (by decide +kernel)
  · intro vs args ms r hv hm h
    cases h
    exact colT_fn (hasTys_cons (colT_named _) rfl) (by decide) (by decide +kernel)
  · refine makes_one _ _ fun x hx => ?_
    have h1 : ∀ (f : Str) (y : PE), f.contains '.' = false → callable functionSigs f [.col] = true → ColT y → ColT (.fn f [y]) :=
      fun f y hd hc hy => colT_fn (hasTys_cons hy rfl) hd hc
    unfold rateBody
    exact colT_bin (colT_bin (h1 _ _ (by decide) (by decide +kernel) hx) (by decide) (h1 _ _ (by decide) (by decide +kernel) hx)) (by decide)
      (colT_bin (h1 _ _ (by decide) (by decide +kernel) (colT_named _)) (by decide) (h1 _ _ (by decide) (by decide +kernel) (colT_named _)))

theorem percent_decimal (p : Nat) : decimal ⟨false, showNat (p / 100), [digitC (p % 100 / 10), digitC (p % 10)]⟩ = true := by
  have hd : ∀ k : Fin 10, isDig (digitC k.val) = true := by decide
  have h := showNat_ok (p / 100)
  simp only [decimal, Bool.and_eq_true, List.all_cons, List.all_nil, Bool.and_true]
  refine ⟨⟨?_, ?_⟩, ?_, ?_⟩
  · exact h.1
  · simpa using h.2.1
  · exact hd ⟨p % 100 / 10, by omega⟩
  · exact hd ⟨p % 10, by omega⟩

theorem percent_code (p : Nat) : ∃ σ, (σ = .int ∨ σ = .float) ∧ codeHas (percentText p) σ := num_code (percent_decimal p)

theorem makes_percentile {a f n : Str} (hd : f.contains '.' = false)
    (h1 : callable functionSigs f [.col, .int] = true) (h2 : callable functionSigs f [.col, .float] = true) : Makes (percentileSpec a f n) := by
  intro vs args ms r hv hm h
  unfold percentileSpec at h
  dsimp only at h
  split at h
  · simp only [Option.map_eq_some_iff] at h
    obtain ⟨p, _, rfl⟩ := h
    obtain ⟨σ, hσ, hc⟩ := percent_code p
    refine colT_fn (hasTys_cons (hv _ (by simp)) (hasTys_cons (t := σ) (hasTy_codeOf ?_ hc (code_dbl (percent_decimal p))) rfl)) hd ?_
    · rcases hσ with rfl | rfl <;> decide
    · rcases hσ with rfl | rfl
      · exact h1
      · exact h2
  · cases h

theorem makes_spec {n : Str} {f : FnSpec} (h : statsSpec n = some f) : Makes f := by
  unfold statsSpec at h
  split at h
  · rename_i g hg
    cases h
    exact makes_stats _ (lookupFn_mem hg)
  · repeat' split at h
    · cases h; exact makes_percentile (by decide) (by decide +kernel) (by decide +kernel)
    · cases h; exact makes_percentile (by decide) (by decide +kernel) (by decide +kernel)
    · cases h; exact makes_percentile (by decide) (by decide +kernel) (by decide +kernel)
    · cases h

theorem statsFunctions_known : ∀ f ∈ statsFunctions, (lookupFn f statsTable).isSome = true ∨ f ∈ statsUnsupported := by
  have h : (statsFunctions.all fun f => (lookupFn f statsTable).isSome || statsUnsupported.contains f) = true := by decide +kernel
  intro f hf
  simpa using List.all_eq_true.1 h f hf

theorem statsFnBareCol_typed {n : Str} {as : List Arg} {p : PE} (ha : ArgsT as) (hc : okStats n as.length = true)
    (h : statsFnBareCol n as = some p) : TopT p := by
  unfold statsFnBareCol at h
  split at h
  · rename_i f hf
    exact apply_typed (makes_spec hf) ha h
  · rename_i hn
    split at h
    · cases h
    · rename_i hu
      unfold okStats at hc
      simp only [Bool.or_eq_true] at hc
      unfold statsSpec at hn
      rcases hc with (((hc | hc) | hc) | hc) | hc
      · rcases statsFunctions_known n (by simpa using hc) with h1 | h1
        · cases hl : lookupFn n statsTable with
          | none => rw [hl] at h1; cases h1
          | some f => simp [hl] at hn
        · exact absurd h1 hu
      · exfalso
        split at hn
        · cases hn
        · simp [hc] at hn
      · exfalso
        split at hn
        · cases hn
        · simp [hc] at hn
          split at hn <;> cases hn
      · exfalso
        split at hn
        · cases hn
        · simp [hc] at hn
          split at hn
          · cases hn
          · split at hn <;> cases hn
      · exact passThrough_typed ha hc h

theorem maybeAlias_typed {p : PE} (h : TopT p) (a : Option Str) : TopT (p.maybeAlias a) := by
  cases a with
  | none => exact h
  | some n => exact topT_unalias h

/-! ### frames -/

/-- Where a frame is an expression, it has the type. -/
def FrameT (d : DF) (t : Ty) : Prop := ∀ e, progTree d = some ⟨[], e⟩ → typeOf e = some t

theorem onResult_some {p : Option PyProg} {f : PyE → Option PyE} {e : PyE} (h : onResult p f = some ⟨[], e⟩) :
    ∃ s, p = some ⟨[], s⟩ ∧ f s = some e := by
  unfold onResult at h
  split at h
  · cases h
  · rename_i q
    simp only [Option.map_eq_some_iff] at h
    obtain ⟨r, hr, he⟩ := h
    obtain ⟨ss, res⟩ := q
    simp only [PyProg.mk.injEq] at he
    obtain ⟨rfl, rfl⟩ := he
    exact ⟨res, rfl, hr⟩

theorem typeOf_call {e : PyE} {f : Str} {as : List PyE} {o t : Ty} {ts : List Ty} (he : typeOf e = some o) (h : typesOf as = some ts)
    (hc : callType o f ts = some t) : typeOf (mCall e f as) = some t := by
  rw [mCall, typeOf, he, h]
  exact hc

theorem source_typed (n : Str) : FrameT (.source n) .frame := by
  intro e h
  simp only [progTree] at h
  split at h
  · cases h
    exact typeOf_call (o := .session) (ts := [.text]) (by simp [typeOf, nameType]) rfl (by decide +kernel)
  · cases h

theorem default_typed : FrameT DF.default .frame := source_typed _

theorem colTrees_some {cs : List PE} {ts : List PyE} (h : colTrees cs = some ts) : cs ≠ [] ∧ pyTrees cs = some ts := by
  unfold colTrees at h
  split at h
  · cases h
  · rename_i hc
    exact ⟨by simpa using hc, h⟩

theorem typed_tops : ∀ {ps : List PE} {es : List PyE}, (∀ p ∈ ps, TopT p) → pyTrees ps = some es →
    typesOf es = some (List.replicate ps.length .col)
  | [], es, _, h => by cases h; rfl
  | p :: ps, es, hp, h => by
    simp only [pyTrees] at h
    split at h
    · rename_i a b ha hb
      cases h
      exact typesOf_cons (typed_top (hp p (by simp)) ha) (typed_tops (fun q hq => hp q (by simp [hq])) hb)
    · cases h

theorem tail_cols {p : Par} (hp : p.accepts .col = true) : ∀ n, Sig.tail (some p) [] (List.replicate n .col) = true
  | 0 => rfl
  | n + 1 => by
    rw [List.replicate_succ, Sig.tail]
    · simp [hp]
    · simp

theorem select_typed {d : DF} {cs : List PE} (hd : FrameT d .frame) (hc : ∀ c ∈ cs, TopT c) : FrameT (.select d cs) .frame := by
  intro e h
  simp only [progTree] at h
  obtain ⟨s, hs, h⟩ := onResult_some h
  simp only [Option.map_eq_some_iff] at h
  obtain ⟨ts, hts, rfl⟩ := h
  refine typeOf_call (hd s hs) (typed_tops hc (colTrees_some hts).2) ?_
  have : callable frameSigs c!"select" (List.replicate cs.length .col) = true := by
    refine List.any_eq_true.2 ⟨(c!"select", ⟨[], [], some .c⟩), by simp [frameSigs], ?_⟩
    simp only [BEq.rfl, Bool.true_and, Sig.fits]
    exact tail_cols rfl _
  simp only [callType, this, if_true]

theorem orderBy_typed {d : DF} {cs : List PE} (hd : FrameT d .frame) (hc : ∀ c ∈ cs, TopT c) : FrameT (.orderBy d cs) .frame := by
  intro e h
  simp only [progTree] at h
  obtain ⟨s, hs, h⟩ := onResult_some h
  simp only [Option.map_eq_some_iff] at h
  obtain ⟨ts, hts, rfl⟩ := h
  obtain ⟨hne, hts⟩ := colTrees_some hts
  refine typeOf_call (hd s hs) (typed_tops hc hts) ?_
  obtain ⟨c, cs, rfl⟩ := List.exists_cons_of_ne_nil hne
  have : callable frameSigs c!"orderBy" (List.replicate (cs.length + 1) .col) = true := by
    refine List.any_eq_true.2 ⟨(c!"orderBy", ⟨[.c], [], some .c⟩), by simp [frameSigs], ?_⟩
    simp only [BEq.rfl, Bool.true_and, List.replicate_succ, Sig.fits]
    rw [tail_cols rfl]; rfl
  simp only [List.length_cons, callType, this, if_true]

theorem where_typed {d : DF} {c : PE} (hd : FrameT d .frame) (hc : ColT c) : FrameT (.where_ d c) .frame := by
  intro e h
  simp only [progTree] at h
  obtain ⟨s, hs, h⟩ := onResult_some h
  simp only [Option.map_eq_some_iff] at h
  obtain ⟨t, ht, rfl⟩ := h
  exact typeOf_call (hd s hs) (typesOf_cons (typed_tree _ _ _ hc ht) rfl) (by decide +kernel)

theorem mkWhere_typed {d : DF} {c : PE} (hd : FrameT d .frame) (hc : TopT c) : FrameT (d.mkWhere c) .frame := where_typed hd (topT_unalias hc)

theorem withColumn_typed {d : DF} {c : PE} {n : Str} (hd : FrameT d .frame) (hc : TopT c) : FrameT (d.mkWithColumn n c) .frame := by
  intro e h
  simp only [DF.mkWithColumn, progTree] at h
  obtain ⟨s, hs, h⟩ := onResult_some h
  split at h
  · simp only [Option.map_eq_some_iff] at h
    obtain ⟨t, ht, rfl⟩ := h
    exact typeOf_call (hd s hs) (typesOf_cons (t := .text) rfl (typesOf_cons (typed_tree _ _ _ (topT_unalias hc) ht) rfl)) (by decide +kernel)
  · cases h

theorem renamed_typed {d : DF} {o n : Str} (hd : FrameT d .frame) : FrameT (.withColumnRenamed d o n) .frame := by
  intro e h
  simp only [progTree] at h
  obtain ⟨s, hs, h⟩ := onResult_some h
  split at h
  · cases h
    exact typeOf_call (ts := [.text, .text]) (hd s hs) rfl (by decide +kernel)
  · cases h

theorem limit_typed {d : DF} {n : Nat} (hd : FrameT d .frame) : FrameT (.limit d n) .frame := by
  intro e h
  simp only [progTree] at h
  obtain ⟨s, hs, h⟩ := onResult_some h
  cases h
  exact typeOf_call (ts := [.int]) (hd s hs) rfl (by decide +kernel)

theorem tail_typed {d : DF} {n : Nat} (hd : FrameT d .frame) : FrameT (.tail d n) .rows := by
  intro e h
  simp only [progTree] at h
  obtain ⟨s, hs, h⟩ := onResult_some h
  cases h
  exact typeOf_call (ts := [.int]) (hd s hs) rfl (by decide +kernel)

theorem alias_typed {d : DF} {n : Str} (hd : FrameT d .frame) : FrameT (.alias d n) .frame := by
  intro e h
  simp only [progTree] at h
  obtain ⟨s, hs, h⟩ := onResult_some h
  split at h
  · cases h
    exact typeOf_call (ts := [.text]) (hd s hs) rfl (by decide +kernel)
  · cases h

theorem operand_some {p : Option PyProg} {t : PyE} (h : operand p = some t) : p = some ⟨[], t⟩ := by
  unfold operand at h
  split at h
  · cases h; rfl
  · cases h

theorem union_typed {d d' : DF} (hd : FrameT d .frame) (hd' : FrameT d' .frame) : FrameT (.unionByName d d') .frame := by
  intro e h
  simp only [progTree] at h
  obtain ⟨s, hs, h⟩ := onResult_some h
  simp only [Option.map_eq_some_iff] at h
  obtain ⟨t, ht, rfl⟩ := h
  exact typeOf_call (ts := [.frame, .bool]) (hd s hs) (typesOf_cons (hd' t (operand_some ht)) (by decide +kernel)) (by decide +kernel)

theorem join_typed {d d' : DF} {c : PE} {ty : Str} (hd : FrameT d .frame) (hd' : FrameT d' .frame) (hc : TopT c) :
    FrameT (d.mkJoin d' c ty) .frame := by
  intro e h
  simp only [DF.mkJoin, progTree] at h
  obtain ⟨s, hs, h⟩ := onResult_some h
  split at h
  · rename_i t k ht hk _
    cases h
    exact typeOf_call (ts := [.frame, .col, .text]) (hd s hs)
      (typesOf_cons (hd' t (operand_some ht)) (typesOf_cons (typed_tree _ _ _ (topT_unalias hc) hk) rfl)) (by decide +kernel)
  · cases h

theorem fillna_typed {d : DF} {v : Str} (hd : FrameT d .frame) : FrameT (.arbitraryMethod d c!"fillna" [pyStr v]) .frame := by
  intro e h
  simp only [progTree] at h
  obtain ⟨s, hs, h⟩ := onResult_some h
  split at h
  · simp only [Option.map_eq_some_iff] at h
    obtain ⟨ts, hts, rfl⟩ := h
    exact typeOf_call (ts := [.text]) (hd s hs)
      (typed_trees [pyStr v] _ _ (hasTys_cons (hasTy_str v) rfl) (colTrees_some hts).2) (by decide +kernel)
  · cases h

/-- a grouping column -/
def CnT : CN → Prop
  | .col c => ColT c
  | .name _ => True

theorem cns_typed : ∀ {cs : List CN} {es : List PyE}, (∀ c ∈ cs, CnT c) → cnTrees cs = some es →
    ∃ ts, typesOf es = some ts ∧ ts.all Par.c.accepts = true
  | [], es, _, h => by cases h; exact ⟨[], rfl, rfl⟩
  | c :: cs, es, hc, h => by
    simp only [cnTrees] at h
    split at h
    · rename_i a b ha hb
      cases h
      obtain ⟨ts, h1, h2⟩ := cns_typed (fun q hq => hc q (by simp [hq])) hb
      have h0 := hc c (by simp)
      cases c with
      | col p => exact ⟨_, typesOf_cons (typed_tree _ _ _ h0 ha) h1, by simpa [Par.accepts] using h2⟩
      | name n =>
        simp only [cnTree] at ha
        split at ha
        · cases ha
          exact ⟨.text :: ts, typesOf_cons rfl h1, by simpa [Par.accepts] using h2⟩
        · cases ha
    · cases h

theorem stats_typed {d : DF} {ks : List CN} {cs : List PE} (hd : FrameT d .frame) (hk : ∀ k ∈ ks, CnT k) (hc : ∀ c ∈ cs, TopT c) :
    FrameT (.agg (.groupBy d ks) cs) .frame := by
  intro e h
  simp only [progTree] at h
  obtain ⟨g, hg, h⟩ := onResult_some h
  obtain ⟨s, hs, hg⟩ := onResult_some hg
  simp only [Option.map_eq_some_iff] at h hg
  obtain ⟨ts, hts, rfl⟩ := h
  obtain ⟨us, hus, rfl⟩ := hg
  obtain ⟨hne, hts⟩ := colTrees_some hts
  obtain ⟨ty, h1, h2⟩ := cns_typed hk hus
  have hl : typesOf [PyE.list us] = some [.columns] := typesOf_cons (by rw [typeOf, h1]; simp only [h2, if_true]) rfl
  have hgr : typeOf (mCall s c!"groupBy" [.list us]) = some .grouped := typeOf_call (hd s hs) hl (by decide +kernel)
  refine typeOf_call hgr (typed_tops hc hts) ?_
  obtain ⟨c, cs, rfl⟩ := List.exists_cons_of_ne_nil hne
  have : callable [(c!"agg", (⟨[.column], [], some .column⟩ : Sig))] c!"agg" (List.replicate (cs.length + 1) .col) = true := by
    refine List.any_eq_true.2 ⟨_, List.mem_singleton.2 rfl, ?_⟩
    simp only [BEq.rfl, Bool.true_and, List.replicate_succ, Sig.fits]
    rw [tail_cols rfl]; rfl
  simp only [List.length_cons, callType, this, if_true]

theorem byField_typed (f : SpField) : CnT (byField f) := by
  unfold byField
  split
  · trivial
  · exact colT_fn (hasTys_cons (hasTy_str _) (hasTys_cons (hasTy_str _) rfl)) (by decide) (by decide +kernel)

/-! ### commands -/

/-- The state holds a data frame, if anything. -/
def StT (s : St) : Prop := ∀ d, s.df = some d → FrameT d .frame

theorem StT.cur {s : St} (h : StT s) : FrameT s.cur .frame := by
  unfold St.cur
  cases hd : s.df with
  | none => exact default_typed
  | some d => exact h d hd

theorem put_typed {s : St} {d : DF} (h : FrameT d .frame) : StT (s.put d) := by
  intro d' hd'
  cases hd'
  exact h

theorem evalLoop_typed : ∀ {as : List (Str × Expr)} {d d' : DF}, as.all (fun a => okExpr a.2) = true → FrameT d .frame →
    evalLoop .disallow as d = some d' → FrameT d' .frame
  | [], d, d', _, hd, h => by cases h; exact hd
  | (n, e) :: as, d, d', ho, hd, h => by
    rw [List.all_cons, Bool.and_eq_true] at ho
    rw [evalLoop] at h
    split at h
    · cases h
    · rename_i c hc
      split at h
      · exact evalLoop_typed ho.2 (withColumn_typed hd (exprTr_typed e c ho.1 hc)) h
      · cases h

theorem convertFn_typed {t : Str} {c : FieldConversion} {p : PE} (ho : okConversion c.func = true) (h : convertFn t c = some p) : TopT p := by
  have hn : ColT (.named c.field) := colT_named _
  unfold convertFn at h
  dsimp only at h
  by_cases h1 : c.func = c!"ctime"
  · rw [if_pos h1] at h
    simp only [ctimeFn, Option.map_eq_some_iff] at h
    obtain ⟨f, _, rfl⟩ := h
    exact topT_of (colT_fn (hasTys_cons hn (hasTys_cons (hasTy_str _) rfl)) (by decide) (by decide +kernel))
  rw [if_neg h1] at h
  by_cases h2 : c.func = c!"memk"
  · rw [if_pos h2] at h; cases h; exact topT_of (memk_typed hn)
  rw [if_neg h2] at h
  by_cases h3 : c.func = c!"rmunit"
  · rw [if_pos h3] at h; cases h; exact topT_of (rmunit_typed hn)
  rw [if_neg h3] at h
  by_cases h4 : c.func = c!"rmcomma"
  · rw [if_pos h4] at h; cases h; exact topT_of (rmcomma_typed hn)
  rw [if_neg h4] at h
  cases h
  have ho' : (callable functionSigs c.func [.col] && !c.func.contains '.') = true := by
    unfold okConversion at ho
    simpa [h1, h2, h3, h4] using ho
  simp only [Bool.and_eq_true, Bool.not_eq_true'] at ho'
  exact colT_fn (hasTys_cons hn rfl) ho'.2 ho'.1

theorem convertLoop_typed {t : Str} : ∀ {cs : List FieldConversion} {d d' : DF}, cs.all (fun c => okConversion c.func) = true →
    FrameT d .frame → convertLoop t cs d = some d' → FrameT d' .frame
  | [], d, d', _, hd, h => by cases h; exact hd
  | c :: cs, d, d', ho, hd, h => by
    rw [List.all_cons, Bool.and_eq_true] at ho
    rw [convertLoop] at h
    split at h
    · cases h
    · rename_i e he
      exact convertLoop_typed ho.2 (withColumn_typed hd (convertFn_typed ho.1 he)) h

theorem okStat_call : ∀ {e : Expr} {f : Str} {args : List Expr} {a : Option Str}, okStat e = true → Expr.unaliasName e = (.call f args, a) →
    okStats f args.length = true ∧ okExprs args = true
  | .alias e n, f, args, a, ho, h => by
    rw [okStat] at ho
    rw [Expr.unaliasName] at h
    simp only [Prod.mk.injEq] at h
    exact okStat_call (a := (Expr.unaliasName e).2) ho (Prod.ext h.1 rfl)
  | .call g as, f, args, a, ho, h => by
    simp only [Expr.unaliasName, Prod.mk.injEq, Expr.call.injEq] at h
    obtain ⟨⟨rfl, rfl⟩, _⟩ := h
    simpa [okStat] using ho
  | .aliasedField .., f, args, a, ho, h => by simp [Expr.unaliasName] at h
  | .const .., f, args, a, ho, h => by simp [Expr.unaliasName] at h
  | .fv .., f, args, a, ho, h => by simp [Expr.unaliasName] at h
  | .fb .., f, args, a, ho, h => by simp [Expr.unaliasName] at h
  | .fc .., f, args, a, ho, h => by simp [Expr.unaliasName] at h
  | .binary .., f, args, a, ho, h => by simp [Expr.unaliasName] at h
  | .unary .., f, args, a, ho, h => by simp [Expr.unaliasName] at h
  | .fieldIn .., f, args, a, ho, h => by simp [Expr.unaliasName] at h
  | .timeModifier .., f, args, a, ho, h => by simp [Expr.unaliasName] at h
  | .searchModifier .., f, args, a, ho, h => by simp [Expr.unaliasName] at h
  | .subSearch .., f, args, a, ho, h => by simp [Expr.unaliasName] at h

theorem statsExpr_typed {d d' : DF} {e : Expr} {c : PE} (ho : okStat e = true) (hd : FrameT d .frame)
    (h : statsExpr .disallow d e = some (d', c)) : FrameT d' .frame ∧ TopT c := by
  unfold statsExpr at h
  split at h
  · rename_i f args a hu
    obtain ⟨h1, h2⟩ := okStat_call ho hu
    simp only [statsFn, statsFnBare, Option.map_map, Option.map_eq_some_iff] at h
    obtain ⟨p, hp, he⟩ := h
    simp only [Function.comp, Prod.mk.injEq] at he
    obtain ⟨rfl, rfl⟩ := he
    have hp' := statsFnBareCol_typed (argsTr_typed args h2) (by rw [argsTr_length]; exact h1) hp
    refine ⟨?_, maybeAlias_typed hp' a⟩
    split
    · refine orderBy_typed hd (fun c hc => ?_)
      rw [List.mem_singleton.1 hc]
      exact topT_of (colT_method (colT_named _) rfl (by decide +kernel))
    · exact hd
  · cases h

theorem statsLoop_typed : ∀ {es : List Expr} {d d' : DF} {cs : List PE}, es.all okStat = true → FrameT d .frame →
    statsLoop .disallow es d = some (d', cs) → FrameT d' .frame ∧ ∀ c ∈ cs, TopT c
  | [], d, d', cs, _, hd, h => by cases h; exact ⟨hd, by simp⟩
  | e :: es, d, d', cs, ho, hd, h => by
    rw [List.all_cons, Bool.and_eq_true] at ho
    rw [statsLoop] at h
    split at h
    · cases h
    · rename_i d1 c h1
      split at h
      · cases h
      · rename_i d2 cs2 h2
        cases h
        obtain ⟨h3, h4⟩ := statsExpr_typed ho.1 hd h1
        obtain ⟨h5, h6⟩ := statsLoop_typed ho.2 h3 h2
        refine ⟨h5, fun x hx => ?_⟩
        rcases List.mem_cons.mp hx with rfl | hx
        · exact h4
        · exact h6 x hx

theorem split_ok : ∀ {b : Bool} {e : Expr} {c : Option Expr} {is : List Str}, okExpr e = true → splitConditions b e = some (c, is) →
    ∀ c', c = some c' → okExpr c' = true
  | b, .binary l op r, c, is, ho, h => by
    intro c' hc'
    subst hc'
    rw [splitConditions] at h
    split at h
    · split at h
      · simp only [Option.map_eq_some_iff] at h; obtain ⟨_, _, h⟩ := h; cases h
      · cases h
    split at h
    · split at h
      · simp only [Option.map_eq_some_iff] at h; obtain ⟨_, _, h⟩ := h; cases h
      · cases h
    split at h
    · cases h
    dsimp only at h
    split at h
    · cases h
    rename_i l' is' hl
    split at h
    · cases h
    · rename_i r' js hr
      simp only [Option.map_eq_some_iff] at h
      obtain ⟨x, hx, he⟩ := h
      simp only [Prod.mk.injEq] at he
      obtain ⟨rfl, _⟩ := he
      simp only [okExpr, Bool.and_eq_true] at ho
      have hl' := split_ok ho.1.2 hl
      have hr' := split_ok ho.2 hr
      unfold recombine at hx
      split at hx
      · cases hx
      · split at hx
        · cases hx; exact hl' _ rfl
        · cases hx
      · split at hx
        · cases hx; exact hr' _ rfl
        · cases hx
      · cases hx
        simp only [okExpr, Bool.and_eq_true]
        exact ⟨⟨ho.1.1, hl' _ rfl⟩, hr' _ rfl⟩
  | b, .const .., c, is, ho, h | b, .fv .., c, is, ho, h | b, .fb .., c, is, ho, h | b, .fc .., c, is, ho, h
  | b, .aliasedField .., c, is, ho, h | b, .unary .., c, is, ho, h | b, .call .., c, is, ho, h | b, .fieldIn .., c, is, ho, h
  | b, .alias .., c, is, ho, h | b, .timeModifier .., c, is, ho, h | b, .searchModifier .., c, is, ho, h | b, .subSearch .., c, is, ho, h => by
    intro c' hc'
    simp only [splitConditions, Option.some.injEq, Prod.mk.injEq] at h
    obtain ⟨rfl, _⟩ := h
    cases hc'
    exact ho

theorem unions_typed : ∀ {xs : List Str} {d : DF}, FrameT d .frame → FrameT (xs.foldl (fun d n => .unionByName d (.source n)) d) .frame
  | [], d, hd => hd
  | x :: xs, d, hd => unions_typed (xs := xs) (d := .unionByName d (.source x)) (union_typed hd (source_typed x))

theorem search_typed {x : Ext} {e : Expr} {s s' : St} (ho : okExpr e = true) (hs : StT s)
    (h : searchStandalone ⟨.disallow, x⟩ e s = some s') : StT s' := by
  unfold searchStandalone at h
  split at h
  · cases h
  · rename_i cond is hsp
    have hd : FrameT ((unionSources (x.order (dedupStr is))).getD s.cur) .frame := by
      cases x.order (dedupStr is) with
      | nil => exact hs.cur
      | cons y ys => exact unions_typed (source_typed y)
    dsimp only at h
    split at h
    · cases h; exact put_typed hd
    · rename_i c
      simp only [Option.map_eq_some_iff] at h
      obtain ⟨p, hp, rfl⟩ := h
      exact put_typed (where_typed hd (intoSearch_typed (exprTr_typed c p (split_ok ho hsp c rfl) hp)))

theorem groups_typed {c : Rex} : ∀ {gs : List (Nat × Option Str)} {d : DF}, FrameT d .frame → FrameT (gs.foldl (rexCol c) d) .frame
  | [], d, hd => hd
  | g :: gs, d, hd => by
    have h1 : ColT (.fn c!"regexp_extract" [.named c.field, pyRaw c.regex, pyInt g.1]) :=
      colT_fn (hasTys_cons (colT_named _) (hasTys_cons (hasTy_raw _) (hasTys_cons (hasTy_int _) rfl))) (by decide) (by decide +kernel)
    exact groups_typed (gs := gs) (d := rexCol c d g) (withColumn_typed hd (topT_of h1))

theorem sortKeys_typed {b : Bool} : ∀ {ks : List (Option Str × Expr)} {cs : List PE}, sortKeys b ks = some cs → ∀ c ∈ cs, TopT c
  | [], cs, h => by cases h; simp
  | (g, e) :: ks, cs, h => by
    rw [sortKeys] at h
    split at h
    · cases h
    · rename_i c hc
      split at h
      · cases h
      · rename_i k hk
        split at h
        · cases h
        · rename_i cs' hcs
          cases h
          intro x hx
          rcases List.mem_cons.mp hx with rfl | hx
          · have hcn : ColT c := by
              unfold sortExpr at hc
              split at hc
              · cases hc; exact colT_named _
              · cases hc
            unfold sortDir at hk
            simp only [Option.map_eq_some_iff] at hk
            obtain ⟨d, _, rfl⟩ := hk
            cases d
            · exact topT_of (colT_method hcn rfl (by decide +kernel))
            · exact topT_of (colT_method hcn rfl (by decide +kernel))
          · exact sortKeys_typed hcs x hx

theorem renames_typed : ∀ {as : List (Str × Str)} {d : DF}, FrameT d .frame → FrameT (as.foldl (fun d a => .withColumnRenamed d a.1 a.2) d) .frame
  | [], d, hd => hd
  | a :: as, d, hd => renames_typed (as := as) (d := .withColumnRenamed d a.1 a.2) (renamed_typed hd)

theorem total_typed (n : Str) : ColT (addTotalsCol n) := by
  unfold addTotalsCol
  refine colT_method (colT_fn (hasTys_cons (t := .col) ?_ (hasTys_cons (colT_named n) rfl)) (by decide) (by decide +kernel))
    (hasTys_cons (colT_litOf (t := .float) rfl rfl rfl) rfl) (by decide +kernel)
  exact colT_method (colT_method (colT_named n) (hasTys_cons (hasTy_str _) rfl) (by decide +kernel)) rfl (by decide +kernel)

theorem range_typed (n : Int) : FrameT (.rawSource (c!"spark.range(0, " ++ showInt n ++ c!", 1)")) .frame := by
  intro e h
  simp only [progTree, Option.map_eq_some_iff] at h
  obtain ⟨t, ht, he⟩ := h
  cases he
  have hk : ((c!"spark.range(0, " ++ showInt n ++ c!", 1)").drop 15).take ((c!"spark.range(0, " ++ showInt n ++ c!", 1)").length - 19) = showInt n := by
    rw [List.append_assoc, List.drop_append_of_le_length (by decide)]
    simp
  unfold rangeTree at ht
  dsimp only at ht
  rw [hk, if_pos rfl] at ht
  simp only [Option.map_eq_some_iff] at ht
  obtain ⟨v, hv, rfl⟩ := ht
  exact typeOf_call (o := .session) (ts := [.int, .int, .int]) (by simp [typeOf, nameType])
    (typesOf_cons rfl (typesOf_cons (int_code n v hv) rfl)) (by decide +kernel)

theorem joinKeys_typed {fs : List Str} : ∀ p ∈ fs.map joinKey, ColT p := by
  intro p hp
  obtain ⟨f, _, rfl⟩ := List.mem_map.1 hp
  exact colT_bin (colT_named _) (by decide) (colT_named _)

theorem joinTime_typed {u e : Bool} {c : PE} (hc : ColT c) : ColT (joinTime u e c) := by
  unfold joinTime
  split
  · refine colT_bin hc (by decide) (colT_bin (colT_named _) ?_ (colT_named _))
    cases e <;> decide
  · exact hc

theorem dataModel_typed {c : DataModel} {s s' : St} (hs : StT s) (h : dataModelStandalone c s = some s') : StT s' := by
  unfold dataModelStandalone at h
  split at h
  · split at h
    · rename_i hd _ _
      cases h
      exact put_typed (hs _ hd)
    · simp only [Option.map_eq_some_iff] at h
      obtain ⟨t, _, rfl⟩ := h
      exact put_typed (source_typed t)
    · cases h
  · cases h

end Verif.Lemmas.Typing
