import Verif.Props.Runtime
import Verif.Lemmas.Clean
/-
C45: aliases.
-/
namespace Verif.Props
open Verif Verif.Lemmas

mutual
/-- the functions called anywhere in an expression that is translated -/
def callNames : Expr → List Str
  | .binary l _ r => callNames l ++ callNames r
  | .unary _ r => callNames r
  | .call n args => n :: callNamesL args
  | _ => []

/-- the functions called in the arguments -/
def callNamesL : List Expr → List Str
  | [] => []
  | e :: es => callNames e ++ callNamesL es
end

section
variable {ok : Str → Bool} (hok : ∀ g, (c!"functions.").isPrefixOf g = false → ok g = true)
variable {m : Mode} (hm : m ≠ .disallow → ∀ g, ok g = true)
include hok

theorem binTr_clean {l s r a b p} (ha : ∀ x, a = some x → topClean ok x = true)
    (hb : ∀ x, b = some x → topClean ok x = true) (h : binTr l s r a b = some p) :
    clean ok p = true := by
  have hg : ∀ op, generalBin a op b = some p → clean ok p = true := by
    intro op h
    unfold generalBin at h
    split at h
    · simp only [Option.some.injEq] at h; subst h
      simp only [PE.mkBin, clean, Bool.and_eq_true]
      exact ⟨clean_unalias_of_top (ha _ rfl), clean_unalias_of_top (hb _ rfl)⟩
    · simp at h
  have hl : ∀ x q, topClean ok x = true → clean ok (likeTest x q) = true := by
    intro x q hx
    simp [likeTest, PE.mkMethod, clean, clean_unalias_of_top hx, cleanL, pyStr]
  have hw : ∀ op q, wildcardTr a op q = some p → clean ok p = true := by
    intro op q h
    unfold wildcardTr at h
    split at h
    · simp at h
    · repeat' split at h
      · simp only [Option.some.injEq] at h; subst h; exact hl _ _ (ha _ rfl)
      · simp only [Option.some.injEq] at h; subst h; exact hl _ _ (ha _ rfl)
      · simp only [Option.some.injEq] at h; subst h; exact clean_mkNot (hl _ _ (ha _ rfl))
      · simp at h
  unfold binTr at h
  split at h
  · exact hw _ _ h
  · split at h
    · split at h
      · simp only [Option.some.injEq] at h; subst h
        simp [clean, cleanL, pyStr, hok c!"expr" rfl]
      · exact hg _ h
    · exact hg _ h
  · exact hg _ h

omit hok in
theorem fieldInCheck_clean {f e p} (h : fieldInCheck f e = some p) : clean ok p = true := by
  unfold fieldInCheck at h
  repeat' split at h
  all_goals first
    | (simp only [Option.some.injEq] at h; subst h
       first
         | exact clean_mkMethod (by rfl) (by rfl)
         | exact clean_mkBin (by rfl) (by rfl))
    | simp at h

omit hok in
theorem fieldInChecks_clean {f es ps} (h : fieldInChecks f es = some ps) : cleanL ok ps = true := by
  induction es generalizing ps with
  | nil => simp only [fieldInChecks, Option.some.injEq] at h; subst h; simp [cleanL]
  | cons e es ih =>
    rw [fieldInChecks] at h
    repeat' split at h
    · simp at h
    · simp at h
    · rename_i _ c hc _ cs hcs
      simp only [Option.some.injEq] at h; subst h
      simp [cleanL, fieldInCheck_clean hc, ih hcs]

omit hok in
theorem joinBinFrom_clean {op : Str} : ∀ {ps : List PE} {x : PE}, clean ok x = true → cleanL ok ps = true →
    clean ok (joinBinFrom op x ps) = true := by
  intro ps
  induction ps with
  | nil => intro x hx _; simpa [joinBinFrom] using hx
  | cons p ps ih =>
    intro x hx hp
    rw [joinBinFrom]
    simp only [cleanL, Bool.and_eq_true] at hp
    exact ih (by simp [clean, hx, hp.1]) hp.2

omit hok in
theorem fieldInTr_clean {f es p} (h : fieldInTr f es = some p) : clean ok p = true := by
  simp only [fieldInTr, Option.map_eq_some_iff] at h
  obtain ⟨cs, hcs, rfl⟩ := h
  have := fieldInChecks_clean (ok := ok) hcs
  cases cs with
  | nil => rfl
  | cons c cs =>
    simp only [cleanL, Bool.and_eq_true] at this
    simpa only [joinAsBinaries, Option.getD_some] using joinBinFrom_clean this.1 this.2

omit hok in
theorem passThrough_clean {n : Str} {as : List Arg} {p : PE} (hn : ok n = true) (ha : ArgsClean ok as)
    (h : passThrough n as = some p) : topClean ok p = true := by
  simp only [passThrough, Option.map_eq_some_iff] at h
  obtain ⟨xs, hxs, rfl⟩ := h
  simp [topClean, PE.isCol, clean, hn, (mapArgs_clean ha hxs).1]

theorem evalFnBare_clean {n : Str} {as : List Arg} {p : PE} (hn : ok n = true) (ha : ArgsClean ok as)
    (h : evalFnBare n as = some p) : topClean ok p = true := by
  unfold evalFnBare at h
  split at h
  · rename_i f hf
    obtain ⟨c, rfl, h1, h2⟩ := apply_clean (cleans_eval _ (lookupFn_mem hf) ok hok) ha h
    simp [topClean, h1, h2]
  · split at h
    · simp at h
    · exact passThrough_clean hn ha h

omit hok in
theorem evalFnRuntime_clean {n : Str} {as : List Arg} {p : PE} (hall : ∀ g, ok g = true) (ha : ArgsClean ok as)
    (h : evalFnRuntime n as = some p) : topClean ok p = true := by
  unfold evalFnRuntime at h
  split at h
  · obtain ⟨c, rfl, h1, h2⟩ := apply_clean (f := cidrmatchRuntime) (ok := ok) (fun vs args ms r hv hm hc h => by
      unfold cidrmatchRuntime at h
      dsimp only at h
      split at h
      · simp only [Option.some.injEq] at h; subst h
        have := hv _ (List.mem_cons_of_mem _ (List.mem_singleton.mpr rfl))
        simp [PE.isCol, clean, cleanL, pyStr, this, hall]
      · simp at h) ha h
    simp [topClean, h1, h2]
  · simp only [Option.map_eq_some_iff] at h
    obtain ⟨xs, hxs, rfl⟩ := h
    simp [topClean, clean, hall, (mapArgs_clean ha hxs).1]

include hm

theorem evalFn_clean {n : Str} {as : List Arg} {p : PE} (hn : ok n = true) (ha : ArgsClean ok as)
    (h : evalFn m n as = some p) : topClean ok p = true := by
  cases m with
  | disallow => exact evalFnBare_clean hok hn ha h
  | require => exact evalFnRuntime_clean (hm (by simp)) ha h
  | allow =>
    simp only [evalFn, orElse] at h
    split at h
    · rename_i x hx
      simp only [Option.some.injEq] at h; subst h
      exact evalFnRuntime_clean (hm (by simp)) ha hx
    · exact evalFnBare_clean hok hn ha h

mutual
theorem exprTr_topClean : ∀ (e : Expr) (p : PE), (∀ n ∈ callNames e, ok n = true) → exprTr m e = some p →
    topClean ok p = true := by
  intro e p hn h
  match e with
  | .binary l s r =>
    rw [exprTr] at h
    rw [callNames] at hn
    exact topClean_of_clean (binTr_clean hok
      (fun x hx => exprTr_topClean l x (fun n h => hn n (List.mem_append_left _ h)) hx)
      (fun x hx => exprTr_topClean r x (fun n h => hn n (List.mem_append_right _ h)) hx) h)
  | .unary s r =>
    rw [exprTr] at h
    rw [callNames] at hn
    split at h
    · simp only [Option.map_eq_some_iff] at h
      obtain ⟨o, ho, rfl⟩ := h
      have := clean_unalias_of_top (exprTr_topClean r o hn ho)
      simpa [PE.mkNot, topClean, clean] using this
    · simp at h
  | .const k =>
    rw [exprTr] at h
    unfold constTr at h
    split at h
    all_goals first
      | (simp only [Option.some.injEq] at h; subst h; rfl)
      | simp at h
  | .fieldIn f es => rw [exprTr] at h; exact topClean_of_clean (fieldInTr_clean h)
  | .call n args =>
    rw [exprTr] at h
    rw [callNames] at hn
    exact evalFn_clean hok hm (hn n (by simp))
      (argsTr_clean args fun n h => hn n (List.mem_cons_of_mem _ h)) h
  | .fv .. | .fb .. | .fc .. | .alias .. | .aliasedField .. | .searchModifier .. | .subSearch ..
  | .timeModifier .. => simp [exprTr] at h

theorem argsTr_clean : ∀ (es : List Expr), (∀ n ∈ callNamesL es, ok n = true) → ArgsClean ok (argsTr m es) := by
  intro es hn
  match es with
  | [] => simp [argsTr, ArgsClean]
  | e :: es =>
    rw [argsTr]
    rw [callNamesL] at hn
    intro a ha x hx
    rcases List.mem_cons.mp ha with rfl | ha
    · simp only [Option.map_eq_some_iff] at hx
      obtain ⟨o, ho, rfl⟩ := hx
      have ht := exprTr_topClean e o (fun n h => hn n (List.mem_append_left _ h)) ho
      refine ⟨clean_unalias_of_top ht, ?_⟩
      have hc := exprTr_isCol ho
      cases o with
      | aliased c n =>
        have : (c.isCol && clean ok c) = true := ht
        cases c <;> simp_all [PE.unalias, PE.isCol, clean]
      | _ => simpa [PE.unalias] using hc
    · exact argsTr_clean es (fun n h => hn n (List.mem_append_right _ h)) a ha x hx
end
end

/-! ### C45 -/

mutual
/-- how many aliases occur in a column -/
def aliasCount : PE → Nat
  | .named _ | .lit _ | .py _ => 0
  | .method c _ args => aliasCount c + aliasCountL args
  | .fn _ args => aliasCountL args
  | .aliased c _ => aliasCount c + 1
  | .bin _ l r => aliasCount l + aliasCount r
  | .not r => aliasCount r

/-- how many aliases occur in a list of columns -/
def aliasCountL : List PE → Nat
  | [] => 0
  | e :: es => aliasCount e + aliasCountL es
end

mutual
theorem clean_aliasCount (ok : Str → Bool) : ∀ e, clean ok e = true → aliasCount e = 0
  | .named _, _ | .lit _, _ | .py _, _ => by simp [aliasCount]
  | .method c _ args, h => by
    simp only [clean, Bool.and_eq_true] at h
    simp [aliasCount, clean_aliasCount ok c h.1, clean_aliasCountL ok args h.2]
  | .fn _ args, h => by
    simp only [clean, Bool.and_eq_true] at h
    simp [aliasCount, clean_aliasCountL ok args h.2]
  | .aliased c _, h => by simp [clean] at h
  | .bin _ l r, h => by
    simp only [clean, Bool.and_eq_true] at h
    simp [aliasCount, clean_aliasCount ok l h.1, clean_aliasCount ok r h.2]
  | .not r, h => by simp only [clean] at h; simp [aliasCount, clean_aliasCount ok r h]

theorem clean_aliasCountL (ok : Str → Bool) : ∀ es, cleanL ok es = true → aliasCountL es = 0
  | [], _ => by simp [aliasCountL]
  | e :: es, h => by
    simp only [cleanL, Bool.and_eq_true] at h
    simp [aliasCountL, clean_aliasCount ok e h.1, clean_aliasCountL ok es h.2]
end

/-- **C45** The translation of an expression is either free of aliases, or an alias-free column
under one alias: no alias ever occurs below the top, in any mode. -/
theorem C45_alias_only_on_top (m : Mode) (e : Expr) (p : PE) (h : exprTr m e = some p) :
    aliasCount p = 0 ∨ ∃ c n, p = .aliased c n ∧ aliasCount c = 0 := by
  have ht := exprTr_topClean (ok := fun _ => true) (fun _ _ => rfl) (m := m) (fun _ _ => rfl) e p (fun _ _ => rfl) h
  cases p with
  | aliased c n =>
    have : (c.isCol && clean (fun _ => true) c) = true := ht
    rw [Bool.and_eq_true] at this
    exact .inr ⟨c, n, rfl, clean_aliasCount _ c this.2⟩
  | _ => exact .inl (clean_aliasCount (fun _ => true) _ ht)

/-- **C45** What is put under an operator, into a filter or into an assignment (always through
`unalias`) carries no alias at all. -/
theorem C45_operands_unaliased (m : Mode) (e : Expr) (p : PE) (h : exprTr m e = some p) :
    aliasCount p.unalias = 0 := by
  have ht := exprTr_topClean (ok := fun _ => true) (fun _ _ => rfl) (m := m) (fun _ _ => rfl) e p (fun _ _ => rfl) h
  exact clean_aliasCount (fun _ => true) _ (clean_unalias_of_top ht)

/-- **C45** A filter and an assignment contain no alias. -/
theorem C45_statements_unaliased (m : Mode) (e : Expr) (p : PE) (d : DF) (n : Str) (h : exprTr m e = some p) :
    (∃ c, d.mkWhere p = .where_ d c ∧ aliasCount c = 0) ∧
    (∃ c, d.mkWithColumn n p = .withColumn d c n ∧ aliasCount c = 0) :=
  ⟨⟨_, rfl, C45_operands_unaliased m e p h⟩, ⟨_, rfl, C45_operands_unaliased m e p h⟩⟩

/-- **C45** Stripping aliases is idempotent. -/
theorem C45_strip_idempotent : ∀ p : PE, p.unalias.unalias = p.unalias
  | .aliased (.py _) _ => rfl
  | .aliased (.named _) _ | .aliased (.lit _) _ | .aliased (.method ..) _ | .aliased (.fn ..) _
  | .aliased (.bin ..) _ | .aliased (.not _) _ => rfl
  | .aliased (.aliased c n) k => by
    have := C45_strip_idempotent (.aliased c n)
    simpa [PE.unalias] using this
  | .named _ | .lit _ | .method .. | .fn .. | .bin .. | .not _ | .py _ => rfl

/-- **C45** Re-aliasing replaces the name: the last alias given is the one that counts. -/
theorem C45_realias (m : Mode) (e : Expr) (p : PE) (a b : Str) (h : exprTr m e = some p) :
    (p.withAlias a).withAlias b = p.withAlias b ∧ (p.withAlias b).aliasName = some b := by
  refine ⟨?_, rfl⟩
  have ht := exprTr_topClean (ok := fun _ => true) (fun _ _ => rfl) (m := m) (fun _ _ => rfl) e p (fun _ _ => rfl) h
  have hc : clean (fun _ => true) p.unalias = true := clean_unalias_of_top ht
  have h0 := exprTr_isCol h
  simp only [PE.withAlias]
  have hcol : p.unalias.isCol = true := by
    cases p with
    | aliased c n =>
      have : (c.isCol && clean (fun _ => true) c) = true := ht
      cases c <;> simp_all [PE.unalias, PE.isCol, clean]
    | _ => simpa [PE.unalias] using h0
  generalize p.unalias = q at hc hcol
  cases q <;> first | rfl | (simp [clean] at hc; done) | (simp [PE.isCol] at hcol)

/-- the name a call carries: its own, except for six functions that carry the name of another one -/
def callName (f : Str) : Str :=
  if f = c!"rmunit" ∨ f = c!"rmcomma" then c!"memk"
  else if f = c!"bit_xor" then c!"bit_or"
  else if f = c!"bit_shift_left" ∨ f = c!"bit_shift_right" then c!"bit_not"
  else if f = c!"relative_time" then c!"now"
  else f

/-- **C45** A translated call carries the name of the function called (`callName`). -/
theorem C45_call_name (f : Str) (args : List Expr) (p : PE) (h : exprTr .disallow (.call f args) = some p) :
    ∃ q, p = .aliased q (callName f) := by
  have key : (evalTable.all fun x => x.2.alias == callName x.1) = true := by decide +kernel
  have key2 : ((evalTable.map Prod.fst).all fun f => (lookupFn f evalTable).isSome) = true := by decide +kernel
  simp only [exprTr, evalFn, evalFnBare] at h
  split at h
  · rename_i g hg
    have := List.all_eq_true.1 key _ (Lemmas.lookupFn_mem hg)
    simp only [beq_iff_eq] at this
    rw [← this]
    unfold FnSpec.apply at h
    split at h
    · cases h
    · simp only [Option.map_eq_some_iff] at h
      obtain ⟨o, _, rfl⟩ := h
      exact ⟨_, rfl⟩
  · rename_i hn
    split at h
    · cases h
    · simp only [passThrough, Option.map_eq_some_iff] at h
      obtain ⟨xs, _, rfl⟩ := h
      have hk : callName f = f := by
        have no : ∀ g ∈ evalTable.map Prod.fst, f ≠ g := by
          rintro g hg rfl
          have := List.all_eq_true.1 key2 _ hg
          rw [hn] at this
          cases this
        unfold callName
        rw [if_neg, if_neg, if_neg, if_neg]
        · exact no _ (by decide +kernel)
        · rintro (h | h) <;> exact no _ (by decide +kernel) h
        · exact no _ (by decide +kernel)
        · rintro (h | h) <;> exact no _ (by decide +kernel) h
      exact ⟨_, by rw [hk]⟩

/-- `bit_xor` carries the name of `bit_or`. -/
example : exprTr .disallow (.call c!"bit_xor" [.const (.field c!"x"), .const (.field c!"y")]) =
    some (.aliased (.method (.named c!"x") c!"bitwiseXOR" [.named c!"y"]) c!"bit_or") := rfl

/-- `len(lower(x))`: the inner alias disappears, the outer one is `len`. -/
example : exprTr .disallow (.call c!"len" [.call c!"lower" [.const (.field c!"x")]]) =
    some (.aliased (.fn c!"length" [.fn c!"lower" [.named c!"x"]]) c!"len") := rfl

end Verif.Props
