import Verif.Lemmas.Texts
/-
Where the names and texts of a parsed query come from: the grammar.
-/
namespace Verif.Spl
open Verif Verif.Spec P Lex

variable {K : Prov}

abbrev tE (K : Prov) : Expr → Prop := textsE K.N K.T
abbrev tC (K : Prov) : Command → Prop := textsC K.N K.T
abbrev tP (K : Prov) : Pipeline → Prop := textsP K.N K.T

/-- what the result of each recursive parser satisfies -/
def tN (K : Prov) : (n : NT) → n.ty → Prop
  | .cmd => tC K
  | .pipe => tP K
  | .e3 | .e4 | .e5 | .e6 | .e7 | .e8 | .e9n | .e9w | .lexpr | .lterm => tE K

theorem tEs_of {es : List Expr} (h : ∀ e ∈ es, tE K e) : textsEs K.N K.T es := by
  induction es with
  | nil => simp [textsEs]
  | cons e es ih => exact ⟨h e (by simp), ih fun x hx => h x (by simp [hx])⟩

theorem tAs_of {es : List (Str × Expr)} (h : ∀ e ∈ es, K.N e.1 ∧ tE K e.2) : textsAs K.N K.T es := by
  induction es with
  | nil => simp [textsAs]
  | cons e es ih => exact ⟨(h e (by simp)).1, (h e (by simp)).2, ih fun x hx => h x (by simp [hx])⟩

theorem tKs_of {es : List (Option Str × Expr)} (h : ∀ e ∈ es, optS K.T e.1 ∧ tE K e.2) : textsKs K.N K.T es := by
  induction es with
  | nil => simp [textsKs]
  | cons e es ih => exact ⟨(h e (by simp)).1, (h e (by simp)).2, ih fun x hx => h x (by simp [hx])⟩

theorem tP_of {cs : List Command} (h : ∀ c ∈ cs, tC K c) : tP K cs := by
  induction cs with
  | nil => simp [textsP]
  | cons e es ih => exact ⟨h e (by simp), ih fun x hx => h x (by simp [hx])⟩

theorem tPs_of {ps : List (List Command)} (h : ∀ p ∈ ps, tP K p) : textsPs K.N K.T ps := by
  induction ps with
  | nil => simp [textsPs]
  | cons e es ih => exact ⟨h e (by simp), ih fun x hx => h x (by simp [hx])⟩

variable {ρ : Rec}

theorem binLevel_from {lower : G true Expr} {op : G true Str} {same : P Rec false false Expr}
    (hl : lower.From K ρ (tE K)) (ho : op.From K ρ K.T) (hs : same.From K ρ (tE K)) :
    (binLevel lower op same).From K ρ (tE K) := by
  apply From.map
  refine (From.seq hl (From.opt (From.seq ho hs))).mono ?_
  rintro ⟨l, o⟩ ⟨h1, h2⟩
  cases o with
  | none => exact h1
  | some x => have := h2 x rfl; exact ⟨this.1, h1, this.2⟩

theorem fieldInExpr_from : fieldInExpr.From K ρ (tE K) := by
  apply From.map
  refine (From.lift fieldIn_from).mono fun x hx => ⟨hx.1, tEs_of ?_⟩
  intro e he
  simp only [List.mem_map] at he
  obtain ⟨k, hk, rfl⟩ := he
  exact hx.2 k hk

theorem combine_texts {sym : Str} (hs : K.T sym) : ∀ (es : List Expr) (e : Expr), tE K e → (∀ x ∈ es, tE K x) →
    tE K (combine sym e es)
  | [], _, h, _ => h
  | x :: xs, e, h, hx => by
    show tE K (combine sym (.binary e sym x) xs)
    exact combine_texts hs xs _ ⟨hs, h, hx x (by simp)⟩ fun y hy => hx y (by simp [hy])

theorem combineAll_texts {sym : Str} (hs : K.T sym) {es : List Expr} (h : ∀ x ∈ es, tE K x) :
    tE K (combineAll sym es) := by
  cases es with
  | nil => exact trivial
  | cons e es => exact combine_texts hs es e (h e (by simp)) fun y hy => h y (by simp [hy])

theorem mem_unescape {pat rep : Str} (h : ∀ c ∈ rep, c ∈ pat) : ∀ n (s : Str), ∀ c ∈ replaceAux pat rep n s, c ∈ s := by
  intro n
  induction n with
  | zero => intro s c hc; exact hc
  | succ n ih =>
    intro s c hc
    cases s with
    | nil => simp [replaceAux] at hc
    | cons d ds =>
      rw [replaceAux] at hc
      split at hc
      · rename_i r hr
        rw [stripPrefix?_some] at hr
        rw [hr]
        simp only [List.mem_append] at hc ⊢
        rcases hc with hc | hc
        · exact .inl (h c hc)
        · exact .inr (ih _ _ hc)
      · simp only [List.mem_cons] at hc ⊢
        rcases hc with hc | hc
        · exact .inl hc
        · exact .inr (ih _ _ hc)

section
variable (H : ∀ n i r a, K.Q i → ρ.run n i = some (r, a) → tN K n a)
include H

theorem subSearch_from : subSearch.From K ρ (tP K) := by
  apply From.delim
  apply From.pre
  exact (From.sepList0 fun i r a hi ha => H .cmd i r a hi ha).mono fun l hl => tP_of hl

theorem callP_from : callP.From K ρ (fun x => K.N x.1 ∧ textsEs K.N K.T x.2) :=
  (From.seq (From.lift token_name) (From.parenthesized (From.commaList0 (fun i r a hi ha => H .e9n i r a hi ha)))).mono
    fun _ h => ⟨h.1, tEs_of h.2⟩

theorem callExpr_from : callExpr.From K ρ (tE K) := by
  apply From.map
  exact (callP_from H).mono fun x hx => ⟨hx.1, .inl hx.2⟩

theorem expr2_from : expr2.From K ρ (tE K) := by
  unfold expr2
  refine From.alt (From.parenthesized fun i r a hi ha => H .e9w i r a hi ha) (From.alt ?_ (From.alt (callExpr_from H) (From.alt ?_ ?_)))
  · exact From.map ((From.lift termCall_text).mono fun t ht => ⟨K.defN _ (by decide), .inr ⟨rfl, t, rfl, ht⟩⟩)
  · exact From.map ((From.lift constant_from).mono fun k hk => hk.1)
  · exact From.map ((subSearch_from H).mono fun p hp => hp)

theorem expr3_from : expr3.From K ρ (tE K) :=
  binLevel_from (expr2_from H) (Sub.ws (Sub.alt Sub.tagL Sub.tagL)).text fun i r a hi ha => H .e3 i r a hi ha
theorem expr4_from : expr4.From K ρ (tE K) :=
  binLevel_from (expr3_from H) (Sub.ws (Sub.alt Sub.tagL Sub.tagL)).text fun i r a hi ha => H .e4 i r a hi ha
theorem expr5_from : expr5.From K ρ (tE K) :=
  binLevel_from (expr4_from H) (Sub.ws (Sub.delim Sub.tagL)).text fun i r a hi ha => H .e5 i r a hi ha

omit H in
theorem cmpOps_sub : cmpOps.Sub ρ := by
  unfold cmpOps
  repeat' first | exact Sub.tagL | apply Sub.alt

theorem expr6_from : expr6.From K ρ (tE K) :=
  From.alt fieldInExpr_from (binLevel_from (expr5_from H) (Sub.ws cmpOps_sub).text fun i r a hi ha => H .e6 i r a hi ha)

theorem expr7_from : expr7.From K ρ (tE K) := by
  refine From.alt (From.map (From.alt ?_ ?_)) (expr6_from H)
  · exact (From.sepPair Sub.tagNoCaseL.text fun i r a hi ha => H .e7 i r a hi ha).mono fun _ h => ⟨h.1, h.2⟩
  · exact (From.seq (Sub.ws Sub.tagNoCaseL).text (From.parenthesized fun i r a hi ha => H .e9w i r a hi ha)).mono
      fun _ h => ⟨h.1, h.2⟩

theorem expr8_from : expr8.From K ρ (tE K) :=
  binLevel_from (expr7_from H) (Sub.ws Sub.tagNoCaseL).text fun i r a hi ha => H .e8 i r a hi ha

omit H in
theorem andPattern_sub : (ws andPattern : G true Str).Sub ρ := Sub.ws (Sub.alt Sub.tagNoCaseL Sub.tagL)

theorem expr9n_from : expr9n.From K ρ (tE K) :=
  binLevel_from (expr8_from H) andPattern_sub.text fun i r a hi ha => H .e9n i r a hi ha

theorem expr9w_from : expr9w.From K ρ (tE K) :=
  binLevel_from (expr8_from H) (From.alt andPattern_sub.text (From.map (From.of _ fun _ => K.defT _ (by decide))))
    fun i r a hi ha => H .e9w i r a hi ha

theorem aliasedCall_from : aliasedCall.From K ρ (tE K) := by
  apply From.map
  exact (From.sepPair (callExpr_from H) (From.lift token_name)).mono fun x hx => ⟨hx.2, hx.1⟩

theorem statsCall_from : statsCall.From K ρ (fun l => ∀ e ∈ l, tE K e) := by
  apply From.commaOrSpaceList1
  refine From.alt (aliasedCall_from H) (From.alt (callExpr_from H) (From.alt ?_ ?_))
  · exact From.map ((From.lift aliasedField_from).mono fun x hx => ⟨hx.2, hx.1, .inl trivial⟩)
  · exact From.map ((From.lift (From.verify token_name)).mono fun x hx => ⟨hx.1, .inl trivial⟩)

theorem comparison_from : comparisonExpression.From K ρ (tE K) := by
  refine From.alt (From.map ?_) fieldInExpr_from
  refine (From.seq (From.lift field_name) (From.seq (From.lift (From.ws comparisonOperator_text)) (Φ := K.T) (Ψ := tE K)
    (From.alt (callExpr_from H) ?_))).mono fun x hx => ⟨hx.2.1, hx.1, hx.2.2⟩
  exact From.map ((From.lift literal_from).mono fun _ h => h)

theorem lterm_from : lterm.From K ρ (tE K) := by
  refine From.alt (From.parenthesized fun i r a hi ha => H .lexpr i r a hi ha) (From.alt ?_ (From.alt ?_
    (From.alt (callExpr_from H) (From.alt (comparison_from H) ?_))))
  · exact From.map ((From.pre fun i r a hi ha => H .lterm i r a hi ha).mono fun e he => ⟨K.defT _ (by decide), he⟩)
  · apply From.map
    refine (From.lift timeOpts_from).mono fun ms hms => ?_
    refine combineAll_texts (K.defT _ (by decide)) ?_
    intro e he
    simp only [List.mem_map] at he
    obtain ⟨m, hm, rfl⟩ := he
    exact hms m hm
  · exact From.map ((From.lift searchModifier_from).mono fun _ h => h)

theorem lgroup_from : lgroup.From K ρ (tE K) :=
  From.map ((From.sepList1 (lterm_from H)).mono fun _ h => combineAll_texts (K.defT _ (by decide)) h)

theorem lexpr_from : lexpr.From K ρ (tE K) :=
  From.map ((From.sepList1 (lgroup_from H)).mono fun _ h => combineAll_texts (K.defT _ (by decide)) h)

omit H in
theorem optGet_okV {os : List (Str × Constant)} (h : ∀ kv ∈ os, okV K kv.2) {k : Str} {v : Constant}
    (hv : optGet k os = some v) : okV K v := by
  induction os with
  | nil => simp [optGet] at hv
  | cons kv os ih =>
    obtain ⟨k', w⟩ := kv
    rw [optGet] at hv
    split at hv
    · rename_i u hu
      rw [Option.some.injEq] at hv
      subst hv
      exact ih (fun x hx => h x (by simp [hx])) hu
    · split at hv
      · rw [Option.some.injEq] at hv
        subst hv
        exact h (k', w) (by simp)
      · simp at hv

omit H in
theorem getStringOption_name {os : List (Str × Constant)} (h : ∀ kv ∈ os, okV K kv.2) {k : Str} {o : Option Str}
    (ho : getStringOption os k = some o) : optS K.N o := by
  unfold getStringOption at ho
  split at ho
  · rename_i s hs
    simp only [Option.some.injEq] at ho
    subst ho; exact (optGet_okV h hs).1
  · rename_i s hs
    simp only [Option.some.injEq] at ho
    subst ho; exact (optGet_okV h hs).2 _ rfl
  · simp at ho
  · simp only [Option.some.injEq] at ho
    subst ho; trivial

omit H in
theorem optS_nt {o : Option Str} (h : optS K.N o) : optS K.T o := by
  cases o with
  | none => trivial
  | some s => exact K.nt h

omit H in
theorem getStringOption_text {os : List (Str × Constant)} (h : ∀ kv ∈ os, okV K kv.2) {k : Str} {o : Option Str}
    (ho : getStringOption os k = some o) : optS K.T o := optS_nt (getStringOption_name h ho)

omit H in
theorem getString_name {os : List (Str × Constant)} (h : ∀ kv ∈ os, okV K kv.2) {k d s : Str} (hd : K.N d)
    (ho : getString os k d = some s) : K.N s := by
  simp only [getString, Option.map_eq_some_iff] at ho
  obtain ⟨o, ho, rfl⟩ := ho
  have := getStringOption_name h ho
  cases o with
  | none => exact hd
  | some s => exact this

omit H in
theorem getString_text {os : List (Str × Constant)} (h : ∀ kv ∈ os, okV K kv.2) {k d s : Str} (hd : K.T d)
    (ho : getString os k d = some s) : K.T s := by
  simp only [getString, Option.map_eq_some_iff] at ho
  obtain ⟨o, ho, rfl⟩ := ho
  have := getStringOption_text h ho
  cases o with
  | none => exact hd
  | some s => exact this

omit H in
theorem getSpanOption_text {os : List (Str × Constant)} (h : ∀ kv ∈ os, okV K kv.2) {k : Str} {o : Option TimeSpan}
    (ho : getSpanOption os k = some o) : textsSpan? K.T o := by
  unfold getSpanOption at ho
  split at ho
  · rename_i s hs
    simp only [Option.some.injEq] at ho
    subst ho; exact (optGet_okV h hs).1
  · simp at ho
  · simp only [Option.some.injEq] at ho
    subst ho; trivial

omit H in
theorem options_from {α : Type} {f : List (Str × Constant) → Option α} {Φ : α → Prop}
    (h : ∀ os, (∀ kv ∈ os, okV K kv.2) → ∀ a, f os = some a → Φ a) : (options f).From K ρ Φ :=
  From.filterMap ((From.lift commandOptions_from).mono h)

omit H in
theorem addTotals_from : addTotals.From K ρ (tC K) := by
  apply From.pre
  apply From.map
  refine (From.seq (Φ := fun x : AddTotals => K.N x.fieldName ∧ optS K.N x.labelField ∧ K.T x.label) (options_from fun os ho a ha => ?_) (From.many0 (From.ws (From.lift field_name)))).mono ?_
  rotate_left
  · intro x hx; exact ⟨hx.2, hx.1.1, hx.1.2.1, hx.1.2.2⟩
  · simp only [Option.bind_eq_bind, Option.bind_eq_some_iff, Option.pure_def, Option.some.injEq] at ha
    obtain ⟨_, _, _, _, n, hn, l, hl, b, hb, rfl⟩ := ha
    exact ⟨getString_name ho (K.defN _ (by decide)) hn, getStringOption_name ho hl,
      getString_text ho (K.defT _ (by decide)) hb⟩

omit H in
theorem fieldOrAlias_from : fieldOrAlias.From K () (textsFA K.N) := by
  refine From.alt (From.map ?_) (From.map ?_)
  · exact aliasedField_from.mono fun _ h => h
  · exact field_name.mono fun _ h => h

omit H in
theorem bin_from : bin.From K ρ (tC K) := by
  apply From.pre
  apply From.map
  refine (From.seq (Φ := fun x : Bin => textsSpan? K.T x.span ∧ textsSpan? K.T x.minSpan ∧ optS K.T x.alignTime) (options_from fun os ho a ha => ?_) (From.lift fieldOrAlias_from)).mono ?_
  rotate_left
  · intro x hx; exact ⟨hx.2, hx.1⟩
  · simp only [Option.bind_eq_bind, Option.bind_eq_some_iff, Option.pure_def, Option.some.injEq] at ha
    obtain ⟨s, hs, m, hm, _, _, _, _, _, _, t, ht, rfl⟩ := ha
    exact ⟨getSpanOption_text ho hs, getSpanOption_text ho hm, getStringOption_text ho ht⟩

omit H in
theorem collect_from : collect.From K ρ (tC K) := by
  apply From.pre
  apply From.map
  refine (From.seq (Φ := fun c : Collect => K.T c.index ∧ optS K.T c.file ∧ optS K.T c.host ∧ optS K.T c.marker ∧ K.T c.outputFormat ∧ optS K.T c.source ∧ optS K.T c.sourceType) (options_from fun os ho a ha => ?_) (From.lift fieldList0_from)).mono ?_
  rotate_left
  · intro x hx; exact ⟨hx.1.1, hx.2, hx.1.2⟩
  · simp only [Option.bind_eq_bind, Option.bind_eq_some_iff, Option.pure_def, Option.some.injEq] at ha
    obtain ⟨i, hi, j, hj, _, _, f, hf, h, hh, m, hm, o, ho', _, _, _, _, s, hs, t, ht, _, _, rfl⟩ := ha
    have hi' := getStringOption_text ho hi
    rw [hj] at hi'
    exact ⟨hi', getStringOption_text ho hf, getStringOption_text ho hh, getStringOption_text ho hm,
      getString_text ho (K.defT _ (by decide)) ho', getStringOption_text ho hs, getStringOption_text ho ht⟩

omit H in
theorem conversion_from : conversion.From K () (fun c => K.N c.func ∧ K.N c.field ∧ optS K.N c.alias) := by
  apply From.map
  refine (From.ws (From.seq token_name (From.seq (From.delim (From.ws field_name)) (From.ws (From.opt (From.pre field_name)))))).mono ?_
  intro x hx
  exact ⟨hx.1, hx.2.1, optS_of hx.2.2⟩

omit H in
theorem convert_from : convert.From K ρ (tC K) := by
  apply From.pre
  apply From.map
  exact (From.seq (options_from fun os ho a ha => getString_text ho (K.defT _ (by decide)) ha)
    (From.many0 (From.lift conversion_from))).mono fun x hx => ⟨hx.1, hx.2⟩

omit H in
theorem fieldNotKeyword_name : fieldNotKeyword.From K () K.N := (From.verify field_name).mono fun _ h => h.1

omit H in
theorem dataModel_from : dataModel.From K ρ (tC K) := by
  apply From.pre
  apply From.map
  refine (From.seq (From.triv _) (From.seq (From.opt (From.ws (From.lift fieldNotKeyword_name)))
    (From.seq (From.opt (From.ws (From.lift fieldNotKeyword_name)))
      (From.opt (Sub.alt Sub.tagNoCaseL (Sub.alt Sub.tagNoCaseL Sub.tagNoCaseL)).text)))).mono ?_
  intro x hx
  exact ⟨optS_of hx.2.1, optS_of hx.2.2.1, optS_of hx.2.2.2⟩

omit H in
theorem dedup_from : dedup.From K ρ (tC K) := by
  apply From.pre
  apply From.map
  refine (From.seq (From.triv _) (From.seq (From.triv _) (From.seq
    (From.many1 (From.ws (From.lift (From.verify field_name))))
    (From.opt (From.pre (From.many1 (From.ws (From.seq (From.opt (Sub.alt Sub.tagL Sub.tagL).text)
      (From.lift field_name))))))))).mono ?_
  rintro ⟨n, o, fs, ks⟩ ⟨_, _, h1, h2⟩
  refine ⟨fun f hf => (h1 f hf).1, ?_⟩
  cases ks with
  | none =>
    intro k hk
    simp only [Option.getD_none, List.mem_singleton] at hk
    subst hk
    exact ⟨K.defT _ (by decide), K.defN _ (by decide)⟩
  | some ks =>
    intro k hk
    have := h2 ks rfl k hk
    exact ⟨optS_of this.1, this.2⟩

theorem eval_from : eval.From K ρ (tC K) := by
  apply From.pre
  apply From.map
  exact (From.commaList0 (From.sepPair (From.ws (From.lift field_name)) (From.ws (expr9n_from H)))).mono fun l hl => tAs_of hl

theorem eventStats_from : eventStats.From K ρ (tC K) := by
  apply From.pre
  apply From.map
  refine (From.seq (From.triv _) (From.seq (From.ws (statsCall_from H)) (From.opt (From.pre (From.lift fieldList0_from))))).mono ?_
  rintro ⟨o, fs, b⟩ ⟨_, h1, h2⟩
  refine ⟨tEs_of h1, ?_⟩
  cases b with
  | none => intro f hf; simp at hf
  | some b => exact h2 b rfl

omit H in
theorem fields_from : fields.From K ρ (tC K) :=
  From.pre (From.map ((From.seq (From.triv _) (From.lift fieldList1_from)).mono fun _ h => h.2))

omit H in
theorem fillNull_from : fillNull.From K ρ (tC K) := by
  apply From.pre
  apply From.map
  refine (From.seq (From.opt (From.pre (From.lift (Sub.alt doubleQuoted_sub token_sub).text)))
    (From.opt (From.many1 (From.ws (From.lift field_name))))).mono ?_
  rintro ⟨v, fs⟩ ⟨h1, h2⟩
  refine ⟨?_, h2⟩
  cases v with
  | none => exact K.defT c!"0" (by decide)
  | some v => exact h1 v rfl

omit H in
theorem format_from : format.From K ρ (tC K) := by
  apply From.pre
  apply From.map
  have hq : (ws (lift doubleQuoted) : G true Str).From K ρ K.T := (Sub.ws (Sub.lift doubleQuoted_sub)).text
  refine (From.seq (Φ := fun x : Str × Int => K.T x.1) (options_from fun os ho a ha => ?_) (From.opt
    (From.seq hq (From.seq hq (From.seq hq (From.seq hq (From.seq hq hq))))))).mono ?_
  rotate_left
  · rintro ⟨o, d⟩ ⟨h1, h2⟩
    refine ⟨h1, ?_⟩
    cases d with
    | none =>
      have hd : ∀ s ∈ defaultTexts, K.T s := K.defT
      exact ⟨hd c!"(" (by decide), hd c!"(" (by decide), hd c!"AND" (by decide), hd c!")" (by decide), hd c!"OR" (by decide),
        hd c!")" (by decide)⟩
    | some d => exact h2 d rfl
  · simp only [Option.bind_eq_bind, Option.bind_eq_some_iff, Option.pure_def, Option.some.injEq] at ha
    obtain ⟨m, hm, _, _, rfl⟩ := ha
    exact getString_text ho (K.defT _ (by decide)) hm

theorem head_from : head.From K ρ (tC K) := by
  apply From.pre
  apply From.map
  refine (From.seq (Φ := tE K) (From.ws (From.alt (From.map (Ψ := tE K) (f := fun n => .const (.int n)) (From.of _ fun _ => trivial)) (expr9n_from H))) (From.triv _)).mono
    fun x hx => hx.1

theorem inputLookup_from : inputLookup.From K ρ (tC K) := by
  apply From.pre
  apply From.map
  refine (From.seq (From.triv _) (From.seq (From.ws (From.lift token_name))
    (From.ws (From.opt (From.pre (expr9n_from H)))))).mono ?_
  rintro ⟨o, t, w⟩ ⟨_, h1, h⟩
  cases w with
  | none => exact h1
  | some w => exact ⟨h1, h w rfl⟩

theorem join_from : join.From K ρ (tC K) := by
  apply From.pre
  apply From.map
  refine (From.seq (Φ := fun x : JoinOpts => K.T x.joinType) (options_from fun os ho a ha => ?_) (From.seq (From.lift fieldList1_from) (subSearch_from H))).mono ?_
  rotate_left
  · intro x hx; exact hx
  · simp only [Option.bind_eq_bind, Option.bind_eq_some_iff, Option.pure_def, Option.some.injEq] at ha
    obtain ⟨t, ht, _, _, _, _, _, _, _, _, rfl⟩ := ha
    exact getString_text ho (K.defT _ (by decide)) ht

omit H in
theorem fieldRep_from : fieldRep.From K () (fun l => ∀ f ∈ l, textsFL K.N f) := by
  apply From.commaOrSpaceList1
  refine From.alt (From.map ?_) (From.map ?_)
  · exact (From.verify aliasedField_from).mono fun _ h => h.1
  · exact (From.verify field_name).mono fun _ h => h.1

omit H in
theorem lookup_from : lookup.From K ρ (tC K) := by
  apply From.pre
  apply From.map
  have ho : lookupOutput.From K () (fun o => K.T o.kv ∧ ∀ f ∈ o.fields, textsFL K.N f) :=
    From.map ((From.sepPair (Sub.alt Sub.tagNoCaseL Sub.tagNoCaseL).text fieldRep_from).mono fun _ h => h)
  exact (From.seq (From.ws (From.lift token_name)) (From.seq (From.ws (From.lift fieldRep_from))
    (From.ws (From.opt (From.lift ho))))).mono fun x hx => ⟨hx.1, hx.2.1, hx.2.2⟩

omit H in
theorem makeResults_from : makeResults.From K ρ (tC K) := by
  apply From.pre
  apply From.map
  refine options_from fun os ho a ha => ?_
  simp only [Option.bind_eq_bind, Option.bind_eq_some_iff, Option.pure_def, Option.some.injEq] at ha
  obtain ⟨_, _, _, _, s, hs, g, hg, rfl⟩ := ha
  exact ⟨getString_text ho (K.defT _ (by decide)) hs, getStringOption_text ho hg⟩

theorem embedded_from : embedded.From K ρ (tP K) := by
  intro i r a hi ha
  simp only [embedded] at ha
  split at ha
  · simp at ha
  · rename_i r' s hs
    have hsub : doubleQuotedAlt.Sub () := Sub.delim (Sub.ws Sub.recognize)
    have hq : K.Q ((unescapeSearch s).dropWhile isSpace) :=
      K.sub (List.dropWhile_suffix _).isInfix (K.unesc (K.sub (hsub _ _ _ hs) hi))
    split at ha
    · rename_i p hp
      simp only [Option.some.injEq, Prod.mk.injEq] at ha
      rw [← ha.2]; exact H .pipe _ _ _ hq hp
    · simp at ha

theorem map_from : map_.From K ρ (tC K) := by
  apply From.pre
  apply From.map
  exact (From.seq (From.pre (embedded_from H)) (From.triv _)).mono fun x hx => hx.1

theorem multiSearch_from : multiSearch.From K ρ (tC K) := by
  apply From.pre
  apply From.map
  exact (From.verify (From.many1 (From.ws (subSearch_from H)))).mono fun ps h => tPs_of h.1

omit H in
theorem mvCombine_from : mvCombine.From K ρ (tC K) := by
  apply From.pre
  apply From.map
  exact (From.seq (From.opt (From.pre (From.ws (From.lift doubleQuoted_sub.text)))) (From.lift field_name)).mono
    fun x hx => ⟨optS_of hx.1, hx.2⟩

omit H in
theorem mvExpand_from : mvExpand.From K ρ (tC K) := by
  apply From.pre
  apply From.map
  exact (From.seq (From.ws (From.lift field_name)) (From.triv _)).mono fun x hx => hx.1

omit H in
theorem topRareOpts_from {os : List (Str × Constant)} (ho : ∀ kv ∈ os, okV K kv.2) {a : TopRare} (ha : topRareOpts os = some a) :
    K.N a.countField ∧ K.T a.otherStr ∧ K.N a.percentField := by
  unfold topRareOpts at ha
  simp only [Option.bind_eq_bind, Option.bind_eq_some_iff, Option.pure_def, Option.some.injEq] at ha
  obtain ⟨c, hc, _, _, o, ho', p, hp, _, _, _, _, _, _, rfl⟩ := ha
  exact ⟨getString_name ho (K.defN _ (by decide)) hc, getString_text ho (K.defT _ (by decide)) ho',
    getString_name ho (K.defN _ (by decide)) hp⟩

omit H in
theorem rare_from : rare.From K ρ (tC K) := by
  apply From.pre
  apply From.map
  refine (From.seq (From.triv _) (From.seq (From.ws (options_from fun os ho a ha => topRareOpts_from ho ha))
    (From.seq (From.ws (From.lift fieldList0_from)) (From.ws (From.opt (From.pre (From.lift fieldList0_from))))))).mono ?_
  rintro ⟨n, o, fs, b⟩ ⟨_, h1, h2, h3⟩
  exact ⟨h2, h3, h1⟩

omit H in
theorem top_from : top.From K ρ (tC K) := by
  apply From.pre
  apply From.map
  refine (From.seq (From.triv _) (From.seq (From.ws (options_from fun os ho a ha => topRareOpts_from ho ha))
    (From.seq (From.lift fieldList1_from) (From.ws (From.opt (From.pre (From.lift fieldList1_from))))))).mono ?_
  rintro ⟨n, o, fs, b⟩ ⟨_, h1, h2, h3⟩
  exact ⟨h2, h3, h1⟩

omit H in
theorem regex_from : regex.From K ρ (tC K) := by
  apply From.pre
  apply From.map
  refine (From.seq (From.opt (From.seq (From.ws (From.lift field_name)) (Sub.ws (Sub.alt Sub.tagL Sub.tagL)).text))
    (From.lift doubleQuoted_sub.text)).mono ?_
  rintro ⟨o, r⟩ ⟨h1, h2⟩
  cases o with
  | none => exact h2
  | some x => exact ⟨(h1 x rfl).1, (h1 x rfl).2, h2⟩

omit H in
theorem rename_from : rename.From K ρ (tC K) :=
  From.pre (From.map ((From.commaList1 (From.lift aliasedField_from)).mono fun _ h => h))

omit H in
theorem return__from : return_.From K ρ (tC K) := by
  apply From.pre
  apply From.map
  refine (From.seq (Ψ := fun l => ∀ f ∈ l, textsFA K.N f) (From.triv _) (From.alt (From.many1 (From.map ?_))
    (From.alt (From.many1 (From.map ?_)) (From.many1 (From.map ?_))))).mono fun x hx => hx.2
  · exact (From.ws (From.lift fieldAndValue_from)).mono fun _ h => ⟨h.2, h.1⟩
  · exact (From.ws (From.pre (From.lift field_name))).mono fun _ h => h
  · exact (From.ws (From.lift field_name)).mono fun _ h => h

omit H in
theorem rex_from : rex.From K ρ (tC K) := by
  apply From.pre
  apply From.map
  refine (From.seq (Φ := fun c : Rex => K.N c.field ∧ optS K.N c.offsetField ∧ optS K.T c.mode) (options_from fun os ho a ha => ?_) (From.lift doubleQuoted_sub.text)).mono ?_
  rotate_left
  · intro x hx; exact ⟨hx.1.1, hx.1.2.1, hx.1.2.2, hx.2⟩
  · simp only [Option.bind_eq_bind, Option.bind_eq_some_iff, Option.pure_def, Option.some.injEq, guard] at ha
    obtain ⟨m, hm, _, hg, f, hf, _, _, o, ho', rfl⟩ := ha
    refine ⟨getString_name ho (K.defN _ (by decide)) hf, getStringOption_name ho ho', ?_⟩
    split at hg
    · rename_i hm'
      rcases hm' with hm' | hm'
      · simp only [hm']; trivial
      · simp only [hm']; exact K.defT _ (by decide)
    · exact absurd hg (by simp [failure])

theorem sort_from : sort.From K ρ (tC K) := by
  apply From.pre
  apply From.map
  exact (From.seq (From.triv _) (From.seq (From.commaList1 ((From.seq (From.opt (Sub.alt Sub.tagL Sub.tagL).text) (expr9n_from H)).mono
    fun x hx => (⟨optS_of hx.1, hx.2⟩ : optS K.T x.1 ∧ tE K x.2))) (From.triv _))).mono fun x hx => tKs_of hx.2.1

omit H in
theorem spath_from : spath.From K ρ (tC K) := by
  apply From.pre
  apply From.map
  refine (From.seq (From.opt (From.ws (From.pre (From.lift field_name)))) (From.seq (From.opt (From.ws (From.pre (From.lift field_name))))
    (From.ws (From.pre (From.lift string_text))))).mono ?_
  rintro ⟨i, o, p⟩ ⟨h1, h2, h3⟩
  refine ⟨h3, ?_, optS_of h2⟩
  cases i with
  | none => exact K.defN c!"_raw" (by decide)
  | some i => exact h1 i rfl

theorem stats_from : stats.From K ρ (tC K) := by
  apply From.pre
  apply From.map
  refine (From.seq (Φ := fun x : StatsOpts => K.T x.delim) (options_from fun os ho a ha => ?_) (From.seq (statsCall_from H) (From.seq
    (From.opt (From.pre (From.lift spFieldList1_from))) (From.triv _)))).mono ?_
  rotate_left
  · intro x hx; exact ⟨hx.1, tEs_of hx.2.1, hx.2.2.1⟩
  · simp only [Option.bind_eq_bind, Option.bind_eq_some_iff, Option.pure_def, Option.some.injEq] at ha
    obtain ⟨_, _, _, _, d, hd, rfl⟩ := ha
    exact getString_text ho (K.defT _ (by decide)) hd

theorem streamStats_from : streamStats.From K ρ (tC K) := by
  apply From.pre
  apply From.map
  refine (From.seq (From.triv _) (From.seq (From.ws (statsCall_from H)) (From.opt (From.pre (From.lift spFieldList1_from))))).mono ?_
  rintro ⟨o, fs, b⟩ ⟨_, h1, h2⟩
  refine ⟨tEs_of h1, ?_⟩
  cases b with
  | none => intro f hf; simp at hf
  | some b => exact h2 b rfl

omit H in
theorem table_from : table.From K ρ (tC K) := From.pre (From.map ((From.lift fieldList1_from).mono fun _ h => h))

omit H in
theorem tail_from : tail.From K ρ (tC K) := From.pre (From.map (From.of _ fun _ => trivial))

omit H in
theorem tsFunction_from : tsFunction.From K () (tE K) := by
  apply From.map
  have h : (tsCall <||> tsCount).From K () (tE K) := by
    apply From.alt
    · exact From.map ((From.seq token_name (From.delim field_name)).mono fun x hx => ⟨hx.1, .inl ⟨hx.2, trivial⟩⟩)
    · refine From.map ((From.pre (From.opt (From.delim (From.verify field_name)))).mono ?_)
      rintro (_ | f) h
      · exact ⟨K.defN _ (by decide), .inl trivial⟩
      · exact ⟨K.defN _ (by decide), .inl ⟨(h f rfl).1, trivial⟩⟩
  refine (From.seq h (From.opt (From.pre token_name))).mono ?_
  rintro ⟨e, a⟩ ⟨h1, h2⟩
  cases a with
  | none => exact h1
  | some a => exact ⟨h2 a rfl, h1⟩

omit H in
theorem tsFrom_from : tsFrom.From K () (fun x => K.N x.1 ∧ optS K.N x.2) := by
  apply From.pre
  exact (From.seq (From.ws (From.pre dotted_name)) (From.opt (From.ws (From.pre (From.ws (From.pre dotted_name)))))).mono
    fun x hx => ⟨hx.1, optS_of hx.2⟩

omit H in
theorem tsBy_from : tsBy.From K () (fun x => (∀ l, x.1 = some l → ∀ f ∈ l, textsSF K.N K.T f) ∧ optS K.N x.2) := by
  apply From.pre
  refine From.alt (From.map ?_) (From.map ?_)
  · exact spFieldList1_from.mono fun l hl => ⟨fun m hm => by simp only [Option.some.injEq] at hm; subst hm; exact hl, trivial⟩
  · exact (From.ws (From.pre (From.delim field_name))).mono fun f hf => ⟨fun m hm => by simp at hm, hf⟩

theorem tstats_from : tstats.From K ρ (tC K) := by
  apply From.pre
  apply From.map
  refine (From.seq (Φ := fun x : TStatsOpts => optS K.T x.fillnullValue) (options_from fun os ho a ha => ?_) (From.seq (From.lift (From.spaceList1 tsFunction_from))
    (From.seq (From.ws (From.opt (From.lift tsFrom_from)))
    (From.seq (From.ws (From.opt (From.pre (From.ws (From.alt (lexpr_from H) fieldInExpr_from)))))
      (From.ws (From.opt (From.lift tsBy_from))))))).mono ?_
  rotate_left
  · intro x h
    have h0 := h.1
    have h1 := h.2.1
    have h2 := h.2.2.1
    have h3 : ∀ w, x.2.2.2.1 = some w → tE K w := h.2.2.2.1
    have h4 := h.2.2.2.2
    clear h
    obtain ⟨o, es, f, w, b⟩ := x
    have a1 : optS K.N (f.map Prod.fst) := by
      cases f with
      | none => trivial
      | some f => exact (h2 f rfl).1
    have a2 : optS K.N (f.bind Prod.snd) := by
      cases f with
      | none => trivial
      | some f => exact (h2 f rfl).2
    have a3 : ∀ l, b.bind Prod.fst = some l → ∀ f ∈ l, textsSF K.N K.T f := by
      cases b with
      | none => intro l hl; simp at hl
      | some b => exact (h4 b rfl).1
    have a4 : optS K.N (b.bind Prod.snd) := by
      cases b with
      | none => trivial
      | some b => exact (h4 b rfl).2
    cases w with
    | none => exact ⟨h0, tEs_of h1, a1, a2, a3, a4⟩
    | some w => exact ⟨h0, tEs_of h1, a1, a2, a3, a4, h3 w rfl⟩
  · simp only [Option.bind_eq_bind, Option.bind_eq_some_iff, Option.pure_def, Option.some.injEq] at ha
    obtain ⟨_, _, _, _, _, _, _, _, _, _, _, _, _, _, v, hv, rfl⟩ := ha
    exact getStringOption_text ho hv

theorem where_from : where_.From K ρ (tC K) :=
  From.pre (From.map ((lexpr_from H).mono fun _ h => h))

theorem search_from : search.From K ρ (tC K) :=
  From.pre (From.map ((From.commaOrSpaceList1 (expr9n_from H)).mono fun _ h => combineAll_texts (K.defT _ (by decide)) h))

theorem commandA_from : commandA.From K ρ (tC K) :=
  addTotals_from.alt (bin_from.alt (collect_from.alt (convert_from.alt (dataModel_from.alt (dedup_from.alt
    ((eval_from H).alt ((eventStats_from H).alt (fields_from.alt (fillNull_from.alt (format_from.alt ((head_from H).alt
    ((inputLookup_from H).alt ((join_from H).alt (lookup_from.alt (makeResults_from.alt ((map_from H).alt
    ((multiSearch_from H).alt (mvCombine_from.alt mvExpand_from))))))))))))))))))

theorem commandB_from : commandB.From K ρ (tC K) :=
  rare_from.alt (regex_from.alt (rename_from.alt (return__from.alt (rex_from.alt ((sort_from H).alt (spath_from.alt
    ((stats_from H).alt ((streamStats_from H).alt (table_from.alt (tail_from.alt (top_from.alt ((tstats_from H).alt
    (where_from H)))))))))))))

theorem command_from : command.From K ρ (tC K) := (commandA_from H).alt ((commandB_from H).alt (search_from H))

theorem pipeline_from : pipeline.From K ρ (tP K) :=
  From.pre (From.allConsuming (From.ws ((From.sepList0 (command_from H)).mono fun _ h => tP_of h)))

theorem gram_from (n : NT) : (gram n).From K ρ (tN K n) := by
  cases n
  · exact (expr3_from H).weak
  · exact (expr4_from H).weak
  · exact (expr5_from H).weak
  · exact (expr6_from H).weak
  · exact (expr7_from H).weak
  · exact (expr8_from H).weak
  · exact (expr9n_from H).weak
  · exact (expr9w_from H).weak
  · exact (lexpr_from H).weak
  · exact (lterm_from H).weak
  · exact (command_from H).weak
  · exact pipeline_from H

end

/-- Every name in a parsed query satisfies `N`, every other text `T`. -/
theorem parse_texts (K : Prov) {q : Str} {p : Pipeline} (hq : K.Q q) (h : parse q = some p) : textsP K.N K.T p := by
  unfold parse at h
  split at h
  · rename_i p' hp
    rw [Option.some.injEq] at h
    subst h
    exact fix_from K (tN K) (fun ρ H n => gram_from (ρ := ρ) H n) .pipe _ _ _ hq hp
  · simp at h

end Verif.Spl
