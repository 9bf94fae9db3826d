import Verif.Lemmas.Ensures
import Verif.Lemmas.Lexers
import Verif.Spec.Shape
/-
Every parsed query has the shape of `Spec.Shape`.
-/
namespace Verif.Spl
open Verif Verif.Spec P Lex

abbrev okE : Expr → Prop := everyE exprShape cmdShape
abbrev okEs : List Expr → Prop := everyEs exprShape cmdShape
abbrev okC : Command → Prop := everyC exprShape cmdShape
abbrev okP : Pipeline → Prop := everyP exprShape cmdShape

/-- an expression that is a condition -/
abbrev okL (e : Expr) : Prop := okE e ∧ CondShape e

/-- what the result of each recursive parser satisfies -/
def okN : (n : NT) → n.ty → Prop
  | .cmd => okC
  | .pipe => okP
  | .e3 | .e4 | .e5 | .e6 | .e7 | .e8 | .e9n | .e9w => okE
  | .lexpr | .lterm => okL

theorem okEs_of {es : List Expr} (h : ∀ e ∈ es, okE e) : okEs es := by
  induction es with
  | nil => simp [okEs, everyEs]
  | cons e es ih => exact ⟨h e (by simp), ih fun x hx => h x (by simp [hx])⟩

theorem okAs_of {es : List (Str × Expr)} (h : ∀ e ∈ es, okE e.2) : everyAs exprShape cmdShape es := by
  induction es with
  | nil => simp [everyAs]
  | cons e es ih => exact ⟨h e (by simp), ih fun x hx => h x (by simp [hx])⟩

theorem okKs_of {es : List (Option Str × Expr)} (h : ∀ e ∈ es, okE e.2) : everyKs exprShape cmdShape es := by
  induction es with
  | nil => simp [everyKs]
  | cons e es ih => exact ⟨h e (by simp), ih fun x hx => h x (by simp [hx])⟩

theorem okP_of {cs : List Command} (h : ∀ c ∈ cs, okC c) : okP cs := by
  induction cs with
  | nil => simp [okP, everyP]
  | cons e es ih => exact ⟨h e (by simp), ih fun x hx => h x (by simp [hx])⟩

theorem okPs_of {ps : List (List Command)} (h : ∀ p ∈ ps, okP p) : everyPs exprShape cmdShape ps := by
  induction ps with
  | nil => simp [everyPs]
  | cons e es ih => exact ⟨h e (by simp), ih fun x hx => h x (by simp [hx])⟩

/-- a leaf that is a constant as the lexer makes them -/
def okK (k : Constant) : Prop := exprShape (.const k)

theorem int_ens : int.Ens () isI64 := by
  apply Ens.map
  refine (Ens.seq (Ψ := fun n : Nat => n < 2 ^ 63) (Ens.triv sign) (Ens.filterMap ?_)).mono ?_
  · intro i r ds _ n hn
    split at hn
    · rename_i h; simp only [Option.some.injEq] at hn; omega
    · simp at hn
  · rintro ⟨s, n⟩ ⟨_, hn⟩
    simp only [isI64] at *
    split <;> omega

theorem allC {c : Bool} {α : Type} (f : α → Constant) (p : L c α) (h : ∀ a, okK (f a)) :
    (P.map f (allConsuming p)).Ens () okK := Ens.map fun _ _ a _ => h a

theorem constantOf_ens : constantOf.Ens () okK := by
  unfold constantOf
  repeat' first
    | exact Ens.map (Ens.allConsuming (int_ens.mono fun n hn => hn))
    | exact allC _ _ fun a => trivial
    | apply Ens.alt

theorem literalOf_ens : literalOf.Ens () okK := by
  unfold literalOf
  repeat' first
    | exact Ens.map (Ens.allConsuming (int_ens.mono fun n hn => hn))
    | exact allC _ _ fun a => trivial
    | apply Ens.alt

theorem reparse_ens {c c₂ : Bool} {β : Type} {p : L c Str} {q : L c₂ β} {Ψ : β → Prop} (h : q.Ens () Ψ) :
    (reparse p q).Ens () Ψ := by
  apply Ens.filterMap
  intro i r s _ b hb
  simp only [Option.map_eq_some_iff] at hb
  obtain ⟨⟨r', b'⟩, hr, rfl⟩ := hb
  exact h _ _ _ hr

theorem constant_ens : constant.Ens () okK := reparse_ens constantOf_ens
theorem literal_ens : literal.Ens () okK := reparse_ens literalOf_ens

/-- the operators at a binary level -/
def okOp (op : Str) : Prop := op ∈ fixedOps ∨ lower op = c!"and" ∨ lower op = c!"or"

theorem tag_op {t : Char} {ts : Str} {ρ : Rec} (h : (t :: ts) ∈ fixedOps) : (P.tagL t ts : G true Str).Ens ρ okOp :=
  Ens.tagL.mono fun _ hs => .inl (hs ▸ h)

variable {ρ : Rec}

theorem binLevel_ens {lower : G true Expr} {op : G true Str} {same : P Rec false false Expr}
    (hl : lower.Ens ρ okE) (ho : op.Ens ρ okOp) (hs : same.Ens ρ okE) : (binLevel lower op same).Ens ρ okE := by
  apply Ens.map
  refine (Ens.seq hl (Ens.opt (Ens.seq ho hs))).mono ?_
  rintro ⟨l, o⟩ ⟨h1, h2⟩
  cases o with
  | none => exact h1
  | some x => have := h2 x rfl; exact ⟨this.1, h1, this.2⟩

theorem andPattern_ens : (ws andPattern).Ens ρ okOp := by
  intro i r a ha
  simp only [ws, recast, delim, pre, post, P.map, seq, ms0, takeWhile0] at ha
  cases h : andPattern.run ρ (i.dropWhile isSpace) with
  | none => simp [h] at ha
  | some x =>
    obtain ⟨r', op⟩ := x
    simp only [h, Option.some.injEq, Prod.mk.injEq] at ha
    rw [← ha.2]
    simp only [andPattern, P.alt] at h
    split at h
    · rename_i x hx
      rw [Option.some.injEq] at h
      subst h
      have := Ens.tagNoCaseL (ρ := ρ) _ _ _ hx
      exact .inr (.inl (by rw [this]; decide))
    · exfalso
      simp only [tagL] at h
      split at h
      · rename_i hx
        rw [stripPrefix?_some] at hx
        have := List.head?_dropWhile_not isSpace i
        rw [hx] at this
        simp [isSpace] at this
      · simp at h

theorem concat_ens : (ws (delim ms0 (tag! ".") ms1) : G true Str).Ens ρ okOp :=
  Ens.ws (Ens.delim (tag_op (by decide)))

section
variable (H : ∀ n i r a, ρ.run n i = some (r, a) → okN n a)
include H

theorem subSearch_ens : subSearch.Ens ρ okP := by
  apply Ens.delim
  apply Ens.pre
  exact (Ens.sepList0 fun i r a ha => H .cmd i r a ha).mono fun l hl => okP_of hl

omit H in
theorem token_ens : token.Ens () (fun s => ¬ Reserved s) :=
  (Ens.verify (Ens.triv _)).mono fun s hs => by
    have h := hs.2
    simp only [notReserved, Bool.not_eq_true', List.contains_eq_mem, decide_eq_false_iff_not] at h
    exact h

theorem callP_ens : callP.Ens ρ (fun x => ¬ Reserved x.1 ∧ okEs x.2) :=
  (Ens.seq (Ens.lift token_ens) (Ens.parenthesized (Ens.commaList0 (fun i r a ha => H .e9n i r a ha)))).mono
    fun _ h => ⟨h.1, okEs_of h.2⟩

theorem callExpr_ens : callExpr.Ens ρ (fun e => okE e ∧ ∃ n as, e = .call n as) := by
  apply Ens.map
  exact (callP_ens H).mono fun x hx => ⟨⟨fun _ => hx.1, hx.2⟩, _, _, rfl⟩

theorem expr2_ens : expr2.Ens ρ okE := by
  unfold expr2
  refine Ens.alt (Ens.parenthesized fun i r a ha => H .e9w i r a ha) (Ens.alt ?_ (Ens.alt ?_ (Ens.alt ?_ ?_)))
  · exact Ens.map fun _ _ _ _ => ⟨fun _ => by decide, trivial, trivial⟩
  · exact (callExpr_ens H).mono fun _ h => h.1
  · exact Ens.map (Ens.lift constant_ens)
  · exact Ens.map ((subSearch_ens H).mono fun p hp => ⟨trivial, hp⟩)

theorem expr3_ens : expr3.Ens ρ okE :=
  binLevel_ens (expr2_ens H) (Ens.ws (Ens.alt (tag_op (by decide)) (tag_op (by decide)))) fun i r a ha => H .e3 i r a ha
theorem expr4_ens : expr4.Ens ρ okE :=
  binLevel_ens (expr3_ens H) (Ens.ws (Ens.alt (tag_op (by decide)) (tag_op (by decide)))) fun i r a ha => H .e4 i r a ha
theorem expr5_ens : expr5.Ens ρ okE :=
  binLevel_ens (expr4_ens H) concat_ens fun i r a ha => H .e5 i r a ha

omit H in
theorem cmpOps_ens : cmpOps.Ens ρ okOp := by
  unfold cmpOps
  repeat' first | apply Ens.alt | exact tag_op (by decide)

omit H in
theorem fieldIn_ens : fieldIn.Ens () (fun x => ∀ k ∈ x.2, okK k) :=
  (Ens.sepPair (Ens.triv field) (Ens.parenthesized (Ens.commaOrSpaceList0 constant_ens))).mono fun _ h => h.2

omit H in
theorem fieldInExpr_ens : fieldInExpr.Ens ρ okL := by
  apply Ens.map
  refine (Ens.lift fieldIn_ens).mono fun x hx => ⟨⟨?_, okEs_of ?_⟩, .isIn⟩
  · intro e he
    simp only [List.mem_map] at he
    obtain ⟨k, _, rfl⟩ := he
    exact ⟨k, rfl⟩
  · intro e he
    simp only [List.mem_map] at he
    obtain ⟨k, hk, rfl⟩ := he
    exact hx k hk

theorem expr6_ens : expr6.Ens ρ okE :=
  Ens.alt (fieldInExpr_ens.mono fun _ h => h.1) (binLevel_ens (expr5_ens H) (Ens.ws cmpOps_ens) fun i r a ha => H .e6 i r a ha)

omit H in
theorem tagi_not : (tagi! "NOT" : G true Str).Ens ρ (fun s => lower s = c!"not") :=
  Ens.tagNoCaseL.mono fun s h => by rw [h]; decide

theorem expr7_ens : expr7.Ens ρ okE := by
  refine Ens.alt (Ens.map (Ens.alt ?_ ?_)) (expr6_ens H)
  · exact (Ens.sepPair tagi_not fun i r a ha => H .e7 i r a ha).mono fun _ h => ⟨h.1, h.2⟩
  · exact (Ens.seq (Ens.ws tagi_not) (Ens.parenthesized fun i r a ha => H .e9w i r a ha)).mono fun _ h => ⟨h.1, h.2⟩

theorem expr8_ens : expr8.Ens ρ okE :=
  binLevel_ens (expr7_ens H) (Ens.ws (Ens.tagNoCaseL.mono fun s h => .inr (.inr (by rw [h]; decide))))
    fun i r a ha => H .e8 i r a ha

theorem expr9n_ens : expr9n.Ens ρ okE :=
  binLevel_ens (expr8_ens H) andPattern_ens fun i r a ha => H .e9n i r a ha

theorem expr9w_ens : expr9w.Ens ρ okE :=
  binLevel_ens (expr8_ens H) (Ens.alt andPattern_ens (Ens.map fun _ _ _ _ => .inr (.inl (by decide))))
    fun i r a ha => H .e9w i r a ha

theorem aliasedCall_ens : aliasedCall.Ens ρ okE := by
  apply Ens.map
  exact (Ens.sepPair (callExpr_ens H) (Ens.triv (lift token))).mono fun x hx => ⟨hx.1.2, hx.1.1⟩

theorem statsCall_ens : statsCall.Ens ρ (fun l => l ≠ [] ∧ ∀ e ∈ l, okE e) := by
  apply Ens.commaOrSpaceList1
  refine Ens.alt (aliasedCall_ens H) (Ens.alt ((callExpr_ens H).mono fun _ h => h.1) (Ens.alt ?_ ?_))
  · exact Ens.map fun _ _ _ _ => ⟨⟨_, _, rfl⟩, fun h => absurd rfl h, trivial⟩
  · exact Ens.map fun _ _ _ _ => ⟨fun h => absurd rfl h, trivial⟩

omit H in
theorem combine_ok {sym : Str} (hs : okOp sym) : ∀ (es : List Expr) (e : Expr), okE e → (∀ x ∈ es, okE x) → okE (combine sym e es)
  | [], _, h, _ => h
  | x :: xs, e, h, hx => by
    show okE (combine sym (.binary e sym x) xs)
    exact combine_ok hs xs _ ⟨hs, h, hx x (by simp)⟩ fun y hy => hx y (by simp [hy])

omit H in
theorem combineAll_ok {sym : Str} (hs : okOp sym) {es : List Expr} (hn : es ≠ []) (h : ∀ x ∈ es, okE x) :
    okE (combineAll sym es) := by
  cases es with
  | nil => exact absurd rfl hn
  | cons e es => exact combine_ok hs es e (h e (by simp)) fun y hy => h y (by simp [hy])

omit H in
theorem combine_cond {sym : Str} (hs : sym = c!"AND" ∨ sym = c!"OR") : ∀ (es : List Expr) (e : Expr), CondShape e → (∀ x ∈ es, CondShape x) →
    CondShape (combine sym e es)
  | [], _, h, _ => h
  | x :: xs, e, h, hx => by
    show CondShape (combine sym (.binary e sym x) xs)
    exact combine_cond hs xs _ (.conn hs h (hx x (by simp))) fun y hy => hx y (by simp [hy])

omit H in
theorem combineAll_cond {sym : Str} (hs : sym = c!"AND" ∨ sym = c!"OR") {es : List Expr} (hn : es ≠ []) (h : ∀ x ∈ es, okL x) :
    okL (combineAll sym es) := by
  refine ⟨combineAll_ok (by rcases hs with rfl | rfl <;> first | exact .inr (.inl (by decide)) | exact .inr (.inr (by decide))) hn fun x hx => (h x hx).1, ?_⟩
  cases es with
  | nil => exact absurd rfl hn
  | cons e es => exact combine_cond hs es e (h e (by simp)).2 fun y hy => (h y (by simp [hy])).2

omit H in
theorem literalOf_notField : literalOf.Ens () (fun k => ∀ g, k ≠ .field g) := by
  unfold literalOf
  repeat' first
    | exact Ens.map fun _ _ _ _ g h => by cases h
    | apply Ens.alt

theorem comparison_ens : comparisonExpression.Ens ρ okL := by
  refine Ens.alt (Ens.map ?_) fieldInExpr_ens
  have hop : (lift (ws comparisonOperator) : G true Str).Ens ρ (fun op => op ∈ condOps) := by
    apply Ens.lift
    apply Ens.ws
    unfold comparisonOperator
    repeat' first
      | exact Ens.map fun _ _ _ _ => (by decide : c!"=" ∈ condOps)
      | exact Ens.tagL.mono fun s hs => by rw [hs]; decide
      | apply Ens.alt
  have hfix : ∀ op ∈ condOps, okOp op := fun op h => .inl ((by decide : ∀ op ∈ condOps, op ∈ fixedOps) op h)
  refine (Ens.seq (Ens.triv (lift field)) (Ens.seq hop (Ψ := fun e => okE e ∧ ((∃ k, e = .const k ∧ ∀ g, k ≠ .field g) ∨ ∃ n as, e = .call n as))
    (Ens.alt ?_ ?_))).mono fun x hx => ?_
  · exact (callExpr_ens H).mono fun _ h => ⟨h.1, .inr h.2⟩
  · exact Ens.map (Ens.lift fun i r k h => ⟨literal_ens i r k h, .inl ⟨k, rfl, reparse_ens literalOf_notField i r k h⟩⟩)
  · refine ⟨⟨hfix _ hx.2.1, trivial, hx.2.2.1⟩, ?_⟩
    rcases hx.2.2.2 with ⟨k, e, hk⟩ | ⟨n, as, e⟩
    · rw [e]; exact .cmp hx.2.1 hk
    · rw [e]; exact .cmpCall hx.2.1

theorem lterm_ens : lterm.Ens ρ okL := by
  refine Ens.alt (Ens.parenthesized fun i r a ha => H .lexpr i r a ha) (Ens.alt ?_ (Ens.alt ?_ (Ens.alt ?_ (Ens.alt (comparison_ens H) ?_))))
  · exact Ens.map ((Ens.pre fun i r a ha => H .lterm i r a ha).mono fun e he => ⟨⟨(by decide : lower c!"NOT" = c!"not"), he.1⟩, .not he.2⟩)
  · apply Ens.map
    apply Ens.lift
    apply Ens.map
    refine (Ens.seq (Ens.triv timeFormat) (Ens.spaceList1 (Ens.triv timeModifier))).mono fun x hx => ?_
    refine combineAll_cond (.inr rfl) (by simpa using hx.2.1) ?_
    intro e he
    simp only [List.mem_map] at he
    obtain ⟨m, _, rfl⟩ := he
    exact ⟨trivial, .time⟩
  · exact (callExpr_ens H).mono fun _ h => ⟨h.1, by obtain ⟨n, as, e⟩ := h.2; rw [e]; exact .call⟩
  · exact Ens.map fun _ _ _ _ => ⟨trivial, .modifier⟩

theorem lgroup_ens : lgroup.Ens ρ okL :=
  Ens.map ((Ens.sepList1 (lterm_ens H)).mono fun _ h => combineAll_cond (.inl rfl) h.1 h.2)

theorem lexpr_ens : lexpr.Ens ρ okL :=
  Ens.map ((Ens.sepList1 (lgroup_ens H)).mono fun _ h => combineAll_cond (.inr rfl) h.1 h.2)

omit H in
theorem fieldList1_ens : fieldList1.Ens () (fun l => l ≠ []) :=
  (Ens.commaOrSpaceList1 (Ens.triv field)).mono fun _ h => h.1

omit H in
/-- commands without expressions, sub-searches or other requirements -/
theorem plain_ens {α : Type} {g c : Bool} {p : P Rec g c α} {f : α → Command} (h : ∀ a, okC (f a)) : (P.map f p).Ens ρ okC :=
  Ens.map fun _ _ a _ => h a

theorem eval_ens : eval.Ens ρ okC := by
  apply Ens.pre
  apply Ens.map
  refine (Ens.commaList0 (Ens.sepPair (Ens.triv _) (Ens.ws (expr9n_ens H)))).mono fun l hl => ⟨trivial, okAs_of fun e he => (hl e he).2⟩

theorem head_ens : head.Ens ρ okC := by
  apply Ens.pre
  apply Ens.map
  refine (Ens.seq (Φ := okE) (Ens.ws (Ens.alt (Ens.map (Ens.alt ?_ ?_)) (expr9n_ens H))) (Ens.triv _)).mono fun x hx => ⟨trivial, hx.1⟩
  · exact Ens.lift int_ens
  · exact Ens.pre (Ens.lift int_ens)

theorem inputLookup_ens : inputLookup.Ens ρ okC := by
  apply Ens.pre
  apply Ens.map
  refine (Ens.seq (Ens.triv _) (Ens.seq (Ens.triv _) (Ens.ws (Ens.opt (Ens.pre (expr9n_ens H)))))).mono ?_
  rintro ⟨o, t, w⟩ ⟨_, _, h⟩
  cases w with
  | none => exact trivial
  | some w => exact ⟨trivial, h w rfl⟩

theorem join_ens : join.Ens ρ okC := by
  apply Ens.pre
  apply Ens.map
  exact (Ens.seq (Ens.triv _) (Ens.seq (Ens.lift fieldList1_ens) (subSearch_ens H))).mono fun x hx => ⟨hx.2.1, hx.2.2⟩

theorem embedded_ens : embedded.Ens ρ okP := by
  intro i r a ha
  simp only [embedded] at ha
  split at ha
  · simp at ha
  · split at ha
    · rename_i p hp
      simp only [Option.some.injEq, Prod.mk.injEq] at ha
      rw [← ha.2]; exact H .pipe _ _ _ hp
    · simp at ha

theorem map_ens : map_.Ens ρ okC := by
  apply Ens.pre
  apply Ens.map
  exact (Ens.seq (Ens.pre (embedded_ens H)) (Ens.triv _)).mono fun x hx => ⟨trivial, hx.1⟩

theorem multiSearch_ens : multiSearch.Ens ρ okC := by
  apply Ens.pre
  apply Ens.map
  exact (Ens.verify (Ens.many1 (Ens.ws (subSearch_ens H)))).mono fun ps h =>
    ⟨(by simpa using h.2 : 2 ≤ ps.length), okPs_of h.1.2⟩

theorem sort_ens : sort.Ens ρ okC := by
  apply Ens.pre
  apply Ens.map
  refine (Ens.seq (Ens.opt (Ens.pre (Ens.ws (Ens.lift int_ens)))) (Ens.seq
    (Ens.commaList1 (Ens.seq (Ens.triv _) (expr9n_ens H))) (Ens.triv _))).mono ?_
  rintro ⟨n, ks, d⟩ ⟨hn, ⟨h1, h2⟩, _⟩
  refine ⟨⟨h1, ?_⟩, okKs_of fun e he => (h2 e he).2⟩
  cases n with
  | none => exact (by decide : -(2:Int) ^ 63 < 10000 ∧ (10000 : Int) < 2 ^ 63)
  | some n => exact hn n rfl

theorem eventStats_ens : eventStats.Ens ρ okC := by
  apply Ens.pre
  apply Ens.map
  exact (Ens.seq (Ens.triv _) (Ens.seq (Ens.ws (statsCall_ens H)) (Ens.triv _))).mono fun x hx => ⟨hx.2.1.1, okEs_of hx.2.1.2⟩

theorem stats_ens : stats.Ens ρ okC := by
  apply Ens.pre
  apply Ens.map
  exact (Ens.seq (Ens.triv _) (Ens.seq (statsCall_ens H) (Ens.triv _))).mono fun x hx => ⟨hx.2.1.1, okEs_of hx.2.1.2⟩

theorem streamStats_ens : streamStats.Ens ρ okC := by
  apply Ens.pre
  apply Ens.map
  exact (Ens.seq (Ens.triv _) (Ens.seq (Ens.ws (statsCall_ens H)) (Ens.triv _))).mono fun x hx => ⟨hx.2.1.1, okEs_of hx.2.1.2⟩

omit H in
theorem tsFunction_ens : tsFunction.Ens () okE := by
  apply Ens.map
  have h : (tsCall <||> tsCount).Ens () (fun e => okE e ∧ ∃ n as, e = .call n as) := by
    apply Ens.alt
    · exact Ens.map ((Ens.seq token_ens (Ens.triv _)).mono fun x hx =>
        ⟨⟨fun _ => hx.1, trivial, trivial⟩, _, _, rfl⟩)
    · refine Ens.map fun _ _ a _ => ⟨⟨fun _ => by decide, okEs_of ?_⟩, _, _, rfl⟩
      cases a with
      | none => simp
      | some f => intro e he; simp only [List.mem_singleton] at he; subst he; trivial
  refine (Ens.seq h (Ens.triv _)).mono ?_
  rintro ⟨e, a⟩ ⟨⟨h1, h2⟩, _⟩
  cases a with
  | none => exact h1
  | some a => exact ⟨h2, h1⟩

omit H in
/-- PREFIX after BY is read as a field name, so never as the function. -/
theorem tsBy_ens : tsBy.Ens () (fun x => x.2 = none) := by
  intro i r x h
  rw [tsBy, run_pre] at h
  obtain ⟨⟨u, k⟩, h1, h2⟩ := Option.bind_eq_some_iff.1 h
  have hu : u.dropWhile isSpace = u := by
    rw [run_ws] at h1
    obtain ⟨y, _, e⟩ := Option.map_eq_some_iff.1 h1
    simp only [Prod.mk.injEq] at e
    rw [← e.1]; exact dropWhile_idem _
  rw [run_alt] at h2
  cases h3 : (P.map (fun fs => (some fs, none)) spFieldList1 : L true (Option (List SpField) × Option Str)).run () u with
  | some y =>
    rw [h3, Option.some_or, Option.some.injEq] at h2
    rw [run_map] at h3
    obtain ⟨z, _, e⟩ := Option.map_eq_some_iff.1 h3
    rw [← e] at h2
    simp only [Prod.mk.injEq] at h2
    rw [← h2.2]
  | none =>
    exfalso
    rw [h3, Option.none_or, run_map, run_ws, hu, run_pre] at h2
    obtain ⟨y, h4, -⟩ := Option.map_eq_some_iff.1 h2
    obtain ⟨y, h4, -⟩ := Option.map_eq_some_iff.1 h4
    obtain ⟨⟨v, w⟩, h5, h6⟩ := Option.bind_eq_some_iff.1 h4
    rw [run_tagi] at h5
    obtain ⟨⟨w', v'⟩, h7, e⟩ := Option.map_eq_some_iff.1 h5
    simp only [Prod.mk.injEq] at e
    obtain ⟨rfl, rfl⟩ := e
    obtain ⟨rfl, hl, hw⟩ := stripPrefixCI?_spec h7
    have hv : Stops tokenCont v' := by
      rw [run_delim, run_tag] at h6
      obtain ⟨_, h8, -⟩ := Option.bind_eq_some_iff.1 h6
      rintro c s rfl
      by_cases hc : '(' = c
      · subst hc; decide
      · simp [stripPrefix?, hc] at h8
    have htok : token.run () (w' ++ v') = some (v', w') := by
      refine run_token (fun e => by rw [e] at hl; exact absurd hl (by decide)) (fun c hc => ?_) hv ?_
      · have : lowerC c ∈ lower c!"PREFIX" := by rw [← hw]; exact List.mem_map_of_mem hc
        unfold lowerC at this
        split at this
        · rename_i h'
          simp [isTokenChar, isAlnum, h']
        · exact (by decide : ∀ c ∈ lower c!"PREFIX", isTokenChar c = true) c this
      · have : upper w' = c!"PREFIX" := by rw [← Lemmas.upper_lower, hw]; decide
        rw [notReserved, this]; decide
    have hf : field.run () (w' ++ v') ≠ none := by
      have hn : w' ≠ c!"t" ∧ w' ≠ c!"f" := by constructor <;> rintro rfl <;> exact absurd hl (by decide)
      rw [field, run_alt, fieldFmt, run_recognize, run_sepList1, run_alt, tokenNotTF, run_verify, htok]
      simp [Option.filter, hn.1, hn.2]
    rw [run_map, Option.map_eq_none_iff] at h3
    have h3 : (sepList1 commaOrSpaceSep spField : L true (List SpField)).run () (w' ++ v') = none := h3
    rw [run_sepList1, Option.map_eq_none_iff, spField, run_alt, run_map, run_map] at h3
    have := Option.or_eq_none_iff.1 h3
    exact hf (by simpa using this.2)

theorem tstats_ens : tstats.Ens ρ okC := by
  apply Ens.pre
  apply Ens.map
  refine (Ens.seq (Ens.triv _) (Ens.seq (Ens.lift (Ens.spaceList1 tsFunction_ens)) (Ens.seq (Ens.triv _)
    (Ens.seq (Ens.ws (Ens.opt (Ens.pre (Ens.ws (Ens.alt (lexpr_ens H) fieldInExpr_ens))))) (Ens.ws (Ens.opt (Ens.lift tsBy_ens))))))).mono ?_
  rintro ⟨o, es, f, w, b⟩ ⟨_, h1, _, h2, h3⟩
  have h4 : b.bind Prod.snd = none := by
    cases b with
    | none => rfl
    | some b => exact h3 b rfl
  cases w with
  | none => exact ⟨⟨h1.1, h4, fun e h => by cases h⟩, okEs_of h1.2⟩
  | some w => exact ⟨⟨h1.1, h4, fun e h => by cases h; exact (h2 w rfl).2⟩, okEs_of h1.2, (h2 w rfl).1⟩

theorem where_ens : where_.Ens ρ okC :=
  Ens.pre (Ens.map ((lexpr_ens H).mono fun _ h => ⟨h.2, h.1⟩))

theorem search_ens : search.Ens ρ okC :=
  Ens.pre (Ens.map ((Ens.commaOrSpaceList1 (expr9n_ens H)).mono fun _ h =>
    ⟨trivial, combineAll_ok (.inr (.inl (by decide))) h.1 h.2⟩))

omit H in
theorem tail_ens : tail.Ens ρ okC := by
  refine Ens.pre (Ens.map fun _ _ n _ => ?_)
  show toU64 n < 2 ^ 64
  unfold toU64
  omega

omit H in
theorem top_ens : top.Ens ρ okC := by
  apply Ens.pre
  apply Ens.map
  refine (Ens.seq (Ens.triv _) (Ens.seq (Ens.triv _) (Ens.seq (Ens.lift fieldList1_ens)
    (Ens.ws (Ens.opt (Ens.pre (Ens.lift fieldList1_ens))))))).mono ?_
  rintro ⟨n, o, fs, b⟩ ⟨_, _, h1, h2⟩
  exact ⟨h1, h2⟩

omit H in
theorem commandOptions_ens : commandOptions.Ens () (fun l => ∀ kv ∈ l, okK kv.2) :=
  Ens.many0 (Ens.ws ((Ens.sepPair (Ens.triv token) constant_ens).mono fun _ h => h.2))

omit H in
theorem optGet_ok {os : List (Str × Constant)} (h : ∀ kv ∈ os, okK kv.2) {k : Str} {v : Constant} (hv : optGet k os = some v) : okK v := by
  induction os with
  | nil => simp [optGet] at hv
  | cons kv os ih =>
    obtain ⟨k', w⟩ := kv
    rw [optGet] at hv
    split at hv
    · rename_i u hu
      rw [Option.some.injEq] at hv
      subst hv
      exact ih (fun x hx => h x (by simp [hx])) hu
    · split at hv
      · rw [Option.some.injEq] at hv
        subst hv
        exact h (k', w) (by simp)
      · simp at hv

omit H in
theorem getInt_ok {os : List (Str × Constant)} (h : ∀ kv ∈ os, okK kv.2) {k : Str} {d n : Int} (hd : isI64 d)
    (hn : getInt os k d = some n) : isI64 n := by
  simp only [getInt, getIntOption, Option.map_eq_some_iff] at hn
  obtain ⟨o, ho, rfl⟩ := hn
  split at ho
  · rename_i m hm
    rw [Option.some.injEq] at ho
    subst ho
    exact optGet_ok h hm
  · simp at ho
  · rw [Option.some.injEq] at ho
    subst ho; exact hd

omit H in
theorem makeResults_ens : makeResults.Ens ρ okC := by
  apply Ens.pre
  apply Ens.map
  apply Ens.filterMap
  refine (Ens.lift commandOptions_ens).mono fun os h b hb => ?_
  simp only [Option.bind_eq_bind, Option.bind_eq_some_iff, Option.pure_def, Option.some.injEq] at hb
  obtain ⟨n, hn, a, _, s, _, g, _, rfl⟩ := hb
  exact getInt_ok h ⟨by decide, by decide⟩ hn

omit H in
theorem fields_ens : fields.Ens ρ okC :=
  Ens.pre (Ens.map ((Ens.seq (Ens.triv _) (Ens.lift fieldList1_ens)).mono fun _ h => h.2))

omit H in
theorem table_ens : table.Ens ρ okC := Ens.pre (Ens.map ((Ens.lift fieldList1_ens).mono fun _ h => h))

omit H in
theorem rename_ens : rename.Ens ρ okC := Ens.pre (Ens.map ((Ens.commaList1 (Ens.triv _)).mono fun _ h => h.1))

omit H in
theorem addTotals_ens : addTotals.Ens ρ okC := by
  refine Ens.pre (Ens.map fun _ _ a _ => ?_)
  exact trivial

omit H in
theorem bin_ens : bin.Ens ρ okC := by
  refine Ens.pre (Ens.map fun _ _ a _ => ?_)
  exact trivial

omit H in
theorem collect_ens : collect.Ens ρ okC := by
  refine Ens.pre (Ens.map fun _ _ a _ => ?_)
  exact trivial

omit H in
theorem convert_ens : convert.Ens ρ okC := by
  refine Ens.pre (Ens.map fun _ _ a _ => ?_)
  exact trivial

omit H in
theorem fieldNotKeyword_ens : fieldNotKeyword.Ens () (fun n => n ∉ searchModes) :=
  (Ens.verify (Ens.triv _)).mono fun v h => by
    have h := h.2
    simp only [Bool.and_eq_true, bne_iff_ne, ne_eq] at h
    simp only [searchModes, List.mem_cons, List.not_mem_nil, or_false]
    rintro (e | e | e)
    · exact h.1.1 e
    · exact h.1.2 e
    · exact h.2 e

omit H in
theorem dataModel_ens : dataModel.Ens ρ okC := by
  apply Ens.pre
  apply Ens.map
  refine (Ens.seq (Ens.triv _) (Ens.seq (Ens.opt (Ens.ws (Ens.lift fieldNotKeyword_ens))) (Ens.seq (Ens.opt (Ens.ws (Ens.lift fieldNotKeyword_ens)))
    (Ens.opt (Φ := fun m => lower m ∈ searchModes) (Ens.alt (Ens.tagNoCaseL.mono fun a h => by rw [h]; decide)
      (Ens.alt (Ens.tagNoCaseL.mono fun a h => by rw [h]; decide) (Ens.tagNoCaseL.mono fun a h => by rw [h]; decide))))))).mono ?_
  rintro ⟨o, n, d, m⟩ ⟨_, h1, h2, h3⟩
  exact ⟨h1, h2, h3⟩

omit H in
theorem dedup_ens : dedup.Ens ρ okC := by
  apply Ens.pre
  apply Ens.map
  refine (Ens.seq (Ens.triv _) (Ens.seq (Ens.triv _) (Ens.seq (Ens.many1 (Ens.ws (Ens.lift (Ens.verify (Ens.triv _)))))
    (Ens.opt (Ens.pre (Ens.many1 (Ens.triv _))))))).mono ?_
  rintro ⟨n, o, fs, ks⟩ ⟨_, _, h1, h2⟩
  refine ⟨h1.1, fun f hf => by simpa using (h1.2 f hf).2, ?_⟩
  cases ks with
  | none => exact List.cons_ne_nil _ _
  | some l => exact (h2 l rfl).1

omit H in
theorem fillNull_ens : fillNull.Ens ρ okC := by
  apply Ens.pre
  apply Ens.map
  exact (Ens.seq (Ens.triv _) (Ens.opt (Ens.many1 (Ens.triv _)))).mono fun x h l hl => (h.2 l hl).1

omit H in
theorem format_ens : format.Ens ρ okC := by
  refine Ens.pre (Ens.map fun _ _ a _ => ?_)
  exact trivial

omit H in
theorem outputWord_ens : (tagi! "OUTPUT" <||> tagi! "OUTPUTNEW" : L true Str).Ens () (fun s => lower s = c!"output") := by
  intro i r a h
  rw [run_alt] at h
  cases h1 : (tagi! "OUTPUT" : L true Str).run () i with
  | some y =>
    rw [h1, Option.some_or, h1.symm] at h
    exact (Ens.tagNoCaseL (ρ := ()) _ _ _ h).trans (by decide)
  | none =>
    exfalso
    rw [h1, Option.none_or, run_tagi] at h
    obtain ⟨⟨m, u⟩, h2, -⟩ := Option.map_eq_some_iff.1 h
    obtain ⟨rfl, hl, hm⟩ := stripPrefixCI?_spec h2
    rw [run_tagi, Option.map_eq_none_iff] at h1
    match m, hl, hm with
    | [a, b, c, d, e, f, g, x, y], _, hm =>
      simp [lower] at hm
      simp [stripPrefixCI?, hm] at h1

omit H in
theorem lookup_ens : lookup.Ens ρ okC := by
  refine Ens.pre (Ens.map ((Ens.seq (Ens.triv _) (Ens.seq (Ens.triv _) (Ens.ws (Ens.opt (Ens.lift
    (Ens.map (Ψ := fun o : LookupOutput => lower o.kv = c!"output") ((Ens.sepPair outputWord_ens (Ens.triv _)).mono fun _ h => h.1))))))).mono ?_))
  rintro ⟨t, f, o⟩ ⟨_, _, h⟩ o' e
  exact h o' e

omit H in
theorem mvCombine_ens : mvCombine.Ens ρ okC := by
  refine Ens.pre (Ens.map fun _ _ a _ => ?_)
  exact trivial

omit H in
theorem mvExpand_ens : mvExpand.Ens ρ okC := by
  refine Ens.pre (Ens.map fun _ _ a _ => ?_)
  exact trivial

omit H in
theorem rare_ens : rare.Ens ρ okC := by
  refine Ens.pre (Ens.map fun _ _ a _ => ?_)
  exact trivial

omit H in
theorem regex_ens : regex.Ens ρ okC := by
  apply Ens.pre
  apply Ens.map
  exact (Ens.seq (Ens.opt (Ens.seq (Ens.triv _) (Ens.ws (Φ := fun s => s = c!"=" ∨ s = c!"!=") (Ens.alt (Ens.tagL.mono fun _ h => .inl h)
    (Ens.tagL.mono fun _ h => .inr h))))) (Ens.triv _)).mono fun x h y hy => (h.1 y hy).2

omit H in
theorem return__ens : return_.Ens ρ okC := by
  apply Ens.pre
  apply Ens.map
  exact (Ens.seq (Ens.triv _) (Ens.alt (Ens.many1 (Ens.triv _)) (Ens.alt (Ens.many1 (Ens.triv _)) (Ens.many1 (Ens.triv _))))).mono fun x h => h.2.1

omit H in
theorem rex_ens : rex.Ens ρ okC := by
  apply Ens.pre
  apply Ens.map
  refine (Ens.seq (Ψ := fun _ => True) (Φ := fun a : Rex => a.mode = none ∨ a.mode = some c!"sed") (Ens.filterMap fun i r os _ b hb => ?_) (Ens.triv _)).mono fun x h => h.1
  simp only [Option.bind_eq_bind, Option.bind_eq_some_iff, Option.pure_def, Option.some.injEq] at hb
  obtain ⟨m, _, u, hg, f, _, n, _, g, _, rfl⟩ := hb
  rw [guard] at hg
  split at hg
  · rename_i h; exact h
  · cases hg

omit H in
theorem spath_ens : spath.Ens ρ okC := by
  refine Ens.pre (Ens.map fun _ _ a _ => ?_)
  exact trivial

theorem commandA_ens : commandA.Ens ρ okC :=
  ((addTotals_ens).alt ((bin_ens).alt ((collect_ens).alt ((convert_ens).alt ((dataModel_ens).alt ((dedup_ens).alt ((eval_ens H).alt ((eventStats_ens H).alt ((fields_ens).alt ((fillNull_ens).alt ((format_ens).alt ((head_ens H).alt ((inputLookup_ens H).alt ((join_ens H).alt ((lookup_ens).alt ((makeResults_ens).alt ((map_ens H).alt ((multiSearch_ens H).alt ((mvCombine_ens).alt (mvExpand_ens))))))))))))))))))))

theorem commandB_ens : commandB.Ens ρ okC :=
  ((rare_ens).alt ((regex_ens).alt ((rename_ens).alt ((return__ens).alt ((rex_ens).alt ((sort_ens H).alt ((spath_ens).alt ((stats_ens H).alt ((streamStats_ens H).alt ((table_ens).alt ((tail_ens).alt ((top_ens).alt ((tstats_ens H).alt (where_ens H))))))))))))))

theorem command_ens : command.Ens ρ okC := (commandA_ens H).alt ((commandB_ens H).alt (search_ens H))

theorem pipeline_ens : pipeline.Ens ρ okP :=
  Ens.pre (Ens.allConsuming (Ens.ws ((Ens.sepList0 (command_ens H)).mono fun _ h => okP_of h)))

theorem gram_ens (n : NT) : (gram n).Ens ρ (okN n) := by
  cases n
  · exact (expr3_ens H).weak
  · exact (expr4_ens H).weak
  · exact (expr5_ens H).weak
  · exact (expr6_ens H).weak
  · exact (expr7_ens H).weak
  · exact (expr8_ens H).weak
  · exact (expr9n_ens H).weak
  · exact (expr9w_ens H).weak
  · exact (lexpr_ens H).weak
  · exact (lterm_ens H).weak
  · exact (command_ens H).weak
  · exact pipeline_ens H

end

/-- Every parsed query has the shape described in `Spec.Shape`. -/
theorem parse_shape {q : Str} {p : Pipeline} (h : parse q = some p) : everyP exprShape cmdShape p := by
  unfold parse at h
  split at h
  · rename_i p' hp
    rw [Option.some.injEq] at h
    subst h
    exact fix_ensures okN (fun ρ H n => gram_ens (ρ := ρ) H n) .pipe _ _ _ hp
  · simp at h

end Verif.Spl
