import Verif.Spl.Calls
import Verif.Lemmas.Ladder
/-
How many recursive calls are made on an expression written as `Written` says, and on nested `NOT (`.
-/
namespace Verif
open P Lex Spl Spec Lemmas
open Counted (after free recE)
open Count (calls calls_eq)

section
variable {g c g₁ c₁ g₂ c₂ g₃ c₃ : Bool} {α β γ : Type} (κ : Calls) (i : Str)

theorem count_seq (p : Counted g₁ c₁ α) (q : Counted g₂ c₂ β) :
    (Counted.seq p q).count κ i = p.count κ i + after (p.p.run fix i) (q.count κ) := rfl

theorem count_alt (p : Counted g₁ c₁ α) (q : Counted g₂ c₂ α) :
    (p <|||> q).count κ i = p.count κ i + (if (p.p.run fix i).isNone then q.count κ i else 0) := rfl

theorem count_free (p : P Rec true c α) : (free p).count κ i = 0 := rfl

theorem count_binLevel (low : Counted true true Expr) (op : G true Str) (same : Counted false false Expr) :
    (Count.binLevel low op same).count κ i =
      low.count κ i + after (low.p.run fix i) (fun r => 0 + after (op.run fix r) (same.count κ)) := rfl

theorem count_parenthesized (p : Counted g c α) : (Counted.parenthesized p).count κ i =
    0 + after ((wsRight (tag! "(") : G true Str).run fix i) (fun r => p.count κ r + after (p.p.run fix r) fun _ => 0) := rfl
end

theorem after_zero {α : Type} (res : PRes α) : after res (fun _ => 0) = 0 := by cases res <;> rfl

/-- between parentheses: what is counted inside -/
theorem count_paren {c g : Bool} {α : Type} (p : Counted g c α) {gs u : Str} (hg : Blanks gs) (hu : Stops isSpace u) :
    (Counted.parenthesized p).count calls ('(' :: (gs ++ u)) = p.count calls u := by
  rw [count_parenthesized, run_wsRight, tag_same, Option.map_some]
  show 0 + (p.count calls ((gs ++ u).dropWhile isSpace) + after (p.p.run fix ((gs ++ u).dropWhile isSpace)) fun _ => 0) = _
  rw [after_zero, drop_blanks hg hu]; omega

theorem count_paren_none {c g : Bool} {α : Type} (p : Counted g c α) {s : Str} (h : ∀ c t, s = c :: t → c ≠ '(') :
    (Counted.parenthesized p).count calls s = 0 := by
  rw [count_parenthesized, run_wsRight, tag_none h]; rfl

theorem count_stop {low : Counted true true Expr} {op : G true Str} {same : Counted false false Expr} {i r : Str} {e : Expr}
    (h1 : low.p.run fix i = some (r, e)) (h2 : op.run fix r = none) :
    (Count.binLevel low op same).count calls i = low.count calls i := by
  rw [count_binLevel, h1]; simp only [after, h2, Nat.zero_add, Nat.add_zero]

theorem count_step {low : Counted true true Expr} {op : G true Str} {same : Counted false false Expr} {i r r1 o : Str} {e : Expr}
    (h1 : low.p.run fix i = some (r, e)) (h2 : op.run fix r = some (r1, o)) :
    (Count.binLevel low op same).count calls i = low.count calls i + same.count calls r1 := by
  rw [count_binLevel, h1]; simp only [after, h2, Nat.zero_add]

/-- the counted parser of a level -/
def levelQ : Nat → Counted true true Expr
  | 2 => Count.expr2
  | 3 => Count.expr3
  | 4 => Count.expr4
  | 5 => Count.expr5
  | 6 => Count.expr6
  | 7 => Count.expr7
  | 8 => Count.expr8
  | _ => Count.expr9n

/-! ### Operands -/

theorem count_expr2 (i : Str) : Count.expr2.count calls i = (Counted.parenthesized (recE .e9w)).count calls i +
    (if ((parenthesized (callE .e9w)).run fix i).isNone then 0 +
      (if ((P.map (fun t => Expr.call c!"TERM" [.const (.field t)]) (lift termCall)).run fix i).isNone then Count.callP.count calls i +
        (if (callExpr.run fix i).isNone then 0 +
          (if ((P.map (fun v => Expr.const v) (lift constant)).run fix i).isNone then Count.subSearch.count calls i else 0)
        else 0)
      else 0)
    else 0) := rfl

theorem count_callP (i : Str) : Count.callP.count calls i = 0 + after ((lift token : G true Str).run fix i)
    ((Counted.parenthesized (Counted.commaList0 (recE .e9n))).count calls) := rfl

theorem count_const {u r : Str} {v : Constant} (hk : constant.run () u = some (r, v)) (hp : ∀ c s, u = c :: s → c ≠ '(')
    (h3 : Count.callP.count calls u = 0) : Count.expr2.count calls u = 0 := by
  have h : ((P.map (fun v => Expr.const v) (lift constant)).run fix u).isNone = false := by rw [run_map, run_lift, hk]; rfl
  rw [count_expr2, count_paren_none _ hp, h, h3]
  simp

theorem count_value {v : Constant} {t rest : Str} (h : OptValue v t) (ha : After rest) (hx : Stops isExtraChar rest)
    (hp : ∀ c t, rest = c :: t → c ≠ '(') : Count.expr2.count calls (t ++ rest) = 0 := by
  have hk := value_read h hx
  rcases value_lead h with ⟨w, d, rfl, hw, hd⟩ | ⟨s, rfl, _, _⟩
  · have hp' : ∀ c t, d ++ rest = c :: t → c ≠ '(' := by
      cases hd with
      | nil => exact hp
      | dot => intro c t e; simp only [List.cons_append, List.cons.injEq] at e; rw [← e.1]; decide
    refine count_const hk ?_ ?_ <;> rw [List.append_assoc]
    · exact lead_ne hw (by decide)
    · rw [count_callP, run_lift, run_token hw.ne hw.token (hd.token ha) hw.res]
      exact (Nat.zero_add _).trans (count_paren_none _ hp')
  · exact count_const hk (by intro c s e; simp only [List.cons_append, List.cons.injEq] at e; rw [← e.1]; decide) rfl

/-- the calls of the arguments of a call -/
def CheapArgs (es : List Expr) (s : Str) : Prop :=
  ∀ gs rest, Blanks gs → ∀ e es', es = e :: es' → ∀ n, calls .e9n (s ++ (gs ++ ')' :: rest)) +
    after ((callE .e9n).run fix (s ++ (gs ++ ')' :: rest)))
      (Counted.sepCount ((commaSep : G true Str).run fix) ((callE .e9n).run fix) (fun _ => 0) (calls .e9n) n) ≤ s.length + 1

/-- what is counted on one expression -/
def Cheap (k : Nat) (s : Str) : Prop :=
  ∀ rest, Follow k rest → (levelQ k).count calls (s ++ rest) ≤ s.length ∧
    (k = 9 → (Stops isSpace rest ∨ ∃ u, rest.dropWhile isSpace = ')' :: u) → Count.expr9w.count calls (s ++ rest) ≤ s.length + 1)

theorem count_commaList0 (i : Str) : (Counted.commaList0 (recE .e9n)).count calls i = calls .e9n i +
    after ((callE .e9n).run fix i) (fun r => Counted.sepCount ((commaSep : G true Str).run fix) ((callE .e9n).run fix) (fun _ => 0) (calls .e9n)
      r.length r) := rfl

theorem calls_close9n (rest : Str) : calls .e9n (')' :: rest) = 1 := (calls_eq .e9n _).trans rfl

theorem calls_close9w (rest : Str) : calls .e9w (')' :: rest) = 1 := (calls_eq .e9w _).trans rfl

theorem cheapArgs_one {e : Expr} {s : Str} (hw : Written 9 e s) (ih : Cheap 9 s) : CheapArgs [e] s := by
  intro gs rest hg e' es' _ n
  have hF : Follow 9 (gs ++ ')' :: rest) := .blanks_close hg (by decide)
  have h1 : (callE .e9n).run fix (s ++ (gs ++ ')' :: rest)) = some (gs ++ ')' :: rest, e) := (fix_eq .e9n _).trans (written_good hw _ hF).1
  have hc : (commaSep : G true Str).run fix (gs ++ ')' :: rest) = none := by
    rw [commaSep, run_ws, close_drop hg, tag_ne (by decide)]; rfl
  have h2 : calls .e9n (s ++ (gs ++ ')' :: rest)) ≤ s.length + 1 := by
    rw [calls_eq]
    have := (ih _ hF).1
    show 1 + Count.expr9n.count calls _ ≤ _
    have : Count.expr9n.count calls (s ++ (gs ++ ')' :: rest)) ≤ s.length := this
    omega
  rw [h1]
  cases n with
  | zero => exact h2
  | succ n =>
    show _ + (0 + after ((commaSep : G true Str).run fix (gs ++ ')' :: rest)) _) ≤ _
    rw [hc]; exact h2

theorem cheapArgs_more {e e' : Expr} {es : List Expr} {g₁ g₂ s t : Str} (hw : Written 9 e s) (ha : WrittenArgs (e' :: es) t) (h1 : Blanks g₁)
    (h2 : Blanks g₂) (ih : Cheap 9 s) (iha : CheapArgs (e' :: es) t) : CheapArgs (e :: e' :: es) (s ++ (g₁ ++ ',' :: (g₂ ++ t))) := by
  intro gs rest hg e0 es0 _ n
  have e1 : s ++ (g₁ ++ ',' :: (g₂ ++ t)) ++ (gs ++ ')' :: rest) = s ++ (g₁ ++ ',' :: (g₂ ++ (t ++ (gs ++ ')' :: rest)))) := by simp
  have hF : Follow 9 (g₁ ++ ',' :: (g₂ ++ (t ++ (gs ++ ')' :: rest)))) := .blanks_close h1 (by decide)
  have hr : (callE .e9n).run fix (s ++ (g₁ ++ ',' :: (g₂ ++ (t ++ (gs ++ ')' :: rest))))) = some (_, e) :=
    (fix_eq .e9n _).trans (written_good hw _ hF).1
  have hn : calls .e9n (s ++ (g₁ ++ ',' :: (g₂ ++ (t ++ (gs ++ ')' :: rest))))) ≤ s.length + 1 := by
    rw [calls_eq]
    have : Count.expr9n.count calls (s ++ (g₁ ++ ',' :: (g₂ ++ (t ++ (gs ++ ')' :: rest))))) ≤ s.length := (ih _ hF).1
    show 1 + Count.expr9n.count calls _ ≤ _
    omega
  rw [e1, hr]
  simp only [List.length_append, List.length_cons]
  cases n with
  | zero =>
    show _ + 0 ≤ _
    omega
  | succ n =>
    show _ + (0 + after ((commaSep : G true Str).run fix (g₁ ++ ',' :: (g₂ ++ (t ++ (gs ++ ')' :: rest))))) _) ≤ _
    rw [comma_read h1 h2 (args_comma ha).2]
    have := iha gs rest hg e' es rfl n
    simp only [after] at this ⊢
    omega

theorem notAlt_count {b : Bool} {s rest : Str} {k : Nat} (hs : Lead b s) (hr : Follow k rest) :
    (Counted.sepPair (free (tagi! "NOT")) (free ms1) (recE .e7) <|||>
      Counted.seq (free (ws (tagi! "NOT"))) (Counted.parenthesized (recE .e9w))).count calls (s ++ rest) = 0 := by
  have key : ∀ U, (Counted.sepPair (free (tagi! "NOT")) (free ms1) (recE .e7) <|||>
      Counted.seq (free (ws (tagi! "NOT"))) (Counted.parenthesized (recE .e9w))).count calls U =
      (0 + after ((tagi! "NOT" : G true Str).run fix U) fun r => 0 + after ((ms1 : G true Str).run fix r) (calls .e7)) +
      (if ((sepPair (tagi! "NOT") ms1 (callE .e7) : G true (Str × Expr)).run fix U).isNone then
        0 + after ((ws (tagi! "NOT") : G true Str).run fix U) ((Counted.parenthesized (recE .e9w)).count calls) else 0) := fun _ => rfl
  cases hs with
  | paren s => rfl
  | quote => rfl
  | @word w d t hw hdt ht =>
    rw [List.append_assoc, List.append_assoc]
    have hu := hdt.letter (ht.after hr)
    generalize hU : d ++ (t ++ rest) = U at hu
    have hd : (w ++ U).dropWhile isSpace = w ++ U := drop_stops (lead_stops hw)
    rw [key, run_ws, hd]
    rcases notTag_word hw hu with hn | ⟨m, x, xs, hn, hx⟩
    · rw [hn]; simp [after]
    · have hms : (ms1 : G true Str).run fix (x :: xs) = none := by rw [run_ms1]; simp [tokenChar_space hx]
      have hdx : (x :: xs).dropWhile isSpace = x :: xs := by
        rw [List.dropWhile_cons_of_neg]; rw [tokenChar_space hx]; simp
      have hpar : (Counted.parenthesized (recE .e9w)).count calls (x :: xs) = 0 :=
        count_paren_none _ (by intro c t e; simp only [List.cons.injEq] at e; rw [← e.1]; exact tokenChar_ne hx (by decide))
      rw [hn, Option.map_some]
      simp only [after, hms, hdx, hpar]
      simp

theorem count_expr6 (i : Str) : Count.expr6.count calls i =
    0 + (if (fieldInExpr.run fix i).isNone then (Count.binLevel Count.expr5 (ws cmpOps) (recE .e6)).count calls i else 0) := rfl

theorem count_expr7 (i : Str) : Count.expr7.count calls i =
    (Counted.sepPair (free (tagi! "NOT")) (free ms1) (recE .e7) <|||>
      Counted.seq (free (ws (tagi! "NOT"))) (Counted.parenthesized (recE .e9w))).count calls i +
    (if ((P.map (fun x => Expr.unary x.1 x.2) notAlt).run fix i).isNone then Count.expr6.count calls i else 0) := rfl

theorem cheap_up {k : Nat} {e : Expr} {s : Str} (hw : Written k e s) (hk : k < 9) (ih : Cheap k s) : Cheap (k + 1) s := by
  intro rest hr
  have h2 := written_two_le hw
  have hlead : ∀ b, k ≤ 6 → (b = false → k ≤ 5) → Lead b s := fun b => written_lead hw
  have hc := (ih rest (hr.mono (by omega))).1
  have hl := (written_good hw rest (hr.mono (by omega))).1
  have hq : ∀ j, 3 ≤ j → j ≠ 7 → j ≤ k + 1 → (opAt j).run fix rest = none := fun j h3 h7 hj => hr.quiet hj h3 h7
  have hcases : k = 2 ∨ k = 3 ∨ k = 4 ∨ k = 5 ∨ k = 6 ∨ k = 7 ∨ k = 8 := by omega
  rcases hcases with rfl | rfl | rfl | rfl | rfl | rfl | rfl
  · exact ⟨Nat.le_trans (Nat.le_of_eq (count_stop (low := Count.expr2) hl (hq 3 (by omega) (by omega) (by omega)))) hc, by intro h; omega⟩
  · exact ⟨Nat.le_trans (Nat.le_of_eq (count_stop (low := Count.expr3) hl (hq 4 (by omega) (by omega) (by omega)))) hc, by intro h; omega⟩
  · exact ⟨Nat.le_trans (Nat.le_of_eq (count_stop (low := Count.expr4) hl (hq 5 (by omega) (by omega) (by omega)))) hc, by intro h; omega⟩
  · refine ⟨?_, by intro h; omega⟩
    show Count.expr6.count calls (s ++ rest) ≤ _
    rw [count_expr6, fieldInExpr, run_map, run_lift, fieldIn_none (hlead false (by omega) (by omega)) hr]
    have : (Count.binLevel Count.expr5 (ws cmpOps) (recE .e6)).count calls (s ++ rest) = _ :=
      count_stop (low := Count.expr5) (same := recE .e6) hl (hq 6 (by omega) (by omega) (by omega))
    have hc : Count.expr5.count calls (s ++ rest) ≤ s.length := hc
    rw [← this] at hc
    simpa using hc
  · refine ⟨?_, by intro h; omega⟩
    show Count.expr7.count calls (s ++ rest) ≤ _
    rw [count_expr7, notAlt_count (hlead true (by omega) (by simp)) hr, Nat.zero_add]
    have hc : Count.expr6.count calls (s ++ rest) ≤ s.length := hc
    split
    · exact hc
    · omega
  · exact ⟨Nat.le_trans (Nat.le_of_eq (count_stop (low := Count.expr7) hl (hq 8 (by omega) (by omega) (by omega)))) hc, by intro h; omega⟩
  · have h9 := hq 9 (by omega) (by omega) (by omega)
    refine ⟨Nat.le_trans (Nat.le_of_eq (count_stop (low := Count.expr8) hl h9)) hc, fun _ hcl => ?_⟩
    have hl : expr8.run fix (s ++ rest) = some (rest, e) := hl
    have hc : Count.expr8.count calls (s ++ rest) ≤ s.length := hc
    show (Count.binLevel Count.expr8 (ws andPattern <||> P.map (fun _ => c!"AND") ms1) (recE .e9w)).count calls (s ++ rest) ≤ _
    by_cases hsp : Stops isSpace rest
    · have : (ws andPattern <||> P.map (fun _ => c!"AND") ms1 : G true Str).run fix rest = none := by
        rw [and9w, h9, Option.none_or]
        cases rest with
        | nil => rfl
        | cons c t => rw [run_ms1]; simp [hsp c t rfl]
      rw [count_stop (low := Count.expr8) hl this]
      omega
    · obtain ⟨u, hu⟩ := hcl.resolve_left hsp
      cases rest with
      | nil => exact absurd (Stops.nil _) hsp
      | cons c t =>
        cases hcs : isSpace c with
        | false => exact absurd (Stops.cons hcs) hsp
        | true =>
          rw [List.dropWhile_cons_of_pos hcs] at hu
          have : (ws andPattern <||> P.map (fun _ => c!"AND") ms1 : G true Str).run fix (c :: t) = some (')' :: u, c!"AND") := by
            rw [and9w, h9, Option.none_or, run_ms1]
            simp only [hcs, if_true, Option.map_some, hu]
          rw [count_step (low := Count.expr8) hl this]
          have := calls_close9w u
          show _ + calls .e9w (')' :: u) ≤ _
          omega

theorem written_cheap {k : Nat} {e : Expr} {s : Str} (h : Written k e s) : Cheap k s := by
  induction h using Written.rec (motive_2 := fun es s _ => CheapArgs es s) with
  | @value v t h =>
    intro rest hr
    refine ⟨?_, by intro h; omega⟩
    show Count.expr2.count calls (t ++ rest) ≤ _
    rw [count_value h hr.after hr.extra (fun c t e => by
      have := hr.head (f := (· == '(')) (by decide) c t e; simpa using this)]
    omega
  | @parens e g₁ g₂ s h1 h2 hw ih =>
    intro rest hr
    refine ⟨?_, by intro h; omega⟩
    have hs := written_stops hw
    have hF : Follow 9 (g₂ ++ ')' :: rest) := .blanks_close h2 (by decide)
    have hc := (ih _ hF).2 rfl (.inr ⟨rest, close_drop h2⟩)
    have hg := (written_good hw _ hF).2 rfl (.inr ⟨rest, close_drop h2⟩)
    have hpar : (parenthesized (callE .e9w)).run fix ('(' :: (g₁ ++ (s ++ (g₂ ++ ')' :: rest)))) = some (rest, e) :=
      parenthesized_read h1 (stops_append hs.2 hs.1) ((fix_eq .e9w _).trans hg) (close_drop h2)
    have e1 : '(' :: (g₁ ++ (s ++ (g₂ ++ c!")"))) ++ rest = '(' :: (g₁ ++ (s ++ (g₂ ++ ')' :: rest))) := by simp
    show Count.expr2.count calls _ ≤ _
    rw [e1, count_expr2, hpar, count_paren _ h1 (stops_append hs.2 hs.1)]
    show calls .e9w _ + 0 ≤ _
    rw [calls_eq]
    show 1 + Count.expr9w.count calls _ + 0 ≤ _
    simp only [List.length_append, List.length_cons, List.length_nil]
    omega
  | @apply f es g₁ g₂ s hf ht h1 h2 ha ih =>
    intro rest hr
    refine ⟨?_, by intro h; omega⟩
    have hw := name_lead hf
    have hrun := callP_args (rest := rest) hf h1 h2 ha (args_good ha)
    have e1 : f ++ '(' :: (g₁ ++ (s ++ (g₂ ++ c!")"))) ++ rest = f ++ '(' :: (g₁ ++ (s ++ (g₂ ++ ')' :: rest))) := by simp
    have hargs : (Counted.commaList0 (recE .e9n)).count calls ((s ++ (g₂ ++ ')' :: rest)).dropWhile isSpace) ≤ s.length + 1 := by
      rw [count_commaList0]
      cases es with
      | nil =>
        cases ha
        rw [List.nil_append, close_drop h2, calls_close9n]
        have : (callE .e9n).run fix (')' :: rest) = none := (fix_eq .e9n (')' :: rest)).trans (expr9n_close rest)
        rw [this]
        simp [after]
      | cons e es =>
        rw [drop_stops (args_comma ha).2]
        cases hr : (callE .e9n).run fix (s ++ (g₂ ++ ')' :: rest)) with
        | none =>
          have := ih g₂ rest h2 e es rfl 0
          rw [hr] at this
          exact this
        | some x =>
          have := ih g₂ rest h2 e es rfl x.1.length
          rw [hr] at this
          exact this
    have hc : Count.callP.count calls (f ++ '(' :: (g₁ ++ (s ++ (g₂ ++ ')' :: rest)))) ≤ s.length + 1 := by
      rw [count_callP, run_lift, run_token hw.ne hw.token (Stops.cons (by decide)) hw.res]
      simp only [after, Nat.zero_add]
      rw [count_parenthesized, run_wsRight, tag_same, Option.map_some]
      show 0 + ((Counted.commaList0 (recE .e9n)).count calls _ + after _ fun _ => 0) ≤ _
      rw [after_zero, dropWhile_append_of_blank (blanks_space h1)]
      omega
    show Count.expr2.count calls _ ≤ _
    have hcall : (callExpr.run fix (f ++ '(' :: (g₁ ++ (s ++ (g₂ ++ ')' :: rest))))).isNone = false := by rw [callExpr, run_map, hrun]; rfl
    rw [e1, count_expr2, count_paren_none _ (lead_ne hw (by decide)), parenthesized_none _ (lead_ne hw (by decide)), hcall]
    simp only [List.length_append, List.length_cons, List.length_nil, Option.isNone_none, if_true]
    split <;> simp <;> omega
  | @term k t h a b =>
    intro rest hr
    refine ⟨?_, by intro h; omega⟩
    have hrun : ((P.map (fun t => Expr.call c!"TERM" [.const (.field t)]) (lift termCall)).run fix (k ++ '(' :: (t ++ c!")") ++ rest)).isNone
        = false := by
      rw [show k ++ '(' :: (t ++ c!")") ++ rest = k ++ '(' :: (t ++ ')' :: rest) by simp, run_map, run_lift, termCall_read h a b]; rfl
    have hw := term_lead h
    show Count.expr2.count calls _ ≤ _
    rw [count_expr2, hrun]
    rw [show k ++ '(' :: (t ++ c!")") ++ rest = k ++ '(' :: (t ++ ')' :: rest) by simp, count_paren_none _ (lead_ne hw (by decide))]
    simp
  | @up k e s h hk ih => exact cheap_up h hk ih
  | @isIn f g₁ k g₂ g₃ g₄ s vs hf hg hk h2 h3 h4 hv =>
    intro rest hr
    refine ⟨?_, by intro h; omega⟩
    show Count.expr6.count calls _ ≤ _
    have : (fieldInExpr.run fix (f ++ (g₁ ++ (k ++ (g₂ ++ '(' :: (g₃ ++ (s ++ (g₄ ++ c!")")))))) ++ rest)).isNone = false := by
      have e : f ++ (g₁ ++ (k ++ (g₂ ++ '(' :: (g₃ ++ (s ++ (g₄ ++ c!")")))))) ++ rest =
          f ++ (g₁ ++ (k ++ (g₂ ++ '(' :: (g₃ ++ (s ++ (g₄ ++ ')' :: rest)))))) := by simp
      rw [e, fieldInExpr, run_map, run_lift, fieldIn_read hf hg hk h2 h3 h4 hv]; rfl
    rw [count_expr6, this]
    simp
  | @not n e g s hn hg h ih =>
    intro rest hr
    refine ⟨?_, by intro h; omega⟩
    have hs := written_stops h
    obtain ⟨c, t, rfl, hc⟩ := gap_head hg
    have hd : (t ++ (s ++ rest)).dropWhile isSpace = s ++ rest :=
      drop_gap_tail (fun x hx => gap_space hg x (by simp [hx])) (stops_append hs.2 hs.1)
    have hms : (ms1 : G true Str).run fix (c :: (t ++ (s ++ rest))) =
        some (s ++ rest, c :: (t ++ (s ++ rest)).takeWhile isSpace) := by
      rw [run_ms1]; simp only [hc, if_true, hd]
    have h7 : (callE .e7).run fix (s ++ rest) = some (rest, e) := (fix_eq .e7 _).trans (written_good h rest hr).1
    have hne : (sepPair (tagi! "NOT") ms1 (callE .e7) : G true (Str × Expr)).run fix (n ++ (c :: (t ++ (s ++ rest)))) =
        some (rest, n, e) := by
      rw [run_sepPair, tagi_read (by rw [hn]; decide), Option.bind_some, hms, Option.bind_some, h7]
      rfl
    have hcs : Count.expr7.count calls (s ++ rest) ≤ s.length := (ih rest hr).1
    show Count.expr7.count calls _ ≤ _
    have e1 : n ++ c :: t ++ s ++ rest = n ++ (c :: (t ++ (s ++ rest))) := by simp
    have hrun : ((P.map (fun x => Expr.unary x.1 x.2) notAlt).run fix (n ++ (c :: (t ++ (s ++ rest))))).isNone = false := by
      rw [run_map, notAlt, run_alt, hne]; rfl
    have hcount : (Counted.sepPair (free (tagi! "NOT")) (free ms1) (recE .e7)).count calls (n ++ (c :: (t ++ (s ++ rest)))) = calls .e7 (s ++ rest) := by
      show 0 + after ((tagi! "NOT" : G true Str).run fix _) (fun r => 0 + after ((ms1 : G true Str).run fix r) (calls .e7)) = _
      rw [tagi_read (by rw [hn]; decide)]
      simp only [after, hms, Nat.zero_add]
    rw [e1, count_expr7, hrun, count_alt, hcount]
    show calls .e7 (s ++ rest) + (if ((sepPair (tagi! "NOT") ms1 (callE .e7) : G true (Str × Expr)).run fix _).isNone then _ else 0) + 0 ≤ _
    rw [hne, calls_eq]
    show 1 + Count.expr7.count calls _ + 0 + 0 ≤ _
    simp only [List.length_append, List.length_cons]
    omega
  | @notParen n e g₁ g₂ s hn h1 h2 h ih =>
    intro rest hr
    refine ⟨?_, by intro h; omega⟩
    have hs := written_stops h
    have hF : Follow 9 (g₂ ++ ')' :: rest) := .blanks_close h2 (by decide)
    have h9 := (written_good h _ hF).2 rfl (.inr ⟨rest, close_drop h2⟩)
    have hcs := (ih _ hF).2 rfl (.inr ⟨rest, close_drop h2⟩)
    have hpar : (parenthesized (callE .e9w)).run fix ('(' :: (g₁ ++ (s ++ (g₂ ++ ')' :: rest)))) = some (rest, e) :=
      parenthesized_read h1 (stops_append hs.2 hs.1) ((fix_eq .e9w _).trans h9) (close_drop h2)
    have hns : Stops isSpace (n ++ '(' :: (g₁ ++ (s ++ (g₂ ++ ')' :: rest)))) := by
      obtain ⟨c, t, rfl, hc, _⟩ := lower_cons hn
      exact Stops.cons (tokenChar_space (letter_token (lowerC_letter (by rw [hc]; decide))))
    show Count.expr7.count calls _ ≤ _
    have e1 : n ++ '(' :: (g₁ ++ (s ++ (g₂ ++ c!")"))) ++ rest = n ++ '(' :: (g₁ ++ (s ++ (g₂ ++ ')' :: rest))) := by simp
    have h3 : (ms1 : G true Str).run fix ('(' :: (g₁ ++ (s ++ (g₂ ++ ')' :: rest)))) = none := rfl
    have hws : (ws (tagi! "NOT") : G true Str).run fix (n ++ '(' :: (g₁ ++ (s ++ (g₂ ++ ')' :: rest)))) =
        some ('(' :: (g₁ ++ (s ++ (g₂ ++ ')' :: rest))), n) := by
      rw [run_ws, drop_stops hns, tagi_read (by rw [hn]; decide), Option.map_some, drop_stops (Stops.cons (by decide))]
    have hrun : ((P.map (fun x => Expr.unary x.1 x.2) notAlt).run fix (n ++ '(' :: (g₁ ++ (s ++ (g₂ ++ ')' :: rest))))).isNone = false := by
      rw [run_map, notAlt, run_alt, run_sepPair, tagi_read (by rw [hn]; decide), Option.bind_some, h3, Option.bind_none,
        Option.none_or, run_seq, hws, Option.bind_some, hpar]
      rfl
    have ha1 : (Counted.sepPair (free (tagi! "NOT")) (free ms1) (recE .e7)).count calls (n ++ '(' :: (g₁ ++ (s ++ (g₂ ++ ')' :: rest)))) = 0 := by
      show 0 + after ((tagi! "NOT" : G true Str).run fix _) (fun r => 0 + after ((ms1 : G true Str).run fix r) (calls .e7)) = _
      rw [tagi_read (by rw [hn]; decide)]
      simp only [after, h3, Nat.zero_add]
    have ha2 : (Counted.seq (free (ws (tagi! "NOT"))) (Counted.parenthesized (recE .e9w))).count calls
        (n ++ '(' :: (g₁ ++ (s ++ (g₂ ++ ')' :: rest)))) ≤ s.length + 2 := by
      show 0 + after ((ws (tagi! "NOT") : G true Str).run fix _) ((Counted.parenthesized (recE .e9w)).count calls) ≤ _
      rw [hws]
      show 0 + (Counted.parenthesized (recE .e9w)).count calls _ ≤ _
      rw [count_paren _ h1 (stops_append hs.2 hs.1)]
      show 0 + calls .e9w _ ≤ _
      rw [calls_eq]
      show 0 + (1 + Count.expr9w.count calls _) ≤ _
      omega
    rw [e1, count_expr7, hrun, count_alt, ha1]
    simp only [List.length_append, List.length_cons, List.length_nil]
    split <;> simp <;> omega
  | @op k l r op g₁ g₂ s₁ s₂ ho h1 h2 ht hl hr ihl ihr =>
    intro rest hrest
    have hs := written_stops hr
    have hF : Follow k (g₁ ++ (op ++ (g₂ ++ (s₂ ++ rest)))) := .op ho h1 (fun e => by
      rcases ht with h | h
      · exact h
      · exact absurd e h.1) (by omega)
    have hL := (written_good hl _ hF).1
    have hLc := (ihl _ hF).1
    have hop := op_read ho h1 h2 ht (stops_append (u := rest) hs.2 hs.1) (fun c t e => by
      have := written_ne hr (q := '=') (by decide) c t e; simpa using this)
    have hRc := ihr rest hrest
    have e : s₁ ++ g₁ ++ op ++ g₂ ++ s₂ ++ rest = s₁ ++ (g₁ ++ (op ++ (g₂ ++ (s₂ ++ rest)))) := by simp
    have hlen : 1 ≤ op.length := by
      cases ho <;> first | decide | (rename_i h; cases op with
        | nil => exact absurd h (by decide)
        | cons => simp)
    rw [e]
    simp only [List.length_append]
    generalize hk : k + 1 = k' at *
    cases ho with
    | mul | div =>
      obtain rfl : k = _ := Nat.succ.inj hk
      refine ⟨?_, by intro h; omega⟩
      have h := count_step (low := Count.expr2) (same := recE .e3) hL hop
      have h' : (recE .e3).count calls (s₂ ++ rest) = 1 + Count.expr3.count calls (s₂ ++ rest) := calls_eq .e3 _
      have a : Count.expr2.count calls _ ≤ _ := hLc
      have b : Count.expr3.count calls _ ≤ _ := hRc.1
      refine Nat.le_trans (Nat.le_of_eq h) ?_
      omega
    | add | sub =>
      obtain rfl : k = _ := Nat.succ.inj hk
      refine ⟨?_, by intro h; omega⟩
      have h := count_step (low := Count.expr3) (same := recE .e4) hL hop
      have h' : (recE .e4).count calls (s₂ ++ rest) = 1 + Count.expr4.count calls (s₂ ++ rest) := calls_eq .e4 _
      have a : Count.expr3.count calls _ ≤ _ := hLc
      have b : Count.expr4.count calls _ ≤ _ := hRc.1
      refine Nat.le_trans (Nat.le_of_eq h) ?_
      omega
    | cat =>
      obtain rfl : k = _ := Nat.succ.inj hk
      refine ⟨?_, by intro h; omega⟩
      have h := count_step (low := Count.expr4) (same := recE .e5) hL hop
      have h' : (recE .e5).count calls (s₂ ++ rest) = 1 + Count.expr5.count calls (s₂ ++ rest) := calls_eq .e5 _
      have a : Count.expr4.count calls _ ≤ _ := hLc
      have b : Count.expr5.count calls _ ≤ _ := hRc.1
      refine Nat.le_trans (Nat.le_of_eq h) ?_
      omega
    | or h =>
      obtain rfl : k = _ := Nat.succ.inj hk
      refine ⟨?_, by intro h; omega⟩
      have h := count_step (low := Count.expr7) (same := recE .e8) hL hop
      have h' : (recE .e8).count calls (s₂ ++ rest) = 1 + Count.expr8.count calls (s₂ ++ rest) := calls_eq .e8 _
      have a : Count.expr7.count calls _ ≤ _ := hLc
      have b : Count.expr8.count calls _ ≤ _ := hRc.1
      refine Nat.le_trans (Nat.le_of_eq h) ?_
      omega
    | and h =>
      obtain rfl : k = _ := Nat.succ.inj hk
      have a : Count.expr8.count calls _ ≤ _ := hLc
      refine ⟨?_, fun _ hc => ?_⟩
      · have h := count_step (low := Count.expr8) (same := recE .e9n) hL hop
        have h' : (recE .e9n).count calls (s₂ ++ rest) = 1 + Count.expr9n.count calls (s₂ ++ rest) := calls_eq .e9n _
        have b : Count.expr9n.count calls _ ≤ _ := hRc.1
        refine Nat.le_trans (Nat.le_of_eq h) ?_
        omega
      · have hop' : (ws andPattern <||> P.map (fun _ => c!"AND") ms1 : G true Str).run fix (g₁ ++ (op ++ (g₂ ++ (s₂ ++ rest)))) =
            some (s₂ ++ rest, op) := by rw [and9w, hop]; rfl
        have h := count_step (low := Count.expr8) (same := recE .e9w) hL hop'
        have h' : (recE .e9w).count calls (s₂ ++ rest) = 1 + Count.expr9w.count calls (s₂ ++ rest) := calls_eq .e9w _
        have b := hRc.2 rfl hc
        refine Nat.le_trans (Nat.le_of_eq h) ?_
        omega
    | _ =>
      obtain rfl : k = _ := Nat.succ.inj hk
      refine ⟨?_, by intro h; omega⟩
      show Count.expr6.count calls _ ≤ _
      rw [count_expr6]
      have h : (Count.binLevel Count.expr5 (ws cmpOps) (recE .e6)).count calls _ = _ :=
        count_step (low := Count.expr5) (same := recE .e6) hL hop
      have h' : (recE .e6).count calls (s₂ ++ rest) = 1 + Count.expr6.count calls (s₂ ++ rest) := calls_eq .e6 _
      have a : Count.expr5.count calls _ ≤ _ := hLc
      have b : Count.expr6.count calls _ ≤ _ := hRc.1
      rw [h, h']
      split <;> simp only [List.length_cons, List.length_nil] at * <;> omega
  | nil => intro gs rest _ e es' h; simp at h
  | one h ih => exact cheapArgs_one h ih
  | more h h1 h2 ha ih iha => exact cheapArgs_more h ha h1 h2 ih iha

end Verif
