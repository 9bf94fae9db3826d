import Verif.Lemmas.Size
import Verif.Spec.Query
import Verif.Lemmas.Numbers
/-
The length of an expression is bounded by the length of the text it is written as.
-/
namespace Verif.Lemmas.Size
open Verif Verif.Spec

/-- ten times the square -/
def sq (n : Nat) : Nat := 10 * (n * n)

theorem sq_add (a b : Nat) : sq a + sq b ≤ sq (a + b) := by
  simp only [sq, Nat.mul_add, Nat.add_mul]; omega

theorem sq_lin (a : Nat) : 10 * a ≤ sq a := by
  cases a with
  | zero => simp
  | succ a => simp only [sq, Nat.mul_add, Nat.add_mul]; omega

theorem sq_mono {a b : Nat} (h : a ≤ b) : sq a ≤ sq b := Nat.mul_le_mul_left _ (Nat.mul_le_mul h h)

theorem lower_len {k kw : Str} (h : lower k = kw) : k.length = kw.length := by rw [← h]; simp [lower]

theorem spelling_len : ∀ x ∈ unitSpellings, 1 ≤ x.1.length ∧ x.2.length ≤ 7 := by decide

theorem unit_len {m s u : Str} (h : (s, u) ∈ unitSpellings) (hm : lower m = s) : 1 ≤ m.length ∧ u.length ≤ 7 := by
  have := spelling_len _ h
  rw [lower_len hm]; exact this

theorem value_len {ds : Str} (h : IsDigits ds) : (showNat (digitsVal ds)).length ≤ ds.length := by
  have h1 : digitsVal ds < 10 ^ ds.length := by
    have key : ∀ (ds : Str), (∀ c ∈ ds, isDig c = true) → ∀ a, (ds.foldl (fun a c => a * 10 + (c.toNat - 48)) a) < (a + 1) * 10 ^ ds.length := by
      intro ds
      induction ds with
      | nil => intro _ a; simp
      | cons c cs ih =>
        intro hc a
        have h1 := ih (fun x hx => hc x (List.mem_cons_of_mem _ hx)) (a * 10 + (c.toNat - 48))
        have h2 : c.toNat - 48 ≤ 9 := by
          have := hc c List.mem_cons_self
          simp only [isDig, Bool.and_eq_true, decide_eq_true_eq] at this
          have h3 : c.toNat ≤ 57 := this.2
          omega
        simp only [List.foldl_cons, List.length_cons]
        refine Nat.lt_of_lt_of_le h1 ?_
        rw [Nat.pow_succ, Nat.mul_comm (10 ^ cs.length) 10, ← Nat.mul_assoc]
        exact Nat.mul_le_mul_right _ (by omega)
    have := key ds h.digits 0
    rwa [Nat.zero_add, Nat.one_mul] at this
  have h2 : 1 ≤ ds.length := List.length_pos_iff.2 h.ne
  have := showNat_length (n := digitsVal ds) (ds.length - 1) (by rwa [Nat.sub_add_cancel h2])
  omega

theorem span_len {x : TimeSpan} {t : Str} (h : SpanText x t) : spanLen (some x) ≤ t.length + 6 := by
  cases h with
  | plain hd _ hu hm =>
    have h1 := unit_len hu hm
    have h2 := value_len hd
    simp only [spanLen, List.length_append]
    show (showNat _).length + _ ≤ _
    omega
  | plus hd _ hu hm =>
    have h1 := unit_len hu hm
    have h2 := value_len hd
    simp only [spanLen, List.length_append, List.length_cons]
    show (showNat _).length + _ ≤ _
    omega
  | minus hd _ hu hm =>
    rename_i ds m s u _
    have h1 := unit_len hu hm
    have h2 := value_len hd
    have h3 : (showInt (-(digitsVal ds : Int))).length ≤ 1 + (showNat (digitsVal ds)).length := by
      cases h : digitsVal ds with
      | zero => decide
      | succ n =>
        show ('-' :: showNat (n + 1)).length ≤ _
        simp only [List.length_cons]; omega
    simp only [spanLen, List.length_append, List.length_cons]
    omega

theorem shift_len {x : Option TimeSpan} {t : Str} (h : ShiftText x t) : spanLen x ≤ t.length + 8 := by
  cases h with
  | none => simp [spanLen]
  | amount h => have := span_len h; omega
  | one hu hm =>
    have h1 := unit_len hu hm
    have h2 : (showInt 1).length = 1 := rfl
    simp only [spanLen]; omega
  | minusOne hu hm =>
    have h1 := unit_len hu hm
    have h2 : (showInt (-1)).length = 2 := rfl
    simp only [spanLen, List.length_cons]; omega

theorem after_len {x : Option TimeSpan} {t : Str} (h : AfterText x t) : spanLen x ≤ t.length + 8 := by
  cases h with
  | none => simp [spanLen]
  | amount h => have := span_len h; omega

theorem field_len {w : Str} (h : FieldText w) : 1 ≤ w.length := by
  cases h with
  | one h => exact List.length_pos_iff.2 h.name.ne
  | dot _ _ => simp only [List.length_append, List.length_cons]; omega

theorem showInt_pos (n : Int) : 1 ≤ (showInt n).length := by
  have key : ∀ n, 1 ≤ (showNat n).length := fun n => by
    have : ∀ f n acc, acc.length ≤ (showNatAux f n acc).length := by
      intro f
      induction f with
      | zero => intro n acc; simp [showNatAux]
      | succ f ih =>
        intro n acc
        rw [showNatAux]
        split
        · simp
        · have := ih (n / 10) (digitC (n % 10) :: acc)
          simp only [List.length_cons] at this; omega
    rw [showNat, showNatAux]
    split
    · simp
    · have := this n (n / 10) [digitC (n % 10)]
      simpa using this
  cases n with
  | ofNat n => exact key n
  | negSucc n => show 1 ≤ ('-' :: showNat (n + 1)).length; simp

/-- a constant -/
theorem const_len {v : Constant} {t : Str} (h : OptValue v t) : constLen v + 5 ≤ 10 * t.length ∧ 1 ≤ t.length := by
  cases h with
  | field h => have := field_len h; simp only [constLen]; omega
  | yes => decide
  | no => decide
  | int _ => have := showInt_pos; simp only [constLen]; rename_i n _; have := this n; omega
  | str h _ _ => simp only [constLen, List.length_append, List.length_cons, List.length_nil]; omega
  | wild h _ _ => simp only [constLen, List.length_append, List.length_cons, List.length_nil]; omega
  | star h =>
    have : t.length ≠ 0 := by
      intro e
      rw [List.length_eq_zero_iff] at e
      have := h.star
      rw [e] at this; simp at this
    simp only [constLen]; omega
  | span _ hu hm =>
    rename_i n m s u _
    have h1 := unit_len hu hm
    have h2 := showInt_pos n
    have h3 : (showInt (n : Int)).length = (showNat n).length := rfl
    simp only [constLen, spanLen, List.length_append]
    show (showNat n).length + _ + _ ≤ _ ∧ _
    omega
  | dotted h =>
    cases h with
    | decimal neg hw hf =>
      simp only [constLen, List.length_append, List.length_cons]
      have := List.length_pos_iff.2 hw.ne
      omega
    | address h =>
      cases h
      simp only [constLen, List.length_append, List.length_cons]; omega
    | network h _ => simp only [constLen, List.length_append, List.length_cons]; omega
  | snap h =>
    cases h with
    | mk ha hu hm hb _ =>
      have h1 := shift_len ha
      have h2 := after_len hb
      have h3 := unit_len hu hm
      simp only [constLen, List.length_append, List.length_cons, List.length_nil]
      omega

theorem values_len {vs : List Constant} {s : Str} (h : ValueList vs s) : argsLen (vs.map .const) ≤ 10 * s.length ∧ vs.length ≤ s.length := by
  induction h with
  | nil => exact ⟨Nat.le_refl _, Nat.le_refl _⟩
  | one h => have := const_len h; simp only [List.map_cons, List.map_nil, argsLen, exprLen, List.length_cons, List.length_nil]; omega
  | cons h hg _ ih =>
    have := const_len h
    simp only [List.map_cons, argsLen, exprLen, List.length_cons, List.length_append] at ih ⊢
    omega

theorem op_len {k : Nat} {op : Str} (h : Op k op) : 1 ≤ op.length := by
  cases h with
  | or h => have := lower_len h; simp at this; omega
  | and h => have := lower_len h; simp at this; omega
  | _ => decide

theorem in_len {f s : Str} {vs : List Constant} (h : ValueList vs s) (n : Nat) (hn : f.length + s.length + 4 ≤ n) :
    exprLen (.fieldIn f (vs.map .const)) + 4 ≤ sq n := by
  have h1 := values_len h
  have h2 : vs.length * f.length ≤ (f.length + s.length) * (f.length + s.length) := Nat.mul_le_mul (by omega) (by omega)
  have h3 := sq_mono hn
  have h4 : sq (f.length + s.length + 4) = 10 * ((f.length + s.length) * (f.length + s.length)) + 80 * (f.length + s.length) + 160 := by
    simp only [sq, Nat.mul_add, Nat.add_mul]; omega
  simp only [exprLen, List.length_map]
  omega

theorem not_len {n : Str} (h : lower n = c!"not") : n.length = 3 := lower_len h

theorem call_len {f : Str} (hf : IsName f) {es : List Expr} {g₁ g₂ s : Str} (h : argsLen es ≤ sq s.length) :
    exprLen (.call f es) + 4 ≤ sq (f ++ '(' :: (g₁ ++ (s ++ (g₂ ++ c!")")))).length := by
  have h1 := sq_add (f.length + 2) s.length
  have h2 := sq_lin (f.length + 2)
  have h3 := sq_mono (a := f.length + 2 + s.length) (b := (f ++ '(' :: (g₁ ++ (s ++ (g₂ ++ c!")")))).length)
    (by simp only [List.length_append, List.length_cons, List.length_nil]; omega)
  rw [exprLen]; omega

mutual
theorem written_len : ∀ {k : Nat} {e : Expr} {s : Str}, Written k e s → exprLen e + 4 ≤ sq s.length
  | _, _, _, .value h => by
    have h1 := const_len h
    have h2 := sq_lin
    rw [exprLen]
    refine Nat.le_trans ?_ (h2 _)
    omega
  | _, _, _, .parens _ _ h => by
    refine Nat.le_trans (written_len h) (sq_mono ?_)
    simp only [List.length_append, List.length_cons]; omega
  | _, _, _, .apply hf _ _ _ h => call_len hf (args_len h)
  | _, _, _, .term hk _ _ => by
    rename_i k t _ _
    have h1 := lower_len hk
    have h2 := sq_lin (k ++ '(' :: (t ++ c!")")).length
    simp only [List.length_append, List.length_cons, List.length_nil] at h1 h2 ⊢
    simp only [exprLen, argsLen, constLen, List.length_cons, List.length_nil]
    omega
  | _, _, _, .up h _ => written_len h
  | _, _, _, .isIn hf _ hk _ _ _ hv => by
    have h1 := lower_len hk
    simp only [List.length_cons, List.length_nil] at h1
    refine in_len hv _ ?_
    simp only [List.length_append, List.length_cons, List.length_nil]; omega
  | _, _, _, .not hn _ h => by
    rename_i n e g s _
    have h1 := not_len hn
    have h2 := written_len h
    have h3 := sq_add 3 s.length
    have h4 : sq 3 = 90 := rfl
    have h5 := sq_mono (a := 3 + s.length) (b := (n ++ g ++ s).length) (by simp only [List.length_append]; omega)
    rw [exprLen]; omega
  | _, _, _, .notParen hn _ _ h => by
    rename_i n e g₁ g₂ s _ _
    have h1 := not_len hn
    have h2 := written_len h
    have h3 := sq_add 3 s.length
    have h4 : sq 3 = 90 := rfl
    have h5 := sq_mono (a := 3 + s.length) (b := (n ++ '(' :: (g₁ ++ (s ++ (g₂ ++ c!")")))).length)
      (by simp only [List.length_append, List.length_cons]; omega)
    rw [exprLen]; omega
  | _, _, _, .op ho _ _ _ hl hr => by
    rename_i k l r op g₁ g₂ s₁ s₂ _ _ _
    have h1 := written_len hl
    have h2 := written_len hr
    have h3 := op_len ho
    have h4 := sq_add s₁.length s₂.length
    have h5 := sq_add op.length (s₁.length + s₂.length)
    have h6 := sq_lin op.length
    have h7 := sq_mono (a := op.length + (s₁.length + s₂.length)) (b := (s₁ ++ g₁ ++ op ++ g₂ ++ s₂).length)
      (by simp only [List.length_append]; omega)
    rw [exprLen]; omega

theorem args_len : ∀ {es : List Expr} {s : Str}, WrittenArgs es s → argsLen es ≤ sq s.length
  | _, _, .nil => Nat.zero_le _
  | _, _, .one h => by have := written_len h; simp only [argsLen]; omega
  | _, _, .more h _ _ ht => by
    rename_i e e' es g₁ g₂ s t _ _
    have h1 := written_len h
    have h2 := args_len ht
    have h3 := sq_add s.length t.length
    have h4 := sq_mono (a := s.length + t.length) (b := (s ++ (g₁ ++ ',' :: (g₂ ++ t))).length)
      (by simp only [List.length_append, List.length_cons]; omega)
    rw [argsLen]; omega
end

/-! ### conditions -/

theorem join_len (op : Str) : ∀ (es : List Expr) (e : Expr), exprLen (joinLeft op e es) ≤ exprLen e + (argsLen es + (1 + op.length) * es.length)
  | [], e => Nat.le_add_right _ _
  | e' :: es, e => by
    have h1 := join_len op es (.binary e op e')
    have h2 : joinLeft op e (e' :: es) = joinLeft op (.binary e op e') es := rfl
    rw [h2]
    simp only [exprLen, argsLen, List.length_cons, Nat.mul_add, Nat.add_mul] at h1 ⊢
    omega

theorem star_len {w : Str} (h : WildWord w) : 1 ≤ w.length := by
  cases w with
  | nil => have := h.star; simp at this
  | cons => simp

theorem dotted_len {v : Constant} {t : Str} (h : DottedText v t) : constLen v + 5 ≤ 10 * t.length := (const_len (.dotted h)).1

theorem lit_len {v : Constant} {t : Str} (h : LitText v t) : constLen v + 5 ≤ 10 * t.length := by
  cases h with
  | int h => exact (const_len (.int h)).1
  | str _ _ => simp only [constLen, List.length_append, List.length_cons, List.length_nil]; omega
  | wild _ _ => simp only [constLen, List.length_append, List.length_cons, List.length_nil]; omega
  | star h => have := star_len h; simp only [constLen]; omega
  | word h _ _ => have := field_len h; simp only [constLen]; omega
  | yes h =>
    have h1 : t.length = 4 ∨ t.length = 1 := by
      simp only [trueWords, List.mem_cons, List.not_mem_nil, or_false] at h
      exact h.imp lower_len lower_len
    simp only [constLen]; omega
  | no h =>
    have h1 : t.length = 5 ∨ t.length = 1 := by
      simp only [falseWords, List.mem_cons, List.not_mem_nil, or_false] at h
      exact h.imp lower_len lower_len
    simp only [constLen]; omega
  | dotted h => exact dotted_len h

theorem right_len {e : Expr} {s : Str} (h : CondRight e s) : exprLen e + 4 ≤ sq s.length := by
  cases h with
  | lit h => have h1 := lit_len h; have h2 := sq_lin s.length; simp only [exprLen]; omega
  | call hf _ _ h => exact call_len hf (args_len h)

mutual
theorem term_len : ∀ {e : Expr} {s : Str}, CondTerm e s → exprLen e + 4 ≤ sq s.length
  | _, _, .cmp hf ho _ _ hr => by
    rename_i f op g₁ g₂ t r _ _
    have h1 := right_len hr
    have h2 := op_len ho
    have h3 := sq_add (f.length + op.length) t.length
    have h4 := sq_lin (f.length + op.length)
    have h5 := sq_mono (a := f.length + op.length + t.length) (b := (f ++ (g₁ ++ (op ++ (g₂ ++ t)))).length)
      (by simp only [List.length_append]; omega)
    simp only [exprLen, constLen]; omega
  | _, _, .isIn _ _ hk _ _ _ hv => by
    have h1 := lower_len hk
    simp only [List.length_cons, List.length_nil] at h1
    refine in_len hv _ ?_
    simp only [List.length_append, List.length_cons, List.length_nil]; omega
  | _, _, .call hf _ _ _ h => call_len hf (args_len h)
  | _, _, .paren _ _ h => by
    refine Nat.le_trans (cond_len h) (sq_mono ?_)
    simp only [List.length_append, List.length_cons]; omega
  | _, _, .not hn _ h => by
    rename_i n g s e _
    have h1 := not_len hn
    have h2 := term_len h
    have h3 := sq_add 3 s.length
    have h4 : sq 3 = 90 := rfl
    have h5 := sq_mono (a := 3 + s.length) (b := (n ++ g ++ s).length) (by simp only [List.length_append]; omega)
    simp only [exprLen, List.length_cons, List.length_nil]; omega
  | _, _, .notParen hn _ _ h => by
    rename_i n g₁ g₂ s e _ _
    have h1 := not_len hn
    have h2 := cond_len h
    have h3 := sq_add 3 s.length
    have h4 : sq 3 = 90 := rfl
    have h5 := sq_mono (a := 3 + s.length) (b := (n ++ '(' :: (g₁ ++ (s ++ (g₂ ++ c!")")))).length)
      (by simp only [List.length_append, List.length_cons]; omega)
    simp only [exprLen, List.length_cons, List.length_nil]; omega

theorem ands_len : ∀ {es : List Expr} {s : Str}, CondAnds es s → argsLen es + 4 * es.length ≤ sq s.length
  | _, _, .one h => by have := term_len h; simp only [argsLen, List.length_cons, List.length_nil]; omega
  | _, _, .cons h _ _ _ ht => by
    rename_i e es op g₁ g₂ s t _ _ _
    have h1 := term_len h
    have h2 := ands_len ht
    have h3 := sq_add s.length t.length
    have h5 := sq_mono (a := s.length + t.length) (b := (s ++ g₁ ++ op ++ g₂ ++ t).length) (by simp only [List.length_append]; omega)
    simp only [argsLen, List.length_cons]; omega
  | _, _, .next h _ _ ht => by
    rename_i e es g s t _ _
    have h1 := term_len h
    have h2 := ands_len ht
    have h3 := sq_add s.length t.length
    have h5 := sq_mono (a := s.length + t.length) (b := (s ++ g ++ t).length) (by simp only [List.length_append]; omega)
    simp only [argsLen, List.length_cons]; omega

theorem ors_len : ∀ {es : List Expr} {s : Str}, CondOrs es s → argsLen es + 4 * es.length ≤ sq s.length
  | _, _, .single h => by
    rename_i e es
    have h1 := ands_len h
    have h2 := join_len c!"AND" es e
    simp only [argsLen, List.length_cons, List.length_nil] at h1 h2 ⊢; omega
  | _, _, .more h _ _ _ ht => by
    rename_i e es os op g₁ g₂ s t _ _ _
    have h1 := ands_len h
    have h2 := join_len c!"AND" es e
    have h4 := ors_len ht
    have h3 := sq_add s.length t.length
    have h5 := sq_mono (a := s.length + t.length) (b := (s ++ g₁ ++ op ++ g₂ ++ t).length) (by simp only [List.length_append]; omega)
    simp only [argsLen, List.length_cons, List.length_nil] at h1 h2 ⊢; omega

theorem cond_len : ∀ {e : Expr} {s : Str}, CondOr e s → exprLen e + 4 ≤ sq s.length
  | _, _, .mk h => by
    rename_i e es
    have h1 := ors_len h
    have h2 := join_len c!"OR" es e
    simp only [argsLen, List.length_cons, List.length_nil] at h1 h2 ⊢; omega
end

/-! ### lists -/

/-- the length of a list -/
def listLen {α : Type} (len : α → Nat) : List α → Nat
  | [] => 0
  | a :: as => len a + listLen len as

theorem items_len {α : Type} {sep : Str → Str → Prop} {item : α → Str → Prop} {len : α → Nat} (hi : ∀ a s, item a s → len a ≤ sq s.length) {as : List α}
    {s : Str} (h : Items sep item as s) : listLen len as ≤ sq s.length := by
  induction h with
  | one h => simpa [listLen] using hi _ _ h
  | cons h _ _ ih =>
    rename_i a b as g s t _ _
    have h1 := hi _ _ h
    have h3 := sq_add s.length t.length
    have h5 := sq_mono (a := s.length + t.length) (b := (s ++ (g ++ t)).length) (by simp only [List.length_append]; omega)
    rw [listLen]; omega

end Verif.Lemmas.Size
