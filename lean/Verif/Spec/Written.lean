import Verif.Spec.Values
/-
How an expression may be written: operands, parentheses, calls and operators by precedence level.
-/
namespace Verif.Spec
open Verif

/-- the binary operators and their levels; a smaller level binds tighter -/
inductive Op : Nat → Str → Prop
  | mul : Op 3 c!"*"
  | div : Op 3 c!"/"
  | add : Op 4 c!"+"
  | sub : Op 4 c!"-"
  | cat : Op 5 c!"."
  | eq : Op 6 c!"="
  | eq2 : Op 6 c!"=="
  | ne : Op 6 c!"!="
  | lt : Op 6 c!"<"
  | le : Op 6 c!"<="
  | gt : Op 6 c!">"
  | ge : Op 6 c!">="
  | or {op : Str} : lower op = c!"or" → Op 8 op
  | and {op : Str} : lower op = c!"and" → Op 9 op

/-- the operators that may stand next to their operands without blanks -/
def tightOps : List Str := [c!"=", c!"==", c!"!=", c!"<", c!"<=", c!">", c!">=", c!"+"]

mutual
/-- `Written k e s`: the text `s` is the expression `e` written with operators of level at most `k` outside
parentheses.  Operators of one level are grouped to the right. -/
inductive Written : Nat → Expr → Str → Prop
  | value {v : Constant} {t : Str} : OptValue v t → Written 2 (.const v) t
  | parens {e : Expr} {g₁ g₂ s : Str} : Blanks g₁ → Blanks g₂ → Written 9 e s → Written 2 e ('(' :: (g₁ ++ (s ++ (g₂ ++ c!")"))))
  | apply {f : Str} {es : List Expr} {g₁ g₂ s : Str} : IsName f → lower f ≠ c!"term" → Blanks g₁ → Blanks g₂ → WrittenArgs es s →
      Written 2 (.call f es) (f ++ '(' :: (g₁ ++ (s ++ (g₂ ++ c!")"))))
  | term {k t : Str} : lower k = c!"term" → ')' ∉ t → (∀ c u, t = c :: u → c ∉ [' ', '\t', '\r', '\n']) →
      Written 2 (.call c!"TERM" [.const (.field t)]) (k ++ '(' :: (t ++ c!")"))
  | up {k : Nat} {e : Expr} {s : Str} : Written k e s → k < 9 → Written (k + 1) e s
  | isIn {f g₁ k g₂ g₃ g₄ s : Str} {vs : List Constant} : FieldText f → Gap g₁ → lower k = c!"in" → Blanks g₂ → Blanks g₃ → Blanks g₄ →
      ValueList vs s → Written 6 (.fieldIn f (vs.map .const)) (f ++ (g₁ ++ (k ++ (g₂ ++ '(' :: (g₃ ++ (s ++ (g₄ ++ c!")")))))))
  | not {n : Str} {e : Expr} {g s : Str} : lower n = c!"not" → Gap g → Written 7 e s →
      Written 7 (.unary n e) (n ++ g ++ s)
  | notParen {n : Str} {e : Expr} {g₁ g₂ s : Str} : lower n = c!"not" → Blanks g₁ → Blanks g₂ → Written 9 e s →
      Written 7 (.unary n e) (n ++ '(' :: (g₁ ++ (s ++ (g₂ ++ c!")"))))
  | op {k : Nat} {l r : Expr} {op g₁ g₂ s₁ s₂ : Str} : Op (k + 1) op → Blanks g₁ → Blanks g₂ →
      (op ∈ tightOps ∨ g₁ ≠ [] ∧ g₂ ≠ []) → Written k l s₁ → Written (k + 1) r s₂ →
      Written (k + 1) (.binary l op r) (s₁ ++ g₁ ++ op ++ g₂ ++ s₂)

/-- arguments separated by commas -/
inductive WrittenArgs : List Expr → Str → Prop
  | nil : WrittenArgs [] []
  | one {e : Expr} {s : Str} : Written 9 e s → WrittenArgs [e] s
  | more {e e' : Expr} {es : List Expr} {g₁ g₂ s t : Str} : Written 9 e s → Blanks g₁ → Blanks g₂ → WrittenArgs (e' :: es) t →
      WrittenArgs (e :: e' :: es) (s ++ (g₁ ++ ',' :: (g₂ ++ t)))
end

/-! Special cases. -/

theorem Written.field {w : Str} (h : IsName w) (ht : w ≠ c!"t") (hf : w ≠ c!"f") : Written 2 (.const (.field w)) w :=
  .value (.field (.one ⟨h, ht, hf⟩))

theorem Written.int {n : Int} (h : isI64 n) : Written 2 (.const (.int n)) (showInt n) := .value (.int h)

theorem Written.paren {e : Expr} {s : Str} (h : Written 9 e s) : Written 2 e (c!"(" ++ s ++ c!")") := by
  have := Written.parens (g₁ := []) (g₂ := []) (.inl rfl) (.inl rfl) h
  simpa using this

theorem Written.call {f : Str} {es : List Expr} {s : Str} (hf : IsName f) (ht : lower f ≠ c!"term") (h : WrittenArgs es s) :
    Written 2 (.call f es) (f ++ c!"(" ++ s ++ c!")") := by
  have := Written.apply (g₁ := []) (g₂ := []) hf ht (.inl rfl) (.inl rfl) h
  simpa using this

theorem Written.bin {k : Nat} {l r : Expr} {op g₁ g₂ s₁ s₂ : Str} (ho : Op (k + 1) op) (h₁ : Gap g₁) (h₂ : Gap g₂)
    (hl : Written k l s₁) (hr : Written (k + 1) r s₂) : Written (k + 1) (.binary l op r) (s₁ ++ g₁ ++ op ++ g₂ ++ s₂) :=
  .op ho (.inr h₁) (.inr h₂) (.inr ⟨h₁.ne, h₂.ne⟩) hl hr

theorem WrittenArgs.cons {e e' : Expr} {es : List Expr} {s t : Str} (h : Written 9 e s) (ht : WrittenArgs (e' :: es) t) :
    WrittenArgs (e :: e' :: es) (s ++ c!", " ++ t) := by
  have := WrittenArgs.more (g₁ := []) (g₂ := c!" ") h (.inl rfl) (.inr ⟨by decide, by decide⟩) ht
  simpa using this

end Verif.Spec
