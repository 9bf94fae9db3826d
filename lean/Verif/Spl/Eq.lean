import Verif.Spl.Ast
/-
A Boolean equality test for syntax trees, sound for equality; used for concrete parses.
-/
namespace Verif
set_option linter.unusedSimpArgs false

mutual
/-- same expression -/
def eqE : Expr → Expr → Bool
  | .const a0, .const b0 => decide (a0 = b0)
  | .fv a0 a1, .fv b0 b1 => decide (a0 = b0) && decide (a1 = b1)
  | .fb a0 a1, .fb b0 b1 => decide (a0 = b0) && decide (a1 = b1)
  | .fc a0 a1, .fc b0 b1 => decide (a0 = b0) && decide (a1 = b1)
  | .aliasedField a0 a1, .aliasedField b0 b1 => decide (a0 = b0) && decide (a1 = b1)
  | .binary a0 a1 a2, .binary b0 b1 b2 => eqE a0 b0 && decide (a1 = b1) && eqE a2 b2
  | .unary a0 a1, .unary b0 b1 => decide (a0 = b0) && eqE a1 b1
  | .call a0 a1, .call b0 b1 => decide (a0 = b0) && eqEs a1 b1
  | .fieldIn a0 a1, .fieldIn b0 b1 => decide (a0 = b0) && eqEs a1 b1
  | .alias a0 a1, .alias b0 b1 => eqE a0 b0 && decide (a1 = b1)
  | .timeModifier a0, .timeModifier b0 => decide (a0 = b0)
  | .searchModifier a0, .searchModifier b0 => decide (a0 = b0)
  | .subSearch a0, .subSearch b0 => eqP a0 b0
  | _, _ => false

/-- same command -/
def eqC : Command → Command → Bool
  | .addTotals a0, .addTotals b0 => decide (a0 = b0)
  | .bin a0, .bin b0 => decide (a0 = b0)
  | .collect a0, .collect b0 => decide (a0 = b0)
  | .convert a0 a1, .convert b0 b1 => decide (a0 = b0) && decide (a1 = b1)
  | .dataModel a0, .dataModel b0 => decide (a0 = b0)
  | .dedup a0 a1 a2 a3 a4 a5, .dedup b0 b1 b2 b3 b4 b5 => decide (a0 = b0) && decide (a1 = b1) && decide (a2 = b2) && decide (a3 = b3) && decide (a4 = b4) && decide (a5 = b5)
  | .eval a0, .eval b0 => eqKs a0 b0
  | .eventStats a0 a1 a2, .eventStats b0 b1 b2 => decide (a0 = b0) && eqEs a1 b1 && decide (a2 = b2)
  | .fields a0 a1, .fields b0 b1 => decide (a0 = b0) && decide (a1 = b1)
  | .fillNull a0 a1, .fillNull b0 b1 => decide (a0 = b0) && decide (a1 = b1)
  | .format a0, .format b0 => decide (a0 = b0)
  | .head a0 a1 a2, .head b0 b1 b2 => eqE a0 b0 && decide (a1 = b1) && decide (a2 = b2)
  | .inputLookup a0 a1 a2 a3 a4 a5, .inputLookup b0 b1 b2 b3 b4 b5 => decide (a0 = b0) && decide (a1 = b1) && decide (a2 = b2) && decide (a3 = b3) && decide (a4 = b4) && eqO a5 b5
  | .join a0 a1 a2, .join b0 b1 b2 => decide (a0 = b0) && decide (a1 = b1) && eqP a2 b2
  | .lookup a0, .lookup b0 => decide (a0 = b0)
  | .makeResults a0, .makeResults b0 => decide (a0 = b0)
  | .map a0 a1, .map b0 b1 => eqP a0 b0 && decide (a1 = b1)
  | .multiSearch a0, .multiSearch b0 => eqPs a0 b0
  | .mvCombine a0 a1, .mvCombine b0 b1 => decide (a0 = b0) && decide (a1 = b1)
  | .mvExpand a0 a1, .mvExpand b0 b1 => decide (a0 = b0) && decide (a1 = b1)
  | .rare a0, .rare b0 => decide (a0 = b0)
  | .regex a0 a1, .regex b0 b1 => decide (a0 = b0) && decide (a1 = b1)
  | .rename a0, .rename b0 => decide (a0 = b0)
  | .return_ a0 a1, .return_ b0 b1 => decide (a0 = b0) && decide (a1 = b1)
  | .rex a0, .rex b0 => decide (a0 = b0)
  | .sort a0 a1 a2, .sort b0 b1 b2 => eqSs a0 b0 && decide (a1 = b1) && decide (a2 = b2)
  | .spath a0 a1 a2, .spath b0 b1 b2 => decide (a0 = b0) && decide (a1 = b1) && decide (a2 = b2)
  | .stats a0 a1 a2 a3, .stats b0 b1 b2 b3 => decide (a0 = b0) && eqEs a1 b1 && decide (a2 = b2) && decide (a3 = b3)
  | .streamStats a0 a1 a2 a3, .streamStats b0 b1 b2 b3 => eqEs a0 b0 && decide (a1 = b1) && decide (a2 = b2) && decide (a3 = b3)
  | .table a0, .table b0 => decide (a0 = b0)
  | .tail a0, .tail b0 => decide (a0 = b0)
  | .top a0, .top b0 => decide (a0 = b0)
  | .tstats a0 a1 a2 a3 a4 a5 a6, .tstats b0 b1 b2 b3 b4 b5 b6 => decide (a0 = b0) && eqEs a1 b1 && decide (a2 = b2) && decide (a3 = b3) && eqO a4 b4 && decide (a5 = b5) && decide (a6 = b6)
  | .where_ a0, .where_ b0 => eqE a0 b0
  | .search a0, .search b0 => eqE a0 b0
  | _, _ => false

/-- same list of expressions -/
def eqEs : List Expr → List Expr → Bool
  | [], [] => true
  | a :: as, b :: bs => eqE a b && eqEs as bs
  | _, _ => false

/-- same pipeline -/
def eqP : List Command → List Command → Bool
  | [], [] => true
  | a :: as, b :: bs => eqC a b && eqP as bs
  | _, _ => false

/-- same list of pipelines -/
def eqPs : List (List Command) → List (List Command) → Bool
  | [], [] => true
  | a :: as, b :: bs => eqP a b && eqPs as bs
  | _, _ => false

/-- same named expressions -/
def eqKs : List (Str × Expr) → List (Str × Expr) → Bool
  | [], [] => true
  | (k, a) :: as, (l, b) :: bs => decide (k = l) && eqE a b && eqKs as bs
  | _, _ => false

/-- same sort keys -/
def eqSs : List (Option Str × Expr) → List (Option Str × Expr) → Bool
  | [], [] => true
  | (k, a) :: as, (l, b) :: bs => decide (k = l) && eqE a b && eqSs as bs
  | _, _ => false

/-- same optional expression -/
def eqO : Option Expr → Option Expr → Bool
  | none, none => true
  | some a, some b => eqE a b
  | _, _ => false
end

set_option maxHeartbeats 2000000 in
mutual
theorem eqE_sound : ∀ a b : Expr, eqE a b = true → a = b
  | .const a0, b, h => by
    cases b <;> simp only [eqE, Bool.and_eq_true, decide_eq_true_eq, Bool.false_eq_true] at h
    have h0 := h
    subst h0
    rfl
  | .fv a0 a1, b, h => by
    cases b <;> simp only [eqE, Bool.and_eq_true, decide_eq_true_eq, Bool.false_eq_true] at h
    obtain ⟨h0, h1⟩ := h
    subst h0 h1
    rfl
  | .fb a0 a1, b, h => by
    cases b <;> simp only [eqE, Bool.and_eq_true, decide_eq_true_eq, Bool.false_eq_true] at h
    obtain ⟨h0, h1⟩ := h
    subst h0 h1
    rfl
  | .fc a0 a1, b, h => by
    cases b <;> simp only [eqE, Bool.and_eq_true, decide_eq_true_eq, Bool.false_eq_true] at h
    obtain ⟨h0, h1⟩ := h
    subst h0 h1
    rfl
  | .aliasedField a0 a1, b, h => by
    cases b <;> simp only [eqE, Bool.and_eq_true, decide_eq_true_eq, Bool.false_eq_true] at h
    obtain ⟨h0, h1⟩ := h
    subst h0 h1
    rfl
  | .binary a0 a1 a2, b, h => by
    cases b <;> simp only [eqE, Bool.and_eq_true, decide_eq_true_eq, Bool.false_eq_true] at h
    obtain ⟨⟨h0, h1⟩, h2⟩ := h
    have h0 := eqE_sound _ _ h0
    have h2 := eqE_sound _ _ h2
    subst h0 h1 h2
    rfl
  | .unary a0 a1, b, h => by
    cases b <;> simp only [eqE, Bool.and_eq_true, decide_eq_true_eq, Bool.false_eq_true] at h
    obtain ⟨h0, h1⟩ := h
    have h1 := eqE_sound _ _ h1
    subst h0 h1
    rfl
  | .call a0 a1, b, h => by
    cases b <;> simp only [eqE, Bool.and_eq_true, decide_eq_true_eq, Bool.false_eq_true] at h
    obtain ⟨h0, h1⟩ := h
    have h1 := eqEs_sound _ _ h1
    subst h0 h1
    rfl
  | .fieldIn a0 a1, b, h => by
    cases b <;> simp only [eqE, Bool.and_eq_true, decide_eq_true_eq, Bool.false_eq_true] at h
    obtain ⟨h0, h1⟩ := h
    have h1 := eqEs_sound _ _ h1
    subst h0 h1
    rfl
  | .alias a0 a1, b, h => by
    cases b <;> simp only [eqE, Bool.and_eq_true, decide_eq_true_eq, Bool.false_eq_true] at h
    obtain ⟨h0, h1⟩ := h
    have h0 := eqE_sound _ _ h0
    subst h0 h1
    rfl
  | .timeModifier a0, b, h => by
    cases b <;> simp only [eqE, Bool.and_eq_true, decide_eq_true_eq, Bool.false_eq_true] at h
    have h0 := h
    subst h0
    rfl
  | .searchModifier a0, b, h => by
    cases b <;> simp only [eqE, Bool.and_eq_true, decide_eq_true_eq, Bool.false_eq_true] at h
    have h0 := h
    subst h0
    rfl
  | .subSearch a0, b, h => by
    cases b <;> simp only [eqE, Bool.and_eq_true, decide_eq_true_eq, Bool.false_eq_true] at h
    have h0 := h
    have h0 := eqP_sound _ _ h0
    subst h0
    rfl

theorem eqC_sound : ∀ a b : Command, eqC a b = true → a = b
  | .addTotals a0, b, h => by
    cases b <;> simp only [eqC, Bool.and_eq_true, decide_eq_true_eq, Bool.false_eq_true] at h
    have h0 := h
    subst h0
    rfl
  | .bin a0, b, h => by
    cases b <;> simp only [eqC, Bool.and_eq_true, decide_eq_true_eq, Bool.false_eq_true] at h
    have h0 := h
    subst h0
    rfl
  | .collect a0, b, h => by
    cases b <;> simp only [eqC, Bool.and_eq_true, decide_eq_true_eq, Bool.false_eq_true] at h
    have h0 := h
    subst h0
    rfl
  | .convert a0 a1, b, h => by
    cases b <;> simp only [eqC, Bool.and_eq_true, decide_eq_true_eq, Bool.false_eq_true] at h
    obtain ⟨h0, h1⟩ := h
    subst h0 h1
    rfl
  | .dataModel a0, b, h => by
    cases b <;> simp only [eqC, Bool.and_eq_true, decide_eq_true_eq, Bool.false_eq_true] at h
    have h0 := h
    subst h0
    rfl
  | .dedup a0 a1 a2 a3 a4 a5, b, h => by
    cases b <;> simp only [eqC, Bool.and_eq_true, decide_eq_true_eq, Bool.false_eq_true] at h
    obtain ⟨⟨⟨⟨⟨h0, h1⟩, h2⟩, h3⟩, h4⟩, h5⟩ := h
    subst h0 h1 h2 h3 h4 h5
    rfl
  | .eval a0, b, h => by
    cases b <;> simp only [eqC, Bool.and_eq_true, decide_eq_true_eq, Bool.false_eq_true] at h
    have h0 := h
    have h0 := eqKs_sound _ _ h0
    subst h0
    rfl
  | .eventStats a0 a1 a2, b, h => by
    cases b <;> simp only [eqC, Bool.and_eq_true, decide_eq_true_eq, Bool.false_eq_true] at h
    obtain ⟨⟨h0, h1⟩, h2⟩ := h
    have h1 := eqEs_sound _ _ h1
    subst h0 h1 h2
    rfl
  | .fields a0 a1, b, h => by
    cases b <;> simp only [eqC, Bool.and_eq_true, decide_eq_true_eq, Bool.false_eq_true] at h
    obtain ⟨h0, h1⟩ := h
    subst h0 h1
    rfl
  | .fillNull a0 a1, b, h => by
    cases b <;> simp only [eqC, Bool.and_eq_true, decide_eq_true_eq, Bool.false_eq_true] at h
    obtain ⟨h0, h1⟩ := h
    subst h0 h1
    rfl
  | .format a0, b, h => by
    cases b <;> simp only [eqC, Bool.and_eq_true, decide_eq_true_eq, Bool.false_eq_true] at h
    have h0 := h
    subst h0
    rfl
  | .head a0 a1 a2, b, h => by
    cases b <;> simp only [eqC, Bool.and_eq_true, decide_eq_true_eq, Bool.false_eq_true] at h
    obtain ⟨⟨h0, h1⟩, h2⟩ := h
    have h0 := eqE_sound _ _ h0
    subst h0 h1 h2
    rfl
  | .inputLookup a0 a1 a2 a3 a4 a5, b, h => by
    cases b <;> simp only [eqC, Bool.and_eq_true, decide_eq_true_eq, Bool.false_eq_true] at h
    obtain ⟨⟨⟨⟨⟨h0, h1⟩, h2⟩, h3⟩, h4⟩, h5⟩ := h
    have h5 := eqO_sound _ _ h5
    subst h0 h1 h2 h3 h4 h5
    rfl
  | .join a0 a1 a2, b, h => by
    cases b <;> simp only [eqC, Bool.and_eq_true, decide_eq_true_eq, Bool.false_eq_true] at h
    obtain ⟨⟨h0, h1⟩, h2⟩ := h
    have h2 := eqP_sound _ _ h2
    subst h0 h1 h2
    rfl
  | .lookup a0, b, h => by
    cases b <;> simp only [eqC, Bool.and_eq_true, decide_eq_true_eq, Bool.false_eq_true] at h
    have h0 := h
    subst h0
    rfl
  | .makeResults a0, b, h => by
    cases b <;> simp only [eqC, Bool.and_eq_true, decide_eq_true_eq, Bool.false_eq_true] at h
    have h0 := h
    subst h0
    rfl
  | .map a0 a1, b, h => by
    cases b <;> simp only [eqC, Bool.and_eq_true, decide_eq_true_eq, Bool.false_eq_true] at h
    obtain ⟨h0, h1⟩ := h
    have h0 := eqP_sound _ _ h0
    subst h0 h1
    rfl
  | .multiSearch a0, b, h => by
    cases b <;> simp only [eqC, Bool.and_eq_true, decide_eq_true_eq, Bool.false_eq_true] at h
    have h0 := h
    have h0 := eqPs_sound _ _ h0
    subst h0
    rfl
  | .mvCombine a0 a1, b, h => by
    cases b <;> simp only [eqC, Bool.and_eq_true, decide_eq_true_eq, Bool.false_eq_true] at h
    obtain ⟨h0, h1⟩ := h
    subst h0 h1
    rfl
  | .mvExpand a0 a1, b, h => by
    cases b <;> simp only [eqC, Bool.and_eq_true, decide_eq_true_eq, Bool.false_eq_true] at h
    obtain ⟨h0, h1⟩ := h
    subst h0 h1
    rfl
  | .rare a0, b, h => by
    cases b <;> simp only [eqC, Bool.and_eq_true, decide_eq_true_eq, Bool.false_eq_true] at h
    have h0 := h
    subst h0
    rfl
  | .regex a0 a1, b, h => by
    cases b <;> simp only [eqC, Bool.and_eq_true, decide_eq_true_eq, Bool.false_eq_true] at h
    obtain ⟨h0, h1⟩ := h
    subst h0 h1
    rfl
  | .rename a0, b, h => by
    cases b <;> simp only [eqC, Bool.and_eq_true, decide_eq_true_eq, Bool.false_eq_true] at h
    have h0 := h
    subst h0
    rfl
  | .return_ a0 a1, b, h => by
    cases b <;> simp only [eqC, Bool.and_eq_true, decide_eq_true_eq, Bool.false_eq_true] at h
    obtain ⟨h0, h1⟩ := h
    subst h0 h1
    rfl
  | .rex a0, b, h => by
    cases b <;> simp only [eqC, Bool.and_eq_true, decide_eq_true_eq, Bool.false_eq_true] at h
    have h0 := h
    subst h0
    rfl
  | .sort a0 a1 a2, b, h => by
    cases b <;> simp only [eqC, Bool.and_eq_true, decide_eq_true_eq, Bool.false_eq_true] at h
    obtain ⟨⟨h0, h1⟩, h2⟩ := h
    have h0 := eqSs_sound _ _ h0
    subst h0 h1 h2
    rfl
  | .spath a0 a1 a2, b, h => by
    cases b <;> simp only [eqC, Bool.and_eq_true, decide_eq_true_eq, Bool.false_eq_true] at h
    obtain ⟨⟨h0, h1⟩, h2⟩ := h
    subst h0 h1 h2
    rfl
  | .stats a0 a1 a2 a3, b, h => by
    cases b <;> simp only [eqC, Bool.and_eq_true, decide_eq_true_eq, Bool.false_eq_true] at h
    obtain ⟨⟨⟨h0, h1⟩, h2⟩, h3⟩ := h
    have h1 := eqEs_sound _ _ h1
    subst h0 h1 h2 h3
    rfl
  | .streamStats a0 a1 a2 a3, b, h => by
    cases b <;> simp only [eqC, Bool.and_eq_true, decide_eq_true_eq, Bool.false_eq_true] at h
    obtain ⟨⟨⟨h0, h1⟩, h2⟩, h3⟩ := h
    have h0 := eqEs_sound _ _ h0
    subst h0 h1 h2 h3
    rfl
  | .table a0, b, h => by
    cases b <;> simp only [eqC, Bool.and_eq_true, decide_eq_true_eq, Bool.false_eq_true] at h
    have h0 := h
    subst h0
    rfl
  | .tail a0, b, h => by
    cases b <;> simp only [eqC, Bool.and_eq_true, decide_eq_true_eq, Bool.false_eq_true] at h
    have h0 := h
    subst h0
    rfl
  | .top a0, b, h => by
    cases b <;> simp only [eqC, Bool.and_eq_true, decide_eq_true_eq, Bool.false_eq_true] at h
    have h0 := h
    subst h0
    rfl
  | .tstats a0 a1 a2 a3 a4 a5 a6, b, h => by
    cases b <;> simp only [eqC, Bool.and_eq_true, decide_eq_true_eq, Bool.false_eq_true] at h
    obtain ⟨⟨⟨⟨⟨⟨h0, h1⟩, h2⟩, h3⟩, h4⟩, h5⟩, h6⟩ := h
    have h1 := eqEs_sound _ _ h1
    have h4 := eqO_sound _ _ h4
    subst h0 h1 h2 h3 h4 h5 h6
    rfl
  | .where_ a0, b, h => by
    cases b <;> simp only [eqC, Bool.and_eq_true, decide_eq_true_eq, Bool.false_eq_true] at h
    have h0 := h
    have h0 := eqE_sound _ _ h0
    subst h0
    rfl
  | .search a0, b, h => by
    cases b <;> simp only [eqC, Bool.and_eq_true, decide_eq_true_eq, Bool.false_eq_true] at h
    have h0 := h
    have h0 := eqE_sound _ _ h0
    subst h0
    rfl

theorem eqEs_sound : ∀ a b : List Expr, eqEs a b = true → a = b
  | [], b, h => by cases b <;> simp [eqEs] at h ⊢
  | a :: as, [], h => by simp [eqEs] at h
  | a :: as, b :: bs, h => by
    simp only [eqEs, Bool.and_eq_true] at h
    rw [eqE_sound _ _ h.1, eqEs_sound _ _ h.2]

theorem eqP_sound : ∀ a b : List Command, eqP a b = true → a = b
  | [], b, h => by cases b <;> simp [eqP] at h ⊢
  | a :: as, [], h => by simp [eqP] at h
  | a :: as, b :: bs, h => by
    simp only [eqP, Bool.and_eq_true] at h
    rw [eqC_sound _ _ h.1, eqP_sound _ _ h.2]

theorem eqPs_sound : ∀ a b : List (List Command), eqPs a b = true → a = b
  | [], b, h => by cases b <;> simp [eqPs] at h ⊢
  | a :: as, [], h => by simp [eqPs] at h
  | a :: as, b :: bs, h => by
    simp only [eqPs, Bool.and_eq_true] at h
    rw [eqP_sound _ _ h.1, eqPs_sound _ _ h.2]

theorem eqKs_sound : ∀ a b : List (Str × Expr), eqKs a b = true → a = b
  | [], b, h => by cases b <;> simp [eqKs] at h ⊢
  | (k, a) :: as, [], h => by simp [eqKs] at h
  | (k, a) :: as, (l, b) :: bs, h => by
    simp only [eqKs, Bool.and_eq_true, decide_eq_true_eq] at h
    rw [h.1.1, eqE_sound _ _ h.1.2, eqKs_sound _ _ h.2]

theorem eqSs_sound : ∀ a b : List (Option Str × Expr), eqSs a b = true → a = b
  | [], b, h => by cases b <;> simp [eqSs] at h ⊢
  | (k, a) :: as, [], h => by simp [eqSs] at h
  | (k, a) :: as, (l, b) :: bs, h => by
    simp only [eqSs, Bool.and_eq_true, decide_eq_true_eq] at h
    rw [h.1.1, eqE_sound _ _ h.1.2, eqSs_sound _ _ h.2]

theorem eqO_sound : ∀ a b : Option Expr, eqO a b = true → a = b
  | none, b, h => by cases b <;> simp [eqO] at h ⊢
  | some a, none, h => by simp [eqO] at h
  | some a, some b, h => by
    simp only [eqO] at h
    rw [eqE_sound _ _ h]
end

/-- the parse succeeded with this pipeline -/
def isParse (o : Option Pipeline) (p : Pipeline) : Bool :=
  match o with
  | some q => eqP q p
  | none => false

theorem isParse_sound {o : Option Pipeline} {p : Pipeline} (h : isParse o p = true) : o = some p := by
  unfold isParse at h
  split at h
  · rw [eqP_sound _ _ h]
  · simp at h

end Verif
