import Verif.Spec.RowsFragment
import Verif.Lemmas.Frag
import Verif.Props.Search
/-
Search conditions of the fragment: their translation, and what it means.
-/
namespace Verif.Lemmas
open Verif Spec

theorem searchField_ne {f : Str} (h : searchField f = true) : f ≠ c!"index" ∧ f ∉ boundWords := by
  simpa [searchField] using h

/-- The three forms of a condition. -/
theorem searchFrag_cases {neg : Bool} {P : Expr → Prop}
    (wild : ∀ f op p, searchField f = true → Plain '\'' f = true → FragWildOp op = true → PlainPat p = true →
      P (.binary (.const (.field f)) op (.const (.wildcard p))))
    (cmp : ∀ f op k, searchField f = true → Plain '\'' f = true → op ∈ searchOps → SearchValue k = true →
      P (.binary (.const (.field f)) op (.const k)))
    (conn : ∀ l op r, (op = c!"AND" ∨ op = c!"OR") → SearchFrag neg l = true → SearchFrag neg r = true → P l → P r →
      P (.binary l op r))
    (no : ∀ r, neg = true → SearchFrag neg r = true → P r → P (.unary c!"NOT" r))
    (isIn : ∀ f es, Plain '\'' f = true → es.length ≠ 0 → es.all FragElem = true → P (.fieldIn f es)) :
    ∀ e, SearchFrag neg e = true → P e := by
  intro e
  match e with
  | .binary l op r =>
    intro h
    by_cases hc : ∃ f k, l = .const (.field f) ∧ r = .const k
    · obtain ⟨f, k, rfl, rfl⟩ := hc
      by_cases hw : ∃ p, k = .wildcard p
      · obtain ⟨p, rfl⟩ := hw
        simp only [SearchFrag, Bool.and_eq_true] at h
        exact wild _ _ _ h.1.1.1 h.1.1.2 h.1.2 h.2
      · rw [SearchFrag.eq_2 _ _ _ _ fun p e => hw ⟨p, e⟩] at h
        simp only [Bool.and_eq_true, List.contains_iff_mem] at h
        exact cmp _ _ _ h.1.1.1 h.1.1.2 h.1.2 h.2
    · rw [SearchFrag.eq_3 _ _ _ _ (fun f p e e' => hc ⟨f, _, e, e'⟩) (fun f k e e' => hc ⟨f, k, e, e'⟩)] at h
      simp only [Bool.and_eq_true, Bool.or_eq_true, beq_iff_eq] at h
      exact conn _ _ _ h.1.1 h.1.2 h.2 (searchFrag_cases wild cmp conn no isIn l h.1.2) (searchFrag_cases wild cmp conn no isIn r h.2)
  | .unary op r =>
    intro h
    rw [SearchFrag] at h
    simp only [Bool.and_eq_true, beq_iff_eq] at h
    obtain ⟨⟨h1, rfl⟩, h2⟩ := h
    exact no r h1 h2 (searchFrag_cases wild cmp conn no isIn r h2)
  | .fieldIn f es =>
    intro h
    rw [SearchFrag] at h
    simp only [Bool.and_eq_true, bne_iff_ne, ne_eq] at h
    exact isIn f es h.1.1.2 h.1.2 h.2
  | .const _ | .fv .. | .fb .. | .fc .. | .call .. | .alias .. | .aliasedField .. | .searchModifier .. | .subSearch ..
  | .timeModifier .. => intro h; simp [SearchFrag] at h

theorem searchFrag_notConst {neg : Bool} {e : Expr} (h : SearchFrag neg e = true) : ∀ k, e ≠ .const k := by
  rintro k rfl
  simp [SearchFrag] at h

theorem searchOps_frag {op : Str} (h : op ∈ searchOps) : FragOp op = true ∧ mapOp op ≠ c!"&" ∧ mapOp op ≠ c!"|" ∧
    ∃ o, splOp op = some o ∧ o ∈ [Oper.eq, .ne, .lt, .le, .gt, .ge] := by
  simp only [searchOps, List.mem_cons, List.not_mem_nil, or_false] at h
  rcases h with h | h | h | h | h | h | h <;> subst h
  · exact ⟨by decide, by decide, by decide, .eq, by decide, by decide⟩
  · exact ⟨by decide, by decide, by decide, .eq, by decide, by decide⟩
  · exact ⟨by decide, by decide, by decide, .ne, by decide, by decide⟩
  · exact ⟨by decide, by decide, by decide, .lt, by decide, by decide⟩
  · exact ⟨by decide, by decide, by decide, .le, by decide, by decide⟩
  · exact ⟨by decide, by decide, by decide, .gt, by decide, by decide⟩
  · exact ⟨by decide, by decide, by decide, .ge, by decide, by decide⟩

theorem searchValue_frag {k : Constant} (h : SearchValue k = true) : FragConst k = true ∧ (∀ p, k ≠ .wildcard p) ∧ ∀ f, k ≠ .field f := by
  cases k <;> simp_all [SearchValue, FragConst]

theorem frag_binary {m : Mode} {l r : Expr} {op : Str} (hr : ∀ p, r ≠ .const (.wildcard p)) :
    Frag m (.binary l op r) = (Frag m l && Frag m r && FragOp op) := by
  cases r with
  | const k => cases k <;> first | rfl | exact absurd rfl (hr _)
  | _ => rfl

/-- Conditions of a search are in the fragment of expressions. -/
theorem searchFrag_frag {neg : Bool} (m : Mode) : ∀ e, SearchFrag neg e = true → Frag m e = true := by
  refine searchFrag_cases ?_ ?_ ?_ ?_ ?_
  · intro f op p _ hf ho hp
    simp [Frag, FragConst, hf, ho, hp, isNegated]
  · intro f op k _ hf ho hk
    have h := searchValue_frag hk
    rw [frag_binary (fun p e => h.2.1 p (by simpa using e))]
    have h1 : Frag m (.const (.field f)) = true := hf
    have h2 : Frag m (.const k) = true := h.1
    rw [h1, h2, (searchOps_frag ho).1]
    rfl
  · intro l op r ho _ hr h1 h2
    rw [frag_binary (fun p => searchFrag_notConst hr _)]
    rcases ho with rfl | rfl <;> simp [h1, h2] <;> decide
  · intro r _ _ h
    simp [Frag, h]
  · intro f es hf hl he
    simp only [Frag, Bool.and_eq_true, bne_iff_ne]
    exact ⟨⟨hf, hl⟩, he⟩

/-- A column that stays as it is in a search. -/
def Fixed (p : PE) : Prop := p.unalias = p ∧ p.aliasName = none ∧ searchRw p = p

theorem fixed_like (f : Str) (p : Str) : Fixed (likeTest (.named f) p) := ⟨rfl, rfl, rfl⟩

theorem fixed_cmp (op : Str) (l r : PE) (h1 : op ≠ c!"&") (h2 : op ≠ c!"|") : Fixed (PE.mkBin l op r) := by
  refine ⟨rfl, rfl, ?_⟩
  simp [PE.mkBin, searchRw, h1, h2]

theorem fixed_conn {op : Str} {l r : PE} (ho : op = c!"&" ∨ op = c!"|") (h1 : Fixed l) (h2 : Fixed r) :
    Fixed (.bin op l r) := by
  refine ⟨rfl, rfl, ?_⟩
  rw [searchRw, if_pos (by simpa using ho), h1.2.2, h2.2.2, PE.mkBin, h1.1, h2.1]

theorem fixed_not {r : PE} (h : Fixed r) : Fixed (.not r) := by
  refine ⟨rfl, rfl, ?_⟩
  rw [searchRw, h.2.2]

theorem fixed_in {f : Str} : ∀ {es : List Expr} {cs : List PE}, fieldInChecks f es = some cs → ∀ c ∈ cs, Fixed c
  | [], cs, h => by simp only [fieldInChecks, Option.some.injEq] at h; subst h; simp
  | e :: es, cs, h => by
    simp only [fieldInChecks] at h
    split at h
    · simp at h
    · rename_i c hc
      split at h
      · simp at h
      · rename_i cs hcs
        simp only [Option.some.injEq] at h; subst h
        intro x hx
        rcases List.mem_cons.1 hx with rfl | hx
        · unfold fieldInCheck at hc
          repeat' split at hc
          all_goals first
            | (simp only [Option.some.injEq] at hc; subst hc; first | exact fixed_like _ _ | exact fixed_cmp _ _ _ (by decide) (by decide))
            | simp at hc
        · exact fixed_in hcs x hx

theorem fixed_join : ∀ {cs : List PE} {c : PE}, Fixed c → (∀ x ∈ cs, Fixed x) → Fixed (joinBinFrom c!"|" c cs)
  | [], _, h, _ => h
  | x :: cs, c, h, hs => by
    rw [joinBinFrom]
    exact fixed_join (fixed_conn (.inr rfl) h (hs x (by simp))) fun y hy => hs y (by simp [hy])

/-- The translation of a condition is left as it is in a search. -/
theorem searchFrag_fixed {neg : Bool} (m : Mode) : ∀ e, SearchFrag neg e = true → ∀ p, exprTr m e = some p → Fixed p := by
  refine searchFrag_cases ?_ ?_ ?_ ?_ ?_
  · intro f op w _ _ ho _ p h
    simp only [FragWildOp, Bool.or_eq_true, beq_iff_eq] at ho
    simp only [exprTr, binTr, constTr] at h
    rcases ho with (ho | ho) | ho <;> subst ho <;> simp [wildcardTr, mapOp] at h <;> subst h
    · exact fixed_like _ _
    · exact fixed_like _ _
    · exact fixed_not (fixed_like _ _)
  · intro f op k _ _ ho hk p h
    obtain ⟨_, h1, h2, _⟩ := searchOps_frag ho
    rw [exprTr] at h
    have : binTr (.const (.field f)) op (.const k) (exprTr m (.const (.field f))) (exprTr m (.const k)) =
        generalBin (exprTr m (.const (.field f))) (mapOp op) (exprTr m (.const k)) := by
      cases k <;> first | rfl | simp [SearchValue, FragConst] at hk
    rw [this] at h
    unfold generalBin at h
    split at h
    · simp only [Option.some.injEq] at h; subst h
      exact fixed_cmp _ _ _ h1 h2
    · simp at h
  · intro l op r ho hl hr h1 h2 p h
    rw [exprTr] at h
    have : binTr l op r (exprTr m l) (exprTr m r) = generalBin (exprTr m l) (mapOp op) (exprTr m r) := by
      unfold binTr
      split
      · exact absurd rfl (searchFrag_notConst hr _)
      · exact absurd rfl (searchFrag_notConst hr _)
      · rfl
    rw [this] at h
    unfold generalBin at h
    split at h
    · rename_i a b ha hb
      simp only [Option.some.injEq] at h; subst h
      have f1 := h1 a ha
      have f2 := h2 b hb
      rw [PE.mkBin, f1.1, f2.1]
      exact fixed_conn (by rcases ho with rfl | rfl <;> decide) f1 f2
    · simp at h
  · intro r _ _ ih p h
    simp only [exprTr, if_true, Option.map_eq_some_iff] at h
    obtain ⟨q, hq, rfl⟩ := h
    have f := ih q hq
    rw [PE.mkNot, f.1]
    exact fixed_not f
  · intro f es _ hl _ p h
    simp only [exprTr, fieldInTr, Option.map_eq_some_iff] at h
    obtain ⟨cs, hcs, rfl⟩ := h
    have := fixed_in hcs
    cases cs with
    | nil =>
      cases es with
      | nil => simp at hl
      | cons e es =>
        simp only [fieldInChecks] at hcs
        repeat' split at hcs
        all_goals simp at hcs
    | cons c cs =>
      exact fixed_join (this c (by simp)) fun x hx => this x (by simp [hx])

theorem fixed_search {p : PE} (h : Fixed p) : (intoSearch p).unalias = p := by
  rw [intoSearch, h.1, h.2.2, h.2.1, PE.maybeAlias, h.1]

/-! ### truth -/

theorem and3_true (a b : Option Bool) : (and3 a b == some true) = ((a == some true) && (b == some true)) := by
  rcases a with _ | _ | _ <;> rcases b with _ | _ | _ <;> rfl

theorem or3_isTrue (a b : Option Bool) : (or3 a b == some true) = ((a == some true) || (b == some true)) := by
  rcases a with _ | _ | _ <;> rcases b with _ | _ | _ <;> rfl

theorem not3_true (a : Option Bool) : (not3 a == some true) = (a == some false) := by
  rcases a with _ | _ | _ <;> rfl

theorem splSearch_conn (S : Sem) (row : Event) {l r : Expr} (op : Str) (hl : ∀ k, l ≠ .const k) :
    splSearch S row (.binary l op r) =
      (if splOp op = some .and then (splSearch S row l).bind fun a => (splSearch S row r).map fun b => a && b
       else if splOp op = some .or then (splSearch S row l).bind fun a => (splSearch S row r).map fun b => a || b
       else none) := by
  cases l <;> first | rfl | exact absurd rfl (hl _)

theorem splEval_bin (S : Sem) (row : Event) {l r : Expr} (op : Str) (hr : ∀ p, r ≠ .const (.wildcard p)) :
    splEval S row (.binary l op r) =
      (splOp op).bind fun o => (splEval S row l).bind fun a => (splEval S row r).map fun b => S.op o a b := by
  cases r with
  | const k => cases k <;> first | rfl | exact absurd rfl (hr _)
  | _ => rfl

theorem cmp_op (S : Sem) {o : Oper} (h : o ∈ [Oper.eq, .ne, .lt, .le, .gt, .ge]) (a b : Val) : S.op o a b = ofB (S.cmp o a b) := by
  simp only [List.mem_cons, List.not_mem_nil, or_false] at h
  rcases h with rfl | rfl | rfl | rfl | rfl | rfl <;> rfl

theorem searchValue_const {k : Constant} (h : SearchValue k = true) (row : Event) :
    ∃ v, constVal row k = some v := by
  cases k <;> simp_all [SearchValue, FragConst, constVal]

theorem splSearch_cmp (S : Sem) (row : Event) {f : Str} (hf : searchField f = true) {op : Str} {k : Constant} (hk : SearchValue k = true) {o : Oper} {v : Val}
    (ho : splOp op = some o) (hm : o ∈ [Oper.eq, .ne, .lt, .le, .gt, .ge]) (hv : constVal row k = some v) :
    splSearch S row (.binary (.const (.field f)) op (.const k)) = some (S.cmp o (row f) v == some true) := by
  cases k <;> first | (simp [SearchValue, FragConst] at hk; done) | skip
  all_goals
    simp only [splSearch, if_neg (searchField_ne hf).2, ho, Option.bind_some, if_pos hm, hv, Option.map_some]

theorem in_search (S : Sem) (row : Event) (f : Str) (es : List Expr) (hf : Plain '\'' f = true) (hl : es.length ≠ 0) (he : es.all FragElem = true) :
    ∃ b, splEval S row (.fieldIn f es) = some (ofB b) ∧ splSearch S row (.fieldIn f es) = some (b == some true) := by
  obtain ⟨ps, gs, _, _, _, _, hs⟩ := elems_means hf he
  refine ⟨gs.foldr (fun g b => or3 (g S row) b) (some false), ?_, ?_⟩
  · simp only [splEval, hs S row, Option.map_some]
  · simp only [splSearch, hs S row, Option.map_some]

theorem conn_search (S : Sem) (row : Event) {neg : Bool} {l r : Expr} {op : Str} (ho : op = c!"AND" ∨ op = c!"OR") (hl : SearchFrag neg l = true)
    (hr : SearchFrag neg r = true) (h1 : ∃ b, splEval S row l = some (ofB b) ∧ splSearch S row l = some (b == some true))
    (h3 : ∃ b, splEval S row r = some (ofB b) ∧ splSearch S row r = some (b == some true)) :
    ∃ b, splEval S row (.binary l op r) = some (ofB b) ∧ splSearch S row (.binary l op r) = some (b == some true) := by
  obtain ⟨a, h1, h2⟩ := h1
  obtain ⟨b, h3, h4⟩ := h3
  rw [splSearch_conn S row op (searchFrag_notConst hl), splEval_bin S row op (fun p => searchFrag_notConst hr _)]
  rcases ho with rfl | rfl
  · have h : splOp c!"AND" = some .and := by decide
    refine ⟨and3 a b, ?_, ?_⟩
    · simp only [h, h1, h3, Option.bind_some, Option.map_some, Sem.op, S.truth_ofB]
    · simp only [h, h2, h4, if_true, Option.bind_some, Option.map_some, and3_true]
  · have h : splOp c!"OR" = some .or := by decide
    refine ⟨or3 a b, ?_, ?_⟩
    · simp only [h, h1, h3, Option.bind_some, Option.map_some, Sem.op, S.truth_ofB]
    · have hn : ¬ (some Oper.or = some Oper.and) := by decide
      simp only [h, h2, h4, if_neg hn, if_true, Option.bind_some, Option.map_some, or3_isTrue]

/-- A condition without NOT is true exactly when it is true as an expression. -/
theorem splSearch_eval (S : Sem) (row : Event) : ∀ e, SearchFrag false e = true →
    ∃ b, splEval S row e = some (ofB b) ∧ splSearch S row e = some (b == some true) := by
  refine searchFrag_cases ?_ ?_ ?_ ?_ ?_
  · intro f op p hf _ ho _
    have hb := (searchField_ne hf).2
    simp only [FragWildOp, Bool.or_eq_true, beq_iff_eq] at ho
    have e1 : ∀ op, splOp op = some .eq → splEval S row (.binary (.const (.field f)) op (.const (.wildcard p))) =
        some (ofB (S.matches (row f) (wildToks p))) ∧ splSearch S row (.binary (.const (.field f)) op (.const (.wildcard p))) =
        some (S.matches (row f) (wildToks p) == some true) := by
      intro op h
      simp only [splEval, splSearch, constVal, Option.bind_some, h, if_neg hb, if_true, and_self]
    rcases ho with (rfl | rfl) | rfl
    · exact ⟨_, (e1 _ (by decide)).1, (e1 _ (by decide)).2⟩
    · exact ⟨_, (e1 _ (by decide)).1, (e1 _ (by decide)).2⟩
    · have h : splOp c!"!=" = some .ne := by decide
      refine ⟨not3 (S.matches (row f) (wildToks p)), ?_, ?_⟩
      · simp [splEval, constVal, h]
      · rw [not3_true]
        simp [splSearch, h, hb]
  · intro f op k hf _ ho hk
    obtain ⟨_, _, _, o, h1, h2⟩ := searchOps_frag ho
    obtain ⟨v, hv⟩ := searchValue_const hk row
    refine ⟨S.cmp o (row f) v, ?_, splSearch_cmp S row hf hk h1 h2 hv⟩
    rw [splEval_bin S row op (fun p e => (searchValue_frag hk).2.1 p (by simpa using e))]
    rw [show splEval S row (.const k) = some v from hv, show splEval S row (.const (.field f)) = some (row f) from rfl]
    simp only [h1, Option.bind_some, Option.map_some, cmp_op S h2]
  · intro l op r ho hl hr h1 h2
    exact conn_search S row ho hl hr h1 h2
  · intro r h
    simp at h
  · exact in_search S row

/-- With NOT this holds on rows on which every comparison is decided. -/
theorem splSearch_decided (S : Sem) (row : Event) : ∀ e, SearchFrag true e = true → Decided S row e = true →
    ∃ b, splEval S row e = some (ofB (some b)) ∧ splSearch S row e = some b := by
  refine searchFrag_cases ?_ ?_ ?_ ?_ ?_
  · intro f op p h1 h2 ho h3 hd
    obtain ⟨b, h4, h5⟩ := splSearch_eval S row (.binary (.const (.field f)) op (.const (.wildcard p))) (by simp [SearchFrag, h1, h2, ho, h3])
    simp only [Decided] at hd
    obtain ⟨t, ht⟩ := Option.isSome_iff_exists.1 hd
    have hm : S.matches (row f) (wildToks p) = some (tokMatch (wildToks p) t) := by simp [Sem.matches, ht]
    cases b with
    | some b => exact ⟨b, h4, by rw [h5]; cases b <;> rfl⟩
    | none =>
      exfalso
      simp only [FragWildOp, Bool.or_eq_true, beq_iff_eq] at ho
      have e1 : splOp c!"=" = some .eq := by decide
      have e2 : splOp c!"==" = some .eq := by decide
      have e3 : splOp c!"!=" = some .ne := by decide
      rcases ho with (rfl | rfl) | rfl
      · simp [splEval, constVal, e1, hm, ofB] at h4
      · simp [splEval, constVal, e2, hm, ofB] at h4
      · simp [splEval, constVal, e3, hm, ofB, not3] at h4
  · intro f op k hf _ ho hk hd
    obtain ⟨_, _, _, o, h1, h2⟩ := searchOps_frag ho
    obtain ⟨v, hv⟩ := searchValue_const hk row
    have hd' : (S.cmp o (row f) v).isSome = true := by
      have hw := (searchValue_frag hk).2.1
      cases k <;> first | exact absurd rfl (hw _) | (simpa [Decided, h1, hv] using hd)
    obtain ⟨b, hb⟩ := Option.isSome_iff_exists.1 hd'
    refine ⟨b, ?_, ?_⟩
    · rw [splEval_bin S row op (fun p e => (searchValue_frag hk).2.1 p (by simpa using e))]
      rw [show splEval S row (.const k) = some v from hv, show splEval S row (.const (.field f)) = some (row f) from rfl]
      simp only [h1, Option.bind_some, Option.map_some, cmp_op S h2, hb]
    · rw [splSearch_cmp S row hf hk h1 h2 hv, hb]
      cases b <;> rfl
  · intro l op r ho hl hr i1 i2 hd
    have hd' : Decided S row l = true ∧ Decided S row r = true := by
      have := searchFrag_notConst hl
      cases l <;> first | exact absurd rfl (this _) | (simp only [Decided, Bool.and_eq_true, Bool.false_eq_true, false_and] at hd ⊢ <;> exact hd)
    obtain ⟨a, h1, h2⟩ := i1 hd'.1
    obtain ⟨b, h3, h4⟩ := i2 hd'.2
    rw [splSearch_conn S row op (searchFrag_notConst hl), splEval_bin S row op (fun p => searchFrag_notConst hr _)]
    rcases ho with rfl | rfl
    · have h : splOp c!"AND" = some .and := by decide
      refine ⟨a && b, ?_, ?_⟩
      · simp only [h, h1, h3, Option.bind_some, Option.map_some, Sem.op, S.truth_ofB]
        cases a <;> cases b <;> rfl
      · simp only [h, h2, h4, if_true, Option.bind_some, Option.map_some]
    · have h : splOp c!"OR" = some .or := by decide
      have hn : ¬ (some Oper.or = some Oper.and) := by decide
      refine ⟨a || b, ?_, ?_⟩
      · simp only [h, h1, h3, Option.bind_some, Option.map_some, Sem.op, S.truth_ofB]
        cases a <;> cases b <;> rfl
      · simp only [h, h2, h4, if_neg hn, if_true, Option.bind_some, Option.map_some]
  · intro r _ _ ih hd
    obtain ⟨b, h1, h2⟩ := ih (by simpa [Decided] using hd)
    have h : lower c!"NOT" = c!"not" := by decide
    refine ⟨!b, ?_, ?_⟩
    · simp only [splEval, h, if_true, h1, Option.map_some, Sem.neg, S.truth_ofB]; rfl
    · simp only [splSearch, h, if_true, h2, Option.map_some]
  · intro f es hf hl he hd
    obtain ⟨ps, gs, _, _, _, _, hs⟩ := elems_means hf he
    simp only [Decided, hs S row, decide_eq_true_eq, ne_eq, Option.some.injEq] at hd
    cases hb : gs.foldr (fun g b => or3 (g S row) b) (some false) with
    | none => exact absurd hb hd
    | some b =>
      refine ⟨b, ?_, ?_⟩
      · simp only [splEval, hs S row, hb, Option.map_some]
      · simp only [splSearch, hs S row, hb, Option.map_some]
        cases b <;> rfl

/-- It is enough that the comparisons under NOT are decided. -/
theorem splSearch_nots (S : Sem) (row : Event) : ∀ e, SearchFrag true e = true → NotsDecided S row e = true →
    ∃ b, splEval S row e = some (ofB b) ∧ splSearch S row e = some (b == some true) := by
  refine searchFrag_cases ?_ ?_ ?_ ?_ ?_
  · intro f op p h1 h2 ho h3 _
    exact splSearch_eval S row _ (by simp [SearchFrag, h1, h2, ho, h3])
  · intro f op k hf h2 ho hk _
    refine splSearch_eval S row _ ?_
    rw [SearchFrag.eq_2 _ _ _ _ fun p e => (searchValue_frag hk).2.1 p e]
    simp only [hf, h2, List.contains_iff_mem.2 ho, hk, Bool.and_self]
  · intro l op r ho hl hr i1 i2 hd
    simp only [NotsDecided, Bool.and_eq_true] at hd
    exact conn_search S row ho hl hr (i1 hd.1) (i2 hd.2)
  · intro r _ h ih hd
    obtain ⟨b, h1, h2⟩ := splSearch_decided S row r h hd
    have h : lower c!"NOT" = c!"not" := by decide
    refine ⟨some !b, ?_, ?_⟩
    · simp only [splEval, h, if_true, h1, Option.map_some, Sem.neg, S.truth_ofB]; rfl
    · simp only [splSearch, h, if_true, h2, Option.map_some]
      cases b <;> rfl
  · intro f es h1 h2 h3 _
    exact in_search S row f es h1 h2 h3

/-- Without NOT there is nothing to decide. -/
theorem nots_of_false (S : Sem) (row : Event) : ∀ e, SearchFrag false e = true → NotsDecided S row e = true := by
  refine searchFrag_cases ?_ ?_ ?_ ?_ ?_
  · intros; rfl
  · intros; rfl
  · intro l op r _ _ _ h1 h2
    simp only [NotsDecided, h1, h2, Bool.and_self]
  · intro r h; simp at h
  · intros; rfl

theorem split_searchFrag {neg : Bool} : ∀ e, SearchFrag neg e = true → ∀ b, splitConditions b e = some (some e, []) := by
  refine searchFrag_cases ?_ ?_ ?_ ?_ ?_
  · intro f op p h _ _ _ b
    have hf : f ≠ c!"index" := (searchField_ne h).1
    simp [splitConditions, isIndex, hf, recombine]
  · intro f op k h _ _ hk b
    have hf : f ≠ c!"index" := (searchField_ne h).1
    have hi : isIndex (.const k) = false := by
      cases k <;> first | rfl | simp [SearchValue] at hk
    have hi' : isIndex (.const (.field f)) = false := by simp [isIndex, hf]
    simp [splitConditions, hi, hi', recombine]
  · intro l op r ho hl hr h1 h2 b
    have i1 : isIndex l = false := by
      have := searchFrag_notConst hl
      cases l <;> first | rfl | exact absurd rfl (this _)
    have i2 : isIndex r = false := by
      have := searchFrag_notConst hr
      cases r <;> first | rfl | exact absurd rfl (this _)
    simp [splitConditions, i1, i2, h1, h2, recombine]
  · intro r _ _ _ b
    simp [splitConditions]
  · intro f es _ _ _ b
    simp [splitConditions]

end Verif.Lemmas
