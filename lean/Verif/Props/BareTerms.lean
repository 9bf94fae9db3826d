import Verif.Spec.Terms
import Verif.Props.SearchRows
import Verif.Props.Query
import Verif.Props.Program
/-
C92: bare terms of a search.
-/
namespace Verif.Props
open Verif Spl Spec Lemmas

/-! ### patterns -/

theorem tokMatch_lits : ∀ (w : Str) (p : List Tok1) (s : Str),
    tokMatch (w.map .lit ++ p) s = true ↔ ∃ b, s = w ++ b ∧ tokMatch p b = true
  | [], p, s => by simp
  | c :: w, p, s => by
    rw [List.map_cons, List.cons_append, tokMatch.eq_def]
    cases s with
    | nil => simp
    | cons d s =>
      simp only [Bool.and_eq_true, beq_iff_eq, tokMatch_lits w p s, List.cons_append, List.cons.injEq]
      constructor
      · rintro ⟨rfl, b, rfl, h⟩; exact ⟨b, ⟨rfl, rfl⟩, h⟩
      · rintro ⟨b, ⟨rfl, rfl⟩, h⟩; exact ⟨rfl, b, rfl, h⟩

theorem tokMatch_any (p : List Tok1) : ∀ s : Str, tokMatch (.any :: p) s = true ↔ ∃ a b, s = a ++ b ∧ tokMatch p b = true
  | [] => by
    rw [tokMatch.eq_def]
    constructor
    · intro h; exact ⟨[], [], rfl, by simpa using h⟩
    · rintro ⟨a, b, h, hb⟩
      have : b = [] := by simp_all
      subst this
      simpa using hb
  | c :: s => by
    rw [tokMatch.eq_def]
    simp only [Bool.or_eq_true, tokMatch_any p s]
    constructor
    · rintro (h | ⟨a, b, rfl, h⟩)
      · exact ⟨[], c :: s, rfl, h⟩
      · exact ⟨c :: a, b, rfl, h⟩
    · rintro ⟨a, b, h, hb⟩
      cases a with
      | nil => exact .inl (by rw [h]; exact hb)
      | cons d a =>
        simp only [List.cons_append, List.cons.injEq] at h
        exact .inr ⟨a, b, h.2, hb⟩

/-- the elements of a pattern `%w%` -/
def inside (w : Str) : List Tok1 := .any :: (w.map .lit ++ [.any])

theorem tokMatch_inside (w s : Str) : tokMatch (inside w) s = true ↔ ∃ a b, s = a ++ w ++ b := by
  rw [inside, tokMatch_any]
  constructor
  · rintro ⟨a, b, rfl, h⟩
    obtain ⟨c, rfl, _⟩ := (tokMatch_lits w [.any] b).1 h
    exact ⟨a, c, by simp⟩
  · rintro ⟨a, b, rfl⟩
    refine ⟨a, w ++ b, by simp, (tokMatch_lits w [.any] _).2 ⟨b, rfl, ?_⟩⟩
    exact (tokMatch_any [] b).2 ⟨b, [], by simp, by rw [tokMatch.eq_def]; rfl⟩

theorem occurs_iff (w t : Str) : HasText w t ↔ ∃ a b, lower t = a ++ lower w ++ b := by
  constructor
  · rintro ⟨a, u, b, rfl, h⟩
    exact ⟨lower a, lower b, by simp [lower] at h ⊢; rw [h]⟩
  · rintro ⟨a, b, h⟩
    simp only [lower] at h
    obtain ⟨x, z, rfl, hx, _⟩ := List.map_eq_append_iff.1 h
    obtain ⟨a', u, rfl, _, hu⟩ := List.map_eq_append_iff.1 hx
    exact ⟨a', u, z, rfl, hu⟩

theorem lowerC_eq {c d : Char} (hd : ¬ ('a' ≤ d ∧ d ≤ 'z')) (h : lowerC c = d) : c = d := by
  unfold lowerC at h
  split at h
  · rename_i hc
    exfalso
    apply hd
    subst h
    have e1 : 65 ≤ c.toNat := hc.1
    have e2 : c.toNat ≤ 90 := hc.2
    have key : ∀ k < 26, 'a' ≤ Char.ofNat (k + 65 + 32) ∧ Char.ofNat (k + 65 + 32) ≤ 'z' := by decide
    have := key (c.toNat - 65) (by omega)
    rwa [show c.toNat - 65 + 65 = c.toNat by omega] at this
  · exact h

theorem likeToks_lits : ∀ {w : Str} (p : Str) (ts : List Tok1), likeToks p = some ts → (∀ c ∈ w, c ≠ '%' ∧ c ≠ '_' ∧ c ≠ '\\') →
    likeToks (w ++ p) = some (w.map .lit ++ ts)
  | [], _, _, h, _ => h
  | c :: w, p, ts, h, hw => by
    obtain ⟨h1, h2, h3⟩ := hw c (by simp)
    rw [List.cons_append, likeToks.eq_def]
    simp only [if_neg h1, if_neg h2, if_neg h3, likeToks_lits (w := w) p ts h fun d hd => hw d (List.mem_cons_of_mem _ hd), Option.map_some]
    rfl

theorem plainPat_chars {w : Str} (h : PlainPat w = true) : ∀ c ∈ w, c ≠ '%' ∧ c ≠ '_' ∧ c ≠ '\\' := by
  intro c hc
  simp only [PlainPat, Plain, Bool.and_eq_true, List.all_eq_true, bne_iff_ne] at h
  exact ⟨(h.2 c hc).1, (h.2 c hc).2, (h.1 c hc).1.1.2⟩

theorem likeToks_term {w : Str} (h : PlainPat w = true) : likeToks (lower (c!"%" ++ w ++ c!"%")) = some (inside (lower w)) := by
  have hl : lower (c!"%" ++ w ++ c!"%") = '%' :: (lower w ++ c!"%") := by
    simp only [lower, List.map_append]; rfl
  have hc : ∀ c ∈ lower w, c ≠ '%' ∧ c ≠ '_' ∧ c ≠ '\\' := by
    intro c hc
    obtain ⟨d, hd, rfl⟩ := List.mem_map.1 hc
    have := plainPat_chars h d hd
    exact ⟨fun e => this.1 (lowerC_eq (by decide) e), fun e => this.2.1 (lowerC_eq (by decide) e), fun e => this.2.2 (lowerC_eq (by decide) e)⟩
  rw [hl, likeToks.eq_def]
  simp only [likeToks_lits (w := lower w) c!"%" [.any] rfl hc]
  rfl

/-! ### translation -/

theorem isIdent_ilike : isIdent c!"ilike" = true := by decide +kernel

/-- what the test of a term says of a row -/
def termTest (w : Str) (S : Sem) (row : Event) : Option Bool := (S.text (row c!"_raw")).map fun t => tokMatch (inside (lower w)) (lower t)

theorem means_ilike {p : Str} {ts : List Tok1} (hp : Plain '"' p = true) (ht : likeToks (lower p) = some ts) :
    Means (.method (.named c!"_raw") c!"ilike" [pyStr p]) fun S row => ofB ((S.text (row c!"_raw")).map fun t => tokMatch ts (lower t)) := by
  obtain ⟨a, ha, ea⟩ := means_named (n := c!"_raw") (by decide)
  obtain ⟨b, hb, eb⟩ := plain_dconst hp
  refine ⟨.call (.attr a c!"ilike") [b], ?_, fun S row => ?_⟩
  · have hr : isReceiver (.named c!"_raw") = true := rfl
    rw [pyTree, hr, isIdent_ilike, ha]
    simp only [Bool.and_self, if_true, pyTrees, pyTree, pyStr, hb]
  obtain ⟨x, hx, cx, vx⟩ := ea S row
  refine ⟨.column (ofB ((S.text x.val).map fun t => tokMatch ts (lower t))), ?_, rfl, by rw [vx]; rfl⟩
  rw [eval_method _ _ hx cx]
  simp only [pyEvals, eb, Option.bind_some, Option.map_some]
  unfold colMethod
  rw [if_pos cx]
  simp only [Obj.isColumn, ht, Option.map_some]
  rfl

theorem means_term {w : Str} (h : PlainPat w = true) : Means (rawTest w) fun S row => ofB (termTest w S row) := by
  have hp : Plain '"' (c!"%" ++ w ++ c!"%") = true := by
    have h' : Plain '"' w = true := by
      simp only [PlainPat, Bool.and_eq_true] at h; exact h.1
    simp only [Plain, List.all_append, Bool.and_eq_true] at h' ⊢
    exact ⟨⟨by decide, h'⟩, by decide⟩
  exact means_ilike hp (likeToks_term h)

theorem showInt_chars (n : Int) : ∀ c ∈ showInt n, c.isDigit = true ∨ c = '-' := by
  intro c hc
  cases n with
  | ofNat k => exact .inl (showNat_digits k _ hc)
  | negSucc k =>
    rcases List.mem_cons.1 (show c ∈ '-' :: showNat (k + 1) from hc) with h | h
    · exact .inr h
    · exact .inl (showNat_digits _ _ h)

theorem showInt_pat (n : Int) : PlainPat (showInt n) = true ∧ stripQuotes (showInt n) = showInt n := by
  have hm : ∀ d, d.isDigit = false → d ≠ '-' → ∀ c ∈ showInt n, c ≠ d := by
    rintro d h1 h2 c hc rfl
    rcases showInt_chars n c hc with h | h
    · rw [h] at h1; cases h1
    · exact h2 h
  constructor
  · simp only [PlainPat, Plain, Bool.and_eq_true, List.all_eq_true, bne_iff_ne]
    exact ⟨fun c hc => ⟨⟨⟨hm _ (by decide) (by decide) c hc, hm _ (by decide) (by decide) c hc⟩, hm _ (by decide) (by decide) c hc⟩, hm _ (by decide) (by decide) c hc⟩,
      fun c hc => ⟨hm _ (by decide) (by decide) c hc, hm _ (by decide) (by decide) c hc⟩⟩
  · unfold stripQuotes
    split
    · rfl
    · rename_i q rest he
      have h1 : q ≠ '"' := hm _ (by decide) (by decide) q (by rw [he]; simp)
      have h2 : q ≠ '\'' := hm _ (by decide) (by decide) q (by rw [he]; simp)
      simp [h1, h2]

/-- A condition with its translation: what the filter says of a row, and how that relates to the condition. -/
structure Tested (neg : Bool) (e : Expr) (p : PE) (g : Sem → Event → Option Bool) : Prop where
  tr : exprTr .disallow e = some p
  plain : p.unalias = p ∧ p.aliasName = none
  rw_plain : (searchRw p).unalias = searchRw p
  means : Means (searchRw p) fun S row => ofB (g S row)
  split : ∀ b, splitConditions b e = some (some e, [])
  noIndex : isIndex e = false
  truth : neg = false → ∀ S row t, S.text (row c!"_raw") = some t → (g S row = some true ↔ SearchHolds (HasText · t) S row e)
  decided : ∀ S row t, S.text (row c!"_raw") = some t → TermsDecided S row e = true →
    ∃ b, g S row = some b ∧ (b = true ↔ SearchHolds (HasText · t) S row e)

theorem termTest_iff {w t : Str} {S : Sem} {row : Event} (ht : S.text (row c!"_raw") = some t) :
    ∃ b, termTest w S row = some b ∧ (b = true ↔ HasText w t) :=
  ⟨_, by rw [termTest, ht]; rfl, by rw [tokMatch_inside, occurs_iff]⟩

theorem tested_term {neg : Bool} {k : Constant} {w : Str} {p : PE} (hk : termText k = some w) (hp : PlainPat w = true) (ht : constTr k = some p)
    (hu : p.unalias = p ∧ p.aliasName = none) (hr : searchRw p = rawTest w) (hi : isIndex (.const k) = false) :
    Tested neg (.const k) p (termTest w) := by
  refine ⟨by rw [exprTr]; exact ht, hu, by rw [hr]; rfl, by rw [hr]; exact means_term hp, fun b => by simp [splitConditions], hi, fun _ S row t h => ?_, fun S row t h _ => ?_⟩
  · obtain ⟨b, h1, h2⟩ := termTest_iff (w := w) h
    rw [h1, SearchHolds]
    simp only [hk, Option.some.injEq, exists_eq_left', h2]
  · obtain ⟨b, h1, h2⟩ := termTest_iff (w := w) h
    refine ⟨b, h1, ?_⟩
    rw [SearchHolds]
    simp only [hk, Option.some.injEq, exists_eq_left', h2]

theorem tested_const {neg : Bool} {k : Constant} (h : termOk k = true) : ∃ p g, Tested neg (.const k) p g := by
  cases k with
  | field w =>
    simp only [termOk, Bool.and_eq_true, bne_iff_ne] at h
    exact ⟨_, _, tested_term (w := w) rfl h.2 rfl ⟨rfl, rfl⟩ rfl (by simp [isIndex, h.1])⟩
  | str s =>
    simp only [termOk, Bool.and_eq_true, bne_iff_ne] at h
    have hn : '\n' ∉ s := by
      intro hc
      have := h.2
      simp only [PlainPat, Plain, Bool.and_eq_true, List.all_eq_true, bne_iff_ne] at this
      exact (this.1 _ hc).1.2 rfl
    exact ⟨_, _, tested_term (w := s) rfl h.2 rfl ⟨rfl, rfl⟩ (by rw [searchRw, C27_quoted_term_partial s h.1 hn]) rfl⟩
  | int n =>
    obtain ⟨h1, h2⟩ := showInt_pat n
    exact ⟨_, _, tested_term (w := showInt n) rfl h1 rfl ⟨rfl, rfl⟩ (by rw [searchRw, h2]) rfl⟩
  | _ => simp [termOk] at h

theorem searchFrag_mono : ∀ e, SearchFrag false e = true → SearchFrag true e = true
  | .binary l op r, h => by
    by_cases hc : ∃ f k, l = .const (.field f) ∧ r = .const k
    · obtain ⟨f, k, rfl, rfl⟩ := hc
      by_cases hw : ∃ p, k = .wildcard p
      · obtain ⟨p, rfl⟩ := hw
        simpa [SearchFrag] using h
      · rw [SearchFrag.eq_2 _ _ _ _ fun p e => hw ⟨p, e⟩] at h ⊢
        exact h
    · rw [SearchFrag.eq_3 _ _ _ _ (fun f p e e' => hc ⟨f, _, e, e'⟩) (fun f k e e' => hc ⟨f, k, e, e'⟩)] at h ⊢
      simp only [Bool.and_eq_true] at h ⊢
      exact ⟨⟨h.1.1, searchFrag_mono l h.1.2⟩, searchFrag_mono r h.2⟩
  | .unary op r, h => by simp [SearchFrag] at h
  | .fieldIn f es, h => by rw [SearchFrag] at h ⊢; exact h
  | .const _, h | .fv .., h | .fb .., h | .fc .., h | .call .., h | .alias .., h | .aliasedField .., h | .searchModifier .., h | .subSearch .., h
  | .timeModifier .., h => by simp [SearchFrag] at h

theorem tested_atom {neg : Bool} {e : Expr} (h : SearchFrag false e = true) (hh : ∀ has S row, SearchHolds has S row e ↔ splSearch S row e = some true)
    (hd : ∀ S row, TermsDecided S row e = Decided S row e) (hi : isIndex e = false) : ∃ p g, Tested neg e p g := by
  obtain ⟨p, f, hp, ⟨⟨hm, _⟩, _, hs⟩⟩ := frag_means .disallow e (searchFrag_frag .disallow e h)
  have hf := searchFrag_fixed .disallow e h p hp
  have key : ∀ S row, ∃ b, f S row = ofB b ∧ splSearch S row e = some (b == some true) := by
    intro S row
    obtain ⟨b, h1, h2⟩ := splSearch_eval S row e h
    rw [hs S row] at h1
    exact ⟨b, Option.some.inj h1, h2⟩
  refine ⟨p, fun S row => S.truth (f S row), hp, ⟨hf.1, hf.2.1⟩, by rw [hf.2.2]; exact hf.1, ?_, split_searchFrag e h, hi, fun _ S row t _ => ?_, fun S row t _ hx => ?_⟩
  · rw [hf.2.2]
    have : (fun S row => ofB (S.truth (f S row))) = f := by
      funext S row
      obtain ⟨b, h1, _⟩ := key S row
      rw [h1, S.truth_ofB]
    rw [this]; exact hm
  · obtain ⟨b, h1, h2⟩ := key S row
    rw [hh, h2, h1, S.truth_ofB]
    simp
  · obtain ⟨b, h1, h2⟩ := splSearch_decided S row e (searchFrag_mono e h) (by rw [← hd]; exact hx)
    rw [hs S row] at h1
    refine ⟨b, by rw [Option.some.inj h1, S.truth_ofB], ?_⟩
    rw [hh, h2]
    simp

theorem tested_conn {neg : Bool} {l r : Expr} {p q : PE} {g k : Sem → Event → Option Bool} {op : Str} (ho : op = c!"AND" ∨ op = c!"OR")
    (h1 : Tested neg l p g) (h2 : Tested neg r q k) : ∃ p g, Tested neg (.binary l op r) p g := by
  have hop : ∃ m o, mapOp op = m ∧ (m = c!"&" ∨ m = c!"|") ∧ pyOp m = some o ∧ (opLevel m).isSome = true ∧
      (op = c!"AND" ∧ o = .and ∨ op = c!"OR" ∧ o = .or) := by
    rcases ho with rfl | rfl
    · exact ⟨c!"&", .and, by decide, by simp, by decide, by decide, by simp⟩
    · exact ⟨c!"|", .or, by decide, by simp, by decide, by decide, by simp⟩
  obtain ⟨m, o, hm, hmm, hpy, hlev, hoo⟩ := hop
  have htr : exprTr .disallow (.binary l op r) = some (.bin m p q) := by
    rw [exprTr, h1.tr, h2.tr]
    have : binTr l op r (some p) (some q) = generalBin (some p) (mapOp op) (some q) := by
      unfold binTr
      split
      · rename_i w
        have := h2.tr
        simp [exprTr, constTr] at this
      · split
        · rw [if_neg]
          rcases ho with rfl | rfl <;> decide
        · rfl
      · rfl
    rw [this, generalBin, PE.mkBin, h1.plain.1, h2.plain.1, hm]
  have hrw : searchRw (.bin m p q) = .bin m (searchRw p) (searchRw q) := by
    rw [searchRw, if_pos (by simpa using hmm), PE.mkBin, h1.rw_plain, h2.rw_plain]
  rcases hoo with ⟨rfl, rfl⟩ | ⟨rfl, rfl⟩
  · refine ⟨_, fun S row => and3 (g S row) (k S row), htr, ⟨rfl, rfl⟩, by rw [hrw]; rfl, ?_, ?_, rfl, fun hn S row t ht => ?_, fun S row t ht hd => ?_⟩
    · rw [hrw]
      have := means_bin h1.means h2.means hpy hlev
      simpa only [Sem.op, Sem.truth_ofB] using this
    · intro b
      simp [splitConditions, h1.noIndex, h2.noIndex, h1.split, h2.split, recombine]
    · have e := and3_true (g S row) (k S row)
      rw [Bool.eq_iff_iff] at e
      simp only [beq_iff_eq, Bool.and_eq_true] at e
      rw [e, SearchHolds, if_pos rfl, h1.truth hn S row t ht, h2.truth hn S row t ht]
    · have hd' : TermsDecided S row l = true ∧ TermsDecided S row r = true := by simpa [TermsDecided] using hd
      obtain ⟨a, ha, ha'⟩ := h1.decided S row t ht hd'.1
      obtain ⟨b, hb, hb'⟩ := h2.decided S row t ht hd'.2
      refine ⟨a && b, by simp only [ha, hb]; cases a <;> cases b <;> rfl, ?_⟩
      rw [Bool.and_eq_true, ha', hb', SearchHolds, if_pos rfl]
  · have hne : ¬ (c!"OR" = c!"AND") := by decide
    refine ⟨_, fun S row => or3 (g S row) (k S row), htr, ⟨rfl, rfl⟩, by rw [hrw]; rfl, ?_, ?_, rfl, fun hn S row t ht => ?_, fun S row t ht hd => ?_⟩
    · rw [hrw]
      have := means_bin h1.means h2.means hpy hlev
      simpa only [Sem.op, Sem.truth_ofB] using this
    · intro b
      simp [splitConditions, h1.noIndex, h2.noIndex, h1.split, h2.split, recombine]
    · have e := or3_isTrue (g S row) (k S row)
      rw [Bool.eq_iff_iff] at e
      simp only [beq_iff_eq, Bool.or_eq_true] at e
      rw [e, SearchHolds, if_neg hne, if_pos rfl, h1.truth hn S row t ht, h2.truth hn S row t ht]
    · have hd' : TermsDecided S row l = true ∧ TermsDecided S row r = true := by simpa [TermsDecided] using hd
      obtain ⟨a, ha, ha'⟩ := h1.decided S row t ht hd'.1
      obtain ⟨b, hb, hb'⟩ := h2.decided S row t ht hd'.2
      refine ⟨a || b, by simp only [ha, hb]; cases a <;> cases b <;> rfl, ?_⟩
      rw [Bool.or_eq_true, ha', hb', SearchHolds, if_neg hne, if_pos rfl]

theorem tested_not {r : Expr} {p : PE} {g : Sem → Event → Option Bool} (h : Tested true r p g) : ∃ p g, Tested true (.unary c!"NOT" r) p g := by
  refine ⟨.not p, fun S row => not3 (g S row), ?_, ⟨rfl, rfl⟩, rfl, ?_, ?_, rfl, fun hn => (by cases hn), fun S row t ht hd => ?_⟩
  · simp only [exprTr, h.tr, if_true, Option.map_some, PE.mkNot, h.plain.1]
  · rw [searchRw]
    have := means_not h.means
    simpa only [Sem.neg, Sem.truth_ofB] using this
  · intro b; simp [splitConditions]
  · obtain ⟨b, hb, hb'⟩ := h.decided S row t ht (by simpa [TermsDecided] using hd)
    refine ⟨!b, by simp only [hb]; cases b <;> rfl, ?_⟩
    rw [SearchHolds, ← hb']
    cases b <;> simp

theorem termFrag_tested {neg : Bool} : ∀ e, TermFrag neg e = true → ∃ p g, Tested neg e p g
  | .const k, h => tested_const h
  | .binary l op r, h => by
    by_cases ho : op = c!"AND" ∨ op = c!"OR"
    · rw [TermFrag, if_pos (by simpa using ho), Bool.and_eq_true] at h
      obtain ⟨p, g, h1⟩ := termFrag_tested l h.1
      obtain ⟨q, k, h2⟩ := termFrag_tested r h.2
      exact tested_conn ho h1 h2
    · rw [TermFrag, if_neg (by simpa using ho)] at h
      rw [not_or] at ho
      refine tested_atom h (fun has S row => ?_) (fun S row => ?_) rfl
      · rw [SearchHolds, if_neg ho.1, if_neg ho.2]
      · rw [TermsDecided, if_neg (by simp [ho.1, ho.2])]
  | .unary op r, h => by
    rw [TermFrag] at h
    simp only [Bool.and_eq_true, beq_iff_eq] at h
    obtain ⟨⟨rfl, rfl⟩, h⟩ := h
    obtain ⟨p, g, h1⟩ := termFrag_tested r h
    exact tested_not h1
  | .fieldIn f es, h => tested_atom h (fun _ _ _ => Iff.rfl) (fun _ _ => rfl) rfl
  | .fv .., h | .fb .., h | .fc .., h | .call .., h | .alias .., h | .aliasedField .., h | .searchModifier .., h | .subSearch .., h
  | .timeModifier .., h => by simp [TermFrag, SearchFrag] at h

theorem terms_text {neg : Bool} (x : Ext) (hx : Arranges x) {e : Expr} {p : PE} {g : Sem → Event → Option Bool} (h : Tested neg e p g) :
    renderPipeline ⟨.disallow, x⟩ [.search e] = some (c!"spark.table('main').where(" ++ renderE (searchRw p) ++ c!",)") ∧
      ∀ S row, textEval S row (renderE (searchRw p)) = some (ofB (g S row)) := by
  have ho : x.order [] = [] := List.perm_nil.1 (hx [])
  have hint : (intoSearch p).unalias = searchRw p := by rw [intoSearch, h.plain.1, h.plain.2]; exact h.rw_plain
  refine ⟨?_, fun S row => (text_of_means h.means S row).1⟩
  simp only [renderPipeline, runCmds, transform, dispatch, searchStandalone, h.split, h.tr, Option.map_some, dedupStr, ho, unionSources, Option.getD_none,
    DF.mkWhere, hint]
  rfl

/-! ### C92 -/

/-- **C92** (partial): the events a search with bare terms keeps, as the generated filter has it: a term only has to occur somewhere in the text of the
event, in any letter case. -/
theorem C92_kept_partial (x : Ext) (hx : Arranges x) {e : Expr} (h : TermFrag false e = true) :
    ∃ cond, renderPipeline ⟨.disallow, x⟩ [.search e] = some (c!"spark.table('main').where(" ++ cond ++ c!",)") ∧
      ∀ S row t, S.text (row c!"_raw") = some t → ∃ v, textEval S row cond = some v ∧ (S.truth v = some true ↔ SearchHolds (HasText · t) S row e) := by
  obtain ⟨p, g, hT⟩ := termFrag_tested e h
  obtain ⟨h1, h2⟩ := terms_text x hx hT
  refine ⟨_, h1, fun S row t ht => ⟨_, h2 S row, ?_⟩⟩
  rw [S.truth_ofB]
  exact hT.truth rfl S row t ht

/-- **C92** (partial), with NOT: on events on which the comparisons are decided. -/
theorem C92_kept_not_partial (x : Ext) (hx : Arranges x) {e : Expr} (h : TermFrag true e = true) :
    ∃ cond, renderPipeline ⟨.disallow, x⟩ [.search e] = some (c!"spark.table('main').where(" ++ cond ++ c!",)") ∧
      ∀ S row t, S.text (row c!"_raw") = some t → TermsDecided S row e = true →
        ∃ v, textEval S row cond = some v ∧ (S.truth v = some true ↔ SearchHolds (HasText · t) S row e) := by
  obtain ⟨p, g, hT⟩ := termFrag_tested e h
  obtain ⟨h1, h2⟩ := terms_text x hx hT
  refine ⟨_, h1, fun S row t ht hd => ⟨_, h2 S row, ?_⟩⟩
  obtain ⟨b, hb, hb'⟩ := hT.decided S row t ht hd
  rw [S.truth_ofB, hb, ← hb', Option.some.injEq]

theorem hasTerm_text {w t : Str} (h : HasTerm w t) : HasText w t := by
  obtain ⟨a, u, b, h1, h2, _⟩ := h
  exact ⟨a, u, b, h1, h2⟩

theorem holds_mono {has has' : Str → Prop} (S : Sem) (row : Event) : ∀ e, TermFrag false e = true → (∀ w ∈ bareTerms e, has w → has' w) →
    SearchHolds has S row e → SearchHolds has' S row e
  | .const k, _, hw, ⟨w, h1, h2⟩ => ⟨w, h1, hw w (by simp [bareTerms, h1]) h2⟩
  | .binary l op r, h, hw, hh => by
    rw [SearchHolds] at hh ⊢
    by_cases h1 : op = c!"AND"
    · subst h1
      simp only [TermFrag, beq_self_eq_true, Bool.true_or, if_true, Bool.and_eq_true] at h
      simp only [bareTerms, beq_self_eq_true, Bool.true_or, if_true, List.mem_append] at hw
      rw [if_pos rfl] at hh ⊢
      exact ⟨holds_mono S row l h.1 (fun w hm => hw w (.inl hm)) hh.1, holds_mono S row r h.2 (fun w hm => hw w (.inr hm)) hh.2⟩
    · rw [if_neg h1] at hh ⊢
      by_cases h2 : op = c!"OR"
      · subst h2
        simp only [TermFrag, beq_self_eq_true, Bool.or_true, if_true, Bool.and_eq_true] at h
        simp only [bareTerms, beq_self_eq_true, Bool.or_true, if_true, List.mem_append] at hw
        rw [if_pos rfl] at hh ⊢
        exact hh.imp (holds_mono S row l h.1 fun w hm => hw w (.inl hm)) (holds_mono S row r h.2 fun w hm => hw w (.inr hm))
      · rw [if_neg h2] at hh ⊢
        exact hh
  | .unary op r, h, _, _ => by simp [TermFrag] at h
  | .fieldIn .., _, _, hh => hh
  | .fv .., h, _, _ | .fb .., h, _, _ | .fc .., h, _, _ | .call .., h, _, _ | .alias .., h, _, _ | .aliasedField .., h, _, _
  | .searchModifier .., h, _, _ | .subSearch .., h, _, _ | .timeModifier .., h, _, _ => by simp [TermFrag, SearchFrag] at h

/-- **C92** (partial): without NOT no event that has the terms is lost, and an event is kept wrongly only if one of the terms of the search stands in it
as a part of a longer term. -/
theorem C92_terms_partial (x : Ext) (hx : Arranges x) {e : Expr} (h : TermFrag false e = true) :
    ∃ cond, renderPipeline ⟨.disallow, x⟩ [.search e] = some (c!"spark.table('main').where(" ++ cond ++ c!",)") ∧
      ∀ S row t, S.text (row c!"_raw") = some t → ∃ v, textEval S row cond = some v ∧
        (SearchHolds (HasTerm · t) S row e → S.truth v = some true) ∧
        ((∀ w ∈ bareTerms e, HasText w t → HasTerm w t) → S.truth v = some true → SearchHolds (HasTerm · t) S row e) := by
  obtain ⟨cond, h1, h2⟩ := C92_kept_partial x hx h
  refine ⟨cond, h1, fun S row t ht => ?_⟩
  obtain ⟨v, hv, hk⟩ := h2 S row t ht
  exact ⟨v, hv, fun hh => hk.2 (holds_mono S row e h (fun w _ => hasTerm_text) hh), fun hw hh => holds_mono S row e h hw (hk.1 hh)⟩

/-- **C92** (partial), from the text of the query. -/
theorem C92_query_partial (x : Ext) (hx : Arranges x) {q : Str} {e : Expr} (hq : QueryText [.search e] q) (h : TermFrag false e = true) :
    ∃ cond, (parse q).bind (renderPipeline ⟨.disallow, x⟩) = some (c!"spark.table('main').where(" ++ cond ++ c!",)") ∧
      ∀ S row t, S.text (row c!"_raw") = some t → ∃ v, textEval S row cond = some v ∧
        (SearchHolds (HasTerm · t) S row e → S.truth v = some true) ∧
        ((∀ w ∈ bareTerms e, HasText w t → HasTerm w t) → S.truth v = some true → SearchHolds (HasTerm · t) S row e) := by
  obtain ⟨cond, h1, h2⟩ := C92_terms_partial x hx h
  exact ⟨cond, by rw [C69_read_partial hq, Option.bind_some, h1], h2⟩

/-- a row with a text of the event -/
def rawRow (t : Str) : Event := fun n => if n = c!"_raw" then .str t else .null

theorem turn_around {α : Type} {c d : α} : ∀ {xs : List α}, xs ++ [c] = d :: xs → d = c
  | [], h => by simpa using h.symm
  | x :: xs, h => by
    simp only [List.cons_append, List.cons.injEq] at h
    have := turn_around h.2
    rw [← h.1, this]

theorem breaker_lower {c d : Char} (h : lowerC d = lowerC c) (hd : isBreaker d = true) : isBreaker c = true := by
  have hn : ¬ ('a' ≤ d ∧ d ≤ 'z') ∧ ¬ ('A' ≤ d ∧ d ≤ 'Z') := by
    simp only [isBreaker, Char.isAlphanum, Char.isAlpha, Char.isUpper, Char.isLower, Bool.and_eq_true, Bool.not_eq_true', Bool.or_eq_false_iff,
      decide_eq_true_eq, decide_eq_false_iff_not, Bool.and_eq_false_iff] at hd
    refine ⟨fun h => ?_, fun h => ?_⟩
    · rcases hd.2.1.2 with h' | h'
      · exact h' h.1
      · exact h' h.2
    · exact hd.2.1.1 h
  have e : lowerC d = d := by rw [lowerC, if_neg hn.2]
  rw [e] at h
  rw [lowerC_eq hn.1 h.symm]
  exact hd

/-- A word with a letter or digit put after it is not an event with that word as a term. -/
theorem longer_term {w : Str} {c : Char} (hw : w ≠ []) (hc : isBreaker c = false) : ¬ HasTerm w (w ++ [c]) := by
  rintro ⟨a, u, b, h1, h2, h3, h4⟩
  have hl : u.length = w.length := by
    have := congrArg List.length h2
    simpa [lower] using this
  have hlen := congrArg List.length h1
  simp only [List.length_append, List.length_singleton, hl] at hlen
  cases b with
  | nil =>
    match a, hlen with
    | [d], _ =>
      cases w with
      | nil => exact hw rfl
      | cons e w =>
        simp only [List.append_nil, List.cons_append, List.nil_append, List.cons.injEq] at h1
        obtain ⟨rfl, rfl⟩ := h1
        simp only [lower, List.map_append, List.map_cons, List.map_nil] at h2
        have := breaker_lower (turn_around h2) (h3 e rfl)
        rw [hc] at this; cases this
    | [], h => simp at h
    | _ :: _ :: _, h => simp at h; omega
  | cons d b =>
    have hb : b = [] ∧ a = [] := by
      constructor <;> (apply List.eq_nil_of_length_eq_zero; simp at hlen; omega)
    obtain ⟨rfl, rfl⟩ := hb
    simp only [List.nil_append] at h1
    have := (List.append_inj' h1 rfl).2
    simp only [List.cons.injEq, and_true] at this
    have := h4 d rfl
    subst_vars
    rw [hc] at this; cases this

/-- Disagreement, for every word: events in which the word is only the beginning of a longer one are kept. -/
theorem C92_part_of_a_word (x : Ext) (hx : Arranges x) {w : Str} (hw : w ≠ []) (hi : w ≠ c!"index") (hp : PlainPat w = true) {c : Char}
    (hc : isBreaker c = false) :
    ∃ cond, renderPipeline ⟨.disallow, x⟩ [.search (.const (.field w))] = some (c!"spark.table('main').where(" ++ cond ++ c!",)") ∧
      (∀ S, S.text (.str (w ++ [c])) = some (w ++ [c]) → textEval S (rawRow (w ++ [c])) cond = some (.bool true)) ∧ ¬ HasTerm w (w ++ [c]) := by
  obtain ⟨p, g, hT⟩ := termFrag_tested (neg := false) (.const (.field w)) (by simp [TermFrag, termOk, hi, hp])
  obtain ⟨h1, h2⟩ := terms_text x hx hT
  refine ⟨_, h1, fun S hS => ?_, longer_term hw hc⟩
  have := (hT.truth rfl S (rawRow (w ++ [c])) (w ++ [c]) hS).2 ⟨w, rfl, [], w, [c], by simp, rfl⟩
  rw [h2, this]
  rfl

/-- the elements of `%a_b%` -/
theorem likeToks_underscore {a b : Str} (ha : PlainPat a = true) (hb : PlainPat b = true) :
    likeToks (lower (c!"%" ++ (a ++ '_' :: b) ++ c!"%")) = some (.any :: ((lower a).map .lit ++ .one :: ((lower b).map .lit ++ [.any]))) := by
  have hl : lower (c!"%" ++ (a ++ '_' :: b) ++ c!"%") = '%' :: (lower a ++ ('_' :: (lower b ++ c!"%"))) := by
    simp only [lower, List.map_append, List.map_cons, List.cons_append, List.append_assoc]; rfl
  have hc : ∀ {w : Str}, PlainPat w = true → ∀ c ∈ lower w, c ≠ '%' ∧ c ≠ '_' ∧ c ≠ '\\' := by
    intro w h c hc
    obtain ⟨d, hd, rfl⟩ := List.mem_map.1 hc
    have := plainPat_chars h d hd
    exact ⟨fun e => this.1 (lowerC_eq (by decide) e), fun e => this.2.1 (lowerC_eq (by decide) e), fun e => this.2.2 (lowerC_eq (by decide) e)⟩
  have h2 : likeToks ('_' :: (lower b ++ c!"%")) = some (.one :: ((lower b).map .lit ++ [.any])) := by
    rw [likeToks.eq_def]
    simp only [likeToks_lits (w := lower b) c!"%" [.any] rfl (hc hb)]
    rfl
  rw [hl, likeToks.eq_def]
  simp only [likeToks_lits (w := lower a) _ _ h2 (hc ha)]
  rfl

/-- Disagreement, for every word with an underscore in it: the underscore stands for any character. -/
theorem C92_underscore (x : Ext) (hx : Arranges x) {a b : Str} (ha : PlainPat a = true) (hb : PlainPat b = true) {c : Char} (hc : c ≠ '_') :
    ∃ cond, renderPipeline ⟨.disallow, x⟩ [.search (.const (.field (a ++ '_' :: b)))] = some (c!"spark.table('main').where(" ++ cond ++ c!",)") ∧
      (∀ S, S.text (.str (a ++ c :: b)) = some (a ++ c :: b) → textEval S (rawRow (a ++ c :: b)) cond = some (.bool true)) ∧
      ¬ HasText (a ++ '_' :: b) (a ++ c :: b) := by
  have hp : Plain '"' (c!"%" ++ (a ++ '_' :: b) ++ c!"%") = true := by
    simp only [PlainPat, Bool.and_eq_true] at ha hb
    simp only [Plain, List.all_append, List.all_cons, Bool.and_eq_true] at ha hb ⊢
    exact ⟨⟨by decide, ha.1, by decide, hb.1⟩, by decide⟩
  have hm := means_ilike hp (likeToks_underscore ha hb)
  have ho : x.order [] = [] := List.perm_nil.1 (hx [])
  refine ⟨renderE (rawTest (a ++ '_' :: b)), ?_, fun S hS => ?_, ?_⟩
  · have hs : splitConditions true (.const (.field (a ++ '_' :: b))) = some (some (.const (.field (a ++ '_' :: b))), []) := by simp [splitConditions]
    simp only [renderPipeline, runCmds, transform, dispatch, searchStandalone, hs, exprTr, constTr, Option.map_some, dedupStr, ho, unionSources,
      Option.getD_none, DF.mkWhere]
    rfl
  · have he : rawTest (a ++ '_' :: b) = .method (.named c!"_raw") c!"ilike" [pyStr (c!"%" ++ (a ++ '_' :: b) ++ c!"%")] := rfl
    rw [he, (text_of_means hm S _).1]
    have hr : rawRow (a ++ c :: b) c!"_raw" = .str (a ++ c :: b) := rfl
    rw [hr, hS, Option.map_some]
    have : tokMatch (.any :: ((lower a).map .lit ++ .one :: ((lower b).map .lit ++ [.any]))) (lower (a ++ c :: b)) = true := by
      refine (tokMatch_any _ _).2 ⟨[], _, rfl, (tokMatch_lits _ _ _).2 ⟨lowerC c :: lower b, by simp [lower], ?_⟩⟩
      rw [tokMatch.eq_def]
      exact (tokMatch_lits _ _ _).2 ⟨[], by simp, (tokMatch_any [] []).2 ⟨[], [], rfl, by rw [tokMatch.eq_def]; rfl⟩⟩
    rw [this]
    rfl
  · rintro ⟨l, u, r, h1, h2⟩
    have hl := congrArg List.length h2
    have hlen := congrArg List.length h1
    simp only [lower, List.length_map, List.length_append, List.length_cons] at hl hlen
    have : l = [] ∧ r = [] := by constructor <;> (apply List.eq_nil_of_length_eq_zero; omega)
    obtain ⟨rfl, rfl⟩ := this
    simp only [List.nil_append, List.append_nil] at h1
    subst h1
    simp only [lower, List.map_append, List.map_cons] at h2
    have := (List.append_inj h2 rfl).2
    simp only [List.cons.injEq] at this
    exact hc (lowerC_eq (by decide) this.1)

/-- `search error 404 NOT "disk full"` -/
def termsExample : Expr :=
  .binary (.binary (.const (.field c!"error")) c!"AND" (.const (.int 404))) c!"AND" (.unary c!"NOT" (.const (.str c!"disk full")))

example : parse c!"search error 404 NOT \"disk full\"" = some [.search termsExample] ∧ TermFrag true termsExample = true ∧
    TermFrag false (.binary (.const (.field c!"error")) c!"AND" (.binary (.const (.field c!"code")) c!"=" (.const (.int 5)))) = true ∧
    HasTerm c!"error" c!"an Error: 404" ∧ ¬ HasTerm c!"error" c!"errors" :=
  ⟨isParse_sound (by decide +kernel), by decide +kernel, by decide +kernel,
    ⟨c!"an ", c!"Error", c!": 404", rfl, by decide, by intro c h; cases h; decide, by intro c h; cases h; decide⟩, longer_term (c := 's') (by decide) (by decide)⟩

/-- Disagreement, for every phrase with a percent sign at its end: the sign stands for any text, so it need not be there. -/
theorem C92_percent (x : Ext) (hx : Arranges x) {a : Str} (ha : PlainPat a = true) :
    ∃ cond, renderPipeline ⟨.disallow, x⟩ [.search (.const (.str (a ++ c!"%")))] = some (c!"spark.table('main').where(" ++ cond ++ c!",)") ∧
      (∀ S, S.text (.str a) = some a → textEval S (rawRow a) cond = some (.bool true)) ∧ ¬ HasText (a ++ c!"%") a := by
  have hp : Plain '"' (c!"%" ++ (a ++ c!"%") ++ c!"%") = true := by
    simp only [PlainPat, Bool.and_eq_true] at ha
    simp only [Plain, List.all_append, Bool.and_eq_true] at ha ⊢
    exact ⟨⟨by decide, ha.1, by decide⟩, by decide⟩
  have hc : ∀ c ∈ lower a, c ≠ '%' ∧ c ≠ '_' ∧ c ≠ '\\' := by
    intro c hc
    obtain ⟨d, hd, rfl⟩ := List.mem_map.1 hc
    have := plainPat_chars ha d hd
    exact ⟨fun e => this.1 (lowerC_eq (by decide) e), fun e => this.2.1 (lowerC_eq (by decide) e), fun e => this.2.2 (lowerC_eq (by decide) e)⟩
  have ht : likeToks (lower (c!"%" ++ (a ++ c!"%") ++ c!"%")) = some (.any :: ((lower a).map .lit ++ [.any, .any])) := by
    have hl : lower (c!"%" ++ (a ++ c!"%") ++ c!"%") = '%' :: (lower a ++ c!"%%") := by
      simp only [lower, List.map_append, List.append_assoc]; rfl
    rw [hl, likeToks.eq_def]
    simp only [likeToks_lits (w := lower a) c!"%%" [.any, .any] rfl hc]
    rfl
  have hm := means_ilike hp ht
  have ho : x.order [] = [] := List.perm_nil.1 (hx [])
  have hn : '\n' ∉ a ++ c!"%" := by
    simp only [PlainPat, Plain, Bool.and_eq_true, List.all_eq_true, bne_iff_ne] at ha
    intro h
    rcases List.mem_append.1 h with h | h
    · exact (ha.1 _ h).1.2 rfl
    · revert h; decide
  refine ⟨renderE (rawTest (a ++ c!"%")), ?_, fun S hS => ?_, ?_⟩
  · have hs : splitConditions true (.const (.str (a ++ c!"%"))) = some (some (.const (.str (a ++ c!"%"))), []) := by simp [splitConditions]
    have hint : (intoSearch (.lit (c!"'" ++ (a ++ c!"%") ++ c!"'"))).unalias = rawTest (a ++ c!"%") := by
      have h := C27_quoted_term_partial _ (by simp) hn
      show rawTest (stripQuotes (c!"'" ++ (a ++ c!"%") ++ c!"'")) = _
      rw [h]
    simp only [renderPipeline, runCmds, transform, dispatch, searchStandalone, hs, exprTr, constTr, Option.map_some, dedupStr, ho, unionSources,
      Option.getD_none, DF.mkWhere, hint]
    rfl
  · have he : rawTest (a ++ c!"%") = .method (.named c!"_raw") c!"ilike" [pyStr (c!"%" ++ (a ++ c!"%") ++ c!"%")] := rfl
    rw [he, (text_of_means hm S _).1]
    have hr : rawRow a c!"_raw" = .str a := rfl
    rw [hr, hS, Option.map_some]
    have : tokMatch (.any :: ((lower a).map .lit ++ [.any, .any])) (lower a) = true := by
      refine (tokMatch_any _ _).2 ⟨[], _, rfl, (tokMatch_lits _ _ _).2 ⟨[], (List.append_nil _).symm, ?_⟩⟩
      exact (tokMatch_any _ _).2 ⟨[], [], rfl, (tokMatch_any _ _).2 ⟨[], [], rfl, by rw [tokMatch.eq_def]; rfl⟩⟩
    rw [this]
    rfl
  · rintro ⟨l, u, r, h1, h2⟩
    have hl := congrArg List.length h2
    have hlen := congrArg List.length h1
    simp only [lower, List.length_map, List.length_append, List.length_cons, List.length_nil] at hl hlen
    omega

/-- `search 404`, `search user_id` and `search "5%"`: they keep events with `4045`, `userXid` and `5`. -/
theorem C92_queries :
    outOf .disallow c!"search 404" = some c!"spark.table('main').where(F.col('_raw').ilike(\"%404%\"),)" ∧
    outOf .disallow c!"search user_id" = some c!"spark.table('main').where(F.col('_raw').ilike(\"%user_id%\"),)" ∧
    outOf .disallow c!"search \"5%\"" = some c!"spark.table('main').where(F.col('_raw').ilike(\"%5%%\"),)" := by
  decide +kernel

example : PlainPat c!"404" = true ∧ isBreaker '5' = false ∧ PlainPat c!"user" = true ∧ PlainPat c!"id" = true ∧ PlainPat c!"5" = true ∧
    plainSem.text (.str c!"userXid") = some c!"userXid" := by decide +kernel

end Verif.Props
