import Verif.Lemmas.Reads
import Verif.Spec.Program
/-
The text of a data frame is read as its program.
-/
namespace Verif.Lemmas
open Verif Spec

/-! ### steps of the reader, without the bound -/

theorem Reads.lev_to {k : Nat} {s r : Str} {t : PyE} (h : Reads (.lev k s) ([t], r)) (hk : k ≤ 10) (hr : nextLev r = none) :
    Reads (.lev 0 s) ([t], r) := by
  obtain ⟨n, h⟩ := h
  exact ⟨_, Lemmas.lev_to h hk 0 (by omega) (by intro i _ _; rw [hr]; simp)⟩

theorem Reads.post_call {e : PyE} {s r : Str} {as : List PyE} {x : Res} (h : Reads (.items ')' [] s) (as, r))
    (ho : argsOk as = true) (h' : Reads (.post (.call e as) r) x) : Reads (.post e ('(' :: s)) x := by
  obtain ⟨n, h1, h2⟩ := h.two h'
  exact ⟨_, Lemmas.post_call h1 ho h2⟩

theorem Reads.post_attr {e : PyE} {f r : Str} {x : Res} (hf : isIdent f = true)
    (hr : ∀ c r', r = c :: r' → isIdChar c = false) (h : Reads (.post (.attr e f) r) x) : Reads (.post e ('.' :: f ++ r)) x := by
  obtain ⟨n, h⟩ := h
  exact ⟨_, Lemmas.post_attr hf hr h⟩

theorem Reads.items_close {acc : List PyE} {c : Char} {s r : Str} (hs : skipB s = c :: r) :
    Reads (.items c acc s) (acc.reverse, r) := ⟨1, Lemmas.items_close hs⟩

theorem Reads.items_last {acc : List PyE} {c : Char} {s r r' : Str} {t : PyE} {d : Char} {s' : Str}
    (hs : skipB s = d :: s') (hd : d ≠ c) (h : Reads (.item (d :: s')) ([t], r)) (hr : skipB r = c :: r')
    (hc : c ≠ ',') : Reads (.items c acc s) ((t :: acc).reverse, r') := by
  obtain ⟨n, h⟩ := h
  exact ⟨_, Lemmas.items_last hs hd h hr hc⟩

theorem Reads.items_more {acc : List PyE} {c : Char} {s r r' : Str} {t : PyE} {d : Char} {s' : Str} {x : Res}
    (hs : skipB s = d :: s') (hd : d ≠ c) (h : Reads (.item (d :: s')) ([t], r)) (hr : skipB r = ',' :: r')
    (h' : Reads (.items c (t :: acc) r') x) : Reads (.items c acc s) x := by
  obtain ⟨n, h1, h2⟩ := h.two h'
  exact ⟨_, Lemmas.items_more hs hd h1 hr h2⟩

theorem Reads.item_expr {s : Str} {x : Res} (hs : kwName s = none) (h : Reads (.lev 0 s) x) : Reads (.item s) x := by
  obtain ⟨n, h⟩ := h
  exact ⟨_, Lemmas.item_expr hs h⟩

theorem Reads.item_kw {s n r r' : Str} {t : PyE} (hs : kwName s = some (n, r)) (h : Reads (.lev 0 r) ([t], r')) :
    Reads (.item s) ([.kwarg n t], r') := by
  obtain ⟨m, h⟩ := h
  refine ⟨m + 1, ?_⟩
  show rdStep _ _ = _
  simp only [rdStep, hs, h]
  rfl

theorem Reads.step_prim {s s' : Str} {c : Char} {x : Res} (hs : skipB s = c :: s') (h1 : c ≠ '~') (h2 : c ≠ '-')
    (h : Reads (.prim (c :: s')) x) : Reads (.lev 10 s) x := by
  obtain ⟨n, h⟩ := h
  exact ⟨_, Lemmas.step_prim hs h1 h2 h⟩

theorem Reads.post_stop {e : PyE} {s : Str} (h : ∀ c r, skipB s = c :: r → c ≠ '.' ∧ c ≠ '(') : Reads (.post e s) ([e], s) :=
  ⟨1, Lemmas.post_stop h⟩

theorem Reads.prim_list {s r : Str} {es : List PyE} {x : Res} (h : Reads (.items ']' [] s) (es, r))
    (ho : es.any isKw = false) (h' : Reads (.post (.list es) r) x) : Reads (.prim ('[' :: s)) x := by
  obtain ⟨n, h1, h2⟩ := h.two h'
  refine ⟨n + 1, ?_⟩
  show rdStep _ _ = _
  have e1 : pyString ('[' :: s) = none := rfl
  have e2 : pyNumber ('[' :: s) = none := rfl
  have e3 : pyName ('[' :: s) = none := rfl
  simp only [rdStep, e1, e2, e3, if_neg (show ¬ '[' = '(' by decide), if_true, h1, ho]
  exact h2

theorem Reads.prim_dict {s r : Str} {es : List PyE} {x : Res} (h : Reads (.entries [] s) (es, r))
    (h' : Reads (.post (.dict es) r) x) : Reads (.prim ('{' :: s)) x := by
  obtain ⟨n, h1, h2⟩ := h.two h'
  refine ⟨n + 1, ?_⟩
  show rdStep _ _ = _
  have e1 : pyString ('{' :: s) = none := rfl
  have e2 : pyNumber ('{' :: s) = none := rfl
  have e3 : pyName ('{' :: s) = none := rfl
  simp only [rdStep, e1, e2, e3, if_neg (show ¬ '{' = '(' by decide), if_neg (show ¬ '{' = '[' by decide), if_true, h1]
  exact h2

theorem Reads.entries_close {acc : List PyE} {s r : Str} (hs : skipB s = '}' :: r) :
    Reads (.entries acc s) (acc.reverse, r) := by
  refine ⟨1, ?_⟩
  show rdStep _ _ = _
  simp only [rdStep, hs, if_true]

theorem Reads.entry {acc : List PyE} {s s' r r1 r2 : Str} {d : Char} {k v : PyE} {x : Res} (hs : skipB s = d :: s') (hd : d ≠ '}')
    (hk : Reads (.lev 0 (d :: s')) ([k], r)) (hr : skipB r = ':' :: r1) (hv : Reads (.lev 0 r1) ([v], r2))
    (h : (∃ r3, skipB r2 = ',' :: r3 ∧ Reads (.entries (v :: k :: acc) r3) x) ∨
      (∃ r3, skipB r2 = '}' :: r3 ∧ x = ((v :: k :: acc).reverse, r3))) : Reads (.entries acc s) x := by
  obtain ⟨n, h1, h2⟩ := hk.two hv
  rcases h with ⟨r3, hc, n', h3⟩ | ⟨r3, hc, rfl⟩
  · refine ⟨max n n' + 1, ?_⟩
    show rdStep _ _ = _
    simp only [rdStep, hs, if_neg hd]
    refine elim_eq (rd_mono h1 (Nat.le_max_left n n')) (closed_eq hr (elim_eq (rd_mono h2 (Nat.le_max_left n n')) ?_))
    simp only [hc, if_true]
    exact rd_mono h3 (Nat.le_max_right n n')
  · refine ⟨n + 1, ?_⟩
    show rdStep _ _ = _
    simp only [rdStep, hs, if_neg hd]
    refine elim_eq h1 (closed_eq hr (elim_eq h2 ?_))
    simp only [hc, if_neg (show ¬ '}' = ',' by decide), if_true]

theorem rd_blank : ∀ (n k : Nat) (s : Str), rd n (.lev k (' ' :: s)) = rd n (.lev k s)
  | 0, _, _ => rfl
  | n + 1, k, s => by
    show rdStep _ _ = rdStep _ _
    simp only [rdStep, skipB_space, rd_blank n]

theorem Reads.blank {k : Nat} {s : Str} {x : Res} (h : Reads (.lev k s) x) : Reads (.lev k (' ' :: s)) x := by
  obtain ⟨n, h⟩ := h
  exact ⟨n, by rw [rd_blank]; exact h⟩

theorem rd_eqSign : ∀ (n k : Nat) (s : Str), rd n (.lev k ('=' :: s)) = none
  | 0, _, _ => rfl
  | n + 1, k, s => by
    show rdStep _ _ = _
    have hp : rd n (.prim ('=' :: s)) = none := by
      cases n with
      | zero => rfl
      | succ n =>
        show rdStep _ _ = _
        have e1 : pyString ('=' :: s) = none := rfl
        have e2 : pyNumber ('=' :: s) = none := rfl
        have e3 : pyName ('=' :: s) = none := rfl
        simp only [rdStep, e1, e2, e3]
        rfl
    simp only [rdStep, rd_eqSign n, skipB_cons (show isSpace '=' = false from rfl), hp]
    split
    · rfl
    split
    · rfl
    · rfl

/-! ### pieces of text -/

/-- no line end -/
def OneLine (s : Str) : Prop := ∀ c ∈ s, c ≠ '\n' ∧ c ≠ '\r'

theorem OneLine.append {s t : Str} (h : OneLine s) (h' : OneLine t) : OneLine (s ++ t) := by
  intro c hc
  rcases List.mem_append.1 hc with hc | hc
  · exact h c hc
  · exact h' c hc

theorem OneLine.cons {c : Char} {t : Str} (hc : c ≠ '\n' ∧ c ≠ '\r') (h' : OneLine t) : OneLine (c :: t) := by
  intro d hd
  rcases List.mem_cons.1 hd with rfl | hd
  · exact hc
  · exact h' d hd

theorem OneLine.nil : OneLine [] := by intro c h; cases h

/-- what follows an expression: the end, or a comma, colon or closing bracket -/
structure Ends (r : Str) : Prop where
  tok : Tok r
  next : ∀ d r', skipB r = d :: r' → d = ',' ∨ d = ')' ∨ d = ']' ∨ d = '}' ∨ d = ':'

theorem Ends.nil : Ends [] := ⟨tok_nil, by intro d r' h; cases h⟩

theorem Ends.char {c : Char} {r : Str} (hc : c = ',' ∨ c = ')' ∨ c = ']' ∨ c = '}' ∨ c = ':') : Ends (c :: r) := by
  refine ⟨?_, ?_⟩
  · rcases hc with rfl | rfl | rfl | rfl | rfl <;> exact tok_cons (by decide) (by decide) (by decide) (by decide)
  · intro d r' h
    have : skipB (c :: r) = c :: r := by rcases hc with rfl | rfl | rfl | rfl | rfl <;> exact skipB_cons rfl
    rw [this] at h
    simp only [List.cons.injEq] at h
    rw [← h.1]; exact hc

theorem Ends.blank {r : Str} (h : Ends r) : Ends (' ' :: r) := by
  refine ⟨tok_cons (by decide) (by decide) (by decide) (by decide), ?_⟩
  intro d r' e
  rw [skipB_space] at e
  exact h.next d r' e

theorem Ends.after {r : Str} (h : Ends r) : After r := by
  refine ⟨h.tok, ?_⟩
  intro c r' e
  rcases h.next c r' e with rfl | rfl | rfl | rfl | rfl <;> decide

theorem Ends.lev {r : Str} (h : Ends r) : nextLev r = none := by
  unfold nextLev
  cases hs : skipB r with
  | nil => rfl
  | cons d r' =>
    have : opTok (d :: r') = none := by
      rcases h.next d r' hs with rfl | rfl | rfl | rfl | rfl <;> (cases r' <;> rfl)
    rw [this]; rfl

theorem Ends.noEq {r : Str} (h : Ends r) : ∀ d r', skipB r = d :: r' → d ≠ '=' := by
  intro d r' e
  rcases h.next d r' e with rfl | rfl | rfl | rfl | rfl <;> decide

/-- The text `w` is the expression `t`. -/
structure ExprText (w : Str) (t : PyE) : Prop where
  head : ∃ c cs, w = c :: cs ∧ isSpace c = false ∧ c ≠ ')' ∧ c ≠ ']'
  read : ∀ r, Ends r → Reads (.lev 0 (w ++ r)) ([t], r)
  kw : ∀ r, Ends r → kwName (w ++ r) = none
  pos : isKw t = false
  line : OneLine w

/-- The text `w` is the argument `t`. -/
structure ItemText (w : Str) (t : PyE) : Prop where
  head : ∃ c cs, w = c :: cs ∧ isSpace c = false ∧ c ≠ ')' ∧ c ≠ ']'
  read : ∀ r, Ends r → Reads (.item (w ++ r)) ([t], r)
  line : OneLine w

theorem ExprText.item {w : Str} {t : PyE} (h : ExprText w t) : ItemText w t :=
  ⟨h.head, fun r hr => .item_expr (h.kw r hr) (h.read r hr), h.line⟩

theorem ident_line {n : Str} (h : isIdent n = true) : OneLine n := by
  obtain ⟨c, cs, rfl, hc, hcs, _⟩ := ident_all h
  have : ∀ d, isIdChar d = true → d ≠ '\n' ∧ d ≠ '\r' := by
    intro d hd
    constructor <;> (rintro rfl; revert hd; decide)
  intro d hd
  rcases List.mem_cons.1 hd with rfl | hd
  · exact this d (by simp [isIdChar, hc])
  · exact this d (hcs d hd)

theorem plain_line {q : Char} {n : Str} (h : Plain q n = true) : OneLine n := by
  intro c hc
  have := List.all_eq_true.1 h c hc
  simp only [Bool.and_eq_true, bne_iff_ne, ne_eq] at this
  exact ⟨this.1.2, this.2⟩

/-- `name=` and an expression -/
theorem ExprText.kwarg {n w : Str} {t : PyE} (hn : isIdent n = true) (hc : n ∉ pyConsts) (h : ExprText w t) :
    ItemText (n ++ '=' :: w) (.kwarg n t) := by
  obtain ⟨c, cs, hw, hs, h1, h2⟩ := h.head
  have hne : c ≠ '=' := by
    rintro rfl
    obtain ⟨m, hm⟩ := h.read [] .nil
    rw [hw, List.cons_append, rd_eqSign] at hm
    cases hm
  refine ⟨?_, ?_, ?_⟩
  · obtain ⟨d, ds, rfl, hd, _⟩ := ident_all hn
    have := idStart_ne hd
    exact ⟨d, _, rfl, idStart_space hd, this.2.2.2.2.1, this.2.2.2.2.2.1⟩
  · intro r hr
    rw [List.append_assoc, List.cons_append]
    refine .item_kw ?_ (h.read r hr)
    have hp := pyName_append (r := '=' :: (w ++ r)) hn (by intro c r' e; simp only [List.cons.injEq] at e; rw [← e.1]; decide)
    simp only [kwName, hp, skipB_cons (show isSpace '=' = false from rfl)]
    rw [if_pos]
    refine ⟨trivial, ?_, hc⟩
    rw [hw]
    simpa using hne
  · exact (ident_line hn).append (.cons (by decide) h.line)

/-! ### column expressions -/

theorem strTail_line {raw : Bool} {q : Char} (hq : q = '"' ∨ q = '\'') {s v r : Str} (h : strTail raw q s = some (v, r)) :
    ∃ w, s = w ++ r ∧ OneLine w := by
  induction hn : s.length using Nat.strongRecOn generalizing s v r with
  | _ n ih =>
    cases s with
    | nil => cases h
    | cons c cs =>
      simp only [List.length_cons] at hn
      unfold strTail at h
      split at h
      · rename_i hc
        simp only [Option.some.injEq, Prod.mk.injEq] at h
        refine ⟨[c], by rw [← h.2]; rfl, .cons ?_ .nil⟩
        rw [hc]
        rcases hq with rfl | rfl <;> decide
      split at h
      · cases h
      rename_i hl
      simp only [Bool.or_eq_true, decide_eq_true_eq, not_or] at hl
      split at h
      · cases cs with
        | nil => cases h
        | cons d ds =>
          simp only at h
          split at h
          · cases h
          · rename_i hv0
            simp only [Option.map_eq_some_iff] at h
            obtain ⟨⟨x, y⟩, hx, hv⟩ := h
            simp only [Prod.mk.injEq] at hv
            obtain ⟨w, hw, hw'⟩ := ih ds.length (by rw [← hn]; simp; omega) hx rfl
            refine ⟨c :: d :: w, by rw [← hv.2, hw]; rfl, .cons hl (.cons ?_ hw')⟩
            constructor
            · rintro rfl
              split at hv0
              · rename_i h0; simp at hv0
              · revert hv0; simp [escapeC]
            · rintro rfl
              split at hv0
              · rename_i h0; simp at hv0
              · revert hv0; simp [escapeC]
      · simp only [Option.map_eq_some_iff] at h
        obtain ⟨⟨x, y⟩, hx, hv⟩ := h
        simp only [Prod.mk.injEq] at hv
        obtain ⟨w, hw, hw'⟩ := ih cs.length (by omega) hx rfl
        exact ⟨c :: w, by rw [← hv.2, hw]; rfl, .cons hl hw'⟩

theorem dig_line {w : Str} (h : ∀ c ∈ w, isDig c = true) : OneLine w := by
  intro c hc
  have := h c hc
  constructor <;> (rintro rfl; revert this; decide)

theorem pyNumber_line {c : Str} {n : Str × Str} (h : pyNumber c = some (n, [])) : OneLine c := by
  simp only [pyNumber] at h
  have e := spanC_eq (p := isDig) c
  have hd := spanC_all (p := isDig) c
  split at h
  · cases h
  split at h
  · rename_i hp
    split at h
    · simp only [Option.some.injEq, Prod.mk.injEq] at h
      have e2 := spanC_eq (p := isDig) (spanC isDig c).2.tail
      have hd2 := spanC_all (p := isDig) (spanC isDig c).2.tail
      rw [h.2, List.append_nil] at e2
      rw [← e]
      refine (dig_line hd).append ?_
      cases hs : (spanC isDig c).2 with
      | nil => exact .nil
      | cons a as =>
        rw [hs] at hp e2 hd2
        simp only [List.head?_cons, Option.some.injEq] at hp
        rw [hp]
        simp only [List.tail_cons] at e2 hd2
        rw [← e2]
        exact .cons (by decide) (dig_line hd2)
    · cases h
  · split at h
    · simp only [Option.some.injEq, Prod.mk.injEq] at h
      rw [← e, h.2, List.append_nil]
      exact dig_line hd
    · cases h

theorem code_line {c : Str} {t : PyE} (h : codeTree c = some t) : OneLine c := by
  rcases code_cases h with ⟨v, hv, rfl⟩ | ⟨n, hn, rfl⟩ | ⟨d, n, rfl, hn, rfl⟩ | ⟨hi, rfl⟩
  · unfold pyString at hv
    split at hv
    · cases hv
    · rename_i raw q cs ho
      split at hv
      · cases hv
      · have hq := openQuote_quote ho
        obtain ⟨w, hw, hl⟩ := strTail_line hq hv
        rw [List.append_nil] at hw
        subst hw
        cases c with
        | nil => cases ho
        | cons c cs =>
          simp only [openQuote] at ho
          split at ho
          · rename_i hc
            simp only [Option.some.injEq, Prod.mk.injEq] at ho
            rw [ho.2.2]
            refine .cons ?_ hl
            simp only [Bool.or_eq_true, decide_eq_true_eq] at hc
            rcases hc with rfl | rfl <;> decide
          split at ho
          · rename_i hc
            cases cs with
            | nil => cases ho
            | cons d ds =>
              simp only at ho
              split at ho
              · rename_i hd
                simp only [Option.some.injEq, Prod.mk.injEq] at ho
                rw [ho.2.2]
                refine .cons (by rw [hc]; decide) (.cons ?_ hl)
                simp only [Bool.or_eq_true, decide_eq_true_eq] at hd
                rcases hd with rfl | rfl <;> decide
              · cases ho
          · cases ho
  · exact pyNumber_line hn
  · exact .cons (by decide) (pyNumber_line hn)
  · exact ident_line hi

theorem path_line : ∀ {ns : List Str} {e t : PyE}, pathTree e ns = some t → OneLine (pathText ns)
  | [], _, _, _ => .nil
  | n :: ns, e, t, h => by
    simp only [pathTree] at h
    split at h
    · rename_i hn
      have : pathText (n :: ns) = '.' :: (n ++ pathText ns) := by simp [pathText]
      rw [this]
      exact .cons (by decide) ((ident_line hn).append (path_line h))
    · cases h

theorem join_line {sep : Str} (hsep : OneLine sep) : ∀ {ws : List Str}, (∀ w ∈ ws, OneLine w) → OneLine (joinWith sep ws)
  | [], _ => .nil
  | [w], h => h w (by simp)
  | w :: w' :: ws, h => by
    rw [joinWith]
    exact ((h w (by simp)).append hsep).append (join_line hsep fun v hv => h v (by simp [List.mem_cons.1 hv]))

theorem opLine {op : Str} (h : op ∈ allOps) : OneLine op := by
  have : ∀ op ∈ allOps, ∀ c ∈ op, c ≠ '\n' ∧ c ≠ '\r' := by decide
  exact this op h

mutual
theorem tree_line : ∀ {e : PE} {t : PyE}, pyTree e = some t → OneLine (renderE e)
  | .named n, t, h => by
    simp only [pyTree] at h
    split at h
    · rename_i hn
      exact (OneLine.append (by unfold OneLine; decide) (plain_line hn)).append (by unfold OneLine; decide)
    · cases h
  | .lit c, t, h => by
    simp only [pyTree, Option.map_eq_some_iff] at h
    obtain ⟨v, hv, _⟩ := h
    exact (OneLine.append (by unfold OneLine; decide) (code_line hv)).append (by unfold OneLine; decide)
  | .method col f args, t, h => by
    simp only [pyTree] at h
    split at h
    · rename_i hc
      simp only [Bool.and_eq_true] at hc
      split at h
      · rename_i hu hus
        rw [render_method]
        refine (tree_line hu).append (.append (.cons (by decide) (ident_line hc.2)) (.cons (by decide) ?_))
        exact (join_line (by unfold OneLine; decide) (trees_line hus)).append (by unfold OneLine; decide)
      · cases h
    · cases h
  | .fn f args, t, h => by
    obtain ⟨u, us, hf, hus, rfl⟩ := fn_tree h
    have hl : ∀ w ∈ renderArgs args, OneLine w := hus.elim trees_line lams_line
    obtain ⟨n, ns, hn, hp, ht, _⟩ := func_shape hf
    rw [render_fn, ht]
    refine ((ident_line hn).append (path_line hp)).append (.cons (by decide) ?_)
    exact (join_line (by unfold OneLine; decide) hl).append (by unfold OneLine; decide)
  | .aliased col n, t, h => by
    simp only [pyTree] at h
    split at h
    · rename_i hc
      simp only [Bool.and_eq_true] at hc
      simp only [Option.map_eq_some_iff] at h
      obtain ⟨u, hu, _⟩ := h
      rw [renderE]
      exact (((tree_line hu).append (by unfold OneLine; decide)).append (plain_line hc.2)).append (by unfold OneLine; decide)
    · cases h
  | .bin op l r, t, h => by
    simp only [pyTree] at h
    split at h
    · rename_i hop
      obtain ⟨k, hk⟩ := Option.isSome_iff_exists.1 hop
      split at h
      · rename_i hu hv
        rw [render_bin]
        refine .cons (by decide) ((tree_line hu).append (.append (.cons (by decide) (opLine (op_mem hk))) (.cons (by decide) ?_)))
        exact (tree_line hv).append (by unfold OneLine; decide)
      · cases h
    · cases h
  | .not e, t, h => by
    simp only [pyTree, Option.map_eq_some_iff] at h
    obtain ⟨u, hu, _⟩ := h
    rw [renderE]
    exact OneLine.append (by unfold OneLine; decide) (tree_line hu)
  | .py c, t, h => code_line h
theorem lams_line : ∀ {es : List PE} {ts : List PyE}, lamTrees es = some ts → ∀ w ∈ renderArgs es, OneLine w
  | [], _, h => by simp [lamTrees] at h
  | e :: es, ts, h => by
    intro w hw
    rw [renderArgs] at hw
    rcases lams_cases h with ⟨t, us, ht, hus, _⟩ | ⟨c, t, rfl, rfl, ht, _⟩
    · rcases List.mem_cons.1 hw with rfl | hw
      · exact tree_line ht
      · exact lams_line hus w hw
    · simp only [renderArgs, List.mem_singleton] at hw
      subst hw
      obtain ⟨d, v, rfl, hd, _⟩ := lam_cases ht
      have h1 := code_line hd
      show OneLine (_ ++ d ++ _)
      refine OneLine.append (OneLine.append (by unfold OneLine; decide) ?_) (by unfold OneLine; decide)
      intro c hc
      exact h1 c (by simp [hc])
theorem trees_line : ∀ {es : List PE} {ts : List PyE}, pyTrees es = some ts → ∀ w ∈ renderArgs es, OneLine w
  | [], _, _ => by simp [renderArgs]
  | e :: es, ts, h => by
    rw [pyTrees] at h
    split at h
    · rename_i ht hus
      intro w hw
      rw [renderArgs] at hw
      rcases List.mem_cons.1 hw with rfl | hw
      · exact tree_line ht
      · exact trees_line hus w hw
    · cases h
end

theorem exprText_of {e : PE} {t : PyE} (h : pyTree e = some t) : ExprText (renderE e) t := by
  refine ⟨head_of h, ?_, ?_, tree_notKw h, tree_line h⟩
  · intro r hr
    exact Reads.lev_to ⟨_, rd_tree h hr.after⟩ (by omega) hr.lev
  · intro r hr
    exact kw_of h (.inr hr.tok) fun d r' e => .inl (hr.noEq d r' e)

theorem renderArgs_eq (es : List PE) : renderArgs es = es.map renderE := by
  induction es with
  | nil => rfl
  | cons e es ih => simp [renderArgs, ih]

theorem exprText_ofC {e : PE} {t : PyE} (h : pyTree e = some t) : ExprText (renderC e) t := by
  by_cases hb : ∃ op a b, e = .bin op a b
  · obtain ⟨op, a, b, rfl⟩ := hb
    have hn := tree_notKw h
    simp only [pyTree] at h
    split at h
    · rename_i hop
      obtain ⟨k, hk⟩ := Option.isSome_iff_exists.1 hop
      split at h
      · rename_i u v hu hv
        have h := Option.some.inj h
        subst h
        have ec : renderC (.bin op a b) = renderE a ++ (' ' :: op ++ ' ' :: renderE b) := by simp [renderC]
        refine ⟨?_, ?_, ?_, hn, ?_⟩
        · obtain ⟨c, cs, hc, hh⟩ := head_of hu
          exact ⟨c, cs ++ (' ' :: op ++ ' ' :: renderE b), by rw [ec, hc]; rfl, hh⟩
        · intro r hr
          have hb := rd_tree hv hr.after
          have ha := rd_tree hu (op_after (r := renderE b ++ r) (op_mem hk))
          have h1 := rd_bin hk ha hb hr.lev
          rw [ec]
          rw [show renderE a ++ (' ' :: op ++ ' ' :: renderE b) ++ r = renderE a ++ (' ' :: op ++ ' ' :: (renderE b ++ r)) by simp]
          exact ⟨_, h1⟩
        · intro r hr
          rw [ec, List.append_assoc]
          refine kw_of hu (.inr ?_) ?_
          · exact tok_cons (by decide) (by decide) (by decide) (by decide)
          · intro d r' e
            have ho := op_head (op_mem hk)
            obtain ⟨c, cs, hc, hsp, _⟩ := ho
            rw [List.cons_append, List.cons_append, skipB_space, hc] at e
            rw [List.cons_append, List.cons_append, skipB_cons hsp] at e
            simp only [List.cons.injEq] at e
            by_cases hd : d = '='
            · right
              have : op = c!"==" := by
                have hm := op_mem hk
                rw [← e.1] at hd
                subst hd
                revert hm
                rw [hc]
                simp [allOps]
              rw [hc] at this
              simp only [List.cons.injEq] at this
              rw [← e.2, this.2]
              rfl
            · exact .inl hd
        · rw [ec]
          exact (tree_line hu).append (.append (.cons (by decide) (opLine (op_mem hk))) (.cons (by decide) (tree_line hv)))
      · cases h
    · cases h
  · have : renderC e = renderE e := by
      cases e <;> first | rfl | (exfalso; exact hb ⟨_, _, _, rfl⟩) | simp only [renderC, renderE]
    rw [this]
    exact exprText_of h

end Verif.Lemmas
