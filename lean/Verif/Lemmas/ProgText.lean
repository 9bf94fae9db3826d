import Verif.Lemmas.Program
import Verif.Lemmas.Numbers
/-
The text of a data frame is read as its program: calls, arguments and statements.
-/
namespace Verif.Lemmas
open Verif Spec

/-! ### lists of arguments -/

/-- the texts are the arguments -/
inductive Items : List Str → List PyE → Prop
  | nil : Items [] []
  | cons {w : Str} {t : PyE} {ws : List Str} {ts : List PyE} : ItemText w t → Items ws ts → Items (w :: ws) (t :: ts)

theorem Items.append {ws vs : List Str} {ts us : List PyE} (h : Items ws ts) (h' : Items vs us) : Items (ws ++ vs) (ts ++ us) := by
  induction h with
  | nil => exact h'
  | cons hw _ ih => exact .cons hw ih

theorem Items.lines {ws : List Str} {ts : List PyE} (h : Items ws ts) : ∀ w ∈ ws, OneLine w := by
  induction h with
  | nil => intro w hw; cases hw
  | cons hw _ ih =>
    intro w hw'
    rcases List.mem_cons.1 hw' with rfl | hw'
    · exact hw.line
    · exact ih w hw'

/-- the text after the last argument: the bracket, maybe after a comma -/
structure Tail (close : Char) (tail r : Str) : Prop where
  ends : Ends tail
  done : skipB tail = close :: r ∨ ∃ t, skipB tail = ',' :: t ∧ skipB t = close :: r

theorem items_read {close : Char} {sep : Str} (hc : close = ')' ∨ close = ']') (hsep : sep = c!", " ∨ sep = c!",") {ws : List Str}
    {ts : List PyE} (h : Items ws ts) (hne : ws ≠ []) : ∀ (acc : List PyE) {tail r : Str}, Tail close tail r →
    Reads (.items close acc (joinWith sep ws ++ tail)) (acc.reverse ++ ts, r) := by
  have hcc : close ≠ ',' := by rcases hc with rfl | rfl <;> decide
  induction h with
  | nil => exact absurd rfl hne
  | @cons w t ws ts hw hs ih =>
    intro acc tail r ht
    obtain ⟨c, cs, hwc, hsp, h1, h2⟩ := hw.head
    have hce : c ≠ close := by rcases hc with rfl | rfl <;> assumption
    cases hs with
    | nil =>
      have hk : skipB (joinWith sep [w] ++ tail) = c :: (cs ++ tail) := by
        show skipB (w ++ tail) = _
        rw [hwc]; exact skipB_cons hsp
      have hr := hw.read tail ht.ends
      rw [hwc, List.cons_append] at hr
      rcases ht.done with hd | ⟨u, hd, hu⟩
      · have := Reads.items_last (acc := acc) hk hce hr hd hcc
        simpa using this
      · have := Reads.items_more (acc := acc) hk hce hr hd (Reads.items_close hu)
        simpa using this
    | @cons v u vs us hv hvs =>
      have ih := ih (by simp) (t :: acc) ht
      have e : joinWith sep (w :: v :: vs) ++ tail = w ++ (sep ++ (joinWith sep (v :: vs) ++ tail)) := by
        simp [joinWith]
      rw [e]
      have hsp' : ∃ s1, sep ++ (joinWith sep (v :: vs) ++ tail) = ',' :: s1 ∧
          (s1 = ' ' :: (joinWith sep (v :: vs) ++ tail) ∨ s1 = joinWith sep (v :: vs) ++ tail) := by
        rcases hsep with rfl | rfl
        · exact ⟨_, rfl, .inl rfl⟩
        · exact ⟨_, rfl, .inr rfl⟩
      obtain ⟨s1, hs1, hs2⟩ := hsp'
      rw [hs1]
      have hr := hw.read (',' :: s1) (.char (.inl rfl))
      have hk : skipB (w ++ ',' :: s1) = c :: (cs ++ ',' :: s1) := by rw [hwc]; exact skipB_cons hsp
      rw [hwc, List.cons_append] at hr
      refine Reads.items_more hk hce hr (skipB_cons rfl) ?_
      have e2 : acc.reverse ++ t :: u :: us = (t :: acc).reverse ++ u :: us := by simp
      rw [e2]
      rcases hs2 with rfl | rfl
      · obtain ⟨n, hn⟩ := ih
        obtain ⟨m, rfl⟩ := rd_pos hn
        refine ⟨m + 1, ?_⟩
        rw [← hn]
        show rdStep _ _ = rdStep _ _
        simp only [rdStep, skipB_space]
      · exact ih

/-- The text `a`, which ends with the closing bracket, is a list of arguments. -/
structure ArgsText (close : Char) (a : Str) (ts : List PyE) : Prop where
  read : ∀ r, Reads (.items close [] (a ++ r)) (ts, r)
  line : OneLine a

theorem tail_plain (close : Char) (hc : close = ')' ∨ close = ']') (r : Str) : Tail close (close :: r) r :=
  ⟨.char (by rcases hc with rfl | rfl <;> simp), .inl (by rcases hc with rfl | rfl <;> exact skipB_cons rfl)⟩

theorem tail_comma (r : Str) : Tail ')' (',' :: ')' :: r) r :=
  ⟨.char (.inl rfl), .inr ⟨_, skipB_cons rfl, skipB_cons rfl⟩⟩

theorem tail_blank (r : Str) : Tail ']' (' ' :: ']' :: r) r :=
  ⟨.blank (.char (by simp)), .inl (by rw [skipB_space]; exact skipB_cons rfl)⟩

/-- `a, b, c)` -/
theorem args_plain {ws : List Str} {ts : List PyE} (h : Items ws ts) (hne : ws ≠ []) :
    ArgsText ')' (joinWith c!", " ws ++ c!")") ts := by
  refine ⟨fun r => ?_, (join_line (by unfold OneLine; decide) h.lines).append (by unfold OneLine; decide)⟩
  rw [List.append_assoc]
  exact items_read (.inl rfl) (.inl rfl) h hne [] (tail_plain ')' (.inl rfl) r)

/-- `a, b, c,)` -/
theorem args_comma {sep : Str} (hsep : sep = c!", " ∨ sep = c!",") {ws : List Str} {ts : List PyE} (h : Items ws ts) (hne : ws ≠ []) :
    ArgsText ')' (joinWith sep ws ++ c!",)") ts := by
  refine ⟨fun r => ?_, (join_line ?_ h.lines).append (by unfold OneLine; decide)⟩
  · rw [List.append_assoc]
    exact items_read (.inl rfl) hsep h hne [] (tail_comma r)
  · rcases hsep with rfl | rfl <;> (unfold OneLine; decide)

theorem Reads.items_blank {close : Char} {acc : List PyE} {s : Str} {x : Res} (h : Reads (.items close acc s) x) :
    Reads (.items close acc (' ' :: s)) x := by
  obtain ⟨n, hn⟩ := h
  obtain ⟨m, rfl⟩ := rd_pos hn
  refine ⟨m + 1, ?_⟩
  rw [← hn]
  show rdStep _ _ = rdStep _ _
  simp only [rdStep, skipB_space]

/-- an expression that is a bracketed list or dictionary -/
theorem exprText_bracket {w : Str} {t : PyE} {c : Char} {cs : Str} (hw : w = c :: cs) (hc : c = '[' ∨ c = '{')
    (hp : isKw t = false) (hl : OneLine w)
    (h : ∀ r x, Reads (.post t r) x → Reads (.prim (w ++ r)) x) : ExprText w t := by
  have hsp : isSpace c = false := by rcases hc with rfl | rfl <;> rfl
  refine ⟨⟨c, cs, hw, hsp, ?_, ?_⟩, ?_, ?_, hp, hl⟩
  · rcases hc with rfl | rfl <;> decide
  · rcases hc with rfl | rfl <;> decide
  · intro r hr
    refine Reads.lev_to (k := 10) ?_ (by omega) hr.lev
    have := h r _ (Reads.post_stop (e := t) hr.after.post)
    rw [hw] at this ⊢
    exact .step_prim (skipB_cons hsp) (by rcases hc with rfl | rfl <;> decide) (by rcases hc with rfl | rfl <;> decide) this
  · intro r _
    rw [hw]
    rcases hc with rfl | rfl <;> rfl

theorem items_of {es : List PE} {ts : List PyE} (h : pyTrees es = some ts) : Items (es.map renderE) ts := by
  induction es generalizing ts with
  | nil => rw [pyTrees] at h; rw [← Option.some.inj h]; exact .nil
  | cons e es ih =>
    rw [pyTrees] at h
    split at h
    · rename_i ht hus
      rw [← Option.some.inj h]
      exact .cons (exprText_of ht).item (ih hus)
    · cases h

theorem items_ofC {es : List PE} {ts : List PyE} (h : pyTrees es = some ts) : Items (es.map renderC) ts := by
  induction es generalizing ts with
  | nil => rw [pyTrees] at h; rw [← Option.some.inj h]; exact .nil
  | cons e es ih =>
    rw [pyTrees] at h
    split at h
    · rename_i ht hus
      rw [← Option.some.inj h]
      exact .cons (exprText_ofC ht).item (ih hus)
    · cases h

theorem any_kw {ts : List PyE} (h : ∀ t ∈ ts, isKw t = false) : ts.any isKw = false := by
  induction ts with
  | nil => rfl
  | cons t ts ih => rw [List.any_cons, h t (by simp), ih fun u hu => h u (by simp [hu])]; rfl

/-- `[ a, b ]` -/
theorem list_text {es : List PE} {ts : List PyE} (h : pyTrees es = some ts) :
    ExprText (c!"[ " ++ joinWith c!", " (es.map renderE) ++ c!" ]") (.list ts) := by
  have hi := items_of h
  refine exprText_bracket (cs := ' ' :: (joinWith c!", " (es.map renderE) ++ c!" ]")) (by simp) (.inl rfl) rfl ?_ ?_
  · exact (OneLine.append (by unfold OneLine; decide) (join_line (by unfold OneLine; decide) hi.lines)).append (by unfold OneLine; decide)
  · intro r x hx
    have e : c!"[ " ++ joinWith c!", " (es.map renderE) ++ c!" ]" ++ r = '[' :: ' ' :: (joinWith c!", " (es.map renderE) ++ ' ' :: ']' :: r) := by
      simp
    rw [e]
    refine .prim_list ?_ (any_kw (trees_notKw h)) hx
    refine .items_blank ?_
    by_cases hne : es.map renderE = []
    · rw [hne] at hi ⊢
      cases hi
      exact .items_close (by show skipB (' ' :: ']' :: r) = _; rw [skipB_space]; exact skipB_cons rfl)
    · exact items_read (.inr rfl) (.inl rfl) hi hne [] (tail_blank r)

theorem code_text {c : Str} {t : PyE} (h : codeTree c = some t) : ExprText c t := exprText_of (e := .py c) h

theorem quote_text {n : Str} (h : Plain '\'' n = true) : ExprText (c!"'" ++ n ++ c!"'") (.str n) := code_text (codeTree_quote h)

theorem dquote_text {n : Str} (h : Plain '"' n = true) : ExprText (c!"\"" ++ n ++ c!"\"") (.str n) := code_text (codeTree_dquote h)

theorem nat_text (n : Nat) : ExprText (showNat n) (natTree n) := by
  have := showNat_ok n
  exact code_text (code_nat this.1 this.2.1 this.2.2)

/-- the texts of the entries of a dictionary -/
def entryText (kv : Str × PE) : Str := c!"\"" ++ kv.1 ++ c!"\": " ++ renderE kv.2

theorem entries_read : ∀ {kvs : List (Str × PE)} {ts : List PyE}, argTree.dictTrees kvs = some ts → kvs ≠ [] →
    ∀ (acc : List PyE) (r : Str), Reads (.entries acc (joinWith c!", " (kvs.map entryText) ++ ' ' :: '}' :: r)) (acc.reverse ++ ts, r)
  | [], _, _, h, _, _ => absurd rfl h
  | (k, e) :: kvs, ts, h, _, acc, r => by
    rw [argTree.dictTrees] at h
    split at h
    · rename_i t us hp ht hus
      rw [← Option.some.inj h]
      have hk := dquote_text hp
      have hv := exprText_of ht
      have key : ∀ (u : Str) (r2 : Str), u = entryText (k, e) ++ r2 → skipB u = '"' :: (k ++ ('"' :: ':' :: ' ' :: (renderE e ++ r2))) := by
        rintro u r2 rfl
        have : entryText (k, e) ++ r2 = '"' :: (k ++ ('"' :: ':' :: ' ' :: (renderE e ++ r2))) := by simp [entryText]
        rw [this]; exact skipB_cons rfl
      have rk : ∀ r2 : Str, Reads (.lev 0 ('"' :: (k ++ ('"' :: ':' :: ' ' :: (renderE e ++ r2))))) ([.str k], ':' :: ' ' :: (renderE e ++ r2)) := by
        intro r2
        have := hk.read (':' :: ' ' :: (renderE e ++ r2)) (.char (by simp))
        simpa using this
      cases kvs with
      | nil =>
        rw [argTree.dictTrees] at hus
        rw [← Option.some.inj hus]
        refine .entry (key _ (' ' :: '}' :: r) rfl) (by decide) (rk _) (skipB_cons rfl)
          (.blank (hv.read _ (.blank (.char (by simp))))) (.inr ⟨r, by rw [skipB_space]; exact skipB_cons rfl, ?_⟩)
        simp
      | cons kv kvs =>
        have ih := entries_read hus (by simp) (t :: .str k :: acc) r
        have e1 : joinWith c!", " (((k, e) :: kv :: kvs).map entryText) ++ ' ' :: '}' :: r =
            entryText (k, e) ++ (',' :: ' ' :: (joinWith c!", " ((kv :: kvs).map entryText) ++ ' ' :: '}' :: r)) := by
          simp [joinWith]
        refine .entry (key _ _ e1) (by decide) (rk _) (skipB_cons rfl)
          (.blank (hv.read _ (.char (by simp)))) (.inl ⟨_, skipB_cons rfl, ?_⟩)
        obtain ⟨n, hn⟩ := ih
        obtain ⟨m, rfl⟩ := rd_pos hn
        refine ⟨m + 1, ?_⟩
        rw [show acc.reverse ++ .str k :: t :: us = (t :: .str k :: acc).reverse ++ us by simp, ← hn]
        show rdStep _ _ = rdStep _ _
        simp only [rdStep, skipB_space]
    · cases h

theorem entries_line : ∀ {kvs : List (Str × PE)} {ts : List PyE}, argTree.dictTrees kvs = some ts → ∀ w ∈ kvs.map entryText, OneLine w
  | [], _, _, w, hw => by cases hw
  | (k, e) :: kvs, ts, h, w, hw => by
    rw [argTree.dictTrees] at h
    split at h
    · rename_i t us hp ht hus
      rw [List.map_cons] at hw
      rcases List.mem_cons.1 hw with rfl | hw
      · exact ((OneLine.append (by unfold OneLine; decide) (plain_line hp)).append (by unfold OneLine; decide)).append (tree_line ht)
      · exact entries_line hus w hw
    · cases h

/-- `{ "k": v }` -/
theorem dict_text {kvs : List (Str × PE)} {ts : List PyE} (h : argTree.dictTrees kvs = some ts) :
    ExprText (c!"{ " ++ joinWith c!", " (kvs.map entryText) ++ c!" }") (.dict ts) := by
  refine exprText_bracket (cs := ' ' :: (joinWith c!", " (kvs.map entryText) ++ c!" }")) (by simp) (.inr rfl) rfl ?_ ?_
  · exact (OneLine.append (by unfold OneLine; decide) (join_line (by unfold OneLine; decide) (entries_line h))).append (by unfold OneLine; decide)
  · intro r x hx
    have e : c!"{ " ++ joinWith c!", " (kvs.map entryText) ++ c!" }" ++ r = '{' :: ' ' :: (joinWith c!", " (kvs.map entryText) ++ ' ' :: '}' :: r) := by
      simp
    rw [e]
    refine .prim_dict ?_ hx
    by_cases hne : kvs = []
    · subst hne
      rw [argTree.dictTrees] at h
      rw [← Option.some.inj h]
      exact .entries_close (by show skipB (' ' :: ' ' :: '}' :: r) = _; rw [skipB_space, skipB_space]; exact skipB_cons rfl)
    · obtain ⟨n, hn⟩ := entries_read h hne [] r
      obtain ⟨m, rfl⟩ := rd_pos hn
      refine ⟨m + 1, ?_⟩
      rw [show ts = ([] : List PyE).reverse ++ ts by rfl, ← hn]
      show rdStep _ _ = rdStep _ _
      simp only [rdStep, skipB_space]

/-- an argument of a runtime command -/
theorem arg_text {a : RE} {t : PyE} (h : argTree a = some t) : ExprText a.render t := by
  cases a with
  | expr e => exact exprText_of h
  | list es =>
    simp only [argTree, Option.map_eq_some_iff] at h
    obtain ⟨ts, hts, rfl⟩ := h
    exact list_text hts
  | dict kvs =>
    simp only [argTree, Option.map_eq_some_iff] at h
    obtain ⟨ts, hts, rfl⟩ := h
    exact dict_text hts

theorem args_text : ∀ {as : List RE} {ts : List PyE}, argTrees as = some ts → Items (as.map RE.render) ts
  | [], ts, h => by rw [argTrees] at h; rw [← Option.some.inj h]; exact .nil
  | a :: as, ts, h => by
    rw [argTrees] at h
    split at h
    · rename_i ht hus
      rw [← Option.some.inj h]
      exact .cons (arg_text ht).item (args_text hus)
    · cases h

theorem kws_text : ∀ {ks : List (Str × RE)} {ts : List PyE}, kwTrees ks = some ts →
    Items (ks.map fun kv => kv.1 ++ c!"=" ++ kv.2.render) ts
  | [], ts, h => by rw [kwTrees] at h; rw [← Option.some.inj h]; exact .nil
  | (n, a) :: ks, ts, h => by
    rw [kwTrees] at h
    split at h
    · rename_i t us hn ht hus
      rw [← Option.some.inj h]
      simp only [Bool.and_eq_true, Bool.not_eq_true', List.contains_eq_mem, decide_eq_false_iff_not] at hn
      have := (arg_text ht).kwarg hn.1 hn.2
      refine .cons ?_ (kws_text hus)
      simpa using this
    · cases h

theorem args_notKw : ∀ {as : List RE} {ts : List PyE}, argTrees as = some ts → ∀ t ∈ ts, isKw t = false
  | [], ts, h => by rw [argTrees] at h; rw [← Option.some.inj h]; simp
  | a :: as, ts, h => by
    rw [argTrees] at h
    split at h
    · rename_i ht hus
      rw [← Option.some.inj h]
      intro t hm
      rcases List.mem_cons.1 hm with rfl | hm
      · exact (arg_text ht).pos
      · exact args_notKw hus t hm
    · cases h

theorem argsOk_append {as ks : List PyE} (h : ∀ t ∈ as, isKw t = false) (hk : argsOk ks = true) : argsOk (as ++ ks) = true := by
  induction as with
  | nil => exact hk
  | cons a as ih =>
    have h1 := h a (by simp)
    have := ih fun t ht => h t (by simp [ht])
    cases a <;> first | exact this | simp [isKw] at h1

/-! ### chains of method calls -/

/-- what can follow a name or a call: no letter, digit or quote -/
def Follow (r : Str) : Prop := ∀ c r', r = c :: r' → isIdChar c = false ∧ c ≠ '"' ∧ c ≠ '\''

theorem Follow.char {c : Char} {r : Str} (h : isIdChar c = false) (h1 : c ≠ '"') (h2 : c ≠ '\'') : Follow (c :: r) := by
  intro d r' e
  simp only [List.cons.injEq] at e
  rw [← e.1]; exact ⟨h, h1, h2⟩

theorem Ends.follow {r : Str} (h : Ends r) : Follow r := fun c r' e => ⟨(h.tok c r' e).1, (h.tok c r' e).2.2⟩

/-- The text `w` is the expression `t`, a name or a call, so that a method can be called on it. -/
structure Recv (w : Str) (t : PyE) : Prop where
  head : ∃ c cs, w = c :: cs ∧ isIdStart c = true
  go : ∀ r x, Follow r → Reads (.post t r) x → Reads (.lev 10 (w ++ r)) x
  kw : ∀ r, Follow r → (∀ d r', skipB r = d :: r' → d ≠ '=') → kwName (w ++ r) = none
  pos : isKw t = false
  line : OneLine w

theorem Recv.expr {w : Str} {t : PyE} (h : Recv w t) : ExprText w t := by
  refine ⟨?_, ?_, ?_, h.pos, h.line⟩
  · obtain ⟨c, cs, hw, hc⟩ := h.head
    have := idStart_ne hc
    exact ⟨c, cs, hw, idStart_space hc, this.2.2.2.2.1, this.2.2.2.2.2.1⟩
  · intro r hr
    exact .lev_to (h.go r _ hr.follow (.post_stop hr.after.post)) (by omega) hr.lev
  · intro r hr
    exact h.kw r hr.follow hr.noEq

theorem Recv.var {n : Str} (hn : isIdent n = true) : Recv n (.name n) := by
  obtain ⟨c, cs, e, hc, hcs, _⟩ := ident_all hn
  have hq := idStart_ne hc
  have hname : ∀ r, Follow r → pyName (n ++ r) = some (n, r) := fun r hr => pyName_append hn (fun c r' e => (hr c r' e).1)
  refine ⟨⟨c, cs, e, hc⟩, ?_, ?_, rfl, ident_line hn⟩
  · intro r x hr hx
    have h1 : pyString (n ++ r) = none := by
      rw [e]
      refine pyString_none ⟨hq.1, hq.2.1⟩ ?_
      intro _ d ds e'
      cases cs with
      | nil => exact (hr d ds e').2
      | cons a cs =>
        have e' : a :: (cs ++ r) = d :: ds := e'
        simp only [List.cons.injEq] at e'
        have ha := hcs a (by simp)
        rw [← e'.1]
        constructor <;> (rintro rfl; revert ha; decide)
    obtain ⟨k, hk⟩ := hx
    have := prim_name h1 (ident_number hn) (hname r hr) hk
    rw [e] at this ⊢
    exact ⟨_, Lemmas.step_prim (skipB_cons (idStart_space hc)) hq.2.2.1 hq.2.2.2.1 this⟩
  · intro r hr hne
    simp only [kwName, hname r hr]
    cases hs : skipB r with
    | nil => rfl
    | cons d r' => simp only; rw [if_neg]; exact fun h => hne d r' hs h.1

/-- a method call -/
theorem Recv.call {w f a : Str} {t : PyE} {ts : List PyE} (h : Recv w t) (hf : isIdent f = true) (ha : ArgsText ')' a ts)
    (ho : argsOk ts = true) : Recv (w ++ ('.' :: f ++ '(' :: a)) (mCall t f ts) := by
  have hfol : ∀ r, Follow ('.' :: f ++ '(' :: a ++ r) := fun r => .char (by decide) (by decide) (by decide)
  refine ⟨?_, ?_, ?_, rfl, ?_⟩
  · obtain ⟨c, cs, e, hc⟩ := h.head
    exact ⟨c, cs ++ ('.' :: f ++ '(' :: a), by rw [e]; rfl, hc⟩
  · intro r x hr hx
    rw [List.append_assoc]
    refine h.go _ _ (hfol r) ?_
    rw [List.append_assoc]
    refine .post_attr hf ?_ (.post_call (ha.read r) ho hx)
    intro c r' e
    rw [List.cons_append, List.cons.injEq] at e
    rw [← e.1]; decide
  · intro r hr _
    rw [List.append_assoc]
    refine h.kw _ (hfol r) ?_
    intro d r' e
    rw [List.cons_append, List.cons_append, skipB_cons rfl, List.cons.injEq] at e
    rw [← e.1]; decide
  · exact h.line.append (.append (.cons (by decide) (ident_line hf)) (.cons (by decide) ha.line))

/-! ### statements -/

/-- the lines are the statements -/
inductive Lines : List Str → List (Str × PyE) → Prop
  | nil : Lines [] []
  | cons {l : Str} {s : Str × PyE} {ls : List Str} {ss : List (Str × PyE)} : readStmt l = some s → OneLine l → Lines ls ss →
      Lines (l :: ls) (s :: ss)

theorem Lines.snoc {ls : List Str} {ss : List (Str × PyE)} {l : Str} {s : Str × PyE} (h : Lines ls ss) (hl : readStmt l = some s)
    (h1 : OneLine l) : Lines (ls ++ [l]) (ss ++ [s]) := by
  induction h with
  | nil => exact .cons hl h1 .nil
  | cons a b _ ih => exact .cons a b ih

theorem stmt_text {n w : Str} {t : PyE} (hn : isIdent n = true) (hc : n ∉ pyConsts) (h : ExprText w t) :
    readStmt (n ++ c!" = " ++ w) = some (n, t) ∧ OneLine (n ++ c!" = " ++ w) := by
  constructor
  · have hp := pyName_append (r := ' ' :: '=' :: ' ' :: w) hn (by intro c r' e; simp only [List.cons.injEq] at e; rw [← e.1]; decide)
    have e : n ++ c!" = " ++ w = n ++ ' ' :: '=' :: ' ' :: w := by simp
    have hk : kwName (n ++ c!" = " ++ w) = some (n, ' ' :: w) := by
      rw [e]
      simp only [kwName, hp, skipB_space, skipB_cons (show isSpace '=' = false from rfl)]
      rw [if_pos ⟨trivial, by simp, hc⟩]
    unfold readStmt
    rw [hk]
    have hr := h.read [] .nil
    rw [List.append_nil] at hr
    simp only [readPy_of hr.blank rfl]
    rfl
  · exact ((ident_line hn).append (by unfold OneLine; decide)).append h.line

/-- a call of the runtime library -/
theorem cmd_text {n func first : Str} {src t : PyE} {args : List RE} {kwargs : List (Str × RE)} (hn : isIdent n = true) (hc : n ∉ pyConsts)
    (h : cmdTree func src args kwargs = some t) (hs : ExprText first src) :
    readStmt (runtimeStmt n func first args kwargs) = some (n, t) ∧ OneLine (runtimeStmt n func first args kwargs) := by
  unfold cmdTree at h
  split at h
  · rename_i as ks hf has hks
    split at h
    · rename_i hok
      rw [← Option.some.inj h]
      have hi : Items (first :: (args.map RE.render ++ kwargs.map fun kv => kv.1 ++ c!"=" ++ kv.2.render)) (src :: (as ++ ks)) :=
        .cons hs.item ((args_text has).append (kws_text hks))
      have hr := (Recv.var (n := c!"commands") (by decide)).call hf (args_plain hi (by simp)) (by
        have := argsOk_append (as := src :: as) (ks := ks) ?_ hok
        · exact this
        · intro u hu
          rcases List.mem_cons.1 hu with rfl | hu
          · exact hs.pos
          · exact args_notKw has u hu)
      have := stmt_text hn hc hr.expr
      have e : runtimeStmt n func first args kwargs = n ++ c!" = " ++ (c!"commands" ++ ('.' :: func ++ '(' ::
          (joinWith c!", " (first :: (args.map RE.render ++ kwargs.map fun kv => kv.1 ++ c!"=" ++ kv.2.render)) ++ c!")"))) := by
        unfold runtimeStmt
        simp only [List.append_assoc]
        rfl
      rw [e]
      exact this
    · cases h
  · cases h

/-! ### programs -/

/-- The text of the frame is the program. -/
structure ProgText (d : DF) (p : PyProg) (ls : List Str) (w : Str) : Prop where
  text : d.render.text = (ls.flatMap fun l => l ++ c!"\n") ++ w
  var : isVar d = true → d.render = ⟨ls, w⟩
  nopre : isVar d = false → d.render.preface = []
  stmts : Lines ls p.stmts
  result : Recv w p.result

theorem ProgText.method {d d' : DF} {p : PyProg} {ls : List Str} {w f a : Str} {ts : List PyE} (h : ProgText d p ls w)
    (hd : isVar d' = false) (hr : d'.render = .of (d.render.text ++ ('.' :: f ++ '(' :: a))) (hf : isIdent f = true)
    (ha : ArgsText ')' a ts) (ho : argsOk ts = true) : ∃ ls w, ProgText d' ⟨p.stmts, mCall p.result f ts⟩ ls w := by
  refine ⟨ls, w ++ ('.' :: f ++ '(' :: a), ?_, ?_, ?_, h.stmts, h.result.call hf ha ho⟩
  · rw [hr, h.text]
    simp [PyCode.text, PyCode.of]
  · intro e; rw [hd] at e; cases e
  · intro _; rw [hr]; rfl

theorem onResult_some {p : Option PyProg} {f : PyE → Option PyE} {q : PyProg} (h : onResult p f = some q) :
    ∃ p', p = some p' ∧ ∃ e, f p'.result = some e ∧ q = ⟨p'.stmts, e⟩ := by
  unfold onResult at h
  cases p with
  | none => cases h
  | some p =>
    simp only [Option.map_eq_some_iff] at h
    obtain ⟨e, he, rfl⟩ := h
    exact ⟨p, rfl, e, he, rfl⟩

theorem addStmt_some {n : Str} {ok : Bool} {p : Option PyProg} {f : PyE → Option PyE} {q : PyProg} (h : addStmt n ok p f = some q) :
    ∃ p', p = some p' ∧ isIdent n = true ∧ n ∉ pyConsts ∧ (ok = true ∨ p'.stmts = []) ∧
      ∃ e, f p'.result = some e ∧ q = ⟨p'.stmts ++ [(n, e)], .name n⟩ := by
  unfold addStmt at h
  cases p with
  | none => cases h
  | some p =>
    simp only at h
    split at h
    · rename_i hc
      simp only [Bool.and_eq_true, Bool.not_eq_true', List.contains_eq_mem, decide_eq_false_iff_not, Bool.or_eq_true, List.isEmpty_iff] at hc
      simp only [Option.map_eq_some_iff] at h
      obtain ⟨e, he, rfl⟩ := h
      exact ⟨p, rfl, hc.1.1, hc.1.2, hc.2, e, he, rfl⟩
    · cases h

theorem operand_some {p : Option PyProg} {e : PyE} (h : operand p = some e) : p = some ⟨[], e⟩ := by
  unfold operand at h
  split at h
  · rw [Option.some.inj h]
  · cases h

theorem ProgText.operand {d : DF} {e : PyE} {ls : List Str} {w : Str} (h : ProgText d ⟨[], e⟩ ls w) : ExprText d.render.text e := by
  have hs := h.stmts
  cases hs
  rw [h.text]
  exact h.result.expr

/-- what a new statement is made from: the lines so far and the text of the frame -/
theorem ProgText.source {d : DF} {p : PyProg} {ls : List Str} {w : Str} (h : ProgText d p ls w)
    (hv : isVar d = true ∨ p.stmts = []) : d.render.preface = ls ∧ d.render.primary = w := by
  cases hd : isVar d with
  | true => rw [h.var hd]; exact ⟨rfl, rfl⟩
  | false =>
    rcases hv with hv | hv
    · rw [hd] at hv; cases hv
    · have hs := h.stmts
      rw [hv] at hs
      cases hs
      have h1 := h.nopre hd
      have h2 := h.text
      unfold PyCode.text at h2
      rw [h1] at h2
      exact ⟨h1, h2⟩

theorem colTrees_some {cs : List PE} {ts : List PyE} (h : colTrees cs = some ts) : pyTrees cs = some ts ∧ cs ≠ [] := by
  unfold colTrees at h
  split at h
  · cases h
  · rename_i hc
    refine ⟨h, ?_⟩
    rintro rfl
    exact hc rfl

theorem cn_text {c : CN} {t : PyE} (h : cnTree c = some t) : ExprText c.render t := by
  cases c with
  | col c => exact exprText_ofC h
  | name n =>
    simp only [cnTree] at h
    split at h
    · rename_i hp
      rw [← Option.some.inj h]
      exact dquote_text hp
    · cases h

theorem cns_read : ∀ {cs : List CN} {ts : List PyE}, cnTrees cs = some ts → ∀ (acc : List PyE) (r : Str),
    Reads (.items ']' acc ((cs.flatMap fun c => c.render ++ c!", ") ++ ']' :: r)) (acc.reverse ++ ts, r)
  | [], ts, h, acc, r => by
    rw [cnTrees] at h
    rw [← Option.some.inj h, List.append_nil]
    exact .items_close (skipB_cons rfl)
  | c :: cs, ts, h, acc, r => by
    rw [cnTrees] at h
    split at h
    · rename_i t us ht hus
      rw [← Option.some.inj h]
      have ih := cns_read hus (t :: acc) r
      have hw := cn_text ht
      obtain ⟨d, ds, hd, hsp, _, h2⟩ := hw.head
      have e : ((c :: cs).flatMap fun c => c.render ++ c!", ") ++ ']' :: r =
          c.render ++ (',' :: ' ' :: ((cs.flatMap fun c => c.render ++ c!", ") ++ ']' :: r)) := by simp
      rw [e]
      have hr := hw.item.read (',' :: ' ' :: ((cs.flatMap fun c => c.render ++ c!", ") ++ ']' :: r)) (.char (.inl rfl))
      rw [hd] at hr ⊢
      refine .items_more (skipB_cons hsp) h2 hr (skipB_cons rfl) ?_
      rw [show acc.reverse ++ t :: us = (t :: acc).reverse ++ us by simp]
      exact ih.items_blank
    · cases h

theorem cns_line : ∀ {cs : List CN} {ts : List PyE}, cnTrees cs = some ts → OneLine (cs.flatMap fun c => c.render ++ c!", ") ∧
    ∀ t ∈ ts, isKw t = false
  | [], ts, h => by rw [cnTrees] at h; rw [← Option.some.inj h]; exact ⟨.nil, by simp⟩
  | c :: cs, ts, h => by
    rw [cnTrees] at h
    split at h
    · rename_i t us ht hus
      rw [← Option.some.inj h]
      have ih := cns_line hus
      have hw := cn_text ht
      refine ⟨(hw.line.append (by unfold OneLine; decide)).append ih.1, ?_⟩
      intro u hu
      rcases List.mem_cons.1 hu with rfl | hu
      · exact hw.pos
      · exact ih.2 u hu
    · cases h

/-- `[a, b, ])` -/
theorem group_text {cs : List CN} {ts : List PyE} (h : cnTrees cs = some ts) :
    ArgsText ')' ('[' :: (cs.flatMap fun c => c.render ++ c!", ") ++ c!"])") [.list ts] := by
  have hl := cns_line h
  have hx : ExprText ('[' :: (cs.flatMap fun c => c.render ++ c!", ") ++ c!"]") (.list ts) := by
    refine exprText_bracket rfl (.inl rfl) rfl ((OneLine.cons (by decide) hl.1).append (by unfold OneLine; decide)) ?_
    intro r x hx
    have := cns_read h [] r
    rw [List.append_assoc, List.cons_append]
    exact .prim_list (by simpa using this) (any_kw hl.2) hx
  have := args_plain (.cons hx.item .nil) (by simp)
  have e : joinWith c!", " ['[' :: (cs.flatMap fun c => c.render ++ c!", ") ++ c!"]"] ++ c!")" =
      '[' :: (cs.flatMap fun c => c.render ++ c!", ") ++ c!"])" := by simp [joinWith]
  rw [e] at this
  exact this

theorem range_text {c : Str} {e : PyE} (h : rangeTree c = some e) : Recv c e := by
  unfold rangeTree at h
  simp only at h
  split at h
  · rename_i hc
    simp only [Option.map_eq_some_iff] at h
    obtain ⟨v, hv, rfl⟩ := h
    generalize (c.drop 15).take (c.length - 19) = k at hc hv
    have z : ExprText c!"0" (.num c!"0" []) := code_text (by decide +kernel)
    have o : ExprText c!"1" (.num c!"1" []) := code_text (by decide +kernel)
    have := (Recv.var (n := c!"spark") (by decide)).call (f := c!"range") (by decide)
      (args_plain (.cons z.item (.cons (code_text hv).item (.cons o.item .nil))) (by simp))
      (argsOk_of (by
        intro a ha
        simp only [List.mem_cons, List.not_mem_nil, or_false] at ha
        rcases ha with rfl | rfl | rfl
        · rfl
        · exact (code_text hv).pos
        · rfl))
    rw [hc]
    have e : c!"spark.range(0, " ++ k ++ c!", 1)" = c!"spark" ++ ('.' :: c!"range" ++ '(' :: (joinWith c!", " [c!"0", k, c!"1"] ++ c!")")) := by
      simp [joinWith]
    rw [e]
    exact this
  · cases h

theorem one_arg {w : Str} {t : PyE} (h : ExprText w t) : Items [w] [t] := .cons h.item .nil

theorem prog_text : ∀ {d : DF} {p : PyProg}, progTree d = some p → ∃ ls w, ProgText d p ls w
  | .source n, p, h => by
    rw [progTree] at h
    split at h
    · rename_i hn
      rw [← Option.some.inj h]
      have hr := (Recv.var (n := c!"spark") (by decide)).call (f := c!"table") (by decide)
        (args_plain (one_arg (quote_text hn)) (by simp)) (argsOk_of (by simp [isKw]))
      refine ⟨[], _, ?_, (by intro e; cases e), fun _ => rfl, .nil, hr⟩
      simp [PyCode.text, DF.render, PyCode.of, joinWith]
    · cases h
  | .rawSource c, p, h => by
    rw [progTree, Option.map_eq_some_iff] at h
    obtain ⟨e, he, rfl⟩ := h
    exact ⟨[], c, rfl, (by intro e; cases e), fun _ => rfl, .nil, range_text he⟩
  | .runtimeRoot n f as ks, p, h => by
    rw [progTree] at h
    obtain ⟨p', hp, hn, hc, _, e, he, rfl⟩ := addStmt_some h
    cases hp
    have := cmd_text hn hc he (Recv.var (n := c!"None") (by decide)).expr
    refine ⟨[runtimeStmt n f c!"None" as ks], n, ?_, fun _ => rfl, (by intro e; cases e), .cons this.1 this.2 .nil, Recv.var hn⟩
    simp [PyCode.text, DF.render]
  | .runtime n src f as ks, p, h => by
    rw [progTree] at h
    obtain ⟨p', hp, hn, hc, hv, e, he, rfl⟩ := addStmt_some h
    obtain ⟨ls, w, hs⟩ := prog_text hp
    obtain ⟨e1, e2⟩ := hs.source hv
    have := cmd_text hn hc he hs.result.expr
    have hr : (DF.runtime n src f as ks).render = ⟨ls ++ [runtimeStmt n f w as ks], n⟩ := by
      simp only [DF.render, e1, e2]
    refine ⟨ls ++ [runtimeStmt n f w as ks], n, ?_, fun _ => hr, (by intro e; cases e), hs.stmts.snoc this.1 this.2, Recv.var hn⟩
    rw [hr]; rfl
  | .named src n, p, h => by
    rw [progTree] at h
    obtain ⟨p', hp, hn, hc, hv, e, he, rfl⟩ := addStmt_some h
    obtain ⟨ls, w, hs⟩ := prog_text hp
    obtain ⟨e1, e2⟩ := hs.source hv
    cases he
    have := stmt_text hn hc hs.result.expr
    have hr : (DF.named src n).render = ⟨ls ++ [n ++ c!" = " ++ w], n⟩ := by
      simp only [DF.render, e1, e2]
    refine ⟨ls ++ [n ++ c!" = " ++ w], n, ?_, fun _ => hr, (by intro e; cases e), hs.stmts.snoc this.1 this.2, Recv.var hn⟩
    rw [hr]; rfl
  | .select src cols, p, h => by
    rw [progTree] at h
    obtain ⟨p', hp, e, he, rfl⟩ := onResult_some h
    obtain ⟨ls, w, hs⟩ := prog_text hp
    simp only [Option.map_eq_some_iff] at he
    obtain ⟨ts, hts, rfl⟩ := he
    obtain ⟨hts, hne⟩ := colTrees_some hts
    refine hs.method rfl ?_ (f := c!"select") (by decide) (args_comma (.inl rfl) (items_ofC hts) (by simpa using hne)) (argsOk_of (trees_notKw hts))
    simp [DF.render]
  | .where_ src c, p, h => by
    rw [progTree] at h
    obtain ⟨p', hp, e, he, rfl⟩ := onResult_some h
    obtain ⟨ls, w, hs⟩ := prog_text hp
    simp only [Option.map_eq_some_iff] at he
    obtain ⟨t, ht, rfl⟩ := he
    refine hs.method rfl ?_ (f := c!"where") (by decide) (args_comma (.inl rfl) (one_arg (exprText_of ht)) (by simp))
      (argsOk_of (by simpa using tree_notKw ht))
    simp [DF.render, joinWith]
  | .groupBy src cols, p, h => by
    rw [progTree] at h
    obtain ⟨p', hp, e, he, rfl⟩ := onResult_some h
    obtain ⟨ls, w, hs⟩ := prog_text hp
    simp only [Option.map_eq_some_iff] at he
    obtain ⟨ts, hts, rfl⟩ := he
    refine hs.method rfl ?_ (f := c!"groupBy") (by decide) (group_text hts) (argsOk_of (by simp [isKw]))
    simp [DF.render]
  | .agg src cols, p, h => by
    rw [progTree] at h
    obtain ⟨p', hp, e, he, rfl⟩ := onResult_some h
    obtain ⟨ls, w, hs⟩ := prog_text hp
    simp only [Option.map_eq_some_iff] at he
    obtain ⟨ts, hts, rfl⟩ := he
    obtain ⟨hts, hne⟩ := colTrees_some hts
    refine hs.method rfl ?_ (f := c!"agg") (by decide) (args_comma (.inl rfl) (items_ofC hts) (by simpa using hne)) (argsOk_of (trees_notKw hts))
    simp [DF.render]
  | .withColumn src c n, p, h => by
    rw [progTree] at h
    obtain ⟨p', hp, e, he, rfl⟩ := onResult_some h
    obtain ⟨ls, w, hs⟩ := prog_text hp
    split at he
    · rename_i hn
      simp only [Option.map_eq_some_iff] at he
      obtain ⟨t, ht, rfl⟩ := he
      refine hs.method rfl ?_ (f := c!"withColumn") (by decide)
        (args_comma (.inl rfl) (.cons (quote_text hn).item (one_arg (exprText_ofC ht))) (by simp))
        (argsOk_of (by simpa [isKw] using tree_notKw ht))
      simp [DF.render, joinWith]
    · cases he
  | .withColumnRenamed src o n, p, h => by
    rw [progTree] at h
    obtain ⟨p', hp, e, he, rfl⟩ := onResult_some h
    obtain ⟨ls, w, hs⟩ := prog_text hp
    split at he
    · rename_i hn
      rw [Bool.and_eq_true] at hn
      rw [← Option.some.inj he]
      refine hs.method rfl ?_ (f := c!"withColumnRenamed") (by decide)
        (args_comma (.inl rfl) (.cons (quote_text hn.1).item (one_arg (quote_text hn.2))) (by simp)) (argsOk_of (by simp [isKw]))
      simp [DF.render, joinWith]
    · cases he
  | .orderBy src cols, p, h => by
    rw [progTree] at h
    obtain ⟨p', hp, e, he, rfl⟩ := onResult_some h
    obtain ⟨ls, w, hs⟩ := prog_text hp
    simp only [Option.map_eq_some_iff] at he
    obtain ⟨ts, hts, rfl⟩ := he
    obtain ⟨hts, hne⟩ := colTrees_some hts
    refine hs.method rfl ?_ (f := c!"orderBy") (by decide) (args_comma (.inl rfl) (items_ofC hts) (by simpa using hne)) (argsOk_of (trees_notKw hts))
    simp [DF.render]
  | .unionByName src other, p, h => by
    rw [progTree] at h
    obtain ⟨p', hp, e, he, rfl⟩ := onResult_some h
    obtain ⟨ls, w, hs⟩ := prog_text hp
    simp only [Option.map_eq_some_iff] at he
    obtain ⟨t, ht, rfl⟩ := he
    obtain ⟨_, _, ho⟩ := prog_text (operand_some ht)
    have hk := (Recv.var (n := c!"True") (by decide)).expr.kwarg (n := c!"allowMissingColumns") (by decide) (by decide)
    have hop := ho.operand.pos
    refine hs.method rfl ?_ (f := c!"unionByName") (by decide)
      (args_comma (.inl rfl) (.cons ho.operand.item (.cons hk .nil)) (by simp)) ?_
    · simp [DF.render, joinWith]
    · exact argsOk_append (as := [t]) (by simpa using hop) rfl
  | .limit src n, p, h => by
    rw [progTree] at h
    obtain ⟨p', hp, e, he, rfl⟩ := onResult_some h
    obtain ⟨ls, w, hs⟩ := prog_text hp
    rw [← Option.some.inj he]
    refine hs.method rfl ?_ (f := c!"limit") (by decide) (args_comma (.inl rfl) (one_arg (nat_text n)) (by simp)) (argsOk_of (by simp [isKw, natTree]))
    simp [DF.render, joinWith]
  | .tail src n, p, h => by
    rw [progTree] at h
    obtain ⟨p', hp, e, he, rfl⟩ := onResult_some h
    obtain ⟨ls, w, hs⟩ := prog_text hp
    rw [← Option.some.inj he]
    refine hs.method rfl ?_ (f := c!"tail") (by decide) (args_plain (one_arg (nat_text n)) (by simp)) (argsOk_of (by simp [isKw, natTree]))
    simp [DF.render, joinWith]
  | .join src other c ty, p, h => by
    rw [progTree] at h
    obtain ⟨p', hp, e, he, rfl⟩ := onResult_some h
    obtain ⟨ls, w, hs⟩ := prog_text hp
    split at he
    · rename_i t k ht hk hty
      rw [← Option.some.inj he]
      obtain ⟨_, _, ho⟩ := prog_text (operand_some ht)
      have hop := ho.operand.pos
      have hkp := tree_notKw hk
      refine hs.method rfl ?_ (f := c!"join") (by decide)
        (args_comma (.inl rfl) (.cons ho.operand.item (.cons (exprText_of hk).item (one_arg (quote_text hty)))) (by simp))
        (argsOk_of (by simp [isKw] at hop hkp ⊢; exact ⟨hop, hkp⟩))
      simp [DF.render, joinWith]
    · cases he
  | .alias src n, p, h => by
    rw [progTree] at h
    obtain ⟨p', hp, e, he, rfl⟩ := onResult_some h
    obtain ⟨ls, w, hs⟩ := prog_text hp
    split at he
    · rename_i hn
      rw [← Option.some.inj he]
      refine hs.method rfl ?_ (f := c!"alias") (by decide) (args_comma (.inl rfl) (one_arg (quote_text hn)) (by simp)) (argsOk_of (by simp [isKw]))
      simp [DF.render, joinWith]
    · cases he
  | .arbitraryMethod src m ps, p, h => by
    rw [progTree] at h
    obtain ⟨p', hp, e, he, rfl⟩ := onResult_some h
    obtain ⟨ls, w, hs⟩ := prog_text hp
    split at he
    · rename_i hm
      simp only [Option.map_eq_some_iff] at he
      obtain ⟨ts, hts, rfl⟩ := he
      obtain ⟨hts, hne⟩ := colTrees_some hts
      refine hs.method rfl ?_ (f := m) hm (args_comma (.inr rfl) (items_of hts) (by simpa using hne)) (argsOk_of (trees_notKw hts))
      simp [DF.render]
    · cases he

/-! ### the whole text -/

theorem split_line {l : Str} (h : OneLine l) : splitOnC '\n' l = [l] := by
  induction l with
  | nil => rfl
  | cons c cs ih =>
    have hc := (h c (by simp)).1
    rw [splitOnC, if_neg hc, ih fun d hd => h d (by simp [hd])]

theorem split_cons {l : Str} (h : OneLine l) (r : Str) : splitOnC '\n' (l ++ '\n' :: r) = l :: splitOnC '\n' r := by
  induction l with
  | nil => rw [List.nil_append, splitOnC, if_pos rfl]
  | cons c cs ih =>
    have hc := (h c (by simp)).1
    rw [List.cons_append, splitOnC, if_neg hc, ih fun d hd => h d (by simp [hd])]

theorem lines_split {ls : List Str} {ss : List (Str × PyE)} (h : Lines ls ss) {w : Str} (hw : OneLine w) :
    splitOnC '\n' ((ls.flatMap fun l => l ++ c!"\n") ++ w) = ls ++ [w] := by
  induction h with
  | nil => exact split_line hw
  | @cons l s ls ss _ hl _ ih =>
    have : ((l :: ls).flatMap fun l => l ++ c!"\n") ++ w = l ++ '\n' :: ((ls.flatMap fun l => l ++ c!"\n") ++ w) := by simp
    rw [this, split_cons hl, ih]; rfl

theorem lines_read {ls : List Str} {ss : List (Str × PyE)} (h : Lines ls ss) {w : Str} {e : PyE} (hw : readExprLine w = some e) :
    readLines (ls ++ [w]) = some ⟨ss, e⟩ := by
  induction h with
  | nil => simp [readLines, hw]
  | @cons l s ls ss hl _ hs ih =>
    cases ls with
    | nil => simp only [List.nil_append] at ih; rw [List.cons_append, List.nil_append, readLines.eq_def]; simp [hl, ih]
    | cons l' ls => simp only [List.cons_append] at ih; simp [readLines, hl, ih]

theorem recv_line {w : Str} {t : PyE} (h : Recv w t) : readExprLine w = some t := by
  have hr := h.expr.read [] .nil
  rw [List.append_nil] at hr
  have := readPy_of hr rfl
  obtain ⟨c, cs, e, hc⟩ := h.head
  rw [e] at this ⊢
  simp only [readExprLine, idStart_space hc]
  exact this

theorem lines_cr {ls : List Str} {ss : List (Str × PyE)} (h : Lines ls ss) : ∀ c ∈ (ls.flatMap fun l => l ++ c!"\n"), c ≠ '\r' := by
  induction h with
  | nil => intro c hc; cases hc
  | @cons l s ls ss _ hl _ ih =>
    intro c hc
    rw [List.flatMap_cons, List.mem_append, List.mem_append] at hc
    rcases hc with (hc | hc) | hc
    · exact (hl c hc).2
    · have : c = '\n' := by simpa using hc
      rw [this]; decide
    · exact ih c hc

/-- The text of a data frame is read as its program. -/
theorem read_prog {d : DF} {p : PyProg} (h : progTree d = some p) : readProg d.render.text = some p := by
  obtain ⟨ls, w, hp⟩ := prog_text h
  rw [hp.text]
  unfold readProg
  rw [if_neg, lines_split hp.stmts hp.result.line, lines_read hp.stmts (recv_line hp.result)]
  simp only [List.contains_eq_mem, decide_eq_true_eq, List.mem_append, not_or]
  exact ⟨fun hc => lines_cr hp.stmts _ hc rfl, fun hc => (hp.result.line _ hc).2 rfl⟩

end Verif.Lemmas
