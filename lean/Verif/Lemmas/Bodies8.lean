import Verif.Lemmas.Bodies7
/-
Reading what follows the name of a command: tstats.
-/
namespace Verif
open P Lex Spl Spec Lemmas

theorem reserved_token {k kw u : Str} (hk : lower k = kw) (hl : ∀ c ∈ kw, isLetter c = true) (hr : Reserved kw) (hu : Stops tokenCont u) :
    token.run () (k ++ u) = none := by
  refine token_reserved (fun y hy => letter_token (lower_all hk (fun _ hy => lowerC_letter (hl _ hy)) y hy)) hu ?_
  have : upper k = upper kw := by rw [← upper_lower, hk]
  simp only [notReserved, this, Bool.not_eq_false', List.contains_eq_mem, decide_eq_true_eq]
  exact hr

theorem ms1_drop {R : Type} [Env R] {ρ : R} {u : Str} {y : Str × Str} (hm : (ms1 : P R true true Str).run ρ u = some y) : y.1 = u.dropWhile isSpace := by
  rw [run_ms1] at hm
  cases u with
  | nil => simp at hm
  | cons c t =>
    by_cases hc : isSpace c = true
    · simp only [hc, if_true, Option.some.injEq] at hm
      rw [← hm, List.dropWhile_cons_of_pos hc]
    · simp [hc] at hm

theorem ms1_none {R : Type} [Env R] {ρ : R} {u : Str} (h : Stops isSpace u) : (ms1 : P R true true Str).run ρ u = none := by
  rw [run_ms1]
  cases u with
  | nil => rfl
  | cons c t =>
    show (if _ then _ else _) = _
    rw [h c t rfl]; rfl

/-! ### The functions -/

/-- the new name of a function -/
def tsAs : L true Str := pre (delim ms1 (tagi! "AS") ms1) token

/-- the field after `count` -/
def tsOf : L true Str := delim ms1
  (verify (fun f => lower f != c!"from" && lower f != c!"where" && lower f != c!"by") field) (ms1.weak <||> eof)

theorem tsFunction_run {i r : Str} {e : Expr} (h : (tsCall <||> tsCount : L true Expr).run () i = some (r, e)) (ha : tsAs.run () r = none) :
    tsFunction.run () i = some (r, e) := by
  rw [tsFunction, run_map, run_seq, h, Option.bind_some, opt_none (p := (pre (delim ms1 (tagi! "AS") ms1) token : L true Str)) ha]; rfl

theorem tsFunction_as {i r u n : Str} {e : Expr} (h : (tsCall <||> tsCount : L true Expr).run () i = some (r, e)) (ha : tsAs.run () r = some (u, n)) :
    tsFunction.run () i = some (u, .alias e n) := by
  rw [tsFunction, run_map, run_seq, h, Option.bind_some, opt_some (p := (pre (delim ms1 (tagi! "AS") ms1) token : L true Str)) ha]; rfl

/-- a text that does not begin with AS and a blank -/
def NotAsWord (u : Str) : Prop := lower (u.take 2) = c!"as" → ∀ c t, u.drop 2 = c :: t → isSpace c = false

theorem tsAs_none {u : Str} (h : NotAsWord (u.dropWhile isSpace)) : tsAs.run () u = none := by
  rw [tsAs, run_pre, run_delim]
  cases hm : (ms1 : L true Str).run () u with
  | none => rfl
  | some y =>
    have hy := ms1_drop hm
    rw [Option.bind_some, hy, run_tagi, stripPrefixCI?_eq]
    split
    · rename_i h'
      have h2 : lower ((u.dropWhile isSpace).take 2) = c!"as" := h'.2
      have h3 : (ms1 : L true Str).run () ((u.dropWhile isSpace).drop 2) = none := ms1_none fun c t e => h h2 c t e
      rw [Option.map_some, Option.bind_some]
      show (Option.map _ ((ms1 : L true Str).run () ((u.dropWhile isSpace).drop 2))).bind _ = _
      rw [h3]; rfl
    · rfl

theorem tsAs_read {g₁ k g₂ n u : Str} (h1 : Gap g₁) (hk : lower k = c!"as") (h2 : Gap g₂) (hn : IsName n) (hu : Stops tokenCont u) :
    tsAs.run () (g₁ ++ (k ++ (g₂ ++ (n ++ u)))) = some (u, n) := by
  have hks := word_stops hk (fun b hb => space_all (f := fun b => lowerC b ≠ 'a') (by decide) hb)
  obtain ⟨m, hm⟩ := gap_ms1L (u := k ++ (g₂ ++ (n ++ u))) h1 (stops_append hks.2 hks.1)
  obtain ⟨m2, hm2⟩ := gap_ms1L (u := n ++ u) h2 (lead_stops (name_lead hn))
  rw [tsAs, run_pre, run_delim, hm, Option.bind_some, tagi_read (by rw [hk]; decide), Option.bind_some, hm2, Option.map_some, Option.bind_some,
    run_token hn.ne (name_lead hn).token hu (isName_res hn)]

theorem tsOf_none {u : Str} (h : field.run () (u.dropWhile isSpace) = none) : tsOf.run () u = none := by
  rw [tsOf, run_delim]
  cases hm : (ms1 : L true Str).run () u with
  | none => rfl
  | some y => rw [Option.bind_some, ms1_drop hm, run_verify, h]; rfl

/-- what may follow a function -/
structure TsOk (u : Str) : Prop where
  noEq : NoEq u
  paren : ∀ c t, u = c :: t → c ≠ '('
  notAs : NotAsWord (u.dropWhile isSpace)
  notOf : tsOf.run () u = none

theorem word_notAs {w v : Str} (hw : LeadWord w) (hv : Stops tokenCont v) : NotAsWord (w ++ v) := by
  intro h c t e
  obtain ⟨h1, h2⟩ := take_word (kw := c!"as") (hv.mono fun c hc => by
    have : lowerC c = 'a' ∨ lowerC c = 's' := by simpa using hc
    have hl : isLetter c = true := lowerC_letter (by rcases this with h | h <;> rw [h] <;> decide)
    simp [tokenCont, letter_token hl]) h
  have h1 : 2 ≤ w.length := h1
  rw [List.drop_append_of_le_length h1] at e
  cases hd : w.drop 2 with
  | nil =>
    have hl : w.length ≤ 2 := by simpa using hd
    have : w.take 2 = w := List.take_of_length_le hl
    have h2 : lower (w.take 2) = c!"as" := h2
    rw [this] at h2
    refine absurd ?_ hw.notReserved
    have : upper w = upper c!"as" := by rw [← upper_lower, h2]
    rw [Reserved, this]; decide
  | cons x xs =>
    rw [hd, List.cons_append, List.cons.injEq] at e
    rw [← e.1]
    exact tokenChar_space (hw.token x (List.mem_of_mem_drop (hd ▸ List.mem_cons_self)))

theorem count_lead {k : Str} (hk : lower k = c!"count") : LeadWord k := by
  refine ⟨fun e => by rw [e] at hk; exact absurd hk (by decide), fun c hc => letter_token (lower_all hk (fun _ hy => lowerC_letter
    ((by decide : ∀ c ∈ c!"count", isLetter c = true) _ hy)) c hc), ?_⟩
  have : upper k = upper c!"count" := by rw [← upper_lower, hk]
  rw [Reserved, this]; decide

theorem tsCall_some {f x u : Str} (hf : IsName f) (hx : Column x x) : tsCall.run () (f ++ '(' :: (x ++ ')' :: u)) = some (u, .call f [.const (.field x)]) := by
  rw [tsCall, run_map, run_seq, run_token hf.ne (name_lead hf).token (Stops.cons (by decide)) (isName_res hf), Option.bind_some, run_delim, tag_same,
    Option.bind_some, column_read hx.2 ⟨Stops.cons (by decide), Stops.cons (by decide), Stops.cons (by decide)⟩, Option.bind_some, tag_same]; rfl

theorem tsCall_none {w u : Str} (hw : LeadWord w) (hu : Stops tokenCont u) (hp : ∀ c t, u = c :: t → c ≠ '(') : tsCall.run () (w ++ u) = none := by
  rw [tsCall, run_map, run_seq, run_token hw.ne hw.token hu hw.res, Option.bind_some, run_delim, tag_none hp]; rfl

theorem tsCount_plain {k u : Str} (hk : lower k = c!"count") (hu : Stops tokenCont u) (hp : ∀ c t, u = c :: t → c ≠ '(') (ho : tsOf.run () u = none) :
    (tsCall <||> tsCount : L true Expr).run () (k ++ u) = some (u, .call c!"count" []) := by
  rw [run_alt, tsCall_none (count_lead hk) hu hp, Option.none_or, tsCount, run_map, run_pre, tagi_read (by rw [hk]; decide), Option.bind_some,
    opt_none (p := (delim ms1 (verify (fun f => lower f != c!"from" && lower f != c!"where" && lower f != c!"by") field) (ms1.weak <||> eof) : L true Str)) ho]; rfl

theorem tsCount_of {k u r f : Str} (hk : lower k = c!"count") (hu : Stops tokenCont u) (hp : ∀ c t, u = c :: t → c ≠ '(') (ho : tsOf.run () u = some (r, f)) :
    (tsCall <||> tsCount : L true Expr).run () (k ++ u) = some (r, .call c!"count" [.const (.field f)]) := by
  rw [run_alt, tsCall_none (count_lead hk) hu hp, Option.none_or, tsCount, run_map, run_pre, tagi_read (by rw [hk]; decide), Option.bind_some,
    opt_some (p := (delim ms1 (verify (fun f => lower f != c!"from" && lower f != c!"where" && lower f != c!"by") field) (ms1.weak <||> eof) : L true Str)) ho]; rfl

theorem tsCall_read {e : Expr} {s u : Str} (h : TsCall e s) (hu : TsOk u) : tsFunction.run () (s ++ u) = some (u, e) := by
  cases h with
  | plain hf hx =>
    simp only [List.append_assoc, List.cons_append, List.nil_append]
    exact tsFunction_run (by rw [run_alt, tsCall_some hf hx]; rfl) (tsAs_none hu.notAs)
  | named hf hx h1 hk h2 hn =>
    simp only [List.append_assoc, List.cons_append]
    exact tsFunction_as (by rw [run_alt, tsCall_some hf hx]; rfl) (tsAs_read h1 hk h2 hn hu.noEq.token)

theorem countAs_read {k g₁ a g₂ n u : Str} (hk : lower k = c!"count") (h1 : Gap g₁) (ha : lower a = c!"as") (h2 : Gap g₂) (hn : IsName n) (hu : Stops tokenCont u) :
    tsFunction.run () (k ++ (g₁ ++ (a ++ (g₂ ++ (n ++ u))))) = some (u, .alias (.call c!"count" []) n) := by
  refine tsFunction_as (tsCount_plain hk (gap_after h1).token (gap_ne h1 (by decide)) (tsOf_none ?_)) (tsAs_read h1 ha h2 hn hu)
  have hks := word_stops ha (fun b hb => space_all (f := fun b => lowerC b ≠ 'a') (by decide) hb)
  rw [drop_gap h1 (stops_append hks.2 hks.1)]
  exact field_none (reserved_token ha (by decide) (by decide) (gap_after h2).token) (letter_ne ha rfl (by decide) _) (letter_ne ha rfl (by decide) _)

theorem column_notKey {f : Str} (h : Column f f) {kw : Str} (hl : ∀ c ∈ kw, isLetter c = true) (hr : Reserved kw) : lower f ≠ kw := by
  intro e
  have h1 := reserved_token (u := []) e hl hr (Stops.nil _)
  have h2 := column_read h.2 after_nil
  obtain ⟨c, t, rfl, hc, -⟩ := column_head h.2
  rw [field_none h1] at h2
  · simp at h2
  · rintro c' t' e rfl; simp at e; rw [e.1] at hc; revert hc; decide
  · rintro c' t' e rfl; simp at e; rw [e.1] at hc; revert hc; decide

theorem countOf_read {k g f u : Str} (hk : lower k = c!"count") (hg : Gap g) (hf : Column f f) (hu : AfterWord u) :
    tsFunction.run () (k ++ (g ++ (f ++ u))) = some (u.dropWhile isSpace, .call c!"count" [.const (.field f)]) := by
  have hua : After u := by
    rcases hu with rfl | ⟨c, s, rfl, hc⟩
    · exact after_nil
    · have : Gap [c] := ⟨by simp, by simpa using hc⟩
      exact gap_after this
  have hw : (ms1.weak <||> eof : L false Str).run () u = some (u.dropWhile isSpace, u.takeWhile isSpace) := by
    rcases hu with rfl | ⟨c, s, rfl, hc⟩
    · rfl
    · have : isSpace c = true := (isSpace_iff c).2 hc
      simp [run_alt, run_weak, run_ms1, this]
  refine tsFunction_run (tsCount_of hk (gap_after hg).token (gap_ne hg (by decide)) ?_) ?_
  · obtain ⟨m, hm⟩ := gap_ms1L (u := f ++ u) hg (column_stops hf.2)
    rw [tsOf, run_delim, hm, Option.bind_some, run_verify, column_read hf.2 hua]
    have h1 := column_notKey hf (kw := c!"from") (by decide) (by decide)
    have h2 := column_notKey hf (kw := c!"where") (by decide) (by decide)
    have h3 := column_notKey hf (kw := c!"by") (by decide) (by decide)
    simp [Option.filter, h1, h2, h3, hw]
  · rw [tsAs, run_pre, run_delim, ms1_none]
    · rfl
    · intro c t e
      have := List.head?_dropWhile_not isSpace u
      rw [e] at this
      simpa using this

/-! ### The list of functions -/

theorem tsCall_head {e : Expr} {s : Str} (h : TsCall e s) : ∃ f v, s = f ++ '(' :: v ∧ IsName f := by
  cases h with
  | plain hf _ => exact ⟨_, _, rfl, hf⟩
  | named hf => exact ⟨_, _, rfl, hf⟩

theorem tsItems_head {b : Bool} {es : List Expr} {s : Str} (h : TsItems b es s) : ∃ w v, s = w ++ v ∧ LeadWord w ∧ ∀ rest, NoEq rest → NoEq (v ++ rest) := by
  have key : ∀ {e : Expr} {s t : Str}, TsCall e s → ∃ w v, s ++ t = w ++ v ∧ LeadWord w ∧ ∀ rest, NoEq rest → NoEq (v ++ rest) := by
    intro e s t h
    obtain ⟨f, v, rfl, hf⟩ := tsCall_head h
    exact ⟨f, '(' :: (v ++ t), by simp, name_lead hf, fun rest _ => sign_noEq (by decide)⟩
  have kas : ∀ {k g a t : Str}, lower k = c!"count" → Gap g → lower a = c!"as" → ∃ w v, k ++ (g ++ (a ++ t)) = w ++ v ∧ LeadWord w ∧ ∀ rest, NoEq rest → NoEq (v ++ rest) := by
    intro k g a t hk hg ha
    refine ⟨k, _, rfl, count_lead hk, fun rest _ => ?_⟩
    have hks := word_stops ha (fun b hb => space_all (f := fun b => lowerC b ≠ 'a') (by decide) hb)
    rw [List.append_assoc, List.append_assoc]
    exact gap_noEq hg (stops_append hks.2 hks.1) (letter_ne ha rfl (by decide) _)
  cases h with
  | call h => have := key (t := []) h; rwa [List.append_nil] at this
  | count hk => exact ⟨s, [], by simp, count_lead hk, fun _ h => h⟩
  | countAs hk h1 ha h2 hn => exact kas hk h1 ha
  | countOf hk hg hf =>
    refine ⟨_, _, rfl, count_lead hk, fun rest _ => ?_⟩
    rw [List.append_assoc]
    exact gap_noEq hg (column_stops hf.2) (column_ne hf.2 (by decide))
  | callThen h => exact key h
  | countThen hk hg h =>
    obtain ⟨f, v, rfl, hf⟩ := tsCall_head h
    refine ⟨_, _, rfl, count_lead hk, fun rest _ => ?_⟩
    simp only [List.append_assoc]
    exact gap_noEq hg (lead_stops (name_lead hf)) (lead_ne (name_lead hf) (by decide))
  | countAsThen hk h1 ha => exact kas hk h1 ha

theorem gap_tsOk {g w v : Str} (hg : Gap g) (hw : LeadWord w) (hv : Stops tokenCont v) (ho : tsOf.run () (g ++ (w ++ v)) = none) : TsOk (g ++ (w ++ v)) := by
  refine ⟨gap_noEq hg (lead_stops hw) (lead_ne hw (by decide)), gap_ne hg (by decide), ?_, ho⟩
  rw [drop_gap hg (lead_stops hw)]; exact word_notAs hw hv

theorem call_notOf {g f v : Str} (hg : Gap g) (hf : IsName f) : tsOf.run () (g ++ (f ++ '(' :: v)) = none := by
  obtain ⟨m, hm⟩ := gap_ms1L (u := f ++ '(' :: v) hg (lead_stops (name_lead hf))
  rw [tsOf, run_delim, hm, Option.bind_some]
  have hw : ∀ s : Str, (ms1.weak <||> eof : L false Str).run () ('(' :: s) = none := fun s => by
    rw [run_alt, run_weak, run_ms1]; rfl
  by_cases h1 : f = c!"t" ∨ f = c!"f"
  · have : field.run () (f ++ '(' :: v) = none := by
      rw [field, run_alt, fieldFmt, run_recognize, run_sepList1, run_alt, tokenNotTF, run_verify,
        run_token hf.ne (name_lead hf).token (Stops.cons (by decide)) (isName_res hf), doubleQuoted_none (lead_ne (name_lead hf) (by decide)),
        singleQuoted_none (lead_ne (name_lead hf) (by decide))]
      rcases h1 with rfl | rfl <;> rfl
    rw [run_verify, this]; rfl
  · have := run_field_dots (u := '(' :: v) (name_lead hf) (fun e => h1 (.inl e)) (fun e => h1 (.inr e)) .nil ⟨Stops.cons (by decide), Stops.cons (by decide), Stops.cons (by decide)⟩
    rw [List.nil_append] at this
    rw [run_verify, this]
    cases hx : (Option.filter _ _ : Option (Str × Str)) with
    | none => rfl
    | some y =>
      have : y = ('(' :: v, f ++ []) := by
        have := Option.filter_eq_some_iff.1 hx
        simpa using this.1.symm
      rw [this, Option.bind_some, hw]; rfl

theorem ts_step {g t rest u r : Str} {e : Expr} {es : List Expr} (hg : Gap g) (hst : Stops isSpace (t ++ rest)) (h1 : tsFunction.run () (t ++ rest) = some (u, e))
    (h2 : ∀ n, u.length ≤ n → sepLoop ((ms1 : L true Str).run ()) (tsFunction.run ()) n u = (r, es)) :
    ∀ n, (g ++ (t ++ rest)).length ≤ n → sepLoop ((ms1 : L true Str).run ()) (tsFunction.run ()) n (g ++ (t ++ rest)) = (r, e :: es) := by
  intro n hn
  obtain ⟨m, hm⟩ := gap_ms1L hg hst
  have l1 := (ms1 : L true Str).con rfl _ _ _ _ hm
  have l2 := (tsFunction.suf _ _ _ _ h1).length_le
  cases n with
  | zero => omega
  | succ n => rw [sepLoop, hm]; simp only [h1, h2 n (by omega)]

theorem tsItems_read {b : Bool} {es : List Expr} {s rest : Str} (h : TsItems b es s) (hr : TsOk rest) (hn : tsFunction.run () (rest.dropWhile isSpace) = none)
    (hb : b = true → AfterWord rest) :
    ∃ e es' u r, es = e :: es' ∧ tsFunction.run () (s ++ rest) = some (u, e) ∧ r.dropWhile isSpace = rest.dropWhile isSpace ∧
      ∀ n, u.length ≤ n → sepLoop ((ms1 : L true Str).run ()) (tsFunction.run ()) n u = (r, es') := by
  have hend : ∀ n, sepLoop ((ms1 : L true Str).run ()) (tsFunction.run ()) n rest = (rest, []) :=
    sepLoop_end fun r x e => by have := ms1_drop e; simp only at this; rw [this]; exact hn
  induction h with
  | call h => exact ⟨_, [], rest, rest, rfl, tsCall_read h hr, rfl, fun n _ => hend n⟩
  | count hk => exact ⟨_, [], rest, rest, rfl, tsFunction_run (tsCount_plain hk hr.noEq.token hr.paren hr.notOf) (tsAs_none hr.notAs), rfl, fun n _ => hend n⟩
  | countAs hk h1 ha h2 hn' =>
    simp only [List.append_assoc]
    exact ⟨_, [], rest, rest, rfl, countAs_read hk h1 ha h2 hn' hr.noEq.token, rfl, fun n _ => hend n⟩
  | countOf hk hg hf =>
    simp only [List.append_assoc]
    refine ⟨_, [], _, _, rfl, countOf_read hk hg hf (hb rfl), dropWhile_idem _, fun n _ => sepLoop_end (fun r x e => ?_) n⟩
    have := ms1_drop e
    simp only at this
    rw [this, dropWhile_idem]; exact hn
  | callThen h hg ht ih =>
    obtain ⟨e', es', u, r, rfl, h1, h2, h3⟩ := ih hb
    obtain ⟨w, v, rfl, hw, hv⟩ := tsItems_head ht
    have hv := (hv rest hr.noEq).token
    simp only [List.append_assoc] at h1 ⊢
    have hst : Stops isSpace (w ++ (v ++ rest)) := lead_stops hw
    refine ⟨_, _, _, r, rfl, ?_, h2, ts_step (t := w) hg hst h1 h3⟩
    · cases h with
      | plain hf hx =>
        simp only [List.append_assoc, List.cons_append, List.nil_append]
        exact tsFunction_run (by rw [run_alt, tsCall_some hf hx]; rfl) (tsAs_none (by rw [drop_gap hg hst]; exact word_notAs hw hv))
      | named hf hx h1 hk h2 hn =>
        simp only [List.append_assoc, List.cons_append]
        exact tsFunction_as (by rw [run_alt, tsCall_some hf hx]; rfl) (tsAs_read h1 hk h2 hn (gap_after hg).token)
  | countThen hk hg h ht ih =>
    obtain ⟨e', es', u, r, e0, h1, h2, h3⟩ := ih hb
    obtain ⟨f, v, rfl, hf⟩ := tsCall_head h
    simp only [List.append_assoc, List.cons_append] at h1 ⊢
    have hst : ∀ t, Stops isSpace (f ++ '(' :: t) := fun t => lead_stops (name_lead hf)
    rw [e0]
    refine ⟨_, _, _, r, rfl, ?_, h2, ts_step (t := f) hg (hst _) h1 h3⟩
    exact tsFunction_run (tsCount_plain hk (gap_after hg).token (gap_ne hg (by decide)) (call_notOf hg hf))
      (tsAs_none (by rw [drop_gap hg (hst _)]; exact word_notAs (name_lead hf) (Stops.cons (by decide))))
  | countAsThen hk h1 ha h2 hn' hg ht ih =>
    obtain ⟨e', es', u, r, rfl, h1', h2', h3⟩ := ih hb
    obtain ⟨w, v, rfl, hw, hv⟩ := tsItems_head ht
    simp only [List.append_assoc] at h1' ⊢
    refine ⟨_, _, _, r, rfl, ?_, h2', ts_step (t := w) hg (lead_stops hw) h1' h3⟩
    exact countAs_read hk h1 ha h2 hn' (gap_after hg).token

/-! ### What follows the functions -/

/-- the end of the command, or one of the given clauses -/
inductive TsTail (kws : List Str) : Str → Prop
  | fin {x : Str} : End x → TsTail kws x
  | clause {g k g₂ y : Str} : Gap g → lower k ∈ kws → Gap g₂ → Stops isSpace y → (lower k = c!"where" → lower (y.take 9) ≠ c!"nodename=") →
      TsTail kws (g ++ (k ++ (g₂ ++ y)))

/-- the words before clauses -/
def tsWords : List Str := [c!"from", c!"where", c!"by"]

theorem tsWord_stops {k : Str} (h : lower k ∈ tsWords) (u : Str) : Stops isSpace (k ++ u) :=
  (keyword_head (kw := lower k) rfl ((by decide : ∀ w ∈ tsWords, Letters w) _ h) ((by decide : ∀ w ∈ tsWords, w ≠ []) _ h) u).2.1

theorem tsWord_token {k u : Str} (h : lower k ∈ tsWords) (hu : Stops tokenCont u) : token.run () (k ++ u) = none :=
  reserved_token rfl ((by decide : ∀ w ∈ tsWords, ∀ c ∈ w, isLetter c = true) _ h) ((by decide : ∀ w ∈ tsWords, Reserved w) _ h) hu

theorem tsWord_ne {k u : Str} (h : lower k ∈ tsWords) {q : Char} (hq : isLetter (lowerC q) = false) : ∀ c t, k ++ u = c :: t → c ≠ q := by
  simp only [tsWords, List.mem_cons, List.not_mem_nil, or_false] at h
  have : ∀ x, isLetter x = true → lowerC q ≠ x := fun x hx e => by rw [e, hx] at hq; simp at hq
  rcases h with h | h | h
  · exact letter_ne h rfl (this _ (by decide)) _
  · exact letter_ne h rfl (this _ (by decide)) _
  · exact letter_ne h rfl (this _ (by decide)) _

theorem TsTail.tag {kws : List Str} {x : Str} (h : TsTail kws x) (hk : ∀ w ∈ kws, w ∈ tsWords) {R : Type} [Env R] {ρ : R} {t : Char} {ts : Str} (hl : Letters (t :: ts))
    (hn : ∀ w ∈ kws, w.head? ≠ some t) : (tagNoCaseL t ts : P R true true Str).run ρ (x.dropWhile isSpace) = none := by
  refine tagi_take ?_
  rw [letters_lower hl]
  cases h with
  | fin he =>
    refine he.take ?_
    have := hl t (by simp)
    constructor <;> rintro rfl <;> revert this <;> decide
  | @clause g k g₂ y hg hkw _ _ _ =>
    rw [drop_gap hg (tsWord_stops (hk _ hkw) _)]
    cases hlk : lower k with
    | nil => exact absurd hlk ((by decide : ∀ w ∈ tsWords, w ≠ []) _ (hk _ hkw))
    | cons z zs =>
      refine take_head (kw := t :: ts) hlk rfl ?_
      rintro rfl
      exact hn _ hkw (by rw [hlk]; rfl)

theorem TsTail.ok {kws : List Str} {x : Str} (h : TsTail kws x) (hk : ∀ w ∈ kws, w ∈ tsWords) : TsOk x ∧ tsFunction.run () (x.dropWhile isSpace) = none := by
  have hcount : (tagi! "count" : L true Str).run () (x.dropWhile isSpace) = none :=
    h.tag hk (by decide) fun w hw => (by decide : ∀ w ∈ tsWords, w.head? ≠ some 'c') w (hk w hw)
  have hfn : token.run () (x.dropWhile isSpace) = none → tsFunction.run () (x.dropWhile isSpace) = none := by
    intro ht
    rw [tsFunction, run_map, run_seq, run_alt, tsCall, run_map, run_seq, ht, tsCount, run_map, run_pre, hcount]; rfl
  cases h with
  | fin he =>
    have hf := (field_end he).2
    refine ⟨⟨he.noEq, he.ne (by decide), fun e => absurd e (he.take (by decide)), tsOf_none hf⟩, hfn (token_none he.drop.token)⟩
  | @clause g k g₂ y hg hkw h2 _ _ =>
    have hw := hk _ hkw
    have hd : (g ++ (k ++ (g₂ ++ y))).dropWhile isSpace = k ++ (g₂ ++ y) := drop_gap hg (tsWord_stops hw _)
    have ht := tsWord_token (u := g₂ ++ y) hw (gap_after h2).token
    refine ⟨⟨gap_noEq hg (tsWord_stops hw _) (tsWord_ne hw (by decide)), gap_ne hg (by decide), ?_, tsOf_none ?_⟩, hfn (by rw [hd]; exact ht)⟩
    · rw [hd]
      intro e
      exfalso
      cases hlk : lower k with
      | nil => exact absurd hlk ((by decide : ∀ w ∈ tsWords, w ≠ []) _ hw)
      | cons z zs =>
        refine take_head (kw := c!"as") hlk rfl ?_ e
        rintro rfl
        exact (by decide : ∀ w ∈ tsWords, w.head? ≠ some 'a') _ hw (by rw [hlk]; rfl)
    · rw [hd]
      exact field_none ht (tsWord_ne hw (by decide)) (tsWord_ne hw (by decide))

/-! ### The data model -/

/-- the names after the first -/
inductive NameTail : Str → Prop
  | nil : NameTail []
  | dot {w d : Str} : IsName w → NameTail d → NameTail ('.' :: (w ++ d))

theorem dotted_parts {m : Str} (h : DottedName m) : ∃ w d, m = w ++ d ∧ IsName w ∧ NameTail d := by
  induction h with
  | @one w h => exact ⟨w, [], by simp, h, .nil⟩
  | @dot w p h _ ih =>
    obtain ⟨w', d, rfl, h', hd⟩ := ih
    exact ⟨w, '.' :: (w' ++ d), rfl, h, .dot h' hd⟩

theorem NameTail.token {d u : Str} (h : NameTail d) (hu : Stops tokenCont u) : Stops tokenCont (d ++ u) := by
  cases h with
  | nil => exact hu
  | dot => exact Stops.cons (by decide)

theorem names_loop {u : Str} (hu : After u) {d : Str} (h : NameTail d) : ∀ n, (d ++ u).length ≤ n →
    (sepLoop ((tag! "." : L true Str).run ()) (token.run ()) n (d ++ u)).1 = u := by
  induction h with
  | nil =>
    intro n _
    cases n with
    | zero => rfl
    | succ n =>
      have htag : (tag! "." : L true Str).run () u = none :=
        tag_none fun c s e => by have := hu.dot c s e; simpa using this
      rw [List.nil_append, sepLoop, htag]
  | @dot w d hw hd ih =>
    intro n hn
    cases n with
    | zero => simp at hn
    | succ n =>
      rw [List.cons_append, sepLoop, tag_same]
      have : token.run () (w ++ d ++ u) = some (d ++ u, w) := by
        rw [List.append_assoc, run_token hw.ne (name_lead hw).token (hd.token hu.token) (isName_res hw)]
      simp only [this]
      exact ih n (by simp at hn ⊢; omega)

theorem dotted_read {m u : Str} (h : DottedName m) (hu : After u) : dotted.run () (m ++ u) = some (u, m) := by
  obtain ⟨w, d, rfl, hw, hd⟩ := dotted_parts h
  rw [dotted, recognize_some]
  refine ⟨?_, rfl⟩
  rw [List.append_assoc, run_sepList1, run_token hw.ne (name_lead hw).token (hd.token hu.token) (isName_res hw)]
  refine ⟨w :: (sepLoop ((tag! "." : L true Str).run ()) (token.run ()) (d ++ u).length (d ++ u)).2, ?_⟩
  have := names_loop hu hd _ (Nat.le_refl _)
  simp only [Option.map_some]
  rw [this]

theorem dotted_stops {m u : Str} (h : DottedName m) : Stops isSpace (m ++ u) := by
  obtain ⟨w, d, rfl, hw, hd⟩ := dotted_parts h
  rw [List.append_assoc]; exact lead_stops (name_lead hw)

theorem TsTail.after {kws : List Str} {x : Str} (h : TsTail kws x) : After x := by
  cases h with
  | fin he => exact he.after
  | clause hg => exact gap_after hg

/-- the node of the data model -/
def nodeP : L true Str := ws (pre (ws (tagi! "where")) (ws (pre (tagi! "nodename=") dotted)))

theorem nodeP_none {x : Str} (h : TsTail [c!"where", c!"by"] x) : nodeP.run () x = none := by
  rw [nodeP]
  refine ws_end ?_
  rw [run_pre]
  cases h with
  | fin he =>
    have : TsTail [] x := .fin he
    rw [ws_end (by rw [dropWhile_idem]; exact this.tag (by simp) (by decide) (by simp))]; rfl
  | @clause g k g₂ y hg hkw h2 hy hn =>
    have hw : lower k ∈ tsWords := (by decide : ∀ w ∈ [c!"where", c!"by"], w ∈ tsWords) _ hkw
    rw [drop_gap hg (tsWord_stops hw _), run_ws, drop_stops (tsWord_stops hw _)]
    simp only [List.mem_cons, List.not_mem_nil, or_false] at hkw
    rcases hkw with hk | hk
    · rw [tagi_read (by rw [hk]; decide), Option.map_some, Option.bind_some, drop_gap h2 hy, ws_end]
      rw [drop_stops hy, run_pre, tagi_take (t := 'n') (ts := c!"odename=") (hn hk)]; rfl
    · rw [tagi_take (t := 'w') (ts := c!"here") (take_head (kw := c!"where") hk rfl (by decide))]; rfl

theorem eqTag_read {R : Type} [Env R] {ρ : R} {d u : Str} {t : Char} {ts : Str} (hd : lower d ++ c!"=" = lower (t :: ts)) :
    (tagNoCaseL t ts : P R true true Str).run ρ (d ++ '=' :: u) = some (u, d ++ c!"=") := by
  have e : d ++ '=' :: u = (d ++ c!"=") ++ u := by simp
  rw [e, tagi_read]
  rw [← hd]; simp [lower, lowerC]

theorem model_read {k g d g₂ m rest : Str} (hk : lower k = c!"from") (hg : Gap g) (hd : lower d = c!"datamodel") (h2 : Blanks g₂) (hm : DottedName m) (hr : After rest) :
    tsFrom.run () (k ++ (g ++ (d ++ '=' :: (g₂ ++ (m ++ rest))))) =
      ((opt nodeP).run () (rest.dropWhile isSpace)).map fun y => (y.1, (m, y.2)) := by
  have hks := tsWord_stops (k := k) (by rw [hk]; decide)
  have hds : ∀ u, Stops isSpace (d ++ u) := fun u => (keyword_head hd (by decide) (by decide) u).2.1
  rw [tsFrom, run_pre, run_ws, drop_stops (hks _), tagi_read (by rw [hk]; decide), Option.map_some, Option.bind_some, drop_gap hg (hds _), run_seq, run_ws, drop_stops (hds _), run_pre,
    run_ws, drop_stops (hds _), eqTag_read (by rw [hd]; decide), Option.map_some, Option.bind_some, drop_blanks h2 (dotted_stops hm), dotted_read hm hr]
  rfl

theorem nodeP_dropped {x : Str} : nodeP.run () (x.dropWhile isSpace) = nodeP.run () x := by
  rw [nodeP, run_ws, dropWhile_idem, ← run_ws]

theorem tsFrom_read {m : Str × Option Str} {s rest : Str} (h : TsFrom m s) (hr : TsTail [c!"where", c!"by"] rest) :
    ∃ r, tsFrom.run () (s ++ rest) = some (r, m) ∧ r.dropWhile isSpace = rest.dropWhile isSpace := by
  cases h with
  | model hk hg hd h2 hm =>
    simp only [List.append_assoc, List.cons_append]
    rw [model_read hk hg hd h2 hm hr.after, opt_none (by rw [nodeP_dropped]; exact nodeP_none hr)]
    exact ⟨_, rfl, dropWhile_idem _⟩
  | @node k g d g₂ m g₃ w g₄ x n hk hg hd h2 hm h3 hw h4 hx hn =>
    simp only [List.append_assoc, List.cons_append]
    have hws := tsWord_stops (k := w) (by rw [hw]; decide)
    have hxs : ∀ u, Stops isSpace (x ++ u) := fun u => (keyword_head hx (by decide) (by decide) u).2.1
    have : nodeP.run () (g₃ ++ (w ++ (g₄ ++ (x ++ '=' :: (n ++ rest))))) = some (rest.dropWhile isSpace, n) := by
      rw [nodeP, run_ws, drop_gap h3 (hws _), run_pre, run_ws, drop_stops (hws _), tagi_read (by rw [hw]; decide), Option.map_some, Option.bind_some, drop_gap h4 (hxs _),
        run_ws, drop_stops (hxs _), run_pre, eqTag_read (by rw [hx]; decide), Option.bind_some, dotted_read hn hr.after, Option.map_some, Option.map_some, dropWhile_idem]
    rw [model_read hk hg hd h2 hm (gap_after h3), opt_some (by rw [nodeP_dropped]; exact this)]
    exact ⟨_, rfl, dropWhile_idem _⟩

/-! ### The clauses -/

/-- a clause and what follows it -/
def ClauseStep {α : Type} (kws kws' : List Str) (q : Str → PRes (Option α)) (m : Option α) (t u : Str) : Prop :=
  ∃ tl, u = t ++ tl ∧ (tl = [] ∧ m = none ∨ (∃ g v, Gap g ∧ tl = g ++ v) ∧ m.isSome = true) ∧ ∀ rest, TsTail kws rest →
    TsTail kws' (tl ++ rest) ∧ ∀ r, r.dropWhile isSpace = (tl ++ rest).dropWhile isSpace → ∃ r', q r = some (r', m) ∧ r'.dropWhile isSpace = rest.dropWhile isSpace

theorem TsTail.mono {kws kws' : List Str} (hk : ∀ w ∈ kws, w ∈ kws') {x : Str} (h : TsTail kws x) : TsTail kws' x := by
  cases h with
  | fin h => exact .fin h
  | clause h1 h2 h3 h4 h5 => exact .clause h1 (hk _ h2) h3 h4 h5

theorem wsOpt_none {g c : Bool} {α : Type} {p : G c α} {r : Str} (h : p.run fix (r.dropWhile isSpace) = none) :
    (ws (opt p) : G false (Option α)).run fix r = some (r.dropWhile isSpace, none) := by
  rw [run_ws, opt_none h, Option.map_some, dropWhile_idem]

theorem wsOpt_some {c : Bool} {α : Type} {p : G c α} {r u : Str} {a : α} (h : p.run fix (r.dropWhile isSpace) = some (u, a)) :
    (ws (opt p) : G false (Option α)).run fix r = some (u.dropWhile isSpace, some a) := by
  rw [run_ws, opt_some h, Option.map_some]

theorem from_step {m : Option (Str × Option Str)} {t u : Str} (h : ThenMaybe TsFrom m t u) :
    ClauseStep [c!"where", c!"by"] tsWords ((ws (opt (lift tsFrom)) : G false _).run fix) m t u := by
  cases h with
  | none =>
    refine ⟨[], by simp, .inl ⟨rfl, rfl⟩, fun rest hr => ⟨hr.mono (by decide), fun r hd => ⟨_, wsOpt_none (g := true) ?_, by rw [dropWhile_idem, hd]; rfl⟩⟩⟩
    rw [hd, List.nil_append, run_lift, tsFrom, run_pre, ws_end (by rw [dropWhile_idem]; exact hr.tag (by decide) (by decide) (by decide))]; rfl
  | @some a s g t hg hf =>
    refine ⟨g ++ s, rfl, .inr ⟨⟨g, s, hg, rfl⟩, rfl⟩, fun rest hr => ?_⟩
    obtain ⟨r', h1, h2⟩ := tsFrom_read hf hr
    have hs : ∃ k g₂ y, s ++ rest = k ++ (g₂ ++ y) ∧ lower k = c!"from" ∧ Gap g₂ ∧ Stops isSpace y := by
      cases hf with
      | @model k g d g₂ m hk hg hd h2 hm => exact ⟨k, g, d ++ '=' :: (g₂ ++ (m ++ rest)), by simp, hk, hg, (keyword_head hd (by decide) (by decide) _).2.1⟩
      | @node k g d g₂ m g₃ w g₄ x n hk hg hd h2 hm h3 hw h4 hx hn => exact ⟨k, g, _, by rw [List.append_assoc, List.append_assoc], hk, hg, by rw [List.append_assoc]; exact (keyword_head hd (by decide) (by decide) _).2.1⟩
    obtain ⟨k, g₂, y, e, hk, hg2, hy⟩ := hs
    rw [List.append_assoc, e]
    have hst := tsWord_stops (k := k) (by rw [hk]; decide) (g₂ ++ y)
    refine ⟨.clause hg (by rw [hk]; decide) hg2 hy (by rw [hk]; intro h; exact absurd h (by decide)), fun r hd => ⟨_, wsOpt_some (u := r') ?_, by rw [dropWhile_idem, h2]⟩⟩
    rw [hd, drop_gap hg hst, ← e, run_lift, h1]

theorem TsTail.orStop {x : Str} (h : TsTail [c!"by"] x) : OrStop x := by
  cases h with
  | fin h => exact h.orStop
  | clause hg hk h2 _ _ => exact orStop_by (by simpa using hk) hg h2

theorem where_step {m : Option Expr} {t u : Str} (h : ThenMaybe (Keyed c!"where" TsCond) m t u) :
    ClauseStep [c!"by"] [c!"where", c!"by"] ((ws (opt tsWhere) : G false _).run fix) m t u := by
  cases h with
  | none =>
    refine ⟨[], by simp, .inl ⟨rfl, rfl⟩, fun rest hr => ⟨hr.mono (by decide), fun r hd => ⟨_, wsOpt_none (g := true) ?_, by rw [dropWhile_idem, hd]; rfl⟩⟩⟩
    rw [hd, List.nil_append, tsWhere, run_pre, ws_end (by rw [dropWhile_idem]; exact hr.tag (by decide) (by decide) (by decide))]; rfl
  | @some a s g t hg hf =>
    refine ⟨g ++ s, rfl, .inr ⟨⟨g, s, hg, rfl⟩, rfl⟩, fun rest hr => ?_⟩
    obtain ⟨hk, hg2, hc, hn⟩ := hf
    rename_i k g₂ y
    have hst := tsWord_stops (k := k) (by rw [hk]; decide) (g₂ ++ (y ++ rest))
    have hys := condOr_stops hc
    have hys' : Stops isSpace (y ++ rest) := stops_append hys.2 hys.1
    simp only [List.append_assoc]
    refine ⟨.clause hg (by rw [hk]; decide) hg2 hys' (fun _ e => hn (take_word (kw := c!"nodename=") ?_ e).2), fun r hd => ⟨_, wsOpt_some (u := rest.dropWhile isSpace) ?_, by rw [dropWhile_idem, dropWhile_idem]⟩⟩
    · cases hr with
      | fin he => exact he.head (by decide)
      | clause hg => exact gap_stops (by decide) hg
    · rw [hd, drop_gap hg hst, tsWhere, run_pre, run_ws, drop_stops hst, tagi_read (by rw [hk]; decide), Option.map_some, Option.bind_some, drop_gap hg2 hys', run_ws, drop_stops hys', run_alt,
        condOr_good hc rest hr.orStop]
      rfl

theorem by_step {m : Option (List SpField)} {t u : Str} (h : ThenMaybe (Keyed c!"by" (Items byList ByField)) m t u) :
    ClauseStep [] [c!"by"] ((ws (opt (lift tsBy)) : G false _).run fix) (m.map fun fs => (some fs, none)) t u := by
  cases h with
  | none =>
    refine ⟨[], by simp, .inl ⟨rfl, rfl⟩, fun rest hr => ⟨hr.mono (by decide), fun r hd => ⟨_, wsOpt_none (g := true) ?_, by rw [dropWhile_idem, hd]; rfl⟩⟩⟩
    rw [hd, List.nil_append, run_lift, tsBy, run_pre, ws_end (by rw [dropWhile_idem]; exact hr.tag (by decide) (by decide) (by decide))]; rfl
  | @some a s g t hg hf =>
    refine ⟨g ++ s, rfl, .inr ⟨⟨g, s, hg, rfl⟩, rfl⟩, fun rest hr => ?_⟩
    obtain ⟨hk, hg2, hc⟩ := hf
    rename_i k g₂ y
    have he : End rest := by
      cases hr with
      | fin he => exact he
      | clause _ h => simp at h
    have hst := tsWord_stops (k := k) (by rw [hk]; decide) (g₂ ++ (y ++ rest))
    obtain ⟨hys, hread⟩ := spFields_read hc he
    simp only [List.append_assoc]
    refine ⟨.clause hg (by rw [hk]; decide) hg2 hys (by rw [hk]; intro h; exact absurd h (by decide)), fun r hd => ⟨_, wsOpt_some (u := rest) ?_, dropWhile_idem _⟩⟩
    rw [hd, drop_gap hg hst, run_lift, tsBy, run_pre, (byTag_read hk hg2 hys).2, Option.bind_some, run_alt, run_map, hread]
    rfl

/-! ### The command -/

theorem tstats_good {k : Str} (hk : lower k = c!"tstats") {os : List (Str × Constant)} {o : TStatsOpts} {b : Bool} {es : List Expr} {m : Option (Str × Option Str)} {w : Option Expr}
    {by_ : Option (List SpField)} {t u v x s : Str} (hi : TsItems b es t) (hm : ThenMaybe TsFrom m t u) (hw : ThenMaybe (Keyed c!"where" TsCond) w u v)
    (hb : ThenMaybe (Keyed c!"by" (Items byList ByField)) by_ v x) (h : OptsThen os x s) (ho : OptsOf os (.tstats o es (m.map Prod.fst) (m.bind Prod.snd) w by_ none)) :
    Staged k (b && m.isNone && w.isNone && by_.isNone) (.tstats o es (m.map Prod.fst) (m.bind Prod.snd) w by_ none) s := by
  obtain ⟨tl₁, rfl, f1, s1⟩ := from_step hm
  obtain ⟨tl₂, rfl, f2, s2⟩ := where_step hw
  obtain ⟨tl₃, rfl, f3, s3⟩ := by_step hb
  obtain ⟨z, zs, rfl, hz, hzs⟩ := tsItems_head hi
  have htail : ∀ rest, End rest → TsTail tsWords (tl₁ ++ (tl₂ ++ (tl₃ ++ rest))) := fun rest he => (s1 _ (s2 _ (s3 _ (.fin he)).1).1).1
  have ht : OptTail (z ++ zs ++ tl₁ ++ tl₂ ++ tl₃) := by
    simp only [List.append_assoc]
    refine ⟨lead_stops hz, fun rest he => ?_⟩
    simp only [List.append_assoc]
    exact word_notOpt hz (hzs _ ((htail rest he).ok (by simp)).1.noEq)
  refine stage 32 rfl (by decide) (by decide) (fun x => run_pre _ _ _ _) hk ⟨optsThen_stops h ht.stops, fun rest he hbf => ?_⟩
  obtain ⟨r, e1, e2, e3, e4⟩ := optsThen_read h ht he
  obtain rfl := e3 (by simp [hz.ne])
  have hok := (htail r he).ok (by simp)
  have hflag : b = true → AfterWord (tl₁ ++ (tl₂ ++ (tl₃ ++ r))) := by
    rintro rfl
    rcases f1 with ⟨rfl, rfl⟩ | ⟨⟨g, v, hg, rfl⟩, -⟩
    · rcases f2 with ⟨rfl, rfl⟩ | ⟨⟨g, v, hg, rfl⟩, -⟩
      · rcases f3 with ⟨rfl, f3⟩ | ⟨⟨g, v, hg, rfl⟩, -⟩
        · have : by_ = none := by simpa using f3
          subst this
          simpa using hbf rfl
        · simp only [List.nil_append, List.append_assoc]; exact afterWord_gap hg
      · simp only [List.nil_append, List.append_assoc]; exact afterWord_gap hg
    · simp only [List.append_assoc]; exact afterWord_gap hg
  obtain ⟨e, es', u, r₀, rfl, c1, c2, c3⟩ := tsItems_read hi hok.1 hok.2 hflag
  obtain ⟨r₁, d1, d2⟩ := (s1 _ (s2 _ (s3 _ (.fin he)).1).1).2 r₀ c2
  obtain ⟨r₂, d3, d4⟩ := (s2 _ (s3 _ (.fin he)).1).2 r₁ d2
  obtain ⟨r₃, d5, d6⟩ := (s3 _ (.fin he)).2 r₂ d4
  refine ⟨r₃, ?_, d6⟩
  obtain ⟨o1, o2, o3, o4, o5, o6, o7, o8⟩ := ho
  have hl : (lift (spaceList1 tsFunction) : G true (List Expr)).run fix (z ++ zs ++ tl₁ ++ tl₂ ++ tl₃ ++ r) = some (r₀, e :: es') := by
    have : (spaceList1 tsFunction : L true (List Expr)).run () (z ++ zs ++ (tl₁ ++ (tl₂ ++ (tl₃ ++ r)))) = some (r₀, e :: es') := by
      show (sepList1 ms1 tsFunction : L true (List Expr)).run () _ = _
      rw [run_sepList1, c1]
      have := c3 _ (Nat.le_refl _)
      simp only [Option.map_some, this]
    rw [run_lift, ← this]; simp only [List.append_assoc]
  rw [run_map, run_seq, e4]
  simp only [getBoolean_of o1, getBoolean_of o2, getBoolean_of o3, getBoolean_of o4, getBoolean_of o5, getBoolean_of o6, getInt_of o7, getStringOption_of o8]
  simp only [Option.bind_eq_bind, Option.bind_some, Option.pure_def, Option.map_some]
  rw [run_seq, hl, Option.bind_some, run_seq, d1, Option.bind_some, run_seq, d3, Option.bind_some, d5]
  cases by_ <;> rfl

end Verif
