import Verif.Props.Meaning
import Verif.Props.Dotted
import Verif.Props.Program
import Verif.Lemmas.Snap
import Verif.Lemmas.Ladder

/-! C97: arithmetic written without blanks. -/

namespace Verif.Props
open Verif Spl Spec Lemmas P Lex

/-- Arithmetic without blanks: names and numbers with `-`, `/` and `*` between and after them, beginning with a name
or a number. -/
structure Tight (w : Str) : Prop where
  head : ∃ c t, w = c :: t ∧ isNameChar c = true
  chars : ∀ c ∈ w, isNameChar c = true ∨ c = '-' ∨ c = '/' ∨ c = '*'
  op : ∃ c ∈ w, c = '-' ∨ c = '/' ∨ c = '*'

theorem Tight.extra {w : Str} (h : Tight w) : ∀ c ∈ w, isTokenChar c = true := fun c hc => by
  rcases h.chars c hc with h | rfl | rfl | rfl
  · exact nameChar_token h
  · decide
  · decide
  · decide

theorem Tight.lead {w : Str} (h : Tight w) : LeadWord w := by
  obtain ⟨c, t, e, _⟩ := h.head
  refine ⟨by rw [e]; simp, h.extra, ?_⟩
  obtain ⟨x, hx, hc⟩ := h.op
  refine reserved_chars hx ?_ ?_ <;> rcases hc with rfl | rfl | rfl <;> decide

theorem Tight.not {w : Str} (h : Tight w) {q : Char} (hq : isNameChar q = false) (hc : q ≠ '-' ∧ q ≠ '/' ∧ q ≠ '*') : q ∉ w := fun hm => by
  rcases h.chars q hm with h | h | h | h
  · rw [hq] at h; simp at h
  · exact hc.1 h
  · exact hc.2.1 h
  · exact hc.2.2 h

theorem Tight.notDigits {w ds m : Str} (h : Tight w) (e : w = ds ++ m) (hd : ∀ c ∈ ds, isDig c = true) :
    ∃ c ∈ m, c = '-' ∨ c = '/' ∨ c = '*' := by
  obtain ⟨x, hx, hc⟩ := h.op
  rw [e] at hx
  rcases List.mem_append.1 hx with h' | h'
  · have := hd x h'
    rcases hc with rfl | rfl | rfl <;> exact absurd this (by decide)
  · exact ⟨x, h', hc⟩

theorem Tight.noSign {w sgn : Str} {neg : Bool} {t : Str} (h : Tight w) (hs : Sgn sgn neg) (e : w = sgn ++ t) : sgn = [] := by
  obtain ⟨c, u, e', hc⟩ := h.head
  rw [e'] at e
  cases hs with
  | none => rfl
  | plus => simp only [List.cons_append, List.cons.injEq] at e; rw [e.1] at hc; revert hc; decide
  | minus => simp only [List.cons_append, List.cons.injEq] at e; rw [e.1] at hc; revert hc; decide

theorem tight_int {w : Str} (h : Tight w) : (allConsuming int).run () w = none := by
  cases hi : (allConsuming int).run () w with
  | none => rfl
  | some x =>
    obtain ⟨hi, hr⟩ := allConsuming_some.1 (show (allConsuming int).run () w = some (x.1, x.2) from hi)
    obtain ⟨sgn, neg, ds, hs, hd, _, _, e, _⟩ := int_some hi
    rw [hr, List.append_nil] at e
    have := h.noSign hs e
    subst this
    obtain ⟨c, hc, _⟩ := h.notDigits (m := []) (by rw [e]; simp) hd.dig
    simp at hc

theorem tight_double {w : Str} (h : Tight w) : (allConsuming double).run () w = none := by
  cases hi : (allConsuming double).run () w with
  | none => rfl
  | some x =>
    obtain ⟨hi, hr⟩ := allConsuming_some.1 (show (allConsuming double).run () w = some (x.1, x.2) from hi)
    obtain ⟨sgn, _, _, _, e⟩ := double_some hi
    exact absurd (show '.' ∈ w by rw [e]; simp) (h.not (by decide) (by decide))

theorem tight_span {w : Str} (h : Tight w) : (allConsuming timeSpan).run () w = none := by
  cases hi : (allConsuming timeSpan).run () w with
  | none => rfl
  | some x =>
    obtain ⟨hi, hr⟩ := allConsuming_some.1 (show (allConsuming timeSpan).run () w = some (x.1, x.2) from hi)
    obtain ⟨t, e, ht⟩ := Snap.span_text hi
    rw [hr, List.append_nil] at e
    subst e
    have key : ∀ {ds m s u : Str}, w = ds ++ m → (∀ c ∈ ds, isDig c = true) → (s, u) ∈ unitSpellings → lower m = s → False := by
      intro ds m s u e hd hu hm
      obtain ⟨c, hc, hq⟩ := h.notDigits e hd
      have hl : lowerC c ∈ s := by rw [← hm]; exact List.mem_map_of_mem hc
      have : ∀ x ∈ unitSpellings, '-' ∉ x.1 ∧ '/' ∉ x.1 ∧ '*' ∉ x.1 := by decide
      obtain ⟨h1, h2, h3⟩ := this _ hu
      rcases hq with rfl | rfl | rfl
      · exact h1 hl
      · exact h2 hl
      · exact h3 hl
    generalize x.2 = y at ht
    cases ht with
    | plain hd _ hu hm => exact (key rfl hd.digits hu hm).elim
    | plus hd _ hu hm => exact absurd (h.noSign .plus rfl) (by simp)
    | minus hd _ hu hm => exact absurd (h.noSign .minus rfl) (by simp)

/-- Arithmetic without blanks is one constant: a field, or a pattern if it has a star. -/
theorem constant_tight {w rest : Str} (h : Tight w) (hr : Stops isExtraChar rest) :
    constant.run () (w ++ rest) = some (rest, if '*' ∈ w then .wildcard w else .field w) := by
  have hl := h.lead
  have hx : ∀ c ∈ w, isExtraChar c = true := fun c hc => by simp [isExtraChar, hl.token c hc]
  have hn : ∀ {q : Char}, isNameChar q = false → ∀ c t, w = c :: t → c ≠ q := by
    intro q hq c t e
    obtain ⟨c', t', e', hc⟩ := h.head
    rw [e'] at e
    simp only [List.cons.injEq] at e
    rw [← e.1]; exact nameChar_ne hc hq
  have hsplit : w = w.takeWhile isDig ++ w.dropWhile isDig := List.takeWhile_append_dropWhile.symm
  have hd1 : ∀ c ∈ w.takeWhile isDig, isDig c = true := fun c hc => all_takeWhile _ _ c hc
  have hd2 : Stops isDig (w.dropWhile isDig) := stops_dropWhile _ _
  have hmem : ∀ c ∈ w.dropWhile isDig, c ∈ w := fun c hc => (List.dropWhile_sublist _).mem hc
  have hd3 : ∀ {q : Char}, q ∉ w → Stops (· == q) (w.dropWhile isDig) := fun {q} hq c t e => by
    have hc := hmem c (by rw [e]; simp)
    have : c ≠ q := fun e' => hq (e' ▸ hc)
    simpa using this
  have q1 : ipv4Addr.run () w = none := by
    rw [hsplit]; exact ipv4Addr_none hd1 hd2 (hd3 (h.not (by decide) (by decide)))
  have q2 : ipv6Addr.run () w = none := by
    rw [hsplit]; exact ipv6Addr_none hd1 hd2 (hd3 (h.not (by decide) (by decide)))
  have q3 : relativeTime.run () w = none := by
    rw [relativeTime, run_alt, run_delim, tag_none (hn (by decide)), Option.bind_none, Option.or_none]
    cases h' : relativeTimeFmt.run () w with
    | none => rfl
    | some x => exact absurd (at_needed h') (h.not (by decide) (by decide))
  have q6 := doubleQuoted_none (hn (q := '"') (by decide))
  have q8 := variable_none (hn (q := '$') (by decide))
  have hres := hl.res
  have q7 := run_tokenExtras (rest := []) hl.ne hx (Stops.nil _) hres
  rw [List.append_nil] at q7
  have hT : ∀ {v : Str}, (∀ c ∈ v, c ≠ '-' ∧ c ≠ '/' ∧ c ≠ '*') → w ≠ v := fun {v} hv e => by
    obtain ⟨c, hc, hq⟩ := h.op
    rw [e] at hc
    rcases hq with rfl | rfl | rfl
    · exact (hv _ hc).1 rfl
    · exact (hv _ hc).2.1 rfl
    · exact (hv _ hc).2.2 rfl
  have q10 : field.run () w = some ([], w) := by
    have := run_field (rest := []) hl.ne hl.token (Stops.nil _) (Stops.nil _) hres (hT (v := c!"t") (by decide)) (hT (v := c!"f") (by decide))
    rwa [List.append_nil] at this
  have hk : constantOf.run () w = some ([], if '*' ∈ w then .wildcard w else .field w) := by
    rw [constantOf]
    simp only [run_alt, run_map, allConsuming_none q1, allConsuming_none (ipv4Cidr_none q1), allConsuming_none q2,
      allConsuming_none q3, tight_span h, tight_int h, tight_double h, allConsuming_none q6, 
      allConsuming_none q8, Option.map_none, Option.none_or]
    by_cases hs : '*' ∈ w
    · have : wildcard.run () w = some ([], w) := by
        rw [wildcard, run_verify, run_alt, q6, Option.none_or, q7]
        simp [Option.filter, hs]
      rw [allConsuming_some.2 ⟨this, rfl⟩, if_pos hs]; rfl
    · have : wildcard.run () w = none := by
        rw [wildcard, run_verify, run_alt, q6, Option.none_or, q7]
        simp [Option.filter, hs]
      rw [allConsuming_none this, allConsuming_some.2 ⟨q10, rfl⟩, if_neg hs]; rfl
  rw [constant, reparse, run_filterMap, run_rawConstant hl.ne hx hr hres, Option.bind_some, hk]
  rfl

/-- the constant arithmetic without blanks is read as -/
def tightConst (w : Str) : Constant := if '*' ∈ w then .wildcard w else .field w

theorem tight_good {w : Str} (h : Tight w) : Good 9 (.const (tightConst w)) w := by
  have hl : ∀ b, Lead b w := fun b => by simpa using Lead.word (b := b) h.lead .nil .nil
  have h2 : Good 2 (.const (tightConst w)) w := by
    intro rest hr
    refine ⟨?_, by intro h; omega⟩
    have := constant_tight h hr.extra
    have := expr2_word (d := []) (w := w) (rest := rest) (v := tightConst w) (by simpa [tightConst] using this) h.lead .nil hr.after
      (fun c t e => by have := hr.head (f := (· == '(')) (by decide) c t e; simpa using this)
    rw [List.append_nil] at this
    exact this
  have up : ∀ n, 2 + n ≤ 9 → Good (2 + n) (.const (tightConst w)) w := by
    intro n
    induction n with
    | zero => intro _; exact h2
    | succ n ih => intro hn; exact good_up (k := 2 + n) (by omega) (by omega) (fun b _ _ => hl b) (ih (by omega))
  exact up 7 (by omega)

/-- How the text is read. -/
theorem tight_parse {n w : Str} (hn : IsName n) (ht : n ≠ c!"t") (hF : n ≠ c!"f") (h : Tight w) :
    parse (c!"eval " ++ (n ++ '=' :: w)) = some [.eval [(n, .const (tightConst w))]] := by
  have hl := h.lead
  obtain ⟨c, t, e, hc⟩ := hl.head
  have hs : Stops isSpace w := by rw [e]; exact Stops.cons (tokenChar_space hc)
  have he := (tight_good h [] .nil).1
  rw [List.append_nil] at he
  exact parse_one rfl (command_eval (eval_read hn ht hF hs he))

/-- Arithmetic with blanks around the operator is read as the operation and the program computes it, for operands that
are themselves written so (a product or quotient, or a sum or difference).  Without blanks only `+` is. -/
theorem C97_blanks_partial (x : Ext) {n op g₁ g₂ s₁ s₂ : Str} {k : Nat} {l r : Expr} (hn : IsName n) (ht : n ≠ c!"t") (hF : n ≠ c!"f")
    (ho : op = c!"*" ∨ op = c!"/" ∨ op = c!"+" ∨ op = c!"-") (hk : Op (k + 1) op) (h1 : Blanks g₁) (h2 : Blanks g₂)
    (hg : op = c!"+" ∨ g₁ ≠ [] ∧ g₂ ≠ []) (hl : Written k l s₁) (hr : Written (k + 1) r s₂)
    (fl : Frag .disallow l = true) (fr : Frag .disallow r = true) :
    parse (c!"eval " ++ (n ++ '=' :: (s₁ ++ g₁ ++ op ++ g₂ ++ s₂))) = some [.eval [(n, .binary l op r)]] ∧
    ∃ col, (parse (c!"eval " ++ (n ++ '=' :: (s₁ ++ g₁ ++ op ++ g₂ ++ s₂)))).bind (renderPipeline ⟨.disallow, x⟩) =
        some (c!"spark.table('main').withColumn('" ++ n ++ c!"', " ++ col ++ c!",)") ∧
      ∀ S row, textEval S row col = splEval S row (.binary l op r) := by
  have hw : Written (k + 1) (.binary l op r) (s₁ ++ g₁ ++ op ++ g₂ ++ s₂) :=
    .op hk h1 h2 (hg.imp (fun e => by rw [e]; decide) id) hl hr
  have h9 : Written 9 (.binary l op r) (s₁ ++ g₁ ++ op ++ g₂ ++ s₂) := by
    have hk' : k = 2 ∨ k = 3 := by
      rcases ho with rfl | rfl | rfl | rfl <;> cases hk <;> simp_all [lower]
    rcases hk' with rfl | rfl
    · exact .up (.up (.up (.up (.up (.up hw (by decide)) (by decide)) (by decide)) (by decide)) (by decide)) (by decide)
    · exact .up (.up (.up (.up (.up hw (by decide)) (by decide)) (by decide)) (by decide)) (by decide)
  have hf : Frag .disallow (.binary l op r) = true := by
    have hfo : FragOp op = true := by rcases ho with rfl | rfl | rfl | rfl <;> decide
    cases r with
    | const v => cases v <;> simp_all [Frag, FragConst]
    | _ => simp_all [Frag]
  exact ⟨C08_eval_partial hn ht hF h9, C21_eval_query_partial x hn ht hF h9 hf⟩

/-- Disagreement: without blanks, names and numbers with `-` and `/` between them are one field of that name, so the
program copies the column called `a-b` or `bytes/1024`. -/
theorem C97_minus_divide_fail (x : Ext) {n w : Str} (hn : IsName n) (ht : n ≠ c!"t") (hF : n ≠ c!"f") (h : Tight w) (hs : '*' ∉ w) :
    parse (c!"eval " ++ (n ++ '=' :: w)) = some [.eval [(n, .const (.field w))]] ∧
    (parse (c!"eval " ++ (n ++ '=' :: w))).bind (renderPipeline ⟨.disallow, x⟩) =
        some (c!"spark.table('main').withColumn('" ++ n ++ c!"', F.col('" ++ w ++ c!"'),)") ∧
      ∀ S row, textEval S row (c!"F.col('" ++ w ++ c!"')") = some (row w) := by
  have hp := tight_parse hn ht hF h
  rw [tightConst, if_neg hs] at hp
  have hpl : Plain '\'' w = true := by
    simp only [Plain, List.all_eq_true, Bool.and_eq_true, bne_iff_ne]
    intro c hc
    have ht := h.extra c hc
    exact ⟨⟨⟨tokenChar_ne ht (by decide), tokenChar_ne ht (by decide)⟩, tokenChar_ne ht (by decide)⟩, tokenChar_ne ht (by decide)⟩
  have hr : renderPipeline ⟨.disallow, x⟩ [.eval [(n, .const (.field w))]] =
      some (c!"spark.table('main').withColumn('" ++ n ++ c!"', " ++ (c!"F.col('" ++ w ++ c!"')") ++ c!",)") := by
    show some (c!"spark.table('main').withColumn('" ++ n ++ c!"', " ++ renderC (.named w) ++ c!",)") = _
    simp [renderC]
  obtain ⟨col, h1, h2⟩ := C21_eval_partial x n (.const (.field w)) (by simpa [Frag, FragConst] using hpl)
  rw [hr, Option.some.injEq] at h1
  have hc := List.append_cancel_left (List.append_cancel_right h1)
  refine ⟨hp, ?_, ?_⟩
  · rw [hp, Option.bind_some, hr]; simp
  · intro S row; rw [hc, h2]; rfl

/-- Disagreement: with a star between them they are a pattern, and the query is refused. -/
theorem C97_times_refused (c : Ctx) {n w : Str} (hn : IsName n) (ht : n ≠ c!"t") (hF : n ≠ c!"f") (h : Tight w) (hs : '*' ∈ w) :
    parse (c!"eval " ++ (n ++ '=' :: w)) = some [.eval [(n, .const (.wildcard w))]] ∧
    (parse (c!"eval " ++ (n ++ '=' :: w))).bind (renderPipeline c) = none := by
  have hp := tight_parse hn ht hF h
  rw [tightConst, if_pos hs] at hp
  refine ⟨hp, ?_⟩
  rw [hp, Option.bind_some]
  obtain ⟨m, x⟩ := c
  cases m <;> rfl

instance (w : Str) : Decidable (Tight w) :=
  decidable_of_iff ((w.head?.any isNameChar = true) ∧ (∀ c ∈ w, isNameChar c = true ∨ c = '-' ∨ c = '/' ∨ c = '*') ∧
      ∃ c ∈ w, c = '-' ∨ c = '/' ∨ c = '*')
    ⟨fun ⟨h1, h2, h3⟩ => ⟨by cases w with
        | nil => simp at h1
        | cons c t => exact ⟨c, t, rfl, by simpa using h1⟩, h2, h3⟩,
      fun h => ⟨by obtain ⟨c, t, rfl, hc⟩ := h.head; simpa using hc, h.chars, h.op⟩⟩

example : parse c!"eval kb=bytes + 1024 / n" =
    some [.eval [(c!"kb", .binary (.const (.field c!"bytes")) c!"+" (.binary (.const (.int 1024)) c!"/" (.const (.field c!"n"))))]] :=
  isParse_sound (by decide +kernel)

/-- both are met by the same operands: with blanks the quotient, without them a column -/
example : (∃ col, (parse c!"eval kb=bytes / 1024").bind (renderPipeline ⟨.disallow, Tests.ext⟩) =
      some (c!"spark.table('main').withColumn('kb', " ++ col ++ c!",)") ∧
      ∀ S row, textEval S row col = splEval S row (.binary (.const (.field c!"bytes")) c!"/" (.const (.int 1024)))) ∧
    (parse c!"eval kb=bytes/1024").bind (renderPipeline ⟨.disallow, Tests.ext⟩) =
      some c!"spark.table('main').withColumn('kb', F.col('bytes/1024'),)" :=
  ⟨(C97_blanks_partial Tests.ext (n := c!"kb") (op := c!"/") (g₁ := c!" ") (g₂ := c!" ") (s₁ := c!"bytes") (s₂ := c!"1024")
      (by decide) (by decide) (by decide) (by decide) .div (.inr gap1) (.inr gap1) (by decide)
      (w_name (k := 2) (by decide) (by decide) (by decide) (by decide) (by decide)) (.up (.value (.int (n := 1024) ⟨by decide, by decide⟩)) (by decide))
      (by decide) (by decide)).2,
    (C97_minus_divide_fail Tests.ext (n := c!"kb") (w := c!"bytes/1024") (by decide) (by decide) (by decide) (by decide) (by decide)).2.1⟩

example : (parse c!"eval bits=bytes*8").bind (renderPipeline ⟨.allow, Tests.ext⟩) = none :=
  (C97_times_refused ⟨.allow, Tests.ext⟩ (n := c!"bits") (w := c!"bytes*8") (by decide) (by decide) (by decide) (by decide) (by decide)).2

/-- Two whole numbers: `7-2` is the column of that name, null in rows without one, not a difference. -/
theorem C97_numbers (S : Sem) (row : Event) (h : row c!"7-2" = .null) :
    (parse c!"eval x=7-2").bind (renderPipeline ⟨.disallow, Tests.ext⟩) = some c!"spark.table('main').withColumn('x', F.col('7-2'),)" ∧
    textEval S row c!"F.col('7-2')" = some .null ∧
    splEval S row (.binary (.const (.int 7)) c!"-" (.const (.int 2))) = some (S.arith .sub (.num 7) (.num 2)) := by
  have := C97_minus_divide_fail Tests.ext (n := c!"x") (w := c!"7-2") (by decide) (by decide) (by decide) (by decide) (by decide)
  exact ⟨this.2.1, by rw [← h]; exact this.2.2 S row, rfl⟩

/-- Where such texts stand inside a call, and where a call follows the operator: the name of the function takes it in. -/
theorem C97_forms :
    outOf .disallow c!"eval x=round(a/b,2)" = some c!"spark.table('main').withColumn('x', F.round(F.col('a/b'), 2),)" ∧
    outOf .disallow c!"eval x=a-len(b)" = some c!"spark.table('main').withColumn('x', F.a-len(F.col('b')),)" ∧
    outOf .disallow c!"eval x=a- b" = none ∧
    outOf .disallow c!"eval x=a -b" = some c!"spark.table('main').withColumn('x', F.col('a') - F.col('b'),)" ∧
    outOf .disallow c!"eval x=len(a)-1" = some c!"spark.table('main').withColumn('x', F.length(F.col('a')) - F.lit(1),)" ∧
    outOf .disallow c!"where a-b>3" = some c!"spark.table('main').where((F.col('a-b') > F.lit(3)),)" := by
  decide +kernel

end Verif.Props
