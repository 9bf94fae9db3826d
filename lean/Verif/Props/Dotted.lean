import Verif.Props.Meaning
import Verif.Lemmas.Dotted
/-
C70: decimal numbers and network addresses.
-/
namespace Verif
open P Lex Spl Spec Lemmas Props

/-- the sign of a decimal number as it is written in a query -/
def minus (neg : Bool) : Str := if neg then c!"-" else []

/-- Decimal numbers are read exactly, wherever constants and search values are read. -/
theorem C70_decimal (neg : Bool) {w f rest : Str} (hw : IsDigits w) (hf : IsDigits f) (hr : Stops isExtraChar rest) :
    constant.run () (minus neg ++ (w ++ '.' :: f) ++ rest) = some (rest, .double ⟨neg, w, f⟩) ∧
    literal.run () (minus neg ++ (w ++ '.' :: f) ++ rest) = some (rest, .double ⟨neg, w, f⟩) :=
  ⟨constant_dotted (.decimal neg hw hf) hr, literal_dotted (.decimal neg hw hf) hr⟩

example : constant.run () c!"-007.50 + b" = some (c!" + b", .double ⟨true, c!"007", c!"50"⟩) :=
  (C70_decimal true (w := c!"007") (f := c!"50") ⟨by decide, by decide⟩ ⟨by decide, by decide⟩ (Stops.cons (by decide))).1

/-- Addresses and networks are read whole, as texts and as networks. -/
theorem C70_address {a b rest : Str} (ha : Address a) (hb : IsByte b) (hr : Stops isExtraChar rest) :
    constant.run () (a ++ rest) = some (rest, .str a) ∧ literal.run () (a ++ rest) = some (rest, .str a) ∧
    constant.run () (a ++ '/' :: b ++ rest) = some (rest, .ipv4cidr (a ++ '/' :: b)) ∧
    literal.run () (a ++ '/' :: b ++ rest) = some (rest, .ipv4cidr (a ++ '/' :: b)) :=
  ⟨constant_dotted (.address ha) hr, literal_dotted (.address ha) hr, constant_dotted (.network ha hb) hr,
    literal_dotted (.network ha hb) hr⟩

theorem byte_of (b : Str) (h : b ≠ [] ∧ (∀ c ∈ b, isDig c = true) ∧ b.length ≤ 3) : IsByte b := ⟨⟨h.1, h.2.1⟩, h.2.2⟩

theorem ten : Address c!"10.0.0.0" :=
  .mk (a := c!"10") (b := c!"0") (c := c!"0") (d := c!"0") (byte_of _ (by decide)) (byte_of _ (by decide)) (byte_of _ (by decide)) (byte_of _ (by decide))

example : constant.run () c!"10.0.0.0/8)" = some (c!")", .ipv4cidr c!"10.0.0.0/8") :=
  (C70_address ten (b := c!"8") (byte_of _ (by decide)) (Stops.cons (by decide))).2.2.1

/-! ### the converse -/

theorem double_some {i r : Str} {d : Dbl} (h : double.run () i = some (r, d)) :
    ∃ sgn, Sgn sgn d.neg ∧ IsDigits d.whole ∧ IsDigits d.frac ∧ i = sgn ++ (d.whole ++ '.' :: (d.frac ++ r)) := by
  rw [double, run_map, run_seq] at h
  obtain ⟨⟨r1, o, m⟩, h1, h2⟩ := Option.map_eq_some_iff.1 h
  simp only [Prod.mk.injEq] at h2
  obtain ⟨⟨r0, o'⟩, h3, h4⟩ := Option.bind_eq_some_iff.1 h1
  obtain ⟨⟨r2, w, f⟩, h5, h6⟩ := Option.map_eq_some_iff.1 h4
  simp only [Prod.mk.injEq] at h6
  obtain ⟨rfl, rfl, rfl⟩ := h6
  rw [run_sepPair] at h5
  obtain ⟨⟨ra, w'⟩, ha, h7⟩ := Option.bind_eq_some_iff.1 h5
  obtain ⟨⟨rb, x⟩, hb, h8⟩ := Option.bind_eq_some_iff.1 h7
  obtain ⟨⟨rc, f'⟩, hc, hd⟩ := Option.map_eq_some_iff.1 h8
  simp only [Prod.mk.injEq] at hd
  obtain ⟨rfl, rfl, rfl⟩ := hd
  obtain ⟨rfl, hne, hdig, _⟩ := takeWhile1_some ha
  obtain ⟨rfl, hne', hdig', _⟩ := takeWhile1_some hc
  rw [run_tag] at hb
  obtain ⟨y, hy, e⟩ := Option.map_eq_some_iff.1 hb
  simp only [Prod.mk.injEq] at e
  obtain ⟨rfl, rfl⟩ := e
  rw [stripPrefix?_some] at hy
  replace hy : ra = _ := hy
  obtain ⟨rfl, rfl⟩ := h2
  rw [sign, run_opt, run_alt] at h3
  simp only [Option.some.injEq] at h3
  rcases hp : (tag! "+" : L true Str).run () i with _ | ⟨rp, sp⟩
  · rcases hm : (tag! "-" : L true Str).run () i with _ | ⟨rm, sm⟩
    · rw [hp, hm] at h3
      simp only [Option.or_none, Option.elim_none, Prod.mk.injEq] at h3
      obtain ⟨rfl, rfl⟩ := h3
      exact ⟨[], .none, ⟨hne, hdig⟩, ⟨hne', hdig'⟩, by rw [hy]; rfl⟩
    · rw [hp, hm] at h3
      simp only [Option.none_or, Option.elim_some, Prod.mk.injEq] at h3
      obtain ⟨rfl, rfl⟩ := h3
      rw [run_tag] at hm
      obtain ⟨y, hy', e⟩ := Option.map_eq_some_iff.1 hm
      simp only [Prod.mk.injEq] at e
      obtain ⟨rfl, rfl⟩ := e
      rw [stripPrefix?_some] at hy'
      exact ⟨c!"-", .minus, ⟨hne, hdig⟩, ⟨hne', hdig'⟩, by rw [hy', hy]; rfl⟩
  · rw [hp] at h3
    simp only [Option.some_or, Option.elim_some, Prod.mk.injEq] at h3
    obtain ⟨rfl, rfl⟩ := h3
    rw [run_tag] at hp
    obtain ⟨y, hy', e⟩ := Option.map_eq_some_iff.1 hp
    simp only [Prod.mk.injEq] at e
    obtain ⟨rfl, rfl⟩ := e
    rw [stripPrefix?_some] at hy'
    exact ⟨c!"+", .plus, ⟨hne, hdig⟩, ⟨hne', hdig'⟩, by rw [hy', hy]; rfl⟩

theorem raw_plus (u : Str) : rawConstant.run () ('+' :: u) = none := rfl

theorem double_text {i r w : Str} {d : Dbl} {r' : Str} (hw : rawConstant.run () i = some (r, w))
    (h : (allConsuming double).run () w = some (r', d)) :
    IsDigits d.whole ∧ IsDigits d.frac ∧ i = minus d.neg ++ (d.whole ++ '.' :: d.frac) ++ r := by
  have hi := (recognize_some.1 hw).2
  obtain ⟨h, rfl⟩ := allConsuming_some.1 h
  obtain ⟨sgn, hs, h1, h2, e⟩ := double_some h
  refine ⟨h1, h2, ?_⟩
  generalize d.neg = neg at hs
  cases hs with
  | none => rw [hi, e]; simp [minus]
  | minus => rw [hi, e]; simp [minus]
  | plus =>
    rw [hi, e, show c!"+" = ['+'] from rfl, List.cons_append, List.cons_append, raw_plus] at hw
    cases hw

/-- Whatever is read as a decimal number is written as one: digits on both sides of the point, and in front
nothing or a minus. -/
theorem C70_only_decimals {i r : Str} {d : Dbl}
    (h : constant.run () i = some (r, .double d) ∨ literal.run () i = some (r, .double d)) :
    IsDigits d.whole ∧ IsDigits d.frac ∧ i = minus d.neg ++ (d.whole ++ '.' :: d.frac) ++ r := by
  rcases h with h | h
  · rw [constant, reparse, run_filterMap] at h
    obtain ⟨⟨r0, w⟩, hw, h1⟩ := Option.bind_eq_some_iff.1 h
    obtain ⟨k, h2, h3⟩ := Option.map_eq_some_iff.1 h1
    simp only [Prod.mk.injEq] at h3
    obtain ⟨rfl, rfl⟩ := h3
    obtain ⟨⟨r1, k⟩, h4, rfl⟩ := Option.map_eq_some_iff.1 h2
    simp only [constantOf, run_alt, run_map, Option.or_eq_some_iff, Option.map_eq_some_iff, Option.map_eq_none_iff,
      Prod.mk.injEq, reduceCtorEq, and_false, false_or, exists_false] at h4
    simp only [Constant.double.injEq, or_false] at h4
    obtain ⟨_, _, _, _, _, _, _, _, ⟨x, hx, _, hn⟩⟩ := h4
    exact double_text (r' := x.1) hw (by rw [hx, ← hn])
  · rw [literal, reparse, run_filterMap] at h
    obtain ⟨⟨r0, w⟩, hw, h1⟩ := Option.bind_eq_some_iff.1 h
    obtain ⟨k, h2, h3⟩ := Option.map_eq_some_iff.1 h1
    simp only [Prod.mk.injEq] at h3
    obtain ⟨rfl, rfl⟩ := h3
    obtain ⟨⟨r1, k⟩, h4, rfl⟩ := Option.map_eq_some_iff.1 h2
    simp only [literalOf, run_alt, run_map, Option.or_eq_some_iff, Option.map_eq_some_iff, Option.map_eq_none_iff,
      Prod.mk.injEq, reduceCtorEq, and_false, false_or, exists_false] at h4
    simp only [Constant.double.injEq, or_false] at h4
    obtain ⟨_, _, _, _, _, _, _, _, ⟨x, hx, _, hn⟩⟩ := h4
    exact double_text (r' := x.1) hw (by rw [hx, ← hn])

/-! ### whole queries -/

/-- `eval f=-1.5`: the new column has exactly the value written, whatever the row. -/
theorem C70_eval (x : Ext) {n w f : Str} (neg : Bool) (hn : IsName n) (ht : n ≠ c!"t") (hF : n ≠ c!"f") (hw : IsDigits w) (hf : IsDigits f) :
    ∃ col, (parse (c!"eval " ++ (n ++ '=' :: (minus neg ++ (w ++ '.' :: f))))).bind (renderPipeline ⟨.disallow, x⟩) =
        some (c!"spark.table('main').withColumn('" ++ n ++ c!"', " ++ col ++ c!",)") ∧
      ∀ S row, textEval S row col =
        some (.num ((if neg then -1 else 1) * mkRat (digitsVal (w ++ f)) (10 ^ f.length))) := by
  have h9 : Written 9 (.const (.double ⟨neg, w, f⟩)) (minus neg ++ (w ++ '.' :: f)) :=
    .up (.up (.up (.up (.up (.up (.up (.value (.dotted (.decimal neg hw hf))) (by decide)) (by decide)) (by decide)) (by decide)) (by decide)) (by decide)) (by decide)
  have hfr : Frag .disallow (.const (.double ⟨neg, w, f⟩)) = true := by
    have h1 : w.all isDig = true := by simpa using hw.digits
    have h2 : f.all isDig = true := by simpa using hf.digits
    have h3 : (w != []) = true := by simpa using hw.ne
    simp only [Frag, FragConst, NumeralOk, h1, h2, h3]; rfl
  obtain ⟨col, h1, h2⟩ := C21_eval_query_partial x hn ht hF h9 hfr
  refine ⟨col, h1, fun S row => ?_⟩
  rw [h2 S row]
  simp only [splEval, constVal, dblVal, numVal]
  cases neg
  · simp [Rat.one_mul]
  · simp [Rat.neg_mul, Rat.one_mul]

example : ∃ col, (parse c!"eval x=-1.50").bind (renderPipeline ⟨.disallow, Tests.ext⟩) =
        some (c!"spark.table('main').withColumn('x', " ++ col ++ c!",)") ∧
      ∀ S row, textEval S row col = some (.num (-1 * mkRat 150 (10 ^ 2))) :=
  C70_eval Tests.ext (n := c!"x") (w := c!"1") (f := c!"50") true ⟨by decide, by decide, by simp; decide, by decide⟩ (by decide) (by decide) ⟨by decide, by decide⟩ ⟨by decide, by decide⟩

/-- A condition that a field equals a network becomes Spark's test that the address is in the network. -/
theorem C70_network (x : Ext) {f op a b : Str} (hf : CondName f) (ho : op = c!"=" ∨ op = c!"==") (ha : Address a) (hb : IsByte b) :
    (parse (c!"where " ++ (f ++ (op ++ (a ++ '/' :: b))))).bind (renderPipeline ⟨.disallow, x⟩) =
      some (c!"spark.table('main').where(F.expr(\"cidr_match('" ++ (a ++ '/' :: b) ++ c!"', " ++ f ++ c!")\"),)") := by
  have hop : Op 6 op := by exact ho.elim (fun h => h ▸ .eq) (fun h => h ▸ .eq2)
  have hc : CondOr (.binary (.const (.field f)) op (.const (.ipv4cidr (a ++ '/' :: b)))) (f ++ (op ++ (a ++ '/' :: b))) :=
    .mk (es := []) (.single (es := []) (.one (.cmp (g₁ := []) (g₂ := []) hf hop (.inl rfl) (.inl rfl) (.lit (.dotted (.network ha hb))))))
  rw [C08_where_partial hc, Option.bind_some]
  have hm : mapOp op = c!"==" := by rcases ho with rfl | rfl <;> decide
  simp only [renderPipeline, runCmds, transform, dispatch, whereTr, exprTr, binTr, hm, if_true, Option.map_some]
  show some (c!"spark.table('main').where(" ++ renderE (.fn c!"expr" [pyStr (c!"cidr_match('" ++ (a ++ '/' :: b) ++ c!"', " ++ f ++ c!")")]) ++ c!",)") = _
  simp [renderE, pyStr, renderArgs, joinWith]

example : (parse c!"where src.ip=10.0.0.0/8").bind (renderPipeline ⟨.disallow, Tests.ext⟩) =
      some c!"spark.table('main').where(F.expr(\"cidr_match('10.0.0.0/8', src.ip)\"),)" :=
  C70_network Tests.ext (f := c!"src.ip") (op := c!"=") (b := c!"8")
    ⟨.dot (w := c!"src") (p := c!"ip") ⟨by decide, by decide, by decide⟩ (.one ⟨by decide, by decide, by decide⟩), by decide, by decide⟩
    (.inl rfl) ten (byte_of _ (by decide))

/-- What is not read as a number: a plus sign and missing digits are errors, and exponents make a number a
field name. -/
theorem C70_not_numbers :
    parse c!"eval x=+1.5" = none ∧ parse c!"eval x=.5" = none ∧ parse c!"eval x=5." = none ∧
    parse c!"eval x=1e3" = some [.eval [(c!"x", .const (.field c!"1e3"))]] ∧
    parse c!"eval x=1.5e3" = some [.eval [(c!"x", .const (.field c!"1.5e3"))]] :=
  ⟨Option.isNone_iff_eq_none.1 (by decide +kernel), Option.isNone_iff_eq_none.1 (by decide +kernel), Option.isNone_iff_eq_none.1 (by decide +kernel), isParse_sound (by decide +kernel), isParse_sound (by decide +kernel)⟩

/-- Disagreement: only `=` tests membership of a network; `!=` and lists compare with the text of the network. -/
theorem C70_network_unequal :
    (parse c!"where src=10.0.0.0/8").bind (renderPipeline ⟨.disallow, Tests.ext⟩) =
      some c!"spark.table('main').where(F.expr(\"cidr_match('10.0.0.0/8', src)\"),)" ∧
    (parse c!"where src!=10.0.0.0/8").bind (renderPipeline ⟨.disallow, Tests.ext⟩) =
      some c!"spark.table('main').where((F.col('src') != F.lit('10.0.0.0/8')),)" :=
  ⟨by decide +kernel, by decide +kernel⟩

/-- Disagreement: numbers above 255 are taken for parts of addresses. -/
theorem C70_address_range :
    parse c!"search src=300.1.1.999" = some [.search (.binary (.const (.field c!"src")) c!"=" (.const (.str c!"300.1.1.999")))] :=
  isParse_sound (by decide +kernel)

end Verif
