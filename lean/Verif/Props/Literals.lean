import Verif.Lemmas.Text
import Verif.Lemmas.Lexers
import Verif.Lemmas.Shape
import Verif.Spec.Values
import Verif.Props.Segments
/-
C05, C07, C47: integers, reserved words and time spans as the lexer reads them.
-/
namespace Verif
open P Lex Spl Spec Lemmas

/-! ### C05 -/

theorem digits_notReserved {sgn : Str} {neg : Bool} (hs : Sgn sgn neg) {ds u : Str} (hd : Digits ds) :
    notReserved (sgn ++ (ds ++ u)) = true := by
  obtain ⟨d, t, rfl, hd0⟩ := hd.head
  have hres : ∀ w ∈ reserved, ∀ c s, w = c :: s → isDig c = false ∧ c ≠ '+' ∧ c ≠ '-' := by
    intro w hw c s e
    have hall : ∀ w ∈ reserved, (w.head?.elim true fun c => !isDig c && (c != '+' && c != '-')) = true := by decide
    have := hall w hw
    rw [e] at this
    simp at this
    exact ⟨this.1, this.2.1, this.2.2⟩
  simp only [notReserved, Bool.not_eq_true', List.contains_eq_mem, decide_eq_false_iff_not]
  intro hmem
  have hu : upperC d = d := dig_all (f := fun d => upperC d = d) (by decide) hd0
  cases hs with
  | none =>
    have := hres _ hmem (upperC d) (upper (t ++ u)) rfl
    rw [hu, hd0] at this
    simp at this
  | plus =>
    have := hres _ hmem '+' (upper (d :: t ++ u)) rfl
    simp at this
  | minus =>
    have := hres _ hmem '-' (upper (d :: t ++ u)) rfl
    simp at this

/-- the first character of a number that can be a constant -/
theorem number_head {sgn : Str} {neg : Bool} (hs : Sgn sgn neg) (hp : sgn ≠ c!"+") {ds u : Str} (hd : Digits ds) :
    ∃ c t, sgn ++ (ds ++ u) = c :: t ∧ (isDig c = true ∨ c = '-') := by
  obtain ⟨d, t, rfl, hd0⟩ := hd.head
  cases hs with
  | none => exact ⟨d, t ++ u, rfl, .inl hd0⟩
  | plus => exact absurd rfl hp
  | minus => exact ⟨'-', _, rfl, .inr rfl⟩

theorem number_head_ne {sgn : Str} {neg : Bool} (hs : Sgn sgn neg) (hp : sgn ≠ c!"+") {ds u : Str} (hd : Digits ds)
    {x : Char} (h1 : isDig x = false) (h2 : x ≠ '-') : ∀ c t, sgn ++ (ds ++ u) = c :: t → c ≠ x := by
  obtain ⟨c, t, h, hc⟩ := number_head hs hp hd (u := u)
  intro c' t' e
  rw [h] at e
  simp only [List.cons.injEq] at e
  rw [← e.1]
  rcases hc with hc | rfl
  · exact dig_ne hc h1
  · exact h2.symm

theorem number_ipv4_none {sgn : Str} {neg : Bool} (hs : Sgn sgn neg) (hp : sgn ≠ c!"+") {ds u : Str} (hd : Digits ds)
    (hu : Stops isDig u) (hdot : Stops (· == '.') u) : ipv4Addr.run () (sgn ++ (ds ++ u)) = none := by
  cases hs with
  | none => exact ipv4Addr_none (ds := ds) hd.dig hu hdot
  | plus => exact absurd rfl hp
  | minus => exact ipv4Addr_none (ds := []) (by simp) (Stops.cons (by decide)) (Stops.cons (by decide))

theorem number_ipv6_none {sgn : Str} {neg : Bool} (hs : Sgn sgn neg) (hp : sgn ≠ c!"+") {ds u : Str} (hd : Digits ds)
    (hu : Stops isDig u) (hcol : Stops (· == ':') u) : ipv6Addr.run () (sgn ++ (ds ++ u)) = none := by
  cases hs with
  | none => exact ipv6Addr_none (ds := ds) hd.dig hu hcol
  | plus => exact absurd rfl hp
  | minus => exact ipv6Addr_none (ds := []) (by simp) (Stops.cons (by decide)) (Stops.cons (by decide))

theorem dig_unitStart {d : Char} (h : isDig d = true) : unitStart d = false :=
  dig_all (f := fun d => unitStart d = false) (by decide) h

theorem timeSpanOne_number_none {sgn : Str} {neg : Bool} (hs : Sgn sgn neg) {ds u : Str} (hd : Digits ds) :
    timeSpanOne.run () (sgn ++ (ds ++ u)) = none := by
  obtain ⟨d, t, rfl, hd0⟩ := hd.head
  have hunit : timeUnit.run () (d :: t ++ u) = none := timeUnit_none fun c s e => by
    simp only [List.cons_append, List.cons.injEq] at e
    rw [← e.1]; exact dig_unitStart hd0
  rw [timeSpanOne, run_map, run_seq, run_opt]
  cases hs with
  | none =>
    rw [List.nil_append, List.cons_append, tag_ne (dig_ne hd0 (by decide)), Option.elim_none, Option.bind_some]
    rw [List.cons_append] at hunit
    rw [hunit]; rfl
  | plus =>
    have : timeUnit.run () (c!"+" ++ (d :: t ++ u)) = none := timeUnit_none fun c s e => by
      simp only [List.cons_append, List.nil_append, List.cons.injEq] at e
      rw [← e.1]; decide
    rw [List.singleton_append, tag_ne (by decide), Option.elim_none, Option.bind_some]
    rw [List.singleton_append] at this
    rw [this]; rfl
  | minus =>
    rw [List.singleton_append, tag_same, Option.elim_some, Option.bind_some, hunit]; rfl

/-- a number alone -/
theorem timeSpan_number_none {sgn : Str} {neg : Bool} (hs : Sgn sgn neg) {ds : Str} (hd : Digits ds) :
    timeSpan.run () (sgn ++ (ds ++ [])) = none := by
  rw [timeSpan, run_map, run_seq, run_int hs hd (Stops.nil _)]
  split <;> rfl

theorem relativeTime_none {i : Str} (h1 : timeSpan.run () i = none) (h2 : timeSpanOne.run () i = none)
    (h3 : ∀ c t, i = c :: t → c ≠ '@') (h4 : ∀ c t, i = c :: t → c ≠ '"') : relativeTime.run () i = none := by
  rw [relativeTime, run_alt, run_delim, tag_none h4, Option.bind_none, Option.or_none, relativeTimeFmt, run_map,
    run_seq, run_opt, run_alt, h1, h2, Option.or_none, Option.elim_none, Option.bind_some, run_seq, tag_none h3]
  rfl

/-- what follows a number that ends a constant -/
theorem run_rawConstant {w rest : Str} (hne : w ≠ []) (hw : ∀ c ∈ w, isExtraChar c = true)
    (hr : Stops isExtraChar rest) (hres : notReserved w = true) : rawConstant.run () (w ++ rest) = some (rest, w) := by
  have hq : ∀ q : Char, isExtraChar q = false → ∀ c t, w ++ rest = c :: t → c ≠ q := by
    intro q hq c t e
    obtain ⟨x, xs, rfl⟩ := List.exists_cons_of_ne_nil hne
    simp only [List.cons_append, List.cons.injEq] at e
    rintro rfl
    have := hw x (by simp)
    rw [e.1, hq] at this
    simp at this
  rw [rawConstant, recognize_some]
  refine ⟨⟨w, ?_⟩, rfl⟩
  rw [run_alt, run_alt, doubleQuoted_none (hq '"' (by decide)), singleQuoted_none (hq '\'' (by decide)),
    run_tokenExtras hne hw hr hres]
  rfl

theorem dig_extra {d : Char} (h : isDig d = true) : isExtraChar d = true := by
  simp [isExtraChar, dig_token h]

theorem number_extra {sgn : Str} {neg : Bool} (hs : Sgn sgn neg) (hp : sgn ≠ c!"+") {ds : Str} (hd : Digits ds) :
    ∀ c ∈ sgn ++ (ds ++ []), isExtraChar c = true := by
  intro c hc
  rcases List.mem_append.1 hc with hc | hc
  · cases hs with
    | none => simp at hc
    | plus => exact absurd rfl hp
    | minus => simp at hc; subst hc; decide
  · rw [List.append_nil] at hc; exact dig_extra (hd.dig c hc)

theorem double_number_none {sgn : Str} {neg : Bool} (hs : Sgn sgn neg) {ds u : Str} (hd : Digits ds)
    (hu : Stops isDig u) (hdot : Stops (· == '.') u) : double.run () (sgn ++ (ds ++ u)) = none := by
  obtain ⟨o, ho, _⟩ := run_sign hs hd (rest := u)
  have htag : (tag! "." : L true Str).run () u = none :=
    tag_none fun c s e => by have := hdot c s e; simpa using this
  rw [double, run_map, run_seq, ho, Option.bind_some, run_sepPair, run_digit1 hd hu, Option.bind_some, htag]
  rfl

theorem constantOf_number {sgn : Str} {neg : Bool} (hs : Sgn sgn neg) (hp : sgn ≠ c!"+") {ds : Str} (hd : Digits ds) :
    (constantOf.run () (sgn ++ (ds ++ []))).map Prod.snd =
      some (if digitsVal ds < 2 ^ 63 then .int (withSign neg (digitsVal ds)) else .field (sgn ++ ds)) := by
  have hn := Stops.nil
  have q1 := number_ipv4_none hs hp hd (hn isDig) (hn _)
  have q2 := number_ipv6_none hs hp hd (hn isDig) (hn _)
  have q3 := timeSpan_number_none hs hd
  have q4 := relativeTime_none q3 (timeSpanOne_number_none hs hd)
    (number_head_ne hs hp hd (by decide) (by decide)) (number_head_ne hs hp hd (by decide) (by decide))
  have hne : sgn ++ (ds ++ []) ≠ [] := by
    obtain ⟨d, t, rfl, _⟩ := hd.head; simp
  have hdq := doubleQuoted_none (number_head_ne hs hp hd (u := []) (x := '"') (by decide) (by decide))
  have hvar := variable_none (number_head_ne hs hp hd (u := []) (x := '$') (by decide) (by decide))
  have hstar : (sgn ++ (ds ++ [])).contains '*' = false := by
    rw [List.contains_eq_mem, decide_eq_false_iff_not]
    intro hm
    rcases List.mem_append.1 hm with hm | hm
    · cases hs <;> simp at hm
    · rw [List.append_nil] at hm
      have := hd.dig _ hm
      simp [isDig] at this
  have hwild : wildcard.run () (sgn ++ (ds ++ [])) = none := by
    have ht := run_tokenExtras hne (number_extra hs hp hd) (hn _) (digits_notReserved hs hd)
    rw [List.append_nil (sgn ++ (ds ++ []))] at ht
    rw [wildcard, run_verify, run_alt, hdq, Option.none_or, ht, Option.filter, if_neg]
    rw [hstar]; simp
  have hdbl := double_number_none hs hd (hn isDig) (hn _)
  simp only [constantOf, run_alt, run_map, allConsuming_none q1, allConsuming_none (ipv4Cidr_none q1),
    allConsuming_none q2, allConsuming_none q3, allConsuming_none q4, allConsuming_none hwild,
    allConsuming_none hdq, allConsuming_none hvar, allConsuming_none hdbl, Option.map_none, Option.none_or]
  rw [run_allConsuming, run_int hs hd (hn _)]
  by_cases hv : digitsVal ds < 2 ^ 63
  · simp [hv, Option.filter]
  · have htok : ∀ c ∈ sgn ++ ds, isTokenChar c = true := by
      intro c hc
      rcases List.mem_append.1 hc with hc | hc
      · cases hs with
        | none => simp at hc
        | plus => exact absurd rfl hp
        | minus => simp at hc; subst hc; decide
      · exact dig_token (hd.dig c hc)
    have hres : notReserved (sgn ++ ds) = true := by
      have := digits_notReserved hs hd (u := []); rwa [List.append_nil] at this
    have hlong : ∀ c : Char, isDig c = false → sgn ++ ds ≠ [c] := by
      intro c hc e
      obtain ⟨d, t, rfl, hd0⟩ := hd.head
      cases hs with
      | none =>
        simp only [List.nil_append, List.cons.injEq] at e
        rw [e.1] at hd0; rw [hd0] at hc; simp at hc
      | plus => exact absurd rfl hp
      | minus => simp at e
    have hf := run_field (rest := []) (w := sgn ++ ds) (by rwa [List.append_nil] at hne) htok (hn _) (hn _) hres
      (hlong 't' (by decide)) (hlong 'f' (by decide))
    rw [List.append_nil] at hf
    rw [if_neg hv, run_allConsuming, List.append_nil, hf]
    simp [hv, Option.filter]

/-- An integer constant: `ds` are decimal digits, perhaps with a minus sign, and the text after
them cannot continue a word.  In the 64-bit range the value read is the value written; beyond it
the text is never read as an integer but as a name. -/
theorem C05_constant {sgn : Str} {neg : Bool} (hs : Sgn sgn neg) (hp : sgn ≠ c!"+") {ds rest : Str}
    (hne : ds ≠ []) (hd : ∀ c ∈ ds, '0' ≤ c ∧ c ≤ '9') (hr : Stops isExtraChar rest) :
    constant.run () (sgn ++ ds ++ rest) =
      some (rest, if digitsVal ds < 2 ^ 63 then .int (withSign neg (digitsVal ds)) else .field (sgn ++ ds)) := by
  have hd : Digits ds := ⟨hne, fun c hc => by have := hd c hc; simp [isDig, this]⟩
  have hne : sgn ++ ds ≠ [] := by
    obtain ⟨d, t, rfl, _⟩ := hd.head; simp
  have hx := number_extra hs hp hd
  have hres := digits_notReserved hs hd (u := [])
  have hk := constantOf_number hs hp hd
  rw [List.append_nil] at hx hres hk
  rw [constant, reparse, run_filterMap, run_rawConstant hne hx hr hres, Option.bind_some, hk]
  rfl

example : constant.run () c!"-9223372036854775807, b" = some (c!", b", .int (-9223372036854775807)) :=
  C05_constant .minus (by decide) (ds := c!"9223372036854775807") (by decide) (by decide) (Stops.cons (by decide))

/-- Whenever a constant is read as an integer, the text is a number in the 64-bit range with
exactly that value. -/
theorem C05_only_integers {i r : Str} {n : Int} (h : constant.run () i = some (r, .int n)) :
    ∃ sgn neg ds, Sgn sgn neg ∧ ds ≠ [] ∧ (∀ c ∈ ds, '0' ≤ c ∧ c ≤ '9') ∧ digitsVal ds < 2 ^ 63 ∧
      i = sgn ++ ds ++ r ∧ n = withSign neg (digitsVal ds) := by
  rw [constant, reparse, run_filterMap] at h
  obtain ⟨⟨r0, w⟩, hw, h1⟩ := Option.bind_eq_some_iff.1 h
  obtain ⟨k, h2, h3⟩ := Option.map_eq_some_iff.1 h1
  simp only [Prod.mk.injEq] at h3
  obtain ⟨rfl, rfl⟩ := h3
  obtain ⟨⟨r1, k⟩, h4, rfl⟩ := Option.map_eq_some_iff.1 h2
  have hi := (recognize_some.1 hw).2
  have hint : ∃ r, (allConsuming int).run () w = some (r, n) := by
    simp only [constantOf, run_alt, run_map, Option.or_eq_some_iff, Option.map_eq_some_iff, Option.map_eq_none_iff,
      Prod.mk.injEq, reduceCtorEq, and_false, false_or, exists_false] at h4
    simp only [Constant.int.injEq, or_false] at h4
    obtain ⟨_, _, _, _, _, _, _, _, _, ⟨x, hx, _, hn⟩⟩ := h4
    exact ⟨x.1, by rw [hx, ← hn]⟩
  obtain ⟨r2, hint⟩ := hint
  obtain ⟨hint, rfl⟩ := allConsuming_some.1 hint
  obtain ⟨sgn, neg, ds, hs, hd, _, hv, e, hn⟩ := int_some hint
  refine ⟨sgn, neg, ds, hs, hd.ne, fun c hc => ?_, hv, ?_, hn⟩
  · have := hd.dig c hc; simpa [isDig] using this
  · rw [hi, e]; simp

example : constant.run () c!"0042)" = some (c!")", .int 42) :=
  C05_constant .none (by decide) (ds := c!"0042") (by decide) (by decide) (Stops.cons (by decide))

/-- `head N` in a query. -/
theorem C05_head {sgn : Str} {neg : Bool} (hs : Sgn sgn neg) {ds : Str}
    (hne : ds ≠ []) (hd : ∀ c ∈ ds, '0' ≤ c ∧ c ≤ '9') (hv : digitsVal ds < 2 ^ 63) :
    parse (c!"head " ++ (sgn ++ ds)) = some [.head (.const (.int (withSign neg (digitsVal ds)))) false false] := by
  have hd : Digits ds := ⟨hne, fun c hc => by have := hd c hc; simp [isDig, this]⟩
  have hnb : (sgn ++ ds).dropWhile isSpace = sgn ++ ds := by
    obtain ⟨d, t, rfl, hd0⟩ := hd.head
    have : isSpace d = false := dig_all (f := fun d => isSpace d = false) (by decide) hd0
    cases hs with
    | none => simp [this]
    | plus => rfl
    | minus => rfl
  have hint : int.run () (sgn ++ ds) = some ([], withSign neg (digitsVal ds)) := by
    have := run_int hs hd (Stops.nil isDig)
    rw [List.append_nil, if_pos hv] at this
    exact this
  have hcmd : command.run fix (c!"head " ++ (sgn ++ ds)) =
      some ([], .head (.const (.int (withSign neg (digitsVal ds)))) false false) := by
    have h0 : head.run fix (c!"head " ++ (sgn ++ ds)) =
        some ([], .head (.const (.int (withSign neg (digitsVal ds)))) false false) := by
      have hname : (name (tagi! "head")).run fix (c!"head " ++ (sgn ++ ds)) = some ((sgn ++ ds).dropWhile isSpace, ()) := rfl
      rw [head, run_pre, hname, hnb, Option.bind_some, run_map, run_seq, run_ws, hnb, run_alt, run_map, run_alt,
        run_lift, hint]
      rfl
    have hA : commandA.run fix (c!"head " ++ (sgn ++ ds)) =
        (head.run fix (c!"head " ++ (sgn ++ ds))).or
          ((inputLookup <||> join <||> lookup <||> makeResults <||> map_ <||> multiSearch <||> mvCombine <||>
            mvExpand : G true Command).run fix (c!"head " ++ (sgn ++ ds))) := by
      rw [← run_alt]; rfl
    rw [command, run_alt, hA, h0]; rfl
  have hal : (afterLead (c!"head " ++ (sgn ++ ds))).dropWhile isSpace = c!"head " ++ (sgn ++ ds) := rfl
  rw [parse_eq, hal, run_sepList0, hcmd]
  rfl

example : parse c!"head +0020" = some [.head (.const (.int 20)) false false] :=
  C05_head .plus (ds := c!"0020") (by decide) (by decide) (by decide)

/-- The decimal text of an integer, as an operand. -/
theorem C05_decimal (n : Int) (hlo : -(2 ^ 63) < n) (hhi : n < 2 ^ 63) {rest : Str} (hr : Stops isExtraChar rest) :
    constant.run () (showInt n ++ rest) = some (rest, .int n) := by
  have hdig : ∀ m, ∀ c ∈ showNat m, '0' ≤ c ∧ c ≤ '9' := fun m c hc => by
    have := showNat_digits m c hc; simpa [isDig] using this
  cases n with
  | ofNat m =>
    have h := C05_constant .none (by decide) (showNat_ne_nil m) (hdig m) hr
    rw [digitsVal_showNat, if_pos (by have : (Int.ofNat m) = (m : Int) := rfl; omega)] at h
    exact h
  | negSucc m =>
    have h := C05_constant .minus (by decide) (showNat_ne_nil (m + 1)) (hdig (m + 1)) hr
    rw [digitsVal_showNat, if_pos (by omega)] at h
    exact h

example : -(2 ^ 63) < (-42 : Int) ∧ (-42 : Int) < 2 ^ 63 ∧ Stops isExtraChar c!" + 1" :=
  ⟨by decide, by decide, Stops.cons (by decide)⟩

/-- A plus sign is accepted in counts only, and the smallest 64-bit integer not at all. -/
theorem C05_limits : parse c!"eval x=+5" = none ∧
    parse c!"eval x=-9223372036854775808" =
      some [.eval [(c!"x", .const (.field c!"-9223372036854775808"))]] :=
  ⟨Option.isNone_iff_eq_none.1 (by decide +kernel), isParse_sound (by decide +kernel)⟩

/-! ### C47 -/

/-- the text begins with this spelling, in some casing -/
def BeginsWith (s i : Str) : Prop := ∃ m r, i = m ++ r ∧ lower m = s

/-- the spellings in the order they are tried -/
def tried : List (Str × Str) :=
  [c!"months", c!"month", c!"mon"].map (·, c!"months") ++ [c!"days", c!"day", c!"d"].map (·, c!"days") ++
  [c!"hours", c!"hour", c!"hrs", c!"hr", c!"h"].map (·, c!"hours") ++
  [c!"minutes", c!"minute", c!"mins", c!"min", c!"m"].map (·, c!"minutes") ++
  [c!"weeks", c!"week", c!"w7", c!"w0", c!"w"].map (·, c!"weeks") ++
  [c!"seconds", c!"second", c!"secs", c!"sec", c!"s"].map (·, c!"seconds")

/-- the first entry that fits -/
def firstFit (i : Str) : List (Str × Str) → PRes Str
  | [] => none
  | (s, u) :: rest => match stripPrefixCI? s i with
    | some x => some (x.2, u)
    | none => firstFit i rest

theorem timeUnit_eq (i : Str) : timeUnit.run () i = firstFit i tried := by
  have hor : ∀ (s u : Str) (rest : List (Str × Str)), firstFit i ((s, u) :: rest) =
      ((stripPrefixCI? s i).map fun x => (x.2, u)).or (firstFit i rest) := by
    intro s u rest
    rw [firstFit]
    cases stripPrefixCI? s i <;> rfl
  simp only [timeUnit, months, days, hours, minutes, weeks, seconds, unit, run_alt, run_map, run_tagi, tried,
    List.map_cons, List.map_nil, List.cons_append, List.nil_append, hor, Option.map_or, Option.map_map, Option.or_assoc]
  rw [show firstFit i [] = none from rfl, Option.or_none]
  rfl

theorem stripCI_lower {t s m r : Str} (ht : lower t = t) : stripPrefixCI? t s = some (m, r) ↔ s = m ++ r ∧ lower m = t := by
  constructor
  · intro h
    have := stripPrefixCI?_spec h
    exact ⟨this.1, this.2.2.trans ht⟩
  · rintro ⟨rfl, hm⟩
    subst hm
    clear ht
    induction m with
    | nil => rfl
    | cons c m ih =>
      have hll : lowerC (lowerC c) = lowerC c := by
        unfold lowerC
        split
        · rename_i hc
          rw [if_neg]
          have h1 : 65 ≤ c.toNat := hc.1
          have h2 : c.toNat ≤ 90 := hc.2
          have key : ∀ n : Fin 26, ¬ ('A' ≤ Char.ofNat (n.val + 65 + 32) ∧ Char.ofNat (n.val + 65 + 32) ≤ 'Z') := by decide
          have := key ⟨c.toNat - 65, by omega⟩
          rwa [show c.toNat - 65 + 65 + 32 = c.toNat + 32 by omega] at this
        · rfl
      simp only [lower, List.map_cons, List.cons_append, stripPrefixCI?, hll, if_true]
      have := ih
      simp only [lower] at this
      rw [this]

/-- If the entries are ordered so that no entry is a proper prefix of a later one, the first entry that
fits is the longest. -/
theorem firstFit_longest {i : Str} : ∀ (l : List (Str × Str)) {r u : Str},
    (∀ x ∈ l, lower x.1 = x.1) →
    l.Pairwise (fun x y => ¬ (x.1.length < y.1.length ∧ x.1 = y.1.take x.1.length)) →
    firstFit i l = some (r, u) →
    ∃ s m, (s, u) ∈ l ∧ i = m ++ r ∧ lower m = s ∧ ∀ x ∈ l, BeginsWith x.1 i → x.1.length ≤ s.length := by
  intro l
  induction l with
  | nil => intro r u _ _ h; simp [firstFit] at h
  | cons x l ih =>
    intro r u hlow hpw h
    obtain ⟨s, v⟩ := x
    rw [firstFit] at h
    have hs : lower s = s := hlow (s, v) (by simp)
    rw [List.pairwise_cons] at hpw
    cases hp : stripPrefixCI? s i with
    | some y =>
      obtain ⟨m, r'⟩ := y
      rw [hp] at h
      simp only [Option.some.injEq, Prod.mk.injEq] at h
      obtain ⟨rfl, rfl⟩ := h
      obtain ⟨hi, hm⟩ := (stripCI_lower hs).1 hp
      refine ⟨s, m, by simp, hi, hm, ?_⟩
      intro y hy hb
      rcases List.mem_cons.1 hy with rfl | hy
      · exact Nat.le_refl _
      · obtain ⟨m', r'', hi', hm'⟩ := hb
        apply Nat.le_of_not_lt
        intro hlt
        apply hpw.1 y hy
        refine ⟨hlt, ?_⟩
        have hl : m.length ≤ m'.length := by
          have e1 := congrArg List.length hm; have e2 := congrArg List.length hm'
          simp [lower] at e1 e2
          omega
        have hpre : m = m'.take m.length := by
          have h3 : (m ++ r').take m.length = (m' ++ r'').take m.length := by rw [← hi, ← hi']
          rw [List.take_left, List.take_append_of_le_length hl] at h3
          exact h3
        have hlen : s.length = m.length := by have := congrArg List.length hm; simp [lower] at this; exact this.symm
        show s = y.1.take s.length
        rw [← hm', ← hm]
        simp only [lower, List.length_map, ← List.map_take]
        rw [← hpre]
    | none =>
      rw [hp] at h
      obtain ⟨s', m, h1, h2, h3, h4⟩ := ih (fun x hx => hlow x (by simp [hx])) hpw.2 h
      refine ⟨s', m, by simp [h1], h2, h3, ?_⟩
      intro y hy hb
      rcases List.mem_cons.1 hy with rfl | hy
      · obtain ⟨m', r', e1, e2⟩ := hb
        rw [(stripCI_lower hs).2 ⟨e1, e2⟩] at hp
        simp at hp
      · exact h4 y hy hb

theorem firstFit_none {i : Str} : ∀ (l : List (Str × Str)), (∀ x ∈ l, lower x.1 = x.1) →
    (firstFit i l = none ↔ ∀ x ∈ l, ¬ BeginsWith x.1 i) := by
  intro l
  induction l with
  | nil => intro _; simp [firstFit]
  | cons x l ih =>
    intro hlow
    obtain ⟨s, v⟩ := x
    have hs : lower s = s := hlow (s, v) (by simp)
    rw [firstFit]
    cases hp : stripPrefixCI? s i with
    | some y =>
      obtain ⟨m, r⟩ := y
      obtain ⟨hi, hm⟩ := (stripCI_lower hs).1 hp
      simp only [reduceCtorEq, false_iff]
      intro h
      exact h (s, v) (by simp) ⟨m, r, hi, hm⟩
    | none =>
      show firstFit i l = none ↔ _
      rw [ih fun x hx => hlow x (by simp [hx])]
      constructor
      · intro h x hx
        rcases List.mem_cons.1 hx with rfl | hx
        · rintro ⟨m, r, hi, hm⟩
          rw [(stripCI_lower hs).2 ⟨hi, hm⟩] at hp
          simp at hp
        · exact h x hx
      · exact fun h x hx => h x (by simp [hx])

theorem tried_lower : ∀ x ∈ tried, lower x.1 = x.1 := by decide

theorem tried_order : tried.Pairwise (fun x y => ¬ (x.1.length < y.1.length ∧ x.1 = y.1.take x.1.length)) := by
  decide

theorem tried_spellings : (∀ x ∈ tried, x ∈ unitSpellings) ∧ (∀ x ∈ unitSpellings, x ∈ tried) := by decide

/-- Spelling and text together determine the unit. -/
theorem unitSpellings_fun : ∀ x ∈ unitSpellings, ∀ y ∈ unitSpellings, x.1 = y.1 → x.2 = y.2 := by decide

/-- The unit read is that of the longest accepted spelling the text begins with, in any casing; exactly
that spelling is consumed.  Without such a spelling nothing is read. -/
theorem C47_unit (i : Str) :
    (∀ r u, timeUnit.run () i = some (r, u) ↔ ∃ s m, (s, u) ∈ unitSpellings ∧ i = m ++ r ∧ lower m = s ∧
      ∀ x ∈ unitSpellings, BeginsWith x.1 i → x.1.length ≤ s.length) ∧
    (timeUnit.run () i = none ↔ ∀ x ∈ unitSpellings, ¬ BeginsWith x.1 i) := by
  rw [timeUnit_eq]
  have hn : firstFit i tried = none ↔ ∀ x ∈ unitSpellings, ¬ BeginsWith x.1 i := by
    rw [firstFit_none tried tried_lower]
    exact ⟨fun h x hx => h x (tried_spellings.2 x hx), fun h x hx => h x (tried_spellings.1 x hx)⟩
  have hf : ∀ r u, firstFit i tried = some (r, u) → ∃ s m, (s, u) ∈ unitSpellings ∧ i = m ++ r ∧ lower m = s ∧
      ∀ x ∈ unitSpellings, BeginsWith x.1 i → x.1.length ≤ s.length := by
    intro r u h
    obtain ⟨s, m, h1, h2, h3, h4⟩ := firstFit_longest tried tried_lower tried_order h
    exact ⟨s, m, tried_spellings.1 _ h1, h2, h3, fun x hx hb => h4 x (tried_spellings.2 x hx) hb⟩
  refine ⟨fun r u => ⟨hf r u, ?_⟩, hn⟩
  rintro ⟨s, m, h1, rfl, hm, h4⟩
  cases h : firstFit (m ++ r) tried with
  | none => exact absurd ⟨m, r, rfl, hm⟩ (hn.1 h _ h1)
  | some x =>
    obtain ⟨r', u'⟩ := x
    obtain ⟨s', m', h1', h2', h3', h4'⟩ := hf r' u' h
    have hl : s.length = s'.length :=
      Nat.le_antisymm (h4' _ h1 ⟨m, r, rfl, hm⟩) (h4 _ h1' ⟨m', r', h2', h3'⟩)
    have hml : m.length = m'.length := by
      have e1 := congrArg List.length hm; have e2 := congrArg List.length h3'
      simp [lower] at e1 e2
      omega
    obtain ⟨rfl, rfl⟩ := List.append_inj h2' hml
    have hss : s = s' := hm.symm.trans h3'
    subst hss
    have := unitSpellings_fun _ h1 _ h1' rfl
    simp only at this
    rw [this]

example : BeginsWith c!"mon" c!"MONth" ∧ BeginsWith c!"month" c!"MONth" ∧ (c!"month", c!"months") ∈ unitSpellings :=
  ⟨⟨c!"MON", c!"th", rfl, by decide⟩, ⟨c!"MONth", [], rfl, by decide⟩, by decide⟩

/-- A text that is a spelling, in some casing, is read whole. -/
theorem unit_whole {s u m : Str} (hs : (s, u) ∈ unitSpellings) (hm : lower m = s) : timeUnit.run () m = some ([], u) := by
  refine ((C47_unit m).1 [] u).2 ⟨s, m, hs, by simp, hm, ?_⟩
  rintro x hx ⟨m', r', e, e'⟩
  have h1 := congrArg List.length hm; have h2 := congrArg List.length e'; have h3 := congrArg List.length e
  simp [lower] at h1 h2 h3
  omega

theorem lowerC_alnum (c : Char) (h : isAlnum (lowerC c) = true) : isAlnum c = true := by
  unfold lowerC at h
  split at h
  · rename_i hc; simp [isAlnum, hc]
  · exact h

/-- the characters of a spelling -/
theorem unit_alnum {s u m : Str} (hs : (s, u) ∈ unitSpellings) (hm : lower m = s) : ∀ c ∈ m, isAlnum c = true := by
  intro c hc
  have hall : ∀ x ∈ unitSpellings, ∀ c ∈ x.1, isAlnum c = true := by decide
  apply lowerC_alnum
  apply hall _ hs
  show lowerC c ∈ s
  rw [← hm]
  exact List.mem_map_of_mem hc

theorem unit_stops {s u m : Str} (hs : (s, u) ∈ unitSpellings) (hm : lower m = s) {f : Char → Bool}
    (hf : ∀ c, lowerC c ∈ c!"smhdw" → f c = false) : Stops f m := by
  intro c t e
  subst e
  apply hf
  have hall : ∀ x ∈ unitSpellings, (x.1.head?.elim false fun c => c!"smhdw".contains c) = true := by decide
  have := hall _ hs
  rw [← hm] at this
  simpa [lower] using this

/-- The reading of a number followed by a unit, as an operand: `sgn` is empty or a minus sign, `ds` are
decimal digits in the 64-bit range and `m` is an accepted spelling in any casing, followed by text that
cannot continue a word. -/
theorem C47_constant {sgn : Str} {neg : Bool} (hs : Sgn sgn neg) (hp : sgn ≠ c!"+") {ds m rest s u : Str}
    (hne : ds ≠ []) (hd : ∀ c ∈ ds, '0' ≤ c ∧ c ≤ '9') (hv : digitsVal ds < 2 ^ 63)
    (hu : (s, u) ∈ unitSpellings) (hm : lower m = s) (hr : Stops isExtraChar rest) :
    constant.run () (sgn ++ ds ++ m ++ rest) =
      some (rest, .timeSpan { value := withSign neg (digitsVal ds), scale := u }) := by
  have hd : Digits ds := ⟨hne, fun c hc => by have := hd c hc; simp [isDig, this]⟩
  have key : ∀ (P : Char → Bool), (∀ n : Fin 5, P (c!"smhdw".get n) = false ∧ P (c!"SMHDW".get n) = false) →
      ∀ c, lowerC c ∈ c!"smhdw" → P c = false := by
    intro P hP c hc
    have hcc : c ∈ c!"smhdwSMHDW" := by
      unfold lowerC at hc
      split at hc
      · rename_i hAZ
        have h1 : 65 ≤ c.toNat := hAZ.1
        have h2 : c.toNat ≤ 90 := hAZ.2
        have key : ∀ n : Fin 26, Char.ofNat (n.val + 65 + 32) ∈ c!"smhdw" → Char.ofNat (n.val + 65) ∈ c!"smhdwSMHDW" := by
          decide
        have := key ⟨c.toNat - 65, by omega⟩
        simp only [show c.toNat - 65 + 65 = c.toNat by omega, Char.ofNat_toNat] at this
        exact this hc
      · exact List.mem_append_left c!"SMHDW" hc
    simp only [List.mem_cons, List.not_mem_nil, or_false] at hcc
    have p0 := hP 0; have p1 := hP 1; have p2 := hP 2; have p3 := hP 3; have p4 := hP 4
    rcases hcc with rfl | rfl | rfl | rfl | rfl | rfl | rfl | rfl | rfl | rfl
    · exact p0.1
    · exact p1.1
    · exact p2.1
    · exact p3.1
    · exact p4.1
    · exact p0.2
    · exact p1.2
    · exact p2.2
    · exact p3.2
    · exact p4.2
  have s1 : Stops isDig m := unit_stops hu hm (key _ (by decide))
  have s2 : Stops (· == '.') m := unit_stops hu hm (key _ (by decide))
  have s3 : Stops (· == ':') m := unit_stops hu hm (key _ (by decide))
  have q1 := number_ipv4_none hs hp hd s1 s2
  have q2 := number_ipv6_none hs hp hd s1 s3
  have q3 : timeSpan.run () (sgn ++ (ds ++ m)) = some ([], { value := withSign neg (digitsVal ds), scale := u }) := by
    rw [timeSpan, run_map, run_seq, run_int hs hd s1, if_pos hv, Option.bind_some, unit_whole hu hm]
    rfl
  have hq := number_head_ne hs hp hd (u := m) (x := '"') (by decide) (by decide)
  have q4 : relativeTime.run () (sgn ++ (ds ++ m)) = none := by
    rw [relativeTime, run_alt, run_delim, tag_none hq, Option.bind_none, Option.or_none, relativeTimeFmt, run_map,
      run_seq, run_opt, run_alt, q3, Option.some_or, Option.elim_some, Option.bind_some, run_seq, tag_nil]
    rfl
  have hk : constantOf.run () (sgn ++ (ds ++ m)) =
      some ([], .timeSpan { value := withSign neg (digitsVal ds), scale := u }) := by
    rw [constantOf]
    simp only [run_alt, run_map, allConsuming_none q1, allConsuming_none (ipv4Cidr_none q1),
      allConsuming_none q2, allConsuming_none q4, Option.map_none, Option.none_or]
    rw [allConsuming_some.2 ⟨q3, rfl⟩]
    rfl
  have hx : ∀ c ∈ sgn ++ (ds ++ m), isExtraChar c = true := by
    intro c hc
    rcases List.mem_append.1 hc with hc | hc
    · cases hs with
      | none => simp at hc
      | plus => exact absurd rfl hp
      | minus => simp at hc; subst hc; decide
    · rcases List.mem_append.1 hc with hc | hc
      · exact dig_extra (hd.dig c hc)
      · simp [isExtraChar, isTokenChar, unit_alnum hu hm c hc]
  have hne : sgn ++ (ds ++ m) ≠ [] := by
    obtain ⟨d, t, rfl, _⟩ := hd.head; simp
  rw [List.append_assoc sgn, constant, reparse, run_filterMap,
    run_rawConstant hne hx hr (digits_notReserved hs hd), Option.bind_some, hk]
  rfl

example : constant.run () c!"-5Mon)" = some (c!")", .timeSpan { value := -5, scale := c!"months" }) :=
  C47_constant .minus (by decide) (ds := c!"5") (m := c!"Mon") (by decide) (by decide) (by decide)
    (s := c!"mon") (by decide) (by decide) (Stops.cons (by decide))

/-- A unit that follows a number in `span=` is read the same way, whatever follows it. -/
theorem C47_span {sgn : Str} {neg : Bool} (hs : Sgn sgn neg) {ds i r u : Str}
    (hne : ds ≠ []) (hd : ∀ c ∈ ds, '0' ≤ c ∧ c ≤ '9') (hv : digitsVal ds < 2 ^ 63) (hi : Stops isDig i)
    (h : timeUnit.run () i = some (r, u)) :
    timeSpan.run () (sgn ++ (ds ++ i)) = some (r, { value := withSign neg (digitsVal ds), scale := u }) := by
  have hd : Digits ds := ⟨hne, fun c hc => by have := hd c hc; simp [isDig, this]⟩
  rw [timeSpan, run_map, run_seq, run_int hs hd hi, if_pos hv, Option.bind_some, h]
  rfl

example : timeSpan.run () c!"5monthly" = some (c!"ly", { value := 5, scale := c!"months" }) :=
  C47_span .none (ds := c!"5") (i := c!"monthly") (by decide) (by decide) (by decide) (Stops.cons (by decide)) rfl

end Verif
