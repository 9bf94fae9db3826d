import Verif.Props.Dotted
import Verif.Lemmas.Lists
/-
C70: addresses of eight groups.
-/
namespace Verif
open P Lex Spl Spec Lemmas Props

/-- a group of an address written with decimal digits only -/
structure IsGroup (w : Str) : Prop extends IsDigits w where
  short : w.length ≤ 4

theorem digitsVal_lt : ∀ {ds : Str}, (∀ c ∈ ds, isDig c = true) → digitsVal ds < 10 ^ ds.length := by
  intro ds
  induction ds with
  | nil => intro _; decide
  | cons d ds ih =>
    intro h
    have hd := isDig_range (h d (by simp))
    have := ih fun c hc => h c (by simp [hc])
    rw [show d :: ds = [d] ++ ds from rfl, digitsVal_append, List.length_append, Nat.add_comm, Nat.pow_add]
    have hv : digitsVal [d] ≤ 9 := by simp only [digitsVal, List.foldl_cons, List.foldl_nil]; omega
    have : digitsVal [d] * 10 ^ ds.length ≤ 9 * 10 ^ ds.length := Nat.mul_le_mul_right _ hv
    simp only [List.length_cons, List.length_nil, Nat.zero_add, Nat.pow_one]
    omega

theorem IsGroup.small {w : Str} (h : IsGroup w) : digitsVal w < 2 ^ 16 := by
  have h1 := digitsVal_lt h.digits
  have h2 : 10 ^ w.length ≤ 10 ^ 4 := Nat.pow_le_pow_right (by decide) h.short
  omega

/-- groups with colons before them -/
def colons : List Str → Str
  | [] => []
  | g :: gs => ':' :: (g ++ colons gs)

theorem colons_stops (gs : List Str) : Stops isDig (colons gs) := by
  cases gs with
  | nil => exact Stops.nil _
  | cons g gs => exact Stops.cons (by decide)

theorem join_colons : ∀ (g : Str) (gs : List Str), joinWith c!":" (g :: gs) = g ++ colons gs
  | g, [] => by simp [joinWith, colons]
  | g, h :: hs => by
    rw [joinWith, join_colons h hs]
    simp [colons]

theorem read_group {g u : Str} (h : IsGroup g) (hu : Stops isDig u) : ip6Number (g ++ u) = some u := by
  have h1 : ¬ (g.isEmpty || decide (4 < g.length)) = true := by
    have := h.short
    simp only [Bool.or_eq_true, List.isEmpty_iff, decide_eq_true_eq, h.ne, false_or]
    omega
  simp only [ip6Number, takeWhile_run h.digits hu, dropWhile_run h.digits hu, if_neg h1]

theorem read_groups : ∀ (gs : List Str) (i : Nat), (∀ g ∈ gs, IsGroup g) → i ≠ 0 → ip6Groups gs.length i (colons gs) = (i + gs.length, [])
  | [], i, _, _ => rfl
  | g :: gs, i, h, hi => by
    simp only [List.length_cons, ip6Groups, if_neg hi, colons, stripPrefix?, if_true, read_group (h g (by simp)) (colons_stops gs)]
    rw [read_groups gs (i + 1) (fun g hg => h g (by simp [hg])) (by omega)]
    simp only [Prod.mk.injEq, and_true]
    omega

theorem eight_valid {g : Str} {gs : List Str} (hg : IsGroup g) (h : ∀ g ∈ gs, IsGroup g) (h7 : gs.length = 7) : ip6Valid (g ++ colons gs) = true := by
  have h1 : ip6Groups 8 0 (g ++ colons gs) = (8, []) := by
    rw [show 8 = gs.length + 1 by omega, ip6Groups]
    simp only [if_true, read_group hg (colons_stops gs)]
    rw [read_groups gs 1 h (by decide)]
    simp only [Prod.mk.injEq, and_true]
    omega
  simp only [ip6Valid, h1, if_true, List.isEmpty_nil]

theorem colons_items : ∀ {gs : List Str} {g : Str}, IsGroup g → (∀ g ∈ gs, IsGroup g) →
    Items (fun s _ => s = c!":") (fun a t => a = some t ∧ IsGroup t) ((g :: gs).map some) (g ++ colons gs)
  | [], g, hg, _ => by
    simp only [colons, List.append_nil]
    exact .one ⟨rfl, hg⟩
  | k :: ks, g, hg, h => by
    rw [show g ++ colons (k :: ks) = g ++ (c!":" ++ (k ++ colons ks)) by simp [colons]]
    exact .cons ⟨rfl, hg⟩ rfl (colons_items (h k (by simp)) fun g hg => h g (by simp [hg]))

theorem run_eight {g : Str} {gs : List Str} (hg : IsGroup g) (h : ∀ g ∈ gs, IsGroup g) (h7 : gs.length = 7) :
    ipv6Addr.run () (g ++ colons gs) = some ([], g ++ colons gs) := by
  have key := (sepList1_read (ρ := ()) (sp := (tag! ":" : L true Str))
    (p := opt (filterMap (fun ds => if digitsVal ds < 2 ^ 16 then some ds else none) digit1)) (nx := id) (rest := [])
    (Stops isDig) (fun a t u hi hu => by
      obtain ⟨rfl, ht⟩ := hi
      rw [run_opt, run_filterMap, run_digit1 ⟨ht.ne, ht.digits⟩ hu]
      simp [ht.small])
    (fun g b bs t hs _ => by
      subst hs
      exact ⟨Stops.cons (by decide), _, tag_same⟩)
    (Stops.nil _) (fun r x e => by cases e) (colons_items hg h)).1
  rw [List.append_nil] at key
  rw [ipv6Addr, run_verify, (recognize_some (s := g ++ colons gs) (r := [])).2 ⟨⟨_, key⟩, by simp⟩]
  simp [Option.filter, eight_valid hg h h7]

/-- Addresses of eight groups of decimal digits are read whole, as texts. -/
theorem C70_address6 {gs : List Str} {rest : Str} (h8 : gs.length = 8) (h : ∀ g ∈ gs, IsGroup g) (hr : Stops isExtraChar rest) :
    constant.run () (joinWith c!":" gs ++ rest) = some (rest, .str (joinWith c!":" gs)) ∧
    literal.run () (joinWith c!":" gs ++ rest) = some (rest, .str (joinWith c!":" gs)) := by
  obtain ⟨g, gs, rfl⟩ : ∃ g gs', gs = g :: gs' := by
    cases gs with
    | nil => cases h8
    | cons g gs => exact ⟨_, _, rfl⟩
  rw [join_colons]
  have hg := h g (by simp)
  have hgs : ∀ g ∈ gs, IsGroup g := fun k hk => h k (by simp [hk])
  have h7 : gs.length = 7 := by simpa using h8
  have hd : Digits g := ⟨hg.ne, hg.digits⟩
  have hdot : Stops (· == '.') (colons gs) := by
    cases gs with
    | nil => exact Stops.nil _
    | cons g gs => exact Stops.cons (by decide)
  have q1 : ipv4Addr.run () (g ++ colons gs) = none := ipv4Addr_none hg.digits (colons_stops gs) hdot
  have q2 := allConsuming_some.2 ⟨run_eight hg hgs h7, rfl⟩
  have hch : ∀ (l : List Str), (∀ g ∈ l, IsGroup g) → ∀ c ∈ colons l, isExtraChar c = true := by
    intro l
    induction l with
    | nil => intro _ c hc; cases hc
    | cons k ks ih =>
      intro hk c hc
      simp only [colons, List.mem_cons, List.mem_append] at hc
      rcases hc with rfl | hc | hc
      · decide
      · exact dig_extra ((hk k (by simp)).digits c hc)
      · exact ih (fun g hg => hk g (by simp [hg])) c hc
  have hx : ∀ c ∈ g ++ colons gs, isExtraChar c = true := fun c hc => by
    rcases List.mem_append.1 hc with hc | hc
    · exact dig_extra (hg.digits c hc)
    · exact hch gs hgs c hc
  have hne : g ++ colons gs ≠ [] := by simp [hg.ne]
  have hres := digits_notReserved .none hd (u := colons gs)
  rw [List.nil_append] at hres
  constructor
  · rw [constant, reparse, run_filterMap, run_rawConstant hne hx hr hres, Option.bind_some]
    simp only [constantOf, run_alt, run_map, allConsuming_none q1, allConsuming_none (ipv4Cidr_none q1), q2, Option.map_none, Option.none_or]
    rfl
  · rw [literal, reparse, run_filterMap, run_rawConstant hne hx hr hres, Option.bind_some]
    simp only [literalOf, run_alt, run_map, allConsuming_none q1, allConsuming_none (ipv4Cidr_none q1), q2, Option.map_none, Option.none_or]
    rfl

example : constant.run () c!"2001:0:0:1:20:300:4000:8)" = some (c!")", .str c!"2001:0:0:1:20:300:4000:8") :=
  (C70_address6 (gs := [c!"2001", c!"0", c!"0", c!"1", c!"20", c!"300", c!"4000", c!"8"]) rfl
    (by
      intro g hg
      simp only [List.mem_cons, List.not_mem_nil, or_false] at hg
      rcases hg with rfl | rfl | rfl | rfl | rfl | rfl | rfl | rfl <;> exact ⟨⟨by decide, by decide⟩, by decide⟩)
    (Stops.cons (by decide))).1

/-- An address with letters is not: the condition `src=2001:db8::1` compares with a column of that name, and so does
`src=fe80:0:0:0:0:0:0:1`; written with decimal digits only the condition compares with the text. -/
theorem C70_address6_letters :
    (parse c!"search src=2001:db8::1").bind (renderPipeline ⟨.disallow, Tests.ext⟩) =
      some c!"spark.table('main').where((F.col('src') == F.col('2001:db8::1')),)" ∧
    (parse c!"search src=fe80:0:0:0:0:0:0:1").bind (renderPipeline ⟨.disallow, Tests.ext⟩) =
      some c!"spark.table('main').where((F.col('src') == F.col('fe80:0:0:0:0:0:0:1')),)" ∧
    (parse c!"search src=1080:0:0:0:0:0:0:1").bind (renderPipeline ⟨.disallow, Tests.ext⟩) =
      some c!"spark.table('main').where((F.col('src') == F.lit('1080:0:0:0:0:0:0:1')),)" :=
  ⟨by decide +kernel, by decide +kernel, by decide +kernel⟩

end Verif
