import Verif.Spec.Net
import Verif.Lemmas.Text
import Verif.Lemmas.Plain
import Verif.Lemmas.Python
import Verif.Props.LibraryFrames
/-
C83: `cidrmatch` and comparison with a network tell whether an address is in the network.
C84: `ipmask` applies the mask.
-/
namespace Verif.Props
open Verif Verif.Spec Verif.Rt Verif.Lemmas

/-! ### addresses -/

theorem octet_ok : ∀ n : Fin 256, parseOctet (showNat n) = some n.val := by decide +kernel

/-- value of an address -/
def addrVal (x : Addr) : Nat := ((x.a.val * 256 + x.b) * 256 + x.c) * 256 + x.d

theorem dig_ne {c : Char} {n : Nat} (hc : isDig c = false) : c ∉ showNat n :=
  fun h => by rw [showNat_digits n c h] at hc; cases hc

theorem parse_text (x : Addr) : parseIPv4 x.text = some (addrVal x) := by
  have hd : ∀ n, '.' ∉ showNat n := fun n => dig_ne rfl
  unfold parseIPv4 Addr.text
  rw [split_dot (hd _), split_dot (hd _), split_dot (hd _), split_nodot (hd _)]
  simp only [octet_ok]
  rfl

theorem text_noSlash (x : Addr) : '/' ∉ x.text := by
  have hd : ∀ n, '/' ∉ showNat n := fun n => dig_ne rfl
  simp only [Addr.text, List.mem_append, List.mem_cons, not_or]
  exact ⟨hd _, by decide, hd _, by decide, hd _, by decide, hd _⟩

theorem splitC_none {c : Char} : ∀ {n : Str}, c ∉ n → splitOnC c n = [n]
  | [], _ => rfl
  | d :: n, h => by
    simp only [List.mem_cons, not_or] at h
    rw [splitOnC, if_neg (fun e => h.1 e.symm), splitC_none h.2]

theorem splitC_cons {c : Char} : ∀ {n : Str}, c ∉ n → ∀ r, splitOnC c (n ++ c :: r) = n :: splitOnC c r
  | [], _, r => by simp [splitOnC]
  | d :: n, h, r => by
    simp only [List.mem_cons, not_or] at h
    rw [List.cons_append, splitOnC, if_neg (fun e => h.1 e.symm), splitC_cons h.2]

theorem prefix_ok {p : Nat} (hp : p ≤ 32) : prefixLength (showNat p) = some p := by
  have h : prefixOfDigits (showNat p) = some p := by
    unfold prefixOfDigits
    rw [digitsVal_showNat, if_pos]
    simp [List.isEmpty_eq_false_iff.2 (showNat_ne_nil p), List.all_eq_true.2 (showNat_digits p), hp]
  rw [prefixLength, h]

theorem network_text (x : Addr) {p : Nat} (hp : p ≤ 32) :
    ipv4Network (netText x p) = some (addrVal x &&& prefixMask p, prefixMask p) := by
  have hd : '/' ∉ showNat p := dig_ne rfl
  unfold ipv4Network netText
  rw [splitC_cons (text_noSlash x), splitC_none hd]
  simp only [parse_text, prefix_ok hp]

theorem mask_bit (p j : Nat) : (prefixMask p).testBit j = (decide (j < 32) && decide (32 ≤ j + p)) := by
  unfold prefixMask allOnes
  rw [Nat.testBit_xor, Nat.testBit_shiftRight, Nat.testBit_two_pow_sub_one, Nat.testBit_two_pow_sub_one]
  by_cases h1 : j < 32 <;> by_cases h2 : p + j < 32 <;> simp [h1, h2] <;> omega

/-- the bits of the value -/
theorem val_bit (x : Addr) (i : Nat) (hi : i < 32) : x.bits[i]? = some ((addrVal x).testBit (31 - i)) := by
  have key : ∀ (n m k : Nat), k < 8 → (n * 256 + m).testBit k = m.testBit k := by
    intro n m k hk
    rw [Nat.testBit_eq_decide_div_mod_eq, Nat.testBit_eq_decide_div_mod_eq]
    have : n * 256 + m = 2 ^ k * (n * 2 ^ (7 - k) * 2) + m := by
      have : 2 ^ k * (n * 2 ^ (7 - k) * 2) = n * (2 ^ k * 2 ^ (7 - k) * 2) := by
        rw [Nat.mul_assoc, Nat.mul_left_comm, Nat.mul_assoc]
      rw [this, ← Nat.pow_add, ← Nat.pow_succ]
      have : (k + (7 - k)).succ = 8 := by omega
      rw [this]
    rw [this, Nat.mul_add_div (Nat.two_pow_pos k)]
    congr 1
    rw [Nat.mul_comm _ 2, Nat.mul_add_mod]
  have key2 : ∀ (n m k : Nat), m < 256 → (n * 256 + m).testBit (k + 8) = n.testBit k := by
    intro n m k hm
    rw [Nat.testBit_add]
    congr 1
    omega
  obtain ⟨a, b, c, d⟩ := x
  simp only [Addr.bits, addrVal]
  have hr : List.range 8 = [0, 1, 2, 3, 4, 5, 6, 7] := by decide
  simp only [List.flatMap_cons, List.flatMap_nil, List.append_nil, hr, List.map_cons, List.map_nil, List.cons_append, List.nil_append]
  have low : ∀ (n : Nat) (m : Fin 256) k, k < 8 → (n * 256 + m.val).testBit k = m.val.testBit k := fun n m k h => key n m k h
  have high : ∀ (n : Nat) (m : Fin 256) k j, j = k + 8 → (n * 256 + m.val).testBit j = n.testBit k := fun n m k j h => by rw [h]; exact key2 n m k m.isLt
  have cases : i < 8 ∨ (8 ≤ i ∧ i < 16) ∨ (16 ≤ i ∧ i < 24) ∨ (24 ≤ i ∧ i < 32) := by omega
  rcases cases with h | ⟨h1, h2⟩ | ⟨h1, h2⟩ | ⟨h1, h2⟩
  · rw [high _ _ (23 - i) _ (by omega), high _ _ (15 - i) _ (by omega), high _ _ (7 - i) _ (by omega)]
    have : i = 0 ∨ i = 1 ∨ i = 2 ∨ i = 3 ∨ i = 4 ∨ i = 5 ∨ i = 6 ∨ i = 7 := by omega
    rcases this with rfl | rfl | rfl | rfl | rfl | rfl | rfl | rfl <;> rfl
  · rw [high _ _ (23 - i) _ (by omega), high _ _ (15 - i) _ (by omega), low _ _ _ (by omega)]
    have : i = 8 ∨ i = 9 ∨ i = 10 ∨ i = 11 ∨ i = 12 ∨ i = 13 ∨ i = 14 ∨ i = 15 := by omega
    rcases this with rfl | rfl | rfl | rfl | rfl | rfl | rfl | rfl <;> rfl
  · rw [high _ _ (23 - i) _ (by omega), low _ _ _ (by omega)]
    have : i = 16 ∨ i = 17 ∨ i = 18 ∨ i = 19 ∨ i = 20 ∨ i = 21 ∨ i = 22 ∨ i = 23 := by omega
    rcases this with rfl | rfl | rfl | rfl | rfl | rfl | rfl | rfl <;> rfl
  · rw [low _ _ _ (by omega)]
    have : i = 24 ∨ i = 25 ∨ i = 26 ∨ i = 27 ∨ i = 28 ∨ i = 29 ∨ i = 30 ∨ i = 31 := by omega
    rcases this with rfl | rfl | rfl | rfl | rfl | rfl | rfl | rfl <;> rfl

theorem bits_length (x : Addr) : x.bits.length = 32 := by simp [Addr.bits]

/-- masked values agree exactly if the first bits do -/
theorem masked_eq (x y : Addr) {p : Nat} (hp : p ≤ 32) :
    addrVal x &&& prefixMask p = addrVal y &&& prefixMask p ↔ inNet x y p := by
  unfold inNet
  constructor
  · intro h
    apply List.ext_getElem?
    intro i
    by_cases hi : i < p
    · rw [List.getElem?_take_of_lt hi, List.getElem?_take_of_lt hi, val_bit x i (by omega), val_bit y i (by omega)]
      have := congrArg (fun n => n.testBit (31 - i)) h
      simp only [Nat.testBit_and, mask_bit] at this
      have h1 : decide (31 - i < 32) = true := by simp; omega
      have h2 : decide (32 ≤ 31 - i + p) = true := by simp; omega
      rw [h1, h2] at this
      simpa using this
    · rw [List.getElem?_take_eq_none (by omega), List.getElem?_take_eq_none (by omega)]
  · intro h
    apply Nat.eq_of_testBit_eq
    intro j
    rw [Nat.testBit_and, Nat.testBit_and, mask_bit]
    by_cases hj : j < 32 ∧ 32 ≤ j + p
    · have hi : 31 - j < p := by omega
      have h3 := congrArg (fun l => l[31 - j]?) h
      rw [List.getElem?_take_of_lt hi, List.getElem?_take_of_lt hi, val_bit x _ (by omega), val_bit y _ (by omega)] at h3
      have h4 : 31 - (31 - j) = j := by omega
      rw [h4] at h3
      simp only [Option.some.injEq] at h3
      rw [h3]
    · have : (decide (j < 32) && decide (32 ≤ j + p)) = false := by
        rw [Bool.and_eq_false_iff]
        simp only [decide_eq_false_iff_not]
        omega
      rw [this]
      simp

/-- **C83** (partial).  The function of the library, given an address and a network in this order, tells whether the
address is in the network. -/
theorem C83_function_partial (v : V6) (x net : Addr) {len : Nat} (h : len ≤ 32) :
    cidrMatch v x.text (netText net len) = decide (inNet x net len) := by
  have h1 : ipAddress v x.text = some (.four (addrVal x)) := by
    unfold ipAddress
    rw [if_neg (text_noSlash x), parse_text]
  have h2 : ipNetwork v (netText net len) = some (.four (addrVal net &&& prefixMask len, prefixMask len)) := by
    unfold ipNetwork
    rw [network_text net h]
  unfold cidrMatch
  simp only [h1, h2, inNetwork]
  rw [Bool.eq_iff_iff]
  simp only [beq_iff_eq, decide_eq_true_eq]
  exact masked_eq x net h

example : inNet ⟨10, 1, 2, 3⟩ ⟨10, 0, 0, 0⟩ 8 ∧ ¬ inNet ⟨10, 1, 2, 3⟩ ⟨10, 0, 0, 0⟩ 16 ∧ netText ⟨10, 0, 0, 0⟩ 8 = c!"10.0.0.0/8" := by
  decide +kernel

/-- a network is no address -/
theorem net_not_address (v : V6) {s : Str} (h : '/' ∈ s) (t : Str) : cidrMatch v s t = false := by
  unfold cidrMatch ipAddress
  rw [if_pos h]

/-- **C83** fails with the library, whatever the network and the address: the call refers to a column named like the
network, and gives network and address in the wrong order.  So the query is refused; and if there is such a column, and it
has networks in it, no address ever is in one. -/
theorem C83_library_fails (v : V6) {m : Mode} (hm : m ≠ .disallow) {k : Constant} {net : Str}
    (hk : k = .str net ∨ k = .ipv4cidr net ∨ k = .field net) (hp : Spec.Plain '"' net = true) (f : Str) :
    ∃ p c, exprTr m (.call c!"cidrmatch" [.const k, .const (.field f)]) = some p ∧ evalRt p.unalias = some (.obj (some c)) ∧
      (∀ row : Str → Option Str, row net = none → matchValue v row c = none) ∧
      (∀ (row : Str → Option Str) (t : Str), row net = some t → '/' ∈ t → matchValue v row c ≠ some true) := by
  have hs : (Expr.const k).asString = some net := by rcases hk with rfl | rfl | rfl <;> rfl
  have hr : evalFnRuntime c!"cidrmatch" (argsTr m [.const k, .const (.field f)]) =
      some (.aliased (.fn c!"functions.eval.cidrmatch" [pyStr net, .named f]) c!"cidrmatch") := by
    simp only [evalFnRuntime, if_true, argsTr, cidrmatchRuntime, FnSpec.apply, bindParams, bindParam, hs, exprTr, constTr,
      Option.map_some, PE.unalias, List.length_cons, List.length_nil, PE.withAlias]
  refine ⟨.aliased (.fn c!"functions.eval.cidrmatch" [pyStr net, .named f]) c!"cidrmatch",
    .fn c!"udfs.cidr_match" [.named net, .named f], ?_, ?_, ?_, ?_⟩
  · cases m with
    | disallow => exact absurd rfl hm
    | require => simp only [exprTr, evalFn, hr]
    | allow => simp only [exprTr, evalFn, hr, orElse]
  · have h : evalRts [pyStr net, .named f] = some [.lit (c!"\"" ++ net ++ c!"\""), .col (.named f)] := rfl
    simp only [PE.unalias, evalRt, h]
    rw [show (c!"functions.eval.cidrmatch" : Str) = c!"functions.eval." ++ c!"cidrmatch" from rfl, Verif.Lemmas.Library.rtFn_eval]
    have hl : lookupLib c!"cidrmatch" libEval = some (lib2 fun a b => .fn c!"udfs.cidr_match" [a, b]) := rfl
    simp only [evalCall, hl, lib2, LibFn.call, bindArgs, conv, RV.toExpr, strOf_plain hp, Option.map_some, bindRest, retVal, if_true]
  · intro row h
    simp only [matchValue, if_true, argText, h]
  · intro row t h ht
    simp only [matchValue, if_true, argText, h]
    split
    · rename_i x y hx hy
      cases hx
      rw [net_not_address v ht]
      simp
    · simp

theorem takeW {c : Char} : ∀ {s : Str} (r : Str), c ∉ s → (s ++ c :: r).takeWhile (· != c) = s
  | [], r, _ => by simp
  | d :: s, r, h => by
    simp only [List.mem_cons, not_or] at h
    rw [List.cons_append, List.takeWhile_cons_of_pos (by simpa using fun e => h.1 e.symm), takeW r h.2]

theorem dropW {c : Char} : ∀ {s : Str} (r : Str), c ∉ s → (s ++ c :: r).dropWhile (· != c) = c :: r
  | [], r, _ => by simp
  | d :: s, r, h => by
    simp only [List.mem_cons, not_or] at h
    rw [List.cons_append, List.dropWhile_cons_of_pos (by simpa using fun e => h.1 e.symm), dropW r h.2]

/-- the call is read back -/
theorem sql_read {net f : Str} (hn : '\'' ∉ net) (hf : ')' ∉ f) :
    sqlCall (c!"cidr_match('" ++ net ++ c!"', " ++ f ++ c!")") = some (c!"cidr_match", net, f) := by
  have e : (c!"cidr_match('" ++ net ++ c!"', " ++ f ++ c!")" : Str) =
      c!"cidr_match" ++ '(' :: ('\'' :: (net ++ '\'' :: (',' :: ' ' :: (f ++ [')'])))) := by simp
  rw [e]
  unfold sqlCall
  simp only [takeW _ (show '(' ∉ (c!"cidr_match" : Str) by decide), dropW _ (show '(' ∉ (c!"cidr_match" : Str) by decide),
    takeW _ hn, dropW _ hn, takeW _ hf, dropW _ hf]

/-- **C83** fails without the library: the SQL text calls a function `cidr_match`, which Spark does not have and nothing
registers, with network and address in the wrong order.  If the function of the library were registered under this name, no
address would be in any network. -/
theorem C83_sql_fails (v : V6) {net f : Str} (hn : '\'' ∉ net) (hs : '/' ∈ net) (hf : ')' ∉ f) :
    ∃ t, (exprTr .disallow (.call c!"cidrmatch" [.const (.str net), .const (.field f)])).map PE.unalias = some (.fn c!"expr" [pyStr t]) ∧
      (∀ m op, op = c!"=" ∨ op = c!"==" →
        exprTr m (.binary (.const (.field f)) op (.const (.ipv4cidr net))) = some (.fn c!"expr" [pyStr t])) ∧
      sqlCall t = some (c!"cidr_match", net, f) ∧ ∀ row, sqlMatch v row t ≠ some true := by
  refine ⟨c!"cidr_match('" ++ net ++ c!"', " ++ f ++ c!")", rfl, ?_, ?_, ?_⟩
  · rintro m op (rfl | rfl) <;> rfl
  · exact sql_read hn hf
  · intro row
    simp only [sqlMatch, sql_read hn hf, if_true, net_not_address v hs]
    cases row f <;> simp

/-- Networks and columns as in `C83_library_fails` and `C83_sql_fails`, and the programs. -/
example : Spec.Plain '"' (netText ⟨10, 0, 0, 0⟩ 8) = true ∧ '\'' ∉ netText ⟨10, 0, 0, 0⟩ 8 ∧ '/' ∈ netText ⟨10, 0, 0, 0⟩ 8 ∧
    outOf .allow c!"eval x=cidrmatch(\"10.0.0.0/8\", ip)" =
      some c!"df_1 = commands.eval(None, x=functions.eval.cidrmatch(\"10.0.0.0/8\", F.col('ip')))\ndf_1" ∧
    outOf .disallow c!"where cidrmatch(\"10.0.0.0/8\", ip)" = some c!"spark.table('main').where(F.expr(\"cidr_match('10.0.0.0/8', ip)\"),)" ∧
    outOf .disallow c!"search ip=10.0.0.0/8" = some c!"spark.table('main').where(F.expr(\"cidr_match('10.0.0.0/8', ip)\"),)" ∧
    outOf .disallow c!"search ip IN (10.0.0.0/8)" = some c!"spark.table('main').where((F.col('ip') == \"10.0.0.0/8\"),)" := by
  decide +kernel

/-- **C83** fails for a list: the field is compared with the text of the network, which no address is equal to. -/
theorem C83_list_fails (m : Mode) (f : Str) (net : Addr) (len : Nat) :
    exprTr m (.fieldIn f [.const (.ipv4cidr (netText net len))]) = some (.bin c!"==" (.named f) (pyStr (netText net len))) ∧
      ∀ x : Addr, x.text ≠ netText net len :=
  ⟨rfl, fun x h => text_noSlash x (by rw [h]; simp [netText])⟩

/-! ### ipmask -/

theorem mem_dropWhile {p : Char → Bool} {c : Char} (hc : p c = false) : ∀ {s : Str}, c ∈ s → c ∈ s.dropWhile p
  | d :: s, h => by
    rw [List.dropWhile_cons]
    split
    · rename_i hd
      rcases List.mem_cons.1 h with rfl | h
      · rw [hc] at hd; cases hd
      · exact mem_dropWhile hc h
    · exact h

theorem digits_noDot : ∀ s : Str, '.' ∈ s → intDigits s = none
  | [], h => by cases h
  | [c], h => by
    simp only [List.mem_cons, List.not_mem_nil, or_false] at h
    subst h; rfl
  | c :: d :: cs, h => by
    unfold intDigits
    split
    · rename_i h1; cases h1
    · rename_i c' cs' h1
      cases h1
      split
      · rename_i h2
        have : '.' ∈ cs := by
          simp only [List.mem_cons] at h
          rcases h with h | h | h
          · cases h
          · subst h; cases h2
          · exact h
        rw [digits_noDot cs this]; rfl
      · rfl
    · rename_i c' cs' _ h1
      cases h1
      split
      · rename_i h2
        have : '.' ∈ d :: cs := by
          rcases List.mem_cons.1 h with h | h
          · subst h; cases h2
          · exact h
        rw [digits_noDot _ this]; rfl
      · rfl

theorem nat_noDot {s : Str} (h : '.' ∈ s) : natOfText s = none := by
  cases s with
  | nil => rfl
  | cons c cs =>
    rw [natOfText]
    split
    · rename_i h2
      rcases List.mem_cons.1 h with h | h
      · subst h; cases h2
      · rw [digits_noDot _ h]; rfl
    · rfl

/-- a text with a point is no `int` -/
theorem int_noDot {s : Str} (h : '.' ∈ s) : intOfText s = none := by
  have h1 : '.' ∈ stripBlanks s := by
    unfold stripBlanks
    rw [List.mem_reverse]
    exact mem_dropWhile rfl (List.mem_reverse.2 (mem_dropWhile rfl h))
  unfold intOfText
  split
  · rename_i ds hs
    rw [hs] at h1
    rw [nat_noDot (by simpa using h1)]; rfl
  · rename_i ds hs
    rw [hs] at h1
    rw [nat_noDot (by simpa using h1)]; rfl
  · rw [nat_noDot h1]; rfl

/-- **C84** fails for every mask: a mask is read as a number, which it is not, and the result is missing. -/
theorem C84_mask_missing (mask : Addr) (ip : Str) : ipMask mask.text ip = none := by
  unfold ipMask
  rw [int_noDot (by simp [Addr.text])]

theorem digits_strip {s : Str} (h : ∀ c ∈ s, isDig c = true) : stripBlanks s = s := by
  have hd : ∀ {t : Str}, (∀ c ∈ t, isDig c = true) → t.dropWhile isSpace = t := by
    intro t ht
    cases t with
    | nil => rfl
    | cons c t =>
      rw [List.dropWhile_cons_of_neg]
      intro hc
      have h1 := ht c (by simp)
      simp only [isSpace, Bool.or_eq_true, beq_iff_eq] at hc
      rcases hc with ((rfl | rfl) | rfl) | rfl <;> cases h1
  unfold stripBlanks
  rw [hd h, hd (fun c hc => h c (List.mem_reverse.1 hc)), List.reverse_reverse]

theorem digits_all : ∀ {s : Str}, (∀ c ∈ s, isDig c = true) → intDigits s = some s
  | [], _ => rfl
  | c :: cs, h => by
    have hc : isDig c = true := h c (by simp)
    have ih := digits_all (s := cs) (fun d hd => h d (by simp [hd]))
    unfold intDigits
    split
    · rename_i h1; cases h1
    · rename_i h1; cases h1; cases hc
    · rename_i h1; cases h1; rw [if_pos hc, ih]; rfl

theorem int_show (n : Nat) : intOfText (showNat n) = some (n : Int) := by
  have hd := showNat_digits n
  have hn : natOfText (showNat n) = some n := by
    have hv := digitsVal_showNat n
    cases hs : showNat n with
    | nil => exact absurd hs (showNat_ne_nil n)
    | cons c cs =>
      rw [hs] at hd hv
      rw [natOfText, if_pos (hd c (by simp)), digits_all (fun d h => hd d (by simp [h])), Option.map_some, hv]
  unfold intOfText
  rw [digits_strip hd]
  split
  · rename_i h; have := hd '-' (by rw [h]; simp); cases this
  · rename_i h; have := hd '+' (by rw [h]; simp); cases this
  · rw [hn]; rfl

/-- the mask with so many leading ones -/
def maskAddr (p : Nat) : Addr :=
  ⟨⟨prefixMask p / 2 ^ 24 % 256, Nat.mod_lt _ (by decide)⟩, ⟨prefixMask p / 2 ^ 16 % 256, Nat.mod_lt _ (by decide)⟩,
   ⟨prefixMask p / 2 ^ 8 % 256, Nat.mod_lt _ (by decide)⟩, ⟨prefixMask p % 256, Nat.mod_lt _ (by decide)⟩⟩

theorem mask_bits : ∀ p : Fin 33, (maskAddr p).bits = List.replicate p true ++ List.replicate (32 - p) false := by
  decide +kernel

theorem and_byte (x m k : Nat) : (x &&& m) / 2 ^ k % 256 = (x / 2 ^ k % 256) &&& (m / 2 ^ k % 256) := by
  rw [← Nat.shiftRight_eq_div_pow, ← Nat.shiftRight_eq_div_pow, ← Nat.shiftRight_eq_div_pow, Nat.shiftRight_and_distrib,
    show 256 = 2 ^ 8 from rfl, Nat.and_mod_two_pow]

/-- **C84** (partial).  For the number of leading ones of the mask in place of the mask the function gives the address with
the mask applied. -/
theorem C84_prefix_partial (x : Addr) {len : Nat} (h : len ≤ 32) :
    ∃ mask : Addr, mask.bits = List.replicate len true ++ List.replicate (32 - len) false ∧
      ipMask (showNat len) x.text = some (x.and mask).text := by
  refine ⟨maskAddr len, mask_bits ⟨len, by omega⟩, ?_⟩
  have h1 : x.text ++ '/' :: showInt (len : Int) = netText x len := rfl
  simp only [ipMask, int_show, h1, network_text x h, Option.map_some]
  have ha : addrVal x / 2 ^ 24 % 256 = x.a := by have := x.a.isLt; have := x.b.isLt; have := x.c.isLt; have := x.d.isLt; unfold addrVal; omega
  have hb : addrVal x / 2 ^ 16 % 256 = x.b := by have := x.a.isLt; have := x.b.isLt; have := x.c.isLt; have := x.d.isLt; unfold addrVal; omega
  have hc : addrVal x / 2 ^ 8 % 256 = x.c := by have := x.a.isLt; have := x.b.isLt; have := x.c.isLt; have := x.d.isLt; unfold addrVal; omega
  have hd : addrVal x / 2 ^ 0 % 256 = x.d := by have := x.a.isLt; have := x.b.isLt; have := x.c.isLt; have := x.d.isLt; unfold addrVal; omega
  have hz : ∀ n : Nat, n % 256 = n / 2 ^ 0 % 256 := fun n => by simp
  unfold showIPv4
  rw [hz (_ &&& _), and_byte, and_byte, and_byte, and_byte, ha, hb, hc, hd]
  simp only [Addr.text, Addr.and, maskAddr, Nat.pow_zero, Nat.div_one]

example : ipMask c!"24" c!"10.1.2.3" = some c!"10.1.2.0" ∧ ipMask c!"255.255.255.0" c!"10.1.2.3" = none ∧
    ((⟨10, 1, 2, 3⟩ : Addr).and ⟨255, 255, 255, 0⟩).text = c!"10.1.2.0" := by decide +kernel

/-- **C84** fails with the library for every mask and field: the value is missing in every row. -/
theorem C84_library_missing {m : Mode} (hm : m ≠ .disallow) (mask : Addr) (f : Str) :
    ∃ p c, exprTr m (.call c!"ipmask" [.const (.str mask.text), .const (.field f)]) = some p ∧ evalRt p.unalias = some (.obj (some c)) ∧
      ∀ row : Str → Option Str, maskValue row c = (row f).map fun _ => none := by
  have hr : evalFnRuntime c!"ipmask" (argsTr m [.const (.str mask.text), .const (.field f)]) =
      some (.fn (c!"functions.eval." ++ c!"ipmask") [.lit (c!"'" ++ mask.text ++ c!"'"), .named f]) := rfl
  have hpl : Spec.Plain '\'' mask.text = true := by
    have hd : ∀ (n : Nat) (c : Char), c ∈ showNat n → (c != '\'' && c != '\\' && c != '\n' && c != '\r') = true := by
      intro n c hc
      have h := showNat_digits n c hc
      simp only [Bool.and_eq_true, bne_iff_ne]
      refine ⟨⟨⟨?_, ?_⟩, ?_⟩, ?_⟩ <;> (rintro rfl; cases h)
    simp only [Spec.Plain, Addr.text, List.all_append, List.all_cons, Bool.and_eq_true]
    refine ⟨?_, by decide, ?_, by decide, ?_, by decide, ?_⟩ <;> exact List.all_eq_true.2 (fun c hc => by simpa using hd _ c hc)
  have hst : strOf (c!"'" ++ mask.text ++ c!"'") = some mask.text := by
    unfold strOf
    rw [show (c!"'" ++ mask.text ++ c!"'" : Str) = '\'' :: mask.text ++ '\'' :: [] from rfl,
      pyString_plain (.inr rfl) hpl (by intro c r e; cases e)]
  refine ⟨.fn (c!"functions.eval." ++ c!"ipmask") [.lit (c!"'" ++ mask.text ++ c!"'"), .named f], .fn c!"udfs.ipmask" [.lit (c!"'" ++ mask.text ++ c!"'"), .named f], ?_, ?_, ?_⟩
  · cases m with
    | disallow => exact absurd rfl hm
    | require => simp only [exprTr, evalFn, hr]
    | allow => simp only [exprTr, evalFn, hr, orElse]
  · have h : evalRts [.lit (c!"'" ++ mask.text ++ c!"'"), .named f] = some [.col (.lit (c!"'" ++ mask.text ++ c!"'")), .col (.named f)] := by
      simp only [evalRts, evalRt, rtLit]
      rw [if_neg]
      simp
    simp only [PE.unalias, evalRt, h]
    rw [Verif.Lemmas.Library.rtFn_eval]
    have hl : lookupLib c!"ipmask" libEval = some (lib2 fun a b => .fn c!"udfs.ipmask" [a, b]) := rfl
    simp only [evalCall, hl, lib2, LibFn.call, bindArgs, conv, RV.toExpr, Option.map_some, bindRest, retVal, if_true]
  · intro row
    simp only [maskValue, if_true, argText, hst]
    cases row f with
    | none => rfl
    | some t => simp only [C84_mask_missing, Option.map_some]

end Verif.Props
