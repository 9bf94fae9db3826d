import Verif.Lemmas.Pattern
import Verif.Lemmas.ColumnValues
import Verif.Props.Functions
import Verif.Props.Frames
import Verif.Props.TimeFormat
/-
C72: `convert` applies the documented conversions.
-/
namespace Verif.Props
open Verif Spl Spec Lemmas

/-! ### columns of a regular expression -/

/-- the text a group of a pattern takes from a value -/
def groupOf (S : Sem) (re : Str) (k : Nat) (v : Val) : Val :=
  match S.text v with
  | none => .null
  | some t => .str ((extractGroup re k t).getD [])

theorem means_extract_code {c : PE} {f : Sem → Event → Val} {code re : Str} {k : Nat} (h : Means c f) (hr : IsConst code (.str re))
    (hg : ∀ t, (extractGroup re k t).isSome = true) :
    Means (.fn c!"regexp_extract" [c, .py code, pyInt k]) (fun S row => groupOf S re k (f S row)) := by
  refine means_mixed (cs := [code, showInt k]) (vs := [.str re, .num ((k : Int) : Rat)]) (by decide +kernel) h rfl (zip_two hr (int_const k)) ?_
  intro S row o ho hv
  rw [fFn_tail (by decide +kernel)]
  have hs : sparkFn S c!"regexp_extract" [o, .const (.str re), .const (.num ((k : Int) : Rat))] =
      (match S.text o.val with | none => some (.column .null) | some t => (extractGroup re k t).map fun g => .column (.str g)) := by
    unfold sparkFn
    simp only [ho, if_true]
    rfl
  unfold groupOf
  cases ht : S.text o.val with
  | none => exact ⟨_, by rw [show List.map Obj.const [Val.str re, Val.num ((k : Int) : Rat)] = [.const (.str re), .const (.num ((k : Int) : Rat))] from rfl, hs, ht], rfl, by rw [← hv, ht]; rfl⟩
  | some t =>
    obtain ⟨g, hgt⟩ := Option.isSome_iff_exists.1 (hg t)
    refine ⟨.column (.str g), by rw [show List.map Obj.const [Val.str re, Val.num ((k : Int) : Rat)] = [.const (.str re), .const (.num ((k : Int) : Rat))] from rfl, hs, ht]; simp only [hgt]; rfl, rfl, ?_⟩
    rw [← hv, ht]
    simp only [hgt]
    rfl

theorem means_extract {c : PE} {f : Sem → Event → Val} {re : Str} {k : Nat} (h : Means c f) (hr : IsConst (c!"\"" ++ re ++ c!"\"") (.str re))
    (hg : ∀ t, (extractGroup re k t).isSome = true) :
    Means (.fn c!"regexp_extract" [c, pyStr re, pyInt k]) (fun S row => groupOf S re k (f S row)) := means_extract_code h hr hg

/-! ### memk -/

def memkRe : Str := c!"(?i)^(\\d*\\.?\\d+)([kmg])$"
def rmunitRe : Str := c!"(?i)^(\\d*\\.?\\d+)(\\w*)$"

theorem memkRe_parts : readPattern memkRe = some ⟨true, true, numParts ++ [.opens, .some (.these c!"kmg") 1 (some 1), .closes, .ends]⟩ := by decide +kernel

theorem rmunitRe_parts : readPattern rmunitRe = some ⟨true, true, numParts ++ [.opens, .some .word 0 none, .closes, .ends]⟩ := by decide +kernel

theorem memkRe_const : IsConst (c!"\"" ++ memkRe ++ c!"\"") (.str memkRe) := self_const (by decide +kernel)
theorem rmunitRe_const : IsConst (c!"\"" ++ rmunitRe ++ c!"\"") (.str rmunitRe) := self_const (by decide +kernel)

theorem kilo_const : IsConst c!"1.0" (.num 1) := ⟨.num c!"1" c!"0", by decide +kernel, fun S row => by
  rw [pyEval, show numVal c!"1" c!"0" = 1 by decide +kernel]⟩
theorem mega_const : IsConst c!"1024.0" (.num 1024) := ⟨.num c!"1024" c!"0", by decide +kernel, fun S row => by
  rw [pyEval, show numVal c!"1024" c!"0" = 1024 by decide +kernel]⟩
theorem giga_const : IsConst c!"1048576.0" (.num 1048576) := ⟨.num c!"1048576" c!"0", by decide +kernel, fun S row => by
  rw [pyEval, show numVal c!"1048576" c!"0" = 1048576 by decide +kernel]⟩

/-- what the translation of `memk` computes from a value -/
def memkVal (S : Sem) (v : Val) : Val :=
  let u := S.prim .upper [groupOf S memkRe 2 v]
  S.arith .mul (S.prim .toNumber [groupOf S memkRe 1 v])
    (pick false [(S.cmp .eq u (.str c!"K"), .num 1), (S.cmp .eq u (.str c!"M"), .num 1024), (S.cmp .eq u (.str c!"G"), .num 1048576), (some true, .num 1)])

theorem memk_means {c : PE} {f : Sem → Event → Val} (h : Means c f) : Means (memkFn c) (fun S row => memkVal S (f S row)) := by
  have e1 := means_extract (k := 1) h memkRe_const (fun t => by unfold extractGroup; rw [memkRe_parts]; rfl)
  have e2 := means_extract (k := 2) h memkRe_const (fun t => by unfold extractGroup; rw [memkRe_parts]; rfl)
  have hn := means_double e1 rfl
  have hu : Means (.fn c!"upper" [.fn c!"regexp_extract" [c, pyStr memkRe, pyInt (2 : Nat)]]) (fun S row => S.prim .upper [groupOf S memkRe 2 (f S row)]) :=
    means_prim (fs := [fun S row => groupOf S memkRe 2 (f S row)]) (by decide +kernel) (by decide +kernel) ⟨_, _, rfl⟩ ⟨⟨e2, rfl⟩, trivial⟩
  have h1 : pyOp c!"==" = some .eq := by decide +kernel
  have h2 : (opLevel c!"==").isSome = true := by decide +kernel
  have q (x : Str) (hx : Plain '"' x = true) := means_bin hu (means_lit (plain_dconst hx)) h1 h2
  have b1 := branches_fn (q c!"K" (by decide +kernel)) (means_lit kilo_const)
  have b2 := branches_when b1 (q c!"M" (by decide +kernel)) (means_lit mega_const)
  have b3 := branches_when b2 (q c!"G" (by decide +kernel)) (means_lit giga_const)
  have b4 := means_otherwise b3 (means_lit kilo_const)
  have := means_bin hn b4 (op := c!"*") (o := .mul) (by decide +kernel) (by decide +kernel)
  refine means_congr this (fun S row => ?_)
  simp only [memkVal, Sem.op, S.truth_ofB, List.cons_append, List.nil_append]

/-! ### operations as assumed -/

/-- a decimal number written as text -/
def readNumber (s : Str) : Val :=
  match s.dropWhile isDig with
  | [] => if s.takeWhile isDig = [] then .null else .num (numVal (s.takeWhile isDig) [])
  | c :: f => if c = '.' ∧ f ≠ [] ∧ f.all isDig = true then .num (numVal (s.takeWhile isDig) f) else .null

/-- operations that are as `Usual` assumes -/
def plainSem : Sem where
  cmp := fun o a b => match o, a, b with | .eq, .str a, .str b => some (decide (a = b)) | _, _, _ => none
  arith := fun o a b => match o, a, b with | .mul, .num a, .num b => .num (a * b) | _, _, _ => .null
  truth := fun | .bool b => some b | _ => none
  text := fun | .str s => some s | _ => none
  prim := fun p vs => match p, vs with
    | .upper, [.str s] => .str (upper s)
    | .toNumber, [.str s] => readNumber s
    | .regexReplace, [.str s, .str [','], .str []] => .str (s.filter (· ≠ ','))
    | _, _ => .null
  truth_ofB := fun b => by cases b <;> rfl

theorem dropRun {p : Char → Bool} : ∀ {a b : Str}, (∀ c ∈ a, p c = true) → (∀ c t, b = c :: t → p c = false) → (a ++ b).dropWhile p = b
  | [], [], _, _ => rfl
  | [], c :: b, _, h => by rw [List.nil_append, List.dropWhile_cons, h c b rfl]; rfl
  | x :: a, b, h, hb => by
    rw [List.cons_append, List.dropWhile_cons, h x (List.mem_cons_self ..)]
    simp only [if_true]
    rw [dropRun (fun c hc => h c (List.mem_cons_of_mem _ hc)) hb]

theorem readNumber_numText {w f : Str} (h : Numerals w f) : readNumber (numText w f) = .num (numVal w f) := by
  obtain ⟨hw, hf, hne⟩ := h
  unfold numText
  split
  · rename_i h0
    subst h0
    have e1 : w.dropWhile isDig = [] := by have := dropRun (b := []) hw (by simp); rwa [List.append_nil] at this
    have e2 : w.takeWhile isDig = w := by have := takeRun (b := []) hw (by simp); rwa [List.append_nil] at this
    unfold readNumber
    rw [e1, e2]
    simp only
    rw [if_neg (by rcases hne with h | h; exact h; exact absurd rfl h)]
  · rename_i h0
    have hd : ∀ c t, '.' :: f = c :: t → isDig c = false := by
      intro c t e
      injection e with e1
      rw [← e1]
      rfl
    have e1 := dropRun hw hd
    have e2 := takeRun hw hd
    unfold readNumber
    rw [e1, e2]
    simp only
    rw [if_pos ⟨trivial, h0, List.all_eq_true.2 hf⟩]

/-- The assumptions can be met. -/
theorem plainSem_usual : Usual plainSem where
  text := fun _ => rfl
  upper := fun _ => rfl
  number := fun _ _ h => readNumber_numText h
  noNumber := rfl
  noNumber' := rfl
  replace := fun _ => rfl
  eq := fun _ _ => rfl
  mul := fun _ _ => rfl
  mulNull := fun _ => rfl

/-! ### memk on texts -/

theorem groups_found {re : Str} {p : Pattern} {s g1 g2 : Str} (hr : readPattern re = some p) (hg : (p.parts.filter (· == .opens)).length = 2)
    (h : matchHere p.anyCase p.parts [] [] s = some [g1, g2]) :
    extractGroup re 1 s = some g1 ∧ extractGroup re 2 s = some g2 := by
  have := findMatch_some h
  unfold extractGroup
  rw [hr]
  simp only [hg, this]
  exact ⟨rfl, rfl⟩

theorem groups_missing {re : Str} {p : Pattern} {s : Str} (hr : readPattern re = some p) (hg : (p.parts.filter (· == .opens)).length = 2)
    (ha : p.atStart = true) (h : ¬ Fits p.anyCase p.parts s) : extractGroup re 1 s = some [] ∧ extractGroup re 2 s = some [] := by
  have := findMatch_none ha h
  unfold extractGroup
  rw [hr]
  simp only [hg, this]
  exact ⟨rfl, rfl⟩

theorem unit_cases {u : Char} {r : Rat} (h : kilobytes u = some r) : (u = 'k' ∨ u = 'K') ∧ r = 1 ∨ (u = 'm' ∨ u = 'M') ∧ r = 1024 ∨ (u = 'g' ∨ u = 'G') ∧ r = 1048576 := by
  unfold kilobytes at h
  split at h
  · rename_i h0; injection h with h; exact .inl ⟨h0, h.symm⟩
  · split at h
    · rename_i h0; injection h with h; exact .inr (.inl ⟨h0, h.symm⟩)
    · split at h
      · rename_i h0; injection h with h; exact .inr (.inr ⟨h0, h.symm⟩)
      · cases h

theorem memk_groups {w f : Str} {u : Char} {r : Rat} (h : Numerals w f) (hu : kilobytes u = some r) :
    extractGroup memkRe 1 (numText w f ++ [u]) = some (numText w f) ∧ extractGroup memkRe 2 (numText w f ++ [u]) = some [u] := by
  refine groups_found memkRe_parts rfl (num_group h.1 h.2.1 h.2.2 ?_ ?_)
  · intro c t e
    injection e with e1
    rw [← e1]
    rcases unit_cases hu with ⟨rfl | rfl, _⟩ | ⟨rfl | rfl, _⟩ | ⟨rfl | rfl, _⟩ <;> decide
  · rcases unit_cases hu with ⟨rfl | rfl, _⟩ | ⟨rfl | rfl, _⟩ | ⟨rfl | rfl, _⟩ <;> rfl

/-- `memk` of a number and a unit, on values. -/
theorem memkVal_unit {S : Sem} (hS : Usual S) {w f : Str} {u : Char} {r : Rat} (h : Numerals w f) (hu : kilobytes u = some r) :
    memkVal S (.str (numText w f ++ [u])) = .num (numVal w f * r) := by
  have hg := memk_groups h hu
  unfold memkVal groupOf
  rw [hS.text]
  simp only [hg.1, hg.2, Option.getD_some, hS.number w f h, hS.upper, hS.eq]
  rcases unit_cases hu with ⟨rfl | rfl, rfl⟩ | ⟨rfl | rfl, rfl⟩ | ⟨rfl | rfl, rfl⟩ <;> exact hS.mul _ _

theorem lowerC_letter {u x : Char} {k : Nat} (hk : ∀ n : Nat, n < 91 → 65 ≤ n → Char.ofNat (n + 32) = x → n = k) (h : lowerC u = x) : u = x ∨ u = Char.ofNat k := by
  unfold lowerC at h
  split at h
  · rename_i hA
    have := hk u.toNat (Nat.lt_succ_of_le hA.2) hA.1 h
    right
    rw [← this, Char.ofNat_toNat]
  · exact .inl h

theorem has_unit {u : Char} (h : (Chars.these c!"kmg").has true u = true) : (kilobytes u).isSome = true := by
  simp only [Chars.has, Bool.or_eq_true, Bool.true_and, List.contains_iff_mem, List.mem_cons, List.not_mem_nil, or_false, List.map_cons, List.map_nil] at h
  rcases h with (rfl | rfl | rfl) | h
  · rfl
  · rfl
  · rfl
  · rw [show lowerC 'k' = 'k' from rfl, show lowerC 'm' = 'm' from rfl, show lowerC 'g' = 'g' from rfl] at h
    rcases h with h | h | h
    · rcases lowerC_letter (k := 75) (by decide) h with rfl | rfl <;> rfl
    · rcases lowerC_letter (k := 77) (by decide) h with rfl | rfl <;> rfl
    · rcases lowerC_letter (k := 71) (by decide) h with rfl | rfl <;> rfl

/-- what the pattern of `memk` accepts: a number, a unit, and perhaps a line end -/
theorem memk_fits {s : Str} (h : Fits true (numParts ++ [.opens, .some (.these c!"kmg") 1 (some 1), .closes, .ends]) s) :
    ∃ n u e, s = n ++ u :: e ∧ n ≠ [] ∧ (∀ c ∈ n, isDig c = true ∨ c = '.') ∧ (kilobytes u).isSome = true ∧ atEnd e = true := by
  unfold numParts at h
  simp only [List.cons_append, List.nil_append] at h
  cases h with
  | opens h =>
    cases h with
    | @item _ _ _ _ d1 _ h1 _ _ h =>
      cases h with
      | @item _ _ _ _ dot _ h2 _ _ h =>
        cases h with
        | @item _ _ _ _ d2 _ h3 l3 _ h =>
          cases h with
          | closes h =>
            cases h with
            | opens h =>
              cases h with
              | @item _ _ _ _ us e h4 l4 m4 h =>
                cases h with
                | closes h =>
                  cases h with
                  | ends he _ =>
                    have hl : us.length = 1 := Nat.le_antisymm (m4 1 rfl) l4
                    match us, hl with
                    | [u], _ =>
                      refine ⟨d1 ++ (dot ++ d2), u, e, by simp, ?_, ?_, ?_, he⟩
                      · intro e0
                        simp only [List.append_eq_nil_iff] at e0
                        rw [e0.2.2] at l3
                        simp at l3
                      · intro c hc
                        simp only [List.mem_append] at hc
                        rcases hc with hc | hc | hc
                        · exact .inl (h1 c hc)
                        · have := h2 c hc
                          simp only [Chars.has, Bool.or_eq_true, Bool.true_and, List.contains_iff_mem, List.mem_singleton, List.map_cons, List.map_nil] at this
                          rcases this with h | h
                          · exact .inr h
                          · refine .inr ?_
                            by_cases hA : 'A' ≤ c ∧ c ≤ 'Z'
                            · exfalso
                              have hall : ∀ n : Nat, n < 91 → 65 ≤ n → Char.ofNat (n + 32) ≠ '.' := by decide
                              unfold lowerC at h
                              rw [if_pos hA] at h
                              exact hall c.toNat (Nat.lt_succ_of_le hA.2) hA.1 h
                            · unfold lowerC at h
                              rw [if_neg hA] at h
                              exact h
                        · exact .inl (h3 c hc)
                      · have := h4 u (List.mem_singleton.2 rfl)
                        exact has_unit this

theorem memkVal_other {S : Sem} (hS : Usual S) {s : Str} (h : ¬ ∃ n u e, s = n ++ u :: e ∧ n ≠ [] ∧ (∀ c ∈ n, isDig c = true ∨ c = '.') ∧
    (kilobytes u).isSome = true ∧ atEnd e = true) : memkVal S (.str s) = .null := by
  have hg := groups_missing memkRe_parts rfl rfl (fun hf => h (memk_fits hf))
  unfold memkVal groupOf
  rw [hS.text]
  simp only [hg.1, hg.2, Option.getD_some, hS.noNumber, hS.upper, hS.eq]
  exact hS.mulNull _

theorem no_unit {s : Str} (h : ∀ c ∈ s, kilobytes c = none) : ¬ ∃ n u e, s = n ++ u :: e ∧ n ≠ [] ∧ (∀ c ∈ n, isDig c = true ∨ c = '.') ∧
    (kilobytes u).isSome = true ∧ atEnd e = true := by
  rintro ⟨n, u, e, rfl, _, _, hu, _⟩
  rw [h u (by simp)] at hu
  cases hu

/-- C72, `memk`: the generated column of `convert memk(field)` is the number times the documented size of the unit … -/
theorem C72_memk_partial (tf f : Str) (a : Option Str) (hf : Plain '\'' f = true) :
    ∃ p, convertFn tf ⟨c!"memk", f, a⟩ = some p ∧ ∀ S, Usual S → ∀ row w fr u r, Numerals w fr → kilobytes u = some r →
      row f = .str (numText w fr ++ [u]) → textEval S row (renderC p.unalias) = some (.num (numVal w fr * r)) := by
  refine ⟨memkFn (.named f), rfl, fun S hS row w fr u r hn hu hrow => ?_⟩
  have := (text_of_means (memk_means (means_named hf)) S row).2
  rw [show (memkFn (.named f)).unalias = memkFn (.named f) from rfl, this, hrow, memkVal_unit hS hn hu]

example : Numerals c!"1" c!"5" ∧ numText c!"1" c!"5" ++ ['G'] = c!"1.5G" ∧ kilobytes 'G' = some 1048576 ∧ numVal c!"1" c!"5" = 3 / 2 := by
  exact ⟨⟨by decide, by decide, .inl (by decide)⟩, by decide, rfl, by decide +kernel⟩

/-- … and nothing for a text that is no number with a unit at its end.  Disagreement: the documentation (and the
comment in shared.rs, "7" being 7 kilobytes) has the unit optional; a number without a unit becomes null. -/
theorem C72_memk_unit_required (tf f : Str) (a : Option Str) (hf : Plain '\'' f = true) :
    ∃ p, convertFn tf ⟨c!"memk", f, a⟩ = some p ∧ ∀ S, Usual S → ∀ row,
      (∀ w fr, Numerals w fr → row f = .str (numText w fr) → textEval S row (renderC p.unalias) = some .null) ∧
      (∀ s, row f = .str s → (¬ ∃ n u e, s = n ++ u :: e ∧ n ≠ [] ∧ (∀ c ∈ n, isDig c = true ∨ c = '.') ∧
        (kilobytes u).isSome = true ∧ atEnd e = true) → textEval S row (renderC p.unalias) = some .null) := by
  refine ⟨memkFn (.named f), rfl, fun S hS row => ?_⟩
  have ht := (text_of_means (memk_means (means_named hf)) S row).2
  have other : ∀ s, row f = .str s → (¬ ∃ n u e, s = n ++ u :: e ∧ n ≠ [] ∧ (∀ c ∈ n, isDig c = true ∨ c = '.') ∧
        (kilobytes u).isSome = true ∧ atEnd e = true) → textEval S row (renderC (memkFn (.named f)).unalias) = some .null := by
    intro s hs hno
    rw [show (memkFn (.named f)).unalias = memkFn (.named f) from rfl, ht, hs, memkVal_other hS hno]
  refine ⟨fun w fr hn hrow => other _ hrow (no_unit fun c hc => ?_), other⟩
  have hd : isDig c = true ∨ c = '.' := by
    unfold numText at hc
    split at hc
    · exact .inl (hn.1 c hc)
    · rw [List.mem_append, List.mem_cons] at hc
      rcases hc with hc | hc | hc
      · exact .inl (hn.1 c hc)
      · exact .inr hc
      · exact .inl (hn.2.1 c hc)
  unfold kilobytes
  rcases hd with hd | rfl
  · have : ∀ x, isDig x = false → c ≠ x := by rintro x hx rfl; rw [hd] at hx; cases hx
    rw [if_neg, if_neg, if_neg]
    · rintro (h | h) <;> exact this _ rfl h
    · rintro (h | h) <;> exact this _ rfl h
    · rintro (h | h) <;> exact this _ rfl h
  · decide

/-- `memk` in `eval` is the same conversion. -/
theorem C72_memk_eval_partial (e : Expr) (h : Frag .disallow e = true) :
    ∃ p, exprTr .disallow (.call c!"memk" [e]) = some p ∧ ∀ S, Usual S → ∀ row w fr u r, Numerals w fr → kilobytes u = some r →
      splEval S row e = some (.str (numText w fr ++ [u])) → textEval S row (renderC p.unalias) = some (.num (numVal w fr * r)) := by
  obtain ⟨q, f, hq, ⟨_, hu⟩, _, hs⟩ := frag_means .disallow e h
  refine ⟨(memkFn q.unalias).withAlias c!"memk", ?_, fun S hS row w fr u r hn hk hrow => ?_⟩
  · rw [exprTr, evalFn_known (spec := .one c!"memk" memkFn) rfl]
    simp only [FnSpec.one, FnSpec.apply, bindParams, bindParam, argsTr, hq, Option.map_some, List.length_cons, List.length_nil]
    rfl
  · have := (text_of_means (memk_means hu) S row).2
    rw [hs] at hrow
    have hrow := Option.some.inj hrow
    rw [show ((memkFn q.unalias).withAlias c!"memk").unalias = memkFn q.unalias from rfl, this, hrow, memkVal_unit hS hn hk]

/-! ### rmunit -/

/-- what the translation of `rmunit` computes from a value -/
def rmunitVal (S : Sem) (v : Val) : Val := S.prim .toNumber [groupOf S rmunitRe 1 v]

theorem rmunit_means {c : PE} {f : Sem → Event → Val} (h : Means c f) : Means (rmunitFn c) (fun S row => rmunitVal S (f S row)) :=
  means_double (means_extract (re := rmunitRe) (k := 1) h rmunitRe_const (fun t => by unfold extractGroup; rw [rmunitRe_parts]; rfl)) rfl

/-- letters, digits and the underscore -/
def wordChar (c : Char) : Bool := isAlnum c && c.toNat < 128 || c == '_'

theorem rmunit_groups {w f u : Str} (h : Numerals w f) (hu : ∀ c ∈ u, wordChar c = true) (hd : ∀ c t, u = c :: t → isDig c = false) :
    extractGroup rmunitRe 1 (numText w f ++ u) = some (numText w f) := by
  refine (groups_found (g2 := u) rmunitRe_parts rfl (num_group h.1 h.2.1 h.2.2 ?_ ?_)).1
  · intro c t e
    refine ⟨hd c t e, ?_⟩
    rintro rfl
    have := hu '.' (by rw [e]; simp)
    revert this; decide
  · show matchHere true (.opens :: .some .word 0 none :: _) [] _ u = _
    rw [matchHere]
    have := item_all (ac := true) (cs := .word) (least := 0) (ps := [.closes, .ends]) (cur := []) (gs := [] ++ [numText w f]) (a := u) (b := [])
      (out := [numText w f, u]) hu (by simp) (Nat.zero_le _) rfl
    rwa [List.append_nil] at this

/-- what the pattern of `rmunit` accepts: numbers, points, word characters, and perhaps a line end -/
theorem rmunit_fits {s : Str} (h : Fits true (numParts ++ [.opens, .some .word 0 none, .closes, .ends]) s) :
    ∃ n u e, s = n ++ (u ++ e) ∧ n ≠ [] ∧ (∀ c ∈ n, isDig c = true ∨ (Chars.these ['.']).has true c = true) ∧ (∀ c ∈ u, wordChar c = true) ∧ atEnd e = true := by
  unfold numParts at h
  simp only [List.cons_append, List.nil_append] at h
  cases h with
  | opens h =>
    cases h with
    | @item _ _ _ _ d1 _ h1 _ _ h =>
      cases h with
      | @item _ _ _ _ dot _ h2 _ _ h =>
        cases h with
        | @item _ _ _ _ d2 _ h3 l3 _ h =>
          cases h with
          | closes h =>
            cases h with
            | opens h =>
              cases h with
              | @item _ _ _ _ us e h4 l4 m4 h =>
                cases h with
                | closes h =>
                  cases h with
                  | ends he _ =>
                    refine ⟨d1 ++ (dot ++ d2), us, e, by simp, ?_, ?_, h4, he⟩
                    · intro e0
                      simp only [List.append_eq_nil_iff] at e0
                      rw [e0.2.2] at l3
                      simp at l3
                    · intro c hc
                      simp only [List.mem_append] at hc
                      rcases hc with hc | hc | hc
                      · exact .inl (h1 c hc)
                      · exact .inr (h2 c hc)
                      · exact .inl (h3 c hc)

/-- C72, `rmunit`: the number at the front of a text, when only word characters follow it. -/
theorem C72_rmunit_partial (tf f : Str) (a : Option Str) (hf : Plain '\'' f = true) :
    ∃ p, convertFn tf ⟨c!"rmunit", f, a⟩ = some p ∧ ∀ S, Usual S → ∀ row w fr u, Numerals w fr → (∀ c ∈ u, wordChar c = true) →
      (∀ c t, u = c :: t → isDig c = false) → row f = .str (numText w fr ++ u) → textEval S row (renderC p.unalias) = some (.num (numVal w fr)) := by
  refine ⟨rmunitFn (.named f), rfl, fun S hS row w fr u hn hu hd hrow => ?_⟩
  have := (text_of_means (rmunit_means (means_named hf)) S row).2
  rw [show (rmunitFn (.named f)).unalias = rmunitFn (.named f) from rfl, this, hrow]
  unfold rmunitVal groupOf
  rw [hS.text]
  simp only [rmunit_groups hn hu hd, Option.getD_some, hS.number w fr hn]

/-- `250ms` -/
example : Numerals c!"250" [] ∧ (∀ c ∈ c!"ms", wordChar c = true) ∧ isDig 'm' = false ∧ numText c!"250" [] ++ c!"ms" = c!"250ms" := by
  exact ⟨⟨by decide, by decide, .inl (by decide)⟩, by decide, rfl, rfl⟩

/-- Disagreement: `rmunit` is documented to look for numbers at the beginning and to remove the text after them; when
that text has any other character (a blank, a percent or dollar sign, a comma, a hyphen), nothing is left. -/
theorem C72_rmunit_other_text (tf f : Str) (a : Option Str) (hf : Plain '\'' f = true) :
    ∃ p, convertFn tf ⟨c!"rmunit", f, a⟩ = some p ∧ ∀ S, Usual S → ∀ row s t c,
      row f = .str (s ++ c :: t) → wordChar c = false → isDig c = false → c ≠ '.' → c ∉ ['\n', '\r', '\u0085', '\u2028', '\u2029'] →
      textEval S row (renderC p.unalias) = some .null := by
  refine ⟨rmunitFn (.named f), rfl, fun S hS row s t c hrow hw hd hp hl => ?_⟩
  have := (text_of_means (rmunit_means (means_named hf)) S row).2
  rw [show (rmunitFn (.named f)).unalias = rmunitFn (.named f) from rfl, this, hrow]
  have hno : ¬ Fits true (numParts ++ [.opens, .some .word 0 none, .closes, .ends]) (s ++ c :: t) := by
    intro h
    obtain ⟨n, u, e, he, _, hn, hu, hend⟩ := rmunit_fits h
    have hc : c ∈ n ++ (u ++ e) := by rw [← he]; simp
    simp only [List.mem_append] at hc
    rcases hc with hc | hc | hc
    · rcases hn c hc with h | h
      · rw [hd] at h; cases h
      · simp only [Chars.has, Bool.or_eq_true, Bool.true_and, List.contains_iff_mem, List.mem_singleton, List.map_cons, List.map_nil] at h
        rcases h with h | h
        · exact hp h
        · rw [show lowerC '.' = '.' from rfl] at h
          rcases lowerC_letter (k := 46) (by decide) h with h | h
          · exact hp h
          · exact hp h
    · rw [hu c hc] at hw; cases hw
    · simp only [atEnd, Bool.or_eq_true, beq_iff_eq] at hend
      rcases hend with (((((rfl | rfl) | rfl) | rfl) | rfl) | rfl) | rfl <;> simp at hc <;> first | (simp [hc] at hl; done) | (rcases hc with hc | hc <;> simp [hc] at hl)
  have hg := groups_missing rmunitRe_parts rfl rfl hno
  unfold rmunitVal groupOf
  rw [hS.text]
  simp only [hg.1, Option.getD_some, hS.noNumber]

/-- `10 MB`, `50%` and `-5` -/
example : wordChar ' ' = false ∧ wordChar '%' = false ∧ wordChar '-' = false ∧ isDig ' ' = false ∧ c!"10 MB" = c!"10" ++ ' ' :: c!"MB" := by decide

/-! ### rmcomma -/

theorem rmcomma_means {c : PE} {f : Sem → Event → Val} (h : Means c f) :
    Means (rmcommaFn c) (fun S row => S.prim .toNumber [S.prim .regexReplace [f S row, .str c!",", .str []]]) := by
  refine means_double (c := .fn c!"regexp_replace" [c, pyStr c!",", pyStr []]) ?_ rfl
  refine means_mixed (cs := [c!"\",\"", c!"\"\""]) (vs := [.str c!",", .str []]) (by decide +kernel) h rfl
    (zip_two (plain_dconst (s := c!",") (by decide)) (plain_dconst (s := []) rfl)) ?_
  intro S row o ho hv
  rw [fFn_tail (by decide +kernel)]
  refine ⟨.column (S.prim .regexReplace [o.val, .str c!",", .str []]), ?_, rfl, by rw [Obj.val, hv]⟩
  show sparkFn S c!"regexp_replace" [o, .const (.str c!","), .const (.str [])] = _
  unfold sparkFn
  simp only [ho, if_true, List.not_mem_nil, or_self, if_false]
  rfl

/-- C72, `rmcomma`: the number that is left when the commas are taken out. -/
theorem C72_rmcomma_partial (tf f : Str) (a : Option Str) (hf : Plain '\'' f = true) :
    ∃ p, convertFn tf ⟨c!"rmcomma", f, a⟩ = some p ∧ ∀ S, Usual S → ∀ row s,
      row f = .str s → textEval S row (renderC p.unalias) = some (S.prim .toNumber [.str (s.filter (· ≠ ','))]) ∧
      ∀ w fr, Numerals w fr → s.filter (· ≠ ',') = numText w fr → textEval S row (renderC p.unalias) = some (.num (numVal w fr)) := by
  refine ⟨rmcommaFn (.named f), rfl, fun S hS row s hrow => ?_⟩
  have := (text_of_means (rmcomma_means (means_named hf)) S row).2
  rw [show (rmcommaFn (.named f)).unalias = rmcommaFn (.named f) from rfl, this, hrow, hS.replace]
  exact ⟨rfl, fun w fr hn he => by rw [he, hS.number w fr hn]⟩

example : (c!"1,000,000.00").filter (· ≠ ',') = numText c!"1000000" c!"00" ∧ Numerals c!"1000000" c!"00" := by
  exact ⟨by decide, by decide, by decide, .inl (by decide)⟩

/-! ### ctime -/

open TimeFormat in
/-- C72, `ctime`: the time is printed with the format given by `timeformat`, in the notation of Spark: the same text
for every moment (`Printable` formats, see C42). -/
theorem C72_ctime_partial {ps : List Piece} (h : Printable ps = true) (f : Str) (a : Option Str) :
    ∃ p q, convertFn (text ps) ⟨c!"ctime", f, a⟩ = some p ∧
      renderC p.unalias = c!"F.date_format(F.col('" ++ f ++ c!"'), \"" ++ q ++ c!"\")" ∧
      ∀ t : Time, t.Ok → ∃ x, splunkText ps t = some x ∧ sparkText q t = some x := by
  obtain ⟨q, hq, ht⟩ := C42_same_text_partial h
  refine ⟨.fn c!"date_format" [.named f, pyStr q], q, ?_, ?_, ht⟩
  · unfold convertFn
    simp only [if_true, ctimeFn, hq, Option.map_some]
  · show c!"F.date_format(" ++ joinWith c!", " [renderE (.named f), renderE (pyStr q)] ++ c!")" = _
    simp [renderE, pyStr, joinWith]

open TimeFormat in
/-- the default format of the command -/
example : Printable [.dir c!"m", .lit '/', .dir c!"d", .lit '/', .dir c!"Y", .lit ' ', .dir c!"H", .lit ':', .dir c!"M", .lit ':', .dir c!"S"] = true ∧
    text [.dir c!"m", .lit '/', .dir c!"d", .lit '/', .dir c!"Y", .lit ' ', .dir c!"H", .lit ':', .dir c!"M", .lit ':', .dir c!"S"] =
      c!"%m/%d/%Y %H:%M:%S" := by decide +kernel

/-- A format with a directive that Spark lacks is refused, and with it the whole command, only for `ctime`. -/
theorem C72_ctime_refused {d tf : Str} (hd : d ∈ noPattern) (h : ∃ u v, tf = u ++ '%' :: d ++ v) (f : Str) (a : Option Str) (g : Str) :
    (convertFn tf ⟨g, f, a⟩).isNone = true ↔ g = c!"ctime" := by
  have hn := C42_refused_partial hd h
  constructor
  · intro h1
    refine Classical.byContradiction fun hg => ?_
    unfold convertFn at h1
    simp only [hg, if_false] at h1
    split at h1
    · cases h1
    split at h1
    · cases h1
    split at h1
    · cases h1
    · cases h1
  · rintro rfl
    unfold convertFn
    simp only [if_true, ctimeFn, hn]
    rfl

example : c!"X" ∈ noPattern ∧ c!"at %X" = c!"at " ++ '%' :: c!"X" ++ [] := by decide +kernel

/-! ### other names -/

/-- Disagreement: the other documented conversions are passed on by name, to functions that PySpark does not have
(`none`, `auto`, `num`, `mktime`, `mstime`, `dur2sec`); so is any name in another case. -/
theorem C72_other_names (tf g f : Str) (a : Option Str) (hg : g ∉ [c!"ctime", c!"memk", c!"rmunit", c!"rmcomma"]) (hd : '.' ∉ g) :
    ∃ p, convertFn tf ⟨g, f, a⟩ = some p ∧ renderC p.unalias = c!"F." ++ g ++ c!"(F.col('" ++ f ++ c!"'))" := by
  simp only [List.mem_cons, List.not_mem_nil, or_false, not_or] at hg
  refine ⟨.aliased (.fn g [.named f]) g, ?_, ?_⟩
  · unfold convertFn
    simp only [hg, if_false]
  · show renderC (.fn g [.named f]) = _
    simp [renderC, renderE, joinWith, renderArgs, hd]

example : ∀ g ∈ [c!"auto", c!"dur2sec", c!"mktime", c!"mstime", c!"none", c!"num", c!"MEMK"],
    g ∉ [c!"ctime", c!"memk", c!"rmunit", c!"rmcomma"] ∧ '.' ∉ g := by decide

/-! ### the command -/

/-- the column a conversion is written to: the one named, or the field itself -/
def target (c : FieldConversion) : Str := c.alias.getD c.field

/-- the text of one conversion -/
def convertStep (tf : Str) (c : FieldConversion) : Option Str :=
  (convertFn tf c).map fun p => c!".withColumn('" ++ target c ++ c!"', " ++ renderC p.unalias ++ c!",)"

/-- all or nothing -/
def allOf : List (Option Str) → Option Str
  | [] => some []
  | none :: _ => none
  | some x :: xs => (allOf xs).map (x ++ ·)

theorem convertLoop_text (tf : Str) : ∀ (cs : List FieldConversion) (d : DF),
    (convertLoop tf cs d).map (fun d => d.render.text) = (allOf (cs.map (convertStep tf))).map (d.render.text ++ ·)
  | [], d => by simp [convertLoop, allOf]
  | c :: cs, d => by
    rw [convertLoop]
    cases hc : convertFn tf c with
    | none => simp [convertStep, hc, allOf]
    | some p =>
      have ih := convertLoop_text tf cs (d.mkWithColumn (c.alias.getD c.field) p)
      show Option.map _ (convertLoop tf cs _) = _
      rw [ih]
      simp only [List.map_cons, convertStep, hc, Option.map_some, allOf, Option.map_map]
      congr 1
      funext x
      simp [DF.mkWithColumn, DF.render, target, Function.comp, PyCode.text, PyCode.of]

/-- C72, the command: after any commands, one column is written per conversion, in the order given, and none if
one of the conversions is refused. -/
theorem C72_command {m : Mode} (hm : m ≠ .require) (x : Ext) (p : Pipeline) (s : St) (hs : runCmds ⟨m, x⟩ p ⟨1, none⟩ = some s)
    (tf : Str) (cs : List FieldConversion) :
    renderPipeline ⟨m, x⟩ (p ++ [.convert tf cs]) = (allOf (cs.map (convertStep tf))).map (s.cur.render.text ++ ·) := by
  have key : runCmds ⟨m, x⟩ [.convert tf cs] s = (convertLoop tf cs s.cur).map s.put := by
    have : transform ⟨m, x⟩ (.convert tf cs) s = (convertLoop tf cs s.cur).map s.put := by
      rw [transform, convertTr]
      cases m with
      | disallow => rfl
      | allow => rfl
      | require => exact absurd rfl hm
    simp only [runCmds, this]
    cases convertLoop tf cs s.cur <;> rfl
  unfold renderPipeline
  rw [runCmds_append, hs, Option.bind_some, key, ← convertLoop_text, Option.map_map]
  rfl

/-- Disagreement: with the runtime library required nothing is generated. -/
theorem C72_required_refused (x : Ext) (p : Pipeline) (tf : Str) (cs : List FieldConversion) : renderPipeline ⟨.require, x⟩ (p ++ [.convert tf cs]) = none := by
  unfold renderPipeline
  rw [runCmds_append]
  cases runCmds ⟨.require, x⟩ p ⟨1, none⟩ with
  | none => rfl
  | some s => rw [Option.bind_some, runCmds, transform, dispatch]; rfl

example (x : Ext) : renderPipeline ⟨.allow, x⟩ [.convert c!"%Y" [⟨c!"ctime", c!"indextime", some c!"year"⟩, ⟨c!"rmcomma", c!"price", none⟩]] =
    some c!"spark.table('main').withColumn('year', F.date_format(F.col('indextime'), \"yyyy\"),).withColumn('price', F.regexp_replace(F.col('price'), \",\", \"\").cast(\"double\"),)" := by
  rw [show [Command.convert c!"%Y" [⟨c!"ctime", c!"indextime", some c!"year"⟩, ⟨c!"rmcomma", c!"price", none⟩]] =
    [] ++ [Command.convert c!"%Y" [⟨c!"ctime", c!"indextime", some c!"year"⟩, ⟨c!"rmcomma", c!"price", none⟩]] from rfl,
    C72_command (by decide) x [] ⟨1, none⟩ rfl]
  rfl

/-- what the conversions do to one row, one after the other -/
def convertRow {V : Type} (val : PE → Row V → V) (tf : Str) : List FieldConversion → Row V → Row V
  | [], r => r
  | c :: cs, r => match convertFn tf c with
    | none => r
    | some p => convertRow val tf cs (setCol (target c) (val p.unalias r) r)

theorem convertLoop_rows {V : Type} (S : Spark V) (tf : Str) : ∀ (cs : List FieldConversion) (d d' : DF),
    convertLoop tf cs d = some d' → S.meaning d' = (S.meaning d).map (convertRow S.val tf cs)
  | [], d, d', h => by
    rw [convertLoop] at h
    injection h with h
    subst h
    exact (List.map_id _).symm
  | c :: cs, d, d', h => by
    rw [convertLoop] at h
    cases hc : convertFn tf c with
    | none => rw [hc] at h; cases h
    | some p =>
      rw [hc] at h
      rw [convertLoop_rows S tf cs _ _ h]
      simp only [DF.mkWithColumn, Spark.meaning, List.map_map]
      congr 1
      funext r
      simp only [Function.comp, convertRow, hc]
      rfl

/-- C72, rows: every row keeps its place; a conversion writes its target (the alias, or the field itself), and
every other column stays. -/
theorem C72_rows {V : Type} (S : Spark V) {m : Mode} (hm : m ≠ .require) (x : Ext) (tf : Str) (c : FieldConversion) (s t : St)
    (h : transform ⟨m, x⟩ (.convert tf [c]) s = some t) :
    ∃ p, convertFn tf c = some p ∧ S.meaning t.cur = (S.meaning s.cur).map (fun r => setCol (target c) (S.val p.unalias r) r) ∧
      ∀ r n, cell S.null (setCol (target c) (S.val p.unalias r) r) n = if n = target c then S.val p.unalias r else cell S.null r n := by
  have ht : (convertLoop tf [c] s.cur).map s.put = some t := by
    rw [transform, convertTr] at h
    cases m with
    | disallow => exact h
    | allow => exact h
    | require => exact absurd rfl hm
  obtain ⟨d, hd, rfl⟩ := Option.map_eq_some_iff.1 ht
  have hr := convertLoop_rows S tf [c] _ _ hd
  rw [convertLoop] at hd
  cases hc : convertFn tf c with
  | none => rw [hc] at hd; cases hd
  | some p =>
    refine ⟨p, rfl, ?_, fun r n => ?_⟩
    · show S.meaning d = _
      rw [hr]
      congr 1
      funext r
      simp only [convertRow, hc]
    · by_cases hn : n = target c
      · rw [if_pos hn, hn, cell_setCol]
      · rw [if_neg hn, cell_setCol_ne _ _ _ _ _ hn]

/-- Conversions one after the other are conversions in one command. -/
theorem C72_split {m : Mode} (x : Ext) (tf : Str) (cs ds : List FieldConversion) (p q : Pipeline) :
    renderPipeline ⟨m, x⟩ (p ++ .convert tf (cs ++ ds) :: q) = renderPipeline ⟨m, x⟩ (p ++ .convert tf cs :: .convert tf ds :: q) := by
  have app : ∀ (cs : List FieldConversion) (d : DF), convertLoop tf (cs ++ ds) d = (convertLoop tf cs d).bind (convertLoop tf ds) := by
    intro cs
    induction cs with
    | nil => intro d; rfl
    | cons c cs ih =>
      intro d
      simp only [List.cons_append, convertLoop]
      cases convertFn tf c with
      | none => rfl
      | some e => exact ih _
  have key : ∀ s : St, runCmds ⟨m, x⟩ (.convert tf (cs ++ ds) :: q) s = runCmds ⟨m, x⟩ (.convert tf cs :: .convert tf ds :: q) s := by
    intro s
    cases m with
    | require => rfl
    | _ =>
      simp only [runCmds, transform, dispatch, orElse, convertTr, app]
      cases convertLoop tf cs s.cur with
      | none => rfl
      | some d =>
        have hc : (s.put d).cur = d := rfl
        simp only [Option.map_some, Option.bind_some, hc]
        cases convertLoop tf ds d <;> rfl
  unfold renderPipeline
  rw [runCmds_append, runCmds_append]
  cases runCmds ⟨m, x⟩ p ⟨1, none⟩ with
  | none => rfl
  | some s => simp [key]

end Verif.Props
