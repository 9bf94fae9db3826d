import Verif.Lemmas.Size
import Verif.Tr.Commands
/-
How long the translated functions of `stats` are.
-/
namespace Verif.Lemmas.Size
open Verif Verif.Spec

/-- A function whose translation is not much longer than its arguments written twice. -/
structure Double (f : FnSpec) : Prop where
  name : f.alias.length ≤ 20
  body : ∀ vs as ms b, colsSize ms ≤ budget (as.drop f.params.length) → f.body vs as ms = some b →
    size b ≤ 120 + 2 * valsSize vs + budget (as.drop f.params.length)

theorem apply_double {f : FnSpec} (hf : Double f) {as : List Arg} (hs : Slim as) {p : PE} (h : f.apply as = some p) :
    size p ≤ 150 + 2 * budget as := by
  unfold FnSpec.apply at h
  split at h
  · cases h
  · rename_i vs hvs
    have hb := bind_size hs hvs
    simp only [Option.map_eq_some_iff] at h
    obtain ⟨b, hb', rfl⟩ := h
    have ha := alias_size b f.alias
    have h0 := hf.name
    have : size b ≤ 120 + 2 * valsSize vs + budget (as.drop f.params.length) := by
      split at hb'
      · split at hb'
        · exact hf.body vs as [] b (Nat.zero_le _) hb'
        · cases hb'
      · exact hf.body vs as [] b (Nat.zero_le _) hb'
      · split at hb'
        · cases hb'
        · rename_i ms hms
          exact hf.body vs as ms b (map_size (fun x hx => hs x (List.mem_of_mem_drop hx)) hms) hb'
    omega

theorem double_one {a : Str} {f : PE → PE} (ha : a.length ≤ 20) (h : ∀ x, size (f x) ≤ 200 + 2 * size x) : Double (.one a f) := by
  refine ⟨ha, fun vs as ms b _ hb => ?_⟩
  simp only [FnSpec.one] at hb
  split at hb
  · cases hb
    rename_i x
    have := h x
    simp only [valsSize, valSize]; omega
  · cases hb

theorem rate_size (x : PE) : size (rateBody x) ≤ 200 + 2 * size x := by
  unfold rateBody
  have h1 := bin_size (PE.mkBin (.fn c!"last" [x]) c!"-" (.fn c!"first" [x])) c!"/" (PE.mkBin (.fn c!"max" [timeCol]) c!"-" (.fn c!"min" [timeCol]))
  have h2 := bin_size (.fn c!"last" [x]) c!"-" (.fn c!"first" [x])
  have h3 := bin_size (.fn c!"max" [timeCol]) c!"-" (.fn c!"min" [timeCol])
  simp only [size, sizes, timeCol, List.length_cons, List.length_nil] at *
  omega

theorem double_table : ∀ x ∈ statsTable, Double x.2 := by
  unfold statsTable
  simp only [List.forall_mem_cons, List.not_mem_nil, false_implies, implies_true, and_true]
  repeat' apply And.intro
  all_goals first
    | (refine double_one (by decide) ?_; exact rate_size)
    | (refine double_one (by decide) ?_; intro x; simp only [size, sizes, List.length_cons, List.length_nil]; omega)
    | (refine double_one (by decide) ?_; intro x; have := pyBool_size true; simp only [size, sizes, List.length_cons, List.length_nil]; omega)
    | (refine double_one (by decide) ?_; intro x; have := bin_size x c!"*" x; simp only [size, sizes, List.length_cons, List.length_nil] at *; omega)
    | (refine double_one (by decide) ?_; intro x; have := bin_size x c!"-" (.fn c!"min" [x]); simp only [size, sizes, List.length_cons, List.length_nil] at *; omega)
    | skip
  all_goals
    refine ⟨by decide, fun vs as ms b hm h => ?_⟩
    dsimp only at h hm ⊢
    simp only [List.length_nil, List.drop_zero] at hm ⊢
    try split at h
    all_goals first
      | cases h; done
      | (cases h; simp only [size, sizes, colsSize, timeCol, List.length_cons, List.length_nil] at *; omega)

theorem percent_length {s : Str} {p : Nat} (h : parseU32 s = some p) : (percentText p).length ≤ 20 := by
  have hp : p < 2 ^ 32 := by
    unfold parseU32 at h
    split at h
    all_goals
      dsimp only at h
      split at h
      · rename_i hc
        simp only [Bool.and_eq_true, decide_eq_true_eq, Option.some.injEq] at hc h
        omega
      · cases h
  have h1 := dbl_length ⟨false, showNat (p / 100), [digitC (p % 100 / 10), digitC (p % 10)]⟩
  have h2 := showNat_length (n := p / 100) 9 (by omega)
  simp only [percentText, List.length_cons, List.length_nil] at *
  omega

theorem double_percent {a f n : Str} (ha : a.length ≤ 20) (hf : f.length ≤ 20) : Double (percentileSpec a f n) := by
  refine ⟨ha, fun vs as ms b _ hb => ?_⟩
  simp only [percentileSpec] at hb
  split at hb
  · simp only [Option.map_eq_some_iff] at hb
    obtain ⟨p, hp, rfl⟩ := hb
    have := percent_length hp
    simp only [size, sizes, valsSize, valSize, List.length_cons, List.length_nil]; omega
  · cases hb

theorem statsSpec_double {n : Str} {f : FnSpec} (h : statsSpec n = some f) : Double f := by
  unfold statsSpec at h
  split at h
  · rename_i g hg
    cases h
    exact double_table _ (lookupFn_mem hg)
  · split at h
    · cases h; exact double_percent (by decide) (by decide)
    · split at h
      · cases h; exact double_percent (by decide) (by decide)
      · split at h
        · cases h; exact double_percent (by decide) (by decide)
        · cases h

theorem statsCol_size {n : Str} {as : List Arg} (hs : Slim as) {p : PE} (h : statsFnBareCol n as = some p) :
    size p ≤ 150 + 100 * n.length + 2 * budget as := by
  unfold statsFnBareCol at h
  split at h
  · rename_i f hf
    have := apply_double (statsSpec_double hf) hs h
    omega
  · split at h
    · cases h
    · have := pass_size hs h
      omega

end Verif.Lemmas.Size
