import Verif.Spec.Time
import Verif.Spec.Tree
import Verif.Lemmas.Plain
import Verif.Lemmas.PlainCmd
import Verif.Lemmas.Snap
import Verif.Props.Quotes
import Verif.Props.Program
import Verif.Props.Library
/-
C85: what `relative_time` computes.
-/
namespace Verif.Props
open Verif P Lex Spl Spec Lemmas

namespace RelTime

theorem split_none {q : Char} : ∀ {n : Str}, q ∉ n → splitOnC q n = [n]
  | [], _ => rfl
  | c :: n, h => by
    rw [splitOnC, if_neg (fun e => h (by simp [e])), split_none (fun e => h (by simp [e]))]

theorem split_first {q : Char} : ∀ {n : Str}, q ∉ n → ∀ r, splitOnC q (n ++ q :: r) = n :: splitOnC q r
  | [], _, r => by simp [splitOnC]
  | c :: n, h, r => by
    rw [List.cons_append, splitOnC, if_neg (fun e => h (by simp [e])), split_first (fun e => h (by simp [e]))]

theorem sqlInt_show (n : Int) : sqlInt (showInt n) = some n := by
  have hall : ∀ k : Nat, (showNat k).all isDig = true := fun k => List.all_eq_true.2 (fun c hc => showNat_digits k c hc)
  unfold showInt
  cases n with
  | ofNat k =>
    show sqlInt (showNat k) = _
    have hd := hall k
    have hv := digitsVal_showNat k
    have hne := showNat_ne_nil k
    cases hs : showNat k with
    | nil => exact absurd hs hne
    | cons c t =>
      rw [hs] at hd hv
      have hc : c ≠ '-' := by
        rintro rfl
        simp [isDig] at hd
      unfold sqlInt
      split
      · rename_i ds e; simp only [List.cons.injEq] at e; exact absurd e.1 hc
      · rw [if_pos ⟨by simp, hd⟩, hv]; rfl
  | negSucc k =>
    show (if showNat (k + 1) ≠ [] ∧ (showNat (k + 1)).all isDig then some (-(digitsVal (showNat (k + 1)) : Int)) else none) = _
    rw [if_pos ⟨showNat_ne_nil _, hall _⟩, digitsVal_showNat]
    rfl

theorem names : ∀ x ∈ unitSpellings, ∃ u, unitOfName x.2 = some u := by
  have h : ∀ x ∈ unitSpellings, (unitOfName x.2).isSome = true := by decide
  exact fun x hx => Option.isSome_iff_exists.1 (h x hx)

theorem unit_cases {n : Str} {u : TUnit} (h : unitOfName n = some u) :
    n = c!"seconds" ∧ u = .second ∨ n = c!"minutes" ∧ u = .minute ∨ n = c!"hours" ∧ u = .hour ∨ n = c!"days" ∧ u = .day ∨
      n = c!"weeks" ∧ u = .week ∨ n = c!"months" ∧ u = .month := by
  unfold unitOfName at h
  repeat' split at h
  all_goals first | cases h | skip
  all_goals simp_all

theorem showInt_noBlank (n : Int) : ' ' ∉ showInt n := by
  intro h
  have hn : ∀ k : Nat, ' ' ∉ showNat k := fun k h => by have := showNat_digits k _ h; revert this; decide
  cases n with
  | ofNat k => exact hn k h
  | negSucc k =>
    rcases List.mem_cons.1 (show ' ' ∈ '-' :: showNat (k + 1) from h) with h | h
    · revert h; decide
    · exact hn _ h

theorem interval_read {x : TimeSpan} {u : TUnit} (h : unitOfName x.scale = some u) :
    sqlInterval (c!"INTERVAL " ++ showInt x.value ++ c!" " ++ upper x.scale) = some (x.value, u) := by
  have h1 : c!"INTERVAL " ++ showInt x.value ++ c!" " ++ upper x.scale =
      c!"INTERVAL" ++ ' ' :: (showInt x.value ++ ' ' :: upper x.scale) := by simp
  have h2 : ' ' ∉ upper x.scale ∧ unitOfName (lower (upper x.scale)) = some u := by
    rcases unit_cases h with ⟨e, rfl⟩ | ⟨e, rfl⟩ | ⟨e, rfl⟩ | ⟨e, rfl⟩ | ⟨e, rfl⟩ | ⟨e, rfl⟩ <;> rw [e] <;> decide
  unfold sqlInterval
  rw [h1, split_first (by decide), split_first (showInt_noBlank _), split_none h2.1]
  simp only [if_true, sqlInt_show, h2.2]

/-- adding an amount of time, as read by Spark -/
theorem offset_val (c : Calendar) (col : PyE → Option Int) {p : PE} {e : PyE} {x : TimeSpan} {u : TUnit} {t : Int}
    (hp : pyTree p = some e) (hv : timeVal c col e = some t) (h : unitOfName x.scale = some u) (hu : p.unalias = p) :
    ∃ e', pyTree (offsetTime p x) = some e' ∧ timeVal c col e' = some (later c x.value u t) ∧ (offsetTime p x).unalias = offsetTime p x := by
  have hpl : Plain '"' (c!"INTERVAL " ++ showInt x.value ++ c!" " ++ upper x.scale) = true := by
    have hn : ∀ c ∈ showInt x.value, (c != '"' && c != '\\' && c != '\n' && c != '\r') = true := by
      have hd : ∀ k : Nat, ∀ c ∈ showNat k, (c != '"' && c != '\\' && c != '\n' && c != '\r') = true := fun k c hc => by
        have h := showNat_digits k c hc
        simp only [Bool.and_eq_true, bne_iff_ne]
        refine ⟨⟨⟨?_, ?_⟩, ?_⟩, ?_⟩ <;> (rintro rfl; revert h; decide)
      intro c hc
      cases hx : x.value with
      | ofNat k => rw [hx] at hc; exact hd k c hc
      | negSucc k =>
        rw [hx] at hc
        rcases List.mem_cons.1 (show c ∈ '-' :: showNat (k + 1) from hc) with rfl | hc
        · decide
        · exact hd _ c hc
    have hs : Plain '"' (upper x.scale) = true := by
      rcases unit_cases h with ⟨e, -⟩ | ⟨e, -⟩ | ⟨e, -⟩ | ⟨e, -⟩ | ⟨e, -⟩ | ⟨e, -⟩ <;> rw [e] <;> decide
    unfold Plain at hs ⊢
    rw [List.all_append, List.all_append, List.all_append, hs]
    simp only [Bool.and_true, Bool.and_eq_true]
    exact ⟨⟨by decide, List.all_eq_true.2 hn⟩, by decide⟩
  refine ⟨.bin c!"+" e (.call (.attr (.name c!"F") c!"expr") [.str (c!"INTERVAL " ++ showInt x.value ++ c!" " ++ upper x.scale)]), ?_, ?_, rfl⟩
  · have hc : codeTree (c!"\"" ++ (c!"INTERVAL " ++ showInt x.value ++ c!" " ++ upper x.scale) ++ c!"\"") = some _ := codeTree_dquote hpl
    simp only [offsetTime, PE.mkBin, hu, PE.unalias, pyStr]
    simp only [pyTree, pyTrees, hp, hc]
    rfl
  · simp only [timeVal, if_true, hv, intervalOf, and_self, interval_read h]

/-- the units the translation can round to -/
theorem round_val (c : Calendar) (col : PyE → Option Int) {p : PE} {e : PyE} {n : Str} {u : TUnit} {t : Int}
    (hp : pyTree p = some e) (hv : timeVal c col e = some t) (h : unitOfName n = some u) :
    ∃ q e' r, roundTime p n = some q ∧ pyTree q = some e' ∧ timeVal c col e' = some r ∧ (q.unalias = q ∧ (q.withAlias c!"now").unalias = q) ∧
      (u ≠ .week → Latest (begins c u) t r) ∧ (u = .week → r = t - (t - (aSunday + 86400)) % 604800) := by
  have hf : ∀ s : Str, Plain '"' s = true → pyTree (.fn c!"date_trunc" [pyStr s, p]) =
      some (.call (.attr (.name c!"F") c!"date_trunc") [.str s, e]) := by
    intro s hs
    have hc : codeTree (c!"\"" ++ s ++ c!"\"") = some (.str s) := codeTree_dquote hs
    simp only [pyTree, pyTrees, pyStr, hp, hc]
    rfl
  have hval : ∀ s : Str, timeVal c col (.call (.attr (.name c!"F") c!"date_trunc") [.str s, e]) = dateTrunc c s t := by
    intro s
    simp only [timeVal, timeCall, and_self, if_true, hv, Option.bind_some]
  rcases unit_cases h with ⟨rfl, rfl⟩ | ⟨rfl, rfl⟩ | ⟨rfl, rfl⟩ | ⟨rfl, rfl⟩ | ⟨rfl, rfl⟩ | ⟨rfl, rfl⟩
  · exact ⟨_, _, _, rfl, hf _ (by decide), (hval c!"second").trans rfl, ⟨rfl, rfl⟩, fun _ => ⟨trivial, by omega, fun r _ h => h⟩, by simp⟩
  · refine ⟨_, _, _, rfl, hf _ (by decide), (hval c!"minute").trans rfl, ⟨rfl, rfl⟩, fun _ => ⟨?_, ?_, fun r h1 h2 => ?_⟩, by simp⟩
    · show (60 : Int) ∣ _; omega
    · omega
    · have h1 : (60 : Int) ∣ r := h1; omega
  · refine ⟨_, _, _, rfl, hf _ (by decide), (hval c!"hour").trans rfl, ⟨rfl, rfl⟩, fun _ => ⟨?_, ?_, fun r h1 h2 => ?_⟩, by simp⟩
    · show (3600 : Int) ∣ _; omega
    · omega
    · have h1 : (3600 : Int) ∣ r := h1; omega
  · refine ⟨_, _, _, rfl, hf _ (by decide), (hval c!"day").trans rfl, ⟨rfl, rfl⟩, fun _ => ⟨?_, ?_, fun r h1 h2 => ?_⟩, by simp⟩
    · show (86400 : Int) ∣ _; omega
    · omega
    · have h1 : (86400 : Int) ∣ r := h1; omega
  · exact ⟨_, _, _, rfl, hf _ (by decide), (hval c!"week").trans rfl, ⟨rfl, rfl⟩, by simp, fun _ => rfl⟩
  · exact ⟨_, _, _, rfl, hf _ (by decide), (hval c!"month").trans rfl, ⟨rfl, rfl⟩, fun _ => c.monthStart_spec t, by simp⟩

theorem span_unit {x : TimeSpan} {t : Str} (h : SpanText x t) : ∃ u, unitOfName x.scale = some u := by
  cases h with
  | plain _ _ h _ => exact names _ h
  | plus _ _ h _ => exact names _ h
  | minus _ _ h _ => exact names _ h

/-- the value of the body, for any unit to snap to -/
theorem body_val (c : Calendar) (col : PyE → Option Int) {p : PE} {e : PyE} {x : SnapTime} {s : Str} {t : Int} (hx : SnapText x s)
    (hp : pyTree p = some e) (hv : col e = some t) :
    ∃ q e' a b r u, relativeTimeBody p x = some q ∧ pyTree q = some e' ∧ timeVal c col e' = some r ∧ (q.withAlias c!"now").unalias = q ∧
      Shifted c x.span t a ∧ unitOfName x.snap = some u ∧ Shifted c x.snapOffset b r ∧ (u ≠ .week → Latest (begins c u) a b) ∧
      (u = .week → b = a - (a - (aSunday + 86400)) % 604800) := by
  obtain ⟨ha, hs, hm, hb, -⟩ := hx
  rename_i a0 m0 s0 n b0 x y
  obtain ⟨u, hu⟩ := names _ hs
  have h1 : pyTree (.fn c!"to_timestamp" [p]) = some (.call (.attr (.name c!"F") c!"to_timestamp") [e]) := by
    simp only [pyTree, pyTrees, hp]
    rfl
  have h2 : timeVal c col (.call (.attr (.name c!"F") c!"to_timestamp") [e]) = some t := by
    simp only [timeVal]
    unfold timeCall
    simp only [and_self, if_true, hv]
  have step1 : ∃ q e' a, (∀ k z, relativeTimeBody p ⟨x, k, z⟩ = match roundTime q k with
        | none => none
        | some t => some (match z with | none => t | some o => offsetTime t o)) ∧
      pyTree q = some e' ∧ timeVal c col e' = some a ∧ Shifted c x t a := by
    have hsome : ∀ o : TimeSpan, (∃ u, unitOfName o.scale = some u) → ∃ q e' a, (∀ k z, relativeTimeBody p ⟨some o, k, z⟩ = match roundTime q k with
          | none => none
          | some t => some (match z with | none => t | some o => offsetTime t o)) ∧
        pyTree q = some e' ∧ timeVal c col e' = some a ∧ Shifted c (some o) t a := by
      rintro o ⟨u, hu⟩
      obtain ⟨e', h3, h4, -⟩ := offset_val c col (x := o) h1 h2 hu rfl
      exact ⟨_, e', _, fun _ _ => rfl, h3, h4, u, hu, rfl⟩
    cases ha with
    | none => exact ⟨_, _, t, fun _ _ => rfl, h1, h2, rfl⟩
    | amount h => exact hsome _ (span_unit h)
    | one h _ => exact hsome _ (names _ h)
    | minusOne h _ => exact hsome _ (names _ h)
  obtain ⟨q1, e1, a, hq1, ht1, hv1, hs1⟩ := step1
  obtain ⟨q2, e2, b, hq2, ht2, hv2, hu2, hl, hw⟩ := round_val c col ht1 hv1 hu
  cases hb with
  | none =>
    refine ⟨q2, e2, a, b, b, u, ?_, ht2, hv2, hu2.2, hs1, hu, rfl, hl, hw⟩
    rw [hq1, show roundTime q1 n = some q2 from hq2]
  | @amount o _ h =>
    obtain ⟨u', hu'⟩ := span_unit h
    obtain ⟨e3, ht3, hv3, -⟩ := offset_val c col (x := o) ht2 hv2 hu' hu2.1
    refine ⟨offsetTime q2 o, e3, a, b, _, u, ?_, ht3, hv3, rfl, hs1, hu, ⟨u', hu', rfl⟩, hl, hw⟩
    rw [hq1, show roundTime q1 n = some q2 from hq2]

/-- the translation of the call -/
theorem call_body {m : Mode} (hm : m ≠ .require) {e : Expr} {p : PE} (hp : exprTr m e = some p) (x : SnapTime) :
    exprTr m (.call c!"relative_time" [e, .const (.snapTime x)]) = (relativeTimeBody p.unalias x).map fun q => q.withAlias c!"now" := by
  have hbare : evalFnBare c!"relative_time" (argsTr m [e, .const (.snapTime x)]) =
      (relativeTimeBody p.unalias x).map fun q => q.withAlias c!"now" := by
    have hl : lookupFn c!"relative_time" evalTable = some ⟨c!"now", [.expr], .ignored,
      fun | [.e t], args, _ => relativeTimeArgs t args | _, _, _ => none⟩ := rfl
    rw [evalFnBare, hl]
    simp only [argsTr, exprTr, hp, Option.map_some, FnSpec.apply, bindParams, bindParam]
    rfl
  have hrt : evalFnRuntime c!"relative_time" (argsTr m [e, .const (.snapTime x)]) = none := by
    rw [evalFnRuntime, if_neg (by decide)]
    simp only [argsTr, exprTr, hp, Option.map_some]
    rfl
  rw [exprTr]
  cases m with
  | require => exact absurd rfl hm
  | disallow => exact hbare
  | allow => rw [evalFn, hrt]; exact hbare

end RelTime

open RelTime

/-- **C85** (partial).  For a specifier that snaps to seconds, minutes, hours, days or months, `relative_time` of a column is
the time the specifier stands for: the first amount of time later, back to the beginning of the unit, and the second amount
of time later. -/
theorem C85_relative_partial (c : Calendar) (col : PyE → Option Int) {m : Mode} (hm : m ≠ .require) {e : Expr} {p : PE} {te : PyE}
    {x : SnapTime} {s : Str} {t : Int} (hp : exprTr m e = some p) (ht : pyTree p.unalias = some te) (hc : col te = some t)
    (hx : SnapText x s) (hw : x.snap ≠ c!"weeks") :
    ∃ q tq r, exprTr m (.call c!"relative_time" [e, .const (.snapTime x)]) = some q ∧ pyTree q.unalias = some tq ∧
      timeVal c col tq = some r ∧ Adjusted c x t r := by
  obtain ⟨q, e', a, b, r, u, h1, h2, h3, h4, h5, h6, h7, h8, -⟩ := body_val c col hx ht hc
  refine ⟨q.withAlias c!"now", e', r, ?_, ?_, h3, a, u, b, h5, h6, h8 ?_, h7⟩
  · rw [call_body hm hp, h1]; rfl
  · rw [h4]; exact h2
  · rintro rfl
    rcases unit_cases h6 with ⟨-, h⟩ | ⟨-, h⟩ | ⟨-, h⟩ | ⟨-, h⟩ | ⟨h, -⟩ | ⟨-, h⟩
    · cases h
    · cases h
    · cases h
    · cases h
    · exact hw h
    · cases h

/-- **C85** fails for every specifier that snaps to weeks, at all times: in SPL weeks begin on Sunday, in Spark on Monday.
(For months the time before the second amount differs, and whether the time after it does depends on the calendar.) -/
theorem C85_week_fails (c : Calendar) (col : PyE → Option Int) {m : Mode} (hm : m ≠ .require) {e : Expr} {p : PE} {te : PyE}
    {x : SnapTime} {s : Str} {t : Int} (hp : exprTr m e = some p) (ht : pyTree p.unalias = some te) (hc : col te = some t)
    (hx : SnapText x s) (hw : x.snap = c!"weeks") (ho : ∀ o, x.snapOffset = some o → o.scale ≠ c!"months") :
    ∃ q tq r, exprTr m (.call c!"relative_time" [e, .const (.snapTime x)]) = some q ∧ pyTree q.unalias = some tq ∧
      timeVal c col tq = some r ∧ ¬ Adjusted c x t r := by
  obtain ⟨q, e', a, b, r, u, h1, h2, h3, h4, h5, h6, h7, -, h8⟩ := body_val c col hx ht hc
  refine ⟨q.withAlias c!"now", e', r, ?_, ?_, h3, ?_⟩
  · rw [call_body hm hp, h1]; rfl
  · rw [h4]; exact h2
  · rintro ⟨a', u', b', g5, g6, ⟨g8, g9, g10⟩, g7⟩
    have hu : u = .week := by rw [hw] at h6; exact (Option.some.inj h6).symm
    have hu' : u' = .week := by rw [hw] at g6; exact (Option.some.inj g6).symm
    subst hu; subst hu'
    have ha : a' = a := by
      cases hx : x.span with
      | none => rw [hx] at h5 g5; exact g5.trans h5.symm
      | some o =>
        rw [hx] at h5 g5
        obtain ⟨v, k1, k2⟩ := h5
        obtain ⟨v', k3, k4⟩ := g5
        rw [k1] at k3
        rw [k2, k4, Option.some.inj k3]
    subst ha
    have hb : b' = b := by
      cases hx : x.snapOffset with
      | none => rw [hx] at h7 g7; exact g7.symm.trans h7
      | some o =>
        rw [hx] at h7 g7
        obtain ⟨v, k1, k2⟩ := h7
        obtain ⟨v', k3, k4⟩ := g7
        rw [k1] at k3
        obtain rfl := Option.some.inj k3
        rw [k2] at k4
        rcases unit_cases k1 with ⟨-, rfl⟩ | ⟨-, rfl⟩ | ⟨-, rfl⟩ | ⟨-, rfl⟩ | ⟨-, rfl⟩ | ⟨h, -⟩
        · simp only [later] at k4; omega
        · simp only [later] at k4; omega
        · simp only [later] at k4; omega
        · simp only [later] at k4; omega
        · simp only [later] at k4; omega
        · exact absurd h (ho o hx)
    subst hb
    have hb := h8 rfl
    have g8 : (604800 : Int) ∣ b' - aSunday := g8
    unfold aSunday at g8 hb
    omega

/-- months of thirty days -/
def thirty : Calendar where
  monthBegins t := 2592000 ∣ t
  monthStart t := t - t % 2592000
  monthStart_spec t := ⟨by omega, by omega, fun r h1 h2 => by omega⟩
  addMonths n t := t + 2592000 * n

/-- Specifiers as in `C85_relative_partial` and `C85_week_fails`; and the times computed for 1970-01-08 00:00:10. -/
example : SnapText ⟨some ⟨-70, c!"minutes"⟩, c!"days", some ⟨2, c!"hours"⟩⟩ c!"-70m@d+2h" ∧
    SnapText ⟨none, c!"weeks", none⟩ c!"@w" ∧
    (∃ q tq, exprTr .disallow (.call c!"relative_time" [.const (.field c!"t"), .const (.snapTime ⟨some ⟨-70, c!"minutes"⟩, c!"days", some ⟨2, c!"hours"⟩⟩)]) = some q ∧
      pyTree q.unalias = some tq ∧ timeVal thirty (fun _ => some 604810) tq = some 525600) ∧
    Adjusted thirty ⟨some ⟨-70, c!"minutes"⟩, c!"days", some ⟨2, c!"hours"⟩⟩ 604810 525600 ∧
    (∃ q tq, exprTr .disallow (.call c!"relative_time" [.const (.field c!"t"), .const (.snapTime ⟨none, c!"weeks", none⟩)]) = some q ∧
      pyTree q.unalias = some tq ∧ timeVal thirty (fun _ => some 604810) tq = some 345600) ∧
    Adjusted thirty ⟨none, c!"weeks", none⟩ 604810 259200 := by
  refine ⟨.mk (a := c!"-70m") (m := c!"d") (b := c!"+2h")
    (.amount (.minus (ds := c!"70") (m := c!"m") ⟨by decide, by decide⟩ (by decide) (s := c!"m") (by decide) (by decide)))
    (s := c!"d") (by decide) (by decide)
    (.amount (.plus (ds := c!"2") (m := c!"h") ⟨by decide, by decide⟩ (by decide) (s := c!"h") (by decide) (by decide)))
    (fun e => absurd e (by decide)),
    .mk (a := []) (m := c!"w") (b := []) .none (s := c!"w") (by decide) (by decide) .none (by intro _ c t e; cases e),
    ⟨_, _, rfl, rfl, by decide +kernel⟩, ⟨604810 - 4200, .day, 518400, ⟨.minute, rfl, rfl⟩, rfl, ⟨?_, ?_, fun r h1 h2 => ?_⟩, ⟨.hour, rfl, rfl⟩⟩,
    ⟨_, _, rfl, rfl, by decide +kernel⟩, ⟨604810, .week, 259200, rfl, rfl, ⟨?_, ?_, fun r h1 h2 => ?_⟩, rfl⟩⟩
  · show (86400 : Int) ∣ _; omega
  · omega
  · have h1 : (86400 : Int) ∣ r := h1; omega
  · show (604800 : Int) ∣ _ - aSunday; unfold aSunday; omega
  · omega
  · have h1 : (604800 : Int) ∣ r - aSunday := h1; unfold aSunday at h1; omega

/-- **C85** fails for every text the parser does not take for a time: without the library the call is refused, and with it the
call raises. -/
theorem C85_refused (e : Expr) (s : Str) :
    exprTr .disallow (.call c!"relative_time" [e, .const (.str s)]) = none ∧
      ∀ m q, exprTr m (.call c!"relative_time" [e, .const (.str s)]) = some q → Rt.evalRt q = none := by
  have hl : lookupFn c!"relative_time" evalTable = some ⟨c!"now", [.expr], .ignored,
    fun | [.e t], args, _ => relativeTimeArgs t args | _, _, _ => none⟩ := rfl
  have hbare : ∀ m, evalFnBare c!"relative_time" (argsTr m [e, .const (.str s)]) = none := by
    intro m
    rw [evalFnBare, hl]
    simp only [argsTr, exprTr, FnSpec.apply, bindParams, bindParam]
    cases exprTr m e <;> rfl
  have hrt : ∀ m q, evalFnRuntime c!"relative_time" (argsTr m [e, .const (.str s)]) = some q → Rt.evalRt q = none := by
    intro m q h
    rw [evalFnRuntime, if_neg (by decide)] at h
    obtain ⟨ps, h1, rfl⟩ := Option.map_eq_some_iff.1 h
    refine evalCall_of fun vs hvs => ?_
    have hn := evalRts_notLit (mapArgs_isCol h1) hvs
    have hlen : ps.length = 2 := by rw [mapArgs_length h1]; rfl
    match ps, hlen with
    | [p1, p2], _ =>
      simp only [Rt.evalRts] at hvs
      cases h1 : Rt.evalRt p1 with
      | none => rw [h1] at hvs; simp at hvs
      | some v =>
        cases h2 : Rt.evalRt p2 with
        | none => rw [h1, h2] at hvs; simp at hvs
        | some w =>
          rw [h1, h2] at hvs
          simp only [Option.some.injEq] at hvs
          subst hvs
          exact call_two (by decide) (hn w (by simp))
  refine ⟨by rw [exprTr]; exact hbare _, fun m q h => ?_⟩
  rw [exprTr] at h
  cases m with
  | disallow => rw [evalFn, hbare] at h; cases h
  | require => exact hrt _ q h
  | allow =>
    rw [evalFn, hbare] at h
    cases hr : evalFnRuntime c!"relative_time" (argsTr .allow [e, .const (.str s)]) with
    | none => rw [hr] at h; cases h
    | some q' => rw [hr] at h; exact (Option.some.inj h) ▸ hrt _ q' hr

theorem notTime {s : Str} (h : (relativeTimeFmt.run () (s ++ c!"\"")).isNone = true ∨ ((relativeTimeFmt.run () (s ++ c!"\"")).map Prod.fst ≠ some c!"\"")) :
    NotTime s := by
  intro x hx
  have := Snap.snap_read (u := []) hx
  rw [this] at h
  rcases h with h | h
  · cases h
  · exact h rfl

/-- Documented specifiers to which `C85_refused` applies. -/
theorem C85_documented_refused : ∀ s ∈ [c!"-1d", c!"+2h", c!"now", c!"@q", c!"@y", c!"@w1", c!"@w5", c!"-1y@y", c!"+d@d", c!"-1q@q", c!"-2d@d-1y"],
    NotTime s ∧ ∀ rest, constant.run () ('"' :: (s ++ '"' :: rest)) = some (rest, .str s) := by
  have h1 : ∀ s ∈ [c!"-1d", c!"+2h", c!"now", c!"@q", c!"@y", c!"@w1", c!"@w5", c!"-1y@y", c!"+d@d", c!"-1q@q", c!"-2d@d-1y"],
    ((relativeTimeFmt.run () (s ++ c!"\"")).isNone = true ∨ ((relativeTimeFmt.run () (s ++ c!"\"")).map Prod.fst ≠ some c!"\"")) ∧
      (∀ c ∈ s, c ≠ '"' ∧ c ≠ '\\') ∧ s ≠ [] ∧ '*' ∉ s ∧ s.dropWhile isSpace = s := by decide +kernel
  intro s hs
  obtain ⟨h2, h3, h4, h5, h6⟩ := h1 s hs
  refine ⟨notTime h2, fun rest => ?_⟩
  have := C06_constant_partial (.of_plain h3) h4 (notTime h2) rest
  rwa [if_neg h5, h6] at this

/-- **C85** fails where the library may be used and the time is the result of a library function: the call of the library stands
inside a call of PySpark, which refuses it.  So `relative_time(now(), "@d")` raises in the default mode. -/
theorem C85_now_raises :
    ∃ q, exprTr .allow (.call c!"relative_time" [.call c!"now" [], .const (.snapTime ⟨none, c!"days", none⟩)]) = some q ∧ Rt.evalRt q = none ∧
      outOf .allow c!"index=m | eval x=relative_time(now(), \"@d\")" =
        some c!"df_1 = commands.search(None, index=\"m\")\ndf_2 = commands.eval(df_1, x=F.date_trunc(\"day\", F.to_timestamp(functions.eval.now())))\ndf_2" := by
  refine ⟨_, rfl, by decide +kernel, by decide +kernel⟩

end Verif.Props
