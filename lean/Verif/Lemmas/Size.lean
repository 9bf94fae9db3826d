import Verif.Spec.Size
import Verif.Tr.Expr
import Verif.Lemmas.Funcs
/-
How long the text of a translated column is.
-/
namespace Verif.Lemmas.Size
open Verif Verif.Spec

mutual
/-- a bound on the length of the text of a column -/
def size : PE → Nat
  | .named n => 9 + n.length
  | .lit c => 7 + c.length
  | .method c f as => size c + f.length + 3 + sizes as
  | .fn f as => f.length + 4 + sizes as
  | .aliased c n => size c + 10 + n.length
  | .bin op l r => size l + size r + 4 + op.length
  | .not r => 1 + size r
  | .py c => c.length

/-- the same for arguments -/
def sizes : List PE → Nat
  | [] => 0
  | a :: as => size a + 2 + sizes as
end

theorem join_cons (sep x : Str) (xs : List Str) : (joinWith sep (x :: xs)).length ≤ x.length + sep.length + (joinWith sep xs).length := by
  cases xs with
  | nil => simp [joinWith]
  | cons y ys => simp [joinWith]; omega

mutual
theorem renderE_size : ∀ p : PE, (renderE p).length ≤ size p
  | .named n => by simp [renderE, size]; omega
  | .lit c => by simp [renderE, size]; omega
  | .method c f as => by
    have h1 := renderE_size c
    have h2 := renderArgs_size as
    simp [renderE, size]; omega
  | .fn f as => by
    have h2 := renderArgs_size as
    rw [renderE, size]
    split <;> simp <;> omega
  | .aliased c n => by
    have h1 := renderE_size c
    simp [renderE, size]; omega
  | .bin op l r => by
    have h1 := renderE_size l
    have h2 := renderE_size r
    simp [renderE, size]; omega
  | .not r => by
    have h1 := renderE_size r
    simp [renderE, size]; omega
  | .py c => by simp [renderE, size]

theorem renderArgs_size : ∀ as : List PE, (joinWith c!", " (renderArgs as)).length ≤ sizes as
  | [] => by simp [renderArgs, joinWith, sizes]
  | a :: as => by
    have h1 := renderE_size a
    have h2 := renderArgs_size as
    have h3 := join_cons c!", " (renderE a) (renderArgs as)
    rw [renderArgs, sizes]
    simp only [List.length_cons, List.length_nil] at h3
    omega
end

theorem renderC_size (p : PE) : (renderC p).length ≤ size p := by
  cases p with
  | bin op l r =>
    have h1 := renderE_size l
    have h2 := renderE_size r
    simp [renderC, size]; omega
  | named n => simpa only [renderC, renderE] using renderE_size (.named n)
  | lit c => simpa only [renderC, renderE] using renderE_size (.lit c)
  | method c f as => simpa only [renderC, renderE] using renderE_size (.method c f as)
  | fn f as => simpa only [renderC, renderE] using renderE_size (.fn f as)
  | aliased c n => simpa only [renderC, renderE] using renderE_size (.aliased c n)
  | not r => simpa only [renderC, renderE] using renderE_size (.not r)
  | py c => simpa only [renderC, renderE] using renderE_size (.py c)

theorem unalias_size : ∀ p : PE, size p.unalias ≤ size p
  | .aliased (.py c) n => Nat.le_refl _
  | .aliased (.named _) _ | .aliased (.lit _) _ | .aliased (.method ..) _ | .aliased (.fn ..) _ | .aliased (.bin ..) _
  | .aliased (.not _) _ => by simp only [PE.unalias, size]; omega
  | .aliased (.aliased c m) n => by
    have := unalias_size (.aliased c m)
    rw [PE.unalias]
    · rw [size]; omega
    · intro x h; cases h
  | .named n | .lit c | .method .. | .fn .. | .bin .. | .not .. | .py _ => Nat.le_refl _

theorem alias_size (p : PE) (n : Str) : size (p.withAlias n) ≤ size p + 10 + n.length := by
  have := unalias_size p
  simp only [PE.withAlias, size]; omega

theorem bin_size (l : PE) (op : Str) (r : PE) : size (PE.mkBin l op r) ≤ size l + size r + 4 + op.length := by
  have h1 := unalias_size l
  have h2 := unalias_size r
  simp only [PE.mkBin, size]; omega

theorem method_size (c : PE) (f : Str) (as : List PE) : size (PE.mkMethod c f as) ≤ size c + f.length + 3 + sizes as := by
  have h1 := unalias_size c
  simp only [PE.mkMethod, size]; omega

theorem not_size (c : PE) : size (PE.mkNot c) ≤ 1 + size c := by
  have h1 := unalias_size c
  simp only [PE.mkNot, size]; omega

theorem pyStr_size (s : Str) : size (pyStr s) = s.length + 2 := by simp [pyStr, size]
theorem pyInt_size (n : Int) : size (pyInt n) = (showInt n).length := by simp [pyInt, size]
theorem pyBool_size (b : Bool) : size (pyBool b) ≤ 5 := by cases b <;> decide

/-! ### texts -/

theorem strip_length : ∀ {p s r : Str}, stripPrefix? p s = some r → s = p ++ r
  | [], s, r, h => by simp only [stripPrefix?, Option.some.injEq] at h; simp [h]
  | _ :: _, [], r, h => by simp [stripPrefix?] at h
  | t :: ts, c :: cs, r, h => by
    rw [stripPrefix?] at h
    split at h
    · rename_i hc
      rw [strip_length h, hc]; rfl
    · cases h

/-- Replacing a text with a percent sign in it by one with fewer of them. -/
theorem replace_length {p r : Str} (hp : r.length + 8 * r.count '%' ≤ p.length + 8 * p.count '%') : ∀ (n : Nat) (s : Str),
    (replaceAux p r n s).length + 8 * (replaceAux p r n s).count '%' ≤ s.length + 8 * s.count '%'
  | 0, s => Nat.le_refl _
  | _ + 1, [] => Nat.le_refl _
  | n + 1, c :: cs => by
    rw [replaceAux]
    split
    · rename_i rest h
      have := replace_length hp n rest
      rw [strip_length h]
      simp only [List.length_append, List.count_append]
      omega
    · have := replace_length hp n cs
      simp only [List.length_cons, List.count_cons]
      omega

theorem conversions_short : ∀ x ∈ conversions, ∀ r, x.2 = some r → r.length + 8 * r.count '%' ≤ x.1.length + 8 * x.1.count '%' := by
  intro x hx r hr
  have : (conversions.all fun x => match x.2 with
    | some r => decide (r.length + 8 * r.count '%' ≤ x.1.length + 8 * x.1.count '%')
    | none => true) = true := by decide +kernel
  have := List.all_eq_true.1 this x hx
  rw [hr] at this
  simpa using this

theorem convertLoop_length : ∀ {cs : List (Str × Option Str)}, (∀ x ∈ cs, x ∈ conversions) → ∀ {s t : Str}, convertTimeFormatLoop cs s = some t →
    t.length + 8 * t.count '%' ≤ s.length + 8 * s.count '%'
  | [], _, s, t, h => by simp only [convertTimeFormatLoop, Option.some.injEq] at h; rw [h]; exact Nat.le_refl _
  | (p, r) :: cs, hc, s, t, h => by
    have ih := @convertLoop_length cs fun x hx => hc x (List.mem_cons_of_mem _ hx)
    unfold convertTimeFormatLoop at h
    split at h
    · cases r with
      | none => cases h
      | some r => exact Nat.le_trans (ih h) (replace_length (conversions_short _ (hc _ List.mem_cons_self) r rfl) _ _)
    · exact ih h

theorem convert_length {s t : Str} (h : convertTimeFormat s = some t) : t.length ≤ 9 * s.length := by
  have h1 := convertLoop_length (fun x hx => hx) h
  have h2 : s.count '%' ≤ s.length := List.count_le_length
  omega

theorem stars_aux : ∀ (n : Nat) (s : Str), (replaceAux c!"*" c!"%" n s).length ≤ s.length
  | 0, s => Nat.le_refl _
  | _ + 1, [] => Nat.le_refl _
  | n + 1, c :: cs => by
    rw [replaceAux]
    split
    · rename_i rest h
      have := stars_aux n rest
      rw [strip_length h]
      simp; omega
    · have := stars_aux n cs
      simp; omega

theorem stars_length (s : Str) : (starToPercent s).length ≤ s.length := stars_aux _ _

theorem digits_aux : ∀ (f n : Nat) (acc : Str) (k : Nat), n < 10 ^ (k + 1) → (showNatAux f n acc).length ≤ acc.length + k + 1
  | 0, n, acc, k, _ => by rw [showNatAux]; omega
  | f + 1, n, acc, k, h => by
    rw [showNatAux]
    split
    · simp
    · cases k with
      | zero => simp at h; omega
      | succ k =>
        have := digits_aux f (n / 10) (digitC (n % 10) :: acc) k (by
          rw [Nat.div_lt_iff_lt_mul (by omega), ← Nat.pow_succ]; exact h)
        simp only [List.length_cons] at this
        omega

theorem showNat_length {n : Nat} (k : Nat) (h : n < 10 ^ (k + 1)) : (showNat n).length ≤ k + 1 := by
  have := digits_aux (n + 1) n [] k h
  simpa [showNat] using this

theorem wrap_length (n : Int) : (showInt (wrapI64 n)).length ≤ 21 := by
  have key : ∀ m : Int, -(2 ^ 63) ≤ m → m < 2 ^ 63 → (showInt m).length ≤ 21 := by
    intro m h1 h2
    cases m with
    | ofNat k => exact Nat.le_trans (showNat_length 18 (by simp only [Int.ofNat_eq_natCast] at h2; omega)) (by omega)
    | negSucc k =>
      have := showNat_length (n := k + 1) 18 (by omega)
      show ('-' :: showNat (k + 1)).length ≤ 21
      simp only [List.length_cons]; omega
  unfold wrapI64
  simp only
  split <;> exact key _ (by omega) (by omega)

theorem leading_length : ∀ w : Str, (stripLeadingZeros w).length ≤ 1 + w.length
  | [] => by decide
  | [c] => by simp [stripLeadingZeros]
  | c :: d :: cs => by
    have := leading_length (d :: cs)
    rw [stripLeadingZeros]
    · split <;> simp at this ⊢ ; omega
    · simp

theorem trailing_length (w : Str) : (stripTrailingZeros w).length ≤ w.length := by
  have := (List.dropWhile_suffix (p := (· == '0')) (l := w.reverse)).length_le
  simpa [stripTrailingZeros] using this

theorem dbl_length (d : Dbl) : d.text.length ≤ 3 + d.whole.length + d.frac.length := by
  have h1 := leading_length d.whole
  have h2 := trailing_length d.frac
  unfold Dbl.text
  simp only
  split <;> split <;> simp <;> omega

/-! ### arguments -/

/-- the arguments together -/
def budget : List Arg → Nat
  | [] => 0
  | a :: as => 100 * exprLen a.src + budget as

/-- the columns of the arguments are not too long -/
def Slim (as : List Arg) : Prop := ∀ a ∈ as, ∀ x, a.col = some x → size x + 40 ≤ 100 * exprLen a.src

def valSize : ArgVal → Nat
  | .e x => size x
  | .i n => (showInt n).length
  | .s t => 10 * t.length + 40

def valsSize : List ArgVal → Nat
  | [] => 0
  | v :: vs => valSize v + 40 + valsSize vs

def colsSize : List PE → Nat
  | [] => 0
  | x :: xs => size x + 40 + colsSize xs

theorem exprLen_pos (e : Expr) : 1 ≤ exprLen e := by cases e <;> simp [exprLen] <;> omega

theorem bind_size : ∀ {ps : List PK} {as : List Arg} {vs : List ArgVal}, Slim as → bindParams ps as = some vs →
    valsSize vs + budget (as.drop ps.length) ≤ budget as
  | [], as, vs, _, h => by simp only [bindParams, Option.some.injEq] at h; subst h; simp [valsSize]
  | _ :: _, [], _, _, h => by simp [bindParams] at h
  | p :: ps, a :: as, vs, hs, h => by
    rw [bindParams] at h
    split at h
    · cases h
    · rename_i v hv
      split at h
      · cases h
      · rename_i vs' hvs
        cases h
        have ih := bind_size (fun x hx => hs x (List.mem_cons_of_mem _ hx)) hvs
        have : valSize v + 40 ≤ 100 * exprLen a.src := by
          cases p with
          | expr =>
            simp only [bindParam, Option.map_eq_some_iff] at hv
            obtain ⟨x, hx, rfl⟩ := hv
            exact hs a List.mem_cons_self x hx
          | int =>
            simp only [bindParam, Option.map_eq_some_iff] at hv
            obtain ⟨n, hn, rfl⟩ := hv
            unfold Expr.asInt at hn
            split at hn
            · rename_i e; cases hn; simp only [e, exprLen, constLen, valSize]; omega
            · cases hn
          | str =>
            simp only [bindParam, Option.map_eq_some_iff] at hv
            obtain ⟨n, hn, rfl⟩ := hv
            unfold Expr.asString at hn
            split at hn
            all_goals first
              | cases hn; done
              | (rename_i e; cases hn; simp only [e, exprLen, constLen, valSize]; omega)
        simp only [valsSize, budget, List.length_cons, List.drop_succ_cons]
        omega

theorem map_size : ∀ {as : List Arg} {xs : List PE}, Slim as → mapArgs as = some xs → colsSize xs ≤ budget as
  | [], xs, _, h => by simp only [mapArgs, Option.some.injEq] at h; subst h; simp [colsSize]
  | a :: as, xs, hs, h => by
    rw [mapArgs] at h
    split at h
    · cases h
    · rename_i x hx
      split at h
      · cases h
      · rename_i xs' hxs
        cases h
        have ih := map_size (fun x hx => hs x (List.mem_cons_of_mem _ hx)) hxs
        have := hs a List.mem_cons_self x hx
        simp only [colsSize, budget]
        omega

theorem sizes_cols : ∀ xs : List PE, sizes xs ≤ colsSize xs
  | [] => Nat.le_refl _
  | x :: xs => by have := sizes_cols xs; simp only [sizes, colsSize]; omega

/-- A function whose translation is not much longer than its arguments. -/
def Linear (f : FnSpec) : Prop := f.alias.length ≤ 20 ∧ ∀ vs as ms b, colsSize ms ≤ budget (as.drop f.params.length) → f.body vs as ms = some b →
  size b ≤ 120 + valsSize vs + budget (as.drop f.params.length)

theorem apply_size {f : FnSpec} (hf : Linear f) {as : List Arg} (hs : Slim as) {p : PE} (h : f.apply as = some p) :
    size p ≤ 150 + budget as := by
  unfold FnSpec.apply at h
  split at h
  · cases h
  · rename_i vs hvs
    have hb := bind_size hs hvs
    simp only [Option.map_eq_some_iff] at h
    obtain ⟨b, hb', rfl⟩ := h
    have ha := alias_size b f.alias
    have h0 := hf.1
    have : size b ≤ 120 + valsSize vs + budget (as.drop f.params.length) := by
      split at hb'
      · split at hb'
        · exact hf.2 vs as [] b (Nat.zero_le _) hb'
        · cases hb'
      · exact hf.2 vs as [] b (Nat.zero_le _) hb'
      · split at hb'
        · cases hb'
        · rename_i ms hms
          exact hf.2 vs as ms b (map_size (fun x hx => hs x (List.mem_of_mem_drop hx)) hms) hb'
    omega

theorem linear_one {a : Str} {f : PE → PE} (ha : a.length ≤ 20) (h : ∀ x, size (f x) ≤ 150 + size x) : Linear (.one a f) := by
  refine ⟨ha, fun vs as ms b _ hb => ?_⟩
  simp only [FnSpec.one] at hb
  split at hb
  · cases hb
    rename_i x
    have := h x
    simp only [valsSize, valSize]; omega
  · cases hb

theorem linear_two {a : Str} {f : PE → PE → PE} (ha : a.length ≤ 20) (h : ∀ x y, size (f x y) ≤ 150 + size x + size y) : Linear (.two a f) := by
  refine ⟨ha, fun vs as ms b _ hb => ?_⟩
  simp only [FnSpec.two] at hb
  split at hb
  · cases hb
    rename_i x y
    have := h x y
    simp only [valsSize, valSize]; omega
  · cases hb

theorem linear_nullary {a : Str} {e : PE} (ha : a.length ≤ 20) (h : size e ≤ 120) : Linear (.nullary a e) := by
  refine ⟨ha, fun vs as ms b _ hb => ?_⟩
  simp only [FnSpec.nullary, Option.some.injEq] at hb
  subst hb; omega

theorem caseFrom_size (neg : Bool) : ∀ (acc : PE) (ms : List PE), size (caseFrom neg acc ms) ≤ size acc + colsSize ms
  | acc, c :: v :: rest => by
    have ih := caseFrom_size neg (PE.mkMethod acc c!"when" [if neg then PE.mkNot c else c, v]) rest
    have h1 := method_size acc c!"when" [if neg then PE.mkNot c else c, v]
    have h2 : size (if neg then PE.mkNot c else c) ≤ 1 + size c := by
      have := not_size c
      split <;> omega
    simp only [sizes, List.length_cons, List.length_nil] at h1
    rw [caseFrom]
    simp only [colsSize]
    omega
  | acc, [] => by simp [caseFrom, colsSize]
  | acc, [x] => by simp [caseFrom]

theorem caseBody_size {neg : Bool} {ms : List PE} {b : PE} (h : caseBody neg ms = some b) : size b ≤ colsSize ms := by
  unfold caseBody at h
  split at h
  · split at h
    · rename_i c v rest _
      cases h
      have h1 := caseFrom_size neg (.fn c!"when" [if neg then PE.mkNot c else c, v]) rest
      have h2 : size (if neg then PE.mkNot c else c) ≤ 1 + size c := by
        have := not_size c
        split <;> omega
      simp only [size, sizes, List.length_cons, List.length_nil] at h1
      simp only [colsSize]
      omega
    · cases h
  · cases h

theorem fold_size {f : PE → PE → PE} (hf : ∀ x y, size (f x y) ≤ 40 + size x + size y) {ms : List PE} {b : PE} (h : foldArgs f ms = some b) :
    size b ≤ colsSize ms := by
  have key : ∀ (xs : List PE) (x : PE), size (xs.foldl f x) ≤ size x + colsSize xs := by
    intro xs
    induction xs with
    | nil => intro x; simp [colsSize]
    | cons y ys ih =>
      intro x
      have h1 := ih (f x y)
      have h2 := hf x y
      simp only [List.foldl_cons, colsSize]
      omega
  cases ms with
  | nil => simp [foldArgs] at h
  | cons x xs =>
    simp only [foldArgs, Option.some.injEq] at h
    subst h
    have := key xs x
    simp only [colsSize]; omega

theorem count_size (ms : List PE) : (showInt ms.length).length ≤ 1 + colsSize ms := by
  have h1 : ms.length ≤ colsSize ms := by
    induction ms with
    | nil => simp [colsSize]
    | cons x xs ih => simp only [colsSize, List.length_cons]; omega
  have h2 : ms.length < 10 ^ (ms.length + 1) := Nat.lt_of_lt_of_le (Nat.lt_pow_self (by omega)) (Nat.pow_le_pow_right (by omega) (Nat.le_succ _))
  have h3 : (showInt ms.length).length ≤ ms.length + 1 := showNat_length _ h2
  omega

theorem avg_size {ms : List PE} {b : PE} (h : foldArgs (fun v c => PE.mkBin v c!"+" c) ms = some b) :
    size (PE.mkBin b c!"/" (pyInt ms.length)) ≤ 20 + colsSize ms := by
  have key : ∀ (xs : List PE) (x : PE), size (xs.foldl (fun v c => PE.mkBin v c!"+" c) x) + 30 * xs.length ≤ size x + colsSize xs := by
    intro xs
    induction xs with
    | nil => intro x; simp [colsSize]
    | cons y ys ih =>
      intro x
      have h1 := ih (PE.mkBin x c!"+" y)
      have h2 := bin_size x c!"+" y
      simp only [List.length_cons, List.length_nil] at h2
      simp only [List.foldl_cons, colsSize, List.length_cons]
      omega
  cases ms with
  | nil => simp [foldArgs] at h
  | cons x xs =>
    simp only [foldArgs, Option.some.injEq] at h
    subst h
    have h1 := key xs x
    have h2 := bin_size (xs.foldl (fun v c => PE.mkBin v c!"+" c) x) c!"/" (pyInt (x :: xs).length)
    have h3 : (showInt (x :: xs).length).length ≤ (x :: xs).length + 1 :=
      showNat_length _ (Nat.lt_of_lt_of_le (Nat.lt_pow_self (by omega)) (Nat.pow_le_pow_right (by omega) (Nat.le_succ _)))
    rw [pyInt_size] at h2
    simp only [colsSize, List.length_cons, List.length_nil] at h1 h2 h3 ⊢
    omega

theorem budget_get : ∀ {as : List Arg} {i : Nat} {a : Arg}, as[i]? = some a → ∀ n, n ≤ i → 100 * exprLen a.src ≤ budget (as.drop n)
  | [], _, _, h, _, _ => by simp at h
  | b :: as, 0, a, h, n, hn => by
    simp only [List.getElem?_cons_zero, Option.some.injEq] at h
    subst h
    obtain rfl : n = 0 := by omega
    simp only [List.drop_zero, budget]; omega
  | b :: as, i + 1, a, h, n, hn => by
    simp only [List.getElem?_cons_succ] at h
    cases n with
    | zero =>
      have := budget_get h 0 (by omega)
      simp only [List.drop_zero, budget] at this ⊢; omega
    | succ n => simpa using budget_get h n (by omega)

theorem upper_length (s : Str) : (upper s).length = s.length := by simp [upper]

theorem offset_size (t : PE) (o : TimeSpan) : size (offsetTime t o) ≤ 35 + size t + spanLen (some o) := by
  have h := bin_size t c!"+" (.fn c!"expr" [pyStr (c!"INTERVAL " ++ showInt o.value ++ c!" " ++ upper o.scale)])
  simp only [size, sizes, pyStr_size, List.length_append, List.length_cons, List.length_nil, upper_length] at h
  unfold offsetTime
  simp only [spanLen]
  omega

theorem relative_size {t : PE} {s : SnapTime} {b : PE} (h : relativeTimeBody t s = some b) :
    size b ≤ 140 + size t + constLen (.snapTime s) := by
  unfold relativeTimeBody roundTime at h
  dsimp only at h
  cases hr : roundUnit s.snap with
  | none => simp [hr] at h
  | some u =>
    have hu : u.length ≤ 11 := by
      unfold roundUnit at hr
      repeat (split at hr; · (injection hr with hr; subst hr; decide))
      cases hr
    simp only [hr, Option.map_some, Option.some.injEq] at h
    subst h
    have h1 : ∀ x, size (PE.fn c!"date_trunc" [pyStr u, x]) ≤ 35 + size x := by
      intro x; simp only [size, sizes, pyStr_size, List.length_cons, List.length_nil]; omega
    have h0 : size (PE.fn c!"to_timestamp" [t]) ≤ 20 + size t := by
      simp only [size, sizes, List.length_cons, List.length_nil]; omega
    cases h2 : s.span with
    | none =>
      cases h3 : s.snapOffset with
      | none =>
        have := h1 (PE.fn c!"to_timestamp" [t])
        simp only [constLen, h2, h3, spanLen]; omega
      | some o =>
        have := h1 (PE.fn c!"to_timestamp" [t])
        have h4 := offset_size (PE.fn c!"date_trunc" [pyStr u, PE.fn c!"to_timestamp" [t]]) o
        simp only [spanLen] at h4
        simp only [constLen, h2, h3, spanLen]; omega
    | some o' =>
      have h5 := offset_size (PE.fn c!"to_timestamp" [t]) o'
      have h6 := h1 (offsetTime (PE.fn c!"to_timestamp" [t]) o')
      simp only [spanLen] at h5
      cases h3 : s.snapOffset with
      | none => simp only [constLen, h2, h3, spanLen]; omega
      | some o =>
        have h4 := offset_size (PE.fn c!"date_trunc" [pyStr u, offsetTime (PE.fn c!"to_timestamp" [t]) o']) o
        simp only [spanLen] at h4
        simp only [constLen, h2, h3, spanLen]; omega

theorem relativeArgs_size {t : PE} {as : List Arg} {b : PE} (h : relativeTimeArgs t as = some b) :
    size b ≤ 120 + (size t + 40) + budget (as.drop 1) := by
  unfold relativeTimeArgs at h
  split at h
  · rename_i s hs
    rw [Option.map_eq_some_iff] at hs
    obtain ⟨a, ha, ha2⟩ := hs
    have h1 := budget_get ha 1 (Nat.le_refl _)
    have h2 := relative_size h
    rw [ha2] at h1
    simp only [exprLen] at h1
    omega
  · cases h

theorem mvindex_size {x : PE} {n : Int} {as : List Arg} {b : PE} (h : mvindexBody x n as = some b) :
    size b ≤ 120 + (size x + 40 + ((showInt n).length + 40)) := by
  unfold mvindexBody at h
  split at h
  · cases h
    simp only [size, sizes, pyInt_size, List.length_cons, List.length_nil]; omega
  · split at h
    · cases h
    · rename_i e _
      cases h
      have h1 := wrap_length (n + 1)
      have h2 := wrap_length (e - n + 1)
      simp only [size, sizes, pyInt_size, List.length_cons, List.length_nil]; omega

theorem asString_len {e : Expr} {s : Str} (h : e.asString = some s) : s.length + 1 ≤ exprLen e := by
  unfold Expr.asString at h
  split at h <;> first | cases h; done | (cases h; simp only [exprLen, constLen]; omega)

theorem mvzip_size {x y : PE} {as : List Arg} {b : PE} (h : mvzipBody x y as = some b) :
    size b ≤ 120 + (size x + 40 + (size y + 40)) + budget (as.drop 2) := by
  unfold mvzipBody at h
  split at h
  · cases h
  · rename_i d hd
    cases h
    have hw : d.length ≤ 1 + budget (as.drop 2) := by
      split at hd
      · cases hd; simp only [List.length_cons, List.length_nil]; omega
      · rename_i a hg
        have h1 := budget_get hg 2 (Nat.le_refl _)
        have h2 := asString_len hd
        omega
    simp only [size, sizes, List.length_append, List.length_cons, List.length_nil]; omega

theorem rmunit_size (x : PE) : size (rmunitFn x) ≤ 150 + size x := by
  have := method_size (.fn c!"regexp_extract" [x, pyStr c!"(?i)^(\\d*\\.?\\d+)(\\w*)$", pyInt 1]) c!"cast" [pyStr c!"double"]
  have h1 : (showInt 1).length = 1 := rfl
  simp only [size, sizes, pyStr_size, pyInt_size, List.length_cons, List.length_nil, h1] at this
  unfold rmunitFn; omega

theorem rmcomma_size (x : PE) : size (rmcommaFn x) ≤ 150 + size x := by
  have := method_size (.fn c!"regexp_replace" [x, pyStr c!",", pyStr []]) c!"cast" [pyStr c!"double"]
  simp only [size, sizes, pyStr_size, List.length_cons, List.length_nil] at this
  unfold rmcommaFn; omega

/-- Every function but one has a translation not much longer than its arguments. -/
theorem linear_table : ∀ x ∈ evalTable, x.1 ≠ c!"memk" → Linear x.2 := by
  unfold evalTable
  simp only [List.forall_mem_cons, List.not_mem_nil, false_implies, implies_true, and_true]
  repeat' apply And.intro
  all_goals (intro hne)
  all_goals first
    | (exact absurd rfl hne)
    | (refine linear_one (by decide) ?_; intro x; simp only [size, sizes, List.length_cons, List.length_nil]; omega)
    | (refine linear_one (by decide) ?_; intro x; simp only [size, sizes, pyInt_size, List.length_cons, List.length_nil]; simp [showInt, showNat, showNatAux]; omega)
    | (refine linear_two (by decide) ?_; intro x y; simp only [size, sizes, List.length_cons, List.length_nil]; omega)
    | (refine linear_one (by decide) ?_; first | exact rmunit_size | exact rmcomma_size)
    | (refine linear_two (by decide) ?_; intro x y; refine Nat.le_trans (method_size _ _ _) ?_; simp only [sizes, List.length_cons, List.length_nil]; omega)
    | (refine linear_one (by decide) ?_; intro x; refine Nat.le_trans (method_size _ _ _) ?_; simp only [size, sizes, pyStr_size, List.length_cons, List.length_nil]; omega)
    | (refine linear_nullary (by decide) ?_; decide)
    | skip
  all_goals
    refine ⟨by decide, fun vs as ms b hm h => ?_⟩
    dsimp only at h hm ⊢
    simp only [List.length_cons, List.length_nil] at hm ⊢
    first
      | (have := caseBody_size h; omega)
      | (simp only [Option.some.injEq] at h; subst h
         have := sizes_cols ms
         simp only [size, List.length_cons, List.length_nil]; omega)
      | skip
  all_goals try
    (split at h
     · first
         | (have := relativeArgs_size h; simp only [valsSize, valSize] at *; omega)
         | (have := mvindex_size h; simp only [valsSize, valSize] at *; omega)
         | (have := mvzip_size h; simp only [valsSize, valSize] at *; omega)
         | (simp only [Option.some.injEq] at h; subst h
            simp only [size, sizes, valsSize, valSize, pyStr_size, pyInt_size, List.length_append, List.length_cons, List.length_nil]
            omega)
         | (simp only [Option.some.injEq] at h; subst h
            refine Nat.le_trans (method_size _ _ _) ?_
            simp only [size, sizes, valsSize, valSize, pyStr_size, pyInt_size, List.length_append, List.length_cons, List.length_nil]
            omega)
         | (simp only [Option.map_eq_some_iff] at h
            obtain ⟨t, ht, rfl⟩ := h
            have := convert_length ht
            simp only [size, sizes, valsSize, valSize, pyStr_size, pyInt_size, List.length_append, List.length_cons, List.length_nil]
            omega)
     · cases h; done)
  · simp only [Option.map_eq_some_iff] at h
    obtain ⟨o, ho, rfl⟩ := h
    have := avg_size ho
    omega
  · have := fold_size (f := fun v c => .fn c!"greatest" [v, c]) (by intro x y; simp only [size, sizes, List.length_cons, List.length_nil]; omega) h
    omega
  · have := fold_size (f := fun v c => .fn c!"least" [v, c]) (by intro x y; simp only [size, sizes, List.length_cons, List.length_nil]; omega) h
    omega

/-! ### expressions -/

theorem table_names : ∀ x ∈ evalTable, 1 ≤ x.1.length := by decide +kernel

theorem pass_size {name : Str} {as : List Arg} (hs : Slim as) {p : PE} (h : passThrough name as = some p) :
    size p + 40 ≤ 100 * (1 + name.length) + budget as := by
  simp only [passThrough, Option.map_eq_some_iff] at h
  obtain ⟨xs, hx, rfl⟩ := h
  have h1 := map_size hs hx
  have h2 := sizes_cols xs
  simp only [size]; omega

theorem bare_size {name : Str} (hn : name ≠ c!"memk") {as : List Arg} (hs : Slim as) {p : PE} (h : evalFnBare name as = some p) :
    size p + 40 ≤ 100 * (1 + name.length) + budget as := by
  unfold evalFnBare at h
  split at h
  · rename_i f hf
    have hm := lookupFn_mem hf
    have h1 := apply_size (linear_table _ hm hn) hs h
    have h2 := table_names _ hm
    simp only at h2
    omega
  · split at h
    · cases h
    · exact pass_size hs h

theorem cidr_linear : Linear cidrmatchRuntime := by
  refine ⟨by decide, fun vs as ms b _ hb => ?_⟩
  simp only [cidrmatchRuntime] at hb
  split at hb
  · cases hb
    simp only [size, sizes, valsSize, valSize, pyStr_size, List.length_cons, List.length_nil]; omega
  · cases hb

theorem runtimeName_length (name : Str) : (runtimeEvalName name).length ≤ 5 + name.length := by
  unfold runtimeEvalName
  repeat (split; · (rename_i e; rw [e]; decide))
  omega

theorem runtime_size {name : Str} {as : List Arg} (hs : Slim as) {p : PE} (h : evalFnRuntime name as = some p) :
    size p + 40 ≤ 100 * (1 + name.length) + budget as := by
  unfold evalFnRuntime at h
  split at h
  · rename_i e
    have h1 := apply_size cidr_linear hs h
    have h2 : name.length = 9 := by rw [e]; rfl
    omega
  · simp only [Option.map_eq_some_iff] at h
    obtain ⟨xs, hx, rfl⟩ := h
    have h1 := map_size hs hx
    have h2 := sizes_cols xs
    have h3 := runtimeName_length name
    simp only [size, List.length_append, List.length_cons, List.length_nil]; omega

/-- The function `memk` needs its argument as a column, and so does the call of the library. -/
theorem memk_runtime {as : List Arg} (h : evalFnRuntime c!"memk" as = none) : evalFnBare c!"memk" as = none := by
  have hm : mapArgs as = none := by simpa [evalFnRuntime] using h
  have e : evalFnBare c!"memk" as = (FnSpec.one c!"memk" memkFn).apply as := rfl
  rw [e]
  unfold FnSpec.apply
  match as with
  | [] => rfl
  | [a] =>
    cases ha : a.col with
    | none => simp [FnSpec.one, bindParams, bindParam, ha]
    | some x => simp [mapArgs, ha] at hm
  | a :: b :: as =>
    simp only [FnSpec.one, bindParams]
    cases bindParam .expr a <;> simp

theorem evalFn_size {m : Mode} {name : Str} (hn : m ≠ .disallow ∨ name ≠ c!"memk") {as : List Arg} (hs : Slim as) {p : PE}
    (h : evalFn m name as = some p) : size p + 40 ≤ 100 * (1 + name.length) + budget as := by
  cases m with
  | disallow => exact bare_size (hn.resolve_left fun h => h rfl) hs h
  | require => exact runtime_size hs h
  | allow =>
    simp only [evalFn, orElse] at h
    split at h
    · rename_i x hx
      cases h
      exact runtime_size hs hx
    · rename_i hx
      by_cases e : name = c!"memk"
      · subst e
        rw [memk_runtime hx] at h
        cases h
      · exact bare_size e hs h

theorem mapOp_length (s : Str) : (mapOp s).length ≤ 2 + s.length := by
  unfold mapOp
  repeat (split; · (rename_i e; rw [e]; decide))
  omega

theorem like_size (c : PE) (s : Str) : size (likeTest c s) ≤ 15 + size c + s.length := by
  have h1 := method_size c c!"like" [pyStr (starToPercent s)]
  have h2 := stars_length s
  simp only [sizes, pyStr_size, List.length_cons, List.length_nil] at h1
  unfold likeTest; omega

theorem general_size {l r : Option PE} {op : Str} {p : PE} (h : generalBin l op r = some p) : ∃ x y, l = some x ∧ r = some y ∧
    size p ≤ size x + size y + 4 + op.length := by
  unfold generalBin at h
  split at h
  · cases h; exact ⟨_, _, rfl, rfl, bin_size _ _ _⟩
  · cases h

theorem binTr_size {l r : Expr} {s : Str} {x y : Option PE} (hx : ∀ p, x = some p → size p + 40 ≤ 100 * exprLen l)
    (hy : ∀ p, y = some p → size p + 40 ≤ 100 * exprLen r) {p : PE} (h : binTr l s r x y = some p) :
    size p + 40 ≤ 100 * exprLen (.binary l s r) := by
  have hm := mapOp_length s
  have key : generalBin x (mapOp s) y = some p → size p + 40 ≤ 100 * exprLen (.binary l s r) := by
    intro h
    obtain ⟨a, b, ha, hb, h⟩ := general_size h
    have := hx a ha
    have := hy b hb
    simp only [exprLen]; omega
  unfold binTr at h
  split at h
  · rename_i w
    unfold wildcardTr at h
    split at h
    · cases h
    · rename_i a
      have h1 := hx a rfl
      have h2 := like_size a w
      have h3 := not_size (likeTest a w)
      split at h
      · cases h; simp only [exprLen, constLen]; omega
      · split at h
        · cases h; simp only [exprLen, constLen]; omega
        · split at h
          · cases h; simp only [exprLen, constLen]; omega
          · cases h
  · split at h
    · split at h
      · cases h
        simp only [size, sizes, pyStr_size, exprLen, constLen, List.length_append, List.length_cons, List.length_nil]; omega
      · exact key h
    · exact key h
  · exact key h

theorem check_size {f : Str} {e : Expr} {p : PE} (h : fieldInCheck f e = some p) : size p + 10 ≤ f.length + 80 * exprLen e := by
  unfold fieldInCheck at h
  split at h
  · split at h
    · cases h
      have := like_size (.named f) (by assumption)
      simp only [size] at this
      simp only [exprLen, constLen]; omega
    · rename_i b
      cases h
      have := bin_size (.named f) c!"==" (pyBool b)
      have := pyBool_size b
      simp only [size, List.length_cons, List.length_nil] at *
      simp only [exprLen, constLen]; omega
    · rename_i n
      cases h
      have := bin_size (.named f) c!"==" (pyInt n)
      simp only [size, pyInt_size, List.length_cons, List.length_nil] at *
      simp only [exprLen, constLen]; omega
    · rename_i d
      cases h
      have := bin_size (.named f) c!"==" (.py d.text)
      have := dbl_length d
      simp only [size, List.length_cons, List.length_nil] at *
      simp only [exprLen, constLen]; omega
    all_goals first
      | (rename_i s
         cases h
         have := bin_size (.named f) c!"==" (pyStr s)
         simp only [size, pyStr_size, List.length_cons, List.length_nil] at *
         simp only [exprLen, constLen]; omega)
      | cases h
  · cases h

theorem checks_size {f : Str} : ∀ {es : List Expr} {cs : List PE}, fieldInChecks f es = some cs →
    ∀ x, size (joinBinFrom c!"|" x cs) ≤ size x + es.length * f.length + 80 * argsLen es
  | [], cs, h, x => by simp only [fieldInChecks, Option.some.injEq] at h; subst h; simp [joinBinFrom]
  | e :: es, cs, h, x => by
    rw [fieldInChecks] at h
    split at h
    · cases h
    · rename_i c hc
      split at h
      · cases h
      · rename_i cs' hcs
        cases h
        have h1 := checks_size hcs (.bin c!"|" x c)
        have h2 := check_size hc
        simp only [size, List.length_cons, List.length_nil] at h1
        rw [joinBinFrom]
        simp only [argsLen, List.length_cons, Nat.succ_mul]
        omega

theorem fieldIn_size {f : Str} {es : List Expr} {p : PE} (h : fieldInTr f es = some p) : size p + 40 ≤ 100 * exprLen (.fieldIn f es) := by
  simp only [fieldInTr, Option.map_eq_some_iff] at h
  obtain ⟨cs, hcs, rfl⟩ := h
  cases es with
  | nil =>
    simp only [fieldInChecks, Option.some.injEq] at hcs; subst hcs
    simp only [joinAsBinaries, Option.getD_none, size, exprLen, List.length_cons, List.length_nil]; omega
  | cons e es =>
    rw [fieldInChecks] at hcs
    split at hcs
    · cases hcs
    · rename_i c hc
      split at hcs
      · cases hcs
      · rename_i cs' hcs'
        cases hcs
        have h1 := checks_size hcs' c
        have h2 := check_size hc
        simp only [joinAsBinaries, Option.getD_some, exprLen, argsLen, List.length_cons, Nat.succ_mul]
        omega

theorem const_size {k : Constant} {p : PE} (h : constTr k = some p) : size p + 40 ≤ 100 * exprLen (.const k) := by
  unfold constTr at h
  split at h
  all_goals first
    | (cases h
       simp only [size, exprLen, constLen, List.length_append, List.length_cons, List.length_nil]; omega)
    | (rename_i d
       cases h
       have := dbl_length d
       simp only [size, exprLen, constLen]; omega)
    | (rename_i b
       cases h
       cases b <;> decide)
    | cases h

theorem budget_args (m : Mode) : ∀ es : List Expr, budget (argsTr m es) = 100 * argsLen es
  | [] => rfl
  | e :: es => by
    rw [argsTr, budget, budget_args m es, argsLen]
    show 100 * exprLen e + _ = _
    omega

mutual
theorem exprTr_size {m : Mode} : ∀ (e : Expr) (p : PE), (m ≠ .disallow ∨ noCall c!"memk" e = true) → exprTr m e = some p →
    size p + 40 ≤ 100 * exprLen e := by
  intro e p hn h
  match e with
  | .binary l s r =>
    rw [exprTr] at h
    rw [noCall, Bool.and_eq_true] at hn
    exact binTr_size (fun x hx => exprTr_size l x (hn.imp_right And.left) hx) (fun x hx => exprTr_size r x (hn.imp_right And.right) hx) h
  | .unary s r =>
    rw [exprTr] at h
    split at h
    · simp only [Option.map_eq_some_iff] at h
      obtain ⟨o, ho, rfl⟩ := h
      have h1 := exprTr_size r o (by rwa [noCall] at hn) ho
      have h2 := not_size o
      rw [exprLen]; omega
    · cases h
  | .const k => rw [exprTr] at h; exact const_size h
  | .fieldIn f es => rw [exprTr] at h; exact fieldIn_size h
  | .call name args =>
    rw [exprTr] at h
    rw [noCall, Bool.and_eq_true, decide_eq_true_eq] at hn
    have := evalFn_size (hn.imp_right And.left) (argsTr_size args (hn.imp_right And.right)) h
    rw [budget_args] at this
    rw [exprLen]; omega
  | .fv .. | .fb .. | .fc .. | .alias .. | .aliasedField .. | .searchModifier .. | .subSearch ..
  | .timeModifier .. => simp [exprTr] at h

theorem argsTr_size {m : Mode} : ∀ (es : List Expr), (m ≠ .disallow ∨ noCalls c!"memk" es = true) → Slim (argsTr m es) := by
  intro es hn
  match es with
  | [] => simp [argsTr, Slim]
  | e :: es =>
    rw [noCalls, Bool.and_eq_true] at hn
    intro a ha x hx
    rw [argsTr, List.mem_cons] at ha
    rcases ha with rfl | ha
    · simp only [Option.map_eq_some_iff] at hx
      obtain ⟨o, ho, rfl⟩ := hx
      have h1 := exprTr_size e o (hn.imp_right And.left) ho
      have h2 := unalias_size o
      show _ ≤ 100 * exprLen e
      omega
    · exact argsTr_size es (hn.imp_right And.right) a ha x hx
end

end Verif.Lemmas.Size
