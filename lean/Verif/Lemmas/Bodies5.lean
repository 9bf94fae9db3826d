import Verif.Lemmas.Bodies4
/-
Reading what follows the name of a command: top and rare, and the BY clause.
-/
namespace Verif
open P Lex Spl Spec Lemmas

/-! ### The BY clause -/

theorem by_letters {k : Str} (hk : lower k = c!"by") : ∀ c ∈ k, isLetter c = true :=
  lower_all hk fun _ hy => lowerC_letter ((by decide : ∀ c ∈ c!"by", isLetter c = true) _ hy)

theorem by_token {k u : Str} (hk : lower k = c!"by") (hu : Stops tokenCont u) : token.run () (k ++ u) = none := by
  refine token_reserved (fun y hy => letter_token (by_letters hk y hy)) hu ?_
  have : upper k = upper c!"by" := by rw [← upper_lower, hk]
  simp only [notReserved, this, Bool.not_eq_false', List.contains_eq_mem, decide_eq_true_eq]
  decide

theorem by_field {k u : Str} (hk : lower k = c!"by") (hu : Stops tokenCont u) : field.run () (k ++ u) = none :=
  field_none (by_token hk hu) (letter_ne hk rfl (by decide) _) (letter_ne hk rfl (by decide) _)

theorem by_stops {k u : Str} (hk : lower k = c!"by") : Stops isSpace (k ++ u) := by
  have := word_stops hk (fun b hb => space_all (f := fun b => lowerC b ≠ 'b') (by decide) hb)
  exact stops_append this.2 this.1

theorem byTag_end {R : Type} [Env R] {ρ : R} {rest : Str} (he : End rest) : (ws (tagi! "BY") : P R true true Str).run ρ rest = none ∧ (ws (tagi! "by") : P R true true Str).run ρ rest = none :=
  ⟨ws_end (tagi_take (t := 'B') (ts := c!"Y") (he.take (by decide))), ws_end (tagi_take (t := 'b') (ts := c!"y") (he.take (by decide)))⟩

theorem byTag_read {R : Type} [Env R] {ρ : R} {k g u : Str} (hk : lower k = c!"by") (hg : Gap g) (hu : Stops isSpace u) :
    (ws (tagi! "BY") : P R true true Str).run ρ (k ++ (g ++ u)) = some (u, k) ∧ (ws (tagi! "by") : P R true true Str).run ρ (k ++ (g ++ u)) = some (u, k) := by
  constructor <;> rw [run_ws, drop_stops (by_stops hk), tagi_read (by rw [hk]; decide), Option.map_some, drop_gap hg hu]

theorem by_noEq {α : Type} {p : α → Str → Prop} {a : α} {g s u : Str} (hg : Gap g) (h : Keyed c!"by" p a s) : NoEq (g ++ (s ++ u)) :=
  keyed_noEq hg h rfl (by decide) (fun b hb => space_all (f := fun b => lowerC b ≠ 'b') (by decide) hb)

/-! ### top, rare -/

/-- columns, and a BY clause with columns -/
structure ByColumns (fs : List Str) (b : Option (List Str)) (u : Str) : Prop where
  ne : u ≠ []
  stops : ∀ w, Stops isSpace (u ++ w)
  int : ∀ w, int.run () (u ++ w) = none
  notOpt : ∀ rest, End rest → NotOpt (u ++ rest)
  read : ∀ rest, End rest → ∃ r, (fieldList1.run () (u ++ rest) = some (r, fs) ∧ fieldList0.run () (u ++ rest) = some (r, fs)) ∧
    ((ws (opt (pre (ws (tagi! "BY")) (lift fieldList1))) : G false (Option (List Str))).run fix r = some (rest.dropWhile isSpace, b) ∧
     (ws (opt (pre (ws (tagi! "BY")) (lift fieldList0))) : G false (Option (List Str))).run fix (r.dropWhile isSpace) = some (rest.dropWhile isSpace, b))

theorem byColumns {fs : List Str} {b : Option (List Str)} {t u : Str} (hf : Items byList Column fs t) (hb : ThenMaybe (Keyed c!"by" (Items byList Column)) b t u) : ByColumns fs b u := by
  have hne : t ≠ [] := items_ne (fun _ _ hc => by obtain ⟨rfl, hc⟩ := hc; exact column_nonempty hc) hf
  have hst := fun u => (column_items hf u).1
  have hint : ∀ w, int.run () (t ++ w) = none := items_first (P' := fun x => int.run () x = none) (fun _ _ _ hc => by obtain ⟨rfl, hc⟩ := hc; exact column_int hc) hf
  cases hb with
  | none =>
    refine ⟨hne, hst, hint, fun rest he => columns_notOpt hf he.noEq, fun rest he => ⟨rest, columns_end hf he, ?_, ?_⟩⟩
    · rw [run_ws, opt_none (by rw [run_pre, (byTag_end he.drop).1]; rfl), Option.map_some, dropWhile_idem]
    · rw [run_ws, opt_none (by rw [run_pre, (byTag_end he.drop.drop).1]; rfl), Option.map_some, dropWhile_idem, dropWhile_idem]
  | @some a s g t hg hk =>
    refine ⟨by simp [hne], fun w => by rw [List.append_assoc]; exact hst _, fun w => by rw [List.append_assoc]; exact hint _,
      fun rest he => by rw [List.append_assoc, List.append_assoc]; exact columns_notOpt hf (by_noEq hg hk), fun rest he => ?_⟩
    obtain ⟨hkw, hg2, hi⟩ := hk
    rename_i kk g₂ tt
    have hst2 := fun u => (column_items hi u).1
    have hd : (g ++ (kk ++ (g₂ ++ (tt ++ rest)))).dropWhile isSpace = kk ++ (g₂ ++ (tt ++ rest)) := drop_gap hg (by_stops hkw)
    refine ⟨g ++ (kk ++ (g₂ ++ (tt ++ rest))), ?_, ?_, ?_⟩
    · simp only [List.append_assoc]
      refine columns_read hf (gap_after hg) ?_ ?_
      · rw [hd]; exact letter_ne hkw rfl (by decide) _
      · rw [hd]; exact by_field hkw (gap_after hg2).token
    · rw [run_ws, hd, opt_some (y := (rest, a)) (by rw [run_pre, (byTag_read hkw hg2 (hst2 _)).1, Option.bind_some, run_lift, (columns_end hi he).1])]; rfl
    · rw [run_ws, dropWhile_idem, hd, opt_some (y := (rest, a)) (by rw [run_pre, (byTag_read hkw hg2 (hst2 _)).1, Option.bind_some, run_lift, (columns_end hi he).2])]; rfl

theorem topRare_opts {os : List (Str × Constant)} {m : Nat} {a : TopRare}
    (ho : StrOr os c!"countfield" c!"count" a.countField ∧ WrapOr os c!"limit" 10 m ∧
      StrOr os c!"otherstr" c!"OTHER" a.otherStr ∧ StrOr os c!"percentfield" c!"percent" a.percentField ∧
      FlagOr os c!"showcount" true a.showCount ∧ FlagOr os c!"showperc" true a.showPercent ∧
      FlagOr os c!"useother" false a.useOther) : topRareOpts os = some { a with n := m, fields := [], by_ := none } := by
  obtain ⟨h1, ⟨y, h2, h2'⟩, h3, h4, h5, h6, h7⟩ := ho
  have : toU64 y = m := by have := toU64_mod y; omega
  simp only [topRareOpts, getString_of h1, getInt_of h2, getString_of h3, getString_of h4, getBoolean_of h5, getBoolean_of h6, getBoolean_of h7, ← this]
  rfl

theorem topRare_of {n : Option Int} {m : Nat} {a : TopRare} (h : (a.n : Int) = n.getD m % 2 ^ 64) (hm : (m : Int) % 2 ^ 64 = m) :
    topRareOf (n, { a with n := m, fields := [], by_ := none }, a.fields, a.by_) = a := by
  obtain ⟨f, k, b, c, o, p, x, y, z⟩ := a
  cases n with
  | none =>
    have : m = k := by simp only [Option.getD_none] at h; omega
    simp [topRareOf, this]
  | some n =>
    have : toU64 n = k := by have := toU64_mod n; simp only [Option.getD_some] at h; omega
    simp [topRareOf, this]

/-- the count and the options of `top` and `rare` -/
theorem topRare_head {os : List (Str × Constant)} {n : Option Int} {x : TopRare} {fs : List Str} {b : Option (List Str)} {u v s rest : Str} (hu : ByColumns fs b u)
    (h : OptsThen os u v) (hn : MaybeThen IntText n v s) (hx : topRareOpts os = some x) (he : End rest) :
    Stops isSpace s ∧ (ws (opt (lift int)) : G false (Option Int)).run fix (s ++ rest) = some (v ++ rest, n) ∧
    (ws (options topRareOpts) : G false TopRare).run fix (v ++ rest) = some (u ++ rest, x) := by
  have ht : OptTail u := ⟨stops_self hu.stops, hu.notOpt⟩
  have hv : Stops isSpace v := optsThen_stops h ht.stops
  have hvne : v ≠ [] := by
    cases h with
    | none => exact hu.ne
    | only h => exact absurd rfl hu.ne
    | both h _ _ => simp [hu.ne]
  have h2 : (ws (options topRareOpts) : G false TopRare).run fix (v ++ rest) = some (u ++ rest, x) := by
    obtain ⟨r, e1, e2, e3, e4⟩ := optsThen_read h ht he
    obtain rfl := e3 hu.ne
    rw [run_ws, drop_stops (stops_append hv hvne), e4, hx, Option.map_some, Option.map_some, drop_stops (hu.stops _)]
  cases hn with
  | none =>
    refine ⟨hv, ?_, h2⟩
    rw [run_ws, drop_stops (stops_append hv hvne), opt_none (by rw [run_lift]; exact optsThen_int h hu.int hu.ne _), Option.map_some, drop_stops (stops_append hv hvne)]
  | @some a s g t ha hg =>
    refine ⟨(intText_stops ha).2, ?_, h2⟩
    rw [List.append_assoc, List.append_assoc, run_ws, drop_stops (intText_stops ha).2, run_opt, run_lift, intText_read ha (gap_stops (by decide) hg), Option.elim_some, Option.map_some,
      drop_gap hg (stops_append hv hvne)]

theorem wrap_mod {os : List (Str × Constant)} {k : Str} {d : Int} {m : Nat} (h : WrapOr os k d m) : (m : Int) % 2 ^ 64 = m := by
  obtain ⟨y, -, h⟩ := h
  omega

theorem top_good {k : Str} (hk : lower k = c!"top") {os : List (Str × Constant)} {n : Option Int} {m : Nat} {a : TopRare} {t u v s : Str} (hf : Items byList Column a.fields t)
    (hb : ThenMaybe (Keyed c!"by" (Items byList Column)) a.by_ t u) (h : OptsThen os u v) (hn : MaybeThen IntText n v s) (ho : OptsOf os (.top { a with n := m }))
    (hm : (a.n : Int) = n.getD m % 2 ^ 64) : Staged k false (.top a) s := by
  have hu := byColumns hf hb
  have hx := topRare_opts (a := a) (m := m) ho
  refine stage 31 rfl (by decide) (by decide) (fun x => run_pre _ _ _ _) hk (bodyGood_of (nx := List.dropWhile isSpace) (topRare_head hu h hn hx end_nil).1 dropWhile_idem fun rest he => ?_)
  obtain ⟨-, h1, h2⟩ := topRare_head hu h hn hx he
  obtain ⟨r, ⟨h3, -⟩, h4, -⟩ := hu.read rest he
  rw [run_map, run_seq, h1, Option.bind_some, run_seq, h2, Option.bind_some, run_seq, run_lift, h3, Option.bind_some, h4]
  simp only [Option.bind_some, Option.map_some, topRare_of hm (wrap_mod ho.2.1)]

theorem rare_good {k : Str} (hk : lower k = c!"rare") {os : List (Str × Constant)} {n : Option Int} {m : Nat} {a : TopRare} {t u v s : Str} (hf : Items byList Column a.fields t)
    (hb : ThenMaybe (Keyed c!"by" (Items byList Column)) a.by_ t u) (h : OptsThen os u v) (hn : MaybeThen IntText n v s) (ho : OptsOf os (.rare { a with n := m }))
    (hm : (a.n : Int) = n.getD m % 2 ^ 64) : Staged k false (.rare a) s := by
  have hu := byColumns hf hb
  have hx := topRare_opts (a := a) (m := m) ho
  refine stage 20 rfl (by decide) (by decide) (fun x => run_pre _ _ _ _) hk (bodyGood_of (nx := List.dropWhile isSpace) (topRare_head hu h hn hx end_nil).1 dropWhile_idem fun rest he => ?_)
  obtain ⟨-, h1, h2⟩ := topRare_head hu h hn hx he
  obtain ⟨r, ⟨-, h3⟩, -, h4⟩ := hu.read rest he
  rw [run_map, run_seq, h1, Option.bind_some, run_seq, h2, Option.bind_some, run_seq, run_ws, drop_stops (hu.stops _), run_lift, h3, Option.map_some, Option.bind_some, h4]
  simp only [Option.bind_some, Option.map_some, topRare_of hm (wrap_mod ho.2.1)]

end Verif
