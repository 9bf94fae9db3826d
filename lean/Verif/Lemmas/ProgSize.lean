import Verif.Lemmas.TextSize
import Verif.Lemmas.StatSize
import Verif.Tr.Commands
import Verif.Props.Search
/-
How long the text of a program is.
-/
namespace Verif.Lemmas.Size
open Verif Verif.Spec
open Verif.Props (Arranges)

/-! ### search terms -/

theorem raw_size (t : Str) : size (rawTest t) ≤ 27 + t.length := by
  have h := method_size (.named c!"_raw") c!"ilike" [pyStr (c!"%" ++ t ++ c!"%")]
  simp only [size, sizes, pyStr_size, List.length_append, List.length_cons, List.length_nil] at h
  unfold rawTest; omega

theorem quotes_length (s : Str) : (stripQuotes s).length ≤ s.length := by
  unfold stripQuotes
  split
  · omega
  · split
    · simp; omega
    · simp

theorem rw_size : ∀ p : PE, size (searchRw p) ≤ 4 * size p
  | .named n => by have := raw_size n; simp only [searchRw, size]; omega
  | .lit c => by have := raw_size (stripQuotes c); have := quotes_length c; simp only [searchRw, size]; omega
  | .not r => by have := rw_size r; simp only [searchRw, size]; omega
  | .bin op l r => by
    have := rw_size l
    have := rw_size r
    rw [searchRw]
    split
    · have := bin_size (searchRw l) op (searchRw r); simp only [size]; omega
    · simp only [size]; omega
  | .aliased c n => by
    have := rw_size c
    have := alias_size (searchRw c) n
    cases c <;> simp only [searchRw, size] at * <;> omega
  | .method .. => by simp only [searchRw]; omega
  | .fn .. => by simp only [searchRw]; omega
  | .py _ => by simp only [searchRw]; omega

theorem into_size (p : PE) : size (intoSearch p) ≤ 5 * size p := by
  have h1 := rw_size p.unalias
  have h2 := unalias_size p
  unfold intoSearch
  cases p with
  | aliased c n =>
    have h3 := alias_size (searchRw (PE.unalias (.aliased c n))) n
    simp only [PE.aliasName, PE.maybeAlias, size] at *
    omega
  | _ => simp only [PE.aliasName, PE.maybeAlias]; omega

/-- the length of names -/
def namesLen : List Str → Nat := listLen fun n => n.length + 1

theorem names_append : ∀ (a b : List Str), namesLen (a ++ b) = namesLen a + namesLen b
  | [], b => by simp [namesLen, listLen]
  | x :: a, b => by
    have := names_append a b
    simp only [namesLen, List.cons_append, listLen] at *; omega

theorem names_filter (p : Str → Bool) : ∀ a : List Str, namesLen (a.filter p) ≤ namesLen a
  | [] => by simp
  | x :: a => by
    have := names_filter p a
    rw [List.filter_cons]
    split <;> simp only [namesLen, listLen] at * <;> omega

theorem names_dedup : ∀ a : List Str, namesLen (dedupStr a) ≤ namesLen a
  | [] => by simp [dedupStr]
  | x :: a => by
    have h1 := names_dedup a
    have h2 := names_filter (· ≠ x) (dedupStr a)
    simp only [dedupStr, namesLen, listLen] at *
    omega

theorem names_perm {a b : List Str} (h : a.Perm b) : namesLen a = namesLen b := by
  induction h with
  | nil => rfl
  | cons _ _ ih => simp only [namesLen, listLen] at *; omega
  | swap => simp only [namesLen, listLen] at *; omega
  | trans _ _ h1 h2 => exact h1.trans h2

/-- the length of what is left of a condition -/
def leftLen : Option Expr → Nat
  | none => 0
  | some e => exprLen e

def leftFree : Option Expr → Bool
  | none => true
  | some e => noCall c!"memk" e

theorem split_rest {e : Expr} {b : Bool} {c : Option Expr} {is : List Str} (h : splitConditions b e = some (c, is))
    (he : splitConditions b e = some (some e, [])) : leftLen c + namesLen is ≤ exprLen e ∧ (noCall c!"memk" e = true → leftFree c = true) := by
  rw [he] at h
  cases h
  simp [leftLen, namesLen, listLen, leftFree]

theorem split_len : ∀ (e : Expr) (b : Bool) (c : Option Expr) (is : List Str), splitConditions b e = some (c, is) →
    leftLen c + namesLen is ≤ exprLen e ∧ (noCall c!"memk" e = true → leftFree c = true)
  | .binary l sym r, b, c, is, h => by
    have hl := exprLen_pos l
    have hr := exprLen_pos r
    rw [splitConditions] at h
    split at h
    · split at h
      · simp only [Option.map_eq_some_iff] at h
        obtain ⟨n, hn, h⟩ := h
        cases h
        have := asString_len hn
        simp only [leftLen, namesLen, listLen, exprLen, leftFree, implies_true, and_true]; omega
      · cases h
    · split at h
      · split at h
        · simp only [Option.map_eq_some_iff] at h
          obtain ⟨n, hn, h⟩ := h
          cases h
          have := asString_len hn
          simp only [leftLen, namesLen, listLen, exprLen, leftFree, implies_true, and_true]; omega
        · cases h
      · split at h
        · cases h
        · simp only at h
          split at h
          · cases h
          · rename_i l' is' e1
            split at h
            · cases h
            · rename_i r' js e2
              have h1 := split_len l _ _ _ e1
              have h2 := split_len r _ _ _ e2
              simp only [Option.map_eq_some_iff] at h
              obtain ⟨x, hx, h⟩ := h
              cases h
              rw [names_append]
              simp only [noCall, Bool.and_eq_true]
              unfold recombine at hx
              split at hx
              · cases hx; simp only [leftLen, exprLen, leftFree, implies_true, and_true] at *; omega
              · split at hx
                · cases hx
                  simp only [leftLen, exprLen, leftFree] at *
                  exact ⟨by omega, fun h => h1.2 h.1⟩
                · cases hx
              · split at hx
                · cases hx
                  simp only [leftLen, exprLen, leftFree] at *
                  exact ⟨by omega, fun h => h2.2 h.2⟩
                · cases hx
              · cases hx
                simp only [leftLen, exprLen, leftFree, noCall, Bool.and_eq_true] at *
                exact ⟨by omega, fun h => ⟨h1.2 h.1, h2.2 h.2⟩⟩
  | .const _, _, _, _, h => split_rest h rfl
  | .fv .., _, _, _, h => split_rest h rfl
  | .fb .., _, _, _, h => split_rest h rfl
  | .fc .., _, _, _, h => split_rest h rfl
  | .aliasedField .., _, _, _, h => split_rest h rfl
  | .unary .., _, _, _, h => split_rest h rfl
  | .call .., _, _, _, h => split_rest h rfl
  | .fieldIn .., _, _, _, h => split_rest h rfl
  | .alias .., _, _, _, h => split_rest h rfl
  | .timeModifier _, _, _, _, h => split_rest h rfl
  | .searchModifier _, _, _, _, h => split_rest h rfl
  | .subSearch _, _, _, _, h => split_rest h rfl

/-! ### sources -/

theorem of_text (t : Str) : (PyCode.of t).text = t := by simp [PyCode.of, PyCode.text]

theorem source_text (n : Str) : (DF.source n).render.text.length = 15 + n.length := by
  rw [DF.render, of_text]; simp; omega

theorem union_text (d : DF) (n : Str) : (DF.unionByName d (.source n)).render.text.length ≤ d.render.text.length + 60 + n.length := by
  have := source_text n
  rw [DF.render, of_text]; simp at *; omega

theorem sources_text : ∀ (xs : List Str) (d : DF),
    (xs.foldl (fun d n => DF.unionByName d (.source n)) d).render.text.length ≤ d.render.text.length + 60 * namesLen xs
  | [], d => by simp
  | x :: xs, d => by
    have h1 := union_text d x
    have h2 := sources_text xs (.unionByName d (.source x))
    rw [List.foldl_cons]
    simp only [namesLen, listLen] at *
    omega

theorem unions_text (is : List Str) (d : DF) : ((unionSources is).getD d).render.text.length ≤ d.render.text.length + 60 * namesLen is := by
  cases is with
  | nil => simp [unionSources]
  | cons x xs =>
    have h1 := sources_text xs (.source x)
    have h2 := source_text x
    simp only [unionSources, Option.getD_some, namesLen, listLen] at *
    omega

theorem where_text (d : DF) (p : PE) : (d.mkWhere p).render.text.length ≤ d.render.text.length + 9 + size p := by
  have h1 := renderE_size p.unalias
  have h2 := unalias_size p
  rw [DF.mkWhere, DF.render, of_text]; simp; omega

theorem column_text (d : DF) (n : Str) (p : PE) : (d.mkWithColumn n p).render.text.length ≤ d.render.text.length + 20 + n.length + size p := by
  have h1 := renderC_size p.unalias
  have h2 := unalias_size p
  rw [DF.mkWithColumn, DF.render, of_text]; simp; omega

/-! ### commands -/

/-- the text of the program so far -/
def St.len (s : St) : Nat := s.cur.render.text.length

theorem put_len (s : St) (d : DF) : St.len (s.put d) = d.render.text.length := rfl

theorem search_text {x : Ext} (hx : Arranges x) {m : Mode} {e : Expr} (hm : m ≠ .disallow ∨ noCall c!"memk" e = true) {s s' : St}
    (h : searchStandalone ⟨m, x⟩ e s = some s') :
    St.len s' ≤ St.len s + 500 * exprLen e := by
  unfold searchStandalone at h
  split at h
  · cases h
  · rename_i c is hs
    obtain ⟨h1, h2⟩ := split_len e true c is hs
    have h3 := unions_text (x.order (dedupStr is)) s.cur
    have h4 := names_perm (hx (dedupStr is))
    have h5 := names_dedup is
    simp only at h
    split at h
    · cases h
      rw [put_len]
      simp only [leftLen, St.len] at *
      omega
    · rename_i k
      simp only [Option.map_eq_some_iff] at h
      obtain ⟨p, hp, rfl⟩ := h
      have h6 := exprTr_size k p (hm.imp_right h2) hp
      have h7 := where_text ((unionSources (x.order (dedupStr is))).getD s.cur) (intoSearch p)
      have h8 := into_size p
      rw [put_len]
      simp only [leftLen, St.len] at *
      omega

theorem evalLoop_text {m : Mode} : ∀ {as : List (Str × Expr)} {d d' : DF}, (∀ a ∈ as, m ≠ .disallow ∨ noCall c!"memk" a.2 = true) → evalLoop m as d = some d' →
    d'.render.text.length ≤ d.render.text.length + 500 * listLen (fun a => a.1.length + exprLen a.2) as
  | [], d, d', _, h => by cases h; simp
  | (n, e) :: as, d, d', hm, h => by
    rw [evalLoop] at h
    split at h
    · cases h
    · rename_i p hp
      split at h
      · have h1 := evalLoop_text (fun a ha => hm a (List.mem_cons_of_mem _ ha)) h
        have h2 := column_text d n p
        have h3 := exprTr_size e p (hm (n, e) (List.mem_cons_self ..)) hp
        simp only [listLen]
        omega
      · cases h

theorem names_cols : ∀ fs : List Str, (joinWith c!", " ((fs.map PE.named).map renderC)).length ≤ 11 * namesLen fs
  | [] => by simp [joinWith]
  | f :: fs => by
    have h1 := names_cols fs
    have h2 := join_cons c!", " (renderC (.named f)) ((fs.map PE.named).map renderC)
    have h3 := renderC_size (.named f)
    simp only [List.map_cons, namesLen, listLen, size, List.length_cons, List.length_nil] at *
    omega

theorem select_text (fs : List Str) (d : DF) : (DF.select d (fs.map .named)).render.text.length ≤ d.render.text.length + 11 + 11 * namesLen fs := by
  have := names_cols fs
  rw [DF.render, of_text]; simp only [List.length_append, List.length_cons, List.length_nil]; omega

theorem rename_text : ∀ (as : List (Str × Str)) (d : DF), (as.foldl (fun d a => DF.withColumnRenamed d a.1 a.2) d).render.text.length ≤
    d.render.text.length + 500 * listLen (fun a => a.1.length + a.2.length + 1) as
  | [], d => by simp
  | (a, b) :: as, d => by
    have h1 := rename_text as (.withColumnRenamed d a b)
    have h2 : (DF.withColumnRenamed d a b).render.text.length ≤ d.render.text.length + 30 + a.length + b.length := by
      rw [DF.render, of_text]; simp; omega
    rw [List.foldl_cons]
    simp only [listLen] at *
    omega

theorem cols_text : ∀ cs : List PE, (joinWith c!", " (cs.map renderC)).length ≤ sizes cs
  | [] => by simp [joinWith, sizes]
  | c :: cs => by
    have h1 := cols_text cs
    have h2 := join_cons c!", " (renderC c) (cs.map renderC)
    have h3 := renderC_size c
    simp only [List.map_cons, sizes, List.length_cons, List.length_nil] at *
    omega

theorem order_text (d : DF) (cs : List PE) : (DF.orderBy d cs).render.text.length ≤ d.render.text.length + 15 + sizes cs := by
  have := cols_text cs
  rw [DF.render, of_text]; simp only [List.length_append, List.length_cons, List.length_nil]; omega

theorem agg_text (d : DF) (cs : List PE) : (DF.agg d cs).render.text.length ≤ d.render.text.length + 10 + sizes cs := by
  have := cols_text cs
  rw [DF.render, of_text]; simp only [List.length_append, List.length_cons, List.length_nil]; omega

theorem limit_text (d : DF) (n : Nat) : (DF.limit d n).render.text.length = d.render.text.length + 9 + (showNat n).length := by
  rw [DF.render, of_text]; simp only [List.length_append, List.length_cons, List.length_nil]; omega

/-! ### the names of groups -/

/-- the length of a BY field -/
def byLen (f : SpField) : Nat := f.field.length + 1 + spanLen f.span

theorem byField_text (f : SpField) : (byField f).render.length + 2 ≤ 40 * byLen f := by
  obtain ⟨f, t⟩ := f
  cases t with
  | none => simp only [byField, CN.render, byLen, spanLen, List.length_append, List.length_cons, List.length_nil]; omega
  | some t =>
    have := renderC_size (.fn c!"window" [pyStr f, pyStr (spanText t)])
    simp only [byField, CN.render, byLen, spanLen, size, sizes, pyStr_size, spanText, List.length_append, List.length_cons, List.length_nil] at *
    omega

theorem group_text (d : DF) (fs : List SpField) : (DF.groupBy d (fs.map byField)).render.text.length ≤ d.render.text.length + 12 + 40 * listLen byLen fs := by
  have key : ∀ fs : List SpField, ((fs.map byField).flatMap fun c => c.render ++ c!", ").length ≤ 40 * listLen byLen fs := by
    intro fs
    induction fs with
    | nil => simp
    | cons f fs ih =>
      have := byField_text f
      simp only [List.map_cons, List.flatMap_cons, List.length_append, List.length_cons, List.length_nil, listLen] at *
      omega
  have := key fs
  rw [DF.render, of_text]; simp only [List.length_append, List.length_cons, List.length_nil]; omega

theorem groupNames_text (d : DF) (fs : List Str) : (DF.groupBy d (fs.map .name)).render.text.length ≤ d.render.text.length + 12 + 4 * namesLen fs := by
  have key : ∀ fs : List Str, ((fs.map CN.name).flatMap fun c => c.render ++ c!", ").length ≤ 4 * namesLen fs := by
    intro fs
    induction fs with
    | nil => simp
    | cons f fs ih =>
      simp only [List.map_cons, List.flatMap_cons, CN.render, List.length_append, List.length_cons, List.length_nil, namesLen, listLen] at *
      omega
  have := key fs
  rw [DF.render, of_text]; simp only [List.length_append, List.length_cons, List.length_nil]; omega

/-! ### statistics -/

/-- the length of a statistic -/
def statLen (e : Expr) : Nat :=
  match Expr.unaliasName e with
  | (.call n es, a) => 1 + n.length + argsLen es + (a.map List.length).getD 0
  | _ => 0

theorem stat_plain (n : Str) (es : List Expr) : statLen (.call n es) = 1 + n.length + argsLen es := rfl

theorem stat_named (n : Str) (es : List Expr) (a : Str) : statLen (.alias (.call n es) a) = 1 + n.length + argsLen es + a.length := rfl

theorem stat_free {e : Expr} (h : statFree c!"memk" e = true) {n : Str} {es : List Expr} {a : Option Str} (he : Expr.unaliasName e = (.call n es, a)) :
    noCalls c!"memk" es = true := by
  cases e <;> simp only [statFree, Bool.false_eq_true] at h
  case call => cases he; exact h
  case alias e n =>
    cases e <;> simp only [Bool.false_eq_true] at h
    cases he; exact h

theorem statsFn_size {m : Mode} {n : Str} {as : List Arg} (hs : Slim as) {d : DF} {r : DF × PE} (h : statsFn m n as d = some r) :
    r.1.render.text.length + size r.2 ≤ d.render.text.length + 200 + 100 * n.length + 2 * budget as := by
  have h0 : statsFnBare n as d = some r ∨ statsFnRuntime n as d = some r := by
    cases m <;> simp only [statsFn] at h
    case disallow => exact .inl h
    case require => exact .inr h
    case allow =>
      unfold orElse at h
      split at h
      · rename_i h'; rw [← h]; exact .inr h'
      · exact .inl h
  rcases h0 with h | h
  · simp only [statsFnBare, Option.map_eq_some_iff] at h
    obtain ⟨c, hc, rfl⟩ := h
    have h1 := statsCol_size hs hc
    have h2 := order_text d [PE.mkMethod timeCol c!"asc" []]
    have h3 : sizes [PE.mkMethod timeCol c!"asc" []] = 22 := by decide
    dsimp only
    split <;> omega
  · simp only [statsFnRuntime, Option.map_eq_some_iff] at h
    obtain ⟨xs, hx, rfl⟩ := h
    have h1 := map_size hs hx
    have h2 := sizes_cols xs
    simp only [size, List.length_append, List.length_cons, List.length_nil]; omega

theorem stat_text {m : Mode} {e : Expr} (hm : m ≠ .disallow ∨ statFree c!"memk" e = true) {d d' : DF} {p : PE} (h : statsExpr m d e = some (d', p)) :
    d'.render.text.length + size p + 2 ≤ d.render.text.length + 400 * statLen e := by
  unfold statsExpr at h
  split at h
  · rename_i n es a he
    simp only [Option.map_eq_some_iff, Prod.mk.injEq] at h
    obtain ⟨⟨d1, c⟩, hc, rfl, rfl⟩ := h
    have h1 := statsFn_size (argsTr_size es (hm.imp_right fun h => stat_free h he)) hc
    rw [budget_args] at h1
    have h4 : size (c.maybeAlias a) ≤ size c + 10 + (a.map List.length).getD 0 := by
      cases a with
      | none => simp [PE.maybeAlias]
      | some a => exact alias_size c a
    simp only [statLen, he]
    simp only at h1
    omega
  · cases h

theorem stats_text {m : Mode} : ∀ {es : List Expr} {d d' : DF} {cs : List PE}, m ≠ .disallow ∨ es.all (statFree c!"memk") = true → statsLoop m es d = some (d', cs) →
    d'.render.text.length + sizes cs ≤ d.render.text.length + 400 * listLen statLen es
  | [], d, d', cs, _, h => by cases h; simp [sizes]
  | e :: es, d, d', cs, hm, h => by
    rw [List.all_cons, Bool.and_eq_true] at hm
    rw [statsLoop] at h
    split at h
    · cases h
    · rename_i d1 c hc
      split at h
      · cases h
      · rename_i d2 cs' hcs
        cases h
        have h1 := stat_text (hm.imp_right And.left) hc
        have h2 := stats_text (hm.imp_right And.right) hcs
        simp only [sizes, listLen]
        omega

theorem sort_size {b : Bool} : ∀ {ks : List (Option Str × Expr)} {cs : List PE}, sortKeys b ks = some cs → sizes cs ≤ 40 * listLen (fun k => exprLen k.2) ks
  | [], cs, h => by cases h; simp [sizes]
  | (sign, e) :: ks, cs, h => by
    rw [sortKeys] at h
    split at h
    · cases h
    · rename_i c hc
      split at h
      · cases h
      · rename_i k hk
        split at h
        · cases h
        · rename_i cs' hcs
          cases h
          have h1 := sort_size hcs
          have h2 : ∃ f, e = .const (.field f) ∧ c = .named f := by
            unfold sortExpr at hc
            split at hc
            · cases hc; exact ⟨_, rfl, rfl⟩
            · cases hc
          obtain ⟨f, rfl, rfl⟩ := h2
          simp only [sortDir, Option.map_eq_some_iff] at hk
          obtain ⟨x, -, rfl⟩ := hk
          have h3 := method_size (.named f) (if x then c!"desc" else c!"asc") []
          have h4 : (if x then c!"desc" else c!"asc").length ≤ 4 := by cases x <;> decide
          simp only [sizes, size, listLen, exprLen, constLen] at *
          omega

theorem total_size (n : Str) : size (addTotalsCol n) ≤ 100 + 2 * n.length := by
  have h1 := method_size (.fn c!"when" [PE.mkMethod (PE.mkMethod (.named n) c!"cast" [pyStr c!"double"]) c!"isNotNull" [], .named n]) c!"otherwise" [.lit c!"0.0"]
  have h2 := method_size (PE.mkMethod (.named n) c!"cast" [pyStr c!"double"]) c!"isNotNull" []
  have h3 := method_size (.named n) c!"cast" [pyStr c!"double"]
  unfold addTotalsCol
  simp only [sizes, size, pyStr_size, List.length_cons, List.length_nil] at *
  omega

theorem totals_size : ∀ (fs : List Str) (p : PE), size (joinBinFrom c!"+" p (fs.map addTotalsCol)) ≤ size p + 110 * namesLen fs
  | [], p => by simp [joinBinFrom]
  | f :: fs, p => by
    have h1 := totals_size fs (.bin c!"+" p (addTotalsCol f))
    have h3 := total_size f
    rw [List.map_cons, joinBinFrom]
    simp only [size, namesLen, listLen, List.length_cons, List.length_nil] at *
    omega

/-- the length of the parts of `top` and `rare` -/
def topLen (a : TopRare) : Nat :=
  1 + (namesLen a.fields + namesLen (a.by_.getD []) + a.countField.length + a.percentField.length + (showNat a.n).length) / 10

theorem top_text {dir : Str} (hd : dir.length ≤ 4) {a : TopRare} {s s' : St} (h : topRareTr dir a s = some s') : St.len s' ≤ St.len s + 500 * topLen a := by
  unfold topRareTr at h
  split at h
  · cases h
  · cases h
    rw [put_len]
    have h1 := groupNames_text s.cur (a.by_.getD a.fields)
    have h1' : namesLen (a.by_.getD a.fields) ≤ namesLen a.fields + namesLen (a.by_.getD []) := by
      cases a.by_ with
      | none => simp
      | some b => simp
    have h2 := agg_text (.groupBy s.cur ((a.by_.getD a.fields).map .name)) [PE.withAlias (.fn c!"count" []) a.countField]
    have h3 := alias_size (.fn c!"count" []) a.countField
    generalize DF.agg (.groupBy s.cur ((a.by_.getD a.fields).map .name)) [PE.withAlias (.fn c!"count" []) a.countField] = d at *
    have h4 : ∀ d : DF, (if a.showPercent then d.mkWithColumn a.percentField (PE.mkBin (.named c!"count") c!"/" (.fn c!"sum" [.named c!"count"])) else d).render.text.length ≤
        d.render.text.length + 80 + a.percentField.length := by
      intro d
      have e1 := column_text d a.percentField (PE.mkBin (.named c!"count") c!"/" (.fn c!"sum" [.named c!"count"]))
      have e2 : size (PE.mkBin (.named c!"count") c!"/" (.fn c!"sum" [.named c!"count"])) = 42 := by decide
      split <;> omega
    have h4 := h4 d
    generalize (if a.showPercent then d.mkWithColumn a.percentField (PE.mkBin (.named c!"count") c!"/" (.fn c!"sum" [.named c!"count"])) else d) = d2 at *
    have h5 := order_text d2 [PE.mkMethod (.named c!"count") dir []]
    have h6 := method_size (.named c!"count") dir []
    generalize DF.orderBy d2 [PE.mkMethod (.named c!"count") dir []] = d3 at *
    have h7 : (if a.n ≠ 0 then DF.limit d3 a.n else d3).render.text.length ≤ d3.render.text.length + 9 + (showNat a.n).length := by
      have := limit_text d3 a.n
      split <;> omega
    simp only [sizes, size, List.length_cons, List.length_nil, St.len, topLen] at *
    omega

/-! ### statements that call the library -/

theorem list_append {α : Type} (len : α → Nat) : ∀ a b : List α, listLen len (a ++ b) = listLen len a + listLen len b
  | [], b => by simp [listLen]
  | x :: a, b => by rw [List.cons_append, listLen, listLen, list_append len a b]; omega

theorem list_map {α β : Type} (len : β → Nat) (f : α → β) : ∀ a : List α, listLen len (a.map f) = listLen (fun x => len (f x)) a
  | [] => rfl
  | x :: a => by rw [List.map_cons, listLen, listLen, list_map len f a]

theorem list_mono {α : Type} {f g : α → Nat} (h : ∀ a, f a ≤ g a) : ∀ a : List α, listLen f a ≤ listLen g a
  | [] => Nat.le_refl _
  | x :: a => by have := h x; have := list_mono h a; rw [listLen, listLen]; omega

theorem list_mul {α : Type} (k : Nat) (f : α → Nat) : ∀ a : List α, listLen (fun x => k * f x) a = k * listLen f a
  | [] => rfl
  | x :: a => by rw [listLen, listLen, list_mul k f a, Nat.mul_add]

theorem join_all : ∀ xs : List Str, (joinWith c!", " xs).length ≤ listLen (fun x => x.length + 2) xs
  | [] => by simp [joinWith]
  | x :: xs => by
    have h1 := join_cons c!", " x xs
    have h2 := join_all xs
    simp only [listLen, List.length_cons, List.length_nil] at *; omega

/-- the length of an argument -/
def argText (r : RE) : Nat := r.render.length + 2

/-- the length of a keyword argument -/
def kwText (k : Str × RE) : Nat := k.1.length + 3 + k.2.render.length

theorem runtime_text (s : St) (f : Str) (as : List RE) (ks : List (Str × RE)) :
    St.len (s.putRuntime f as ks) ≤ St.len s + 2 * (showNat s.next).length + 40 + f.length + listLen argText as + listLen kwText ks := by
  have stmt : ∀ n first : Str, (runtimeStmt n f first as ks).length ≤ n.length + first.length + f.length + 20 + listLen argText as + listLen kwText ks := by
    intro n first
    have h1 := join_all (first :: (as.map RE.render ++ ks.map fun kv => kv.1 ++ c!"=" ++ kv.2.render))
    have h2 : listLen (fun kv : Str × RE => (kv.1 ++ c!"=" ++ kv.2.render).length + 2) ks ≤ listLen kwText ks :=
      list_mono (fun kv => by simp only [kwText, List.length_append, List.length_cons, List.length_nil]; omega) ks
    rw [listLen, list_append, list_map, list_map] at h1
    have h3 : listLen (fun x : RE => x.render.length + 2) as = listLen argText as := rfl
    simp only [runtimeStmt, List.length_append, List.length_cons, List.length_nil] at *
    omega
  have hn : (dfName s.next).length = 3 + (showNat s.next).length := by simp [dfName]; omega
  unfold St.len St.putRuntime St.cur
  cases hd : s.df with
  | none =>
    have := stmt (dfName s.next) c!"None"
    simp only [Option.getD_some, Option.getD_none, DF.render, PyCode.text, List.flatMap_cons, List.flatMap_nil, List.length_append, List.length_cons,
      List.length_nil] at *
    omega
  | some d =>
    have := stmt (dfName s.next) d.render.primary
    simp only [Option.getD_some, DF.render, PyCode.text, List.flatMap_append, List.flatMap_cons, List.flatMap_nil, List.length_append,
      List.length_cons, List.length_nil] at *
    omega

theorem evalKw_text {m : Mode} : ∀ {as : List (Str × Expr)} {ks : List (Str × RE)}, (∀ a ∈ as, m ≠ .disallow ∨ noCall c!"memk" a.2 = true) → evalKwargs m as = some ks →
    listLen kwText ks ≤ 500 * listLen (fun a => a.1.length + exprLen a.2) as
  | [], ks, _, h => by cases h; simp [listLen]
  | (n, e) :: as, ks, hm, h => by
    rw [evalKwargs] at h
    split at h
    · cases h
    · rename_i p hp
      split at h
      · split at h
        · cases h
        · rename_i ks' hk
          cases h
          have h1 := evalKw_text (fun a ha => hm a (List.mem_cons_of_mem _ ha)) hk
          have h2 := exprTr_size e p (hm (n, e) (List.mem_cons_self ..)) hp
          have h3 := unalias_size p
          have h4 := renderE_size p.unalias
          simp only [listLen, kwText, RE.render]
          omega
      · cases h

theorem strs_text (fs : List Str) : (RE.list (fs.map pyStr)).render.length ≤ 4 + 4 * namesLen fs := by
  have h1 := join_all ((fs.map pyStr).map renderE)
  rw [list_map, list_map] at h1
  have h2 : listLen (fun f : Str => (renderE (pyStr f)).length + 2) fs ≤ listLen (fun f => 4 * (f.length + 1)) fs :=
    list_mono (fun f => by have := renderE_size (pyStr f); rw [pyStr_size] at this; omega) fs
  rw [list_mul] at h2
  simp only [RE.render, List.length_append, List.length_cons, List.length_nil, namesLen] at *
  omega

theorem exprs_size {m : Mode} : ∀ {es : List Expr} {xs : List PE}, m ≠ .disallow ∨ noCalls c!"memk" es = true → exprsTr m es = some xs → sizes xs ≤ 100 * argsLen es
  | [], xs, _, h => by cases h; simp [sizes]
  | e :: es, xs, hm, h => by
    rw [noCalls, Bool.and_eq_true] at hm
    rw [exprsTr] at h
    split at h
    · cases h
    · rename_i c hc
      split at h
      · cases h
      · rename_i cs hcs
        cases h
        have h1 := exprTr_size e c (hm.imp_right And.left) hc
        have h2 := exprs_size (hm.imp_right And.right) hcs
        simp only [sizes, argsLen]; omega

theorem statsKw_text {m : Mode} : ∀ {es : List Expr} {ks : List (Str × RE)}, m ≠ .disallow ∨ es.all (statFree c!"memk") = true → statsRuntimeExprs m es = some ks →
    listLen kwText ks ≤ 400 * listLen statLen es
  | [], ks, _, h => by cases h; simp [listLen]
  | e :: es, ks, hm, h => by
    rw [List.all_cons, Bool.and_eq_true] at hm
    rw [statsRuntimeExprs] at h
    split at h
    · cases h
    · rename_i k hk
      split at h
      · cases h
      · rename_i ks' hks
        cases h
        have h1 := statsKw_text (hm.imp_right And.right) hks
        unfold statsRuntimeExpr at hk
        split at hk
        · rename_i n as a he
          simp only [Option.map_eq_some_iff] at hk
          obtain ⟨xs, hx, rfl⟩ := hk
          have h2 := exprs_size (hm.imp_right fun h => stat_free h.1 he) hx
          have h3 := renderE_size (.fn (c!"functions.stats." ++ n) xs)
          have h4 : (a.getD n).length ≤ n.length + (a.map List.length).getD 0 := by cases a <;> simp
          simp only [listLen, kwText, RE.render, statLen, he, size, List.length_append, List.length_cons, List.length_nil] at *
          omega
        · cases hk

theorem byKw_text (b : Option (List SpField)) : listLen kwText (byKwarg b) ≤ 20 + 60 * listLen byLen (b.getD []) := by
  cases b with
  | none => simp [byKwarg, listLen]
  | some fs =>
    have h1 := join_all ((fs.map fun f => (byField f).toPE).map renderE)
    rw [list_map, list_map] at h1
    have h2 : listLen (fun f => (renderE (byField f).toPE).length + 2) fs ≤ listLen (fun f => 60 * byLen f) fs := by
      refine list_mono (fun f => ?_) fs
      have := renderE_size (byField f).toPE
      obtain ⟨f, t⟩ := f
      cases t with
      | none => simp only [byField, CN.toPE, size, byLen, spanLen] at *; omega
      | some t =>
        simp only [byField, CN.toPE, byLen, spanLen, size, sizes, pyStr_size, spanText, List.length_append, List.length_cons, List.length_nil] at *
        omega
    rw [list_mul] at h2
    simp only [byKwarg, listLen, kwText, RE.render, Option.getD_some, List.length_append, List.length_cons, List.length_nil] at *
    omega

theorem opt_text (o : Option Str) : (renderE (pyOptStr o)).length ≤ 6 + (o.map List.length).getD 0 := by
  cases o with
  | none => decide
  | some w => have := renderE_size (pyStr w); rw [pyStr_size] at this; simp only [pyOptStr, Option.map_some, Option.getD_some]; omega

theorem bool_text (b : Bool) : (renderE (pyBool b)).length ≤ 5 := by cases b <;> decide

theorem ands_all : ∀ e : Expr, argsLen (breakAnds e) ≤ exprLen e
  | .binary l sym r => by
    have h1 := ands_all l
    have h2 := ands_all r
    have app : ∀ a b : List Expr, argsLen (a ++ b) = argsLen a + argsLen b := by
      intro a b
      induction a with
      | nil => simp [argsLen]
      | cons x a ih => rw [List.cons_append, argsLen, argsLen, ih]; omega
    rw [breakAnds]
    split
    · rw [app, exprLen]; omega
    · simp [argsLen]
  | .const _ | .fv .. | .fb .. | .fc .. | .aliasedField .. | .unary .. | .call .. | .fieldIn .. | .alias .. | .timeModifier _ | .searchModifier _
  | .subSearch _ => by simp [breakAnds, argsLen]

theorem ands_free : ∀ e : Expr, noCall c!"memk" e = true → noCalls c!"memk" (breakAnds e) = true
  | .binary l sym r, h => by
    have app : ∀ a b : List Expr, noCalls c!"memk" (a ++ b) = (noCalls c!"memk" a && noCalls c!"memk" b) := by
      intro a b
      induction a with
      | nil => simp [noCalls]
      | cons x a ih => rw [List.cons_append, noCalls, noCalls, ih, Bool.and_assoc]
    have h' := h
    rw [noCall, Bool.and_eq_true] at h
    have h1 := ands_free l h.1
    have h2 := ands_free r h.2
    rw [breakAnds]
    split
    · rw [app, h1, h2]; rfl
    · rw [noCalls, h']; rfl
  | .const _, h | .fv .., h | .fb .., h | .fc .., h | .aliasedField .., h | .unary .., h | .call .., h | .fieldIn .., h | .alias .., h | .timeModifier _, h
  | .searchModifier _, h | .subSearch _, h => by simp only [breakAnds, noCalls, h, Bool.and_self]

theorem keyword_len {f k : Str} (h : searchKeyword f = some k) : k.length ≤ 14 := by
  unfold searchKeyword at h
  repeat' (split at h)
  all_goals cases h
  all_goals decide

/-- the length of an argument of `commands.search` -/
def sargText : SArg → Nat
  | .pos e => (renderE e).length + 2
  | .kw k e => k.length + 3 + (renderE e).length

theorem sarg_text {m : Mode} {e : Expr} (hm : m ≠ .disallow ∨ noCall c!"memk" e = true) {a : SArg} (h : searchArg m e = some a) : sargText a ≤ 100 * exprLen e := by
  have pos : ∀ {e : Expr}, (m ≠ .disallow ∨ noCall c!"memk" e = true) → ∀ {a : SArg}, (exprTr m e).map SArg.pos = some a → sargText a ≤ 100 * exprLen e := by
    intro e hm a h
    obtain ⟨p, hp, rfl⟩ := Option.map_eq_some_iff.1 h
    have h1 := exprTr_size e p hm hp
    have h2 := renderE_size p
    simp only [sargText]; omega
  unfold searchArg at h
  split at h
  · rename_i f sym r
    split at h
    · rename_i k hk
      have h1 := keyword_len hk
      split at h
      · split at h
        · rename_i v
          cases h
          have := renderE_size (pyStr v)
          rw [pyStr_size] at this
          simp only [sargText, exprLen, constLen]; omega
        · rename_i v
          cases h
          have := renderE_size (pyStr v)
          rw [pyStr_size] at this
          simp only [sargText, exprLen, constLen]; omega
        · cases h
      · cases h
    · split at h
      · obtain ⟨p, hp, rfl⟩ := Option.map_eq_some_iff.1 h
        have h1 := exprTr_size r p (hm.imp_right fun h => by rw [noCall, Bool.and_eq_true] at h; exact h.2) hp
        have h2 := renderE_size p
        simp only [sargText, exprLen, constLen]; omega
      · exact pos hm h
  · exact pos hm h

theorem sargs_text {m : Mode} : ∀ {es : List Expr} {ps : List RE} {ks : List (Str × RE)}, m ≠ .disallow ∨ noCalls c!"memk" es = true → searchArgs m es = some (ps, ks) →
    listLen argText ps + listLen kwText ks ≤ 100 * argsLen es
  | [], ps, ks, _, h => by cases h; simp [listLen]
  | e :: es, ps, ks, hm, h => by
    rw [noCalls, Bool.and_eq_true] at hm
    rw [searchArgs] at h
    split at h
    · cases h
    · rename_i a ha
      have h1 := sarg_text (hm.imp_right And.left) ha
      split at h
      · cases h
      · rename_i ps' ks' hk
        have h2 := sargs_text (hm.imp_right And.right) hk
        split at h
        · cases h
          simp only [sargText, listLen, argText, RE.render, argsLen] at *; omega
        · cases h
          simp only [sargText, listLen, kwText, RE.render, argsLen] at *; omega

/-! ### the other commands -/

theorem bin_text (a : Bin) (s s' : St) (h : binCmdTr a s = some s') : St.len s' ≤ St.len s + 500 * ((3 * a.field.outName.length + spanLen a.span) / 10 + 1) := by
  cases h
  rw [put_len]
  have h1 : ∀ d : DF, (d.mkWithColumn a.field.outName (.named (a.field.outName ++ c!"." ++ c!"start"))).render.text.length ≤
      d.render.text.length + 35 + 2 * a.field.outName.length := by
    intro d
    have := column_text d a.field.outName (.named (a.field.outName ++ c!"." ++ c!"start"))
    simp only [size, List.length_append, List.length_cons, List.length_nil] at this
    omega
  cases hs : a.span with
  | none => have := h1 s.cur; simp only [St.len, spanLen]; omega
  | some t =>
    have e1 := column_text s.cur a.field.outName (.fn c!"window" [.named c!"n", pyStr (spanText t)])
    have e2 := h1 (s.cur.mkWithColumn a.field.outName (.fn c!"window" [.named c!"n", pyStr (spanText t)]))
    simp only [St.len, spanLen, size, sizes, pyStr_size, spanText, List.length_append, List.length_cons, List.length_nil] at *
    omega

/-- the length of a conversion -/
def convLen (c : FieldConversion) : Nat := 1 + c.func.length + c.field.length + (c.alias.map List.length).getD 0

theorem memk_size (n : Str) : size (memkFn (.named n)) ≤ 470 + 4 * n.length := by
  simp [memkFn, PE.mkBin, PE.mkMethod, PE.unalias, size, sizes, pyStr_size, pyInt_size]
  have : (showInt 1).length = 1 := by decide
  have : (showInt 2).length = 1 := by decide
  omega

theorem convertFn_size {t : Str} {c : FieldConversion} {p : PE} (h : convertFn t c = some p) : size p ≤ 470 + 4 * c.field.length + 2 * c.func.length + 9 * t.length := by
  unfold convertFn at h
  dsimp only at h
  split at h
  · simp only [ctimeFn, Option.map_eq_some_iff] at h
    obtain ⟨u, hu, rfl⟩ := h
    have := convert_length hu
    simp only [size, sizes, pyStr_size, List.length_cons, List.length_nil]; omega
  · split at h
    · cases h
      have := memk_size c.field
      omega
    · split at h
      · cases h
        have := rmunit_size (.named c.field)
        simp only [size] at *; omega
      · split at h
        · cases h
          have := rmcomma_size (.named c.field)
          simp only [size] at *; omega
        · cases h
          simp only [size, sizes]; omega

theorem convert_text (t : Str) : ∀ (cs : List FieldConversion) (d d' : DF), convertLoop t cs d = some d' →
    d'.render.text.length ≤ d.render.text.length + 500 * listLen convLen cs + 9 * (cs.length * t.length)
  | [], d, d', h => by cases h; simp
  | c :: cs, d, d', h => by
    rw [convertLoop] at h
    split at h
    · cases h
    · rename_i e he
      have h1 := convertFn_size he
      have h2 := column_text d (c.alias.getD c.field) e
      have h3 := convert_text t cs _ _ h
      have h4 : (c.alias.getD c.field).length ≤ c.field.length + (c.alias.map List.length).getD 0 := by cases c.alias <;> simp
      rw [List.length_cons, Nat.add_mul, Nat.one_mul, listLen, convLen]
      omega

theorem split_join (sep : Char) : ∀ s : Str, (joinWith [sep] (splitOnC sep s)).length = s.length := by
  have ne : ∀ s : Str, splitOnC sep s ≠ [] := by
    intro s
    cases s with
    | nil => simp [splitOnC]
    | cons c s =>
      rw [splitOnC]
      split
      · simp
      · split <;> simp
  intro s
  induction s with
  | nil => rfl
  | cons c s ih =>
    rw [splitOnC]
    split
    · cases hs : splitOnC sep s with
      | nil => exact absurd hs (ne s)
      | cons x xs => rw [hs] at ih; simp [joinWith, ih]
    · cases hs : splitOnC sep s with
      | nil => exact absurd hs (ne s)
      | cons x xs =>
        rw [hs] at ih
        cases xs with
        | nil => simp [joinWith] at *; exact ih
        | cons y ys => simp [joinWith] at *; omega

theorem table_text {m n : Option Str} {t : Str} (h : dataModelTable m n = some t) : t.length ≤ 1 + (m.map List.length).getD 0 + (n.map List.length).getD 0 := by
  unfold dataModelTable at h
  split at h
  · cases h; simp
  · rename_i m n
    cases h
    have h1 := split_join '.' n
    have h2 : (joinWith c!"." ((splitOnC '.' n).drop 1)).length ≤ (joinWith c!"." (splitOnC '.' n)).length := by
      cases splitOnC '.' n with
      | nil => simp
      | cons x xs =>
        cases xs with
        | nil => simp [joinWith]
        | cons y ys => simp [joinWith]; omega
    simp only [Option.map_some, Option.getD_some, List.length_append, List.length_cons, List.length_nil]; omega
  · cases h

theorem disp {m : Mode} {rt sa : Option St} {s' : St} (h : dispatch m rt sa = some s') : rt = some s' ∨ sa = some s' := by
  cases m <;> simp only [dispatch] at h
  case disallow => exact .inr h
  case require => exact .inl h
  case allow =>
    unfold orElse at h
    split at h
    · exact .inl h
    · exact .inr h

theorem disp_none {m : Mode} {sa : Option St} {s' : St} (h : dispatch m none sa = some s') : sa = some s' := by
  rcases disp h with h | h
  · cases h
  · exact h

theorem model_text {m : Mode} {a : DataModel} {s s' : St} (h : dataModelTr m a s = some s') :
    s'.next ≤ s.next + 1 ∧ St.len s' ≤ St.len s + 200 + 2 * (showNat s.next).length + (a.dataModelName.map List.length).getD 0 +
      (a.datasetName.map List.length).getD 0 + (a.searchMode.map List.length).getD 0 := by
  rcases disp h with h | h
  · cases h
    have h1 := runtime_text s c!"data_model" []
      [ (c!"data_model_name", .expr (pyOptStr a.dataModelName)), (c!"dataset_name", .expr (pyOptStr a.datasetName)),
        (c!"search_mode", .expr (pyOptStr a.searchMode)), (c!"strict_fields", .expr (pyBool a.strictFields)),
        (c!"allow_old_summaries", .expr (pyBool a.allowOldSummaries)), (c!"summaries_only", .expr (pyBool a.summariesOnly)) ]
    have h2 := opt_text a.dataModelName
    have h3 := opt_text a.datasetName
    have h4 := opt_text a.searchMode
    have h5 := bool_text a.strictFields
    have h6 := bool_text a.allowOldSummaries
    have h7 := bool_text a.summariesOnly
    refine ⟨Nat.le_refl _, ?_⟩
    simp only [listLen, kwText, RE.render, List.length_cons, List.length_nil] at h1
    omega
  · simp only [dataModelStandalone] at h
    split at h
    · split at h
      · rename_i src hd _ _
        cases h
        refine ⟨Nat.le_succ _, ?_⟩
        rw [put_len]; simp only [St.len, St.cur, hd, Option.getD_some]; omega
      · obtain ⟨t, ht, rfl⟩ := Option.map_eq_some_iff.1 h
        have := table_text ht
        refine ⟨Nat.le_succ _, ?_⟩
        rw [put_len, source_text]; omega
      · cases h
    · cases h

theorem make_text (a : MakeResults) (s s' : St) (h : makeResultsTr a s = some s') :
    St.len s' ≤ 500 * (((showInt a.count).length + a.server.length + (a.serverGroup.map List.length).getD 0) / 10 + 1) := by
  cases h
  rw [put_len]
  have h0 : (DF.rawSource (c!"spark.range(0, " ++ showInt a.count ++ c!", 1)")).render.text.length = 19 + (showInt a.count).length := by
    rw [DF.render, of_text]; simp only [List.length_append, List.length_cons, List.length_nil]; omega
  have h1 := column_text (.rawSource (c!"spark.range(0, " ++ showInt a.count ++ c!", 1)")) c!"_time" (.fn c!"current_timestamp" [])
  generalize (DF.rawSource (c!"spark.range(0, " ++ showInt a.count ++ c!", 1)")).mkWithColumn c!"_time" (.fn c!"current_timestamp" []) = d at *
  split
  · have e1 := column_text d c!"_raw" (.lit c!"None")
    generalize d.mkWithColumn c!"_raw" (.lit c!"None") = d1 at *
    have e2 := column_text d1 c!"host" (.lit c!"None")
    generalize d1.mkWithColumn c!"host" (.lit c!"None") = d2 at *
    have e3 := column_text d2 c!"source" (.lit c!"None")
    generalize d2.mkWithColumn c!"source" (.lit c!"None") = d3 at *
    have e4 := column_text d3 c!"sourcetype" (.lit c!"None")
    generalize d3.mkWithColumn c!"sourcetype" (.lit c!"None") = d4 at *
    have e5 := column_text d4 c!"splunk_server" (.lit (c!"\"" ++ a.server ++ c!"\""))
    generalize d4.mkWithColumn c!"splunk_server" (.lit (c!"\"" ++ a.server ++ c!"\"")) = d5 at *
    have e6 := column_text d5 c!"splunk_server_group" (match a.serverGroup with
          | some g => .lit g
          | none => .lit c!"None")
    cases hg : a.serverGroup <;> rw [hg] at e6 <;>
      simp only [size, sizes, List.length_append, List.length_cons, List.length_nil, Option.map_some, Option.map_none, Option.getD_some, Option.getD_none] at * <;> omega
  · simp only [size, sizes, List.length_cons, List.length_nil] at *
    omega

/-- every group of a regular expression takes a character of it: there are no more groups than characters, and their names and numbers are no longer -/
def GroupsFit (x : Ext) : Prop := ∀ r a, x.parseRe r = some a → (groupsOf a).length ≤ r.length ∧
  ∀ g ∈ groupsOf a, g.1 ≤ r.length ∧ (g.2.map List.length).getD 0 ≤ r.length

theorem showNat_le (n : Nat) : (showNat n).length ≤ n + 1 := showNat_length n (Nat.lt_of_lt_of_le (Nat.lt_pow_self (by decide)) (Nat.pow_le_pow_right (by decide) (Nat.le_succ n)))

theorem rexCols_text (a : Rex) : ∀ (gs : List (Nat × Option Str)) (d : DF), (∀ g ∈ gs, g.1 ≤ a.regex.length ∧ (g.2.map List.length).getD 0 ≤ a.regex.length) →
    (gs.foldl (rexCol a) d).render.text.length ≤ d.render.text.length + gs.length * (80 + a.field.length + 4 * a.regex.length)
  | [], d, _ => by simp
  | g :: gs, d, h => by
    have h1 := rexCols_text a gs (rexCol a d g) fun x hx => h x (List.mem_cons_of_mem _ hx)
    obtain ⟨h2, h3⟩ := h g List.mem_cons_self
    have h4 := showNat_le g.1
    have h5 := column_text d (g.2.getD (showNat g.1)) (.fn c!"regexp_extract" [.named a.field, pyRaw a.regex, pyInt g.1])
    have h6 : (g.2.getD (showNat g.1)).length ≤ (g.2.map List.length).getD 0 + (showNat g.1).length := by cases g.2 <;> simp
    have h7 : (showInt (g.1 : Int)).length = (showNat g.1).length := rfl
    have h8 : (g.2.getD (showNat g.1)).length ≤ a.regex.length + 1 := by
      cases hg : g.2 with
      | none => simp only [Option.getD_none]; omega
      | some w => rw [hg] at h3; simp only [Option.getD_some, Option.map_some] at *; omega
    rw [List.foldl_cons, List.length_cons, Nat.add_mul, Nat.one_mul]
    simp only [rexCol, size, sizes, pyRaw, pyInt_size, List.length_append, List.length_cons, List.length_nil] at *
    omega

theorem tstats_text {m : Mode} {o : TStatsOpts} {es : List Expr} {dm nn : Option Str} {w : Option Expr} {bf : Option (List SpField)} {bp : Option Str} {s s' : St}
    (h1 : m ≠ .disallow ∨ es.all (statFree c!"memk") = true) (h2 : m ≠ .disallow ∨ w.all (noCall c!"memk") = true)
    (h : tstatsStandalone m o es dm nn w bf bp s = some s') :
    s'.next ≤ s.next + 1 ∧
    St.len s' ≤ St.len s + 500 * (1 + ((dm.map List.length).getD 0 + (nn.map List.length).getD 0) + (w.map exprLen).getD 0 + listLen statLen es +
      listLen byLen (bf.getD [])) + 2 * (showNat s.next).length := by
  unfold tstatsStandalone at h
  split at h
  · split at h
    · cases h
    · rename_i s1 hs1
      obtain ⟨e0, e1⟩ := model_text hs1
      simp only [Option.map_some, Option.getD_some, List.length_cons, List.length_nil] at e1
      split at h
      · cases h
      · rename_i d hd
        have e2 : d.render.text.length ≤ St.len s1 + 9 + 100 * (w.map exprLen).getD 0 := by
          cases w with
          | none => cases hd; simp only [St.len]; omega
          | some e =>
            simp only [whereStep, Option.map_eq_some_iff] at hd
            obtain ⟨p, hp, rfl⟩ := hd
            have := exprTr_size e p h2 hp
            have := where_text s1.cur p
            simp only [St.len, Option.map_some, Option.getD_some]; omega
        split at h
        · cases h
        · rename_i d2 cs hcs
          have e3 := stats_text h1 hcs
          split at h
          · rename_i fs
            cases h
            have e4 := group_text d2 fs
            have e5 := agg_text (.groupBy d2 (fs.map byField)) cs
            refine ⟨e0, ?_⟩
            rw [put_len]; simp only [Option.getD_some] at *; omega
          · cases h
            have e4 := group_text d2 []
            have e5 := agg_text (.groupBy d2 []) cs
            refine ⟨e0, ?_⟩
            rw [put_len]; simp only [Option.getD_none, listLen, List.map_nil] at *; omega
          · cases h
  · cases h

theorem tstatsRt_text {m : Mode} {o : TStatsOpts} {es : List Expr} {dm nn : Option Str} {w : Option Expr} {bf : Option (List SpField)} {s s' : St}
    (h1 : m ≠ .disallow ∨ es.all (statFree c!"memk") = true) (h2 : m ≠ .disallow ∨ w.all (noCall c!"memk") = true)
    (h : tstatsRuntime m o es dm nn w bf s = some s') :
    s'.next ≤ s.next + 1 ∧
    St.len s' ≤ St.len s + 500 * (1 + ((dm.map List.length).getD 0 + (nn.map List.length).getD 0) + (w.map exprLen).getD 0 + listLen statLen es +
      listLen byLen (bf.getD []) + (o.fillnullValue.map List.length).getD 0) + 2 * (showNat s.next).length := by
  unfold tstatsRuntime at h
  split at h
  · split at h
    · cases h
    · rename_i wk hwk
      obtain ⟨ks, hks, rfl⟩ := Option.map_eq_some_iff.1 h
      refine ⟨Nat.le_refl _, ?_⟩
      have e1 := statsKw_text h1 hks
      have e2 : listLen kwText wk ≤ 10 + 100 * (w.map exprLen).getD 0 := by
        cases w with
        | none => cases hwk; simp [listLen]
        | some e =>
          obtain ⟨p, hp, rfl⟩ := Option.map_eq_some_iff.1 hwk
          have i1 := exprTr_size e p h2 hp
          have i2 := renderE_size p
          simp only [listLen, kwText, RE.render, Option.map_some, Option.getD_some, List.length_cons, List.length_nil]; omega
      have e3 := byKw_text bf
      have e5 := opt_text dm
      have e6 := opt_text nn
      have e8 : listLen kwText [(c!"from_", .dict [(c!"datamodel", pyOptStr dm), (c!"nodename", pyOptStr nn)])] ≤
          80 + (dm.map List.length).getD 0 + (nn.map List.length).getD 0 := by
        simp only [listLen, kwText, RE.render, List.map_cons, List.map_nil, joinWith, List.length_append, List.length_cons, List.length_nil]; omega
      have key : ∀ fk : List (Str × RE), listLen kwText fk ≤ 30 + (o.fillnullValue.map List.length).getD 0 →
          St.len (s.putRuntime c!"tstats" []
            ([(c!"from_", .dict [(c!"datamodel", pyOptStr dm), (c!"nodename", pyOptStr nn)])] ++ fk ++ wk ++ byKwarg bf ++ ks)) ≤
          St.len s + 500 * (1 + ((dm.map List.length).getD 0 + (nn.map List.length).getD 0) + (w.map exprLen).getD 0 + listLen statLen es +
            listLen byLen (bf.getD []) + (o.fillnullValue.map List.length).getD 0) + 2 * (showNat s.next).length := by
        intro fk hfk
        have e7 := runtime_text s c!"tstats" []
          ([(c!"from_", .dict [(c!"datamodel", pyOptStr dm), (c!"nodename", pyOptStr nn)])] ++ fk ++ wk ++ byKwarg bf ++ ks)
        rw [list_append, list_append, list_append, list_append] at e7
        have e9 : listLen argText [] = 0 := rfl
        rw [e9] at e7
        simp only [List.length_cons, List.length_nil] at e7
        omega
      refine key _ ?_
      cases o.fillnullValue with
      | none => simp [listLen]
      | some v =>
        have i2 := renderE_size (pyStr v)
        rw [pyStr_size] at i2
        simp only [listLen, kwText, RE.render, Option.map_some, Option.getD_some, List.length_cons, List.length_nil]; omega
  · cases h

theorem keys_size : ∀ (fs : List Str) (p : PE), size (joinBinFrom c!"&" p (fs.map joinKey)) ≤ size p + 50 * namesLen fs
  | [], p => by simp [joinBinFrom]
  | f :: fs, p => by
    have h1 := keys_size fs (.bin c!"&" p (joinKey f))
    have h3 := bin_size (.named (c!"LEFT." ++ f)) c!"==" (.named (c!"RIGHT." ++ f))
    rw [List.map_cons, joinBinFrom]
    simp only [joinKey, size, namesLen, listLen, List.length_append, List.length_cons, List.length_nil] at *
    omega

theorem alias_text (d : DF) (n : Str) : (DF.alias d n).render.text.length = d.render.text.length + 11 + n.length := by
  rw [DF.render, of_text]; simp only [List.length_append, List.length_cons, List.length_nil]; omega

theorem join_text {o : JoinOpts} {fs : List Str} {sub : Option St} {s s' : St} (h : joinTr o fs sub s = some s') :
    ∃ r, sub = some r ∧ s'.next = r.next ∧ St.len s' ≤ St.len s + St.len r + 200 + 50 * namesLen fs := by
  simp only [joinTr, joinOutcome] at h
  split at h
  · split at h
    · cases h
    · rename_i r
      split at h
      · cases h
      · rename_i right hr
        split at h
        · rename_i ht
          split at h
          · cases h
          · rename_i cond hc
            cases h
            refine ⟨r, rfl, rfl, ?_⟩
            have h1 : size cond ≤ 50 * namesLen fs := by
              cases fs with
              | nil => cases hc
              | cons f fs =>
                cases hc
                have e1 := keys_size fs (joinKey f)
                have e2 := bin_size (.named (c!"LEFT." ++ f)) c!"==" (.named (c!"RIGHT." ++ f))
                simp only [joinKey, size, namesLen, listLen, List.length_append, List.length_cons, List.length_nil] at *
                omega
            have h2 : size (joinTime o.useTime o.earlier cond) ≤ size cond + 60 := by
              unfold joinTime
              split
              · have e1 := bin_size cond c!"&" (PE.mkBin (.named c!"LEFT._time") (if o.earlier then c!">=" else c!"<=") (.named c!"RIGHT._time"))
                have e2 := bin_size (.named c!"LEFT._time") (if o.earlier then c!">=" else c!"<=") (.named c!"RIGHT._time")
                have e3 : (if o.earlier then c!">=" else c!"<=").length = 2 := by cases o.earlier <;> rfl
                simp only [size, List.length_cons, List.length_nil] at *
                omega
              · omega
            have h3 := unalias_size (joinTime o.useTime o.earlier cond)
            have h4 := renderE_size (joinTime o.useTime o.earlier cond).unalias
            have h5 : o.joinType.length ≤ 5 := by
              simp only [Bool.or_eq_true, decide_eq_true_eq] at ht
              rcases ht with (ht | ht) | ht <;> rw [ht] <;> decide
            have h6 : St.len r = right.render.text.length := by simp [St.len, St.cur, hr]
            have h7 := alias_text s.cur c!"LEFT"
            have h8 := alias_text right c!"RIGHT"
            have h9 : St.len ⟨r.next, some ((DF.alias s.cur c!"LEFT").mkJoin (.alias right c!"RIGHT") (joinTime o.useTime o.earlier cond) o.joinType)⟩ =
              ((DF.alias s.cur c!"LEFT").mkJoin (.alias right c!"RIGHT") (joinTime o.useTime o.earlier cond) o.joinType).render.text.length := rfl
            rw [h9, DF.mkJoin, DF.render, of_text]
            simp only [St.len, List.length_append, List.length_cons, List.length_nil] at *
            omega
        · cases h
  · cases h

mutual
/-- the length of a command; commands without translation have none -/
def cmdLen : Command → Nat
  | .eval as => listLen (fun a => a.1.length + exprLen a.2) as
  | .where_ e => exprLen e
  | .search e => exprLen e
  | .fields _ fs => namesLen fs + 1
  | .table fs => namesLen fs + 1
  | .rename as => listLen (fun a => a.1.length + a.2.length + 1) as
  | .head .. => 1
  | .tail n => (showNat n).length + 1
  | .regex i r => (i.map fun a => a.1.length).getD 0 + r.length + 1
  | .stats _ fs by_ _ => listLen statLen fs + listLen byLen (by_.getD []) + 1
  | .sort ks .. => listLen (fun k => exprLen k.2) ks + 1
  | .top a => topLen a
  | .rare a => topLen a
  | .fillNull v fs => v.length / 10 + namesLen (fs.getD []) + 1
  | .spath p i o => (2 * p.length + i.length + (o.map List.length).getD 0) / 10 + 1
  | .addTotals a => namesLen a.fields + a.fieldName.length / 10 + 1
  | .bin a => (3 * a.field.outName.length + spanLen a.span) / 10 + 1
  | .convert t cs => listLen convLen cs + (cs.length * t.length) / 50 + 1
  | .dataModel a => (a.dataModelName.map List.length).getD 0 + (a.datasetName.map List.length).getD 0 +
      (a.searchMode.map List.length).getD 0 + 1
  | .lookup _ => 1
  | .makeResults a => ((showInt a.count).length + a.server.length + (a.serverGroup.map List.length).getD 0) / 10 + 1
  | .rex a => a.regex.length * (80 + a.field.length + 4 * a.regex.length) / 500 + 1
  | .tstats o es dm nn w bf _ => 1 + ((dm.map List.length).getD 0 + (nn.map List.length).getD 0) + (w.map exprLen).getD 0 + listLen statLen es +
      listLen byLen (bf.getD []) + (o.fillnullValue.map List.length).getD 0
  | .join _ fs cs => cmdsLen cs + namesLen fs + 1
  | .multiSearch ps => subsLen ps + 1
  | _ => 0

/-- the length of commands -/
def cmdsLen : List Command → Nat
  | [] => 0
  | c :: cs => cmdLen c + cmdsLen cs

/-- the length of searches in brackets -/
def subsLen : List (List Command) → Nat
  | [] => 0
  | p :: ps => cmdsLen p + 1 + subsLen ps
end

theorem u64_length (n : Int) : (showNat (toU64 n)).length ≤ 20 := by
  refine showNat_length 19 ?_
  unfold toU64
  omega

/-- a command without searches in it -/
def flat : Command → Bool
  | .join .. => false
  | .multiSearch _ => false
  | _ => true

mutual
/-- the number of commands of a command -/
def cmdN : Command → Nat
  | .join _ _ cs => cmdsN cs + 1
  | .multiSearch ps => subsN ps + 1
  | _ => 1

/-- the number of commands -/
def cmdsN : List Command → Nat
  | [] => 0
  | c :: cs => cmdN c + cmdsN cs

/-- the number of commands of searches in brackets -/
def subsN : List (List Command) → Nat
  | [] => 0
  | p :: ps => cmdsN p + subsN ps
end

theorem flat_count {c : Command} (hf : flat c = true) : cmdN c = 1 := by
  cases c <;> first | rfl | cases hf

theorem column_next {s s' : St} {d : DF} (h : s.put d = s') : s'.next = s.next := by rw [← h]; rfl

theorem flat_next {m : Mode} {x : Ext} {c : Command} (hc : m ≠ .disallow ∨ withoutCall c!"memk" c = true) (hf : flat c = true) {s s' : St}
    (h : transform ⟨m, x⟩ c s = some s') : s'.next ≤ s.next + 1 := by
  cases c <;> try (cases hf; done)
  all_goals simp only [withoutCall] at hc
  all_goals rw [transform] at h
  all_goals try (cases h; done)
  all_goals try replace h := disp_none h
  case dataModel a => exact (model_text h).1
  case eval as =>
    rcases disp h with h | h
    · obtain ⟨ks, -, rfl⟩ := Option.map_eq_some_iff.1 h; exact Nat.le_refl _
    · obtain ⟨ks, -, rfl⟩ := Option.map_eq_some_iff.1 h; exact Nat.le_succ _
  case fillNull v fs =>
    rcases disp h with h | h
    · cases h; exact Nat.le_refl _
    · cases h; exact Nat.le_succ _
  case stats o fs by_ b =>
    rcases disp h with h | h
    · obtain ⟨ks, -, rfl⟩ := Option.map_eq_some_iff.1 h; exact Nat.le_refl _
    · obtain ⟨ks, -, rfl⟩ := Option.map_eq_some_iff.1 h; exact Nat.le_succ _
  case tstats o es dm nn w bf bp =>
    rw [Bool.and_eq_true] at hc
    rcases disp h with h | h
    · exact (tstatsRt_text (hc.imp_right And.left) (hc.imp_right And.right) h).1
    · exact (tstats_text (hc.imp_right And.left) (hc.imp_right And.right) h).1
  case search e =>
    rcases disp h with h | h
    · obtain ⟨ks, -, rfl⟩ := Option.map_eq_some_iff.1 h; exact Nat.le_refl _
    · simp only [searchStandalone] at h
      repeat' (split at h)
      all_goals first
        | (cases h; done)
        | (cases h; exact Nat.le_succ _)
        | (obtain ⟨ks, -, rfl⟩ := Option.map_eq_some_iff.1 h; exact Nat.le_succ _)
  all_goals first
    | (cases h; exact Nat.le_succ _)
    | (obtain ⟨ks, -, rfl⟩ := Option.map_eq_some_iff.1 h; exact Nat.le_succ _)
    | skip
  case top a =>
    unfold topRareTr at h
    split at h
    · cases h
    · cases h; exact Nat.le_succ _
  case rare a =>
    unfold topRareTr at h
    split at h
    · cases h
    · cases h; exact Nat.le_succ _
  case lookup a =>
    simp only [lookupTr] at h
    split at h
    · cases h
    · cases h; exact Nat.le_succ _
  case rex a =>
    simp only [rexTr] at h
    split at h
    · cases h
    · split at h
      · obtain ⟨r, hr, rfl⟩ := Option.map_eq_some_iff.1 h; exact Nat.le_succ _
      · cases h

theorem fillRt_text {v : Str} {fs : Option (List Str)} {s s' : St} (h : fillNullRuntime v fs s = some s') :
    St.len s' ≤ St.len s + 200 + v.length + 4 * namesLen (fs.getD []) + 2 * (showNat s.next).length := by
  have key : ∀ r : RE, r.render.length ≤ 4 + 4 * namesLen (fs.getD []) → St.len (s.putRuntime c!"fill_null" [] [(c!"value", .expr (pyStr v)), (c!"fields", r)]) ≤
      St.len s + 200 + v.length + 4 * namesLen (fs.getD []) + 2 * (showNat s.next).length := by
    intro r hr
    have h1 := runtime_text s c!"fill_null" [] [(c!"value", .expr (pyStr v)), (c!"fields", r)]
    have h2 := renderE_size (pyStr v)
    rw [pyStr_size] at h2
    have h4 : (RE.expr (pyStr v)).render = renderE (pyStr v) := rfl
    simp only [listLen, kwText, List.length_cons, List.length_nil, h4] at h1
    omega
  cases fs with
  | none => cases h; exact key _ (by decide)
  | some fs => cases h; exact key _ (strs_text fs)

theorem flat_text {m : Mode} {x : Ext} (hx : Arranges x) (hg : GroupsFit x) {c : Command} (hc : m ≠ .disallow ∨ withoutCall c!"memk" c = true)
    (hf : flat c = true) {s s' : St} (h : transform ⟨m, x⟩ c s = some s') :
    St.len s' ≤ St.len s + 500 * cmdLen c + (2 * (showNat s.next).length + 400) := by
  cases c <;> try (cases hf; done)
  all_goals simp only [withoutCall] at hc
  all_goals rw [transform] at h
  all_goals try (cases h; done)
  all_goals try (replace h := disp_none h; refine Nat.le_trans ?_ (Nat.le_add_right _ _))
  case bin a => exact bin_text a s s' h
  case convert t cs =>
    simp only [convertTr, Option.map_eq_some_iff] at h
    obtain ⟨d, hd, rfl⟩ := h
    have := convert_text t cs _ _ hd
    rw [put_len]; simp only [St.len, cmdLen]; omega
  case dataModel a =>
    have := (model_text h).2
    simp only [cmdLen]; omega
  case lookup a =>
    simp only [lookupTr] at h
    split at h
    · cases h
    · cases h
      rw [put_len, alias_text]; simp only [St.len, cmdLen, List.length_cons, List.length_nil]; omega
  case makeResults a =>
    have := make_text a s s' h
    rw [cmdLen]
    exact Nat.le_trans this (Nat.le_add_left _ _)
  case rex a =>
    simp only [rexTr] at h
    split at h
    · cases h
    · split at h
      · obtain ⟨r, hr, rfl⟩ := Option.map_eq_some_iff.1 h
        obtain ⟨h1, h2⟩ := hg _ _ hr
        have h3 := rexCols_text a (groupsOf r) s.cur h2
        have h4 := Nat.mul_le_mul_right (80 + a.field.length + 4 * a.regex.length) h1
        rw [put_len]; simp only [St.len, cmdLen]; omega
      · cases h
  case tstats o es dm nn w bf bp =>
    rw [Bool.and_eq_true] at hc
    rcases disp h with h | h
    · have := (tstatsRt_text (hc.imp_right And.left) (hc.imp_right And.right) h).2
      simp only [cmdLen]; omega
    · have := (tstats_text (hc.imp_right And.left) (hc.imp_right And.right) h).2
      simp only [cmdLen]; omega
  case eval as =>
    have hc : ∀ a ∈ as, m ≠ .disallow ∨ noCall c!"memk" a.2 = true := fun a ha => hc.imp_right fun h => List.all_eq_true.1 h a ha
    rcases disp h with h | h
    · obtain ⟨ks, hk, rfl⟩ := Option.map_eq_some_iff.1 h
      have h1 := evalKw_text hc hk
      have h2 := runtime_text s c!"eval" [] ks
      simp only [listLen, List.length_cons, List.length_nil] at h2
      simp only [cmdLen]; omega
    · obtain ⟨d, hd, rfl⟩ := Option.map_eq_some_iff.1 h
      exact Nat.le_trans (evalLoop_text hc hd) (Nat.le_add_right _ _)
  case fields b fs =>
    cases h
    have := select_text fs s.cur
    rw [put_len]; simp only [St.len, cmdLen]; omega
  case table fs =>
    cases h
    have := select_text fs s.cur
    rw [put_len]; simp only [St.len, cmdLen]; omega
  case rename as =>
    cases h
    exact rename_text as s.cur
  case head e b b' =>
    simp only [headTr, Option.map_eq_some_iff] at h
    obtain ⟨n, hd, rfl⟩ := h
    have := u64_length n
    rw [put_len, DF.render, of_text]; simp only [St.len, cmdLen, List.length_append, List.length_cons, List.length_nil]; omega
  case tail n =>
    cases h
    rw [put_len, DF.render, of_text]; simp only [St.len, cmdLen, List.length_append, List.length_cons, List.length_nil]; omega
  case where_ e =>
    simp only [whereTr, Option.map_eq_some_iff] at h
    obtain ⟨p, hp, rfl⟩ := h
    have h1 := exprTr_size e p hc hp
    have h2 := where_text s.cur p
    rw [put_len]; simp only [St.len, cmdLen]; omega
  case search e =>
    rcases disp h with h | h
    · obtain ⟨⟨ps, ks⟩, hk, rfl⟩ := Option.map_eq_some_iff.1 h
      have h1 := sargs_text (hc.imp_right (ands_free e)) hk
      have h2 := runtime_text s c!"search" ps ks
      have h3 := ands_all e
      simp only [List.length_cons, List.length_nil] at h2
      simp only [cmdLen]; omega
    · exact Nat.le_trans (search_text hx hc h) (Nat.le_add_right _ _)
  case regex i r =>
    have key : ∀ (f : Str) (b : Bool), size (if b then PE.mkNot (.fn c!"regexp_like" [.named f, pyRaw r]) else .fn c!"regexp_like" [.named f, pyRaw r]) ≤
        40 + f.length + r.length := by
      intro f b
      have := not_size (.fn c!"regexp_like" [.named f, pyRaw r])
      cases b <;> simp only [size, sizes, pyRaw, List.length_append, List.length_cons, List.length_nil, if_true, if_false, Bool.false_eq_true] at * <;> omega
    simp only [regexTr, Option.map_eq_some_iff] at h
    obtain ⟨⟨f, b⟩, hf, rfl⟩ := h
    have h2 := where_text s.cur (if b then PE.mkNot (.fn c!"regexp_like" [.named f, pyRaw r]) else .fn c!"regexp_like" [.named f, pyRaw r])
    have h3 := key f b
    have h4 : f.length ≤ 4 + (i.map fun a => a.1.length).getD 0 := by
      split at hf
      · cases hf; decide
      · split at hf
        · cases hf; simp
        · split at hf
          · cases hf; simp
          · cases hf
    rw [put_len]; simp only [St.len, cmdLen]; omega

  case stats o fs by_ b =>
    rcases disp h with h | h
    · obtain ⟨ks, hk, rfl⟩ := Option.map_eq_some_iff.1 h
      have h1 := statsKw_text hc hk
      have h2 := runtime_text s c!"stats" [] (byKwarg by_ ++ ks)
      have h3 := byKw_text by_
      rw [list_append] at h2
      simp only [listLen, List.length_cons, List.length_nil] at h2
      simp only [cmdLen]; omega
    · obtain ⟨⟨d, cs⟩, hd, rfl⟩ := Option.map_eq_some_iff.1 h
      have h1 := stats_text hc hd
      have h2 := group_text d (by_.getD [])
      have h3 := agg_text (.groupBy d ((by_.getD []).map byField)) cs
      rw [put_len]; simp only [St.len, cmdLen]; omega
  case sort ks n b =>
    simp only [sortTr, Option.map_eq_some_iff] at h
    obtain ⟨cs, hd, rfl⟩ := h
    have h1 := sort_size hd
    have h2 := order_text s.cur cs
    have h3 := limit_text (.orderBy s.cur cs) (toU64 n)
    have h4 := u64_length n
    rw [put_len]; simp only [St.len, cmdLen]
    split <;> omega
  case top a => exact top_text (by decide) h
  case rare a => exact top_text (by decide) h
  case fillNull v fs =>
    rcases disp h with h | h
    · have := fillRt_text h
      simp only [cmdLen]; omega
    · cases h
      rw [put_len, DF.render, of_text]
      simp only [List.map_cons, List.map_nil, joinWith, pyStr, renderE, St.len, cmdLen, List.length_append, List.length_cons, List.length_nil]; omega
  case spath p i o =>
    cases h
    have h1 := column_text s.cur (o.getD p) (.fn c!"get_json_object" [.named i, pyStr (c!"$." ++ p)])
    have h2 : (o.getD p).length ≤ p.length + (o.map List.length).getD 0 := by cases o <;> simp
    rw [put_len]; simp only [St.len, cmdLen, sizes, size, pyStr_size, List.length_append, List.length_cons, List.length_nil] at *; omega
  case addTotals a =>
    cases h
    have h1 := column_text s.cur a.fieldName ((joinAsBinaries c!"+" (a.fields.map addTotalsCol)).getD (.lit c!"0.0"))
    have h2 : size ((joinAsBinaries c!"+" (a.fields.map addTotalsCol)).getD (.lit c!"0.0")) ≤ 10 + 110 * namesLen a.fields := by
      cases a.fields with
      | nil => decide
      | cons f fs =>
        have e1 := totals_size fs (addTotalsCol f)
        have e2 := total_size f
        simp only [List.map_cons, joinAsBinaries, Option.getD_some, namesLen, listLen] at *
        omega
    rw [put_len]; simp only [St.len, cmdLen]; omega

theorem flat_both {m : Mode} {x : Ext} (hx : Arranges x) (hg : GroupsFit x) {E K : Nat} (hE : ∀ n < K, 2 * (showNat n).length + 400 ≤ E) {c : Command} (hf : flat c = true)
    {s s' : St} (hc : m ≠ .disallow ∨ withoutCall c!"memk" c = true) (hk : s.next + cmdN c ≤ K) (h : transform ⟨m, x⟩ c s = some s') :
    s'.next ≤ s.next + cmdN c ∧ St.len s' ≤ St.len s + 500 * cmdLen c + E * cmdN c := by
  have h1 := flat_next hc hf h
  have h2 := flat_text hx hg hc hf h
  rw [flat_count hf] at hk ⊢
  have h3 := hE s.next (by omega)
  omega

mutual
theorem transform_text {m : Mode} {x : Ext} (hx : Arranges x) (hg : GroupsFit x) {E K : Nat} (hE : ∀ n < K, 2 * (showNat n).length + 400 ≤ E) : ∀ (c : Command) (s s' : St),
    m ≠ .disallow ∨ withoutCall c!"memk" c = true → s.next + cmdN c ≤ K → transform ⟨m, x⟩ c s = some s' →
    s'.next ≤ s.next + cmdN c ∧ St.len s' ≤ St.len s + 500 * cmdLen c + E * cmdN c
  | .join o fs cs, s, s', hc, hk, h => by
    rw [transform] at h
    obtain ⟨r, hr, h0, h1⟩ := join_text (disp_none h)
    rw [cmdN] at hk
    obtain ⟨h2, h2'⟩ := run_text hx hg hE cs ⟨s.next, none⟩ _ hc (Nat.le_trans (Nat.add_le_add_left (Nat.le_succ _) _) hk) hr
    have h3 : St.len ⟨s.next, none⟩ = 19 := rfl
    simp only [cmdLen, cmdN, Nat.mul_add, Nat.mul_one]
    simp only at h2
    omega
  | .multiSearch ps, s, s', hc, hk, h => by
    unfold transform at h
    replace h := disp_none h
    split at h
    · cases h; omega
    · rw [cmdN] at hk
      obtain ⟨h0, h1⟩ := multi_text hx hg hE _ _ _ _ hc (Nat.le_trans (Nat.add_le_add_left (Nat.le_succ _) _) hk) h
      have h2 : St.len s' ≤ 19 + (s'.df.map fun d => d.render.text.length).getD 0 := by
        unfold St.len St.cur
        cases s'.df with
        | none => exact Nat.le_refl _
        | some d => simp
      simp only [cmdLen, cmdN, Nat.mul_add, Nat.mul_one, Option.map_none, Option.getD_none] at *; omega
  | .addTotals .., _, _, hc, hk, h => flat_both hx hg hE rfl hc hk h
  | .bin .., _, _, hc, hk, h => flat_both hx hg hE rfl hc hk h
  | .collect .., _, _, hc, hk, h => flat_both hx hg hE rfl hc hk h
  | .convert .., _, _, hc, hk, h => flat_both hx hg hE rfl hc hk h
  | .dataModel .., _, _, hc, hk, h => flat_both hx hg hE rfl hc hk h
  | .dedup .., _, _, hc, hk, h => flat_both hx hg hE rfl hc hk h
  | .eval .., _, _, hc, hk, h => flat_both hx hg hE rfl hc hk h
  | .eventStats .., _, _, hc, hk, h => flat_both hx hg hE rfl hc hk h
  | .fields .., _, _, hc, hk, h => flat_both hx hg hE rfl hc hk h
  | .fillNull .., _, _, hc, hk, h => flat_both hx hg hE rfl hc hk h
  | .format .., _, _, hc, hk, h => flat_both hx hg hE rfl hc hk h
  | .head .., _, _, hc, hk, h => flat_both hx hg hE rfl hc hk h
  | .inputLookup .., _, _, hc, hk, h => flat_both hx hg hE rfl hc hk h
  | .lookup .., _, _, hc, hk, h => flat_both hx hg hE rfl hc hk h
  | .makeResults .., _, _, hc, hk, h => flat_both hx hg hE rfl hc hk h
  | .map .., _, _, hc, hk, h => flat_both hx hg hE rfl hc hk h
  | .mvCombine .., _, _, hc, hk, h => flat_both hx hg hE rfl hc hk h
  | .mvExpand .., _, _, hc, hk, h => flat_both hx hg hE rfl hc hk h
  | .rare .., _, _, hc, hk, h => flat_both hx hg hE rfl hc hk h
  | .regex .., _, _, hc, hk, h => flat_both hx hg hE rfl hc hk h
  | .rename .., _, _, hc, hk, h => flat_both hx hg hE rfl hc hk h
  | .return_ .., _, _, hc, hk, h => flat_both hx hg hE rfl hc hk h
  | .rex .., _, _, hc, hk, h => flat_both hx hg hE rfl hc hk h
  | .sort .., _, _, hc, hk, h => flat_both hx hg hE rfl hc hk h
  | .spath .., _, _, hc, hk, h => flat_both hx hg hE rfl hc hk h
  | .stats .., _, _, hc, hk, h => flat_both hx hg hE rfl hc hk h
  | .streamStats .., _, _, hc, hk, h => flat_both hx hg hE rfl hc hk h
  | .table .., _, _, hc, hk, h => flat_both hx hg hE rfl hc hk h
  | .tail .., _, _, hc, hk, h => flat_both hx hg hE rfl hc hk h
  | .top .., _, _, hc, hk, h => flat_both hx hg hE rfl hc hk h
  | .tstats .., _, _, hc, hk, h => flat_both hx hg hE rfl hc hk h
  | .where_ .., _, _, hc, hk, h => flat_both hx hg hE rfl hc hk h
  | .search .., _, _, hc, hk, h => flat_both hx hg hE rfl hc hk h

theorem run_text {m : Mode} {x : Ext} (hx : Arranges x) (hg : GroupsFit x) {E K : Nat} (hE : ∀ n < K, 2 * (showNat n).length + 400 ≤ E) : ∀ (cs : List Command) (s s' : St),
    m ≠ .disallow ∨ withoutCalls c!"memk" cs = true → s.next + cmdsN cs ≤ K → runCmds ⟨m, x⟩ cs s = some s' →
    s'.next ≤ s.next + cmdsN cs ∧ St.len s' ≤ St.len s + 500 * cmdsLen cs + E * cmdsN cs
  | [], s, s', _, _, h => by simp only [runCmds, Option.some.injEq] at h; subst h; simp [cmdsLen]
  | c :: cs, s, s', hc, hk, h => by
    simp only [withoutCalls, Bool.and_eq_true] at hc
    rw [runCmds] at h
    rw [cmdsN] at hk
    split at h
    · cases h
    · rename_i s1 h1
      obtain ⟨h2, h2'⟩ := transform_text hx hg hE c _ _ (hc.imp_right And.left) (by omega) h1
      obtain ⟨h3, h3'⟩ := run_text hx hg hE cs _ _ (hc.imp_right And.right) (by omega) h
      simp only [cmdsLen, cmdsN, Nat.mul_add] at *; omega

theorem multi_text {m : Mode} {x : Ext} (hx : Arranges x) (hg : GroupsFit x) {E K : Nat} (hE : ∀ n < K, 2 * (showNat n).length + 400 ≤ E) :
    ∀ (ps : List (List Command)) (n : Nat) (acc : Option DF) (s' : St), m ≠ .disallow ∨ searchesWithout c!"memk" ps = true → n + subsN ps ≤ K →
    multiTr ⟨m, x⟩ ps n acc = some s' → s'.next ≤ n + subsN ps ∧
    (s'.df.map fun d => d.render.text.length).getD 0 ≤ (acc.map fun d => d.render.text.length).getD 0 + 500 * subsLen ps + E * subsN ps
  | [], n, acc, s', _, _, h => by simp only [multiTr, Option.some.injEq] at h; subst h; simp only [subsLen, subsN]; omega
  | p :: ps, n, acc, s', hc, hk, h => by
    simp only [searchesWithout, Bool.and_eq_true] at hc
    rw [multiTr] at h
    rw [subsN] at hk
    split at h
    · cases h
    · rename_i s1 h1
      split at h
      · cases h
      · rename_i d hd
        obtain ⟨h2, h2'⟩ := run_text hx hg hE p ⟨n, none⟩ _ (hc.imp_right And.left) (Nat.le_trans (Nat.add_le_add_left (Nat.le_add_right _ _) _) hk) h1
        simp only at h2
        obtain ⟨h3, h3'⟩ := multi_text hx hg hE ps _ _ _ (hc.imp_right And.right) (by omega) h
        have h4 : St.len ⟨n, none⟩ = 19 := rfl
        have h5 : St.len s1 = d.render.text.length := by simp [St.len, St.cur, hd]
        have h6 : (unionStep acc d).render.text.length ≤ (acc.map fun d => d.render.text.length).getD 0 + d.render.text.length + 50 := by
          cases acc with
          | none => simp [unionStep]
          | some a => rw [unionStep, DF.render, of_text]; simp only [Option.map_some, Option.getD_some, List.length_append, List.length_cons, List.length_nil]; omega
        simp only [subsLen, subsN, Nat.mul_add, Option.map_some, Option.getD_some] at *; omega
end

/-! ### texts of commands -/

theorem column_len {f s : Str} (h : Column f s) : f.length + 1 ≤ sq s.length := by
  obtain ⟨rfl, h⟩ := h
  have h1 : 1 ≤ f.length := by
    rcases h with h | h
    · exact field_len h
    · exact star_len h
  have := sq_lin f.length
  omega

theorem name_pos {w : Str} (h : IsName w) : 1 ≤ w.length := by
  have := h.ne
  cases w with
  | nil => exact absurd rfl this
  | cons => simp

theorem newName_len {n t : Str} (h : NewName n t) : n.length ≤ t.length := by
  cases h <;> simp <;> omega

theorem sq_step (a k : Nat) (h : 1 ≤ k) : sq a + 10 ≤ sq (a + k) := by
  have h1 := sq_add a k
  have h2 := sq_mono h
  have h3 : sq 1 = 10 := rfl
  omega

theorem items_nonempty {α : Type} {sep : Str → Str → Prop} {item : α → Str → Prop} (hi : ∀ a s, item a s → 1 ≤ s.length) {as : List α}
    {s : Str} (h : Spec.Items sep item as s) : 1 ≤ s.length := by
  cases h with
  | one h => exact hi _ _ h
  | cons h _ _ => have := hi _ _ h; simp; omega

theorem fields_len {sep : Str → Str → Prop} {fs : List Str} {s : Str} (h : Spec.Items sep Column fs s) : namesLen fs ≤ sq s.length :=
  items_len (fun _ _ h => column_len h) h

theorem assign_len (a : Str × Expr) (s : Str) (h : Assignment a s) : a.1.length + exprLen a.2 ≤ sq s.length := by
  cases h with
  | mk hf _ _ hw =>
    rename_i f g₁ g₂ s e _ _
    have h1 := written_len hw
    have h2 := sq_lin f.length
    have h3 := sq_add f.length s.length
    have h5 := sq_mono (a := f.length + s.length) (b := (f ++ (g₁ ++ '=' :: (g₂ ++ s))).length) (by simp only [List.length_append, List.length_cons]; omega)
    simp only; omega

theorem renamed_len (a : Str × Str) (s : Str) (h : Renamed a s) : a.1.length + a.2.length + 1 ≤ sq s.length := by
  cases h with
  | mk hf _ hk _ hn =>
    rename_i f n g₁ k g₂ t _ _
    have h1 := newName_len hn
    have h2 := lower_len hk
    have h3 := sq_lin (f ++ (g₁ ++ (k ++ (g₂ ++ t)))).length
    simp only [List.length_append, List.length_cons, List.length_nil] at *
    omega

theorem terms_len {e : Expr} {es : List Expr} {s : Str} (h : Spec.Items byTerm (Written 9) (e :: es) s) : exprLen (joinLeft c!"AND" e es) ≤ sq s.length := by
  have h1 := items_len (len := fun e => exprLen e + 4) (fun _ _ => written_len) h
  have h2 := join_len c!"AND" es e
  have h3 : ∀ es : List Expr, listLen (fun e => exprLen e + 4) es = argsLen es + 4 * es.length := by
    intro es
    induction es with
    | nil => rfl
    | cons e es ih => simp only [listLen, argsLen, List.length_cons, ih]; omega
  rw [listLen, h3] at h1
  have : (1 + (c!"AND").length) * es.length = 4 * es.length := rfl
  omega

theorem quoted_len {r s : Str} (h : QuotedText r s) : r.length + 2 ≤ s.length := by
  cases h; simp

/-! ### options and optional parts -/

theorem optsThen_len {os : List (Str × Constant)} {t s : Str} (h : OptsThen os t s) : t.length ≤ s.length := by
  cases h <;> simp <;> omega

theorem maybe_len {α : Type} {p : α → Str → Prop} {o : Option α} {t s : Str} (h : MaybeThen p o t s) : t.length ≤ s.length := by
  cases h <;> simp <;> omega

theorem then_len {α : Type} {p : α → Str → Prop} {o : Option α} {t s : Str} (h : ThenMaybe p o t s) {len : α → Nat} (hi : ∀ a s, p a s → len a ≤ sq s.length) :
    t.length ≤ s.length ∧ sq t.length + (o.map len).getD 0 ≤ sq s.length := by
  cases h with
  | none => simp
  | some hg hp =>
    rename_i a u g
    have h1 := hi _ _ hp
    have h2 := sq_add t.length u.length
    have h3 := sq_mono (a := t.length + u.length) (b := (t ++ (g ++ u)).length) (by simp only [List.length_append]; omega)
    refine ⟨by simp, ?_⟩
    simp only [Option.map_some, Option.getD_some]; omega

theorem keyed_len {α : Type} {kw : Str} {p : α → Str → Prop} {len : α → Nat} (hi : ∀ a s, p a s → len a ≤ sq s.length) (a : α) (s : Str) (h : Keyed kw p a s) :
    len a ≤ sq s.length := by
  cases h with
  | mk _ _ hp => exact Nat.le_trans (hi _ _ hp) (sq_mono (by simp only [List.length_append]; omega))

theorem opts_len : ∀ {os : List (Str × Constant)} {s : Str}, Opts os s → ∀ o ∈ os, constLen o.2 ≤ 10 * s.length
  | _, _, .one _ _ _ hv, o, ho => by
    simp only [List.mem_singleton] at ho; subst ho
    have := (const_len hv).1
    simp only [List.length_append, List.length_cons]; omega
  | _, _, .cons _ _ _ hv _ hr, o, ho => by
    rcases List.mem_cons.1 ho with rfl | ho
    · have := (const_len hv).1
      simp only [List.length_append, List.length_cons]; omega
    · have := opts_len hr o ho
      simp only [List.length_append, List.length_cons]; omega

theorem last_len {os : List (Str × Constant)} {t s k : Str} {c : Constant} (h : OptsThen os t s) (hl : lastValue os k = some c) : constLen c ≤ 10 * s.length := by
  have hm : ∃ o ∈ os, o.2 = c := by
    unfold lastValue at hl
    obtain ⟨o, ho, rfl⟩ := Option.map_eq_some_iff.1 hl
    exact ⟨o, (List.mem_filter.1 (List.mem_of_getLast? ho)).1, rfl⟩
  obtain ⟨o, ho, rfl⟩ := hm
  cases h with
  | none => cases ho
  | only h => exact opts_len h o ho
  | both h _ _ => have := opts_len h o ho; simp only [List.length_append]; omega

theorem fill_len {os : List (Str × Constant)} {t s k : Str} {v : Option Str} (h : OptsThen os t s) (hv : StrIs os k v) :
    sq t.length + (v.map List.length).getD 0 ≤ sq s.length := by
  have key : ∀ {u : Str}, Opts os u → (v.map List.length).getD 0 ≤ 10 * u.length := by
    intro u hu
    unfold StrIs at hv
    cases hl : lastValue os k with
    | none => rw [hl] at hv; simp only [Option.elim_none] at hv; subst hv; simp
    | some c =>
      rw [hl] at hv
      obtain ⟨w, hw, rfl⟩ := hv
      have hs := last_len (.only hu) hl
      have hc : constLen c = w.length := by rcases hw with hw | hw <;> rw [hw] <;> rfl
      simp only [Option.map_some, Option.getD_some]; omega
  cases h with
  | none =>
    have : v = none := by simpa [StrIs, lastValue] using hv
    subst this; simp
  | only h =>
    have h1 := key h
    have h2 := sq_lin s.length
    have h3 : sq ([] : Str).length = 0 := rfl
    omega
  | @both _ u g _ h _ _ =>
    have h1 := key h
    have h2 := sq_lin u.length
    have h3 := sq_add t.length u.length
    have h4 := sq_mono (a := t.length + u.length) (b := (u ++ (g ++ t)).length) (by simp only [List.length_append]; omega)
    omega

theorem strIs_len {os : List (Str × Constant)} {t s k : Str} {v : Option Str} (h : OptsThen os t s) (hv : StrIs os k v) : (v.map List.length).getD 0 ≤ 10 * s.length := by
  unfold StrIs at hv
  cases hl : lastValue os k with
  | none => rw [hl] at hv; simp only [Option.elim_none] at hv; subst hv; simp
  | some c =>
    rw [hl] at hv
    obtain ⟨w, hw, rfl⟩ := hv
    have hs := last_len h hl
    have hc : constLen c = w.length := by rcases hw with hw | hw <;> rw [hw] <;> rfl
    simp only [Option.map_some, Option.getD_some]; omega

theorem strOr_len {os : List (Str × Constant)} {t s k d v : Str} (h : OptsThen os t s) (hv : StrOr os k d v) : v.length ≤ d.length + 10 * s.length := by
  obtain ⟨y, hy, rfl⟩ := hv
  have := strIs_len h hy
  cases y with
  | none => simp
  | some w => simp only [Option.map_some, Option.getD_some] at *; omega

theorem spanIs_len {os : List (Str × Constant)} {t s k : Str} {v : Option TimeSpan} (h : OptsThen os t s) (hv : SpanIs os k v) : spanLen v ≤ 10 * s.length := by
  unfold SpanIs at hv
  cases hl : lastValue os k with
  | none => rw [hl] at hv; simp only [Option.elim_none] at hv; subst hv; simp [spanLen]
  | some c =>
    rw [hl] at hv
    obtain ⟨w, rfl, rfl⟩ := hv
    exact last_len h hl

theorem intOr_len {os : List (Str × Constant)} {t s k : Str} {d v : Int} (h : OptsThen os t s) (hv : IntOr os k d v) :
    (showInt v).length ≤ (showInt d).length + 10 * s.length := by
  obtain ⟨y, hy, rfl⟩ := hv
  unfold IntIs at hy
  cases hl : lastValue os k with
  | none => rw [hl] at hy; simp only [Option.elim_none] at hy; subst hy; simp
  | some c =>
    rw [hl] at hy
    obtain ⟨w, rfl, rfl⟩ := hy
    have hs := last_len h hl
    simp only [constLen] at hs
    simp only [Option.getD_some]; omega

theorem word_len {v w : Str} (h : WordOrQuoted v w) : v.length ≤ w.length := by
  cases h <;> simp <;> omega

theorem path_len {p w : Str} (h : PathText p w) : p.length ≤ w.length := by
  cases h <;> simp <;> omega

theorem setting_len {k : Str} {o : Option Str} {t s : Str} (h : MaybeThen (Setting k Column) o t s) : t.length + (o.map List.length).getD 0 ≤ s.length := by
  cases h with
  | none => simp
  | some hp _ =>
    cases hp with
    | mk _ hc =>
      rw [hc.1]
      simp only [Option.map_some, Option.getD_some, List.length_append, List.length_cons]; omega

theorem cols_len {sep : Str → Str → Prop} : ∀ {fs : List Str} {s : Str}, Spec.Items sep Column fs s → namesLen fs ≤ 2 * s.length := by
  have key : ∀ {f s : Str}, Column f s → f.length + 1 ≤ 2 * s.length := by
    intro f s h
    obtain ⟨rfl, h⟩ := h
    have : 1 ≤ f.length := by
      rcases h with h | h
      · exact field_len h
      · exact star_len h
    omega
  intro fs s h
  induction h with
  | one h => have := key h; simp only [namesLen, listLen]; omega
  | cons h _ _ ih => have := key h; simp only [namesLen, listLen, List.length_append] at *; omega

theorem stat_len (e : Expr) (s : Str) (h : StatItem e s) : statLen e ≤ sq s.length := by
  cases h with
  | word hf =>
    have := name_pos hf.name
    have := sq_lin s.length
    simp only [stat_plain, argsLen]; omega
  | wordAs hf hg hk hg' hn =>
    rename_i f n g₁ k g₂ t
    have h1 := newName_len hn
    have h2 := lower_len hk
    have h3 := sq_lin (f ++ (g₁ ++ (k ++ (g₂ ++ t)))).length
    simp only [stat_named, argsLen, List.length_append, List.length_cons, List.length_nil] at *; omega
  | call hf hx hy ha =>
    rename_i f es g₁ g₂ s
    have := call_len hf (g₁ := g₁) (g₂ := g₂) (args_len ha)
    rw [exprLen] at this
    simp only [stat_plain]; omega
  | callAs hf hx hy ha hz hk hu hn =>
    rename_i f es g₁ g₂ s g₃ k g₄ n
    have h1 := args_len ha
    have h2 := sq_add (f.length + n.length + 1) s.length
    have h3 := sq_lin (f.length + n.length + 1)
    have h4 := sq_mono (a := f.length + n.length + 1 + s.length) (b := (f ++ '(' :: (g₁ ++ (s ++ (g₂ ++ ')' :: (g₃ ++ (k ++ (g₄ ++ n))))))).length)
      (by simp only [List.length_append, List.length_cons]; omega)
    simp only [stat_named]; omega

theorem by_len (f : SpField) (s : Str) (h : ByField f s) : byLen f ≤ sq s.length := by
  cases h with
  | plain h =>
    have := column_len h
    simp only [byLen, spanLen]; omega
  | span h hx hk hy hz hu hm =>
    rename_i f g k g₂ m s u n
    have h1 := unit_len hu hm
    have h2 := lower_len hk
    have h3 := sq_lin (f ++ (g ++ (k ++ '=' :: (g₂ ++ (showNat n ++ m))))).length
    have h4 : (showInt (n : Int)).length = (showNat n).length := rfl
    simp only [byLen, spanLen, List.length_append, List.length_cons, List.length_nil] at *; omega

theorem sortKey_len (k : Option Str × Expr) (s : Str) (h : SortKey k s) : exprLen k.2 ≤ sq s.length := by
  cases h with
  | plain h _ => have := written_len h; simp only; omega
  | up h => rename_i e s; have := written_len h; have := sq_mono (a := s.length) (b := ('+' :: s).length) (by simp); simp only; omega
  | down h => rename_i e s; have := written_len h; have := sq_mono (a := s.length) (b := ('-' :: s).length) (by simp); simp only; omega

theorem top_len {os : List (Str × Constant)} {n : Option Int} {m : Nat} {a : TopRare} {t u v s : Str} (hf : Spec.Items byList Column a.fields t)
    (hb : ThenMaybe (Keyed c!"by" (Spec.Items byList Column)) a.by_ t u) (ho : OptsThen os u v) (hn : MaybeThen IntText n v s)
    (hc : StrOr os c!"countfield" c!"count" a.countField) (hp : StrOr os c!"percentfield" c!"percent" a.percentField)
    (hm : (a.n : Int) = n.getD m % 2 ^ 64) : topLen a ≤ sq s.length := by
  have h1 := fields_len hf
  have h2 := then_len hb (keyed_len (len := namesLen) fun _ _ => fields_len)
  have h3 := optsThen_len ho
  have h4 := maybe_len hn
  have h5 := strOr_len ho hc
  have h6 := strOr_len ho hp
  have h7 := showNat_length (n := a.n) 19 (by omega)
  have h8 := sq_mono (a := u.length) (b := s.length) (by omega)
  have h9 := sq_lin s.length
  have h10 : 1 ≤ t.length := items_nonempty (fun f s hf => by
    obtain ⟨rfl, h⟩ := hf
    rcases h with h | h
    · exact field_len h
    · exact star_len h) hf
  have h11 : namesLen (a.by_.getD []) = (a.by_.map namesLen).getD 0 := by cases a.by_ <;> rfl
  simp only [List.length_cons, List.length_nil] at h5 h6
  unfold topLen
  omega

theorem binField_len {f : FieldOrAlias} {t : Str} (h : BinField f t) : f.outName.length ≤ t.length := by
  cases h with
  | plain h => exact Nat.le_refl _
  | named h =>
    cases h with
    | mk hf _ hk _ hn =>
      have h1 := newName_len hn
      simp only [FieldOrAlias.outName, List.length_append]; omega

theorem conv_len {c : FieldConversion} {t : Str} (h : Conversion c t) : convLen c ≤ t.length := by
  cases h with
  | plain => simp [convLen]; omega
  | named => simp [convLen]; omega

theorem convs_len {sep : Str → Str → Prop} {cs : List FieldConversion} {t : Str} (h : Spec.Items sep Conversion cs t) : listLen convLen cs ≤ t.length ∧ cs.length ≤ t.length := by
  induction h with
  | one h =>
    have := conv_len h
    simp only [listLen, List.length_cons, List.length_nil, convLen] at *; omega
  | cons h _ _ ih =>
    have := conv_len h
    simp only [listLen, List.length_cons, List.length_append, convLen] at *; omega

theorem model_len {m n o : Option Str} {t : Str} (h : ModelWords m n o t) :
    (m.map List.length).getD 0 + (n.map List.length).getD 0 + (o.map List.length).getD 0 ≤ t.length := by
  cases h <;> simp <;> omega

theorem tsCall_len {e : Expr} {s : Str} (h : TsCall e s) : statLen e ≤ sq s.length := by
  have := sq_lin s.length
  cases h with
  | plain => simp [stat_plain, argsLen, exprLen, constLen] at *; omega
  | named => simp [stat_named, argsLen, exprLen, constLen] at *; omega

theorem tsItems_len {b : Bool} {es : List Expr} {t : Str} (h : TsItems b es t) : listLen statLen es ≤ sq t.length := by
  induction h with
  | call h => have := tsCall_len h; simp only [listLen]; omega
  | count h =>
    rename_i k
    have := lower_len h
    have := sq_lin k.length
    simp only [listLen, stat_plain, argsLen, List.length_cons, List.length_nil] at *; omega
  | @countAs k g₁ a g₂ n h _ ha _ hn =>
    have := lower_len h
    have := sq_lin (k ++ (g₁ ++ (a ++ (g₂ ++ n)))).length
    simp only [listLen, stat_named, argsLen, List.length_cons, List.length_nil, List.length_append] at *; omega
  | @countOf k g f h _ hf =>
    have := lower_len h
    have := sq_lin (k ++ (g ++ f)).length
    simp only [listLen, stat_plain, argsLen, exprLen, constLen, List.length_cons, List.length_nil, List.length_append] at *; omega
  | @callThen b e es s g t h _ _ ih =>
    have h1 := tsCall_len h
    have h2 := sq_add s.length t.length
    have h3 := sq_mono (a := s.length + t.length) (b := (s ++ (g ++ t)).length) (by simp only [List.length_append]; omega)
    rw [listLen]; omega
  | @countThen b e es k g s t h _ _ _ ih =>
    have h1 := lower_len h
    have h2 := sq_add k.length (s ++ t).length
    have h3 := sq_lin k.length
    have h4 := sq_mono (a := k.length + (s ++ t).length) (b := (k ++ (g ++ (s ++ t))).length) (by simp only [List.length_append]; omega)
    rw [listLen]
    simp only [stat_plain, argsLen, List.length_cons, List.length_nil] at *; omega
  | @countAsThen b es k g₁ a g₂ n g t h _ ha _ hn _ _ ih =>
    have h1 := lower_len h
    have h2 := sq_add (k.length + n.length) t.length
    have h3 := sq_lin (k.length + n.length)
    have h4 := sq_mono (a := k.length + n.length + t.length) (b := (k ++ (g₁ ++ (a ++ (g₂ ++ (n ++ (g ++ t)))))).length) (by simp only [List.length_append]; omega)
    rw [listLen]
    simp only [stat_named, argsLen, List.length_cons, List.length_nil] at *; omega

theorem from_len (m : Str × Option Str) (s : Str) (h : TsFrom m s) : m.1.length + (m.2.map List.length).getD 0 ≤ sq s.length := by
  have := sq_lin s.length
  cases h with
  | model => simp at *; omega
  | node => simp at *; omega

theorem body_len {b : Bool} {kw : Str} {c : Command} {s : Str} (h : Spec.Body b kw c s) : cmdLen c ≤ sq s.length + 2 := by
  cases h
  all_goals try (simp only [cmdLen]; omega)
  case bin os a t hoo hf hk ho =>
    have h1 := binField_len hf
    have h2 := spanIs_len ho hoo.1
    have h3 := optsThen_len ho
    have h4 := sq_lin s.length
    simp only [cmdLen]; omega
  case convert os f cs t hoo hf ho =>
    have h1 := convs_len hf
    have h2 := strOr_len ho hoo
    have h3 := optsThen_len ho
    have h4 := sq_lin s.length
    have h5 : cs.length * f.length ≤ s.length * (17 + 10 * s.length) := Nat.mul_le_mul (by omega) h2
    rw [Nat.mul_add, Nat.mul_left_comm] at h5
    unfold sq at *
    simp only [cmdLen]; omega
  case datamodel os a t hoo hf ho =>
    have h1 := model_len hf
    have h3 := optsThen_len ho
    have h4 := sq_lin s.length
    simp only [cmdLen]; omega
  case makeresults os a hoo ho =>
    have h1 := intOr_len ho hoo.1
    have h2 := strOr_len ho hoo.2.2.1
    have h3 := strIs_len ho hoo.2.2.2
    have h4 := sq_lin s.length
    have h5 : (showInt 1).length = 1 := by decide
    simp only [cmdLen, List.length_cons, List.length_nil] at *; omega
  case rex os a t hoo hq ho =>
    have h1 := quoted_len hq
    have h2 := strOr_len ho hoo.1
    have h3 := optsThen_len ho
    have h4 := sq_lin s.length
    have h5 : a.regex.length * (80 + a.field.length + 4 * a.regex.length) ≤ s.length * (84 + 14 * s.length) :=
      Nat.mul_le_mul (by omega) (by simp only [List.length_cons, List.length_nil] at h2; omega)
    rw [Nat.mul_add s.length 84, Nat.mul_left_comm s.length 14] at h5
    unfold sq at *
    simp only [cmdLen]; omega
  case tstats os o es m w by_ t u v x hts hm hw hb hoo ho =>
    have h1 := tsItems_len hts
    have h2 := (then_len hm from_len).2
    have h3 := (then_len hw (keyed_len (len := exprLen) fun _ _ h => Nat.le_trans (Nat.le_add_right _ 4) (cond_len h.1))).2
    have h4 := (then_len hb (keyed_len (len := listLen byLen) fun _ _ => items_len by_len)).2
    have h5 := fill_len ho hoo.2.2.2.2.2.2.2
    have h6 : ∀ b : Option (List SpField), listLen byLen (b.getD []) = (b.map (listLen byLen)).getD 0 := by intro b; cases b <;> rfl
    have h7 : ((m.map Prod.fst).map List.length).getD 0 + ((m.bind Prod.snd).map List.length).getD 0 =
        (m.map fun m => m.1.length + (m.2.map List.length).getD 0).getD 0 := by cases m <;> rfl
    simp only [cmdLen, h6, h7]; omega
  case eval as h => have := items_len assign_len h; simp only [cmdLen]; omega
  case fields h => have := fields_len h; simp only [cmdLen]; omega
  case fieldsKeep fs g s h0 h =>
    have h1 := fields_len h
    have h2 := sq_mono (a := s.length) (b := ('+' :: (g ++ s)).length) (by simp; omega)
    simp only [cmdLen]; omega
  case fieldsDrop fs g s h0 h =>
    have h1 := fields_len h
    have h2 := sq_mono (a := s.length) (b := ('-' :: (g ++ s)).length) (by simp; omega)
    simp only [cmdLen]; omega
  case table h => have := fields_len h; simp only [cmdLen]; omega
  case tail n h =>
    cases h
    have := sq_lin (showInt (n : Int)).length
    have e : showInt (n : Int) = showNat n := rfl
    have := congrArg List.length e
    simp only [cmdLen]; omega
  case rename h => have := items_len renamed_len h; simp only [cmdLen]; omega
  case regex h =>
    have := quoted_len h
    have := sq_lin s.length
    simp only [cmdLen, Option.map_none, Option.getD_none]; omega
  case regexOf f op r g₁ g₂ t _ _ _ _ h =>
    have := quoted_len h
    have := sq_lin (f ++ (g₁ ++ (op ++ (g₂ ++ t)))).length
    simp only [cmdLen, Option.map_some, Option.getD_some, List.length_append] at *; omega
  case stats h hb hoo ho =>
    have h1 := items_len stat_len h
    have h2 := then_len hb (keyed_len (len := listLen byLen) fun _ _ => items_len by_len)
    have h3 := sq_mono (optsThen_len ho)
    have h4 : ∀ b : Option (List SpField), listLen byLen (b.getD []) = (b.map (listLen byLen)).getD 0 := by intro b; cases b <;> rfl
    simp only [cmdLen, h4]; omega
  case sort h hd _ hn =>
    have h1 := items_len sortKey_len h
    have h2 := (then_len hd (len := fun _ => 0) fun _ _ _ => Nat.zero_le _).1
    have h3 := maybe_len hn
    have h4 := sq_mono (Nat.le_trans h2 h3)
    simp only [cmdLen]; omega
  case top hf hb ho hoo hm hn =>
    have := top_len hf hb ho hn hoo.1 hoo.2.2.2.1 hm
    simp only [cmdLen]; omega
  case rare hf hb ho hoo hm hn =>
    have := top_len hf hb ho hn hoo.1 hoo.2.2.2.1 hm
    simp only [cmdLen]; omega
  case fillnull v w h =>
    have := word_len h
    have := sq_lin (c!"value=" ++ w).length
    simp only [cmdLen, Option.getD_none, namesLen, listLen, List.length_append] at *; omega
  case fillnullIn v fs t h hv =>
    have h1 := fields_len h
    cases hv with
    | none => simp only [cmdLen, Option.getD_none, Option.getD_some, List.length_cons, List.length_nil]; omega
    | @some v u g _ hw _ =>
      obtain ⟨w, hw, rfl⟩ := hw
      have h2 := word_len hw
      have h3 := sq_lin w.length
      have h4 := sq_add t.length w.length
      have h5 := sq_mono (a := t.length + w.length) (b := (c!"value=" ++ w ++ (g ++ t)).length) (by simp only [List.length_append]; omega)
      simp only [cmdLen, Option.getD_some]; omega
  case fillnullAll => simp only [cmdLen, Option.getD_none, namesLen, listLen, List.length_cons, List.length_nil]; omega
  case spath hp ht ho hi =>
    have h1 := path_len hp
    have h2 := setting_len ho
    have h3 := setting_len hi
    rename_i i o p w t u
    have h4 : w.length ≤ t.length := by
      rcases ht with rfl | ⟨k, _, rfl⟩
      · exact Nat.le_refl _
      · simp
    have h5 : (i.getD c!"_raw").length ≤ 4 + (i.map List.length).getD 0 := by cases i <;> simp
    have h6 := sq_lin s.length
    simp only [cmdLen]; omega
  case addtotals os a t hoo hf ho =>
    have h1 := strOr_len ho hoo.2.2.1
    have h2 := optsThen_len ho
    have h3 := sq_lin s.length
    have h4 : namesLen a.fields ≤ 2 * t.length := by
      rcases hf with ⟨e, -⟩ | hf
      · simp [e, namesLen, listLen]
      · exact cols_len hf
    simp only [cmdLen, List.length_cons, List.length_nil] at *; omega
  case where_ h => have := cond_len h; simp only [cmdLen]; omega
  case search h => have := terms_len h; simp only [cmdLen]; omega

theorem kw_pos {b : Bool} {kw : Str} {c : Command} {s : Str} (h : Spec.Body b kw c s) : 1 ≤ kw.length := by
  cases h
  case bin hk _ => simp only [List.mem_cons, List.not_mem_nil, or_false] at hk; rcases hk with rfl | rfl <;> decide
  all_goals decide

theorem pipe_len {b : Bool} {cs : List Command} {s : Str} (h : PipeText b cs s) : cmdsLen cs ≤ sq s.length := by
  refine PipeText.rec
    (motive_1 := fun _ c s _ => cmdLen c ≤ sq s.length)
    (motive_2 := fun _ cs s _ => cmdsLen cs ≤ sq s.length)
    (motive_3 := fun cs s _ => cmdsLen cs + 3 ≤ sq s.length)
    (motive_4 := fun ps s _ => subsLen ps ≤ sq s.length)
    (motive_5 := fun _ _ _ => True)
    ?_ ?_ ?_ ?_ ?_ ?_ ?_ ?_ ?_ ?_ ?_ ?_ ?_ ?_ h
  · intro b kw k g s c hb hk hs hg
    have h1 := body_len hb
    have h2 := sq_step s.length g.length (by have := hg.ne; cases g with | nil => exact absurd rfl this | cons => simp)
    have h3 := sq_mono (a := s.length + g.length) (b := (k ++ (g ++ s)).length) (by simp only [List.length_append]; omega)
    omega
  · intro kw k c hb hk
    have h1 := body_len hb
    have h2 := kw_pos hb
    have h3 := lower_len hk
    have h4 := sq_lin k.length
    have h5 : sq (([] : Str).length) = 0 := rfl
    omega
  · intro e es s h _; exact terms_len h
  · intro os o fs cs k g g₂ s t u hk hg hf hx hu ho hoo ih
    have h1 := ih
    have h2 := fields_len hf
    have h3 := optsThen_len ho
    have h4 := sq_add t.length u.length
    have h5 := sq_mono (a := t.length + u.length) (b := (k ++ (g ++ s)).length) (by simp only [List.length_append] at *; omega)
    simp only [cmdLen]; omega
  · intro ps k g s hk hg hs _ ih
    have h1 := ih
    have h2 := lower_len hk
    have h3 := sq_step s.length k.length (by simp only [List.length_cons, List.length_nil] at h2; omega)
    have h4 := sq_mono (a := s.length + k.length) (b := (k ++ (g ++ s)).length) (by simp only [List.length_append]; omega)
    simp only [cmdLen]; omega
  · intros; simp only [cmdLen]; omega
  · intro b c s h ih
    have := ih
    simp only [cmdsLen]; omega
  · intro b b' c c' cs s g₁ g₂ t _ _ _ _ _ ih1 ih2
    have h1 := ih1
    have h2 := ih2
    have h3 := sq_add s.length t.length
    have h5 := sq_mono (a := s.length + t.length) (b := (s ++ (g₁ ++ '|' :: (g₂ ++ t))).length) (by simp only [List.length_append, List.length_cons]; omega)
    rw [cmdsLen]; omega
  · intro b cs g₁ g₂ s _ _ _ _ ih
    have h1 := ih
    have h2 := sq_step s.length 1 (Nat.le_refl 1)
    have h3 := sq_mono (a := s.length + 1) (b := ('[' :: (g₁ ++ (s ++ (g₂ ++ c!"]")))).length) (by simp only [List.length_append, List.length_cons]; omega)
    omega
  · intro b cs g₀ g₁ g₂ s _ _ _ _ _ ih
    have h1 := ih
    have h2 := sq_step s.length 1 (Nat.le_refl 1)
    have h3 := sq_mono (a := s.length + 1) (b := ('[' :: (g₀ ++ '|' :: (g₁ ++ (s ++ (g₂ ++ c!"]"))))).length) (by simp only [List.length_append, List.length_cons]; omega)
    omega
  · intro p s _ ih
    have := ih
    simp only [subsLen]; omega
  · intro p ps s g t _ _ _ ih1 ih2
    have h1 := ih1
    have h2 := ih2
    have h3 := sq_add s.length t.length
    have h4 := sq_mono (a := s.length + t.length) (b := (s ++ (g ++ t)).length) (by simp only [List.length_append]; omega)
    rw [subsLen]; omega
  · intros; trivial
  · intros; trivial

theorem body_flat {b : Bool} {kw : Str} {c : Command} {s : Str} (h : Spec.Body b kw c s) : cmdN c = 1 := by
  cases h <;> rfl

theorem pipe_count {b : Bool} {cs : List Command} {s : Str} (h : PipeText b cs s) : cmdsN cs ≤ s.length := by
  refine PipeText.rec
    (motive_1 := fun _ c s _ => cmdN c ≤ s.length)
    (motive_2 := fun _ cs s _ => cmdsN cs ≤ s.length)
    (motive_3 := fun cs s _ => cmdsN cs ≤ s.length)
    (motive_4 := fun ps s _ => subsN ps ≤ s.length)
    (motive_5 := fun _ _ _ => True)
    ?_ ?_ ?_ ?_ ?_ ?_ ?_ ?_ ?_ ?_ ?_ ?_ ?_ ?_ h
  · intro b kw k g s c hb hk hs hg
    have h1 := kw_pos hb
    have h2 := lower_len hk
    rw [body_flat hb]; simp only [List.length_append]; omega
  · intro kw k c hb hk
    have h1 := kw_pos hb
    have h2 := lower_len hk
    rw [body_flat hb]; omega
  · intro e es s h _
    have := items_nonempty (fun e s h => by
      have := written_len h
      cases s with
      | nil => have : sq ([] : Str).length = 0 := rfl
               omega
      | cons => simp) h
    simp only [cmdN]; omega
  · intro os o fs cs k g g₂ s t u hk hg hf hx hu ho hoo ih
    have h1 := optsThen_len ho
    have h2 := lower_len hk
    simp only [cmdN, List.length_append, List.length_cons, List.length_nil] at *; omega
  · intro ps k g s hk hg hs _ ih
    have h2 := lower_len hk
    simp only [cmdN, List.length_append, List.length_cons, List.length_nil] at *; omega
  · intros; simp only [cmdN, List.length_append, List.length_cons]; omega
  · intro b c s h ih; simp only [cmdsN]; omega
  · intro b b' c c' cs s g₁ g₂ t _ _ _ _ _ ih1 ih2
    rw [cmdsN]; simp only [List.length_append, List.length_cons]; omega
  · intro b cs g₁ g₂ s _ _ _ _ ih; simp only [List.length_append, List.length_cons]; omega
  · intro b cs g₀ g₁ g₂ s _ _ _ _ _ ih; simp only [List.length_append, List.length_cons]; omega
  · intro p s _ ih; simp only [subsN]; omega
  · intro p ps s g t _ _ _ ih1 ih2; rw [subsN]; simp only [List.length_append]; omega
  · intros; trivial
  · intros; trivial

theorem query_count {cs : List Command} {q : Str} (h : QueryText cs q) : cmdsN cs ≤ q.length := by
  cases h with
  | direct _ h _ => have := pipe_count h; simp only [List.length_append]; omega
  | afterBar _ _ h _ => have := pipe_count h; simp only [List.length_append, List.length_cons]; omega

theorem query_len {cs : List Command} {q : Str} (h : QueryText cs q) : cmdsLen cs ≤ sq q.length := by
  cases h with
  | direct _ h _ => exact Nat.le_trans (pipe_len h) (sq_mono (by simp only [List.length_append]; omega))
  | afterBar _ _ h _ => exact Nat.le_trans (pipe_len h) (sq_mono (by simp only [List.length_append, List.length_cons]; omega))

end Verif.Lemmas.Size
