import Verif.Props.QueryRows
import Verif.Spec.Stats
/-
C77 and C78: the columns `addtotals` and `spath` add.
-/
namespace Verif.Props
open Verif Spl Spec Lemmas

/-- A query of one command, on a table whose rows are in the same order on both sides. -/
theorem one_command {x : Ext} {c : Command} {cols cols' : List Str} (hg : goodCols cols = true) (h : Steps x c true cols true cols') :
    ∃ text, renderPipeline ⟨.disallow, x⟩ [c] = some text ∧
      ∀ (S : Sem) (A : Aggs) (O O' : Arrangement) (T : Str → Frame), (T c!"main").cols = cols → definiteCmd S A (T c!"main") c →
        ∃ F, splCmd S A O (T c!"main") c = some F ∧ textRows S A O' T text = some F ∧ F.cols = cols' := by
  obtain ⟨_, tr, h1, h2⟩ := h
  have hp : progTree (St.cur ⟨1, none⟩) = some ⟨[], mCall (.name c!"spark") c!"table" [.str c!"main"]⟩ := by
    show progTree (.source c!"main") = _
    simp only [progTree, show Plain '\'' c!"main" = true by decide +kernel, if_true]
  obtain ⟨s', k1, k2, k3⟩ := h1 ⟨1, none⟩ _ hp
  obtain ⟨text, t1, t2⟩ := query_of_steps x (q := [c]) (cs := []) (by simp only [runCmds, k1]) k2 k3
  refine ⟨text, t1, fun S A O O' T hc hd => ?_⟩
  have hF : frameEval S A O' T (mCall (.name c!"spark") c!"table" [.str c!"main"]) = some (T c!"main") := by
    have : ColsOk (T c!"main").cols = true := by rw [hc]; exact goodCols_ok hg
    simp only [mCall, frameEval, and_self, if_true, okFrame, this]
  obtain ⟨G, G', g1, g2, g3, g4⟩ := h2 S A O O' T _ (T c!"main") (T c!"main") hF ⟨rfl, .refl _, fun _ => rfl⟩ hc hg hd
  have : G' = G := by
    have e1 := g3.1
    have e2 := g3.2.2 rfl
    cases G; cases G'
    simp only at e1 e2
    rw [e1, e2]
  exact ⟨G, g1, by rw [t2, g2, this], g4⟩

/-! ### C77: addtotals -/

/-- The numbers among some values. -/
def numbersIn (S : Sem) (vs : List Val) : List Rat :=
  vs.filterMap fun v => match S.prim .toNumber [v] with | .num q => some q | _ => none

/-- Operations that add numbers, also those written as texts, exactly. -/
structure AddsNumbers (S : Sem) : Prop where
  self : ∀ q, S.prim .toNumber [.num q] = .num q
  only : ∀ v, S.prim .toNumber [v] = .null ∨ ∃ q, S.prim .toNumber [v] = .num q
  add : ∀ a b p q, S.prim .toNumber [a] = .num p → S.prim .toNumber [b] = .num q → S.arith .add a b = .num (p + q)

theorem summand_number {S : Sem} (h : AddsNumbers S) (v : Val) : ∃ q, S.prim .toNumber [summand S v] = .num q ∧ ∀ vs, total (numbersIn S (v :: vs)) = q + total (numbersIn S vs) := by
  unfold summand
  rcases h.only v with e | ⟨q, e⟩
  · refine ⟨0, by rw [if_pos e, h.self], fun vs => ?_⟩
    simp only [numbersIn, List.filterMap_cons, e]
    grind
  · refine ⟨q, by rw [if_neg (by rw [e]; simp), e], fun vs => ?_⟩
    simp only [numbersIn, List.filterMap_cons, e, total, List.foldr_cons]

theorem fold_number {S : Sem} (h : AddsNumbers S) : ∀ (vs : List Val) (a : Val) (q : Rat), S.prim .toNumber [a] = .num q →
    S.prim .toNumber [(vs.map (summand S)).foldl (fun a b => S.op .add a b) a] = .num (q + total (numbersIn S vs))
  | [], a, q, ha => by
    simp only [List.map_nil, List.foldl_nil, ha, numbersIn, List.filterMap_nil, total, List.foldr_nil]
    grind
  | v :: vs, a, q, ha => by
    obtain ⟨p, h1, h2⟩ := summand_number h v
    rw [List.map_cons, List.foldl_cons, fold_number h vs _ (q + p), h2]
    · grind
    · show S.prim .toNumber [S.arith .add a (summand S v)] = _
      rw [h.add _ _ _ _ ha h1, h.self]

theorem total_number {S : Sem} (h : AddsNumbers S) (fs : List Str) (r : Event) : S.prim .toNumber [splTotal S fs r] = .num (total (numbersIn S (fs.map r))) := by
  cases fs with
  | nil => exact h.self 0
  | cons f fs =>
    obtain ⟨p, h1, h2⟩ := summand_number h (r f)
    rw [splTotal, List.map_cons, foldVals, Option.getD_some]
    have := fold_number h (fs.map r) _ p h1
    rw [List.map_map] at this
    rw [List.map_cons, h2]
    exact this

/-- **C77** (partial).  `addtotals` with a list of fields: every event gets a field of the given name (`Total` by default) whose value
is the sum of those of the listed fields that are numbers; everything else stays as it is.
Missing: no list of fields (`C77_all_fields`), and the options `row`, `col`, `label` and `labelfield`
(`C77_options_ignored`). -/
theorem C77_total_partial (x : Ext) (a : AddTotals) (cols : List Str) (hg : goodCols cols = true) (hr : a.row = true) (hc : a.col = false)
    (hne : a.fields ≠ []) (hf : ∀ n ∈ a.fields, n ∈ cols) (hn : goodCols (addCol cols a.fieldName) = true) :
    ∃ text, renderPipeline ⟨.disallow, x⟩ [.addTotals a] = some text ∧
      ∀ (S : Sem) (A : Aggs) (O : Arrangement) (T : Str → Frame), AddsNumbers S → (T c!"main").cols = cols →
        ∃ v : Event → Val, textRows S A O T text = some ⟨addCol cols a.fieldName, (T c!"main").rows.map fun r => setField r a.fieldName (v r)⟩ ∧
          ∀ r, S.prim .toNumber [v r] = .num (total (numbersIn S (a.fields.map r))) := by
  have hne' : a.fields.isEmpty = false := by cases h : a.fields with | nil => exact absurd h hne | cons => rfl
  obtain ⟨text, h1, h2⟩ := one_command hg (addTotals_steps x (o := true) hg hr hc hne' hf hn)
  refine ⟨text, h1, fun S A O T hS hcols => ⟨splTotal S a.fields, ?_, fun r => total_number hS a.fields r⟩⟩
  obtain ⟨F, g1, g2, _⟩ := h2 S A O O T hcols trivial
  rw [g2, ← g1]
  simp only [splCmd, hne, hr, hc, if_false, Bool.not_false, Bool.and_self, if_true, hcols]

/-- Numbers, and texts made of digits, are added. -/
def addSem : Sem where
  cmp := fun _ _ _ => none
  arith := fun o a b => match o, num a, num b with
    | .add, some a, some b => .num (a + b)
    | _, _, _ => .null
  truth := fun | .bool b => some b | _ => none
  text := fun _ => none
  prim := fun p vs => match p, vs with
    | .toNumber, [v] => (match num v with | some q => .num q | none => .null)
    | _, _ => .null
  truth_ofB := fun b => by cases b <;> rfl
where
  /-- the number a value stands for -/
  num : Val → Option Rat
  | .num q => some q
  | .str s => if s ≠ [] ∧ s.all isDig then some (digitsVal s) else none
  | _ => none

theorem addSem_addsNumbers : AddsNumbers addSem where
  self := fun _ => rfl
  only := fun v => by
    show (match addSem.num v with | some q => Val.num q | none => .null) = .null ∨ ∃ q, (match addSem.num v with | some q => Val.num q | none => .null) = .num q
    cases addSem.num v with
    | none => exact Or.inl rfl
    | some q => exact Or.inr ⟨q, rfl⟩
  add := fun a b p q ha hb => by
    have key : ∀ v r, (match addSem.num v with | some q => Val.num q | none => .null) = .num r → addSem.num v = some r := by
      intro v r h
      cases hv : addSem.num v with
      | none => rw [hv] at h; cases h
      | some s => rw [hv] at h; simp only [Val.num.injEq] at h; rw [h]
    show (match Oper.add, addSem.num a, addSem.num b with | .add, some a, some b => Val.num (a + b) | _, _, _ => .null) = _
    rw [key a p ha, key b q hb]

example : goodCols [c!"a", c!"b", c!"c"] = true ∧ goodCols (addCol [c!"a", c!"b", c!"c"] c!"Total") = true ∧
    parse c!"addtotals a c" = some [.addTotals ⟨[c!"a", c!"c"], true, false, c!"Total", none, c!"Total"⟩] :=
  ⟨by decide +kernel, by decide +kernel, isParse_sound (by decide +kernel)⟩

/-- a number, a number written as text, and something that is no number -/
example : numbersIn addSem [.num 2, .str c!"40", .str c!"x", .null] = [2, 40] := by decide +kernel

/-- Without a list all numeric fields are summed; the program writes 0 instead. -/
theorem C77_all_fields (x : Ext) (S : Sem) (A : Aggs) (O : Arrangement) (T : Str → Frame) (r : Event) (n : Rat) (hr : r c!"n" = .num n)
    (hS : S.prim .toNumber [.num n] = .num n) (hT : T c!"main" = ⟨[c!"n"], [r]⟩) :
    parse c!"addtotals" = some [.addTotals ⟨[], true, false, c!"Total", none, c!"Total"⟩] ∧
    renderPipeline ⟨.disallow, x⟩ [.addTotals ⟨[], true, false, c!"Total", none, c!"Total"⟩] =
      some c!"spark.table('main').withColumn('Total', F.lit(0.0),)" ∧
    splQuery S A O T [.addTotals ⟨[], true, false, c!"Total", none, c!"Total"⟩] = some ⟨[c!"n", c!"Total"], [setField r c!"Total" (.num n)]⟩ ∧
    textRows S A O T c!"spark.table('main').withColumn('Total', F.lit(0.0),)" = some ⟨[c!"n", c!"Total"], [setField r c!"Total" (.num 0)]⟩ := by
  refine ⟨isParse_sound (by decide +kernel), by rfl, ?_, ?_⟩
  · simp only [splQuery, splRun, splCmd, hT, Option.bind_some, if_true, Bool.not_false, Bool.and_self, List.map_cons, List.map_nil, splTotal, summand, hr, hS,
      foldVals, List.foldl_nil, Option.getD_some]
    rfl
  · rw [textRows_of (e := mCall (mCall (.name c!"spark") c!"table" [.str c!"main"]) c!"withColumn" [.str c!"Total", fCall c!"lit" [.num c!"0" c!"0"]]) (by decide +kernel)]
    rw [frameEval_method (F := ⟨[c!"n"], [r]⟩) _ (by simp only [mCall, frameEval, and_self, if_true, hT, okFrame]; rfl) (by decide)]
    unfold frameMethod
    rw [if_neg (by decide), if_pos rfl]
    have hv : colValue S (fCall c!"lit" [.num c!"0" c!"0"]) r = some (.num 0) := by
      have : pyEval S r (fCall c!"lit" [.num c!"0" c!"0"]) = some (.column (.num (numVal c!"0" c!"0"))) := rfl
      rw [colValue, this, show numVal c!"0" c!"0" = 0 from by decide +kernel]
      rfl
    simp only [each, hv, Option.map_some, Option.bind_some]
    rfl

/-- `row=f` still adds the field, `col=t` adds no event with totals: none of these options makes a difference. -/
theorem C77_options_ignored (c : Ctx) (fs : List Str) (n : Str) (row row' col col' : Bool) (lf lf' : Option Str) (l l' : Str) (s : St) :
    transform c (.addTotals ⟨fs, row, col, n, lf, l⟩) s = transform c (.addTotals ⟨fs, row', col', n, lf', l'⟩) s := by
  cases c with
  | mk m x => cases m <;> rfl

example : parse c!"addtotals row=f col=t a b" = some [.addTotals ⟨[c!"a", c!"b"], false, true, c!"Total", none, c!"Total"⟩] :=
  isParse_sound (by decide +kernel)

/-! ### C78: spath -/

/-- **C78** (partial).  `spath` with a path made of keys: every event gets a field, named by `output` or else by the path, with the part
of the JSON text in the input field (`_raw` by default) the path leads to; everything else stays as it is.
Missing: paths with indexes (`C78_index_lost`, `C78_index_wrong`), `spath` without a path (`C78_without_path`), and options
in another order (`C78_option_order`). -/
theorem C78_path_partial (x : Ext) (path input : Str) (output : Option Str) (cols : List Str) (hg : goodCols cols = true)
    (hp : plainPath path = true) (hi : input ∈ cols) (hn : goodCols (addCol cols (output.getD path)) = true) :
    ∃ text ks, renderPipeline ⟨.disallow, x⟩ [.spath path input output] = some text ∧ splPath path = some ks ∧
      ∀ (S : Sem) (A : Aggs) (O : Arrangement) (T : Str → Frame), (T c!"main").cols = cols →
        textRows S A O T text =
          some ⟨addCol cols (output.getD path), (T c!"main").rows.map fun r => setField r (output.getD path) (S.jsonAt (r input) ks)⟩ := by
  obtain ⟨text, h1, h2⟩ := one_command hg (spath_steps x (o := true) hg hp hi hn)
  simp only [plainPath, Bool.and_eq_true] at hp
  obtain ⟨ks, hk⟩ := Option.isSome_iff_exists.1 hp.1.1
  refine ⟨text, ks, h1, hk, fun S A O T hcols => ?_⟩
  obtain ⟨F, g1, g2, _⟩ := h2 S A O O T hcols trivial
  rw [g2, ← g1]
  simp only [splCmd, hk, Option.map_some, hcols]

example : plainPath c!"user.name" = true ∧ splPath c!"user.name" = some [.key c!"user", .key c!"name"] ∧
    goodCols (addCol [c!"_time", c!"_raw"] c!"who") = true ∧
    parse c!"spath output=who path=user.name" = some [.spath c!"user.name" c!"_raw" (some c!"who")] :=
  ⟨by decide +kernel, by decide +kernel, by decide +kernel, isParse_sound (by decide +kernel)⟩

theorem keyed_keys {all bad q : Str} {ks : List PathStep} (h : '[' ∉ q) (hk : keyed '[' ']' all bad q = some ks) : ∀ s ∈ ks, ∃ k, s = .key k := by
  rw [keyed_plain h] at hk
  split at hk
  · cases hk
  · cases hk
    intro s hs
    rw [List.mem_singleton] at hs
    exact ⟨_, hs⟩

theorem allSteps_keys {f : Str → Option (List PathStep)} : ∀ {ps : List Str} {ks : List PathStep}, (∀ q ∈ ps, ∀ v, f q = some v → ∀ s ∈ v, ∃ k, s = PathStep.key k) →
    allSteps f ps = some ks → ∀ s ∈ ks, ∃ k, s = PathStep.key k
  | [], ks, _, h => by cases h; simp
  | p :: ps, ks, hf, h => by
    rw [allSteps, Option.bind_eq_some_iff] at h
    obtain ⟨a, h1, h2⟩ := h
    rw [Option.map_eq_some_iff] at h2
    obtain ⟨b, h2, rfl⟩ := h2
    intro s hs
    rcases List.mem_append.1 hs with hs | hs
    · exact hf p (List.mem_cons_self ..) a h1 s hs
    · exact allSteps_keys (fun q hq => hf q (List.mem_cons_of_mem _ hq)) h2 s hs

/-- A path of SPL is handed to Spark as it is, and Spark does not read `{n}` and `{}` as indexes: no step of the path it
follows leads into an array. -/
theorem C78_index_lost (path : Str) (h : '[' ∉ path) (ks : List PathStep) (hk : sparkPath (c!"$." ++ path) = some ks) :
    (∀ (x : Ext) (input : Str) (output : Option Str) (s : St), transform ⟨.disallow, x⟩ (.spath path input output) s =
      some (s.put (s.cur.mkWithColumn (output.getD path) (.fn c!"get_json_object" [.named input, pyStr (c!"$." ++ path)])))) ∧
    ∀ s ∈ ks, ∃ k, s = PathStep.key k := by
  refine ⟨fun _ _ _ _ => rfl, ?_⟩
  have hd : dotParts ('.' :: path) = [] :: dotParts path := by rw [dotParts, if_pos rfl]
  have hk : sparkPath ('$' :: '.' :: path) = some ks := hk
  simp only [sparkPath, hd, indexes, Option.bind_some, Option.map_eq_some_iff] at hk
  obtain ⟨b, hb, rfl⟩ := hk
  exact allSteps_keys (fun q hq v hv => keyed_keys (fun hm => h (mem_dotParts hq _ hm)) hv) hb

/-- `spath a{0}.b` reads the key `b` of the first element of the array `a`; Spark looks for a key `a{0}`. -/
theorem C78_index_wrong : parse c!"spath output=y a{0}.b" = some [.spath c!"a{0}.b" c!"_raw" (some c!"y")] ∧
    (∀ x, renderPipeline ⟨.disallow, x⟩ [.spath c!"a{0}.b" c!"_raw" (some c!"y")] =
      some c!"spark.table('main').withColumn('y', F.get_json_object(F.col('_raw'), \"$.a{0}.b\"),)") ∧
    splPath c!"a{0}.b" = some [.key c!"a", .index 0, .key c!"b"] ∧ sparkPath c!"$.a{0}.b" = some [.key c!"a{0}", .key c!"b"] ∧
    splPath c!"a{}.b" = some [.key c!"a", .every, .key c!"b"] ∧ sparkPath c!"$.a{}.b" = some [.key c!"a{}", .key c!"b"] ∧
    sparkPath c!"$.a[0].b" = some [.key c!"a", .index 0, .key c!"b"] :=
  ⟨isParse_sound (by decide +kernel), fun _ => by rfl, by decide +kernel, by decide +kernel, by decide +kernel, by decide +kernel, by decide +kernel⟩

/-- `spath` without a path, which extracts every field, is read as a search for the word "spath". -/
theorem C78_without_path (x : Ext) (hx : Arranges x) : ∃ q, parse c!"spath" = some q ∧
    renderPipeline ⟨.disallow, x⟩ q = some c!"spark.table('main').where(F.col('_raw').ilike(\"%spath%\"),)" := by
  have ho : x.order [] = [] := List.perm_nil.1 (hx [])
  refine ⟨[.search (.const (.field c!"spath"))], isParse_sound (by decide +kernel), ?_⟩
  simp only [renderPipeline, runCmds, transform, dispatch, searchStandalone, splitConditions, show dedupStr [] = [] from rfl, ho]
  rfl

/-- The documented order `path` and then `output` is not accepted. -/
theorem C78_option_order : parse c!"spath path=a output=y" = none ∧ (parse c!"spath output=y path=a").isSome = true := by
  constructor <;> decide +kernel

end Verif.Props
