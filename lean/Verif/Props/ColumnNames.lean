import Verif.Spec.ColumnNames
import Verif.Props.ColumnsRead
import Verif.Props.Program
/-
C93: a column reference of the generated program is the field of that name.
-/
namespace Verif.Props
open Verif Spl Spec Lemmas

theorem parts_simple : ∀ (s : Str), SimpleName s = true → ∀ pos part, pos = .fresh ∨ pos = .inside → nameParts pos part s = some [part ++ s]
  | [], _, pos, _, hp => by rcases hp with rfl | rfl <;> simp [nameParts]
  | c :: s, h, pos, part, hp => by
    simp only [SimpleName, List.all_cons, Bool.and_eq_true, bne_iff_ne] at h
    have h1 : pos ≠ .quoted ∧ pos ≠ .closing := by rcases hp with rfl | rfl <;> decide
    rw [nameParts, if_neg h1.1, if_neg (fun e => h1.2 e.1), if_neg h.1.1.1, if_neg h1.2, if_neg h.1.1.2,
      parts_simple s (by simpa [SimpleName] using h.2) _ _ (.inr rfl)]
    simp

theorem parts_ne_nil : ∀ (s : Str) (pos : NamePos) (part : Str) (ps : List Str), nameParts pos part s = some ps → ps ≠ []
  | [], pos, part, ps, h => by
    rw [nameParts] at h
    split at h
    · cases h
    · cases h; simp
  | c :: s, pos, part, ps, h => by
    rw [nameParts] at h
    repeat' split at h
    all_goals first
      | exact parts_ne_nil s _ _ ps h
      | cases h
      | (rw [Option.map_eq_some_iff] at h; obtain ⟨qs, _, rfl⟩ := h; simp)

/-- A part of a name is not longer than the name. -/
theorem parts_length : ∀ (s : Str) (pos : NamePos) (part : Str) (ps : List Str), nameParts pos part s = some ps → ∀ p ∈ ps, p.length ≤ part.length + s.length
  | [], pos, part, ps, h => by
    rw [nameParts] at h
    split at h
    · cases h
    · cases h; simp
  | c :: s, pos, part, ps, h => by
    intro p hp
    rw [nameParts] at h
    repeat' split at h
    all_goals first
      | (have := parts_length s _ _ ps h p hp
         simp only [List.length_append, List.length_cons, List.length_nil] at this ⊢
         omega)
      | cases h
      | (rw [Option.map_eq_some_iff] at h
         obtain ⟨qs, hq, rfl⟩ := h
         rcases List.mem_cons.1 hp with rfl | hp
         · simp
         · have := parts_length s _ _ qs hq p hp
           simp only [List.length_cons, List.length_nil] at this ⊢
           omega)

/-- A dot makes a name of two or more parts, the first of which is what stands before the dot. -/
theorem parts_dot : ∀ (a s : Str), SimpleName a = true → ∀ pos part ps, pos = .fresh ∨ pos = .inside → nameParts pos part (a ++ '.' :: s) = some ps →
    ∃ qs, ps = (part ++ a) :: qs ∧ qs ≠ [] ∧ ∀ p ∈ qs, p.length ≤ s.length
  | [], s, _, pos, part, ps, hp, h => by
    have h1 : pos ≠ .quoted ∧ pos ≠ .closing := by rcases hp with rfl | rfl <;> decide
    rw [List.nil_append, nameParts, if_neg h1.1, if_neg (fun e => h1.2 e.1), if_pos rfl] at h
    split at h
    · cases h
    · rw [Option.map_eq_some_iff] at h
      obtain ⟨qs, hq, rfl⟩ := h
      exact ⟨qs, by simp, parts_ne_nil _ _ _ _ hq, by simpa using parts_length _ _ _ _ hq⟩
  | c :: a, s, ha, pos, part, ps, hp, h => by
    have h1 : pos ≠ .quoted ∧ pos ≠ .closing := by rcases hp with rfl | rfl <;> decide
    simp only [SimpleName, List.all_cons, Bool.and_eq_true, bne_iff_ne] at ha
    rw [List.cons_append, nameParts, if_neg h1.1, if_neg (fun e => h1.2 e.1), if_neg ha.1.1.1, if_neg h1.2, if_neg ha.1.1.2] at h
    obtain ⟨qs, h1, h2⟩ := parts_dot a s (by simpa [SimpleName] using ha.2) _ _ _ (.inr rfl) h
    exact ⟨qs, by simpa using h1, h2⟩

theorem nodup_filter {cols : List Str} {n : Str} (hd : (cols.map lower).Nodup) (hn : n ∈ cols) : (cols.filter fun c => lower c = lower n) = [n] := by
  induction cols with
  | nil => cases hn
  | cons c cols ih =>
    simp only [List.map_cons, List.nodup_cons, List.mem_map, not_exists, not_and] at hd
    rcases List.mem_cons.1 hn with rfl | hn
    · rw [List.filter_cons_of_pos (by simp)]
      congr 1
      rw [List.filter_eq_nil_iff]
      intro d hm h
      exact hd.1 d hm (by simpa using h)
    · rw [List.filter_cons_of_neg, ih hd.2 hn]
      intro h
      exact hd.1 n hn (by simpa using (Eq.symm (by simpa using h : lower c = lower n)))

theorem after_single {q : List Str} {n : Str} {rest : List Str} (h : afterQualifier q [n] = some rest) : rest = [n] ∨ rest = [] := by
  cases q with
  | nil => simp only [afterQualifier, Option.some.injEq] at h; exact .inl h.symm
  | cons p q =>
    rw [afterQualifier] at h
    split at h
    · cases q with
      | nil => simp only [afterQualifier, Option.some.injEq] at h; exact .inr h.symm
      | cons => simp [afterQualifier] at h
    · cases h

/-- A simple name names a column. -/
theorem resolve_single (inner : Val → List Str → Option Val) (quals : List (List Str)) (cols : List Str) (row : Event) {n : Str}
    (hs : SimpleName n = true) : resolve inner quals cols row n = columnAt inner cols row [n] := by
  unfold resolve
  rw [parts_simple n hs _ _ (.inl rfl), Option.bind_some, List.nil_append]
  split
  · rename_i rest more h
    have hm : rest ∈ (quals.filterMap fun q => afterQualifier q [n]).filter (startsColumn cols) := by rw [h]; simp
    rw [List.mem_filter, List.mem_filterMap] at hm
    obtain ⟨⟨q, _, hq⟩, hst⟩ := hm
    rcases after_single hq with rfl | rfl
    · rfl
    · simp [startsColumn] at hst
  · rfl

/-- A simple name is the field of that name, if the names of the columns differ in more than their letter case. -/
theorem resolve_simple {inner : Val → List Str → Option Val} {quals : List (List Str)} {cols : List Str} {row : Event} {n : Str}
    (hd : (cols.map lower).Nodup) (hn : n ∈ cols) (hs : SimpleName n = true) : resolve inner quals cols row n = some (row n) := by
  rw [resolve_single _ _ _ _ hs]
  simp only [columnAt, nodup_filter hd hn, if_true]

/-- **C93** (partial): in the program of `where`, every column reference is the field of that name, for fields with simple names, on tables with columns
whose names differ in more than letter case. -/
theorem C93_where_partial (x : Ext) (e : Expr) (he : plainE e = true) (txt : Str) (h : renderPipeline ⟨.disallow, x⟩ [.where_ e] = some txt)
    (hs : ∀ c ∈ exprFields e, SimpleName c = true) :
    ∃ q, readProg txt = some q ∧ ∀ inner quals cols row, (cols.map lower).Nodup → (∀ c ∈ exprFields e, c ∈ cols) →
      ∀ c ∈ progRefs q, resolve inner quals cols row c = some (row c) := by
  obtain ⟨q, hq, hr⟩ := C73_where_partial x e he txt h
  exact ⟨q, hq, fun inner quals cols row hd hc c hm => resolve_simple hd (hc c (hr c hm)) (hs c (hr c hm))⟩

/-- **C93** (partial), `eval` with one assignment. -/
theorem C93_eval_partial (x : Ext) (n : Str) (hn : Plain '\'' n = true) (e : Expr) (he : plainE e = true) (txt : Str)
    (h : renderPipeline ⟨.disallow, x⟩ [.eval [(n, e)]] = some txt) (hs : ∀ c ∈ exprFields e, SimpleName c = true) :
    ∃ q, readProg txt = some q ∧ ∀ inner quals cols row, (cols.map lower).Nodup → (∀ c ∈ exprFields e, c ∈ cols) →
      ∀ c ∈ progRefs q, resolve inner quals cols row c = some (row c) := by
  obtain ⟨q, hq, hr⟩ := C73_eval_partial x n hn e he txt h
  exact ⟨q, hq, fun inner quals cols row hd hc c hm => resolve_simple hd (hc c (hr c hm)) (hs c (hr c hm))⟩

/-! ### names that are not simple -/

theorem after_suffix : ∀ {q ps rest : List Str}, afterQualifier q ps = some rest → rest <:+ ps
  | [], ps, rest, h => by simp only [afterQualifier, Option.some.injEq] at h; rw [h]; exact List.suffix_rfl
  | _ :: _, [], _, h => by simp [afterQualifier] at h
  | q :: qs, p :: ps, rest, h => by
    rw [afterQualifier] at h
    split at h
    · exact (after_suffix h).trans (List.suffix_cons _ _)
    · cases h

theorem columnAt_other {inner : Val → List Str → Option Val} {cols : List Str} {row row' : Event} {n : Str} (hr : ∀ m, m ≠ n → row m = row' m) :
    ∀ {ps : List Str}, (∀ p ∈ ps, p.length < n.length) → columnAt inner cols row ps = columnAt inner cols row' ps
  | [], _ => rfl
  | p :: ps, h => by
    cases hf : cols.filter fun c => lower c = lower p with
    | nil => simp only [columnAt, hf]
    | cons c cs =>
      cases cs with
      | cons d cs => simp only [columnAt, hf]
      | nil =>
        have hm : c ∈ cols.filter fun c => lower c = lower p := by rw [hf]; simp
        rw [List.mem_filter] at hm
        have hl := congrArg List.length (by simpa using hm.2 : lower c = lower p)
        simp only [lower, List.length_map] at hl
        have hne : c ≠ n := by
          rintro rfl
          have := h p (by simp)
          omega
        simp only [columnAt, hf, hr c hne]

/-- A name with a dot: without a table or column named as what stands before the dot, there is no such column; and the value is never the one of the
field. -/
theorem resolve_dot (inner : Val → List Str → Option Val) (quals : List (List Str)) (cols : List Str) (row : Event) {a b : Str} (ha : SimpleName a = true) :
    ((∀ q ∈ quals, ∃ t ts, q = t :: ts ∧ lower t ≠ lower a) → (∀ c ∈ cols, lower c ≠ lower a) → resolve inner quals cols row (a ++ '.' :: b) = none) ∧
    ∀ row' : Event, (∀ n, n ≠ a ++ '.' :: b → row n = row' n) → resolve inner quals cols row (a ++ '.' :: b) = resolve inner quals cols row' (a ++ '.' :: b) := by
  unfold resolve
  cases hp : nameParts .fresh [] (a ++ '.' :: b) with
  | none => simp
  | some ps =>
    obtain ⟨qs, rfl, hq, hl⟩ := parts_dot a b ha _ _ _ (.inl rfl) hp
    have hlen : ∀ p ∈ a :: qs, p.length < (a ++ '.' :: b).length := by
      intro p hp
      simp only [List.length_append, List.length_cons]
      rcases List.mem_cons.1 hp with rfl | hp
      · omega
      · have := hl p hp
        omega
    simp only [Option.bind_some, List.nil_append]
    constructor
    · intro hqual h
      have h1 : (quals.filterMap fun q => afterQualifier q (a :: qs)) = [] := by
        rw [List.filterMap_eq_nil_iff]
        intro q hm
        obtain ⟨t, ts, rfl, ht⟩ := hqual q hm
        rw [afterQualifier, if_neg ht]
      have h2 : (cols.filter fun c => lower c = lower a) = [] := by
        rw [List.filter_eq_nil_iff]
        intro c hc
        simpa using h c hc
      rw [h1, List.filter_nil]
      simp only [columnAt, h2]
    · intro row' hr
      split
      · rename_i rest more h
        have hm : rest ∈ (quals.filterMap fun q => afterQualifier q (a :: qs)).filter (startsColumn cols) := by rw [h]; simp
        rw [List.mem_filter, List.mem_filterMap] at hm
        obtain ⟨⟨q, _, hq'⟩, _⟩ := hm
        exact columnAt_other hr fun p hp => hlen p ((after_suffix hq').subset hp)
      · exact columnAt_other hr hlen

theorem refs_int (n : Int) : colRefs (intE n) = [] := by
  unfold intE
  split <;> rfl

/-- the program of `where f=n` -/
theorem where_field (x : Ext) {f : Str} (hf : Plain '\'' f = true) (n : Int) :
    ∃ txt q, renderPipeline ⟨.disallow, x⟩ [.where_ (.binary (.const (.field f)) c!"=" (.const (.int n)))] = some txt ∧ readProg txt = some q ∧ progRefs q = [f] := by
  have hm : mapOp c!"=" = c!"==" := by decide
  have hp : exprTr .disallow (.binary (.const (.field f)) c!"=" (.const (.int n))) = some (.bin c!"==" (.named f) (.lit (showInt n))) := by
    simp only [exprTr, binTr, constTr, generalBin, PE.mkBin, PE.unalias, hm]
  have ht : pyTree (.bin c!"==" (.named f) (.lit (showInt n))) = some (.bin c!"==" (fCall c!"col" [.str f]) (fCall c!"lit" [intE n])) := by
    have h1 : (opLevel c!"==").isSome = true := by decide
    simp only [pyTree, hf, if_true, code_int, Option.map_some, h1]
  have hq : progTree (.where_ (.source c!"main") (.bin c!"==" (.named f) (.lit (showInt n)))) =
      some ⟨[], mCall (mCall (.name c!"spark") c!"table" [.str c!"main"]) c!"where" [.bin c!"==" (fCall c!"col" [.str f]) (fCall c!"lit" [intE n])]⟩ := by
    simp only [progTree, show Plain '\'' c!"main" = true by decide +kernel, if_true, onResult, ht, Option.map_some]
  refine ⟨_, _, ?_, read_prog hq, ?_⟩
  · simp only [renderPipeline, runCmds, transform, dispatch, whereTr, hp, Option.map_some]
    rfl
  · simp [progRefs, mCall, fCall, colRefs, colRefsL, textName, refs_int]

/-- Disagreement, for all fields with a dot in their name: the column reference is not the field.  On a table that has the field, but neither a column nor the table is named as
what stands before the dot, the program is refused; and in no case does the value depend on the field. -/
theorem C93_dot_fails (x : Ext) {a b : Str} (ha : SimpleName a = true) (hp : Plain '\'' (a ++ '.' :: b) = true) (n : Int) :
    ∃ txt q, renderPipeline ⟨.disallow, x⟩ [.where_ (.binary (.const (.field (a ++ '.' :: b))) c!"=" (.const (.int n)))] = some txt ∧ readProg txt = some q ∧
      progRefs q = [a ++ '.' :: b] ∧
      ∀ inner quals cols row,
        ((∀ q ∈ quals, ∃ t ts, q = t :: ts ∧ lower t ≠ lower a) → (∀ c ∈ cols, lower c ≠ lower a) → resolve inner quals cols row (a ++ '.' :: b) = none) ∧
        ∀ row' : Event, (∀ m, m ≠ a ++ '.' :: b → row m = row' m) → resolve inner quals cols row (a ++ '.' :: b) = resolve inner quals cols row' (a ++ '.' :: b) := by
  obtain ⟨txt, q, h1, h2, h3⟩ := where_field x hp n
  exact ⟨txt, q, h1, h2, h3, fun inner quals cols row => resolve_dot inner quals cols row ha⟩

/-- Disagreement, for all fields: on a table with two columns whose names differ in letter case only, the program is refused; in SPL these are two
fields. -/
theorem C93_letter_case_fails (x : Ext) {f g : Str} (hs : SimpleName f = true) (hp : Plain '\'' f = true) (hne : f ≠ g) (hl : lower f = lower g) (n : Int) :
    ∃ txt q, renderPipeline ⟨.disallow, x⟩ [.where_ (.binary (.const (.field f)) c!"=" (.const (.int n)))] = some txt ∧ readProg txt = some q ∧
      progRefs q = [f] ∧ ∀ inner quals cols row, f ∈ cols → g ∈ cols → resolve inner quals cols row f = none := by
  obtain ⟨txt, q, h1, h2, h3⟩ := where_field x hp n
  refine ⟨txt, q, h1, h2, h3, fun inner quals cols row hf hg => ?_⟩
  rw [resolve_single _ _ _ _ hs]
  have mf : f ∈ cols.filter fun c => lower c = lower f := by simp [hf]
  have mg : g ∈ cols.filter fun c => lower c = lower f := by simp [hg, hl]
  cases h : cols.filter fun c => lower c = lower f with
  | nil => simp only [columnAt, h]
  | cons c cs =>
    cases cs with
    | cons d cs => simp only [columnAt, h]
    | nil =>
      rw [h] at mf mg
      simp only [List.mem_singleton] at mf mg
      exact absurd (mf.trans mg.symm) hne

/-- The columns `spath` makes have such names: the second stage is refused. -/
theorem C93_spath_query :
    outOf .disallow c!"index=web | spath user.name | search user.name=5" =
      some c!"spark.table('web').withColumn('user.name', F.get_json_object(F.col('_raw'), \"$.user.name\"),).where((F.col('user.name') == F.lit(5)),)" ∧
    ∀ inner row, resolve inner [[c!"web"], [c!"default", c!"web"]] [c!"_raw", c!"_time", c!"user.name"] row c!"user.name" = none :=
  ⟨by decide +kernel, fun inner row => (resolve_dot inner _ _ row (a := c!"user") (b := c!"name") (by decide)).1
    (by intro q hq; simp only [List.mem_cons, List.not_mem_nil, or_false] at hq; rcases hq with rfl | rfl <;> exact ⟨_, _, rfl, by decide⟩) (by decide)⟩

/-- A dot in backquotes is a part of the name, which the code does not use. -/
example : nameParts .fresh [] c!"`user.name`.x" = some [c!"user.name", c!"x"] ∧ nameParts .fresh [] c!"a..b" = none ∧ nameParts .fresh [] c!"a.b" = some [c!"a", c!"b"] := by
  decide +kernel

example : plainE (.binary (.const (.field c!"status")) c!"=" (.const (.int 5))) = true ∧ SimpleName c!"status" = true ∧
    exprFields (.binary (.const (.field c!"status")) c!"=" (.const (.int 5))) = [c!"status"] ∧ ([c!"status", c!"host"].map lower).Nodup ∧
    lower c!"Host" = lower c!"host" := by decide +kernel

end Verif.Props
