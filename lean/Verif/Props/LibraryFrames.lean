import Verif.Lemmas.LibraryCmd
import Verif.Lemmas.PlainRun
import Verif.Lemmas.Python
import Verif.Props.Library
import Verif.Tests.Repo
/-
C64-C68: commands of the runtime library and whole queries.

`runDF W d` is the frame computed by the generated program `d` with the runtime library, `none` when
it raises; `transform ⟨.allow, x⟩` is the translation with the library, `transform ⟨.disallow, x⟩` the
one without.
-/
namespace Verif.Props
open Verif Verif.Rt Verif.Spec Verif.Lemmas.Library

/-- the settings of the library as delivered -/
def delivered (types : DF → List (Str × Str)) : World := ⟨defaultLookup, types⟩

/-- The frame before a command: the run with the library has computed `e`, the one without `d'`, with
the same rows. -/
def Before (W : World) (s s' : St) : Prop :=
  ∃ d e d', s.df = some d ∧ runDF W d = some e ∧ s'.df = some d' ∧ SameRows e d'

/-- both translations succeed, the library does not raise, and the frames have the same rows -/
def Agrees (W : World) (x : Ext) (c : Command) (s s' : St) : Prop :=
  ∃ t t' e, transform ⟨.allow, x⟩ c s = some t ∧ transform ⟨.disallow, x⟩ c s' = some t' ∧
    runDF W t.cur = some e ∧ SameRows e t'.cur

theorem agrees_of {W x c} {s s' : St}
    (h : ∃ t t', transform ⟨.allow, x⟩ c s = some t ∧ transform ⟨.disallow, x⟩ c s' = some t' ∧ Runs SameRows W t t') :
    Agrees W x c s s' := by
  obtain ⟨t, t', h1, h2, h3⟩ := h
  obtain ⟨e, h4, h5⟩ := h3.cur sameRows_closed
  exact ⟨t, t', e, h1, h2, h4, h5⟩

theorem Before.runs {W s s'} (h : Before W s s') : Runs SameRows W s s' ∧ s.df ≠ none := by
  obtain ⟨d, e, d', h1, h2⟩ := h
  exact ⟨.inr ⟨d, e, d', h1, h2⟩, by simp [h1]⟩

/-- a lawful interpretation for the examples: conditions are conjunctions of comparisons of a column
with a number; other columns have the value 1 -/
def sampleHolds : PE → Row Nat → Bool
  | .bin op a b, r =>
    if op = c!"&" then sampleHolds a r && sampleHolds b r
    else match a, b with
      | .named n, .lit c => decide (showNat (cell 0 r n) = c)
      | _, _ => true
  | .lit c, _ => decide (c = c!"True")
  | _, _ => true

/-- see `sampleHolds` -/
def sample (t : Table Nat) : Spark Nat := { flat t with
  value := fun _ _ => 1
  holds := sampleHolds }

theorem sample_lawful (t) : (sample t).Lawful :=
  ⟨fun _ _ _ => rfl, fun _ => rfl, fun _ _ _ => rfl⟩

/-! ### C64: `eval` -/

theorem evalLoop_none {m} : ∀ {fs : List (Str × Expr)} (d), evalKwargs m fs = none → evalLoop m fs d = none
  | [], _, h => by cases h
  | (n, e) :: fs, d, h => by
    simp only [evalKwargs] at h
    simp only [evalLoop]
    cases hc : exprTr m e with
    | none => rfl
    | some c =>
      rw [hc] at h
      simp only at h ⊢
      split
      · rename_i hi
        rw [if_pos hi] at h
        split at h
        · rename_i hn
          exact evalLoop_none _ hn
        · cases h
      · rfl

theorem eval_allow {x fs} {s t : St} (h : transform ⟨.allow, x⟩ (.eval fs) s = some t) :
    ∃ ks, evalKwargs .allow fs = some ks ∧ t = s.putRuntime c!"eval" [] ks := by
  simp only [transform, dispatch, evalRuntime, evalStandalone] at h
  cases hk : evalKwargs .allow fs with
  | none => simp [hk, evalLoop_none, orElse] at h
  | some ks =>
    simp only [hk, Option.map_some, orElse, Option.some.injEq] at h
    exact ⟨ks, rfl, h.symm⟩

theorem evalKwargs_keys {m} : ∀ {fs : List (Str × Expr)} {ks}, evalKwargs m fs = some ks → ks.map (·.1) = fs.map (·.1)
  | [], ks, h => by simp only [evalKwargs, Option.some.injEq] at h; subst h; rfl
  | (n, e) :: fs, ks, h => by
    simp only [evalKwargs] at h
    split at h
    · cases h
    · split at h
      · split at h
        · cases h
        · rename_i ks' hk
          simp only [Option.some.injEq] at h
          subst h
          simp only [List.map_cons, evalKwargs_keys hk]
      · cases h

theorem kwVals_keys : ∀ {ks : List (Str × RE)} {vs}, kwVals ks = some vs → vs.map (·.1) = ks.map (·.1)
  | [], vs, h => by simp only [kwVals, Option.some.injEq] at h; subst h; rfl
  | (n, e) :: ks, vs, h => by
    simp only [kwVals] at h
    split at h
    · rename_i v vs' _ hv
      simp only [Option.some.injEq] at h
      subst h
      simp only [List.map_cons, kwVals_keys hv]
    · cases h

/-- how a call of the library is run -/
theorem run_putRuntime {W} {s : St} {f as ks} : runDF W (s.putRuntime f as ks).cur =
    match s.df with
    | none => command W none f as ks
    | some d => match runDF W d with
      | none => none
      | some e => command W (some e) f as ks := by
  simp only [St.putRuntime, St.cur, Option.getD_some]
  split
  · rename_i d hd; simp only [runDF, hd]; rfl
  · rename_i hd; simp only [runDF, hd]

/-- a call raises when it does so for all values of its keyword arguments -/
theorem command_none {W src f as ks} (h : ∀ pv vs, kwVals ks = some vs → distinct vs = true →
    (f = c!"eval" → cmdEval src pv vs = none) ∧ (f = c!"search" → cmdSearch W src pv vs = none) ∧
    (f = c!"stats" → cmdStats src pv vs = none) ∧ (f = c!"fill_null" → cmdFillNull W src pv vs = none) ∧
    (f = c!"tstats" → cmdTstats W src pv vs = none)) : command W src f as ks = none := by
  unfold command
  split
  · rename_i pv vs _ hv
    split
    · rename_i hd
      obtain ⟨h1, h2, h3, h4, h5⟩ := h pv vs hv hd
      repeat' split
      all_goals first
        | exact h1 ‹_›
        | exact h2 ‹_›
        | exact h3 ‹_›
        | exact h4 ‹_›
        | exact h5 ‹_›
        | rfl
    · rfl
  · rfl

/-- **C64 (refutation).** An `eval` at the beginning of a query raises with the library (the plain
translation reads the default table). -/
theorem C64_first_raises {W x fs n} {t : St} (h : transform ⟨.allow, x⟩ (.eval fs) ⟨n, none⟩ = some t) :
    runDF W t.cur = none := by
  obtain ⟨ks, _, rfl⟩ := eval_allow h
  rw [run_putRuntime]
  exact command_none fun pv vs _ _ => ⟨fun _ => rfl, by simp, by simp, by simp, by simp⟩

/-- **C64 (refutation).** An `eval` that assigns the same field twice raises with the library. -/
theorem C64_repeated_raises {W x fs} {s t : St} (hd : ¬ (fs.map (·.1)).Nodup)
    (h : transform ⟨.allow, x⟩ (.eval fs) s = some t) : runDF W t.cur = none := by
  obtain ⟨ks, hk, rfl⟩ := eval_allow h
  have key : ∀ src, command W src c!"eval" [] ks = none := fun src => command_none fun pv vs hv hdd => by
    rw [distinct_not (by rw [kwVals_keys hv, evalKwargs_keys hk]; exact hd)] at hdd
    cases hdd
  rw [run_putRuntime]
  split
  · exact key _
  · split
    · rfl
    · exact key _

/-- **C64 (refutation).** An `eval` of a field called `df` raises with the library. -/
theorem C64_df_raises {W x fs} {s t : St} (hd : c!"df" ∈ fs.map (·.1))
    (h : transform ⟨.allow, x⟩ (.eval fs) s = some t) : runDF W t.cur = none := by
  obtain ⟨ks, hk, rfl⟩ := eval_allow h
  have key : ∀ src, command W src c!"eval" [] ks = none := fun src => command_none fun pv vs hv hdd => by
    clear hdd
    refine ⟨fun _ => ?_, by simp, by simp, by simp, by simp⟩
    have hm : c!"df" ∈ vs.map (·.1) := by rw [kwVals_keys hv, evalKwargs_keys hk]; exact hd
    have : (kwGet c!"df" vs).isNone = false := by
      clear hv
      induction vs with
      | nil => simp at hm
      | cons v vs ih =>
        obtain ⟨k, v⟩ := v
        rw [kwGet]
        split
        · rfl
        · rename_i hne
          refine ih ?_
          simp only [List.map_cons, List.mem_cons] at hm
          exact hm.resolve_left fun e => hne e.symm
    cases src <;> simp [cmdEval, this]
  rw [run_putRuntime]
  split
  · exact key _
  · split
    · rfl
    · exact key _

/-- names that Python does not take as keywords: with a character of ASCII that is no letter, digit or
underscore, such as the dot of `a.b`, or a keyword of the language, such as `in` -/
def BadKeyword (n : Str) : Prop := (∃ c ∈ n, c.val < 128 ∧ isIdChar c = false) ∨ n ∈ pyKeywords ∨ n ∈ pyConsts

theorem bad_name {n : Str} (h : BadKeyword n) : kwNameOk n = false := by
  simp only [kwNameOk, Bool.and_eq_false_iff, Bool.not_eq_false', List.contains_eq_mem, decide_eq_true_eq]
  rcases h with ⟨c, hc, _, hi⟩ | h | h
  · left
    cases n with
    | nil => rfl
    | cons a n =>
      simp only [isIdent, Bool.and_eq_false_iff]
      rcases List.mem_cons.1 hc with rfl | hc
      · exact .inl (.inl (by simp only [isIdChar, Bool.or_eq_false_iff] at hi; exact hi.1))
      · exact .inl (.inr (List.all_eq_false.2 ⟨c, hc, by simp [hi]⟩))
  · left
    cases n with
    | nil => rfl
    | cons a n =>
      simp only [isIdent, Bool.and_eq_false_iff, Bool.not_eq_false', List.contains_eq_mem, decide_eq_true_eq]
      exact .inr h
  · exact .inr h

/-- **C64 (refutation).** An `eval` of a field whose name is no identifier of Python, such as `a.b` or `in`,
is no program with the library. -/
theorem C64_name_raises {W x fs n} {s t : St} (hn : n ∈ fs.map (·.1)) (hb : BadKeyword n)
    (h : transform ⟨.allow, x⟩ (.eval fs) s = some t) : runDF W t.cur = none := by
  obtain ⟨ks, hk, rfl⟩ := eval_allow h
  have key : ∀ src, command W src c!"eval" [] ks = none := fun src => command_none fun pv vs hv hdd => by
    rw [distinct_name (n := n) (by rw [kwVals_keys hv, evalKwargs_keys hk]; exact hn) (bad_name hb)] at hdd
    cases hdd
  rw [run_putRuntime]
  split
  · exact key _
  · split
    · rfl
    · exact key _

/-- **C64.** With right-hand sides over the shared functions, different names that Python takes as keywords and none of them `df`,
`eval` after other commands makes the same rows with the library as without.
Missing: the other functions (C61, C62), and the four cases above, where it is false. -/
theorem C64_eval_partial {W x fs} {s s' : St} (hb : Before W s s') (h : ∀ p ∈ fs, Shared p.2)
    (hd : (fs.map (·.1)).Nodup) (hn : c!"df" ∉ fs.map (·.1)) (hk : ∀ n ∈ fs.map (·.1), Keyword n) :
    Agrees W x (.eval fs) s s' :=
  agrees_of (eval_runs sameRows_closed (by decide) hb.runs.1 hb.runs.2 h hd hn hk)

/-- `eval y=abs(x), z=x+1` after `table x` -/
def evalExample : List (Str × Expr) :=
  [(c!"y", .call c!"abs" [.const (.field c!"x")]), (c!"z", .binary (.const (.field c!"x")) c!"+" (.const (.int 1)))]

/-- the state after `table x`, the same in both translations -/
def afterTable : St := ⟨1, some (.select DF.default [.named c!"x"])⟩

theorem afterTable_before (W : World) : Before W afterTable afterTable :=
  ⟨_, _, _, rfl, rfl, rfl, SameRows.refl _⟩

theorem evalExample_shared : ∀ p ∈ evalExample, Shared p.2 := by
  intro p hp
  simp only [evalExample, List.mem_cons, List.not_mem_nil, or_false] at hp
  rcases hp with rfl | rfl
  · refine .call (by decide) fun a ha => ?_
    simp only [List.mem_singleton] at ha
    exact ha ▸ .const rfl
  · exact .binary (by decide) (.const rfl) (.const rfl) rfl rfl

example (W : World) : Agrees W Tests.ext (.eval evalExample) afterTable afterTable :=
  C64_eval_partial (afterTable_before W) evalExample_shared (by decide) (by decide) (by decide)
example (W : World) : ∃ t, transform ⟨.allow, Tests.ext⟩ (.eval evalExample) ⟨1, none⟩ = some t ∧ runDF W t.cur = none :=
  ⟨_, rfl, C64_first_raises (n := 1) (fs := evalExample) (x := Tests.ext) rfl⟩
example (W : World) : ∃ t, transform ⟨.allow, Tests.ext⟩ (.eval [(c!"a", .const (.int 1)), (c!"a", .const (.int 2))]) afterTable = some t ∧
    runDF W t.cur = none :=
  ⟨_, rfl, C64_repeated_raises (fs := [(c!"a", .const (.int 1)), (c!"a", .const (.int 2))]) (x := Tests.ext) (s := afterTable) (by decide) rfl⟩
example (W : World) : ∃ t, transform ⟨.allow, Tests.ext⟩ (.eval [(c!"df", .const (.int 1))]) afterTable = some t ∧ runDF W t.cur = none :=
  ⟨_, rfl, C64_df_raises (fs := [(c!"df", .const (.int 1))]) (x := Tests.ext) (s := afterTable) (by decide) rfl⟩

example (W : World) : ∃ t, transform ⟨.allow, Tests.ext⟩ (.eval [(c!"a.b", .const (.int 1))]) afterTable = some t ∧ runDF W t.cur = none :=
  ⟨_, rfl, C64_name_raises (fs := [(c!"a.b", .const (.int 1))]) (x := Tests.ext) (s := afterTable) (n := c!"a.b") (by decide)
    (.inl ⟨'.', by decide, by decide, by decide⟩) rfl⟩

/-! ### C65: `search` -/

/-- **C65.** A search by comparisons and `IN` lists, combined with AND, OR and NOT, keeps the same rows
of the frame before it with the library as without; no field is required to have two values.
Missing: bare words, wildcards in `=`, and the fields the library treats specially; see below. -/
theorem C65_filter_partial {W x e} {s s' : St} (hx : Arranges x) (hb : Before W s s') (h : Filter e)
    (hd : (testedFields e).Nodup) (hk : ∀ f ∈ testedFields e, Keyword f) : Agrees W x (.search e) s s' :=
  agrees_of (search_runs sameRows_closed (by decide) hx hb.runs.1 hb.runs.2 h hd hk)

/-- **C65.** A query that begins with `index=i` and such conditions reads the same rows, if the
settings map the index to the table of that name. -/
theorem C65_index_partial {W x e i n n'} (hx : Arranges x)
    (hW : W.lookup [(c!"index", .lit (c!"\"" ++ i ++ c!"\""))] = some (.source i)) (h : Indexed i e)
    (hd : (testedFields e).Nodup) (hk : ∀ f ∈ testedFields e, Keyword f) : Agrees W x (.search e) ⟨n, none⟩ ⟨n', none⟩ := by
  obtain ⟨t, t', h1, h2, h3, _⟩ := index_runs sameRows_closed (n := n) (n' := n') (m := .allow) (by decide) hx hW h hd hk
  exact agrees_of ⟨t, t', h1, h2, h3⟩

theorem strOf_plain {s : Str} (h : Plain '"' s = true) : strOf (c!"\"" ++ s ++ c!"\"") = some s := by
  have := Lemmas.pyString_plain (q := '"') (r := []) (.inl rfl) h (by intro c r h; cases h)
  unfold strOf
  rw [show c!"\"" ++ s ++ c!"\"" = '"' :: s ++ ['"'] from rfl, this]

/-- the delivered settings do so -/
theorem lookup_delivered {types i} (h : Plain '"' i = true) (h0 : i ≠ []) :
    (delivered types).lookup [(c!"index", .lit (c!"\"" ++ i ++ c!"\""))] = some (.source i) := by
  have h1 : textOf c!"index" [(c!"index", .lit (c!"\"" ++ i ++ c!"\""))] = some (some i) := by
    rw [textOf, show dictGet c!"index" [(c!"index", RV.lit (c!"\"" ++ i ++ c!"\""))] = some (.lit (c!"\"" ++ i ++ c!"\"")) from rfl]
    simp only [strVal, strOf_plain h, Option.map_some]
  have h2 : i.isEmpty = false := by cases i with
    | nil => exact absurd rfl h0
    | cons => rfl
  have h3 : textOf c!"source" [(c!"index", .lit (c!"\"" ++ i ++ c!"\""))] = some none := rfl
  have h4 : textOf c!"source_type" [(c!"index", .lit (c!"\"" ++ i ++ c!"\""))] = some none := rfl
  simp only [delivered, defaultLookup, h1, h2, h3, h4, truthy, Bool.not_false, if_true, Option.getD_some]
  rfl

theorem search_allow {x e} {s t : St} {pv kv ps ks} (h : transform ⟨.allow, x⟩ (.search e) s = some t)
    (hp : Parts .allow (breakAnds e) pv kv ps ks) :
    ∃ as kw, t = s.putRuntime c!"search" as kw ∧ argVals as = some pv ∧ kwVals kw = some kv := by
  obtain ⟨as, kw, h1, h2, h3⟩ := search_runtime (x := x) (s := s) (m := .allow) (by decide) hp
  rw [h, Option.some.injEq] at h1
  exact ⟨as, kw, h1, h2, h3⟩

/-- **C65 (refutation).** A query that begins with such a search but has no `index=` raises with the
library as delivered.  (Without the library it reads the table `main`.) -/
theorem C65_first_raises {types x e n} {t : St} (h : Filter e)
    (ht : transform ⟨.allow, x⟩ (.search e) ⟨n, none⟩ = some t) : runDF (delivered types) t.cur = none := by
  obtain ⟨q, pv, kv, ps, ks, h1, h2, h3, h4, h5, h6⟩ := filter_parts (m := .allow) h
  obtain ⟨as, kw, rfl, k2, k3⟩ := search_allow ht h3
  rw [run_putRuntime]
  refine command_none fun pv' vs hv _ => ⟨by simp, fun _ => ?_, by simp, by simp, by simp⟩
  rw [k3, Option.some.injEq] at hv
  subst hv
  have : (kv.filter fun p => searchParams.contains p.1) = [] := by
    rw [List.filter_eq_nil_iff]
    intro v hv hc
    simp only [List.contains_eq_mem, decide_eq_true_eq] at hc
    exact h5 v hv (reserved_params hc)
  have hl : searchSource (delivered types) none kv = none := by
    simp only [searchSource, this, given]
    rfl
  simp only [cmdSearch, hl]
  split <;> rfl

/-- **C65 (refutation).** `f=a f=b` raises with the library. -/
theorem C65_repeated_raises {W x e} {s t : St} (h : Filter e) (hd : ¬ (testedFields e).Nodup)
    (ht : transform ⟨.allow, x⟩ (.search e) s = some t) : runDF W t.cur = none := by
  obtain ⟨q, pv, kv, ps, ks, h1, h2, h3, h4, h5, h6⟩ := filter_parts (m := .allow) h
  obtain ⟨as, kw, rfl, k2, k3⟩ := search_allow ht h3
  have key : ∀ src, command W src c!"search" as kw = none := fun src => command_none fun pv' vs hv hdd => by
    rw [k3, Option.some.injEq] at hv
    subst hv
    rw [distinct_not (h4 ▸ hd)] at hdd
    cases hdd
  rw [run_putRuntime]
  split
  · exact key _
  · split
    · rfl
    · exact key _

/-- **C65 (refutation).** `f=a` for a field whose name is no identifier of Python is no program with the
library. -/
theorem C65_name_raises {W x e f} {s t : St} (h : Filter e) (hf : f ∈ testedFields e) (hb : BadKeyword f)
    (ht : transform ⟨.allow, x⟩ (.search e) s = some t) : runDF W t.cur = none := by
  obtain ⟨q, pv, kv, ps, ks, h1, h2, h3, h4, h5, h6⟩ := filter_parts (m := .allow) h
  obtain ⟨as, kw, rfl, k2, k3⟩ := search_allow ht h3
  have key : ∀ src, command W src c!"search" as kw = none := fun src => command_none fun pv' vs hv hdd => by
    rw [k3, Option.some.injEq] at hv
    subst hv
    rw [distinct_name (h4 ▸ hf) (bad_name hb)] at hdd
    cases hdd
  rw [run_putRuntime]
  split
  · exact key _
  · split
    · rfl
    · exact key _

/-- **C65 (refutation).** An `index=i` after other commands does not select the table `i` with the
library: the tables read stay those of the frame before, whereas the plain translation reads `i`. -/
theorem C65_index_ignored {W x e i d d'} {s s' : St} (hx : Arranges x) (h : Indexed i e) (hd : (testedFields e).Nodup)
    (hk : ∀ f ∈ testedFields e, Keyword f) (hs : s.df = some d) (hr : runDF W d = some d') :
    ∃ t t' f, transform ⟨.allow, x⟩ (.search e) s = some t ∧ transform ⟨.disallow, x⟩ (.search e) s' = some t' ∧
      runDF W t.cur = some f ∧ tablesRead f = tablesRead d' ∧ tablesRead t'.cur = [i] := by
  obtain ⟨c, pv, kv, ps, ks, h1, h2, h3, h4, h5, h6⟩ := indexed_parts (m := .allow) h
  obtain ⟨as, kw, k1, k2, k3⟩ := search_runtime (x := x) (s := s) (m := .allow) (by decide) h2
  have ho : x.order [i] = [i] := List.perm_singleton.1 (hx [i])
  have hrun : runDF W (s.putRuntime c!"search" as kw).cur = some (.where_ d' (allOf (ps ++ ks))) := by
    rw [run_putRuntime, hs]
    simp only [hr]
    rw [command_search k2 k3 (h3 ▸ hd) (h3 ▸ hk)]
    exact cmdSearch_some h2 h4
  cases c with
  | none =>
    refine ⟨_, s'.put (.source i), _, k1, ?_, hrun, rfl, rfl⟩
    simp only [transform, dispatch, searchStandalone, h1, dedupStr, List.filter_nil, ho, unionSources, List.foldl_nil, Option.getD_some]
  | some e' =>
    obtain ⟨_, q, hq, fq, cq⟩ := h6
    refine ⟨_, s'.put (.where_ (.source i) q), _, k1, ?_, hrun, rfl, rfl⟩
    simp only [transform, dispatch, searchStandalone, h1, dedupStr, List.filter_nil, ho, unionSources, List.foldl_nil, Option.getD_some,
      hq, Option.map_some, DF.mkWhere, fq.into, fq.1.2.1]

/-- **C65 (refutation).** A bare word is a boolean column with the library and a test of the raw text
without it. -/
theorem C65_word_is_column {W x w d d'} {s s' : St} (hx : Arranges x)
    (hs : s.df = some d) (hr : runDF W d = some d') (hs' : s'.df = some d') :
    ∃ t t', transform ⟨.allow, x⟩ (.search (.const (.field w))) s = some t ∧
      transform ⟨.disallow, x⟩ (.search (.const (.field w))) s' = some t' ∧
      runDF W t.cur = some (.where_ d' (.bin c!"&" (.lit c!"True") (.named w))) ∧
      t'.cur = .where_ d' (.method (.named c!"_raw") c!"ilike" [.py (c!"\"%" ++ w ++ c!"%\"")]) := by
  have ho : x.order [] = [] := List.perm_nil.1 (hx [])
  refine ⟨s.putRuntime c!"search" [.expr (.named w)] [], s'.put (.where_ d' (rawTest w)), rfl, ?_, ?_, ?_⟩
  · simp only [transform, dispatch, searchStandalone, splitConditions, dedupStr, ho, unionSources, Option.getD_none, exprTr, constTr,
      Option.map_some, St.cur, hs', Option.getD_some]
    rfl
  · rw [run_putRuntime, hs]
    simp only [hr]
    rfl
  · simp [St.put, St.cur, rawTest, PE.mkMethod, PE.unalias, pyStr]

/-- **C65 (refutation).** A test of one of the special fields after other commands is dropped with the
library. -/
theorem C65_special_dropped {W x f k v d d'} {s : St} (hf : (f, k) ∈ [(c!"source", c!"source"), (c!"sourcetype", c!"source_type"),
      (c!"host", c!"host"), (c!"hosttag", c!"host_tag"), (c!"eventtype", c!"event_type"), (c!"eventtypetag", c!"event_type_tag"),
      (c!"savedsplunk", c!"saved_splunk"), (c!"splunk_server", c!"splunk_server")])
    (hs : s.df = some d) (hr : runDF W d = some d') :
    ∃ t, transform ⟨.allow, x⟩ (.search (.binary (.const (.field f)) c!"=" (.const (.field v)))) s = some t ∧
      runDF W t.cur = some (.where_ d' (.lit c!"True")) := by
  refine ⟨s.putRuntime c!"search" [] [(k, .expr (pyStr v))], ?_, ?_⟩
  · simp only [List.mem_cons, List.not_mem_nil, or_false, Prod.mk.injEq] at hf
    rcases hf with ⟨rfl, rfl⟩ | ⟨rfl, rfl⟩ | ⟨rfl, rfl⟩ | ⟨rfl, rfl⟩ | ⟨rfl, rfl⟩ | ⟨rfl, rfl⟩ | ⟨rfl, rfl⟩ | ⟨rfl, rfl⟩ <;> rfl
  · rw [run_putRuntime, hs]
    simp only [hr]
    simp only [List.mem_cons, List.not_mem_nil, or_false, Prod.mk.injEq] at hf
    rcases hf with ⟨rfl, rfl⟩ | ⟨rfl, rfl⟩ | ⟨rfl, rfl⟩ | ⟨rfl, rfl⟩ | ⟨rfl, rfl⟩ | ⟨rfl, rfl⟩ | ⟨rfl, rfl⟩ | ⟨rfl, rfl⟩ <;> rfl

/-- `x=1 (y>2 OR NOT z IN (3, 4))` -/
def filterExample : Expr :=
  .binary (.binary (.const (.field c!"x")) c!"=" (.const (.int 1))) c!"AND"
    (.binary (.binary (.const (.field c!"y")) c!">" (.const (.int 2))) c!"OR"
      (.unary c!"NOT" (.fieldIn c!"z" [.const (.int 3), .const (.int 4)])))

theorem filterExample_ok : Filter filterExample :=
  .and (.cmp (by decide) (by decide) rfl) (.or (.cmp (by decide) (by decide) rfl) (.not (.inList (by decide) (by decide))))

/-- `index=web` with it -/
def indexedExample : Expr :=
  .binary (.binary (.const (.field c!"index")) c!"=" (.const (.field c!"web"))) c!"AND" filterExample

theorem indexedExample_ok : Indexed c!"web" indexedExample := .left (.index (.inl rfl) (by decide)) filterExample_ok

theorem arranges_id : Arranges Tests.ext := fun _ => List.Perm.refl _

example (W : World) : ∃ t t', transform ⟨.allow, Tests.ext⟩ (.search (.const (.field c!"error"))) afterTable = some t ∧
    transform ⟨.disallow, Tests.ext⟩ (.search (.const (.field c!"error"))) afterTable = some t' ∧
    runDF W t.cur = some (.where_ (.select DF.default [.named c!"x"]) (.bin c!"&" (.lit c!"True") (.named c!"error"))) ∧
    t'.cur = .where_ (.select DF.default [.named c!"x"]) (.method (.named c!"_raw") c!"ilike" [.py c!"\"%error%\""]) :=
  C65_word_is_column (s := afterTable) (s' := afterTable) arranges_id rfl rfl rfl
example (W : World) : ∃ t, transform ⟨.allow, Tests.ext⟩ (.search (.binary (.const (.field c!"host")) c!"=" (.const (.field c!"a")))) afterTable = some t ∧
    runDF W t.cur = some (.where_ (.select DF.default [.named c!"x"]) (.lit c!"True")) :=
  C65_special_dropped (k := c!"host") (s := afterTable) (by decide) rfl rfl
example (W : World) : Agrees W Tests.ext (.search filterExample) afterTable afterTable :=
  C65_filter_partial arranges_id (afterTable_before W) filterExample_ok (by decide) (by decide)
example (types) : Agrees (delivered types) Tests.ext (.search indexedExample) ⟨1, none⟩ ⟨1, none⟩ :=
  C65_index_partial arranges_id (lookup_delivered (by decide) (by decide)) indexedExample_ok (by decide) (by decide)
example (types) : ∃ t, transform ⟨.allow, Tests.ext⟩ (.search filterExample) ⟨1, none⟩ = some t ∧ runDF (delivered types) t.cur = none :=
  ⟨_, rfl, C65_first_raises (x := Tests.ext) (n := 1) filterExample_ok rfl⟩
example (W : World) : ∃ t, transform ⟨.allow, Tests.ext⟩ (.search (.binary filterExample c!"AND" filterExample)) afterTable = some t ∧
    runDF W t.cur = none :=
  ⟨_, rfl, C65_repeated_raises (x := Tests.ext) (s := afterTable) (.and filterExample_ok filterExample_ok) (by decide) rfl⟩
example (W : World) : ∃ t, transform ⟨.allow, Tests.ext⟩ (.search (.binary (.const (.field c!"user.name")) c!"=" (.const (.int 1)))) afterTable = some t ∧
    runDF W t.cur = none :=
  ⟨_, rfl, C65_name_raises (x := Tests.ext) (s := afterTable) (f := c!"user.name") (.cmp (f := c!"user.name") (op := c!"=") (k := .int 1) (by decide) (by decide) rfl)
    (by decide) (.inl ⟨'.', by decide, by decide, by decide⟩) rfl⟩
example (W : World) : ∃ t t' f, transform ⟨.allow, Tests.ext⟩ (.search indexedExample) afterTable = some t ∧
    transform ⟨.disallow, Tests.ext⟩ (.search indexedExample) afterTable = some t' ∧ runDF W t.cur = some f ∧
    tablesRead f = [c!"main"] ∧ tablesRead t'.cur = [c!"web"] :=
  C65_index_ignored (s := afterTable) (s' := afterTable) arranges_id indexedExample_ok (by decide) (by decide) rfl rfl

/-! ### C66: `stats` -/

/-- statistics that the plain translation knows and the library does not have -/
def missingStats : List Str := [c!"sum", c!"list", c!"stdevp"]

/-- ... among them every percentile with a number, such as `percentile95` -/
def MissingStat (name : Str) : Prop :=
  name ∈ missingStats ∨ ∃ p ∈ [c!"exactperc", c!"percentile", c!"upperperc"], ∃ ds, ds ≠ [] ∧ ds.all isDig = true ∧ name = p ++ ds

theorem lookupLib_none {α} {name : Str} : ∀ {l : List (Str × α)}, name ∉ l.map (·.1) → lookupLib name l = none
  | [], _ => rfl
  | (k, v) :: l, h => by
    simp only [List.map_cons, List.mem_cons, not_or] at h
    rw [lookupLib, if_neg (Ne.symm h.1), lookupLib_none h.2]

theorem missing_lookup {name : Str} (h : MissingStat name) : lookupLib name libStats = none := by
  apply lookupLib_none
  rcases h with h | ⟨p, hp, ds, h0, _, rfl⟩
  · revert name; decide
  · intro hm
    simp only [List.mem_cons, List.not_mem_nil, or_false] at hp
    rcases hp with rfl | rfl | rfl <;> simp [libStats] at hm <;> exact h0 hm

theorem stats_allow {x o fs bys dd} {s t : St} (h : transform ⟨.allow, x⟩ (.stats o fs bys dd) s = some t) :
    ∃ ks, statsRuntimeExprs .allow fs = some ks ∧ t = s.putRuntime c!"stats" [] (byKwarg bys ++ ks) := by
  simp only [transform, dispatch, statsRuntime, statsStandalone] at h
  cases hk : statsRuntimeExprs .allow fs with
  | none => simp [hk, Lemmas.statsLoop_none _ hk, orElse] at h
  | some ks =>
    simp only [hk, Option.map_some, orElse, Option.some.injEq] at h
    exact ⟨ks, rfl, h.symm⟩

theorem kwVals_none : ∀ {ks : List (Str × RE)} {k e}, (k, e) ∈ ks → reVal e = none → kwVals ks = none
  | (k', e') :: ks, k, e, h, hn => by
    rcases List.mem_cons.1 h with h | h
    · simp only [Prod.mk.injEq] at h
      obtain ⟨rfl, rfl⟩ := h
      simp only [kwVals, hn]
    · simp only [kwVals, kwVals_none h hn]
      cases reVal e' <;> rfl

theorem statsExprs_mem {m} : ∀ {fs : List Expr} {ks}, statsRuntimeExprs m fs = some ks → ∀ f ∈ fs, ∃ k ∈ ks, statsRuntimeExpr m f = some k
  | f :: fs, ks, h, g, hg => by
    simp only [statsRuntimeExprs] at h
    split at h
    · cases h
    · rename_i k hk
      split at h
      · cases h
      · rename_i ks' hks
        simp only [Option.some.injEq] at h
        subst h
        rcases List.mem_cons.1 hg with rfl | hg
        · exact ⟨k, List.mem_cons_self, hk⟩
        · obtain ⟨k', hk', e⟩ := statsExprs_mem hks g hg
          exact ⟨k', List.mem_cons_of_mem _ hk', e⟩

/-- the function and the arguments of a statistic -/
def statCall : Expr → Option (Str × List Expr)
  | .call name args => some (name, args)
  | .alias e _ => statCall e
  | _ => none

theorem statCall_unalias : ∀ {e : Expr} {name args}, statCall e = some (name, args) → ∃ a, e.unaliasName = (.call name args, a)
  | .call n as, name, args, h => by
    simp only [statCall, Option.some.injEq, Prod.mk.injEq] at h
    obtain ⟨rfl, rfl⟩ := h
    exact ⟨none, rfl⟩
  | .alias e l, name, args, h => by
    rw [statCall] at h
    obtain ⟨a, ha⟩ := statCall_unalias h
    exact ⟨some l, by simp only [Expr.unaliasName, ha]⟩
  | .const _, _, _, h | .fv .., _, _, h | .fb .., _, _, h | .fc .., _, _, h | .unary .., _, _, h | .binary .., _, _, h
  | .fieldIn .., _, _, h | .timeModifier _, _, _, h | .searchModifier _, _, _, h | .subSearch _, _, _, h
  | .aliasedField .., _, _, h => by cases h

theorem evalRts_length : ∀ {ps : List PE} {vs}, evalRts ps = some vs → vs.length = ps.length
  | [], vs, h => by simp only [evalRts, Option.some.injEq] at h; subst h; rfl
  | p :: ps, vs, h => by
    simp only [evalRts] at h
    split at h
    · rename_i v vs' _ hv
      simp only [Option.some.injEq] at h
      subst h
      simp only [List.length_cons, evalRts_length hv]
    · cases h

theorem exprsTr_length {m} : ∀ {es : List Expr} {ps}, exprsTr m es = some ps → ps.length = es.length
  | [], ps, h => by simp only [exprsTr, Option.some.injEq] at h; subst h; rfl
  | e :: es, ps, h => by
    simp only [exprsTr] at h
    split at h
    · cases h
    · split at h
      · cases h
      · rename_i cs hcs
        simp only [Option.some.injEq] at h
        subst h
        simp only [List.length_cons, exprsTr_length hcs]

/-- a statistic whose call raises makes the whole command raise -/
theorem stat_raises {W x o fs bys dd f name args} {s t : St} (hf : f ∈ fs) (hc : statCall f = some (name, args))
    (hn : ∀ vs, vs.length = args.length → statsCall name vs = none)
    (h : transform ⟨.allow, x⟩ (.stats o fs bys dd) s = some t) : runDF W t.cur = none := by
  obtain ⟨ks, hk, rfl⟩ := stats_allow h
  obtain ⟨⟨l, e⟩, he, hre⟩ := statsExprs_mem hk f hf
  obtain ⟨a, ha⟩ := statCall_unalias hc
  have hv : reVal e = none := by
    simp only [statsRuntimeExpr, ha, Option.map_eq_some_iff, Prod.mk.injEq] at hre
    obtain ⟨xs, hxs, _, rfl⟩ := hre
    simp only [reVal, evalRt, Option.map_eq_none_iff]
    cases hr : evalRts xs with
    | none => rfl
    | some vs =>
      simp only [rtFn_stats]
      exact hn vs (by rw [evalRts_length hr, exprsTr_length hxs])
  have key : ∀ src, command W src c!"stats" [] (byKwarg bys ++ ks) = none := fun src => by
    simp only [command, kwVals_none (List.mem_append_right _ he) hv, argVals]
  rw [run_putRuntime]
  split
  · exact key _
  · split
    · rfl
    · exact key _

/-- **C66 (refutation).** `stats` with `sum`, `list`, `stdevp` or a numbered percentile raises with the
library, whatever the arguments. -/
theorem C66_missing_raises {W x o fs bys dd f name args} {s t : St} (hf : f ∈ fs) (hc : statCall f = some (name, args))
    (hn : MissingStat name) (h : transform ⟨.allow, x⟩ (.stats o fs bys dd) s = some t) : runDF W t.cur = none :=
  stat_raises hf hc (fun vs _ => by simp only [statsCall, missing_lookup hn]) h

/-- **C66 (refutation).** `count(x)` raises with the library. -/
theorem C66_count_raises {W x o fs bys dd f a args} {s t : St} (hf : f ∈ fs) (hc : statCall f = some (c!"count", a :: args))
    (h : transform ⟨.allow, x⟩ (.stats o fs bys dd) s = some t) : runDF W t.cur = none :=
  stat_raises hf hc (fun vs hv => by
    cases vs with
    | nil => cases hv
    | cons v vs => rfl) h

/-- the label of a statistic -/
def statLabel : Expr → Option Str
  | .call name _ => some name
  | .alias _ label => some label
  | _ => none

/-- **C66 (refutation).** A statistic labelled with a name that is no identifier of Python, as in
`stats count as a.b`, is no program with the library. -/
theorem C66_label_raises {W x o fs bys dd f l} {s t : St} (hf : f ∈ fs) (hl : statLabel f = some l) (hb : BadKeyword l)
    (h : transform ⟨.allow, x⟩ (.stats o fs bys dd) s = some t) : runDF W t.cur = none := by
  obtain ⟨ks, hk, rfl⟩ := stats_allow h
  obtain ⟨⟨l', e⟩, he, hre⟩ := statsExprs_mem hk f hf
  have hll : l' = l := by
    match f, hl with
    | .call name args, hl =>
      simp only [statLabel, Option.some.injEq] at hl
      simp only [statsRuntimeExpr, Expr.unaliasName, Option.map_eq_some_iff, Prod.mk.injEq, Option.getD_none] at hre
      obtain ⟨_, _, h, _⟩ := hre
      exact h.symm.trans hl
    | .alias e label, hl =>
      simp only [statLabel, Option.some.injEq] at hl
      simp only [statsRuntimeExpr, Expr.unaliasName] at hre
      split at hre
      · rename_i heq
        simp only [Prod.mk.injEq] at heq
        simp only [← heq.2, Option.map_eq_some_iff, Prod.mk.injEq, Option.getD_some] at hre
        obtain ⟨_, _, h, _⟩ := hre
        exact h.symm.trans hl
      · cases hre
  subst hll
  have key : ∀ src, command W src c!"stats" [] (byKwarg bys ++ ks) = none := fun src => command_none fun pv vs hv hdd => by
    rw [distinct_name (n := l') (by
      rw [kwVals_keys hv]
      exact List.mem_map.2 ⟨_, List.mem_append_right _ he, rfl⟩) (bad_name hb)] at hdd
    cases hdd
  rw [run_putRuntime]
  split
  · exact key _
  · split
    · rfl
    · exact key _

example (W : World) (o) : ∃ t, transform ⟨.allow, Tests.ext⟩ (.stats o [.alias (.call c!"count" []) c!"a.b"] none false) afterTable = some t ∧
    runDF W t.cur = none :=
  ⟨_, rfl, C66_label_raises (x := Tests.ext) (o := o) (bys := none) (dd := false) (s := afterTable) (l := c!"a.b")
    (fs := [.alias (.call c!"count" []) c!"a.b"]) List.mem_cons_self rfl (.inl ⟨'.', by decide, by decide, by decide⟩) rfl⟩

/-- **C66 (refutation).** A query that begins with `stats` raises with the library. -/
theorem C66_first_raises {W x o fs bys dd n} {t : St} (h : transform ⟨.allow, x⟩ (.stats o fs bys dd) ⟨n, none⟩ = some t) :
    runDF W t.cur = none := by
  obtain ⟨ks, _, rfl⟩ := stats_allow h
  rw [run_putRuntime]
  exact command_none fun pv vs _ _ => ⟨by simp, by simp, fun _ => rfl, by simp, by simp⟩

/-- **C66 (refutation).** `dc` and `distinct_count` count exactly without the library and approximately
with it. -/
theorem C66_distinct_count_differs {W x o dd a name} {s s' : St} {d d' : DF} (hn : name = c!"dc" ∨ name = c!"distinct_count")
    (ha : Shared a) (hs : s.df = some d) (hr : runDF W d = some d') (hs' : s'.df = some d') :
    ∃ t t' q, transform ⟨.allow, x⟩ (.stats o [.call name [a]] none dd) s = some t ∧
      transform ⟨.disallow, x⟩ (.stats o [.call name [a]] none dd) s' = some t' ∧
      runDF W t.cur = some (.agg (.groupBy d' []) [.aliased (.fn c!"approx_count_distinct" [q]) name]) ∧
      t'.cur = .agg (.groupBy d' []) [.aliased (.fn c!"count_distinct" [q]) name] := by
  obtain ⟨ps, vs, qs, h1, h2, h3, h4⟩ := exprs_of (m := .allow) (args := [a]) (by decide) (by
    intro b hb
    simp only [List.mem_singleton] at hb
    exact hb ▸ ha)
  have hl : qs.length = 1 := by rw [← mapArgs_length h3, argsTr_length]; rfl
  obtain ⟨q, rfl⟩ := List.length_eq_one_iff.1 hl
  obtain ⟨v, rfl, hv⟩ := h4.one
  have hcol : ∃ b, argsTr .disallow [a] = [b] ∧ b.col = some q := ⟨_, rfl, mapArgs_one h3⟩
  obtain ⟨b, hb, hbq⟩ := hcol
  have hex : ∀ nm : Str, nm = c!"dc" ∨ nm = c!"distinct_count" → evalRt (.fn (c!"functions.stats." ++ nm) ps) =
      some (.agg false (some (.fn c!"approx_count_distinct" [q]))) := by
    intro nm hnm
    simp only [evalRt, h2, rtFn_stats, statsCall]
    rcases hnm with rfl | rfl
    · rw [show lookupLib c!"dc" libStats = some (stat1 c!"approx_count_distinct") from rfl]
      simp [stat1, bindArgs, bindRest, hv.conv]
    · rw [show lookupLib c!"distinct_count" libStats = some (stat1 c!"approx_count_distinct") from rfl]
      simp [stat1, bindArgs, bindRest, hv.conv]
  have hpl : ∀ nm : Str, nm = c!"dc" ∨ nm = c!"distinct_count" → statsFnBareCol nm [b] = some (.aliased (.fn c!"count_distinct" [q]) nm) := by
    intro nm hnm
    rcases hnm with rfl | rfl
    · rw [statsFnBareCol, show statsSpec c!"dc" = some (fn1 c!"dc" c!"count_distinct") from rfl]
      simp [FnSpec.apply, fn1, FnSpec.one, bindParams, bindParam, hbq, PE.withAlias, PE.unalias]
    · rw [statsFnBareCol, show statsSpec c!"distinct_count" = some (fn1 c!"distinct_count" c!"count_distinct") from rfl]
      simp [FnSpec.apply, fn1, FnSpec.one, bindParams, bindParam, hbq, PE.withAlias, PE.unalias]
  have hsort : statsSorts name = false := by rcases hn with rfl | rfl <;> rfl
  refine ⟨s.putRuntime c!"stats" [] [(name, .expr (.fn (c!"functions.stats." ++ name) ps))],
    s'.put (.agg (.groupBy d' []) [.aliased (.fn c!"count_distinct" [q]) name]), q, ?_, ?_, ?_, rfl⟩
  · simp only [transform, dispatch, statsRuntime, statsRuntimeExprs, statsRuntimeExpr, Expr.unaliasName, h1, Option.map_some,
      Option.getD_none, byKwarg, List.nil_append, orElse]
  · simp only [transform, dispatch, statsStandalone, statsLoop, statsExpr, Expr.unaliasName, statsFn, statsFnBare, hb, hpl name hn,
      Option.map_some, hsort, St.cur, hs', Option.getD_some, PE.maybeAlias, Option.getD_none, List.map_nil]
    rfl
  · rw [run_putRuntime, hs]
    simp only [hr, command, argVals, kwVals, reVal, hex name hn, Option.map_some]
    rcases hn with rfl | rfl <;> rfl

/-- **C66.** With the shared statistics, different labels and none of them `df` or `by`, `stats` after
other commands computes the same rows with the library as without, with any BY list.
Missing: the other statistics, see above. -/
theorem C66_stats_partial {W x o fs ls bys dd} {s s' : St} (hb : Before W s s') (h0 : fs ≠ []) (h : SharedStats fs ls)
    (hd : ls.Nodup) (h1 : c!"df" ∉ ls) (h2 : c!"by" ∉ ls) (hk : ∀ l ∈ ls, Keyword l) : Agrees W x (.stats o fs bys dd) s s' :=
  agrees_of (stats_runs sameRows_closed (by decide) hb.runs.1 hb.runs.2 h0 h hd h1 h2 hk fun _ _ => trivial)

/-- `stats count, max(x) as top, latest(len(y))` -/
def statsExample : List Expr :=
  [.call c!"count" [], .alias (.call c!"max" [.const (.field c!"x")]) c!"top",
    .call c!"latest" [.call c!"len" [.const (.field c!"y")]]]

theorem statsExample_ok : SharedStats statsExample [c!"count", c!"top", c!"latest"] := by
  refine .cons (.plain (by decide) (by simp)) (.cons (.named (by decide) ?_) (.cons (.plain (by decide) ?_) .nil))
  · intro a ha
    simp only [List.mem_singleton] at ha
    exact ha ▸ .const rfl
  · intro a ha
    simp only [List.mem_singleton] at ha
    subst ha
    refine .call (by decide) fun a ha => ?_
    simp only [List.mem_singleton] at ha
    exact ha ▸ .const rfl

example (W : World) (o) : Agrees W Tests.ext (.stats o statsExample (some [⟨c!"host", none⟩]) false) afterTable afterTable :=
  C66_stats_partial (afterTable_before W) (by decide) statsExample_ok (by decide) (by decide) (by decide) (by decide)
example : MissingStat c!"percentile95" := .inr ⟨c!"percentile", by decide, c!"95", by decide, by decide, rfl⟩
example (W : World) (o) : ∃ t, transform ⟨.allow, Tests.ext⟩ (.stats o [.alias (.call c!"sum" [.const (.field c!"x")]) c!"s"] none false) afterTable = some t ∧
    runDF W t.cur = none :=
  ⟨_, rfl, C66_missing_raises (x := Tests.ext) (o := o) (bys := none) (dd := false) (s := afterTable)
    (fs := [.alias (.call c!"sum" [.const (.field c!"x")]) c!"s"]) List.mem_cons_self rfl (.inl (by decide)) rfl⟩
example (W : World) (o) : ∃ t, transform ⟨.allow, Tests.ext⟩ (.stats o [.call c!"count" [.const (.field c!"x")]] none false) afterTable = some t ∧
    runDF W t.cur = none :=
  ⟨_, rfl, C66_count_raises (x := Tests.ext) (o := o) (bys := none) (dd := false) (s := afterTable)
    (fs := [.call c!"count" [.const (.field c!"x")]]) List.mem_cons_self rfl rfl⟩
example (W : World) (o) : ∃ t t' q, transform ⟨.allow, Tests.ext⟩ (.stats o [.call c!"dc" [.const (.field c!"x")]] none false) afterTable = some t ∧
    transform ⟨.disallow, Tests.ext⟩ (.stats o [.call c!"dc" [.const (.field c!"x")]] none false) afterTable = some t' ∧
    runDF W t.cur = some (.agg (.groupBy (.select DF.default [.named c!"x"]) []) [.aliased (.fn c!"approx_count_distinct" [q]) c!"dc"]) ∧
    t'.cur = .agg (.groupBy (.select DF.default [.named c!"x"]) []) [.aliased (.fn c!"count_distinct" [q]) c!"dc"] :=
  C66_distinct_count_differs (s := afterTable) (s' := afterTable) (.inl rfl) (.const rfl) rfl rfl rfl
example (W : World) (o) : ∃ t, transform ⟨.allow, Tests.ext⟩ (.stats o statsExample none false) ⟨1, none⟩ = some t ∧ runDF W t.cur = none :=
  ⟨_, rfl, C66_first_raises (x := Tests.ext) (o := o) (bys := none) (dd := false) (fs := statsExample) (n := 1) rfl⟩

/-! ### C67: `datamodel`, `tstats`, `fillnull` -/

/-- **C67 (refutation).** `datamodel` always raises with the library. -/
theorem C67_data_model_raises {W x a} {s t : St} (h : transform ⟨.allow, x⟩ (.dataModel a) s = some t) : runDF W t.cur = none := by
  simp only [transform, dataModelTr, dispatch, dataModelRuntime, orElse, Option.some.injEq] at h
  subst h
  rw [run_putRuntime]
  have key : ∀ src ks, command W src c!"data_model" [] ks = none := fun src ks =>
    command_none fun pv vs _ _ => ⟨by simp, by simp, by simp, by simp, by simp⟩
  split
  · exact key _ _
  · split
    · rfl
    · exact key _ _

/-- **C67 (refutation).** `fillnull` at the beginning of a query raises with the library. -/
theorem C67_fillnull_first_raises {W x v fs n} {t : St} (h : transform ⟨.allow, x⟩ (.fillNull v fs) ⟨n, none⟩ = some t) :
    runDF W t.cur = none := by
  simp only [transform, dispatch, fillNullRuntime, orElse, Option.some.injEq] at h
  subst h
  rw [run_putRuntime]
  exact command_none fun pv vs _ _ => ⟨by simp, by simp, by simp, fun _ => rfl, by simp⟩

theorem tstats_allow {x o es dm nn w bf bp} {s t : St} (h : transform ⟨.allow, x⟩ (.tstats o es dm nn w bf bp) s = some t) :
    tstatsRuntime .allow o es dm nn w bf s = some t := by
  simp only [transform, dispatch] at h
  cases hr : tstatsRuntime .allow o es dm nn w bf s with
  | none => simp [hr, orElse, Lemmas.tstats_none hr] at h
  | some u => simpa [hr, orElse] using h

/-- **C67 (refutation).** `tstats` after another command raises with the library. -/
theorem C67_tstats_late_raises {W x o es dm nn w bf bp d} {s t : St} (hs : s.df = some d)
    (h : transform ⟨.allow, x⟩ (.tstats o es dm nn w bf bp) s = some t) : runDF W t.cur = none := by
  have h := tstats_allow h
  simp only [tstatsRuntime] at h
  split at h
  · split at h
    · cases h
    · simp only [Option.map_eq_some_iff] at h
      obtain ⟨ks, _, rfl⟩ := h
      rw [run_putRuntime, hs]
      simp only
      split
      · rfl
      · exact command_none fun pv vs _ _ => ⟨by simp, by simp, by simp, by simp, fun _ => rfl⟩
  · cases h

/-- **C67 (refutation).** The PREFIX of a `tstats` BY clause is lost with the library: the program is the
one without it. -/
theorem C67_tstats_prefix_lost {x o es dm nn w bf p} {s t : St} (h : transform ⟨.allow, x⟩ (.tstats o es dm nn w bf (some p)) s = some t) :
    transform ⟨.allow, x⟩ (.tstats o es dm nn w bf none) s = some t := by
  simp only [transform, dispatch, tstats_allow h, orElse]

/-! #### `fillnull` -/

theorem setCol_cell {V : Type} {null v : V} {n k : Str} (h : k ≠ n) : ∀ r : Row V, cell null (setCol n v r) k = cell null r k
  | [] => by simp [setCol, cell, Ne.symm h]
  | (m, w) :: r => by
    rw [setCol]
    split
    · rename_i hm
      subst hm
      simp only [cell, Ne.symm h, if_false]
    · simp only [cell, setCol_cell h r]

theorem fillCols_rows {V : Type} (S : Spark V) {types code k} : ∀ {fs : List Str} {d e}, k ∉ fs → fillCols types code fs d = some e →
    (S.meaning e).map (fun r => cell S.null r k) = (S.meaning d).map (fun r => cell S.null r k)
  | [], d, e, _, h => by simp only [fillCols, Option.some.injEq] at h; subst h; rfl
  | f :: fs, d, e, hk, h => by
    simp only [fillCols] at h
    split at h
    · cases h
    · simp only [List.mem_cons, not_or] at hk
      rw [fillCols_rows S hk.2 h]
      simp only [Spark.meaning, List.map_map]
      refine List.map_congr_left fun r _ => ?_
      exact setCol_cell hk.1 r

theorem fillCols_total {types code} : ∀ {fs : List Str} (d), (∀ f ∈ fs, (typeOf f types).isSome = true) → ∃ e, fillCols types code fs d = some e
  | [], d, _ => ⟨d, rfl⟩
  | f :: fs, d, h => by
    obtain ⟨t, ht⟩ := Option.isSome_iff_exists.1 (h f List.mem_cons_self)
    simp only [fillCols, ht]
    exact fillCols_total _ fun g hg => h g (List.mem_cons_of_mem _ hg)

theorem listStrs_ok : ∀ {fs : List Str}, (∀ f ∈ fs, Plain '"' f = true) → evalRts (fs.map pyStr) = some (fs.map fun f => .lit (c!"\"" ++ f ++ c!"\"")) ∧
    listStrs (fs.map fun f => .lit (c!"\"" ++ f ++ c!"\"")) = some fs
  | [], _ => ⟨rfl, rfl⟩
  | f :: fs, h => by
    obtain ⟨h1, h2⟩ := listStrs_ok fun g hg => h g (List.mem_cons_of_mem _ hg)
    refine ⟨?_, ?_⟩
    · simp only [List.map_cons, evalRts, pyStr, evalRt] at h1 ⊢
      rw [h1]
    · simp only [List.map_cons, listStrs, strOf_plain (h f List.mem_cons_self), h2]

/-- **C67.** With the library, `fillnull value=v f1 f2 ...` after other commands runs when the fields are
columns of the frame, keeps the number and order of the rows, and leaves every column other than the
listed ones as it was.  (Without the library the list is ignored, see C38.)
Missing: what is written into the listed columns, which depends on `cast`; the claim for `datamodel`,
`tstats` and a first `fillnull`, where it is false. -/
theorem C67_fillnull_partial {W x v fs d d'} {s : St} (hs : s.df = some d) (hr : runDF W d = some d') (hv : Plain '"' v = true)
    (hp : ∀ f ∈ fs, Plain '"' f = true) (hf : ∀ f ∈ fs, (typeOf f (W.types d')).isSome = true) :
    ∃ t e, transform ⟨.allow, x⟩ (.fillNull v (some fs)) s = some t ∧ runDF W t.cur = some e ∧
      ∀ (V : Type) (S : Spark V) (k : Str), k ∉ fs →
        (S.meaning e).map (fun r => cell S.null r k) = (S.meaning d').map (fun r => cell S.null r k) := by
  obtain ⟨e, he⟩ := fillCols_total (code := c!"\"" ++ v ++ c!"\"") d' hf
  obtain ⟨h1, h2⟩ := listStrs_ok hp
  refine ⟨s.putRuntime c!"fill_null" [] [(c!"value", .expr (pyStr v)), (c!"fields", .list (fs.map pyStr))], e, rfl, ?_,
    fun V S k hk => fillCols_rows S hk he⟩
  rw [run_putRuntime, hs]
  have hkw : kwVals [(c!"value", .expr (pyStr v)), (c!"fields", .list (fs.map pyStr))] =
      some [(c!"value", .val (.lit (c!"\"" ++ v ++ c!"\""))), (c!"fields", .list (fs.map fun f => .lit (c!"\"" ++ f ++ c!"\"")))] := by
    simp only [kwVals, reVal, h1, Option.map_some, pyStr, evalRt]
  simp only [hr, command, argVals, hkw]
  have hd : ∀ a b : PV, distinct [(c!"value", a), (c!"fields", b)] = true := fun _ _ => rfl
  simp only [hd, if_true]
  rw [if_neg (by decide), if_neg (by decide), if_neg (by decide)]
  have g1 : ∀ a b : PV, kwGet c!"value" [(c!"value", a), (c!"fields", b)] = some a := fun _ _ => rfl
  have g2 : ∀ a b : PV, kwGet c!"fields" [(c!"value", a), (c!"fields", b)] = some b := fun _ _ => rfl
  have g3 : ∀ a b : PV, (others [c!"value", c!"fields"] [(c!"value", a), (c!"fields", b)]).isEmpty = true := fun _ _ => rfl
  simp only [cmdFillNull, g1, g2, g3, List.isEmpty_nil, Bool.and_self, if_true, strOf_plain hv, Option.isSome_some, fillFields, h2, he]

example : ∃ t e, transform ⟨.allow, Tests.ext⟩ (.fillNull c!"0" (some [c!"x"])) afterTable = some t ∧
    runDF (delivered fun _ => [(c!"x", c!"string"), (c!"y", c!"string")]) t.cur = some e ∧
      ∀ (V : Type) (S : Spark V) (k : Str), k ∉ [c!"x"] →
        (S.meaning e).map (fun r => cell S.null r k) = (S.meaning (DF.select DF.default [.named c!"x"])).map (fun r => cell S.null r k) :=
  C67_fillnull_partial (s := afterTable) rfl rfl (by decide) (by decide) (by decide)

/-! #### `tstats` as the first command -/

theorem joinWith_cons {sep x : Str} : ∀ {l : List Str}, l ≠ [] → joinWith sep (x :: l) = x ++ sep ++ joinWith sep l
  | [], h => absurd rfl h
  | _ :: _, _ => rfl

theorem joinWith_append {sep : Str} {b : List Str} (hb : b ≠ []) : ∀ {a : List Str}, a ≠ [] →
    joinWith sep (a ++ b) = joinWith sep a ++ sep ++ joinWith sep b
  | [], h => absurd rfl h
  | [x], _ => joinWith_cons hb
  | x :: y :: a, _ => by
    have := joinWith_append (sep := sep) hb (a := y :: a) (by simp)
    simp only [List.cons_append] at this ⊢
    simp only [joinWith, this, List.append_assoc]

theorem split_ne_nil {c : Char} : ∀ s : Str, splitOnC c s ≠ []
  | [] => by simp [splitOnC]
  | x :: s => by
    rw [splitOnC]
    split
    · simp
    · split <;> simp

theorem join_split {c : Char} : ∀ s : Str, joinWith [c] (splitOnC c s) = s
  | [] => rfl
  | x :: s => by
    have ih := join_split (c := c) s
    rw [splitOnC]
    split
    · rename_i h
      rw [joinWith_cons (split_ne_nil s), ih, h]; rfl
    · split
      · rename_i h; exact absurd h (split_ne_nil s)
      · rename_i y ys h
        rw [h] at ih
        cases ys with
        | nil => simp only [joinWith] at ih ⊢; rw [ih]
        | cons z zs => simp only [joinWith, List.cons_append] at ih ⊢; rw [ih]

theorem split_dotted {c : Char} : ∀ {s : Str}, c ∈ s → (splitOnC c s).drop 1 ≠ []
  | x :: s, h => by
    rw [splitOnC]
    split
    · simpa using split_ne_nil s
    · rename_i hx
      have hs : c ∈ s := by
        rcases List.mem_cons.1 h with h | h
        · exact absurd h.symm hx
        · exact h
      have ih := split_dotted hs
      split
      · rename_i h; exact absurd h (split_ne_nil s)
      · rename_i h
        rw [h] at ih
        exact ih

/-- the table of a data model and a node: both sides agree when the node has a dot -/
theorem modelTable_eq {m : Str} {nn : Option Str} (h : ∀ k, nn = some k → '.' ∈ k) : dataModelTable (some m) nn = some (modelTable m nn) := by
  cases nn with
  | none =>
    have h0 : (splitOnC '.' ([] : Str)).drop 1 = [] := rfl
    simp only [dataModelTable, modelTable, Option.getD_none, h0, List.append_nil]
    rw [show c!"." = ['.'] from rfl, join_split]
  | some k =>
    have hk := split_dotted (h k rfl)
    simp only [dataModelTable, modelTable, Option.getD_some]
    rw [joinWith_append hk (split_ne_nil m)]
    rw [show c!"." = ['.'] from rfl, join_split]

/-- **C67.** `tstats` as the first command, without `fillnull_value`, with shared statistics and filter,
computes the same rows with the library as without.
Missing: `fillnull_value`, PREFIX (see above), nodes without a dot (see below). -/
theorem C67_tstats_partial {W x o es ls m nn w bf n n'} (o1 : o.prestats = false) (o2 : o.local = false) (o3 : o.append = false)
    (o4 : o.includeReducedBuckets = false) (o5 : o.fillnullValue = none) (hm : Plain '"' m = true)
    (hn : ∀ k, nn = some k → Plain '"' k = true ∧ '.' ∈ k) (hw : ∀ e, w = some e → Shared e)
    (h0 : es ≠ []) (h : SharedStats es ls) (hd : ls.Nodup) (hl : ∀ l ∈ ls, l ∉ [c!"df", c!"by", c!"from_", c!"fill_null_value", c!"where"])
    (hk : ∀ l ∈ ls, Keyword l) (hW : W.lookup [(c!"index", .lit (c!"\"" ++ modelTable m nn ++ c!"\""))] = some (.source (modelTable m nn))) :
    Agrees W x (.tstats o es (some m) nn w bf none) ⟨n, none⟩ ⟨n', none⟩ := by
  obtain ⟨ks, vs, cs, g, k1, k2, k3, k4, k8, k5, k6, k7⟩ := stats_of sameRows_closed (m := .allow) (by decide) h
  have hcs : cs.isEmpty = false := by
    cases cs with
    | nil => exact absurd (List.length_eq_zero_iff.1 k4.symm) h0
    | cons => rfl
  have hok : tstatsOptsOk o = true := by simp only [tstatsOptsOk, o1, o2, o3, o4]; rfl
  have hdm : dataModelTable (some m) nn = some (modelTable m nn) := modelTable_eq fun k hk => (hn k hk).2
  -- the filter
  obtain ⟨wk, wv, f, w1, w2, w3, w4, w5⟩ : ∃ wk wv, ∃ f : DF → DF, whereKwarg .allow w = some wk ∧ kwVals wk = some wv ∧
      (∀ d, whereStep .disallow w d = some (f d)) ∧
      ((wv = [] ∧ ∀ d, whereStepRt none d = some (f d)) ∨ ∃ v, wv = [(c!"where", v)] ∧ ∀ d, whereStepRt (some v) d = some (f d)) ∧ True := by
    cases w with
    | none => exact ⟨[], [], id, rfl, rfl, fun _ => rfl, .inl ⟨rfl, fun _ => rfl⟩, trivial⟩
    | some e =>
      obtain ⟨p, q, hs⟩ := shared_same (hw e rfl)
      have hv := hs.val
      rw [hs.flat] at hv
      refine ⟨[(c!"where", .expr p)], [(c!"where", .val (shape (isColumn e) q.unalias))], fun d => .where_ d q.unalias, ?_, ?_, ?_, .inr ⟨_, rfl, ?_⟩, trivial⟩
      · simp only [whereKwarg, hs.all, Option.map_some]
      · simp only [kwVals, reVal, hv, Option.map_some]
      · intro d; simp only [whereStep, hs.dis, Option.map_some, DF.mkWhere]
      · intro d; simp only [whereStepRt, exprCol, (shape_stands _ _).toExpr, Option.map_some]
  -- the BY list
  obtain ⟨bv, b1, b2⟩ : ∃ bv, kwVals (byKwarg bf) = some bv ∧
      ((bv = [] ∧ (bf.getD []) = []) ∨ bv = [(c!"by", .list ((bf.getD []).map fun f => .col (byField f).toPE))]) := by
    cases bf with
    | none => exact ⟨[], rfl, .inl ⟨rfl, rfl⟩⟩
    | some fs => exact ⟨_, by simp only [byKwarg, kwVals, reVal, by_vals, Option.map_some]; rfl, .inr rfl⟩
  -- the data model
  obtain ⟨fv, f1, f2⟩ : ∃ fv, reVal (.dict [(c!"datamodel", pyOptStr (some m)), (c!"nodename", pyOptStr nn)]) = some fv ∧
      specifier fv = some (m, nn) := by
    have hsm : strOf (c!"\"" ++ m ++ c!"\"") = some m := strOf_plain hm
    cases nn with
    | none =>
      refine ⟨.dict [(c!"datamodel", .lit (c!"\"" ++ m ++ c!"\"")), (c!"nodename", .lit c!"None")], rfl, ?_⟩
      have d1 : ∀ a b : RV, dictGet c!"datamodel" [(c!"datamodel", a), (c!"nodename", b)] = some a := fun _ _ => rfl
      have d2 : ∀ a b : RV, dictGet c!"nodename" [(c!"datamodel", a), (c!"nodename", b)] = some b := fun _ _ => rfl
      simp only [specifier, d1, d2, Option.bind_some, strVal, hsm, optStr, if_true]
    | some k =>
      refine ⟨.dict [(c!"datamodel", .lit (c!"\"" ++ m ++ c!"\"")), (c!"nodename", .lit (c!"\"" ++ k ++ c!"\""))], rfl, ?_⟩
      have d1 : ∀ a b : RV, dictGet c!"datamodel" [(c!"datamodel", a), (c!"nodename", b)] = some a := fun _ _ => rfl
      have d2 : ∀ a b : RV, dictGet c!"nodename" [(c!"datamodel", a), (c!"nodename", b)] = some b := fun _ _ => rfl
      have hne : ¬ (c!"\"" ++ k ++ c!"\"" = c!"None") := by simp
      simp only [specifier, d1, d2, Option.bind_some, strVal, hsm, optStr, if_neg hne, strOf_plain (hn k rfl).1, Option.map_some]
  have hl' : ∀ v ∈ vs, v.1 ∉ [c!"df", c!"by", c!"from_", c!"fill_null_value", c!"where"] := fun v hv =>
    hl v.1 (k3 ▸ List.mem_map.2 ⟨v, hv, rfl⟩)
  have gn : ∀ k ∈ [c!"df", c!"by", c!"from_", c!"fill_null_value", c!"where"], kwGet k vs = none := fun k hk =>
    kwGet_none fun hm => by
      obtain ⟨v, hv, rfl⟩ := List.mem_map.1 hm
      exact hl' v hv hk
  have hmem : ∀ k ∈ [c!"df", c!"by", c!"from_", c!"fill_null_value", c!"where"], k ∉ ls := fun k hk hm => hl k hm hk
  have kall : kwVals ([(c!"from_", .dict [(c!"datamodel", pyOptStr (some m)), (c!"nodename", pyOptStr nn)])] ++ [] ++ wk ++ byKwarg bf ++ ks) =
      some ([(c!"from_", fv)] ++ wv ++ bv ++ vs) := by
    refine kwVals_append (kwVals_append (kwVals_append ?_ w2) b1) k2
    simp only [List.append_nil, kwVals, f1]
  have hdis : distinct ([(c!"from_", fv)] ++ wv ++ bv ++ vs) = true := by
    apply distinct_of
    have e1 := hmem c!"from_" (by decide)
    have e2 := hmem c!"where" (by decide)
    have e3 := hmem c!"by" (by decide)
    rcases w4 with ⟨rfl, _⟩ | ⟨v, rfl, _⟩ <;> rcases b2 with ⟨rfl, _⟩ | rfl <;> simp [k3, hd, e1, e2, e3]
    have a1 : Keyword c!"from_" := by decide
    have a2 : Keyword c!"where" := by decide
    have a3 : Keyword c!"by" := by decide
    rcases w4 with ⟨rfl, _⟩ | ⟨v, rfl, _⟩ <;> rcases b2 with ⟨rfl, _⟩ | rfl <;>
      simp only [List.map_append, List.map_cons, List.map_nil, k3, List.mem_append, List.mem_cons, List.not_mem_nil, or_false, false_or] <;>
      rintro n hn <;> (rcases hn with hn | hn) <;> (try exact hk n hn) <;> (try subst hn) <;> first
        | assumption
        | (rcases hn with hn | hn <;> (try subst hn) <;> first | assumption | (rcases hn with rfl | rfl <;> assumption))
  have ho : others [c!"by"] (others [c!"from_", c!"fill_null_value", c!"where"] ([(c!"from_", fv)] ++ wv ++ bv ++ vs)) = vs := by
    have hv : others [c!"by"] (others [c!"from_", c!"fill_null_value", c!"where"] vs) = vs := by
      rw [others_of (vs := vs) (fun v hv hb => hl' v hv (by
        simp only [List.mem_cons, List.not_mem_nil, or_false] at hb ⊢
        rcases hb with hb | hb | hb <;> simp [hb])), others_of (fun v hv hb => hl' v hv (by
        simp only [List.mem_singleton] at hb
        simp [hb]))]
    simp only [others, List.filter_append] at hv ⊢
    rw [hv]
    rcases w4 with ⟨rfl, _⟩ | ⟨v, rfl, _⟩ <;> rcases b2 with ⟨rfl, _⟩ | rfl <;> rfl
  have ho2 : others [c!"from_", c!"fill_null_value", c!"where"] ([(c!"from_", fv)] ++ wv ++ bv ++ vs) = bv ++ vs := by
    have hv : others [c!"from_", c!"fill_null_value", c!"where"] vs = vs := others_of (vs := vs) (fun v hv hb => hl' v hv (by
        simp only [List.mem_cons, List.not_mem_nil, or_false] at hb ⊢
        rcases hb with hb | hb | hb <;> simp [hb]))
    simp only [others, List.filter_append] at hv ⊢
    rw [hv]
    rcases w4 with ⟨rfl, _⟩ | ⟨v, rfl, _⟩ <;> rcases b2 with ⟨rfl, _⟩ | rfl <;> rfl
  have g1 : kwGet c!"df" ([(c!"from_", fv)] ++ wv ++ bv ++ vs) = none := by
    have := gn c!"df" (by decide)
    rcases w4 with ⟨rfl, _⟩ | ⟨v, rfl, _⟩ <;> rcases b2 with ⟨rfl, _⟩ | rfl <;> simp [kwGet, this]
  have g2 : kwGet c!"from_" ([(c!"from_", fv)] ++ wv ++ bv ++ vs) = some fv := by simp [kwGet]
  have g3 : kwGet c!"fill_null_value" ([(c!"from_", fv)] ++ wv ++ bv ++ vs) = none := by
    have := gn c!"fill_null_value" (by decide)
    rcases w4 with ⟨rfl, _⟩ | ⟨v, rfl, _⟩ <;> rcases b2 with ⟨rfl, _⟩ | rfl <;> simp [kwGet, this]
  have g4 : ∀ d, whereStepRt (kwGet c!"where" ([(c!"from_", fv)] ++ wv ++ bv ++ vs)) d = some (f d) := by
    have := gn c!"where" (by decide)
    intro d
    rcases w4 with ⟨rfl, h⟩ | ⟨v, rfl, h⟩ <;> rcases b2 with ⟨rfl, _⟩ | rfl <;> simp [kwGet, this, h]
  have g5 : kwGet c!"df" (bv ++ vs) = none := by
    have := gn c!"df" (by decide)
    rcases b2 with ⟨rfl, _⟩ | rfl <;> simp [kwGet, this]
  have g6 : byCols (kwGet c!"by" (bv ++ vs)) = some ((bf.getD []).map fun f => (byField f).toPE) := by
    have := gn c!"by" (by decide)
    rcases b2 with ⟨rfl, hb⟩ | rfl
    · simp [this, hb, byCols]
    · simp [kwGet, byCols, by_cols]
  refine agrees_of ⟨St.putRuntime ⟨n, none⟩ c!"tstats" [] ([(c!"from_", .dict [(c!"datamodel", pyOptStr (some m)), (c!"nodename", pyOptStr nn)])] ++ [] ++ wk ++ byKwarg bf ++ ks),
    St.put ⟨n', none⟩ (.agg (.groupBy (g (f (.source (modelTable m nn)))) ((bf.getD []).map byField)) cs), ?_, ?_, .inr ⟨_,
      .agg (.groupBy (g (f (.source (modelTable m nn)))) (((bf.getD []).map fun f => (byField f).toPE).map .col)) cs, _, rfl, ?_, rfl,
      groups_of sameRows_closed (SameRows.refl _) (fun _ _ => trivial) k8⟩⟩
  · simp only [transform, dispatch, tstatsRuntime, hok, if_true, w1, k1, Option.map_some, o5, orElse]
  · simp only [transform, dispatch, tstatsStandalone, hok, if_true, dataModelTr, dataModelStandalone, hdm, Option.map_some, St.put, St.cur,
      Option.getD_some, w3, k6]
    cases bf <;> rfl
  · simp only [runDF, command, argVals, kall, hdis, if_true]
    rw [if_neg (by decide), if_neg (by decide), if_neg (by decide), if_neg (by decide), if_neg (by decide)]
    simp only [cmdTstats, List.isEmpty_nil, g1, Option.isNone_none, Bool.and_self, if_true, g2, Option.bind_some, f2, hW, g3, fillStep, g4,
      ho2, cmdStats, g5, g6]
    rw [show others [c!"by"] (bv ++ vs) = vs from ho2 ▸ ho]
    simp only [k5, hcs]
    rfl

/-- **C67 (refutation).** For a node without a dot, as in `tstats count from datamodel=m where nodename=k`,
the plain translation reads a table whose name ends in a dot, and the library reads that of the model. -/
theorem C67_tstats_node {W x o m k n n'} (o1 : o.prestats = false) (o2 : o.local = false) (o3 : o.append = false)
    (o4 : o.includeReducedBuckets = false) (o5 : o.fillnullValue = none) (hm : Plain '"' m = true) (hk : Plain '"' k = true) (hd : '.' ∉ k)
    (hW : W.lookup [(c!"index", .lit (c!"\"" ++ m ++ c!"\""))] = some (.source m)) :
    ∃ t t' e, transform ⟨.allow, x⟩ (.tstats o [.call c!"count" []] (some m) (some k) none none none) ⟨n, none⟩ = some t ∧
      transform ⟨.disallow, x⟩ (.tstats o [.call c!"count" []] (some m) (some k) none none none) ⟨n', none⟩ = some t' ∧
      runDF W t.cur = some e ∧ tablesRead e = [m] ∧ tablesRead t'.cur = [m ++ c!"."] := by
  have h1 : dataModelTable (some m) (some k) = some (m ++ c!".") := by
    rw [dataModelTable, Lemmas.split_nodot hd]
    simp [joinWith]
  have h2 : modelTable m (some k) = m := by
    rw [modelTable, Option.getD_some, Lemmas.split_nodot hd]
    simp only [List.drop_succ_cons, List.drop_nil, List.drop_zero, List.append_nil]
    rw [show c!"." = ['.'] from rfl, join_split]
  have hok : tstatsOptsOk o = true := by simp only [tstatsOptsOk, o1, o2, o3, o4]; rfl
  refine ⟨St.putRuntime ⟨n, none⟩ c!"tstats" [] [(c!"from_", .dict [(c!"datamodel", pyStr m), (c!"nodename", pyStr k)]),
      (c!"count", .expr (.fn c!"functions.stats.count" []))],
    St.put ⟨n', none⟩ (.agg (.groupBy (.source (m ++ c!".")) []) [.aliased (.fn c!"count" [.lit c!"1"]) c!"count"]),
    .agg (.groupBy (.source m) []) [.aliased (.fn c!"count" [.lit c!"1"]) c!"count"], ?_, ?_, ?_, rfl, rfl⟩
  · simp only [transform, dispatch, tstatsRuntime, hok, if_true, o5, orElse]
    rfl
  · simp only [transform, dispatch, tstatsStandalone, hok, if_true, dataModelTr, dataModelStandalone, h1, Option.map_some, St.put, St.cur]
    rfl
  · have hkw : kwVals [(c!"from_", .dict [(c!"datamodel", pyStr m), (c!"nodename", pyStr k)]), (c!"count", .expr (.fn c!"functions.stats.count" []))] =
        some [(c!"from_", .dict [(c!"datamodel", .lit (c!"\"" ++ m ++ c!"\"")), (c!"nodename", .lit (c!"\"" ++ k ++ c!"\""))]),
          (c!"count", .val (.agg false (some (.fn c!"count" [.lit c!"1"]))))] := rfl
    have hs : specifier (.dict [(c!"datamodel", .lit (c!"\"" ++ m ++ c!"\"")), (c!"nodename", .lit (c!"\"" ++ k ++ c!"\""))]) = some (m, some k) := by
      have d1 : ∀ a b : RV, dictGet c!"datamodel" [(c!"datamodel", a), (c!"nodename", b)] = some a := fun _ _ => rfl
      have d2 : ∀ a b : RV, dictGet c!"nodename" [(c!"datamodel", a), (c!"nodename", b)] = some b := fun _ _ => rfl
      have hne : ¬ (c!"\"" ++ k ++ c!"\"" = c!"None") := by simp
      simp only [specifier, d1, d2, Option.bind_some, strVal, strOf_plain hm, optStr, if_neg hne, strOf_plain hk, Option.map_some]
    rw [run_putRuntime]
    simp only [command, argVals, hkw]
    have e1 : ∀ a b : PV, distinct [(c!"from_", a), (c!"count", b)] = true := fun _ _ => rfl
    have e2 : ∀ a b : PV, kwGet c!"from_" [(c!"from_", a), (c!"count", b)] = some a := fun _ _ => rfl
    have e3 : ∀ a b : PV, kwGet c!"df" [(c!"from_", a), (c!"count", b)] = none := fun _ _ => rfl
    simp only [e1, if_true]
    rw [if_neg (by decide), if_neg (by decide), if_neg (by decide), if_neg (by decide), if_neg (by decide)]
    simp only [cmdTstats, List.isEmpty_nil, e2, e3, Option.isNone_none, Bool.and_self, if_true, Option.bind_some, hs, h2, hW]
    rfl

/-- the default options of `tstats` -/
def tstatsOpts : TStatsOpts := ⟨false, false, false, false, false, false, 10000000, none⟩

example (types) : Agrees (delivered types) Tests.ext (.tstats tstatsOpts statsExample (some c!"M") (some c!"M.n")
    (some (.binary (.const (.field c!"x")) c!"=" (.const (.int 1)))) (some [⟨c!"host", none⟩]) none) ⟨1, none⟩ ⟨1, none⟩ :=
  C67_tstats_partial rfl rfl rfl rfl rfl (by decide) (by rintro k ⟨⟩; decide)
    (by rintro e ⟨⟩; exact .binary (by decide) (.const rfl) (.const rfl) rfl rfl) (by decide) statsExample_ok (by decide) (by decide) (by decide)
    (lookup_delivered (by decide) (by decide))
example (types) : ∃ t t' e, transform ⟨.allow, Tests.ext⟩ (.tstats tstatsOpts [.call c!"count" []] (some c!"M") (some c!"n") none none none) ⟨1, none⟩ = some t ∧
      transform ⟨.disallow, Tests.ext⟩ (.tstats tstatsOpts [.call c!"count" []] (some c!"M") (some c!"n") none none none) ⟨1, none⟩ = some t' ∧
      runDF (delivered types) t.cur = some e ∧ tablesRead e = [c!"M"] ∧ tablesRead t'.cur = [c!"M."] :=
  C67_tstats_node rfl rfl rfl rfl rfl (by decide) (by decide) (by decide) (lookup_delivered (by decide) (by decide))
example (W : World) : ∃ t, transform ⟨.allow, Tests.ext⟩ (.tstats tstatsOpts statsExample (some c!"M") none none none none) afterTable = some t ∧
    runDF W t.cur = none :=
  ⟨_, rfl, C67_tstats_late_raises (x := Tests.ext) (o := tstatsOpts) (es := statsExample) (dm := some c!"M") (nn := none) (w := none) (bf := none)
    (bp := none) (s := afterTable) rfl rfl⟩
example : ∃ t, transform ⟨.allow, Tests.ext⟩ (.tstats tstatsOpts statsExample (some c!"M") none none (some [⟨c!"host", none⟩]) none) ⟨1, none⟩ = some t ∧
    transform ⟨.allow, Tests.ext⟩ (.tstats tstatsOpts statsExample (some c!"M") none none (some [⟨c!"host", none⟩]) (some c!"p")) ⟨1, none⟩ = some t :=
  ⟨_, C67_tstats_prefix_lost (p := c!"p") rfl, rfl⟩
example (W : World) : ∃ t, transform ⟨.allow, Tests.ext⟩ (.dataModel ⟨some c!"M", some c!"n", some c!"search", false, false, false⟩) ⟨1, none⟩ = some t ∧
    runDF W t.cur = none :=
  ⟨_, rfl, C67_data_model_raises (x := Tests.ext) (a := ⟨some c!"M", some c!"n", some c!"search", false, false, false⟩) (s := ⟨1, none⟩) rfl⟩
example (W : World) : ∃ t, transform ⟨.allow, Tests.ext⟩ (.fillNull c!"0" none) ⟨1, none⟩ = some t ∧ runDF W t.cur = none :=
  ⟨_, rfl, C67_fillnull_first_raises (x := Tests.ext) (v := c!"0") (fs := none) (n := 1) rfl⟩

/-! ### C68: whole queries -/

theorem query_runs {N : Str → Prop} {R : DF → DF → Prop} (hR : Closed N R) {W x i cs} (hx : Arranges x) (h : SharedQuery (Readable x) i cs)
    (hb : ∀ c ∈ cs, ByOk N c)
    (hW : ∀ n, i = some n → W.lookup [(c!"index", .lit (c!"\"" ++ n ++ c!"\""))] = some (.source n)) :
    ∃ t t' e, runCmds ⟨.allow, x⟩ cs ⟨1, none⟩ = some t ∧ runCmds ⟨.disallow, x⟩ cs ⟨1, none⟩ = some t' ∧
      runDF W t.cur = some e ∧ R e t'.cur ∧ t.df ≠ none := by
  have fin : ∀ {c cs} {t t' : St}, transform ⟨.allow, x⟩ c ⟨1, none⟩ = some t → transform ⟨.disallow, x⟩ c ⟨1, none⟩ = some t' →
      Runs R W t t' → t.df ≠ none → (∀ c ∈ cs, SharedCmd (Readable x) false c) → (∀ c ∈ cs, ByOk N c) →
      ∃ t t' e, runCmds ⟨.allow, x⟩ (c :: cs) ⟨1, none⟩ = some t ∧ runCmds ⟨.disallow, x⟩ (c :: cs) ⟨1, none⟩ = some t' ∧
      runDF W t.cur = some e ∧ R e t'.cur ∧ t.df ≠ none := by
    intro c cs t t' h1 h2 h3 h4 h5 h6
    obtain ⟨u, u', k1, k2, k3, k6⟩ := cmds_run hR hx h3 h4 h5 h6
    obtain ⟨e, k4, k5⟩ := k3.cur hR
    exact ⟨u, u', e, by simp only [runCmds, h1, k1], by simp only [runCmds, h2, k2], k4, k5, k6⟩
  cases h with
  | indexed h hd hk hc =>
    obtain ⟨t, t', h1, h2, h3, h4⟩ := index_runs hR (n := 1) (n' := 1) (m := .allow) (by decide) hx (hW _ rfl) h hd hk
    exact fin h1 h2 h3 h4 hc fun c hc => hb c (List.mem_cons_of_mem _ hc)
  | other h hc =>
    obtain ⟨t, t', h1, h2, h3, h4⟩ := cmd_runs hR (W := W) (s := ⟨1, none⟩) (s' := ⟨1, none⟩) hx (.inl ⟨rfl, rfl⟩) (by simp) h (hb _ List.mem_cons_self)
    exact fin h1 h2 h3 h4 hc fun c hc => hb c (List.mem_cons_of_mem _ hc)

/-- **C68.** For every query of shared commands that begins with a search of an index, or with a command
that is not in the library, both translations succeed, the program with the library runs, and it
computes the same rows as the program without.
Missing: queries outside `SharedQuery`; for those that begin with `search` without index, `eval`, `stats`,
`fillnull`, or contain the cases refuted in C61-C67, the claim is false. -/
theorem C68_query_partial {W x i cs} (hx : Arranges x) (h : SharedQuery (Readable x) i cs)
    (hW : ∀ n, i = some n → W.lookup [(c!"index", .lit (c!"\"" ++ n ++ c!"\""))] = some (.source n)) :
    ∃ t t' e, runCmds ⟨.allow, x⟩ cs ⟨1, none⟩ = some t ∧ runCmds ⟨.disallow, x⟩ cs ⟨1, none⟩ = some t' ∧
      runDF W t.cur = some e ∧ SameRows e t'.cur := by
  obtain ⟨t, t', e, h1, h2, h3, h4, _⟩ := query_runs sameRows_closed hx h (fun c _ => byOk_true c) hW
  exact ⟨t, t', e, h1, h2, h3, h4⟩

/-- **C68.** ... and so with the library as delivered, for index names without quotes or backslashes. -/
theorem C68_delivered_partial {types x n cs} (hx : Arranges x) (h : SharedQuery (Readable x) (some n) cs) (hp : Plain '"' n = true) (hn : n ≠ []) :
    ∃ t t' e, runCmds ⟨.allow, x⟩ cs ⟨1, none⟩ = some t ∧ runCmds ⟨.disallow, x⟩ cs ⟨1, none⟩ = some t' ∧
      runDF (delivered types) t.cur = some e ∧ SameRows e t'.cur :=
  C68_query_partial hx h fun _ hi => by
    simp only [Option.some.injEq] at hi
    exact hi ▸ lookup_delivered hp hn

/-- the commands after the search in
`index=web ... | eval y=abs(x), z=x+1 | stats count, max(x) as top, latest(len(y)) by host | where top=1 | sort -top | head 10` -/
def restExample : List Command :=
  [.eval evalExample, .stats ⟨1, false, c!" "⟩ statsExample (some [⟨c!"host", none⟩]) false,
    .where_ (.binary (.const (.field c!"top")) c!"=" (.const (.int 1))), .sort [(some c!"-", .const (.field c!"top"))] 0 false,
    .head (.const (.int 10)) false false]

theorem restExample_ok : ∀ c ∈ restExample, SharedCmd (Readable x) false c := by
  intro c hc
  simp only [restExample, List.mem_cons, List.not_mem_nil, or_false] at hc
  rcases hc with rfl | rfl | rfl | rfl | rfl
  · exact .eval evalExample_shared (by decide) (by decide) (by decide)
  · exact .stats (by decide) statsExample_ok (by decide) (by decide) (by decide) (by decide)
  · exact .where_ (.binary (by decide) (.const rfl) (.const rfl) rfl rfl) rfl
  · refine .sort ?_
    intro k hk
    simp only [List.mem_singleton] at hk
    exact hk ▸ ⟨_, rfl, .inr (.inr rfl)⟩
  · exact .head

example (types) : ∃ t t' e, runCmds ⟨.allow, Tests.ext⟩ (.search indexedExample :: restExample) ⟨1, none⟩ = some t ∧
    runCmds ⟨.disallow, Tests.ext⟩ (.search indexedExample :: restExample) ⟨1, none⟩ = some t' ∧
    runDF (delivered types) t.cur = some e ∧ SameRows e t'.cur :=
  C68_delivered_partial arranges_id (.indexed indexedExample_ok (by decide) (by decide) restExample_ok) (by decide) (by decide)

/-- `makeresults count=3 annotate=true | regex host!="^a" | rex field=_raw "^(?<w>.)" | convert memk(size) AS k ctime(_time) |
addtotals fieldname=t k w | bin span=5m _time | eval y=abs(x), z=x+1` -/
def nativeExample : List Command :=
  [.makeResults ⟨3, true, c!"local", none⟩, .regex (some (c!"host", c!"!=")) c!"^a", .rex ⟨c!"_raw", 1, none, none, c!"^(?<w>.)"⟩,
    .convert c!"%m/%d/%Y %H:%M:%S" [⟨c!"memk", c!"size", some c!"k"⟩, ⟨c!"ctime", c!"_time", none⟩],
    .addTotals ⟨[c!"k", c!"w"], true, false, c!"t", none, c!"Total"⟩,
    .bin ⟨.field c!"_time", some ⟨5, c!"minutes"⟩, none, none, none, none, none⟩, .eval evalExample]

example (W : World) {x : Ext} (hx : Arranges x) (hr : (x.parseRe c!"^(?<w>.)").isSome = true) :
    ∃ t t' e, runCmds ⟨.allow, x⟩ nativeExample ⟨1, none⟩ = some t ∧ runCmds ⟨.disallow, x⟩ nativeExample ⟨1, none⟩ = some t' ∧
    runDF W t.cur = some e ∧ SameRows e t'.cur := by
  refine C68_query_partial (i := none) hx (.other (.makeResults (by decide)) ?_) (by simp)
  intro c hc
  simp only [List.mem_cons, List.not_mem_nil, or_false] at hc
  rcases hc with rfl | rfl | rfl | rfl | rfl | rfl
  · exact .regex (by simp)
  · exact .rex (by decide) rfl hr
  · exact .convert (by simp)
  · exact .addTotals
  · exact .bin
  · exact .eval evalExample_shared (by decide) (by decide) (by decide)

end Verif.Props
