import Verif.Props.Names
/-
C17 and C45 for whole programs: without the runtime library every column of the program has its
alias, if any, on top, and every function applied in it is either one of the fixed Spark functions
of the translation tables or a function called in the query.
-/
namespace Verif.Props
open Verif Verif.Lemmas

/-- every column of a list, up to an alias on top -/
def topCleanL (ok : Str → Bool) (es : List PE) : Bool := es.all (topClean ok)

/-- grouping keys -/
def cnClean (ok : Str → Bool) : CN → Bool
  | .col c => clean ok c
  | .name _ => true

/-- All columns of the frame satisfy `topClean`; filters, assignments, orderings, join conditions
and method parameters have no alias at all. -/
def dfClean (ok : Str → Bool) : DF → Bool
  | .source _ | .rawSource _ => true
  | .runtimeRoot .. | .runtime .. | .named .. => false
  | .unionByName s o => dfClean ok s && dfClean ok o
  | .join s o c _ => dfClean ok s && dfClean ok o && clean ok c
  | .select s cs | .agg s cs => dfClean ok s && topCleanL ok cs
  | .orderBy s cs | .arbitraryMethod s _ cs => dfClean ok s && cleanL ok cs
  | .where_ s c | .withColumn s c _ => dfClean ok s && clean ok c
  | .groupBy s cs => dfClean ok s && cs.all (cnClean ok)
  | .withColumnRenamed s _ _ | .limit s _ | .tail s _ | .alias s _ => dfClean ok s

/-- an optional frame -/
def dfCleanO (ok : Str → Bool) : Option DF → Prop
  | none => True
  | some d => dfClean ok d = true

mutual
/-- the functions a command calls -/
def cmdCalls : Command → List Str
  | .convert _ cs => cs.map FieldConversion.func
  | .eval fs => fs.flatMap fun f => callNames f.2
  | .stats _ fs _ _ => fs.flatMap statsCalls
  | .tstats _ fs _ _ w _ _ => fs.flatMap statsCalls ++ (match w with | some e => callNames e | none => [])
  | .where_ e | .search e => callNames e
  | .join _ _ sub => cmdsCalls sub
  | .multiSearch ps => cmdsCalls2 ps
  | _ => []

/-- the functions a pipeline calls -/
def cmdsCalls : List Command → List Str
  | [] => []
  | c :: cs => cmdCalls c ++ cmdsCalls cs

/-- the functions the pipelines call -/
def cmdsCalls2 : List (List Command) → List Str
  | [] => []
  | p :: ps => cmdsCalls p ++ cmdsCalls2 ps

/-- the functions an aggregation calls, itself included -/
def statsCalls : Expr → List Str
  | .alias e _ => statsCalls e
  | e => callNames e
end

section
variable {ok : Str → Bool} (hok : ∀ g, (c!"functions.").isPrefixOf g = false → ok g = true)

theorem dfClean_cur {s : St} (h : dfCleanO ok s.df) : dfClean ok s.cur = true := by
  unfold St.cur
  cases hd : s.df with
  | none => rfl
  | some d => rw [hd] at h; exact h

include hok

theorem exprTr_top {e : Expr} {p : PE} (hn : ∀ n ∈ callNames e, ok n = true)
    (h : exprTr .disallow e = some p) : topClean ok p = true :=
  exprTr_topClean hok (fun h => absurd rfl h) e p hn h

theorem exprTr_unalias {e : Expr} {p : PE} (hn : ∀ n ∈ callNames e, ok n = true)
    (h : exprTr .disallow e = some p) : clean ok p.unalias = true :=
  clean_unalias_of_top (exprTr_top hok hn h)

theorem evalLoop_clean {fs : List (Str × Expr)} {d d' : DF}
    (hn : ∀ n ∈ fs.flatMap (fun f => callNames f.2), ok n = true) (hd : dfClean ok d = true)
    (h : evalLoop .disallow fs d = some d') : dfClean ok d' = true := by
  induction fs generalizing d with
  | nil => simp only [evalLoop, Option.some.injEq] at h; rw [← h]; exact hd
  | cons c cs ih =>
    obtain ⟨n, e⟩ := c
    rw [evalLoop] at h
    simp only [List.flatMap_cons, List.mem_append] at hn
    split at h
    · simp at h
    · rename_i p hp
      split at h
      · refine ih (fun n h => hn n (.inr h)) ?_ h
        simp [DF.mkWithColumn, dfClean, hd, exprTr_unalias hok (fun n h => hn n (.inl h)) hp]
      · simp at h

theorem memk_clean {c : PE} (h : clean ok c = true) : clean ok (memkFn c) = true := by
  simp [clean, cleanL, pyStr, pyInt, PE.mkMethod, unalias_of_clean, List.isPrefixOf, memkFn, PE.mkBin,
    PE.unalias, h, hok]

theorem convertFn_clean {t : Str} {c : FieldConversion} {p : PE} (hn : ok c.func = true)
    (h : convertFn t c = some p) : clean ok p.unalias = true := by
  unfold convertFn at h
  dsimp only at h
  split at h
  · simp only [ctimeFn, Option.map_eq_some_iff] at h
    obtain ⟨q, _, rfl⟩ := h
    simp [PE.unalias, clean, cleanL, pyStr, hok, List.isPrefixOf]
  · split at h
    · simp only [Option.some.injEq] at h; subst h
      have := memk_clean hok (c := .named c.field) rfl
      rw [unalias_of_clean this]; exact this
    · split at h
      · simp only [Option.some.injEq] at h; subst h
        simp [rmunitFn, PE.unalias, PE.mkMethod, clean, cleanL, pyStr, pyInt, hok, List.isPrefixOf]
      · split at h
        · simp only [Option.some.injEq] at h; subst h
          simp [rmcommaFn, PE.unalias, PE.mkMethod, clean, cleanL, pyStr, pyInt, hok, List.isPrefixOf]
        · simp only [Option.some.injEq] at h; subst h
          simp [PE.unalias, clean, cleanL, hn]

theorem convertLoop_clean {t : Str} {cs : List FieldConversion} {d d' : DF}
    (hn : ∀ n ∈ cs.map FieldConversion.func, ok n = true) (hd : dfClean ok d = true)
    (h : convertLoop t cs d = some d') : dfClean ok d' = true := by
  induction cs generalizing d with
  | nil => simp only [convertLoop, Option.some.injEq] at h; rw [← h]; exact hd
  | cons c cs ih =>
    rw [convertLoop] at h
    simp only [List.map_cons, List.mem_cons] at hn
    split at h
    · simp at h
    · rename_i p hp
      refine ih (fun n h => hn n (.inr h)) ?_ h
      simp [DF.mkWithColumn, dfClean, hd, convertFn_clean hok (hn _ (.inl rfl)) hp]

omit hok in
theorem unaliasName_calls : ∀ e : Expr, callNames (Expr.unaliasName e).1 = statsCalls e
  | .alias e n => by simp only [Expr.unaliasName, statsCalls]; exact unaliasName_calls e
  | .aliasedField .. => by simp [Expr.unaliasName, statsCalls, callNames]
  | .const _ | .fv .. | .fb .. | .fc .. | .binary .. | .unary .. | .call .. | .fieldIn ..
  | .timeModifier _ | .searchModifier _ | .subSearch _ => by simp [Expr.unaliasName, statsCalls]

theorem statsExpr_clean {d : DF} {e : Expr} {q : DF × PE} (hn : ∀ n ∈ statsCalls e, ok n = true)
    (hd : dfClean ok d = true) (h : statsExpr .disallow d e = some q) :
    dfClean ok q.1 = true ∧ topClean ok q.2 = true := by
  unfold statsExpr at h
  split at h
  · rename_i n args al hu
    have hn' : ∀ k ∈ callNames (.call n args), ok k = true := by
      rw [← unaliasName_calls, hu] at hn; exact hn
    simp only [callNames, List.mem_cons] at hn'
    simp only [Option.map_eq_some_iff] at h
    obtain ⟨⟨d1, c1⟩, hf, rfl⟩ := h
    simp only [statsFn, statsFnBare, Option.map_eq_some_iff] at hf
    obtain ⟨c, hc, he⟩ := hf
    simp only [Prod.mk.injEq] at he
    obtain ⟨rfl, rfl⟩ := he
    have hargs : ArgsClean ok (argsTr .disallow args) :=
      argsTr_clean hok (fun h => absurd rfl h) args fun k hk => hn' k (.inr hk)
    have hcl : ∃ x k, c = .aliased x k ∧ clean ok x = true ∧ x.isCol = true := by
      unfold statsFnBareCol at hc
      split at hc
      · rename_i f hsf
        obtain ⟨x, rfl, h1, h2⟩ := apply_clean (cleans_statsSpec hsf ok hok) hargs hc
        exact ⟨x, _, rfl, h1, h2⟩
      · split at hc
        · simp at hc
        · simp only [passThrough, Option.map_eq_some_iff] at hc
          obtain ⟨xs, hxs, rfl⟩ := hc
          exact ⟨_, _, rfl, by simp [clean, hn' n (.inl rfl), (mapArgs_clean hargs hxs).1], rfl⟩
    obtain ⟨x, k, rfl, h1, h2⟩ := hcl
    refine ⟨?_, ?_⟩
    · dsimp only
      split
      · simp [dfClean, hd, cleanL, PE.mkMethod, timeCol, clean, PE.unalias]
      · exact hd
    · have hx : (PE.aliased x k).unalias = x := by
        cases x <;> first | rfl | (simp [PE.isCol] at h2; done) | (simp [clean] at h1)
      cases al with
      | none => simp [PE.maybeAlias, topClean, h1, h2]
      | some a => simp [PE.maybeAlias, PE.withAlias, hx, topClean, h1, h2]
  · simp at h

theorem statsLoop_clean {es : List Expr} {d : DF} {q : DF × List PE}
    (hn : ∀ n ∈ es.flatMap statsCalls, ok n = true) (hd : dfClean ok d = true)
    (h : statsLoop .disallow es d = some q) : dfClean ok q.1 = true ∧ topCleanL ok q.2 = true := by
  induction es generalizing d q with
  | nil => simp only [statsLoop, Option.some.injEq] at h; subst h; exact ⟨hd, rfl⟩
  | cons e es ih =>
    rw [statsLoop] at h
    simp only [List.flatMap_cons, List.mem_append] at hn
    split at h
    · simp at h
    · rename_i d' c hc
      split at h
      · simp at h
      · rename_i d'' cs hcs
        simp only [Option.some.injEq] at h; subst h
        obtain ⟨h1, h2⟩ := statsExpr_clean hok (fun n h => hn n (.inl h)) hd hc
        obtain ⟨h3, h4⟩ := ih (fun n h => hn n (.inr h)) h1 hcs
        refine ⟨h3, ?_⟩
        simp only at h2
        simp only [topCleanL, List.all_cons, h2, Bool.true_and]
        exact h4

theorem by_clean (fs : List SpField) : (fs.map byField).all (cnClean ok) = true := by
  simp only [List.all_map, List.all_eq_true, Function.comp]
  intro f _
  unfold byField
  cases f.span with
  | none => rfl
  | some t => simp [cnClean, clean, cleanL, pyStr, hok, List.isPrefixOf]

omit hok in
theorem rename_clean (as : List (Str × Str)) (d : DF) (hd : dfClean ok d = true) :
    dfClean ok (as.foldl (fun d a => .withColumnRenamed d a.1 a.2) d) = true := by
  induction as generalizing d with
  | nil => exact hd
  | cons a as ih => exact ih _ hd

theorem rex_clean (c : Rex) (gs : List (Nat × Option Str)) (d : DF) (hd : dfClean ok d = true) :
    dfClean ok (gs.foldl (rexCol c) d) = true := by
  induction gs generalizing d with
  | nil => exact hd
  | cons a as ih =>
    refine ih _ ?_
    simp [rexCol, DF.mkWithColumn, dfClean, hd, PE.unalias, clean, cleanL, pyRaw, pyInt, hok, List.isPrefixOf]

omit hok in
theorem unionSources_clean {l : List Str} {d : DF} (h : unionSources l = some d) : dfClean ok d = true := by
  have key : ∀ (xs : List Str) (d : DF), dfClean ok d = true →
      dfClean ok (xs.foldl (fun d n => .unionByName d (.source n)) d) = true := by
    intro xs
    induction xs with
    | nil => intro d h; exact h
    | cons x xs ih => intro d h; exact ih _ (by simp [dfClean, h])
  cases l with
  | nil => simp [unionSources] at h
  | cons x xs =>
    simp only [unionSources, Option.some.injEq] at h
    rw [← h]; exact key xs _ rfl

omit hok in
theorem searchRw_clean : ∀ (p : PE), clean ok p = true → clean ok (searchRw p) = true
  | .named _, _ => by rw [searchRw]; exact clean_mkMethod rfl (by simp [cleanL, clean, pyStr])
  | .lit _, _ => by rw [searchRw]; exact clean_mkMethod rfl (by simp [cleanL, clean, pyStr])
  | .not r, h => by rw [searchRw]; simp only [clean] at h ⊢; exact searchRw_clean r h
  | .bin op l r, h => by
    rw [searchRw]
    simp only [clean, Bool.and_eq_true] at h
    split
    · exact clean_mkBin (searchRw_clean l h.1) (searchRw_clean r h.2)
    · simp [clean, h]
  | .aliased _ _, h => by simp [clean] at h
  | .method .., h | .fn .., h | .py _, h => by rw [searchRw] <;> simp_all

omit hok in
theorem searchRw_isCol (p : PE) (h : p.isCol = true) : (searchRw p).isCol = true := by
  unfold searchRw
  split
  · rfl
  · rfl
  · rfl
  · split <;> rfl
  · rfl
  · rfl
  · exact h

omit hok in
theorem intoSearch_clean {p : PE} (h : topClean ok p = true) : clean ok (intoSearch p).unalias = true := by
  have h1 := searchRw_clean _ (clean_unalias_of_top h)
  unfold intoSearch
  cases p with
  | aliased c n =>
    simp only [topClean, Bool.and_eq_true] at h
    have hc : (PE.aliased c n).unalias = c := by
      cases c <;> first | rfl | (simp [PE.isCol] at h; done) | (simp [clean] at h)
    rw [hc] at h1 ⊢
    have h2 := searchRw_isCol c h.1
    simp only [PE.aliasName, PE.maybeAlias, PE.withAlias, unalias_of_clean h1]
    apply clean_unalias_of_top
    simp [topClean, h1, h2]
  | _ => simpa [PE.maybeAlias, PE.aliasName, unalias_of_clean h1] using h1

theorem dataModelStandalone_clean {a : DataModel} {s t : St} (hd : dfCleanO ok s.df)
    (h : dataModelStandalone a s = some t) : dfCleanO ok t.df := by
  unfold dataModelStandalone at h
  split at h
  · split at h
    · rename_i src hs _ _
      simp only [Option.some.injEq] at h; subst h
      rw [hs] at hd
      exact hd
    · simp only [Option.map_eq_some_iff] at h
      obtain ⟨_, _, rfl⟩ := h
      rfl
    · simp at h
  · simp at h

omit hok in
theorem joinAs_clean (op : Str) : ∀ (cs : List PE) (r : PE), cleanL ok cs = true →
    joinAsBinaries op cs = some r → clean ok r = true := by
  have key : ∀ (cs : List PE) (a : PE), clean ok a = true → cleanL ok cs = true →
      clean ok (joinBinFrom op a cs) = true := by
    intro cs
    induction cs with
    | nil => intro a h _; simpa [joinBinFrom] using h
    | cons c cs ih =>
      intro a h h2
      simp only [cleanL, Bool.and_eq_true] at h2
      simp only [joinBinFrom]
      exact ih _ (by simp [clean, h, h2.1]) h2.2
  intro cs r h hr
  cases cs with
  | nil => simp [joinAsBinaries] at hr
  | cons c cs =>
    simp only [cleanL, Bool.and_eq_true] at h
    simp only [joinAsBinaries, Option.some.injEq] at hr
    rw [← hr]; exact key cs c h.1 h.2

omit hok in
theorem cleanL_map {α} (f : α → PE) (l : List α) (h : ∀ a, clean ok (f a) = true) : cleanL ok (l.map f) = true := by
  rw [cleanL_iff]; intro e he
  obtain ⟨a, _, rfl⟩ := List.mem_map.1 he
  exact h a

theorem makeResults_clean {a : MakeResults} {s t : St} (h : makeResultsTr a s = some t) : dfCleanO ok t.df := by
  unfold makeResultsTr at h
  simp only [Option.some.injEq] at h
  subst h
  simp only [St.put, dfCleanO]
  split
  · cases a.serverGroup <;>
      simp [DF.mkWithColumn, dfClean, PE.unalias, clean, cleanL, hok, List.isPrefixOf]
  · simp [DF.mkWithColumn, dfClean, PE.unalias, clean, cleanL, hok, List.isPrefixOf]

theorem topRare_clean {dir : Str} {a : TopRare} {s t : St} (hd : dfCleanO ok s.df)
    (h : topRareTr dir a s = some t) : dfCleanO ok t.df := by
  unfold topRareTr at h
  split at h
  · simp at h
  · simp only [Option.some.injEq] at h
    subst h
    have hc := dfClean_cur hd
    have hb : ∀ l : List Str, (l.map CN.name).all (cnClean ok) = true := by
      intro l; simp [cnClean]
    simp only [St.put, dfCleanO]
    split <;> split <;>
      simp [DF.mkWithColumn, dfClean, PE.unalias, clean, cleanL, hok, List.isPrefixOf, hc, hb, topCleanL,
        topClean, PE.withAlias, PE.isCol, PE.mkBin, PE.mkMethod, cnClean]

theorem search_clean {c : Ctx} (hc : c.mode = .disallow) {e : Expr} {s t : St} (hd : dfCleanO ok s.df)
    (hn : ∀ n ∈ callNames e, ok n = true)
    (hs : ∀ e' is, splitConditions true e = some (some e', is) → ∀ n ∈ callNames e', n ∈ callNames e)
    (h : searchStandalone c e s = some t) : dfCleanO ok t.df := by
  unfold searchStandalone at h
  split at h
  · simp at h
  · rename_i cond is hcond
    have hsrc : dfClean ok ((unionSources (c.ext.order (dedupStr is))).getD s.cur) = true := by
      cases hu : unionSources (c.ext.order (dedupStr is)) with
      | none => exact dfClean_cur hd
      | some d => exact unionSources_clean hu
    split at h
    · simp only [Option.some.injEq] at h; subst h; exact hsrc
    · rename_i cond
      rw [hc] at h
      simp only [Option.map_eq_some_iff] at h
      obtain ⟨p, hp, rfl⟩ := h
      have := exprTr_top hok (fun n h => hn n (hs _ _ hcond n h)) hp
      simp [St.put, dfCleanO, DF.mkWhere, dfClean, hsrc, intoSearch_clean this]

omit hok in
theorem recombine_calls {l r : Option Expr} {op : Str} {e : Expr} (h : recombine l op r = some (some e)) :
    ∀ n ∈ callNames e, (∃ l', l = some l' ∧ n ∈ callNames l') ∨ (∃ r', r = some r' ∧ n ∈ callNames r') := by
  unfold recombine at h
  split at h
  · simp at h
  · split at h
    · simp only [Option.some.injEq] at h; subst h; exact fun n h => .inl ⟨_, rfl, h⟩
    · simp at h
  · split at h
    · simp only [Option.some.injEq] at h; subst h; exact fun n h => .inr ⟨_, rfl, h⟩
    · simp at h
  · simp only [Option.some.injEq] at h; subst h
    intro n h
    simp only [callNames, List.mem_append] at h
    rcases h with h | h
    · exact .inl ⟨_, rfl, h⟩
    · exact .inr ⟨_, rfl, h⟩

omit hok in
theorem split_calls : ∀ (e : Expr) (b : Bool) (e' : Expr) (is : List Str),
    splitConditions b e = some (some e', is) → ∀ n ∈ callNames e', n ∈ callNames e
  | .binary l sym r, b, e', is, h => by
    rw [splitConditions] at h
    split at h
    · split at h <;> simp at h
    · split at h
      · split at h <;> simp at h
      · split at h
        · simp at h
        · dsimp only at h
          split at h
          · simp at h
          · rename_i l' is' hl
            split at h
            · simp at h
            · rename_i r' js hr
              simp only [Option.map_eq_some_iff] at h
              obtain ⟨x, hx, he⟩ := h
              simp only [Prod.mk.injEq] at he
              obtain ⟨rfl, rfl⟩ := he
              intro n hn
              simp only [callNames, List.mem_append]
              rcases recombine_calls hx n hn with ⟨y, rfl, hy⟩ | ⟨y, rfl, hy⟩
              · exact .inl (split_calls l _ _ _ hl n hy)
              · exact .inr (split_calls r _ _ _ hr n hy)
  | .const _, _, _, _, h => by simp only [splitConditions, Option.some.injEq, Prod.mk.injEq] at h; obtain ⟨rfl, _⟩ := h; exact fun _ h => h
  | .fv .., _, _, _, h => by simp only [splitConditions, Option.some.injEq, Prod.mk.injEq] at h; obtain ⟨rfl, _⟩ := h; exact fun _ h => h
  | .fb .., _, _, _, h => by simp only [splitConditions, Option.some.injEq, Prod.mk.injEq] at h; obtain ⟨rfl, _⟩ := h; exact fun _ h => h
  | .fc .., _, _, _, h => by simp only [splitConditions, Option.some.injEq, Prod.mk.injEq] at h; obtain ⟨rfl, _⟩ := h; exact fun _ h => h
  | .unary .., _, _, _, h => by simp only [splitConditions, Option.some.injEq, Prod.mk.injEq] at h; obtain ⟨rfl, _⟩ := h; exact fun _ h => h
  | .call .., _, _, _, h => by simp only [splitConditions, Option.some.injEq, Prod.mk.injEq] at h; obtain ⟨rfl, _⟩ := h; exact fun _ h => h
  | .fieldIn .., _, _, _, h => by simp only [splitConditions, Option.some.injEq, Prod.mk.injEq] at h; obtain ⟨rfl, _⟩ := h; exact fun _ h => h
  | .timeModifier _, _, _, _, h => by simp only [splitConditions, Option.some.injEq, Prod.mk.injEq] at h; obtain ⟨rfl, _⟩ := h; exact fun _ h => h
  | .searchModifier _, _, _, _, h => by simp only [splitConditions, Option.some.injEq, Prod.mk.injEq] at h; obtain ⟨rfl, _⟩ := h; exact fun _ h => h
  | .subSearch _, _, _, _, h => by simp only [splitConditions, Option.some.injEq, Prod.mk.injEq] at h; obtain ⟨rfl, _⟩ := h; exact fun _ h => h
  | .alias .., _, _, _, h => by simp only [splitConditions, Option.some.injEq, Prod.mk.injEq] at h; obtain ⟨rfl, _⟩ := h; exact fun _ h => h
  | .aliasedField .., _, _, _, h => by simp only [splitConditions, Option.some.injEq, Prod.mk.injEq] at h; obtain ⟨rfl, _⟩ := h; exact fun _ h => h

theorem tstats_clean {o : TStatsOpts} {es : List Expr} {dm nn : Option Str} {w : Option Expr}
    {bf : Option (List SpField)} {bp : Option Str} {s t : St} (hd : dfCleanO ok s.df)
    (hn : ∀ n ∈ es.flatMap statsCalls, ok n = true)
    (hw : ∀ e, w = some e → ∀ n ∈ callNames e, ok n = true)
    (h : tstatsStandalone .disallow o es dm nn w bf bp s = some t) : dfCleanO ok t.df := by
  unfold tstatsStandalone at h
  split at h
  · split at h
    · simp at h
    · rename_i s1 hs1
      have h1 : dfCleanO ok s1.df := dataModelStandalone_clean hok hd (by simpa [dataModelTr, dispatch] using hs1)
      split at h
      · simp at h
      · rename_i d hwd
        have h2 : dfClean ok d = true := by
          cases w with
          | none => simp only [whereStep, Option.some.injEq] at hwd; rw [← hwd]; exact dfClean_cur h1
          | some e =>
            simp only [whereStep, Option.map_eq_some_iff] at hwd
            obtain ⟨p, hp, rfl⟩ := hwd
            simp [DF.mkWhere, dfClean, dfClean_cur h1, exprTr_unalias hok (hw e rfl) hp]
        split at h
        · simp at h
        · rename_i d2 aggs hl
          obtain ⟨h3, h4⟩ := statsLoop_clean hok hn h2 hl
          simp only at h3 h4
          split at h
          · simp only [Option.some.injEq] at h; subst h
            simp [St.put, dfCleanO, dfClean, h3, h4, by_clean hok]
          · simp only [Option.some.injEq] at h; subst h
            simp [St.put, dfCleanO, dfClean, h3, h4]
          · simp at h
  · simp at h

theorem joinTr_clean {o : JoinOpts} {fs : List Str} {sub : Option St} {s t : St} (hd : dfCleanO ok s.df)
    (hsub : ∀ s', sub = some s' → dfCleanO ok s'.df) (h : joinTr o fs sub s = some t) : dfCleanO ok t.df := by
  unfold joinTr joinOutcome at h
  split at h
  · split at h
    · simp [Outcome.toOption] at h
    · rename_i s'
      split at h
      · simp [Outcome.toOption] at h
      · rename_i right hr
        split at h
        · split at h
          · simp [Outcome.toOption] at h
          · rename_i cond hcond
            simp only [Outcome.toOption, Option.some.injEq] at h; subst h
            have h1 : clean ok cond = true := joinAs_clean _ _ _ (cleanL_map _ _ fun a => rfl) hcond
            have h2 : clean ok (joinTime o.useTime o.earlier cond) = true := by
              unfold joinTime; split
              · exact clean_mkBin h1 (clean_mkBin rfl rfl)
              · exact h1
            have h3 := hsub s' rfl
            rw [hr] at h3
            have h3 : dfClean ok right = true := h3
            simp [dfCleanO, DF.mkJoin, dfClean, dfClean_cur hd, h3, unalias_of_clean h2, h2]
        · simp [Outcome.toOption] at h
  · simp [Outcome.toOption] at h

mutual
theorem transform_clean (x : Ext) : ∀ (cmd : Command) (s t : St), (∀ n ∈ cmdCalls cmd, ok n = true) →
    dfCleanO ok s.df → transform ⟨.disallow, x⟩ cmd s = some t → dfCleanO ok t.df
  | .addTotals a, s, t, hn, hd, h => by
    simp only [transform, dispatch, addTotalsTr, Option.some.injEq] at h
    subst h
    simp only [St.put, dfCleanO, DF.mkWithColumn, dfClean, dfClean_cur hd, Bool.true_and]
    cases hj : joinAsBinaries c!"+" (a.fields.map addTotalsCol) with
    | none => rfl
    | some r =>
      have : clean ok r = true := by
        refine joinAs_clean _ _ _ (cleanL_map _ _ fun n => ?_) hj
        simp [addTotalsCol, PE.mkMethod, PE.unalias, clean, cleanL, pyStr, hok, List.isPrefixOf]
      simp [Option.getD, unalias_of_clean this, this]
  | .bin a, s, t, hn, hd, h => by
    simp only [transform, dispatch, binCmdTr, Option.some.injEq] at h
    subst h
    simp only [St.put, dfCleanO]
    split <;> simp [DF.mkWithColumn, dfClean, dfClean_cur hd, PE.unalias, clean, cleanL, pyStr, hok, List.isPrefixOf]
  | .collect .., s, t, hn, hd, h => by simp [transform] at h
  | .convert tf cs, s, t, hn, hd, h => by
    simp only [transform, dispatch, convertTr, Option.map_eq_some_iff] at h
    obtain ⟨d, h, rfl⟩ := h
    exact convertLoop_clean hok (by simpa [cmdCalls] using hn) (dfClean_cur hd) h
  | .dataModel a, s, t, hn, hd, h => by
    simp only [transform, dataModelTr, dispatch] at h
    exact dataModelStandalone_clean hok hd h
  | .dedup .., s, t, hn, hd, h => by simp [transform] at h
  | .eval fs, s, t, hn, hd, h => by
    simp only [transform, dispatch, evalStandalone, Option.map_eq_some_iff] at h
    obtain ⟨d, h, rfl⟩ := h
    rw [cmdCalls] at hn
    exact evalLoop_clean hok hn (dfClean_cur hd) h
  | .eventStats .., s, t, hn, hd, h => by simp [transform] at h
  | .fields rm fs, s, t, hn, hd, h => by
    simp only [transform, dispatch, fieldsTr, Option.some.injEq] at h
    subst h
    simp [St.put, dfCleanO, dfClean, dfClean_cur hd, topCleanL, topClean, clean]
  | .fillNull v fs, s, t, hn, hd, h => by
    simp only [transform, dispatch, fillNullStandalone, Option.some.injEq] at h
    subst h
    simp [St.put, dfCleanO, dfClean, dfClean_cur hd, cleanL, pyStr, clean]
  | .format .., s, t, hn, hd, h => by simp [transform] at h
  | .head e kl _, s, t, hn, hd, h => by
    simp only [transform, dispatch, headTr, Option.map_eq_some_iff] at h
    obtain ⟨d, h, rfl⟩ := h
    simp [St.put, dfCleanO, dfClean, dfClean_cur hd]
  | .inputLookup .., s, t, hn, hd, h => by simp [transform] at h
  | .join o fs sub, s, t, hn, hd, h => by
    simp only [transform, dispatch] at h
    rw [cmdCalls] at hn
    refine joinTr_clean hok hd (fun s' hs' => ?_) h
    exact runCmds_clean x sub ⟨s.next, none⟩ s' hn trivial hs'
  | .lookup a, s, t, hn, hd, h => by
    simp only [transform, dispatch, lookupTr] at h
    split at h
    · simp at h
    · simp only [Option.some.injEq] at h; subst h
      simp [St.put, dfCleanO, dfClean, dfClean_cur hd]
  | .makeResults a, s, t, hn, hd, h => by
    simp only [transform, dispatch] at h
    exact makeResults_clean hok h
  | .map .., s, t, hn, hd, h => by simp [transform] at h
  | .multiSearch ps, s, t, hn, hd, h => by
    rw [cmdCalls] at hn
    cases ps with
    | nil => simp only [transform, dispatch, Option.some.injEq] at h; subst h; exact hd
    | cons p ps =>
      rw [transform] at h
      · simp only [dispatch] at h
        exact multi_clean x (p :: ps) s.next none t hn trivial h
      · simp
  | .mvCombine .., s, t, hn, hd, h => by simp [transform] at h
  | .mvExpand .., s, t, hn, hd, h => by simp [transform] at h
  | .rare a, s, t, hn, hd, h => by simp only [transform, dispatch] at h; exact topRare_clean hok hd h
  | .regex i r, s, t, hn, hd, h => by
    simp only [transform, dispatch, regexTr, Option.map_eq_some_iff] at h
    obtain ⟨⟨f, inv⟩, _, rfl⟩ := h
    cases inv <;> simp [St.put, dfCleanO, DF.mkWhere, dfClean, dfClean_cur hd, PE.mkNot, PE.unalias, clean, cleanL,
      pyRaw, hok, List.isPrefixOf]
  | .rename as, s, t, hn, hd, h => by
    simp only [transform, dispatch, renameTr, Option.some.injEq] at h
    subst h
    exact rename_clean as _ (dfClean_cur hd)
  | .return_ .., s, t, hn, hd, h => by simp [transform] at h
  | .rex a, s, t, hn, hd, h => by
    simp only [transform, dispatch, rexTr] at h
    split at h
    · simp at h
    · split at h
      · simp only [Option.map_eq_some_iff] at h
        obtain ⟨_, _, rfl⟩ := h
        exact rex_clean hok a _ _ (dfClean_cur hd)
      · simp at h
  | .sort ks n d, s, t, hn, hd, h => by
    simp only [transform, dispatch, sortTr, Option.map_eq_some_iff] at h
    obtain ⟨cs, hcs, rfl⟩ := h
    have hk : cleanL ok cs = true := by
      clear hn
      induction ks generalizing cs with
      | nil => simp only [sortKeys, Option.some.injEq] at hcs; subst hcs; rfl
      | cons k ks ih =>
        obtain ⟨sg, e⟩ := k
        rw [sortKeys] at hcs
        split at hcs
        · simp at hcs
        · rename_i c hc
          split at hcs
          · simp at hcs
          · rename_i k' hk'
            split at hcs
            · simp at hcs
            · rename_i cs' hcs'
              simp only [Option.some.injEq] at hcs; subst hcs
              have hc' : clean ok c = true := by
                unfold sortExpr at hc
                split at hc
                · simp only [Option.some.injEq] at hc; subst hc; rfl
                · simp at hc
              simp only [sortDir, Option.map_eq_some_iff] at hk'
              obtain ⟨_, _, rfl⟩ := hk'
              simp only [cleanL, clean_mkMethod hc' (show cleanL ok [] = true from rfl), ih _ hcs', Bool.and_self]
    simp only [St.put, dfCleanO]
    split <;> simp [dfClean, dfClean_cur hd, hk]
  | .spath p i o, s, t, hn, hd, h => by
    simp only [transform, dispatch, spathTr, Option.some.injEq] at h
    subst h
    simp [St.put, dfCleanO, DF.mkWithColumn, dfClean, dfClean_cur hd, PE.unalias, clean, cleanL, pyStr, hok, List.isPrefixOf]
  | .stats _ fs by_ _, s, t, hn, hd, h => by
    simp only [transform, dispatch, statsStandalone, Option.map_eq_some_iff] at h
    obtain ⟨⟨d, aggs⟩, hl, rfl⟩ := h
    rw [cmdCalls] at hn
    obtain ⟨h3, h4⟩ := statsLoop_clean hok hn (dfClean_cur hd) hl
    simp only at h3 h4
    simp [St.put, dfCleanO, dfClean, h3, h4, by_clean hok]
  | .streamStats .., s, t, hn, hd, h => by simp [transform] at h
  | .table fs, s, t, hn, hd, h => by
    simp only [transform, dispatch, tableTr, Option.some.injEq] at h
    subst h
    simp [St.put, dfCleanO, dfClean, dfClean_cur hd, topCleanL, topClean, clean]
  | .tail n, s, t, hn, hd, h => by
    simp only [transform, dispatch, tailTr, Option.some.injEq] at h
    subst h
    simp [St.put, dfCleanO, dfClean, dfClean_cur hd]
  | .top a, s, t, hn, hd, h => by simp only [transform, dispatch] at h; exact topRare_clean hok hd h
  | .tstats o es dm nn w bf bp, s, t, hn, hd, h => by
    simp only [transform, dispatch] at h
    simp only [cmdCalls, List.mem_append] at hn
    refine tstats_clean hok hd (fun n h => hn n (.inl h)) ?_ h
    rintro e rfl n h
    exact hn n (.inr h)
  | .where_ e, s, t, hn, hd, h => by
    simp only [transform, dispatch, whereTr, Option.map_eq_some_iff] at h
    obtain ⟨p, hp, rfl⟩ := h
    rw [cmdCalls] at hn
    simp [St.put, dfCleanO, DF.mkWhere, dfClean, dfClean_cur hd, exprTr_unalias hok hn hp]
  | .search e, s, t, hn, hd, h => by
    simp only [transform, dispatch] at h
    rw [cmdCalls] at hn
    exact search_clean hok rfl hd hn (fun e' is hs => split_calls e true e' is hs) h

theorem runCmds_clean (x : Ext) : ∀ (p : List Command) (s t : St), (∀ n ∈ cmdsCalls p, ok n = true) →
    dfCleanO ok s.df → runCmds ⟨.disallow, x⟩ p s = some t → dfCleanO ok t.df
  | [], s, t, hn, hd, h => by simp only [runCmds, Option.some.injEq] at h; subst h; exact hd
  | cmd :: p, s, t, hn, hd, h => by
    simp only [cmdsCalls, List.mem_append] at hn
    rw [runCmds] at h
    split at h
    · simp at h
    · rename_i s' hs'
      exact runCmds_clean x p s' t (fun n h => hn n (.inr h))
        (transform_clean x cmd s s' (fun n h => hn n (.inl h)) hd hs') h

theorem multi_clean (x : Ext) : ∀ (ps : List (List Command)) (k : Nat) (acc : Option DF) (t : St),
    (∀ n ∈ cmdsCalls2 ps, ok n = true) → dfCleanO ok acc → multiTr ⟨.disallow, x⟩ ps k acc = some t →
    dfCleanO ok t.df
  | [], k, acc, t, hn, hd, h => by simp only [multiTr, Option.some.injEq] at h; subst h; exact hd
  | p :: ps, k, acc, t, hn, hd, h => by
    simp only [cmdsCalls2, List.mem_append] at hn
    rw [multiTr] at h
    split at h
    · simp at h
    · rename_i s hs
      split at h
      · simp at h
      · rename_i d hdf
        have h1 := runCmds_clean x p ⟨k, none⟩ s (fun n h => hn n (.inl h)) trivial hs
        rw [hdf] at h1
        refine multi_clean x ps s.next _ t (fun n h => hn n (.inr h)) ?_ h
        have h1 : dfClean ok d = true := h1
        cases acc with
        | none => exact h1
        | some a =>
          have hd : dfClean ok a = true := hd
          simp [unionStep, dfCleanO, dfClean, hd, h1]
end
end

/-- **C17, C45** In the program of a pipeline translated without the runtime library no column has an
alias below its top, filters and assigned columns have none at all, and every function applied
anywhere is either not a runtime-library function or was called by that very name in the query. -/
theorem C17_columns (x : Ext) (p : Pipeline) (t : St) (d : DF)
    (h : runCmds ⟨.disallow, x⟩ p ⟨1, none⟩ = some t) (hd : t.df = some d) :
    dfClean (fun f => !(c!"functions.").isPrefixOf f || decide (f ∈ cmdsCalls p)) d = true := by
  have := runCmds_clean (ok := fun f => !(c!"functions.").isPrefixOf f || decide (f ∈ cmdsCalls p))
    (fun g hg => by simp [hg]) x p ⟨1, none⟩ t (fun n hn => by simp [hn]) trivial h
  rw [hd] at this
  exact this

/-- In particular a query that names no runtime function gets none. -/
theorem C17_no_runtime_function (x : Ext) (p : Pipeline) (t : St) (d : DF)
    (hp : ∀ n ∈ cmdsCalls p, (c!"functions.").isPrefixOf n = false)
    (h : runCmds ⟨.disallow, x⟩ p ⟨1, none⟩ = some t) (hd : t.df = some d) :
    dfClean (fun f => !(c!"functions.").isPrefixOf f) d = true := by
  have := runCmds_clean (ok := fun f => !(c!"functions.").isPrefixOf f)
    (fun g hg => by simp [hg]) x p ⟨1, none⟩ t (fun n hn => by simp [hp n hn]) trivial h
  rw [hd] at this
  exact this

/-- With the runtime library the same query does get one. -/
example : ∃ p : Pipeline, ∃ d d', (∀ n ∈ cmdsCalls p, (c!"functions.").isPrefixOf n = false) ∧
    runCmds ⟨.disallow, ⟨fun _ => none, id⟩⟩ p ⟨1, none⟩ = some ⟨1, some d⟩ ∧
    runCmds ⟨.allow, ⟨fun _ => none, id⟩⟩ p ⟨1, none⟩ = some ⟨1, some d'⟩ ∧
    dfClean (fun f => !(c!"functions.").isPrefixOf f) d = true ∧
    dfClean (fun f => !(c!"functions.").isPrefixOf f) d' = false :=
  ⟨[.where_ (.call c!"len" [.const (.field c!"x")])], _, _, by decide, rfl, rfl, by decide, by decide⟩

end Verif.Props
