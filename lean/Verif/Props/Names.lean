import Verif.Props.Alias
import Verif.Lemmas.Text
/-
C17 (standalone output is self-contained), C18 (generated names are fresh).
-/
namespace Verif.Props
open Verif Verif.Lemmas

/-- The names assigned while evaluating a frame, in order of assignment. -/
def assigned : DF → List Str
  | .source _ | .rawSource _ => []
  | .runtimeRoot n _ _ _ => [n]
  | .runtime n s _ _ _ => assigned s ++ [n]
  | .named s n => assigned s ++ [n]
  | .unionByName s o => assigned s ++ assigned o
  | .join s o _ _ => assigned s ++ assigned o
  | .select s _ | .where_ s _ | .groupBy s _ | .agg s _ | .withColumn s _ _
  | .withColumnRenamed s _ _ | .orderBy s _ | .limit s _ | .tail s _ | .alias s _
  | .arbitraryMethod s _ _ => assigned s

/-- names assigned by an optional frame -/
def assignedO : Option DF → List Str
  | none => []
  | some d => assigned d

theorem assigned_cur (s : St) : assigned s.cur = assignedO s.df := by
  unfold St.cur; cases s.df <;> rfl

/-- How the assigned names develop: the earlier ones are kept or dropped altogether, the new ones
are `df_k` for an increasing sequence of counters `k` between the old and the new counter. -/
def Ext' (m : Mode) (n : Nat) (old : List Str) (n' : Nat) (new : List Str) : Prop :=
  (m = .disallow → n' = n) ∧ n ≤ n' ∧
  ∃ (A : List Str) (ks : List Nat), new = A ++ ks.map dfName ∧ (A = old ∨ A = []) ∧ ks.Pairwise (· < ·) ∧ ∀ k ∈ ks, n ≤ k ∧ k < n'

def Grows (m : Mode) (s t : St) : Prop := Ext' m s.next (assignedO s.df) t.next (assignedO t.df)

theorem grows_refl (m : Mode) (s : St) : Grows m s s :=
  ⟨fun _ => rfl, Nat.le_refl _, _, [], by simp, .inl rfl, by simp, by simp⟩

theorem grows_put {m : Mode} {s : St} {d : DF} (h : assigned d = assignedO s.df) : Grows m s (s.put d) :=
  ⟨fun _ => rfl, Nat.le_refl _, _, [], by simp [St.put, assignedO, h], .inl rfl, by simp, by simp⟩

theorem grows_drop {m : Mode} {s : St} {d : DF} (h : assigned d = []) : Grows m s (s.put d) :=
  ⟨fun _ => rfl, Nat.le_refl _, [], [], by simp [St.put, assignedO, h], .inr rfl, by simp, by simp⟩

theorem grows_runtime {m : Mode} (hm : m ≠ .disallow) (s : St) (f : Str) (a : List RE) (k : List (Str × RE)) :
    Grows m s (s.putRuntime f a k) := by
  refine ⟨fun h => absurd h hm, Nat.le_succ _, assignedO s.df, [s.next], ?_, .inl rfl, by simp, ?_⟩
  · cases h : s.df <;> simp [St.putRuntime, assignedO, assigned, h]
  · intro k hk
    simp only [List.mem_singleton] at hk
    subst hk; exact ⟨Nat.le_refl _, Nat.lt_succ_self _⟩

theorem grows_trans {m : Mode} {s t u : St} (h1 : Grows m s t) (h2 : Grows m t u) : Grows m s u := by
  obtain ⟨a1, b1, A1, k1, e1, c1, p1, r1⟩ := h1
  obtain ⟨a2, b2, A2, k2, e2, c2, p2, r2⟩ := h2
  refine ⟨fun h => (a2 h).trans (a1 h), Nat.le_trans b1 b2, ?_⟩
  rcases c2 with rfl | rfl
  · refine ⟨A1, k1 ++ k2, by rw [e2, e1]; simp, c1, ?_, ?_⟩
    · rw [List.pairwise_append]
      refine ⟨p1, p2, fun a ha b hb => Nat.lt_of_lt_of_le (r1 a ha).2 (r2 b hb).1⟩
    · intro k hk
      rcases List.mem_append.mp hk with h | h
      · exact ⟨(r1 k h).1, Nat.lt_of_lt_of_le (r1 k h).2 b2⟩
      · exact ⟨Nat.le_trans b1 (r2 k h).1, (r2 k h).2⟩
  · exact ⟨[], k2, e2, .inr rfl, p2, fun k h => ⟨Nat.le_trans b1 (r2 k h).1, (r2 k h).2⟩⟩

theorem grows_dispatch {m : Mode} {s t : St} {rt sa : Option St}
    (hrt : m ≠ .disallow → rt = some t → Grows m s t) (hsa : sa = some t → Grows m s t)
    (h : dispatch m rt sa = some t) : Grows m s t := by
  cases m with
  | disallow => exact hsa h
  | require => exact hrt (by simp) h
  | allow =>
    cases rt with
    | none => exact hsa h
    | some u => exact hrt (by simp) h

theorem grows_map {α} {m : Mode} {s t : St} {o : Option α} {g : α → St} (hg : ∀ a, o = some a → Grows m s (g a))
    (h : o.map g = some t) : Grows m s t := by
  simp only [Option.map_eq_some_iff] at h
  obtain ⟨a, ha, rfl⟩ := h
  exact hg a ha

theorem convertLoop_assigned {t cs d d'} (h : convertLoop t cs d = some d') : assigned d' = assigned d := by
  induction cs generalizing d with
  | nil => simp only [convertLoop, Option.some.injEq] at h; rw [h]
  | cons c cs ih =>
    rw [convertLoop] at h
    split at h
    · simp at h
    · simpa [DF.mkWithColumn, assigned] using ih h

theorem evalLoop_assigned {m cs d d'} (h : evalLoop m cs d = some d') : assigned d' = assigned d := by
  induction cs generalizing d with
  | nil => simp only [evalLoop, Option.some.injEq] at h; rw [h]
  | cons c cs ih =>
    obtain ⟨n, e⟩ := c
    rw [evalLoop] at h
    split at h
    · simp at h
    · split at h
      · simpa [DF.mkWithColumn, assigned] using ih h
      · simp at h

theorem statsFn_assigned {m n args d q} (h : statsFn m n args d = some q) : assigned q.1 = assigned d := by
  have hb : ∀ q, statsFnBare n args d = some q → assigned q.1 = assigned d := by
    intro q h
    simp only [statsFnBare, Option.map_eq_some_iff] at h
    obtain ⟨a, _, rfl⟩ := h
    dsimp only
    split <;> rfl
  have hr : ∀ q, statsFnRuntime n args d = some q → assigned q.1 = assigned d := by
    intro q h
    simp only [statsFnRuntime, Option.map_eq_some_iff] at h
    obtain ⟨a, _, rfl⟩ := h
    rfl
  cases m with
  | disallow => exact hb q h
  | require => exact hr q h
  | allow =>
    simp only [statsFn, orElse] at h
    split at h
    · rename_i x hx; exact hr q (h ▸ hx)
    · exact hb q h

theorem statsLoop_assigned {m es d q} (h : statsLoop m es d = some q) : assigned q.1 = assigned d := by
  induction es generalizing d q with
  | nil => simp only [statsLoop, Option.some.injEq] at h; rw [← h]
  | cons e es ih =>
    rw [statsLoop] at h
    split at h
    · simp at h
    · rename_i d' c hc
      split at h
      · simp at h
      · rename_i d'' cs hcs
        simp only [Option.some.injEq] at h; subst h
        rw [ih hcs]
        unfold statsExpr at hc
        split at hc
        · simp only [Option.map_eq_some_iff] at hc
          obtain ⟨⟨d1, c1⟩, hf, he⟩ := hc
          simp only [Prod.mk.injEq] at he
          rw [← he.1]
          exact statsFn_assigned hf
        · simp at hc

theorem rename_assigned (as : List (Str × Str)) (d : DF) :
    assigned (as.foldl (fun d a => .withColumnRenamed d a.1 a.2) d) = assigned d := by
  induction as generalizing d with
  | nil => rfl
  | cons a as ih => rw [List.foldl_cons, ih]; rfl

theorem rex_assigned (c : Rex) (gs : List (Nat × Option Str)) (d : DF) :
    assigned (gs.foldl (rexCol c) d) = assigned d := by
  induction gs generalizing d with
  | nil => rfl
  | cons a as ih => rw [List.foldl_cons, ih]; rfl

theorem unionSources_assigned {l : List Str} {d : DF} (h : unionSources l = some d) : assigned d = [] := by
  have key : ∀ (xs : List Str) (d : DF), assigned d = [] →
      assigned (xs.foldl (fun d n => .unionByName d (.source n)) d) = [] := by
    intro xs
    induction xs with
    | nil => intro d h; exact h
    | cons x xs ih => intro d h; exact ih _ (by simp [assigned, h])
  cases l with
  | nil => simp [unionSources] at h
  | cons x xs =>
    simp only [unionSources, Option.some.injEq] at h
    rw [← h]; exact key xs _ rfl

theorem dataModelTr_grows {m a s t} (h : dataModelTr m a s = some t) : Grows m s t := by
  refine grows_dispatch (fun hm h => ?_) (fun h => ?_) h
  · simp only [dataModelRuntime, Option.some.injEq] at h
    exact h ▸ grows_runtime hm _ _ _ _
  · unfold dataModelStandalone at h
    split at h
    · split at h
      · rename_i src hs _ _
        simp only [Option.some.injEq] at h
        exact h ▸ grows_put (by rw [hs]; rfl)
      · exact grows_map (fun a _ => grows_drop rfl) h
      · simp at h
    · simp at h

theorem tstatsStandalone_grows {m o es dm nn w bf bp s t}
    (h : tstatsStandalone m o es dm nn w bf bp s = some t) : Grows m s t := by
  unfold tstatsStandalone at h
  split at h
  · split at h
    · simp at h
    · rename_i u hu
      split at h
      · simp at h
      · rename_i d hd
        split at h
        · simp at h
        · rename_i d2 aggs hl
          have hd' : assigned d = assigned u.cur := by
            cases w with
            | none => simp only [whereStep, Option.some.injEq] at hd; rw [hd]
            | some e =>
              simp only [whereStep, Option.map_eq_some_iff] at hd
              obtain ⟨p, _, rfl⟩ := hd
              rfl
          have h2 : assigned d2 = assignedO u.df := by
            rw [statsLoop_assigned hl, hd', assigned_cur]
          refine grows_trans (dataModelTr_grows hu) ?_
          split at h
          · simp only [Option.some.injEq] at h; exact h ▸ grows_put h2
          · simp only [Option.some.injEq] at h; exact h ▸ grows_put h2
          · simp at h
  · simp at h

mutual
theorem transform_grows (c : Ctx) : ∀ (cmd : Command) (s t : St), transform c cmd s = some t →
    Grows c.mode s t := by
  intro cmd s t h
  have sa1 : ∀ {d : DF}, assigned d = assigned s.cur → Grows c.mode s (s.put d) :=
    fun h => grows_put (h.trans (assigned_cur s))
  have eqp : ∀ {d : DF}, some (s.put d) = some t → assigned d = assigned s.cur → Grows c.mode s t :=
    fun h hd => Option.some.inj h ▸ sa1 hd
  have eqr : ∀ {f a k}, c.mode ≠ .disallow → some (s.putRuntime f a k) = some t → Grows c.mode s t :=
    fun hm h => Option.some.inj h ▸ grows_runtime hm _ _ _ _
  have nort : ∀ {sa : Option St}, dispatch c.mode none sa = some t → (sa = some t → Grows c.mode s t) →
    Grows c.mode s t := fun h hsa => grows_dispatch (fun _ h => by simp at h) hsa h
  match cmd with
  | .collect .. | .dedup .. | .eventStats .. | .format .. | .inputLookup .. | .map .. | .mvCombine ..
  | .mvExpand .. | .return_ .. | .streamStats .. => simp [transform] at h
  | .addTotals a => exact nort h fun h => eqp h rfl
  | .bin a =>
    refine nort h fun h => eqp h ?_
    cases a.span <;> rfl
  | .convert tf cs => exact nort h fun h => grows_map (fun d hd => sa1 (convertLoop_assigned hd)) h
  | .dataModel a => exact dataModelTr_grows h
  | .eval fs =>
    exact grows_dispatch (fun hm h => grows_map (fun _ _ => grows_runtime hm _ _ _ _) h)
      (fun h => grows_map (fun d hd => sa1 (evalLoop_assigned hd)) h) h
  | .fields rm fs => exact nort h fun h => eqp h rfl
  | .fillNull v fs =>
    refine grows_dispatch ?_ ?_ h
    · exact fun hm h => eqr hm h
    · exact fun h => eqp h rfl
  | .head e kl n => refine nort h fun h => grows_map ?_ h; exact fun d hd => sa1 rfl
  | .lookup a =>
    refine nort h fun h => ?_
    unfold lookupTr at h
    dsimp only at h
    split at h
    · simp at h
    · exact eqp h rfl
  | .makeResults a =>
    refine nort h fun h => ?_
    unfold makeResultsTr at h
    dsimp only at h
    split at h <;> exact Option.some.inj h ▸ grows_drop rfl
  | .rare a =>
    refine nort h fun h => ?_
    unfold topRareTr at h
    split at h
    · simp at h
    · dsimp only at h
      split at h <;> split at h <;> exact eqp h rfl
  | .top a =>
    refine nort h fun h => ?_
    unfold topRareTr at h
    split at h
    · simp at h
    · dsimp only at h
      split at h <;> split at h <;> exact eqp h rfl
  | .regex i r => refine nort h fun h => grows_map ?_ h; exact fun d hd => sa1 rfl
  | .rename as => exact nort h fun h => eqp h (rename_assigned _ _)
  | .rex a =>
    refine nort h fun h => ?_
    unfold rexTr at h
    split at h
    · simp at h
    · split at h
      · exact grows_map (fun d hd => sa1 (rex_assigned _ _ _)) h
      · simp at h
  | .sort ks n d =>
    refine nort h fun h => grows_map (fun d hd => sa1 ?_) h
    split <;> rfl
  | .spath p i o => exact nort h fun h => eqp h rfl
  | .stats sp fs by_ dd =>
    refine grows_dispatch ?_ ?_ h
    · intro hm h; refine grows_map ?_ h; exact fun _ _ => grows_runtime hm _ _ _ _
    · intro h; refine grows_map ?_ h; exact fun d hd => sa1 (statsLoop_assigned hd)
  | .table fs => exact nort h fun h => eqp h rfl
  | .tail n => exact nort h fun h => eqp h rfl
  | .tstats o es dm nn w bf bp =>
    refine grows_dispatch (fun hm h => ?_) (fun h => tstatsStandalone_grows h) h
    unfold tstatsRuntime at h
    split at h
    · split at h
      · simp at h
      · exact grows_map (fun _ _ => grows_runtime hm _ _ _ _) h
    · simp at h
  | .where_ e => refine nort h fun h => grows_map ?_ h; exact fun d hd => sa1 rfl
  | .search e =>
    refine grows_dispatch (fun hm h => grows_map (fun _ _ => grows_runtime hm _ _ _ _) h) (fun h => ?_) h
    unfold searchStandalone at h
    split at h
    · simp at h
    · rename_i cond is hc
      have key : ∀ d, (assigned d = assigned ((unionSources (c.ext.order (dedupStr is))).getD s.cur)) →
          Grows c.mode s (s.put d) := by
        intro d hd
        cases hu : unionSources (c.ext.order (dedupStr is)) with
        | none => exact sa1 (by rw [hd, hu]; rfl)
        | some u => exact grows_drop (by rw [hd, hu]; exact unionSources_assigned hu)
      split at h
      · exact Option.some.inj h ▸ key _ rfl
      · refine grows_map ?_ h; exact fun d hd => key _ rfl
  | .join o fs sub =>
    rw [transform] at h
    refine nort h fun h => ?_
    unfold joinTr joinOutcome at h
    split at h
    · split at h
      · simp [Outcome.toOption] at h
      · rename_i u hu
        have hg := runCmds_grows c sub _ u hu
        split at h
        · simp [Outcome.toOption] at h
        · rename_i r hr
          split at h
          · split at h
            · simp [Outcome.toOption] at h
            · rename_i cond hc
              simp only [Outcome.toOption, Option.some.injEq] at h
              subst h
              obtain ⟨a1, b1, A, ks, e, hA, hp, hk⟩ := hg
              have hA' : A = [] := by rcases hA with h | h <;> simpa [assignedO] using h
              subst hA'
              refine ⟨a1, b1, assignedO s.df, ks, ?_, .inl rfl, hp, hk⟩
              rw [hr] at e
              simp only [assignedO, List.nil_append] at e
              simp only [assignedO, DF.mkJoin, assigned, e]
              rw [assigned_cur]; rfl
          · simp [Outcome.toOption] at h
    · simp [Outcome.toOption] at h
  | .multiSearch ps =>
    cases ps with
    | nil =>
      rw [transform] at h
      exact nort h fun h => Option.some.inj h ▸ grows_refl _ _
    | cons p ps =>
      rw [transform] at h
      · refine nort h fun h => ?_
        obtain ⟨a1, b1, A, ks, e, hA, hp, hk⟩ := multiTr_grows c (p :: ps) s.next none t h
        have hA' : A = [] := by rcases hA with h | h <;> simpa [assignedO] using h
        exact ⟨a1, b1, A, ks, e, .inr hA', hp, hk⟩
      · simp

theorem runCmds_grows (c : Ctx) : ∀ (p : List Command) (s t : St), runCmds c p s = some t →
    Grows c.mode s t := by
  intro p s t h
  match p with
  | [] => rw [runCmds] at h; exact Option.some.inj h ▸ grows_refl _ _
  | a :: p =>
    rw [runCmds] at h
    split at h
    · simp at h
    · rename_i u hu
      exact grows_trans (transform_grows c a s u hu) (runCmds_grows c p u t h)

theorem multiTr_grows (c : Ctx) : ∀ (ps : List (List Command)) (n : Nat) (a : Option DF) (t : St),
    multiTr c ps n a = some t → Grows c.mode ⟨n, a⟩ t := by
  intro ps n a t h
  match ps with
  | [] => rw [multiTr] at h; exact Option.some.inj h ▸ grows_refl _ _
  | p :: ps =>
    rw [multiTr] at h
    split at h
    · simp at h
    · rename_i u hu
      split at h
      · simp at h
      · rename_i d hd
        refine grows_trans ?_ (multiTr_grows c ps _ _ t h)
        obtain ⟨a1, b1, A, ks, e, hA, hp, hk⟩ := runCmds_grows c p _ u hu
        have hA' : A = [] := by rcases hA with h | h <;> simpa [assignedO] using h
        subst hA'
        refine ⟨a1, b1, assignedO a, ks, ?_, .inl rfl, hp, hk⟩
        rw [hd] at e
        simp only [assignedO, List.nil_append] at e
        cases a <;> simp [assignedO, unionStep, assigned, e]
end

/-! ### C18 -/

/-- **C18** The names a rendered program assigns are pairwise different: they are `df_k` for
strictly increasing `k`, counted from 1, whatever the mode and however deep the sub-searches. -/
theorem C18_names_distinct (c : Ctx) (p : Pipeline) (t : St) (h : runCmds c p ⟨1, none⟩ = some t) :
    (assignedO t.df).Nodup ∧
      ∃ ks : List Nat, assignedO t.df = ks.map dfName ∧ ks.Pairwise (· < ·) ∧ ∀ k ∈ ks, 1 ≤ k := by
  obtain ⟨_, _, A, ks, e, hA, hp, hk⟩ := runCmds_grows c p _ t h
  have hA' : A = [] := by rcases hA with h | h <;> simpa [assignedO] using h
  subst hA'
  rw [List.nil_append] at e
  refine ⟨?_, ks, e, hp, fun k h => (hk k h).1⟩
  rw [e, List.Nodup, List.pairwise_map]
  refine hp.imp fun {a b} hab heq => ?_
  have : showNat a = showNat b := by simpa [dfName] using heq
  have := showNat_inj this
  omega

/-- The text `x` occurs in a statement or in the final expression. -/
def Occurs (x : Str) (c : PyCode) : Prop := (∃ l ∈ c.preface, x <:+: l) ∨ x <:+: c.primary

theorem infix_left {x a b : Str} (h : x <:+: a) : x <:+: a ++ b :=
  h.trans (List.prefix_append a b).isInfix

theorem infix_right {x a b : Str} (h : x <:+: b) : x <:+: a ++ b :=
  h.trans (List.suffix_append a b).isInfix

theorem Occurs.text {x : Str} {c : PyCode} (h : Occurs x c) : x <:+: c.text := by
  unfold PyCode.text
  rcases h with ⟨l, hl, hx⟩ | h
  · refine infix_left ?_
    obtain ⟨l1, l2, e⟩ := List.append_of_mem hl
    rw [e, List.flatMap_append, List.flatMap_cons]
    exact infix_right (infix_left (infix_left hx))
  · exact infix_right h

/-- **C18** Every name counted above is one that the text of the program assigns. -/
theorem C18_assigned_occurs (d : DF) (n : Str) (h : n ∈ assigned d) :
    (n ++ c!" = ") <:+: d.render.text := by
  refine Occurs.text ?_
  have lin : ∀ {s : PyCode} {r : Str}, Occurs (n ++ c!" = ") s → Occurs (n ++ c!" = ") (.of (s.text ++ r)) :=
    fun hs => .inr (infix_left hs.text)
  have stmt : ∀ (f x : Str) (a : List RE) (k : List (Str × RE)), (n ++ c!" = ") <:+: runtimeStmt n f x a k := by
    intro f x a k
    exact ⟨[], c!"commands." ++ f ++ c!"(" ++ joinWith c!", "
      (x :: (a.map RE.render ++ k.map fun kv => kv.1 ++ c!"=" ++ kv.2.render)) ++ c!")", by simp [runtimeStmt]⟩
  have arg : ∀ {s name f : Str} {a : List RE} {k : List (Str × RE)}, (n ++ c!" = ") <:+: s →
      (n ++ c!" = ") <:+: runtimeStmt name f s a k := by
    intro s name f a k hs
    have hj : s <:+: joinWith c!", " (s :: (a.map RE.render ++ k.map fun kv => kv.1 ++ c!"=" ++ kv.2.render)) := by
      generalize (a.map RE.render ++ k.map fun kv => kv.1 ++ c!"=" ++ kv.2.render) = l
      cases l with
      | nil => exact List.infix_refl _
      | cons y ys => rw [joinWith]; exact infix_left (infix_left (List.infix_refl _))
    exact infix_left (infix_right (hs.trans hj))
  induction d with
  | source _ | rawSource _ => simp [assigned] at h
  | runtimeRoot name f a k =>
    simp only [assigned, List.mem_singleton] at h; subst h
    exact .inl ⟨_, List.mem_singleton.mpr rfl, stmt _ _ _ _⟩
  | runtime name s f a k ih =>
    simp only [assigned, List.mem_append, List.mem_singleton] at h
    rcases h with h | rfl
    · rcases ih h with ⟨l, hl, hx⟩ | hx
      · exact .inl ⟨l, List.mem_append_left _ hl, hx⟩
      · exact .inl ⟨_, List.mem_append_right _ (List.mem_singleton.mpr rfl), arg hx⟩
    · exact .inl ⟨_, List.mem_append_right _ (List.mem_singleton.mpr rfl), stmt _ _ _ _⟩
  | named s name ih =>
    simp only [assigned, List.mem_append, List.mem_singleton] at h
    rcases h with h | rfl
    · rcases ih h with ⟨l, hl, hx⟩ | hx
      · exact .inl ⟨l, List.mem_append_left _ hl, hx⟩
      · exact .inl ⟨_, List.mem_append_right _ (List.mem_singleton.mpr rfl), infix_right hx⟩
    · exact .inl ⟨_, List.mem_append_right _ (List.mem_singleton.mpr rfl), infix_left (List.infix_refl _)⟩
  | unionByName s o ih1 ih2 =>
    simp only [assigned, List.mem_append] at h
    rcases h with h | h
    · exact .inr (infix_left (infix_left (infix_left (ih1 h).text)))
    · exact .inr (infix_left (infix_right (ih2 h).text))
  | join s o c t ih1 ih2 =>
    simp only [assigned, List.mem_append] at h
    rcases h with h | h
    · exact .inr (by
        simp only [DF.render, PyCode.of, List.append_assoc]
        exact infix_left (ih1 h).text)
    · exact .inr (by
        simp only [DF.render, PyCode.of, List.append_assoc]
        exact infix_right (infix_right (infix_left (ih2 h).text)))
  | select s _ ih | where_ s _ ih | groupBy s _ ih | agg s _ ih | withColumn s _ _ ih
  | withColumnRenamed s _ _ ih | orderBy s _ ih | limit s _ ih | tail s _ ih | alias s _ ih
  | arbitraryMethod s _ _ ih =>
    exact .inr (by
      simp only [DF.render, PyCode.of, List.append_assoc]
      exact infix_left (ih h).text)

/-- Two runtime commands: two names. -/
example (x : Ext) : ∃ t, runCmds ⟨.allow, x⟩ [.search (.const (.field c!"a")), .fillNull c!"0" none] ⟨1, none⟩ = some t ∧
    assignedO t.df = [c!"df_1", c!"df_2"] := ⟨_, rfl, rfl⟩

/-! ### C17 -/

/-- No statement, only an expression, and no runtime command inside it. -/
def Standalone : DF → Prop
  | .source _ | .rawSource _ => True
  | .runtimeRoot .. | .runtime .. | .named .. => False
  | .unionByName s o | .join s o _ _ => Standalone s ∧ Standalone o
  | .select s _ | .where_ s _ | .groupBy s _ | .agg s _ | .withColumn s _ _
  | .withColumnRenamed s _ _ | .orderBy s _ | .limit s _ | .tail s _ | .alias s _
  | .arbitraryMethod s _ _ => Standalone s

theorem standalone_iff (d : DF) : Standalone d ↔ assigned d = [] := by
  induction d with
  | runtimeRoot | runtime | named => simp [Standalone, assigned]
  | unionByName _ _ ih1 ih2 => simp [Standalone, assigned, ih1, ih2]
  | join _ _ _ _ ih1 ih2 => simp [Standalone, assigned, ih1, ih2]
  | source | rawSource => simp [Standalone, assigned]
  | _ => simpa [Standalone, assigned]

theorem standalone_preface (d : DF) (h : Standalone d) : d.render.preface = [] := by
  cases d <;> first | rfl | simp [Standalone] at h

/-- **C17** Without the runtime library the program contains no runtime command, at any depth; it
is a single expression with no assignment, and no name is ever taken from the counter. -/
theorem C17_standalone (x : Ext) (p : Pipeline) (n : Nat) (t : St)
    (h : runCmds ⟨.disallow, x⟩ p ⟨n, none⟩ = some t) :
    t.next = n ∧ ∀ d, t.df = some d → Standalone d ∧ d.render.preface = [] ∧ d.render.text = d.render.primary := by
  obtain ⟨hn, _, A, ks, e, hA, _, hk⟩ := runCmds_grows _ p _ t h
  have hn : t.next = n := hn rfl
  refine ⟨hn, ?_⟩
  intro d hd
  have hA' : A = [] := by rcases hA with h | h <;> simpa [assignedO] using h
  have hks : ks = [] := by
    cases ks with
    | nil => rfl
    | cons k ks =>
      have := hk k (by simp)
      simp only [hn] at this
      omega
  have : assigned d = [] := by simpa [hd, assignedO, hA', hks] using e
  have hs := (standalone_iff d).mpr this
  have hp := standalone_preface d hs
  exact ⟨hs, hp, by simp [PyCode.text, hp]⟩

/-- **C17** The rendered standalone program is empty or the expression of such a frame. -/
theorem C17_render (x : Ext) (p : Pipeline) (s : Str) (h : renderPipeline ⟨.disallow, x⟩ p = some s) :
    s = [] ∨ ∃ d : DF, Standalone d ∧ s = d.render.primary := by
  unfold renderPipeline at h
  simp only [Option.map_eq_some_iff] at h
  obtain ⟨t, ht, rfl⟩ := h
  cases hd : t.df with
  | none => exact .inl rfl
  | some d =>
    obtain ⟨h1, _, h3⟩ := (C17_standalone x p 1 t ht).2 d hd
    exact .inr ⟨d, h1, h3⟩

example : renderPipeline ⟨.disallow, ⟨fun _ => none, id⟩⟩ [.search (.const (.field c!"a")), .fillNull c!"0" none] =
    some c!"spark.table('main').where(F.col('_raw').ilike(\"%a%\"),).fillna(\"0\",)" := by rfl

end Verif.Props
