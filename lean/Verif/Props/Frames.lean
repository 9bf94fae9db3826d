import Verif.Props.Names
import Verif.Props.Pipeline
import Verif.Spl.Fix
import Verif.Spec.Table
/-
C29-C33: what single commands do to the table of the commands before them.
-/
namespace Verif.Props
open Verif Verif.Spec

variable {V : Type}

/-! ### rows -/

theorem cell_setCol (null : V) (n : Str) (v : V) (r : Row V) : cell null (setCol n v r) n = v := by
  induction r with
  | nil => simp [setCol, cell]
  | cons c r ih =>
    obtain ⟨m, w⟩ := c
    by_cases h : m = n <;> simp [setCol, h, cell, ih]

theorem cell_setCol_ne (null : V) (n m : Str) (v : V) (r : Row V) (h : m ≠ n) :
    cell null (setCol n v r) m = cell null r m := by
  induction r with
  | nil => simp [setCol, cell, Ne.symm h]
  | cons c r ih =>
    obtain ⟨k, w⟩ := c
    by_cases hk : k = n
    · subst hk; simp [setCol, cell, Ne.symm h]
    · simp [setCol, hk, cell, ih]

theorem setCol_names (n : Str) (v : V) (r : Row V) :
    (setCol n v r).map Prod.fst = if n ∈ r.map Prod.fst then r.map Prod.fst else r.map Prod.fst ++ [n] := by
  induction r with
  | nil => simp [setCol]
  | cons c r ih =>
    obtain ⟨k, w⟩ := c
    by_cases hk : k = n
    · subst hk; simp [setCol]
    · simp only [setCol, hk, if_false, List.map_cons, ih, List.mem_cons]
      have : ¬ n = k := fun h => hk h.symm
      by_cases hm : n ∈ r.map Prod.fst <;> simp [hm, this]

/-! ### C30: eval -/

theorem evalLoop_append (m : Mode) (xs ys : List (Str × Expr)) (d : DF) :
    evalLoop m (xs ++ ys) d = (evalLoop m xs d).bind (evalLoop m ys) := by
  induction xs generalizing d with
  | nil => rfl
  | cons x xs ih =>
    obtain ⟨n, e⟩ := x
    simp only [List.cons_append, evalLoop]
    cases exprTr m e with
    | none => rfl
    | some c => by_cases h : c.isCol <;> simp [h, ih]

/-- **C30** (standalone half) `eval xs, ys` and `eval xs | eval ys` are the same program, whatever comes
before and whatever comes after, and fail together.
Missing for the full property: with the runtime library one call is generated per command, so the
texts differ (`C30_runtime_splits_differ`). -/
theorem C30_split_partial (x : Ext) (xs ys : List (Str × Expr)) (p q : Pipeline) :
    renderPipeline ⟨.disallow, x⟩ (p ++ .eval (xs ++ ys) :: q) =
      renderPipeline ⟨.disallow, x⟩ (p ++ .eval xs :: .eval ys :: q) := by
  have key : ∀ s : St, runCmds ⟨.disallow, x⟩ (.eval (xs ++ ys) :: q) s =
      runCmds ⟨.disallow, x⟩ (.eval xs :: .eval ys :: q) s := by
    intro s
    simp only [runCmds, transform, dispatch, evalStandalone, evalLoop_append]
    cases h : evalLoop .disallow xs s.cur with
    | none => rfl
    | some d =>
      have hc : (s.put d).cur = d := rfl
      simp only [Option.map_some, Option.bind_some, hc]
      cases evalLoop .disallow ys d <;> rfl
  unfold renderPipeline
  rw [runCmds_append, runCmds_append]
  cases runCmds ⟨.disallow, x⟩ p ⟨1, none⟩ with
  | none => rfl
  | some s => simp [key]

/-- The full property fails with the runtime library. -/
theorem C30_runtime_splits_differ (x : Ext) : ∃ xs ys : List (Str × Expr),
    renderPipeline ⟨.allow, x⟩ [.eval (xs ++ ys)] ≠ renderPipeline ⟨.allow, x⟩ [.eval xs, .eval ys] :=
  ⟨[(c!"a", .const (.int 1))], [(c!"b", .const (.int 2))], by
    have h1 : renderPipeline ⟨.allow, x⟩ ([.eval ([(c!"a", .const (.int 1))] ++ [(c!"b", .const (.int 2))])])
      = some c!"df_1 = commands.eval(None, a=F.lit(1), b=F.lit(2))\ndf_1" := rfl
    have h2 : renderPipeline ⟨.allow, x⟩ [.eval [(c!"a", .const (.int 1))], .eval [(c!"b", .const (.int 2))]]
      = some c!"df_1 = commands.eval(None, a=F.lit(1))\ndf_2 = commands.eval(df_1, b=F.lit(2))\ndf_2" := rfl
    rw [h1, h2]; decide⟩

/-- **C30** One assignment gives every row the value of the expression in its column and leaves all
other columns, their order and the rows alone; an alias inside the expression has no effect. -/
theorem C30_assign_partial (S : Spark V) (x : Ext) (n : Str) (e : Expr) (s t : St)
    (h : transform ⟨.disallow, x⟩ (.eval [(n, e)]) s = some t) :
    ∃ p, exprTr .disallow e = some p ∧
      S.meaning t.cur = (S.meaning s.cur).map (fun r => setCol n (S.val p.unalias r) r) ∧
      ∀ r, cell S.null (setCol n (S.val p.unalias r) r) n = S.val p.unalias r ∧
        (∀ m, m ≠ n → cell S.null (setCol n (S.val p.unalias r) r) m = cell S.null r m) ∧
        (setCol n (S.val p.unalias r) r).map Prod.fst =
          if n ∈ r.map Prod.fst then r.map Prod.fst else r.map Prod.fst ++ [n] := by
  simp only [transform, dispatch, evalStandalone, evalLoop, Option.map_eq_some_iff] at h
  obtain ⟨d, h, rfl⟩ := h
  split at h
  · simp at h
  · rename_i p hp
    split at h
    · simp only [Option.some.injEq] at h
      subst h
      exact ⟨p, hp, rfl, fun r => ⟨cell_setCol _ _ _ _, fun m hm => cell_setCol_ne _ _ _ _ _ hm, setCol_names _ _ _⟩⟩
    · simp at h

example (x : Ext) : renderPipeline ⟨.disallow, x⟩ [.eval [(c!"a", .const (.int 1)), (c!"b", .const (.field c!"a"))]] =
    some c!"spark.table('main').withColumn('a', F.lit(1),).withColumn('b', F.col('a'),)" := rfl

/-! ### C31: rename -/

/-- simultaneous renaming of one name: the first entry for it decides -/
def newName : List (Str × Str) → Str → Str
  | [], n => n
  | (o, w) :: as, n => if n = o then w else newName as n

/-- no entry renames a field that an earlier entry renames or produces -/
def NoChain : List (Str × Str) → Prop
  | [] => True
  | (o, w) :: as => (∀ a ∈ as, a.1 ≠ o ∧ a.1 ≠ w) ∧ NoChain as

theorem newName_fresh : ∀ (as : List (Str × Str)) (n : Str), (∀ a ∈ as, a.1 ≠ n) → newName as n = n
  | [], _, _ => rfl
  | (o, w) :: as, n, h => by
    have h1 := h (o, w) (by simp)
    rw [newName, if_neg (Ne.symm h1), newName_fresh as n fun a ha => h a (by simp [ha])]

theorem rename_meaning (S : Spark V) : ∀ (as : List (Str × Str)) (d : DF), NoChain as →
    S.meaning (as.foldl (fun d a => .withColumnRenamed d a.1 a.2) d) =
      (S.meaning d).map fun r => r.map fun c => (newName as c.1, c.2)
  | [], d, _ => by simp [newName]
  | (o, w) :: as, d, h => by
    rw [List.foldl_cons, rename_meaning S as _ h.2]
    simp only [Spark.meaning, List.map_map]
    congr 1
    funext r
    simp only [Function.comp, renameCol, List.map_map]
    congr 1
    funext c
    simp only [Function.comp, newName]
    by_cases hc : c.1 = o
    · simp only [hc, if_true]
      rw [newName_fresh as w fun a ha => (h.1 a ha).2]
    · simp [hc]

/-- **C31** When no entry renames a field that an earlier entry renames or produces, the program
renames simultaneously.  Missing: the other lists, where it does not (`C31_swap_fails`). -/
theorem C31_simultaneous_partial (S : Spark V) (c : Ctx) (as : List (Str × Str)) (s t : St) (hn : NoChain as)
    (h : transform c (.rename as) s = some t) :
    S.meaning t.cur = (S.meaning s.cur).map fun r => r.map fun c => (newName as c.1, c.2) := by
  have h2 : renameTr as s = some t := by
    simp only [transform, dispatch] at h
    cases hm : c.mode <;> simp only [hm, orElse] at h
    · exact h
    · exact h
    · simp at h
  simp only [renameTr, Option.some.injEq] at h2
  subst h2
  exact rename_meaning S as s.cur hn

example : NoChain [(c!"b", c!"c"), (c!"a", c!"b")] := by simp [NoChain]
example : newName [(c!"b", c!"c"), (c!"a", c!"b")] c!"a" = c!"b" := by decide

/-- Swapping two names loses one of them. -/
theorem C31_swap_fails (x : Ext) : ∃ (as : List (Str × Str)) (S : Spark Nat) (t : St),
    transform ⟨.disallow, x⟩ (.rename as) ⟨1, none⟩ = some t ∧
    S.meaning t.cur ≠ (S.meaning DF.default).map fun r => r.map fun c => (newName as c.1, c.2) := by
  refine ⟨[(c!"a", c!"b"), (c!"b", c!"a")], flat [[(c!"a", 1), (c!"b", 2)]], _, rfl, ?_⟩
  decide +kernel

/-! ### C32: fields -/

/-- **C32** `fields + list` (and `table list`) keeps exactly the listed fields in the listed order.
Missing: `fields - list`, which the translation treats alike (`C32_minus_is_plus`). -/
theorem C32_keep_partial (S : Spark V) (x : Ext) (fs : List Str) (s t : St)
    (h : transform ⟨.disallow, x⟩ (.fields false fs) s = some t ∨ transform ⟨.disallow, x⟩ (.table fs) s = some t) :
    S.meaning t.cur = (S.meaning s.cur).map fun r => fs.map fun f => (f, cell S.null r f) := by
  have : t = s.put (.select s.cur (fs.map .named)) := by
    rcases h with h | h <;>
      simp only [transform, dispatch, fieldsTr, tableTr, Option.some.injEq] at h <;> exact h.symm
  subst this
  simp only [St.put, St.cur, Option.getD_some, Spark.meaning, List.map_map]
  rfl

/-- `fields - list` is translated exactly like `fields + list`. -/
theorem C32_minus_is_plus (c : Ctx) (fs : List Str) (s : St) :
    transform c (.fields true fs) s = transform c (.fields false fs) s := by
  simp only [transform, fieldsTr]

/-- So the removed field stays and the others go. -/
theorem C32_minus_fails (x : Ext) : ∃ (fs : List Str) (S : Spark Nat) (t : St),
    transform ⟨.disallow, x⟩ (.fields true fs) ⟨1, none⟩ = some t ∧
    S.meaning t.cur ≠ (S.meaning DF.default).map fun r => r.filter fun c => !fs.contains c.1 := by
  refine ⟨[c!"a"], flat [[(c!"a", 1), (c!"b", 2)]], _, rfl, ?_⟩
  decide +kernel

example : (flat [[(c!"a", 1), (c!"b", 2)]]).meaning (.select DF.default [.named c!"b"]) = [[(c!"b", 2)]] := by
  decide +kernel

/-! ### C33: row limits -/

/-- standalone-only commands behave alike in both usual modes -/
theorem dispatch_standalone {m : Mode} {a : Option St} {t : St} (h : dispatch m none a = some t) : a = some t := by
  cases m <;> simp only [dispatch, orElse] at h <;> first | exact h | simp at h

theorem toU64_small {n : Int} (h0 : 0 ≤ n) (h1 : n < 2 ^ 64) : (toU64 n : Int) = n := by
  unfold toU64; omega

theorem toU64_neg {n : Int} (h0 : n < 0) (h1 : -(2 ^ 63) ≤ n) : (toU64 n : Int) = 2 ^ 64 + n := by
  unfold toU64; omega

/-- **C33** `head N` returns exactly the first `N` rows, for every non-negative 64-bit `N`. -/
theorem C33_head_partial (S : Spark V) (c : Ctx) (n : Nat) (keepLast null : Bool) (s t : St) (hn : n < 2 ^ 63)
    (h : transform c (.head (.const (.int n)) keepLast null) s = some t) :
    S.meaning t.cur = (S.meaning s.cur).take n := by
  rw [transform] at h
  have := dispatch_standalone h
  simp only [headTr, headLimit, Option.map_some, Option.some.injEq] at this
  subst this
  have e : toU64 (n : Int) = n := by have := toU64_small (n := n) (by omega) (by omega); omega
  simp only [St.put, St.cur, Option.getD_some, Spark.meaning, e]

/-- **C33** `head count<N` and `head count<=M` return the rows before the first row for which the
condition fails (`keeplast` adds that row), written from either side. -/
theorem C33_head_count_partial (S : Spark V) (c : Ctx) (n : Nat) (keepLast null : Bool) (s t : St) (hn : n + 2 < 2 ^ 63)
    (e : Expr) (limit : Nat)
    (he : (e = .binary (.const (.field c!"count")) c!"<" (.const (.int n)) ∧ limit = n) ∨
      (e = .binary (.const (.field c!"count")) c!"<=" (.const (.int n)) ∧ limit = n + 1) ∨
      (e = .binary (.const (.int n)) c!">" (.const (.field c!"count")) ∧ limit = n) ∨
      (e = .binary (.const (.int n)) c!">=" (.const (.field c!"count")) ∧ limit = n + 1))
    (h : transform c (.head e keepLast null) s = some t) :
    S.meaning t.cur = (S.meaning s.cur).take (limit + if keepLast then 1 else 0) := by
  rw [transform] at h
  have h := dispatch_standalone h
  have e1 : ∀ k : Nat, k < 2 ^ 63 → toU64 (k : Int) = k := fun k hk => by
    have := toU64_small (n := k) (by omega) (by omega); omega
  have key : headLimit e keepLast = some ((limit + if keepLast then 1 else 0 : Nat) : Int) := by
    rcases he with ⟨rfl, rfl⟩ | ⟨rfl, rfl⟩ | ⟨rfl, rfl⟩ | ⟨rfl, rfl⟩ <;> cases keepLast <;>
      simp [headLimit] <;> rfl
  simp only [headTr, key, Option.map_some, Option.some.injEq] at h
  subst h
  have hl : limit + (if keepLast then 1 else 0) < 2 ^ 63 := by
    rcases he with ⟨_, rfl⟩ | ⟨_, rfl⟩ | ⟨_, rfl⟩ | ⟨_, rfl⟩ <;> split <;> omega
  simp only [St.put, St.cur, Option.getD_some, Spark.meaning, e1 _ hl]

/-- **C33** `head count<N` and `head count<=N-1` are the same program, for every `N`. -/
theorem C33_head_strict_agrees (c : Ctx) (n : Int) (keepLast null : Bool) (s : St) :
    transform c (.head (.binary (.const (.field c!"count")) c!"<" (.const (.int n))) keepLast null) s =
      transform c (.head (.binary (.const (.field c!"count")) c!"<=" (.const (.int (n - 1)))) keepLast null) s := by
  have : headLimit (.binary (.const (.field c!"count")) c!"<" (.const (.int n))) keepLast =
      headLimit (.binary (.const (.field c!"count")) c!"<=" (.const (.int (n - 1)))) keepLast := by
    simp [headLimit]
  simp only [transform, headTr, this]

/-- **C33** `tail N` returns exactly the last `N` rows. -/
theorem C33_tail (S : Spark V) (c : Ctx) (n : Nat) (s t : St) (h : transform c (.tail n) s = some t) :
    S.meaning t.cur = (S.meaning s.cur).drop ((S.meaning s.cur).length - n) ∧
      (S.meaning t.cur).length = min n (S.meaning s.cur).length := by
  rw [transform] at h
  have h := dispatch_standalone h
  simp only [tailTr, Option.some.injEq] at h
  subst h
  simp only [St.put, St.cur, Option.getD_some, Spark.meaning, List.length_drop, true_and]
  omega

/-- **C33** `sort N` returns the first `N` rows of the sorted table for positive `N`, all of them for
`N = 0` (which is Splunk's meaning of zero here). -/
theorem C33_sort_partial (S : Spark V) (c : Ctx) (ks : List (Option Str × Expr)) (n : Nat) (d : Bool) (s t t0 : St)
    (hn : n < 2 ^ 63) (h : transform c (.sort ks n d) s = some t) (h0 : transform c (.sort ks 0 d) s = some t0) :
    S.meaning t.cur = if n = 0 then S.meaning t0.cur else (S.meaning t0.cur).take n := by
  rw [transform] at h h0
  have h := dispatch_standalone h
  have h0 := dispatch_standalone h0
  simp only [sortTr, Option.map_eq_some_iff] at h h0
  obtain ⟨k, hk, rfl⟩ := h
  obtain ⟨k', hk', rfl⟩ := h0
  rw [hk, Option.some.injEq] at hk'
  subst hk'
  have e1 : toU64 (n : Int) = n := by have := toU64_small (n := n) (by omega) (by omega); omega
  by_cases hz : n = 0
  · simp [hz]
  · simp [hz, St.put, St.cur, Spark.meaning, e1]

/-- **C33** `top N`/`rare N` keep the first `N` rows of the unlimited result, `N = 0` meaning no limit. -/
theorem C33_top_partial (S : Spark V) (c : Ctx) (a : TopRare) (s t t0 : St) (rare : Bool)
    (h : transform c (if rare then .rare a else .top a) s = some t)
    (h0 : transform c (if rare then .rare { a with n := 0 } else .top { a with n := 0 }) s = some t0) :
    S.meaning t.cur = if a.n = 0 then S.meaning t0.cur else (S.meaning t0.cur).take a.n := by
  have key : ∀ dir, topRareTr dir a s = some t → topRareTr dir { a with n := 0 } s = some t0 →
      S.meaning t.cur = if a.n = 0 then S.meaning t0.cur else (S.meaning t0.cur).take a.n := by
    intro dir h h0
    unfold topRareTr at h h0
    split at h
    · simp at h
    · rename_i hu
      simp only [hu, Bool.false_eq_true, if_false, Option.some.injEq] at h h0
      subst h; subst h0
      by_cases hz : a.n = 0 <;> simp [hz, St.put, St.cur, Spark.meaning]
  cases rare
  · simp only [Bool.false_eq_true, if_false, transform] at h h0
    exact key _ (dispatch_standalone h) (dispatch_standalone h0)
  · simp only [if_true, transform] at h h0
    exact key _ (dispatch_standalone h) (dispatch_standalone h0)

/-- A negative limit is not rejected: it becomes a limit above `2^63`, which keeps everything. -/
theorem C33_negative_not_rejected (c : Ctx) (n : Int) (keepLast null : Bool) (s : St) (hn : n < 0) (h63 : -(2 ^ 63) ≤ n) :
    transform ⟨.disallow, c.ext⟩ (.head (.const (.int n)) keepLast null) s =
      some (s.put (.limit s.cur (2 ^ 64 - n.natAbs))) := by
  have : toU64 n = 2 ^ 64 - n.natAbs := by have := toU64_neg hn h63; omega
  simp only [transform, dispatch, headTr, headLimit, Option.map_some, this]

/-- The same holds for `tail` and `sort` from the query text on. -/
theorem C33_negative_queries :
    (parse c!"head -5").bind (renderPipeline ⟨.disallow, ⟨fun _ => none, id⟩⟩) =
      some c!"spark.table('main').limit(18446744073709551611,)" ∧
    (parse c!"tail -5").bind (renderPipeline ⟨.disallow, ⟨fun _ => none, id⟩⟩) =
      some c!"spark.table('main').tail(18446744073709551611)" ∧
    (parse c!"sort limit=-5 x").bind (renderPipeline ⟨.disallow, ⟨fun _ => none, id⟩⟩) =
      some c!"spark.table('main').orderBy(F.col('x').asc(),).limit(18446744073709551611,)" := by
  decide +kernel

example (x : Ext) : (transform ⟨.disallow, x⟩ (.head (.const (.int 7)) false false) ⟨1, none⟩).isSome = true := rfl
example (x : Ext) : (transform ⟨.disallow, x⟩
    (.head (.binary (.const (.int 7)) c!">=" (.const (.field c!"count"))) true false) ⟨1, none⟩).isSome = true := rfl
example (x : Ext) : (transform ⟨.disallow, x⟩ (.sort [(some c!"-", .const (.field c!"a"))] 5 true) ⟨1, none⟩).isSome = true := rfl

end Verif.Props
