import Verif.Tr.Commands
/-
C14 (pipelines compose), C15 (unsupported commands are always reported), C51 (formatter).
-/
namespace Verif.Props
open Verif

/-! ### C14 -/

/-- One step of the pipeline driver: apply a command to the state of the commands before it. -/
def step (c : Ctx) (s : Option St) (cmd : Command) : Option St := s.bind (transform c cmd)

theorem runCmds_foldl (c : Ctx) (p : Pipeline) (s : St) :
    runCmds c p s = p.foldl (step c) (some s) := by
  have none_stays : ∀ q : Pipeline, q.foldl (step c) none = none := by
    intro q; induction q with
    | nil => rfl
    | cons a q ih => simpa [step] using ih
  induction p generalizing s with
  | nil => simp [runCmds]
  | cons a p ih =>
    rw [runCmds]
    simp only [List.foldl_cons, step, Option.bind_some]
    cases h : transform c a s with
    | none => exact (none_stays p).symm
    | some s' => exact ih s'

theorem runCmds_append (c : Ctx) (p q : Pipeline) (s : St) :
    runCmds c (p ++ q) s = (runCmds c p s).bind (runCmds c q) := by
  rw [runCmds_foldl, List.foldl_append, ← runCmds_foldl]
  cases h : runCmds c p s with
  | some s' => simp [runCmds_foldl]
  | none =>
    simp only [Option.bind_none]
    induction q with
    | nil => rfl
    | cons a q ih => simpa [step] using ih

/-- **C14** The program of a pipeline is obtained by applying the commands one after the other,
each to the result of those before it, starting from the empty state. -/
theorem C14_fold (c : Ctx) (p : Pipeline) :
    renderPipeline c p =
      (p.foldl (step c) (some ⟨1, none⟩)).map fun s => (s.df.map fun d => d.render.text).getD [] := by
  unfold renderPipeline
  rw [runCmds_foldl]
  cases p.foldl (step c) (some ⟨1, none⟩) with
  | none => rfl
  | some s => cases h : s.df <;> simp [h]

/-- **C14** Translating `A` followed by `B` is translating `A` and continuing with `B`. -/
theorem C14_append (c : Ctx) (p q : Pipeline) (s : St) :
    runCmds c (p ++ q) s = (runCmds c p s).bind (runCmds c q) := runCmds_append c p q s

/-- **C14** A failing command fails the whole program: wherever it stands, there is no output. -/
theorem C14_failure (c : Ctx) (p q : Pipeline) (cmd : Command)
    (h : ∀ s, transform c cmd s = none) : renderPipeline c (p ++ cmd :: q) = none := by
  unfold renderPipeline
  rw [runCmds_append]
  cases runCmds c p ⟨1, none⟩ with
  | none => rfl
  | some s => simp [runCmds, h]

/-- **C14** If a prefix of the pipeline fails then so does the pipeline. -/
theorem C14_prefix_failure (c : Ctx) (p q : Pipeline) (h : renderPipeline c p = none) :
    renderPipeline c (p ++ q) = none := by
  unfold renderPipeline at h ⊢
  rw [runCmds_append]
  cases hp : runCmds c p ⟨1, none⟩ with
  | none => rfl
  | some s => simp [hp] at h

/-- Two commands in order: the table first, then the limit on top of it. -/
example (x : Ext) : renderPipeline ⟨.disallow, x⟩ [.table [c!"a"], .tail 3] =
    some c!"spark.table('main').select(F.col('a'),).tail(3)" := by rfl

/-- A command that never translates (hypothesis of `C14_failure`). -/
example (c : Ctx) (s : St) : transform c (.mvCombine none c!"f") s = none := rfl

/-! ### C15 -/

/-- The commands without a translation. -/
def isUnsupported : Command → Bool
  | .collect .. | .dedup .. | .eventStats .. | .format .. | .inputLookup .. | .map ..
  | .mvCombine .. | .mvExpand .. | .return_ .. | .streamStats .. => true
  | _ => false

mutual
/-- An unsupported command, or a sub-search of `join` or `multisearch` containing one. -/
def usesUnsupported : Command → Bool
  | .join _ _ sub => anyUnsupported sub
  | .multiSearch ps => anyUnsupported2 ps
  | c => isUnsupported c

/-- Some command of the pipeline is unsupported or has an unsupported sub-search. -/
def anyUnsupported : List Command → Bool
  | [] => false
  | c :: cs => usesUnsupported c || anyUnsupported cs

/-- Some pipeline of the list is unsupported. -/
def anyUnsupported2 : List (List Command) → Bool
  | [] => false
  | p :: ps => anyUnsupported p || anyUnsupported2 ps
end

theorem dispatch_none (m : Mode) : dispatch m none none = none := by cases m <;> rfl

mutual
theorem transform_unsupported (c : Ctx) : ∀ (cmd : Command) (s : St), usesUnsupported cmd = true →
    transform c cmd s = none := by
  intro cmd s h
  match cmd, h with
  | .join o fs sub, h =>
    have h' : anyUnsupported sub = true := by simpa [usesUnsupported] using h
    have := runCmds_unsupported c sub ⟨s.next, none⟩ h'
    rw [transform, this]
    have : joinTr o fs none s = none := by
      unfold joinTr joinOutcome
      split <;> rfl
    rw [this]; exact dispatch_none _
  | .multiSearch ps, h =>
    have h' : anyUnsupported2 ps = true := by simpa [usesUnsupported] using h
    have hm := multiTr_unsupported c ps s.next none h'
    cases ps with
    | nil => simp [anyUnsupported2] at h'
    | cons p ps => rw [transform, hm]; exact dispatch_none _; simp
  | .collect .., _ | .dedup .., _ | .eventStats .., _ | .format .., _ | .inputLookup .., _
  | .map .., _ | .mvCombine .., _ | .mvExpand .., _ | .return_ .., _ | .streamStats .., _ => rfl
  | .addTotals _, h | .bin _, h | .convert .., h | .dataModel _, h | .eval _, h | .fields .., h
  | .fillNull .., h | .head .., h | .lookup _, h | .makeResults _, h | .rare _, h | .regex .., h
  | .rename _, h | .rex _, h | .sort .., h | .spath .., h | .stats .., h | .table _, h | .tail _, h
  | .top _, h | .tstats .., h | .where_ _, h | .search _, h =>
    exact absurd h (by simp [usesUnsupported, isUnsupported])

theorem runCmds_unsupported (c : Ctx) : ∀ (p : List Command) (s : St), anyUnsupported p = true →
    runCmds c p s = none := by
  intro p s h
  match p with
  | [] => simp [anyUnsupported] at h
  | a :: p =>
    rw [runCmds]
    rw [anyUnsupported, Bool.or_eq_true] at h
    cases ht : transform c a s with
    | none => rfl
    | some s' =>
      cases h with
      | inl h => rw [transform_unsupported c a s h] at ht; simp at ht
      | inr h => exact runCmds_unsupported c p s' h

theorem multiTr_unsupported (c : Ctx) : ∀ (ps : List (List Command)) (n : Nat) (acc : Option DF),
    anyUnsupported2 ps = true → multiTr c ps n acc = none := by
  intro ps n acc h
  match ps with
  | [] => simp [anyUnsupported2] at h
  | p :: ps =>
    rw [multiTr]
    rw [anyUnsupported2, Bool.or_eq_true] at h
    cases hr : runCmds c p ⟨n, none⟩ with
    | none => rfl
    | some s =>
      cases h with
      | inl h => rw [runCmds_unsupported c p _ h] at hr; simp at hr
      | inr h =>
        cases hd : s.df with
        | none => simp [hd]
        | some d => simp only [hd]; exact multiTr_unsupported c ps _ _ h
end

/-- **C15** A pipeline with an untranslatable command anywhere, also inside a translated
sub-search, is never rendered, with or without the runtime, formatted or not. -/
theorem C15_unsupported_reported (x : Ext) (fmt : Str → Option Str) (p : Pipeline)
    (allowRuntime formatCode : Bool) (h : anyUnsupported p = true) :
    renderPyspark x fmt p allowRuntime formatCode = none := by
  unfold renderPyspark renderPipeline
  rw [runCmds_unsupported _ p _ h]; rfl

/-- `search a | join x [dedup y] | table z` -/
example : anyUnsupported [.search (.const (.field c!"a")),
    .join ⟨c!"inner", false, true, true, 1⟩ [c!"x"] [.dedup 1 [c!"y"] false false false []],
    .table [c!"z"]] = true := by decide

/-- A pipeline without such a command does render. -/
example (x : Ext) : (renderPyspark x (fun _ => none) [.table [c!"z"]] true true).isSome = true := rfl

/-! ### C51 -/

/-- **C51** Asking for formatted code gives either the formatter's output or the unformatted
program, and fails only if the unformatted rendering fails. -/
theorem C51_format_fallback (x : Ext) (fmt : Str → Option Str) (p : Pipeline) (allowRuntime : Bool) :
    renderPyspark x fmt p allowRuntime true =
      (renderPyspark x fmt p allowRuntime false).map fun code => (fmt code).getD code := by
  unfold renderPyspark
  cases renderPipeline ⟨if allowRuntime then .allow else .disallow, x⟩ p with
  | none => rfl
  | some code => show some _ = some _; congr 1; show (match fmt code with | some t => t | none => code) = (fmt code).getD code; cases fmt code <;> rfl

/-- **C51** The unformatted program does not depend on the formatter. -/
theorem C51_unformatted (x : Ext) (fmt fmt' : Str → Option Str) (p : Pipeline) (allowRuntime : Bool) :
    renderPyspark x fmt p allowRuntime false = renderPyspark x fmt' p allowRuntime false := rfl

/-- A formatter that always fails: the program is returned as it is. -/
example (x : Ext) : renderPyspark x (fun _ => none) [.tail 3] false true =
    some c!"spark.table('main').tail(3)" := rfl

end Verif.Props
