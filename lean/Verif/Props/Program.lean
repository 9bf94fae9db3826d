import Verif.Lemmas.ProgText
import Verif.Lemmas.PlainRun
import Verif.Props.Names
import Verif.Spl.Fix
import Verif.Tests.Repo
/-
C19 (variables are assigned before they are used), C59 (the generated program can be read).

The specification of the reader is `Spec/Python` and `Spec/Program`, that of the queries `Spec/Plain`.
-/
namespace Verif.Props
open Verif Verif.Spec Verif.Lemmas

/-! ### the assigned names -/

theorem operand_stmts {p : Option PyProg} {e : PyE} (h : operand p = some e) : p = some ⟨[], e⟩ := by
  unfold operand at h
  split at h
  · cases h; rfl
  · cases h

theorem onResult_stmts {p : Option PyProg} {f : PyE → Option PyE} {q : PyProg} (h : onResult p f = some q) :
    ∃ r, p = some r ∧ q.stmts = r.stmts ∧ f r.result = some q.result := by
  unfold onResult at h
  split at h
  · cases h
  · simp only [Option.map_eq_some_iff] at h
    obtain ⟨e, he, rfl⟩ := h
    exact ⟨_, rfl, rfl, he⟩

theorem addStmt_stmts {n : Str} {ok : Bool} {p : Option PyProg} {f : PyE → Option PyE} {q : PyProg} (h : addStmt n ok p f = some q) :
    ∃ r e, p = some r ∧ q.stmts = r.stmts ++ [(n, e)] := by
  unfold addStmt at h
  split at h
  · cases h
  · split at h
    · simp only [Option.map_eq_some_iff] at h
      obtain ⟨e, _, rfl⟩ := h
      exact ⟨_, e, rfl, rfl⟩
    · cases h

/-- the statements of a frame assign its names, in order -/
theorem stmts_assigned : ∀ {d : DF} {p : PyProg}, progTree d = some p → p.stmts.map (·.1) = assigned d
  | .source n, p, h => by
    rw [progTree] at h
    split at h <;> cases h; rfl
  | .rawSource c, p, h => by
    rw [progTree] at h
    simp only [Option.map_eq_some_iff] at h
    obtain ⟨e, _, rfl⟩ := h; rfl
  | .runtimeRoot n f as ks, p, h => by
    rw [progTree] at h
    obtain ⟨r, e, hr, hs⟩ := addStmt_stmts h
    cases hr
    rw [hs]; rfl
  | .runtime n d f as ks, p, h => by
    rw [progTree] at h
    obtain ⟨r, e, hr, hs⟩ := addStmt_stmts h
    rw [hs, List.map_append, stmts_assigned hr]; rfl
  | .named d n, p, h => by
    rw [progTree] at h
    obtain ⟨r, e, hr, hs⟩ := addStmt_stmts h
    rw [hs, List.map_append, stmts_assigned hr]; rfl
  | .unionByName d o, p, h => by
    rw [progTree] at h
    obtain ⟨r, hr, hs, ho⟩ := onResult_stmts h
    simp only [Option.map_eq_some_iff] at ho
    obtain ⟨t, ht, _⟩ := ho
    have := stmts_assigned (operand_stmts ht)
    rw [hs, stmts_assigned hr, assigned, ← this]; simp
  | .join d o c ty, p, h => by
    rw [progTree] at h
    obtain ⟨r, hr, hs, ho⟩ := onResult_stmts h
    split at ho
    · rename_i ht _ _
      have := stmts_assigned (operand_stmts ht)
      rw [hs, stmts_assigned hr, assigned, ← this]; simp
    · cases ho
  | .select d _, p, h | .where_ d _, p, h | .groupBy d _, p, h | .agg d _, p, h | .withColumn d _ _, p, h
  | .withColumnRenamed d _ _, p, h | .orderBy d _, p, h | .limit d _, p, h | .tail d _, p, h | .alias d _, p, h
  | .arbitraryMethod d _ _, p, h => by
    rw [progTree] at h
    obtain ⟨r, hr, hs, _⟩ := onResult_stmts h
    rw [hs, stmts_assigned hr]; rfl

/-! ### the theorems -/

theorem render_frame {c : Ctx} {p : Pipeline} {txt : Str} (h : renderPipeline c p = some txt) (hne : txt ≠ []) :
    ∃ s d, runCmds c p ⟨1, none⟩ = some s ∧ s.df = some d ∧ txt = d.render.text := by
  unfold renderPipeline at h
  simp only [Option.map_eq_some_iff] at h
  obtain ⟨s, hs, rfl⟩ := h
  cases hd : s.df with
  | none => rw [hd] at hne; exact absurd rfl hne
  | some d => exact ⟨s, d, hs, hd, by simp only [hd]⟩

theorem plain_reads {c : Ctx} (hx : Arranges c.ext) {p : Pipeline} (hp : plainP c p = true) (ho : ordered c.mode .expr p = true)
    {txt : Str} (h : renderPipeline c p = some txt) (hne : txt ≠ []) :
    ∃ s d q, runCmds c p ⟨1, none⟩ = some s ∧ s.df = some d ∧ readProg txt = some q ∧ progTree d = some q ∧
      inScope globals q.stmts q.result = true ∧ (q.stmts.all fun s => isCommand s.2) = true := by
  obtain ⟨s, d, hs, hd, rfl⟩ := render_frame h hne
  obtain ⟨st, hst⟩ := runCmds_fine hx p hp ho (fun d hd => by cases hd) hs
  obtain ⟨q, h1, h2, _, h4⟩ := (hst d hd).ok
  exact ⟨s, d, q, hs, hd, read_prog h1, h1, h2, h4⟩

/-- **C59** (partial).  For a plain query whose runtime commands are in front of the others the
generated program is read by Python's rules: lines `name = expression`, then one expression.
Missing: the full claim has no conditions on the query; the theorems below show that it fails
without them. -/
theorem C59_reads_partial {c : Ctx} (hx : Arranges c.ext) {p : Pipeline} (hp : plainP c p = true)
    (ho : ordered c.mode .expr p = true) {txt : Str} (h : renderPipeline c p = some txt) (hne : txt ≠ []) :
    ∃ q, readProg txt = some q ∧ (q.stmts.all fun s => isCommand s.2) = true := by
  obtain ⟨_, _, q, _, _, h1, _, _, h2⟩ := plain_reads hx hp ho h hne
  exact ⟨q, h1, h2⟩

theorem disallow_ordered : ∀ (p : List Command), ordered .disallow .expr p = true
  | [] => rfl
  | cmd :: p => by
    have : usesRt .disallow cmd = false := by cases cmd <;> rfl
    rw [ordered, this]
    exact disallow_ordered p

/-- **C59** (partial), without the runtime library: the program is one expression, and it refers to
nothing but the session, the function module and Python's constants. -/
theorem C59_standalone_partial {x : Ext} (hx : Arranges x) {p : Pipeline} (hp : plainP ⟨.disallow, x⟩ p = true)
    {txt : Str} (h : renderPipeline ⟨.disallow, x⟩ p = some txt) (hne : txt ≠ []) :
    ∃ e, readProg txt = some ⟨[], e⟩ ∧ ∀ v ∈ vars e, v ∈ globals := by
  obtain ⟨s, d, q, hs, hd, h1, h2, h3, _⟩ := plain_reads hx hp (disallow_ordered p) h hne
  obtain ⟨ss, e⟩ := q
  have hn : ss = [] := by
    have h4 := stmts_assigned h2
    obtain ⟨h5, _, A, ks, h6, hA, _, hk⟩ := runCmds_grows _ _ _ _ hs
    have hA' : A = [] := by rcases hA with h | h <;> simpa [assignedO] using h
    have h7 := h5 rfl
    rw [hd] at h6
    rw [hA', List.nil_append, assignedO] at h6
    cases ks with
    | nil =>
      rw [h6] at h4
      simpa using h4
    | cons k ks =>
      have := hk k (by simp)
      simp only at this h7
      omega
  subst hn
  refine ⟨e, h1, fun v hv => ?_⟩
  simp only [inScope, List.all_eq_true] at h3
  exact List.contains_iff_mem.1 (h3 v hv)

/-- **C19** (partial).  Under the conditions of `C59_reads_partial` every statement is one line
`df_N = commands.f(...)`, the numbers increase, and every variable that occurs in a statement or in
the final expression is one of the fixed names or assigned by an earlier statement. -/
theorem C19_scope_partial {c : Ctx} (hx : Arranges c.ext) {p : Pipeline} (hp : plainP c p = true)
    (ho : ordered c.mode .expr p = true) {txt : Str} (h : renderPipeline c p = some txt) (hne : txt ≠ []) :
    ∃ q, readProg txt = some q ∧ inScope globals q.stmts q.result = true ∧ (q.stmts.all fun s => isCommand s.2) = true ∧
      ∃ ks : List Nat, q.stmts.map (·.1) = ks.map dfName ∧ ks.Pairwise (· < ·) ∧ ∀ k ∈ ks, 1 ≤ k := by
  obtain ⟨s, d, q, hs, hd, h1, h2, h3, h4⟩ := plain_reads hx hp ho h hne
  obtain ⟨_, ks, h5, h6, h7⟩ := C18_names_distinct c p s hs
  rw [hd] at h5
  exact ⟨q, h1, h3, h4, ks, (stmts_assigned h2).trans h5, h6, h7⟩

theorem arranges_tests : Arranges Tests.ext := fun _ => List.Perm.refl _

/-- a text as it comes out -/
def outOf (m : Mode) (s : Str) : Option Str := (parse s).bind (renderPipeline ⟨m, Tests.ext⟩)

/-- the conditions hold -/
def plainText (m : Mode) (s : Str) : Bool :=
  match parse s with
  | none => false
  | some p => plainP ⟨m, Tests.ext⟩ p && ordered m .expr p

/-- Queries that meet the conditions, with and without the runtime, and their programs. -/
example : plainText .allow c!"index=main x=1 | eval y=x+1 | stats count by y | fields y | where y>3" = true ∧
    (outOf .allow c!"index=main x=1 | eval y=x+1 | stats count by y | fields y | where y>3").bind readProg = some
      ⟨[(c!"df_1", mCall (.name c!"commands") c!"search" [.name c!"None", .kwarg c!"index" (.str c!"main"),
          .kwarg c!"x" (fCall c!"lit" [.num c!"1" []])]),
        (c!"df_2", mCall (.name c!"commands") c!"eval" [.name c!"df_1",
          .kwarg c!"y" (.bin c!"+" (fCall c!"col" [.str c!"x"]) (fCall c!"lit" [.num c!"1" []]))]),
        (c!"df_3", mCall (.name c!"commands") c!"stats" [.name c!"df_2", .kwarg c!"by" (.list [fCall c!"col" [.str c!"y"]]),
          .kwarg c!"count" (.call (.attr (.attr (.name c!"functions") c!"stats") c!"count") [])])],
       mCall (mCall (.name c!"df_3") c!"select" [fCall c!"col" [.str c!"y"]]) c!"where"
         [.bin c!">" (fCall c!"col" [.str c!"y"]) (fCall c!"lit" [.num c!"3" []])]⟩ := by
  decide +kernel

example : plainText .disallow c!"index=main NOT x=a* | eval y=if(x>1, \"a b\", lower(z)) | join type=left k [search index=o | rename a AS b] | sort -y" = true ∧
    ((outOf .disallow c!"index=main NOT x=a* | eval y=if(x>1, \"a b\", lower(z)) | join type=left k [search index=o | rename a AS b] | sort -y").bind readProg).isSome = true := by
  decide +kernel

/-! ### where the claims fail -/

/-- **C19** and **C59** fail: when a runtime command follows a standalone one, which follows a
runtime command, the statements of the earlier part are written into the argument list. -/
theorem C19_mixed_fails :
    outOf .allow c!"search x=1 | table a | search y=2" =
      some c!"df_2 = commands.search(df_1 = commands.search(None, x=F.lit(1))\ndf_1.select(F.col('a'),), y=F.lit(2))\ndf_2" ∧
    readProg c!"df_2 = commands.search(df_1 = commands.search(None, x=F.lit(1))\ndf_1.select(F.col('a'),), y=F.lit(2))\ndf_2" = none := by
  decide +kernel

/-- **C19** and **C59** fail for sub-searches that use the runtime, in `multisearch` and in `join`. -/
theorem C19_subsearch_fails :
    outOf .allow c!"multisearch [search x=1] [search y=2]" =
      some c!"df_1 = commands.search(None, x=F.lit(1))\ndf_1.unionByName(df_2 = commands.search(None, y=F.lit(2))\ndf_2, allowMissingColumns=True,)" ∧
    readProg c!"df_1 = commands.search(None, x=F.lit(1))\ndf_1.unionByName(df_2 = commands.search(None, y=F.lit(2))\ndf_2, allowMissingColumns=True,)" = none ∧
    outOf .allow c!"search x=1 | join a [search y=2]" =
      some c!"df_1 = commands.search(None, x=F.lit(1))\ndf_1.alias('LEFT',).join(df_2 = commands.search(None, y=F.lit(2))\ndf_2.alias('RIGHT',), (F.col('LEFT.a') == F.col('RIGHT.a')), 'inner',)" ∧
    readProg c!"df_1 = commands.search(None, x=F.lit(1))\ndf_1.alias('LEFT',).join(df_2 = commands.search(None, y=F.lit(2))\ndf_2.alias('RIGHT',), (F.col('LEFT.a') == F.col('RIGHT.a')), 'inner',)" = none := by
  decide +kernel

/-- **C59** fails for names that are keywords of Python: in `eval` they become keyword arguments, in
function calls names of functions; and for a name that is given twice. -/
theorem C59_keywords_fail :
    outOf .allow c!"eval if=2" = some c!"df_1 = commands.eval(None, if=F.lit(2))\ndf_1" ∧
    readProg c!"df_1 = commands.eval(None, if=F.lit(2))\ndf_1" = none ∧
    outOf .disallow c!"eval x=lambda(a)" = some c!"spark.table('main').withColumn('x', F.lambda(F.col('a')),)" ∧
    readProg c!"spark.table('main').withColumn('x', F.lambda(F.col('a')),)" = none ∧
    outOf .allow c!"search a=1 a=2" = some c!"df_1 = commands.search(None, a=F.lit(1), a=F.lit(2))\ndf_1" ∧
    readProg c!"df_1 = commands.search(None, a=F.lit(1), a=F.lit(2))\ndf_1" = none := by
  decide +kernel

/-- **C59** fails for strings with a quote. -/
theorem C59_quotes_fail :
    outOf .disallow c!"where a=\"it's\"" = some c!"spark.table('main').where((F.col('a') == F.lit('it's')),)" ∧
    readProg c!"spark.table('main').where((F.col('a') == F.lit('it's')),)" = none := by
  decide +kernel

/-- The program can be read but refers to undefined names: `true` in a comparison, and the server
group of `makeresults`. -/
theorem C59_undefined_fail :
    outOf .disallow c!"where a=true" = some c!"spark.table('main').where((F.col('a') == F.lit(true)),)" ∧
    ((readProg c!"spark.table('main').where((F.col('a') == F.lit(true)),)").map fun q => inScope globals q.stmts q.result) = some false ∧
    ((outOf .disallow c!"makeresults annotate=true splunk_server_group=abc").bind readProg).map
      (fun q => (inScope globals q.stmts q.result, inScope (c!"abc" :: globals) q.stmts q.result)) = some (false, true) := by
  decide +kernel

end Verif.Props
