import Verif.Props.Query
import Verif.Props.Program
import Verif.Props.Pipeline
/-
C90: stages that are not a command.
-/
namespace Verif.Props
open Verif Spl Spec Lemmas

/-- Stages put after a query. -/
theorem pipe_more {b' : Bool} {c' : Command} {ds : List Command} {t g₁ g₂ : Str} (h₁ : Gap g₁) (h₂ : Blanks g₂) (ht : PipeText b' (c' :: ds) t) :
    ∀ {b : Bool} {cs : List Command} {s : Str}, PipeText b cs s → PipeText b' (cs ++ c' :: ds) (s ++ (g₁ ++ '|' :: (g₂ ++ t)))
  | _, _, _, .one h => .cons h (.inr h₁) (fun _ => h₁.ne) h₂ ht
  | _, _, _, .cons (cs := cs) (s := s) (g₁ := k₁) (g₂ := k₂) (t := u) h hb hne hb' hrest => by
    have := PipeText.cons h hb hne hb' (pipe_more h₁ h₂ ht hrest)
    simpa [List.append_assoc] using this

/-- **C90** (partial): a stage written in the form of a command is read as that command, whatever stands before it. -/
theorem C90_command_partial {b b' : Bool} {cs : List Command} {c : Command} {q s g₁ g₂ : Str} (hq : PipeText b cs q) (hg : Gap g₁) (hg' : Blanks g₂)
    (h : CmdText b' c s) : parse (q ++ (g₁ ++ '|' :: (g₂ ++ s))) = some (cs ++ [c]) := by
  have := C69_read_partial (QueryText.direct (g₁ := []) (g₂ := []) (.inl rfl) (pipe_more hg hg' (.one h) hq) (.inl rfl))
  simpa using this

/-! ### words -/

/-- a word that is neither reserved nor read as a truth value -/
structure PlainWord (w : Str) : Prop where
  field : IsField w
  notIndex : w ≠ c!"index"

/-- words with blanks between them; the operators `or`, `and` and `in` are not among them -/
def WordsText : Str → List Str → Str → Prop := fun w ws s => Items (fun g t => Gap g ∧ NoOperator t) (fun w t => t = w ∧ PlainWord w) (w :: ws) s

/-- the events whose text has all the words in it -/
def containsAll : Str → List Str → Str
  | acc, [] => acc
  | acc, w :: ws => containsAll (c!"(" ++ acc ++ c!" & F.col('_raw').ilike(\"%" ++ w ++ c!"%\"))") ws

theorem items_written : ∀ {ws : List Str} {s : Str}, Items (fun g t => Gap g ∧ NoOperator t) (fun w t => t = w ∧ PlainWord w) ws s →
    Items byTerm (Written 9) (ws.map fun w => .const (.field w)) s ∧ ∀ w ∈ ws, PlainWord w
  | _, _, .one ⟨he, h⟩ => by
    subst he
    refine ⟨.one ?_, by simpa using h⟩
    exact .up (.up (.up (.up (.up (.up (.up (.field h.field.name h.field.notT h.field.notF) (by omega)) (by omega)) (by omega)) (by omega)) (by omega)) (by omega)) (by omega)
  | _, _, .cons ⟨he, h⟩ hs ht => by
    subst he
    obtain ⟨h1, h2⟩ := items_written ht
    refine ⟨.cons ?_ (.inr hs) h1, fun w hw => ?_⟩
    · exact .up (.up (.up (.up (.up (.up (.up (.field h.field.name h.field.notT h.field.notF) (by omega)) (by omega)) (by omega)) (by omega)) (by omega)) (by omega)) (by omega)
    · rcases List.mem_cons.1 hw with rfl | hw
      · exact h
      · exact h2 w hw

theorem ilike_text (w : Str) : renderE (rawTest w) = c!"F.col('_raw').ilike(\"%" ++ w ++ c!"%\")" := by
  simp [rawTest, PE.mkMethod, PE.unalias, pyStr, renderE, renderArgs, joinWith, List.append_assoc]

theorem words_split : ∀ (ws : List Str) (e : Expr), (∀ w ∈ ws, w ≠ c!"index") → isIndex e = false → splitConditions true e = some (some e, []) →
    splitConditions true (joinLeft c!"AND" e (ws.map fun w => .const (.field w))) = some (some (joinLeft c!"AND" e (ws.map fun w => .const (.field w))), [])
  | [], _, _, _, h => h
  | w :: ws, e, hw, hi, h => by
    rw [List.map_cons, joinLeft]
    refine words_split ws _ (fun v hv => hw v (List.mem_cons_of_mem _ hv)) rfl ?_
    have hx : isIndex (.const (.field w)) = false := by simp [isIndex, hw w (List.mem_cons_self ..)]
    rw [splitConditions]
    simp [hi, hx, h, splitConditions, recombine]

theorem words_tr (m : Mode) : ∀ (ws : List Str) (e : Expr) (p : PE) (acc : Str), (∀ w ∈ ws, PlainWord w) → exprTr m e = some p → p.unalias = p → p.aliasName = none →
    (searchRw p).unalias = searchRw p → renderE (searchRw p) = acc →
    ∃ q, exprTr m (joinLeft c!"AND" e (ws.map fun w => .const (.field w))) = some q ∧ q.unalias = q ∧ q.aliasName = none ∧ (searchRw q).unalias = searchRw q ∧
      renderE (searchRw q) = containsAll acc ws
  | [], _, p, _, _, h, hu, ha, hu', hr => ⟨p, h, hu, ha, hu', hr⟩
  | w :: ws, e, p, acc, hw, h, hu, _, hu', hr => by
    rw [List.map_cons, joinLeft, containsAll]
    refine words_tr m ws _ (.bin c!"&" p (.named w)) _ (fun v hv => hw v (List.mem_cons_of_mem _ hv)) ?_ rfl rfl rfl ?_
    · rw [exprTr, h]
      have hu2 : PE.unalias (.named w) = .named w := rfl
      simp only [binTr, exprTr, constTr, generalBin, PE.mkBin, hu, hu2]
      rfl
    · have hn : (rawTest w).unalias = rawTest w := rfl
      simp only [searchRw, if_true, PE.mkBin, hu', hn, Bool.true_or, decide_true, renderE, hr, ilike_text w]
      simp [List.append_assoc]

/-- Disagreement: a stage that begins with no name of a command, such as a command of the language that is not supported or one
whose name is misspelt, is taken for a search: the events without these words are removed. -/
theorem C90_unknown_is_a_search (x : Ext) (hx : Arranges x) {b : Bool} {cs : List Command} {q p w s g₁ g₂ : Str} {ws : List Str} (hq : PipeText b cs q)
    (hp : renderPipeline ⟨.disallow, x⟩ cs = some p) (hne : p ≠ []) (hg : Gap g₁) (hg' : Blanks g₂) (hs : WordsText w ws s) (hn : NoCommand s) :
    (parse (q ++ (g₁ ++ '|' :: (g₂ ++ s)))).bind (renderPipeline ⟨.disallow, x⟩) =
      some (p ++ c!".where(" ++ containsAll (c!"F.col('_raw').ilike(\"%" ++ w ++ c!"%\")") ws ++ c!",)") := by
  obtain ⟨hi, hw⟩ := items_written hs
  rw [C90_command_partial hq hg hg' (.implicit hi hn), Option.bind_some]
  rw [renderPipeline, Option.map_eq_some_iff] at hp
  obtain ⟨st, hst, hd⟩ := hp
  have ho : x.order [] = [] := List.perm_nil.1 (hx [])
  have hw0 := hw w (List.mem_cons_self ..)
  have hws := fun v hv => hw v (List.mem_cons_of_mem w hv)
  have hsp := words_split ws (.const (.field w)) (fun v hv => (hws v hv).notIndex) (by simp [isIndex, hw0.notIndex]) rfl
  obtain ⟨pe, ht, hu, ha, hu', hr⟩ := words_tr .disallow ws (.const (.field w)) (.named w) _ hws rfl rfl rfl rfl (ilike_text w)
  rw [renderPipeline, runCmds_append, hst, Option.bind_some]
  have hint : (intoSearch pe).unalias = searchRw pe := by rw [intoSearch, hu, ha]; exact hu'
  cases hdf : st.df with
  | none => rw [hdf] at hd; exact absurd hd.symm hne
  | some d =>
    rw [hdf] at hd
    have hcur : st.cur = d := by rw [St.cur, hdf]; rfl
    have ht' : transform ⟨.disallow, x⟩ (.search (joinLeft c!"AND" (.const (.field w)) (ws.map fun w => .const (.field w)))) st =
        some (st.put (.where_ d (searchRw pe))) := by
      simp only [transform, dispatch, searchStandalone, hsp, ht, Option.map_some, dedupStr, ho, unionSources, Option.getD_none, hcur, DF.mkWhere, hint]
    simp only [runCmds, ht', Option.map_some, St.put, DF.render, PyCode.of, PyCode.text, hr, ← hd]
    rfl

/-- no command has a name with which the text begins -/
theorem noCommand_of {s : Str} (h : (commandNames.all fun kw => lower (s.take kw.length) != kw) = true) : NoCommand s := by
  intro kw hk he
  have := List.all_eq_true.1 h kw hk
  rw [he] at this
  simp at this

theorem transaction_words : WordsText c!"transaction" [c!"id"] c!"transaction id" :=
  .cons (s := c!"transaction") (g := c!" ") (t := c!"id")
    ⟨rfl, ⟨⟨by decide, by decide +kernel, by intro c s h; cases h; decide, by decide +kernel⟩, by decide, by decide⟩, by decide⟩
    ⟨⟨by decide, by decide⟩, ⟨by intro c u h; cases h; decide, by decide +kernel, by decide +kernel, fun h => absurd h (by decide +kernel)⟩⟩
    (.one ⟨rfl, ⟨⟨by decide, by decide +kernel, by intro c s h; cases h; decide, by decide +kernel⟩, by decide, by decide⟩, by decide⟩)

theorem web_pipe : PipeText false [.search (.binary (.const (.field c!"index")) c!"=" (.const (.field c!"web")))] c!"index=web" := by
  refine .one (.implicit (es := []) (.one ?_) (noCommand_of (by decide +kernel)))
  have hn : ∀ w, w ∈ [c!"index", c!"web"] → Written 2 (.const (.field w)) w := by
    intro w hw
    refine .field ⟨?_, ?_, ?_, ?_⟩ ?_ ?_
    all_goals (rcases (by simpa using hw : w = c!"index" ∨ w = c!"web") with rfl | rfl) <;> first | decide +kernel | (intro c s h; cases h; decide)
  have h5 : Written 5 (.const (.field c!"index")) c!"index" := .up (.up (.up (hn _ (by simp)) (by omega)) (by omega)) (by omega)
  have h6 : Written 6 (.const (.field c!"web")) c!"web" := .up (.up (.up (.up (hn _ (by simp)) (by omega)) (by omega)) (by omega)) (by omega)
  exact .up (.up (.up (.op (g₁ := []) (g₂ := []) .eq (.inl rfl) (.inl rfl) (.inl (by decide)) h5 h6) (by omega)) (by omega)) (by omega)

/-- `index=web | transaction id`: the events with both words in them, instead of an error. -/
example : (parse c!"index=web | transaction id").bind (renderPipeline ⟨.disallow, Tests.ext⟩) =
    some c!"spark.table('web').where((F.col('_raw').ilike(\"%transaction%\") & F.col('_raw').ilike(\"%id%\")),)" := by
  exact C90_unknown_is_a_search Tests.ext arranges_tests web_pipe (p := c!"spark.table('web')") (by decide +kernel) (by decide) (g₁ := c!" ") (g₂ := c!" ")
    ⟨by decide, by decide⟩ (.inr ⟨by decide, by decide⟩) transaction_words (noCommand_of (by decide +kernel))

/-- Disagreement: the same happens with a command that is supported when what follows is not in its form. -/
theorem C90_arguments_fail :
    outOf .disallow c!"index=a | tail abc" = some c!"spark.table('a').where((F.col('_raw').ilike(\"%tail%\") & F.col('_raw').ilike(\"%abc%\")),)" ∧
    outOf .disallow c!"index=a | table" = some c!"spark.table('a').where(F.col('_raw').ilike(\"%table%\"),)" ∧
    outOf .disallow c!"index=a | regex abc" = some c!"spark.table('a').where((F.col('_raw').ilike(\"%regex%\") & F.col('_raw').ilike(\"%abc%\")),)" ∧
    outOf .disallow c!"index=a | mvexpand f" = some c!"spark.table('a').where((F.col('_raw').ilike(\"%mvexpand%\") & F.col('_raw').ilike(\"%false%\")),)" := by
  decide +kernel

/-- Disagreement, also in view of C15: a command that has no translation is reported only when its text is read as that command.  A lookup file
in quotes, or a missing or wrong argument, makes a search for the words of it. -/
theorem C90_unsupported_not_reported :
    outOf .disallow c!"index=a | inputlookup users.csv" = none ∧
    outOf .disallow c!"index=a | inputlookup \"users.csv\"" =
      some c!"spark.table('a').where((F.col('_raw').ilike(\"%inputlookup%\") & F.col('_raw').ilike(\"%users.csv%\")),)" ∧
    outOf .disallow c!"index=a | collect index=b" = none ∧
    outOf .disallow c!"index=a | collect" = some c!"spark.table('a').where(F.col('_raw').ilike(\"%collect%\"),)" ∧
    outOf .disallow c!"index=a | map x" = some c!"spark.table('a').where((F.col('_raw').ilike(\"%map%\") & F.col('_raw').ilike(\"%x%\")),)" := by
  decide +kernel

/-- Disagreement: `eval` without an assignment is accepted and does nothing. -/
theorem C90_empty_eval : outOf .disallow c!"index=a | eval" = outOf .disallow c!"index=a" ∧ outOf .disallow c!"index=a" = some c!"spark.table('a')" := by
  decide +kernel

end Verif.Props
