import Verif.Props.Where
/-
A stage that begins with the name of a command is that command, or else an implicit search.
-/
namespace Verif
open P Lex Spl Spec Lemmas

theorem only_addTotals (i : Str) : command.run fix (c!"addtotals " ++ i) = (addTotals.run fix (c!"addtotals " ++ i)).or (search.run fix (c!"addtotals " ++ i)) := by
  have hA : commandA.run fix (c!"addtotals " ++ i) = (addTotals.run fix (c!"addtotals " ++ i)).or ((bin <||> collect <||> convert <||> dataModel <||> dedup <||> eval <||> eventStats <||> fields <||> fillNull <||> format <||> head <||> inputLookup <||> join <||> lookup <||> makeResults <||> map_ <||> multiSearch <||> mvCombine <||> mvExpand : G true Command).run fix (c!"addtotals " ++ i)) := by
    rw [← run_alt]; rfl
  have hA' : (bin <||> collect <||> convert <||> dataModel <||> dedup <||> eval <||> eventStats <||> fields <||> fillNull <||> format <||> head <||> inputLookup <||> join <||> lookup <||> makeResults <||> map_ <||> multiSearch <||> mvCombine <||> mvExpand : G true Command).run fix (c!"addtotals " ++ i) = none := rfl
  have hB : commandB.run fix (c!"addtotals " ++ i) = none := rfl
  rw [command, run_alt, run_alt, hA, hA', hB, Option.or_none, Option.none_or]

theorem only_bin (i : Str) : command.run fix (c!"bin " ++ i) = (bin.run fix (c!"bin " ++ i)).or (search.run fix (c!"bin " ++ i)) := by
  have hA : commandA.run fix (c!"bin " ++ i) = (bin.run fix (c!"bin " ++ i)).or ((collect <||> convert <||> dataModel <||> dedup <||> eval <||> eventStats <||> fields <||> fillNull <||> format <||> head <||> inputLookup <||> join <||> lookup <||> makeResults <||> map_ <||> multiSearch <||> mvCombine <||> mvExpand : G true Command).run fix (c!"bin " ++ i)) := by
    rw [← run_alt]; rfl
  have hA' : (collect <||> convert <||> dataModel <||> dedup <||> eval <||> eventStats <||> fields <||> fillNull <||> format <||> head <||> inputLookup <||> join <||> lookup <||> makeResults <||> map_ <||> multiSearch <||> mvCombine <||> mvExpand : G true Command).run fix (c!"bin " ++ i) = none := rfl
  have hB : commandB.run fix (c!"bin " ++ i) = none := rfl
  rw [command, run_alt, run_alt, hA, hA', hB, Option.or_none, Option.none_or]

theorem only_collect (i : Str) : command.run fix (c!"collect " ++ i) = (collect.run fix (c!"collect " ++ i)).or (search.run fix (c!"collect " ++ i)) := by
  have hA : commandA.run fix (c!"collect " ++ i) = (collect.run fix (c!"collect " ++ i)).or ((convert <||> dataModel <||> dedup <||> eval <||> eventStats <||> fields <||> fillNull <||> format <||> head <||> inputLookup <||> join <||> lookup <||> makeResults <||> map_ <||> multiSearch <||> mvCombine <||> mvExpand : G true Command).run fix (c!"collect " ++ i)) := by
    rw [← run_alt]; rfl
  have hA' : (convert <||> dataModel <||> dedup <||> eval <||> eventStats <||> fields <||> fillNull <||> format <||> head <||> inputLookup <||> join <||> lookup <||> makeResults <||> map_ <||> multiSearch <||> mvCombine <||> mvExpand : G true Command).run fix (c!"collect " ++ i) = none := rfl
  have hB : commandB.run fix (c!"collect " ++ i) = none := rfl
  rw [command, run_alt, run_alt, hA, hA', hB, Option.or_none, Option.none_or]

theorem only_convert (i : Str) : command.run fix (c!"convert " ++ i) = (convert.run fix (c!"convert " ++ i)).or (search.run fix (c!"convert " ++ i)) := by
  have hA : commandA.run fix (c!"convert " ++ i) = (convert.run fix (c!"convert " ++ i)).or ((dataModel <||> dedup <||> eval <||> eventStats <||> fields <||> fillNull <||> format <||> head <||> inputLookup <||> join <||> lookup <||> makeResults <||> map_ <||> multiSearch <||> mvCombine <||> mvExpand : G true Command).run fix (c!"convert " ++ i)) := by
    rw [← run_alt]; rfl
  have hA' : (dataModel <||> dedup <||> eval <||> eventStats <||> fields <||> fillNull <||> format <||> head <||> inputLookup <||> join <||> lookup <||> makeResults <||> map_ <||> multiSearch <||> mvCombine <||> mvExpand : G true Command).run fix (c!"convert " ++ i) = none := rfl
  have hB : commandB.run fix (c!"convert " ++ i) = none := rfl
  rw [command, run_alt, run_alt, hA, hA', hB, Option.or_none, Option.none_or]

theorem only_dataModel (i : Str) : command.run fix (c!"datamodel " ++ i) = (dataModel.run fix (c!"datamodel " ++ i)).or (search.run fix (c!"datamodel " ++ i)) := by
  have hA : commandA.run fix (c!"datamodel " ++ i) = (dataModel.run fix (c!"datamodel " ++ i)).or ((dedup <||> eval <||> eventStats <||> fields <||> fillNull <||> format <||> head <||> inputLookup <||> join <||> lookup <||> makeResults <||> map_ <||> multiSearch <||> mvCombine <||> mvExpand : G true Command).run fix (c!"datamodel " ++ i)) := by
    rw [← run_alt]; rfl
  have hA' : (dedup <||> eval <||> eventStats <||> fields <||> fillNull <||> format <||> head <||> inputLookup <||> join <||> lookup <||> makeResults <||> map_ <||> multiSearch <||> mvCombine <||> mvExpand : G true Command).run fix (c!"datamodel " ++ i) = none := rfl
  have hB : commandB.run fix (c!"datamodel " ++ i) = none := rfl
  rw [command, run_alt, run_alt, hA, hA', hB, Option.or_none, Option.none_or]

theorem only_dedup (i : Str) : command.run fix (c!"dedup " ++ i) = (dedup.run fix (c!"dedup " ++ i)).or (search.run fix (c!"dedup " ++ i)) := by
  have hA : commandA.run fix (c!"dedup " ++ i) = (dedup.run fix (c!"dedup " ++ i)).or ((eval <||> eventStats <||> fields <||> fillNull <||> format <||> head <||> inputLookup <||> join <||> lookup <||> makeResults <||> map_ <||> multiSearch <||> mvCombine <||> mvExpand : G true Command).run fix (c!"dedup " ++ i)) := by
    rw [← run_alt]; rfl
  have hA' : (eval <||> eventStats <||> fields <||> fillNull <||> format <||> head <||> inputLookup <||> join <||> lookup <||> makeResults <||> map_ <||> multiSearch <||> mvCombine <||> mvExpand : G true Command).run fix (c!"dedup " ++ i) = none := rfl
  have hB : commandB.run fix (c!"dedup " ++ i) = none := rfl
  rw [command, run_alt, run_alt, hA, hA', hB, Option.or_none, Option.none_or]

theorem only_eventStats (i : Str) : command.run fix (c!"eventstats " ++ i) = (eventStats.run fix (c!"eventstats " ++ i)).or (search.run fix (c!"eventstats " ++ i)) := by
  have hA : commandA.run fix (c!"eventstats " ++ i) = (eventStats.run fix (c!"eventstats " ++ i)).or ((fields <||> fillNull <||> format <||> head <||> inputLookup <||> join <||> lookup <||> makeResults <||> map_ <||> multiSearch <||> mvCombine <||> mvExpand : G true Command).run fix (c!"eventstats " ++ i)) := by
    rw [← run_alt]; rfl
  have hA' : (fields <||> fillNull <||> format <||> head <||> inputLookup <||> join <||> lookup <||> makeResults <||> map_ <||> multiSearch <||> mvCombine <||> mvExpand : G true Command).run fix (c!"eventstats " ++ i) = none := rfl
  have hB : commandB.run fix (c!"eventstats " ++ i) = none := rfl
  rw [command, run_alt, run_alt, hA, hA', hB, Option.or_none, Option.none_or]

theorem only_format (i : Str) : command.run fix (c!"format " ++ i) = (format.run fix (c!"format " ++ i)).or (search.run fix (c!"format " ++ i)) := by
  have hA : commandA.run fix (c!"format " ++ i) = (format.run fix (c!"format " ++ i)).or ((head <||> inputLookup <||> join <||> lookup <||> makeResults <||> map_ <||> multiSearch <||> mvCombine <||> mvExpand : G true Command).run fix (c!"format " ++ i)) := by
    rw [← run_alt]; rfl
  have hA' : (head <||> inputLookup <||> join <||> lookup <||> makeResults <||> map_ <||> multiSearch <||> mvCombine <||> mvExpand : G true Command).run fix (c!"format " ++ i) = none := rfl
  have hB : commandB.run fix (c!"format " ++ i) = none := rfl
  rw [command, run_alt, run_alt, hA, hA', hB, Option.or_none, Option.none_or]

theorem only_inputLookup (i : Str) : command.run fix (c!"inputlookup " ++ i) = (inputLookup.run fix (c!"inputlookup " ++ i)).or (search.run fix (c!"inputlookup " ++ i)) := by
  have hA : commandA.run fix (c!"inputlookup " ++ i) = (inputLookup.run fix (c!"inputlookup " ++ i)).or ((join <||> lookup <||> makeResults <||> map_ <||> multiSearch <||> mvCombine <||> mvExpand : G true Command).run fix (c!"inputlookup " ++ i)) := by
    rw [← run_alt]; rfl
  have hA' : (join <||> lookup <||> makeResults <||> map_ <||> multiSearch <||> mvCombine <||> mvExpand : G true Command).run fix (c!"inputlookup " ++ i) = none := rfl
  have hB : commandB.run fix (c!"inputlookup " ++ i) = none := rfl
  rw [command, run_alt, run_alt, hA, hA', hB, Option.or_none, Option.none_or]

theorem only_join (i : Str) : command.run fix (c!"join " ++ i) = (join.run fix (c!"join " ++ i)).or (search.run fix (c!"join " ++ i)) := by
  have hA : commandA.run fix (c!"join " ++ i) = (join.run fix (c!"join " ++ i)).or ((lookup <||> makeResults <||> map_ <||> multiSearch <||> mvCombine <||> mvExpand : G true Command).run fix (c!"join " ++ i)) := by
    rw [← run_alt]; rfl
  have hA' : (lookup <||> makeResults <||> map_ <||> multiSearch <||> mvCombine <||> mvExpand : G true Command).run fix (c!"join " ++ i) = none := rfl
  have hB : commandB.run fix (c!"join " ++ i) = none := rfl
  rw [command, run_alt, run_alt, hA, hA', hB, Option.or_none, Option.none_or]

theorem only_makeResults (i : Str) : command.run fix (c!"makeresults " ++ i) = (makeResults.run fix (c!"makeresults " ++ i)).or (search.run fix (c!"makeresults " ++ i)) := by
  have hA : commandA.run fix (c!"makeresults " ++ i) = (makeResults.run fix (c!"makeresults " ++ i)).or ((map_ <||> multiSearch <||> mvCombine <||> mvExpand : G true Command).run fix (c!"makeresults " ++ i)) := by
    rw [← run_alt]; rfl
  have hA' : (map_ <||> multiSearch <||> mvCombine <||> mvExpand : G true Command).run fix (c!"makeresults " ++ i) = none := rfl
  have hB : commandB.run fix (c!"makeresults " ++ i) = none := rfl
  rw [command, run_alt, run_alt, hA, hA', hB, Option.or_none, Option.none_or]

theorem only_rare (i : Str) : command.run fix (c!"rare " ++ i) = (rare.run fix (c!"rare " ++ i)).or (search.run fix (c!"rare " ++ i)) := by
  have hA : commandA.run fix (c!"rare " ++ i) = none := rfl
  have hB : commandB.run fix (c!"rare " ++ i) = (rare.run fix (c!"rare " ++ i)).or ((regex <||> rename <||> return_ <||> rex <||> sort <||> spath <||> stats <||> streamStats <||> table <||> tail <||> top <||> tstats <||> where_ : G true Command).run fix (c!"rare " ++ i)) := by
    rw [← run_alt]; rfl
  have hB' : (regex <||> rename <||> return_ <||> rex <||> sort <||> spath <||> stats <||> streamStats <||> table <||> tail <||> top <||> tstats <||> where_ : G true Command).run fix (c!"rare " ++ i) = none := rfl
  rw [command, run_alt, run_alt, hA, hB, hB', Option.or_none, Option.none_or]

theorem only_rex (i : Str) : command.run fix (c!"rex " ++ i) = (rex.run fix (c!"rex " ++ i)).or (search.run fix (c!"rex " ++ i)) := by
  have hA : commandA.run fix (c!"rex " ++ i) = none := rfl
  have hB : commandB.run fix (c!"rex " ++ i) = (rex.run fix (c!"rex " ++ i)).or ((sort <||> spath <||> stats <||> streamStats <||> table <||> tail <||> top <||> tstats <||> where_ : G true Command).run fix (c!"rex " ++ i)) := by
    rw [← run_alt]; rfl
  have hB' : (sort <||> spath <||> stats <||> streamStats <||> table <||> tail <||> top <||> tstats <||> where_ : G true Command).run fix (c!"rex " ++ i) = none := rfl
  rw [command, run_alt, run_alt, hA, hB, hB', Option.or_none, Option.none_or]

theorem only_stats (i : Str) : command.run fix (c!"stats " ++ i) = (stats.run fix (c!"stats " ++ i)).or (search.run fix (c!"stats " ++ i)) := by
  have hA : commandA.run fix (c!"stats " ++ i) = none := rfl
  have hB : commandB.run fix (c!"stats " ++ i) = (stats.run fix (c!"stats " ++ i)).or ((streamStats <||> table <||> tail <||> top <||> tstats <||> where_ : G true Command).run fix (c!"stats " ++ i)) := by
    rw [← run_alt]; rfl
  have hB' : (streamStats <||> table <||> tail <||> top <||> tstats <||> where_ : G true Command).run fix (c!"stats " ++ i) = none := rfl
  rw [command, run_alt, run_alt, hA, hB, hB', Option.or_none, Option.none_or]

theorem only_streamStats (i : Str) : command.run fix (c!"streamstats " ++ i) = (streamStats.run fix (c!"streamstats " ++ i)).or (search.run fix (c!"streamstats " ++ i)) := by
  have hA : commandA.run fix (c!"streamstats " ++ i) = none := rfl
  have hB : commandB.run fix (c!"streamstats " ++ i) = (streamStats.run fix (c!"streamstats " ++ i)).or ((table <||> tail <||> top <||> tstats <||> where_ : G true Command).run fix (c!"streamstats " ++ i)) := by
    rw [← run_alt]; rfl
  have hB' : (table <||> tail <||> top <||> tstats <||> where_ : G true Command).run fix (c!"streamstats " ++ i) = none := rfl
  rw [command, run_alt, run_alt, hA, hB, hB', Option.or_none, Option.none_or]

theorem only_top (i : Str) : command.run fix (c!"top " ++ i) = (top.run fix (c!"top " ++ i)).or (search.run fix (c!"top " ++ i)) := by
  have hA : commandA.run fix (c!"top " ++ i) = none := rfl
  have hB : commandB.run fix (c!"top " ++ i) = (top.run fix (c!"top " ++ i)).or ((tstats <||> where_ : G true Command).run fix (c!"top " ++ i)) := by
    rw [← run_alt]; rfl
  have hB' : (tstats <||> where_ : G true Command).run fix (c!"top " ++ i) = none := rfl
  rw [command, run_alt, run_alt, hA, hB, hB', Option.or_none, Option.none_or]

theorem only_tstats (i : Str) : command.run fix (c!"tstats " ++ i) = (tstats.run fix (c!"tstats " ++ i)).or (search.run fix (c!"tstats " ++ i)) := by
  have hA : commandA.run fix (c!"tstats " ++ i) = none := rfl
  have hB : commandB.run fix (c!"tstats " ++ i) = (tstats.run fix (c!"tstats " ++ i)).or ((where_ : G true Command).run fix (c!"tstats " ++ i)) := by
    rw [← run_alt]; rfl
  have hB' : (where_ : G true Command).run fix (c!"tstats " ++ i) = none := rfl
  rw [command, run_alt, run_alt, hA, hB, hB', Option.or_none, Option.none_or]

/-- The first command of a query is what `command` reads at its beginning; another beginning that is read as the same
command and leaves the same rest gives the same query. -/
theorem parse_head {q : Str} {c : Command} {cs : Pipeline} (hd : (afterLead q).dropWhile isSpace = q)
    (h : parse q = some (c :: cs)) : ∃ r, command.run fix q = some (r, c) ∧
      ∀ q', (afterLead q').dropWhile isSpace = q' → command.run fix q' = some (r, c) → parse q' = some (c :: cs) := by
  rw [parse_eq, hd, run_sepList0] at h
  cases hc : command.run fix q with
  | none =>
    rw [hc] at h
    obtain ⟨x, hx, e⟩ := Option.map_eq_some_iff.1 h
    have := (Option.filter_eq_some_iff.1 hx).1
    simp only [Option.some.injEq] at this
    rw [← this] at e; simp at e
  | some y =>
    obtain ⟨r, c'⟩ := y
    rw [hc] at h
    have h' := h
    obtain ⟨x, hx, e⟩ := Option.map_eq_some_iff.1 h
    have := (Option.filter_eq_some_iff.1 hx).1
    simp only [Option.some.injEq] at this
    rw [← this] at e
    have ec : c' = c := by simpa using (List.cons.inj e).1
    subst ec
    refine ⟨r, rfl, fun q' hd' hq' => ?_⟩
    rw [parse_eq, hd', run_sepList0, hq']
    exact h'

end Verif
