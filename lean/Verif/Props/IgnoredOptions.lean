import Verif.Props.Pipeline
import Verif.Props.Program
import Verif.Props.UnknownCommands
/-
C91: options that are not translated.
-/
namespace Verif.Props
open Verif Spl Spec Lemmas

/-! ### options that make a query fail -/

/-- The options without which the command would have another result and that are not supported. -/
def refusedOptions : Command → Bool
  | .tstats o .. => o.prestats || o.local || o.append || o.includeReducedBuckets
  | .rex a => a.mode == some c!"sed" || a.maxMatch != 1
  | .join o _ _ => o.max != 1
  | .top a | .rare a => a.useOther
  | .lookup a => match a.output with
    | some o => upper o.kv != c!"OUTPUT"
    | none => false
  | _ => false

theorem refused_transform (c : Ctx) (cmd : Command) (s : St) (h : refusedOptions cmd = true) : transform c cmd s = none := by
  have hd : dispatch c.mode none none = none := by cases c.mode <;> rfl
  cases cmd <;> simp only [refusedOptions, Bool.false_eq_true] at h
  case tstats o es dm nn w bf bp =>
    have : tstatsOptsOk o = false := by
      unfold tstatsOptsOk
      revert h
      cases o.prestats <;> cases o.local <;> cases o.append <;> cases o.includeReducedBuckets <;> simp
    simp only [transform, tstatsRuntime, tstatsStandalone, this, Bool.false_eq_true, if_false, hd]
  case rex a =>
    have : rexTr c.ext a s = none := by
      unfold rexTr
      split
      · rfl
      · rename_i hm
        have : a.maxMatch ≠ 1 := by simpa [hm] using h
        rw [if_neg this]
    simp only [transform, this, hd]
  case join o fs sub =>
    have : o.max ≠ 1 := by simpa using h
    simp only [transform, joinTr, joinOutcome, if_neg this, Outcome.toOption, hd]
  case top a => simp only [transform, topRareTr, h, if_true, hd]
  case rare a => simp only [transform, topRareTr, h, if_true, hd]
  case lookup a =>
    have : lookupCols a.output = none := by
      cases ho : a.output with
      | none => rw [ho] at h; cases h
      | some o =>
        rw [ho] at h
        exact if_neg (by simpa using h)
    simp only [transform, lookupTr, this, hd]

/-- **C91** (partial): no query with one of these options is translated, in any mode. -/
theorem C91_refused_partial (c : Ctx) (p q : Pipeline) (cmd : Command) (h : refusedOptions cmd = true) : renderPipeline c (p ++ cmd :: q) = none :=
  C14_failure c p q cmd fun s => refused_transform c cmd s h

/-- One query with each of them. -/
example : ∀ q ∈ [c!"| tstats prestats=true count from datamodel=a", c!"| tstats local=true count from datamodel=a",
      c!"| tstats append=true count from datamodel=a", c!"| tstats include_reduced_buckets=true count from datamodel=a",
      c!"index=a | rex mode=sed \"s/a/b/\"", c!"index=a | rex max_match=2 \"(?<x>a)\"", c!"index=a | join max=2 id [search index=b]",
      c!"index=a | top useother=true x", c!"index=a | rare useother=true x"],
    (parse q).isSome = true ∧ outOf .disallow q = none ∧ outOf .allow q = none := by
  decide +kernel

/-! ### options that change nothing -/

mutual
/-- The command with the options at their defaults that the translation does not read; more are not read without the library. -/
def atDefault (m : Mode) : Command → Command
  | .addTotals a => .addTotals { a with row := true, col := false, labelField := none, label := c!"Total" }
  | .bin a => .bin { a with minSpan := none, bins := none, start := none, «end» := none, alignTime := none }
  | .dataModel a => .dataModel (if m = .disallow then { a with strictFields := false, allowOldSummaries := false, summariesOnly := true } else a)
  | .fields _ fs => .fields false fs
  | .fillNull v fs => .fillNull v (if m = .disallow then none else fs)
  | .head e k _ => .head e k false
  | .join o fs sub => .join { o with overwrite := true } fs (allAtDefault m sub)
  | .multiSearch ps => .multiSearch (subsAtDefault m ps)
  | .rare a => .rare { a with showCount := true, otherStr := c!"OTHER" }
  | .rex a => .rex { a with offsetField := none }
  | .stats _ fs by_ _ => .stats ⟨1, false, c!" "⟩ fs by_ false
  | .top a => .top { a with showCount := true, otherStr := c!"OTHER" }
  | .tstats o es dm nn w bf bp => .tstats (if m = .disallow then
      { o with chunkSize := 10000000, fillnullValue := none, summariesOnly := false, allowOldSummaries := false }
      else { o with chunkSize := 10000000 }) es dm nn w bf bp
  | cmd => cmd

def allAtDefault (m : Mode) : List Command → List Command
  | [] => []
  | cmd :: cmds => atDefault m cmd :: allAtDefault m cmds

def subsAtDefault (m : Mode) : List (List Command) → List (List Command)
  | [] => []
  | p :: ps => allAtDefault m p :: subsAtDefault m ps
end

mutual
theorem atDefault_transform (c : Ctx) : ∀ (cmd : Command) (s : St), transform c (atDefault c.mode cmd) s = transform c cmd s
  | .addTotals _, _ | .bin _, _ | .fields .., _ | .head .., _ | .rare _, _ | .rex _, _ | .stats .., _ | .top _, _ => rfl
  | .dataModel a, s => by
    rw [atDefault]
    split
    · rename_i h
      simp only [transform, dataModelTr, h, dispatch]
      rfl
    · rfl
  | .fillNull v fs, s => by
    rw [atDefault]
    split
    · rename_i h
      simp only [transform, h, dispatch]
      rfl
    · rfl
  | .tstats o es dm nn w bf bp, s => by
    rw [atDefault]
    split
    · rename_i h
      simp only [transform, h, dispatch]
      rfl
    · rfl
  | .join o fs sub, s => by
    rw [atDefault]
    simp only [transform, atDefault_run c sub]
    rfl
  | .multiSearch ps, s => by
    rw [atDefault]
    cases ps with
    | nil => rfl
    | cons p ps =>
      simp only [transform, subsAtDefault]
      have := atDefault_multi c (p :: ps) s.next none
      rw [subsAtDefault] at this
      rw [this]
  | .collect _, _ | .convert .., _ | .dedup .., _ | .eval _, _ | .eventStats .., _ | .format _, _ | .inputLookup .., _ | .lookup _, _
  | .makeResults _, _ | .map .., _ | .mvCombine .., _ | .mvExpand .., _ | .regex .., _ | .rename _, _ | .return_ .., _ | .sort .., _ | .spath .., _
  | .streamStats .., _ | .table _, _ | .tail _, _ | .where_ _, _ | .search _, _ => rfl

theorem atDefault_run (c : Ctx) : ∀ (p : List Command) (s : St), runCmds c (allAtDefault c.mode p) s = runCmds c p s
  | [], _ => rfl
  | cmd :: cmds, s => by
    rw [allAtDefault, runCmds, runCmds, atDefault_transform c cmd s]
    cases transform c cmd s with
    | none => rfl
    | some s' => exact atDefault_run c cmds s'

theorem atDefault_multi (c : Ctx) : ∀ (ps : List (List Command)) (n : Nat) (acc : Option DF), multiTr c (subsAtDefault c.mode ps) n acc = multiTr c ps n acc
  | [], _, _ => rfl
  | p :: ps, n, acc => by
    rw [subsAtDefault, multiTr, multiTr, atDefault_run c p]
    split
    · rfl
    · split
      · rfl
      · exact atDefault_multi c ps _ _
end

/-- Disagreement: the options set to their defaults by `atDefault` have no influence on the program, wherever the command stands
in the query. -/
theorem C91_ignored (c : Ctx) (p : Pipeline) : renderPipeline c (allAtDefault c.mode p) = renderPipeline c p := by
  rw [renderPipeline, renderPipeline, atDefault_run c p]

/-- Queries that differ in such an option only and give the same program. -/
theorem C91_ignored_queries : ∀ qq ∈ [(c!"index=a | head limit=5 null=true", c!"index=a | head 5"),
      (c!"index=a | stats delim=\",\" allnum=true count by x", c!"index=a | stats count by x"),
      (c!"index=a | addtotals row=false col=true x y", c!"index=a | addtotals x y"),
      (c!"index=a | bin bins=10 start=0 end=100 span=1h x", c!"index=a | bin span=1h x"),
      (c!"index=a | fields - x", c!"index=a | fields x"),
      (c!"index=a | top showcount=false x", c!"index=a | top x"),
      (c!"index=a | rex offset_field=o \"(?<x>a)\"", c!"index=a | rex \"(?<x>a)\""),
      (c!"| tstats summariesonly=true fillnull_value=\"0\" count from datamodel=a", c!"| tstats count from datamodel=a")],
    outOf .disallow qq.1 = outOf .disallow qq.2 ∧ (outOf .disallow qq.1).isSome = true := by
  decide +kernel

/-! ### options that do not exist -/

/-- all options of the commands whose options are a list of names and values -/
def optionNames : List Str := [c!"row", c!"col", c!"fieldname", c!"labelfield", c!"label", c!"span", c!"minspan", c!"bins", c!"start", c!"end", c!"aligntime", c!"index",
  c!"addtime", c!"file", c!"host", c!"marker", c!"output_format", c!"run_in_preview", c!"spool", c!"source", c!"sourcetype", c!"testmode",
  c!"timeformat", c!"strict_fields", c!"allow_old_summaries", c!"summariesonly", c!"keepevents", c!"keepempty", c!"consecutive", c!"allnum",
  c!"mvsep", c!"maxresults", c!"append", c!"strict", c!"max", c!"type", c!"usetime", c!"earlier", c!"overwrite", c!"count", c!"annotate",
  c!"splunk_server", c!"splunk_server_group", c!"countfield", c!"limit", c!"otherstr", c!"percentfield", c!"showcount", c!"showperc",
  c!"useother", c!"field", c!"max_match", c!"offset_field", c!"mode", c!"partitions", c!"delim", c!"current", c!"window", c!"prestats",
  c!"local", c!"include_reduced_buckets", c!"chunk_size", c!"fillnull_value"]

theorem lastValue_other {os : List (Str × Constant)} {k n : Str} {v : Constant} (h : k ≠ n) : lastValue ((k, v) :: os) n = lastValue os n := by
  simp only [lastValue, List.filter_cons, decide_eq_false h, Bool.false_eq_true, if_false]

section
variable {os os' : List (Str × Constant)} {n : Str} (e : lastValue os' n = lastValue os n)
include e

theorem intIs_agree {x : Option Int} (h : IntIs os n x) : IntIs os' n x := by unfold IntIs at *; rwa [e]
theorem strIs_agree {x : Option Str} (h : StrIs os n x) : StrIs os' n x := by unfold StrIs at *; rwa [e]
theorem spanIs_agree {x : Option TimeSpan} (h : SpanIs os n x) : SpanIs os' n x := by unfold SpanIs at *; rwa [e]
theorem intOr_agree {d x : Int} (h : IntOr os n d x) : IntOr os' n d x := h.imp fun _ h => h.imp (intIs_agree e) id
theorem strOr_agree {d x : Str} (h : StrOr os n d x) : StrOr os' n d x := h.imp fun _ h => h.imp (strIs_agree e) id
theorem flagOr_agree {d b : Bool} (h : FlagOr os n d b) : FlagOr os' n d b := by unfold FlagOr at *; rwa [e]
theorem wrapOr_agree {d : Int} {x : Nat} (h : WrapOr os n d x) : WrapOr os' n d x := h.imp fun _ h => h.imp (intOr_agree e) id
end

theorem optsOf_agree {os os' : List (Str × Constant)} (h : ∀ n ∈ optionNames, lastValue os' n = lastValue os n) (c : Command) (hc : OptsOf os c) :
    OptsOf os' c := by
  cases c
  case rex a =>
    obtain ⟨h1, h2, h3, m, h4, h5⟩ := hc
    exact ⟨strOr_agree (h _ (by decide)) h1, intOr_agree (h _ (by decide)) h2, strIs_agree (h _ (by decide)) h3, m, strIs_agree (h _ (by decide)) h4, h5⟩
  all_goals first
    | exact hc.elim
    | (revert hc
       unfold OptsOf
       repeat' refine And.imp ?_ ?_
       all_goals first
         | exact flagOr_agree (h _ (by decide))
         | exact strOr_agree (h _ (by decide))
         | exact strIs_agree (h _ (by decide))
         | exact intOr_agree (h _ (by decide))
         | exact intIs_agree (h _ (by decide))
         | exact spanIs_agree (h _ (by decide))
         | exact wrapOr_agree (h _ (by decide)))

theorem optsThen_more {os : List (Str × Constant)} {k t w s g g₁ g₂ : Str} {v : Constant} (hk : IsName k) (hv : OptValue v w) (h₁ : Blanks g₁)
    (h₂ : Blanks g₂) (hg : Gap g) (hs : s ≠ []) (h : OptsThen os t s) : OptsThen ((k, v) :: os) t (k ++ (g₁ ++ '=' :: (g₂ ++ (w ++ (g ++ s))))) := by
  cases h with
  | none =>
    have := OptsThen.both (Opts.one hk h₁ h₂ hv) hg hs
    simpa [List.append_assoc] using this
  | only ho => exact .only (.cons hk h₁ h₂ hv hg ho)
  | both ho hg' ht =>
    have := OptsThen.both (Opts.cons hk h₁ h₂ hv hg ho) hg' ht
    simpa [List.append_assoc] using this

/-- the commands whose arguments begin with the options -/
def optionsFirst : List Str := [c!"addtotals", c!"bin", c!"bucket", c!"collect", c!"convert", c!"datamodel", c!"eventstats", c!"format", c!"inputlookup",
  c!"makeresults", c!"rex", c!"stats", c!"streamstats", c!"tstats"]

theorem body_more {b : Bool} {kw k w s g g₁ g₂ : Str} {c : Command} {v : Constant} (hkw : kw ∈ optionsFirst) (hk : IsName k) (hn : k ∉ optionNames)
    (hv : OptValue v w) (h₁ : Blanks g₁) (h₂ : Blanks g₂) (hg : Gap g) (hs : s ≠ []) (h : Body b kw c s) :
    Body b kw c (k ++ (g₁ ++ '=' :: (g₂ ++ (w ++ (g ++ s))))) := by
  have key : ∀ {os : List (Str × Constant)} {c : Command}, OptsOf os c → OptsOf ((k, v) :: os) c := fun h =>
    optsOf_agree (fun n hm => lastValue_other (k := k) fun e => hn (e ▸ hm)) _ h
  have more : ∀ {os : List (Str × Constant)} {t : Str}, OptsThen os t s → OptsThen ((k, v) :: os) t (k ++ (g₁ ++ '=' :: (g₂ ++ (w ++ (g ++ s))))) :=
    optsThen_more hk hv h₁ h₂ hg hs
  cases h with
  | addtotals ho hp hf => exact .addtotals (more ho) (key hp) hf
  | bin hw ho hp hf => exact .bin hw (more ho) (key hp) hf
  | collect ho hp hf => exact .collect (more ho) (key hp) hf
  | convert ho hp hf => exact .convert (more ho) (key hp) hf
  | datamodel ho hp hf => exact .datamodel (more ho) (key hp) hf
  | eventstats a1 a2 ho hp => exact .eventstats a1 a2 (more ho) (key hp)
  | format ho hp hf => exact .format (more ho) (key hp) hf
  | formatWith ho hp hf => exact .formatWith (more ho) (key hp) hf
  | inputlookup a1 a2 ho hp => exact .inputlookup a1 a2 (more ho) (key hp)
  | makeresults ho hp => exact .makeresults (more ho) (key hp)
  | rex ho hp hf => exact .rex (more ho) (key hp) hf
  | stats a1 a2 ho hp => exact .stats a1 a2 (more ho) (key hp)
  | streamstats a1 a2 ho hp => exact .streamstats a1 a2 (more ho) (key hp)
  | tstats a1 a2 a3 a4 ho hp => exact .tstats a1 a2 a3 a4 (more ho) (key hp)
  | _ => exact absurd hkw (by decide)

/-- Disagreement: an option that the command does not have, such as one whose name is misspelt, is no error: it is read and
dropped, whatever its value, after every query and before whatever else is written. -/
theorem C91_unknown_option {b b' : Bool} {cs : List Command} {kw kw' k w q s g g₀ g₁ g₂ g₃ g₄ : Str} {c : Command} {v : Constant} (hq : PipeText b' cs q)
    (hkw : kw ∈ optionsFirst) (hl : lower kw' = kw) (h : Body b kw c s) (hs : s ≠ []) (hk : IsName k) (hn : k ∉ optionNames) (hv : OptValue v w)
    (h₁ : Blanks g₁) (h₂ : Blanks g₂) (hg : Gap g) (h₀ : Gap g₀) (h₃ : Gap g₃) (h₄ : Blanks g₄) :
    parse (q ++ (g₃ ++ '|' :: (g₄ ++ (kw' ++ (g₀ ++ (k ++ (g₁ ++ '=' :: (g₂ ++ (w ++ (g ++ s)))))))))) = some (cs ++ [c]) ∧
      parse (q ++ (g₃ ++ '|' :: (g₄ ++ (kw' ++ (g₀ ++ s))))) = some (cs ++ [c]) := by
  refine ⟨C90_command_partial hq h₃ h₄ (.named (body_more hkw hk hn hv h₁ h₂ hg hs h) hl ?_ h₀), C90_command_partial hq h₃ h₄ (.named h hl hs h₀)⟩
  intro e
  exact hk.ne (List.append_eq_nil_iff.1 e).1

/-- `index=web | stats nosuch=1 count` -/
example : parse c!"index=web | stats nosuch=1 count" = parse c!"index=web | stats count" := by
  have hb : Body false c!"stats" (.stats ⟨1, false, c!" "⟩ [.call c!"count" []] none false) c!"count" :=
    .stats (os := []) (t := c!"count") (u := c!"count") (.one (.word ⟨⟨by decide, by decide +kernel, by intro c s h; cases h; decide, by decide +kernel⟩, by decide, by decide⟩)) .none .none
      ⟨⟨1, ⟨none, rfl, rfl⟩, rfl⟩, rfl, ⟨none, rfl, rfl⟩⟩
  obtain ⟨h1, h2⟩ := C91_unknown_option web_pipe (kw' := c!"stats") (by decide) (by decide +kernel) hb (by decide) (k := c!"nosuch") (w := c!"1") (v := .int 1)
    (g := c!" ") (g₀ := c!" ") (g₁ := []) (g₂ := []) (g₃ := c!" ") (g₄ := c!" ")
    ⟨by decide, by decide +kernel, by intro c s h; cases h; decide, by decide +kernel⟩ (by decide) (.int (n := 1) (by unfold isI64; decide)) (.inl rfl) (.inl rfl)
    ⟨by decide, by decide⟩ ⟨by decide, by decide⟩ ⟨by decide, by decide⟩ (.inr ⟨by decide, by decide⟩)
  exact h1.trans h2.symm

/-- `top` and `join`, which have other arguments first or after them, do the same. -/
theorem C91_unknown_option_queries : ∀ qq ∈ [(c!"index=a | stats nosuch=1 count", c!"index=a | stats count"),
      (c!"index=a | top limi=1 x", c!"index=a | top x"), (c!"| makeresults cuont=5", c!"| makeresults"),
      (c!"index=a | join kind=left id [search index=b]", c!"index=a | join id [search index=b]")],
    outOf .disallow qq.1 = outOf .disallow qq.2 ∧ (outOf .disallow qq.1).isSome = true := by
  decide +kernel

end Verif.Props
