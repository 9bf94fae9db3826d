import Verif.Props.Quotes
import Verif.Spec.Logical
/-
Command options: how they are written, which value counts, and the options of each command with their defaults.
-/
namespace Verif.Spec
open Verif

/-- options separated by blanks, with or without blanks around the equals sign -/
inductive Opts : List (Str × Constant) → Str → Prop
  | one {k g₁ g₂ t : Str} {v : Constant} : IsName k → Blanks g₁ → Blanks g₂ → OptValue v t →
      Opts [(k, v)] (k ++ (g₁ ++ ('=' :: (g₂ ++ t))))
  | cons {k g₁ g₂ t g s : Str} {v : Constant} {os : List (Str × Constant)} : IsName k → Blanks g₁ → Blanks g₂ →
      OptValue v t → Gap g → Opts os s → Opts ((k, v) :: os) (k ++ (g₁ ++ ('=' :: (g₂ ++ (t ++ (g ++ s))))))

/-- a text that does not begin with an option: nothing, a character that is not part of a word, or a word that is
not followed by an equals sign -/
inductive NoOption : Str → Prop
  | nil : NoOption []
  | sign {c : Char} {t : Str} : c ∈ c!"[]()|\"'," → NoOption (c :: t)
  | word {w g : Str} : w ≠ [] → (∀ c ∈ w, isNameChar c = true) → Blanks g → NoOption (w ++ g)
  | wordThen {w g : Str} {c : Char} {t : Str} : w ≠ [] → (∀ c ∈ w, isNameChar c = true) → Gap g →
      c ∉ c!" \t\r\n=" → NoOption (w ++ (g ++ c :: t))
  | wordSign {w : Str} {c : Char} {t : Str} : w ≠ [] → (∀ c ∈ w, isNameChar c = true) → c ∈ c!"()|\"'," →
      NoOption (w ++ c :: t)

/-- what follows the options of a command -/
inductive AfterOpts : Str → Str → Prop
  | close {c : Char} {t : Str} : c ∈ c!"[|\"" → AfterOpts (c :: t) (c :: t)
  | nil : AfterOpts [] []
  | gap {g t : Str} : Gap g → NoOption t → AfterOpts (g ++ t) t

/-- the last value written for a key -/
def lastValue (os : List (Str × Constant)) (k : Str) : Option Constant :=
  ((os.filter fun o => o.1 = k).getLast?).map Prod.snd

/-- the last value for the key is an integer, and `x` is it; or there is none -/
def IntIs (os : List (Str × Constant)) (k : Str) (x : Option Int) : Prop :=
  (lastValue os k).elim (x = none) fun v => ∃ n, v = .int n ∧ x = some n

/-- the last value for the key is a name or a quoted text -/
def StrIs (os : List (Str × Constant)) (k : Str) (x : Option Str) : Prop :=
  (lastValue os k).elim (x = none) fun v => ∃ w, (v = .field w ∨ v = .str w) ∧ x = some w

/-- the last value for the key is a time span -/
def SpanIs (os : List (Str × Constant)) (k : Str) (x : Option TimeSpan) : Prop :=
  (lastValue os k).elim (x = none) fun v => ∃ w, v = .timeSpan w ∧ x = some w

/-- an integer option with a default -/
def IntOr (os : List (Str × Constant)) (k : Str) (d x : Int) : Prop := ∃ y, IntIs os k y ∧ x = y.getD d

/-- a text option with a default -/
def StrOr (os : List (Str × Constant)) (k : Str) (d x : Str) : Prop := ∃ y, StrIs os k y ∧ x = y.getD d

/-- a yes/no option with a default -/
def FlagOr (os : List (Str × Constant)) (k : Str) (d b : Bool) : Prop :=
  (lastValue os k).elim (b = d) fun v => v = .bool b ∨ v = .field (if b then c!"true" else c!"false")

/-- an integer option stored as an unsigned number -/
def WrapOr (os : List (Str × Constant)) (k : Str) (d : Int) (x : Nat) : Prop :=
  ∃ y, IntOr os k d y ∧ (x : Int) = y % 2 ^ 64

/-- The options of each command and their defaults. -/
def OptsOf (os : List (Str × Constant)) : Command → Prop
  | .addTotals a => FlagOr os c!"row" true a.row ∧ FlagOr os c!"col" false a.col ∧
      StrOr os c!"fieldname" c!"Total" a.fieldName ∧ StrIs os c!"labelfield" a.labelField ∧
      StrOr os c!"label" c!"Total" a.label
  | .bin a => SpanIs os c!"span" a.span ∧ SpanIs os c!"minspan" a.minSpan ∧ IntIs os c!"bins" a.bins ∧
      IntIs os c!"start" a.start ∧ IntIs os c!"end" a.end ∧ StrIs os c!"aligntime" a.alignTime
  | .collect a => StrIs os c!"index" (some a.index) ∧ FlagOr os c!"addtime" true a.addTime ∧ StrIs os c!"file" a.file ∧
      StrIs os c!"host" a.host ∧ StrIs os c!"marker" a.marker ∧ StrOr os c!"output_format" c!"raw" a.outputFormat ∧
      FlagOr os c!"run_in_preview" false a.runInPreview ∧ FlagOr os c!"spool" true a.spool ∧
      StrIs os c!"source" a.source ∧ StrIs os c!"sourcetype" a.sourceType ∧ FlagOr os c!"testmode" false a.testMode
  | .convert t _ => StrOr os c!"timeformat" c!"%m/%d/%Y %H:%M:%S" t
  | .dataModel a => FlagOr os c!"strict_fields" false a.strictFields ∧
      FlagOr os c!"allow_old_summaries" false a.allowOldSummaries ∧ FlagOr os c!"summariesonly" true a.summariesOnly
  | .dedup _ _ a b c _ => FlagOr os c!"keepevents" false a ∧ FlagOr os c!"keepempty" false b ∧
      FlagOr os c!"consecutive" false c
  | .eventStats a _ _ => FlagOr os c!"allnum" false a
  | .format a => StrOr os c!"mvsep" c!"OR" a.mvSep ∧ IntOr os c!"maxresults" 0 a.maxResults
  | .inputLookup a b c d _ _ => FlagOr os c!"append" false a ∧ FlagOr os c!"strict" false b ∧
      IntOr os c!"start" 0 c ∧ IntOr os c!"max" 1000000000 d
  | .join o _ _ => StrOr os c!"type" c!"inner" o.joinType ∧ FlagOr os c!"usetime" false o.useTime ∧
      FlagOr os c!"earlier" true o.earlier ∧ FlagOr os c!"overwrite" true o.overwrite ∧ IntOr os c!"max" 1 o.max
  | .makeResults a => IntOr os c!"count" 1 a.count ∧ FlagOr os c!"annotate" false a.annotate ∧
      StrOr os c!"splunk_server" c!"local" a.server ∧ StrIs os c!"splunk_server_group" a.serverGroup
  | .rare a => StrOr os c!"countfield" c!"count" a.countField ∧ WrapOr os c!"limit" 10 a.n ∧
      StrOr os c!"otherstr" c!"OTHER" a.otherStr ∧ StrOr os c!"percentfield" c!"percent" a.percentField ∧
      FlagOr os c!"showcount" true a.showCount ∧ FlagOr os c!"showperc" true a.showPercent ∧
      FlagOr os c!"useother" false a.useOther
  | .rex a => StrOr os c!"field" c!"_raw" a.field ∧ IntOr os c!"max_match" 1 a.maxMatch ∧
      StrIs os c!"offset_field" a.offsetField ∧ ∃ m, StrIs os c!"mode" m ∧ a.mode = m.map lower ∧
        (a.mode = none ∨ a.mode = some c!"sed")
  | .stats o _ _ _ => WrapOr os c!"partitions" 1 o.partitions ∧ FlagOr os c!"allnum" false o.allNum ∧
      StrOr os c!"delim" c!" " o.delim
  | .streamStats _ _ a b => FlagOr os c!"current" true a ∧ IntOr os c!"window" 0 b
  | .top a => StrOr os c!"countfield" c!"count" a.countField ∧ WrapOr os c!"limit" 10 a.n ∧
      StrOr os c!"otherstr" c!"OTHER" a.otherStr ∧ StrOr os c!"percentfield" c!"percent" a.percentField ∧
      FlagOr os c!"showcount" true a.showCount ∧ FlagOr os c!"showperc" true a.showPercent ∧
      FlagOr os c!"useother" false a.useOther
  | .tstats o _ _ _ _ _ _ => FlagOr os c!"prestats" false o.prestats ∧ FlagOr os c!"local" false o.local ∧
      FlagOr os c!"append" false o.append ∧ FlagOr os c!"summariesonly" false o.summariesOnly ∧
      FlagOr os c!"include_reduced_buckets" false o.includeReducedBuckets ∧
      FlagOr os c!"allow_old_summaries" false o.allowOldSummaries ∧ IntOr os c!"chunk_size" 10000000 o.chunkSize ∧
      StrIs os c!"fillnull_value" o.fillnullValue
  | _ => False

/-- the commands that begin with options -/
def optionCommands : List Str := [c!"addtotals ", c!"bin ", c!"collect ", c!"convert ", c!"datamodel ", c!"dedup ",
  c!"eventstats ", c!"format ", c!"inputlookup ", c!"join ", c!"makeresults ", c!"rare ", c!"rex ", c!"stats ",
  c!"streamstats ", c!"top ", c!"tstats "]

end Verif.Spec
