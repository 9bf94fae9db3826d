import Verif.Spec.Shape
/-
Where the words of a query come from.  `textsP N T p` says that every name in the pipeline `p` (fields,
functions, data sets, aliases), at any depth, satisfies `N` and every other text satisfies `T`.
-/
namespace Verif.Spec
open Verif

/-- an optional text -/
def optS (T : Str → Prop) : Option Str → Prop
  | none => True
  | some s => T s

/-- a time span -/
def textsSpan (T : Str → Prop) (t : TimeSpan) : Prop := T t.scale

/-- an optional time span -/
def textsSpan? (T : Str → Prop) : Option TimeSpan → Prop
  | none => True
  | some t => textsSpan T t

/-- a time relative to now -/
def textsSnap (T : Str → Prop) (t : SnapTime) : Prop := textsSpan? T t.span ∧ T t.snap ∧ textsSpan? T t.snapOffset

/-- a constant -/
def textsK (N T : Str → Prop) : Constant → Prop
  | .null | .bool _ | .int _ => True
  | .double d => T d.whole ∧ T d.frac
  | .str s | .wildcard s | .ipv4cidr s => T s
  | .snapTime t => textsSnap T t
  | .timeSpan t => textsSpan T t
  | .field f | .variable f => N f

/-- a time modifier -/
def textsTM (T : Str → Prop) : TimeModifier → Prop
  | .startTime s | .endTime s => T s
  | .earliest t | .latest t => textsSnap T t

/-- a search modifier -/
def textsSM (T : Str → Prop) : SearchModifier → Prop
  | .sourceType s | .host s | .hostTag s | .eventType s | .eventTypeTag s | .savedSplunk s | .source s
  | .splunkServer s => T s

/-- a field of `lookup` -/
def textsFL (N : Str → Prop) : FieldLike → Prop
  | .field f => N f
  | .aliased f a => N f ∧ N a

/-- a field of `bin` or `return` -/
def textsFA (N : Str → Prop) : FieldOrAlias → Prop
  | .field f => N f
  | .alias f a => N f ∧ N a

/-- a field with a time span -/
def textsSF (N T : Str → Prop) (f : SpField) : Prop := N f.field ∧ textsSpan? T f.span

/-- `top` and `rare` -/
def textsTR (N T : Str → Prop) (c : TopRare) : Prop :=
  (∀ f ∈ c.fields, N f) ∧ (∀ b, c.by_ = some b → ∀ f ∈ b, N f) ∧ N c.countField ∧ T c.otherStr ∧ N c.percentField

mutual
/-- an expression.  The argument of `TERM(..)` is free text. -/
def textsE (N T : Str → Prop) : Expr → Prop
  | .const k => textsK N T k
  | .fv f v => N f ∧ T v
  | .fb f _ => N f
  | .fc f k => N f ∧ textsK N T k
  | .aliasedField f a => N f ∧ N a
  | .binary l op r => T op ∧ textsE N T l ∧ textsE N T r
  | .unary op r => T op ∧ textsE N T r
  | .call n as => N n ∧ (textsEs N T as ∨ (n = c!"TERM" ∧ ∃ t, as = [.const (.field t)] ∧ T t))
  | .fieldIn f es => N f ∧ textsEs N T es
  | .alias e n => N n ∧ textsE N T e
  | .timeModifier m => T m.format ∧ textsTM T m.modifier
  | .searchModifier m => textsSM T m
  | .subSearch cs => textsP N T cs

/-- several expressions -/
def textsEs (N T : Str → Prop) : List Expr → Prop
  | [] => True
  | e :: es => textsE N T e ∧ textsEs N T es

/-- the assignments of `eval` -/
def textsAs (N T : Str → Prop) : List (Str × Expr) → Prop
  | [] => True
  | (f, e) :: es => N f ∧ textsE N T e ∧ textsAs N T es

/-- the keys of `sort` -/
def textsKs (N T : Str → Prop) : List (Option Str × Expr) → Prop
  | [] => True
  | (s, e) :: es => optS T s ∧ textsE N T e ∧ textsKs N T es

/-- a command -/
def textsC (N T : Str → Prop) : Command → Prop
  | .addTotals c => (∀ f ∈ c.fields, N f) ∧ N c.fieldName ∧ optS N c.labelField ∧ T c.label
  | .bin c => textsFA N c.field ∧ textsSpan? T c.span ∧ textsSpan? T c.minSpan ∧ optS T c.alignTime
  | .collect c => T c.index ∧ (∀ f ∈ c.fields, N f) ∧ optS T c.file ∧ optS T c.host ∧ optS T c.marker ∧
      T c.outputFormat ∧ optS T c.source ∧ optS T c.sourceType
  | .convert tf cs => T tf ∧ ∀ c ∈ cs, N c.func ∧ N c.field ∧ optS N c.alias
  | .dataModel c => optS N c.dataModelName ∧ optS N c.datasetName ∧ optS T c.searchMode
  | .dedup _ fs _ _ _ ks => (∀ f ∈ fs, N f) ∧ ∀ k ∈ ks, optS T k.1 ∧ N k.2
  | .eval as => textsAs N T as
  | .eventStats _ fs by_ => textsEs N T fs ∧ ∀ f ∈ by_, N f
  | .fields _ fs => ∀ f ∈ fs, N f
  | .fillNull v fs => T v ∧ ∀ l, fs = some l → ∀ f ∈ l, N f
  | .format c => T c.mvSep ∧ T c.rowPrefix ∧ T c.colPrefix ∧ T c.colSep ∧ T c.colEnd ∧ T c.rowSep ∧ T c.rowEnd
  | .head e _ _ => textsE N T e
  | .inputLookup _ _ _ _ t none => N t
  | .inputLookup _ _ _ _ t (some w) => N t ∧ textsE N T w
  | .join o fs sub => T o.joinType ∧ (∀ f ∈ fs, N f) ∧ textsP N T sub
  | .lookup c => N c.dataset ∧ (∀ f ∈ c.fields, textsFL N f) ∧
      ∀ o, c.output = some o → T o.kv ∧ ∀ f ∈ o.fields, textsFL N f
  | .makeResults c => T c.server ∧ optS T c.serverGroup
  | .map sub _ => textsP N T sub
  | .multiSearch ps => textsPs N T ps
  | .mvCombine d f => optS T d ∧ N f
  | .mvExpand f _ => N f
  | .rare c => textsTR N T c
  | .regex none r => T r
  | .regex (some (f, op)) r => N f ∧ T op ∧ T r
  | .rename as => ∀ a ∈ as, N a.1 ∧ N a.2
  | .return_ _ fs => ∀ f ∈ fs, textsFA N f
  | .rex c => N c.field ∧ optS N c.offsetField ∧ optS T c.mode ∧ T c.regex
  | .sort ks _ _ => textsKs N T ks
  | .spath p i o => T p ∧ N i ∧ optS N o
  | .stats o fs b _ => T o.delim ∧ textsEs N T fs ∧ ∀ l, b = some l → ∀ f ∈ l, textsSF N T f
  | .streamStats fs b _ _ => textsEs N T fs ∧ ∀ f ∈ b, textsSF N T f
  | .table fs => ∀ f ∈ fs, N f
  | .tail _ => True
  | .top c => textsTR N T c
  | .tstats o es d n none b p => optS T o.fillnullValue ∧ textsEs N T es ∧ optS N d ∧ optS N n ∧
      (∀ l, b = some l → ∀ f ∈ l, textsSF N T f) ∧ optS N p
  | .tstats o es d n (some w) b p => optS T o.fillnullValue ∧ textsEs N T es ∧ optS N d ∧ optS N n ∧
      (∀ l, b = some l → ∀ f ∈ l, textsSF N T f) ∧ optS N p ∧ textsE N T w
  | .where_ e => textsE N T e
  | .search e => textsE N T e

/-- a pipeline -/
def textsP (N T : Str → Prop) : List Command → Prop
  | [] => True
  | c :: cs => textsC N T c ∧ textsP N T cs

/-- several pipelines -/
def textsPs (N T : Str → Prop) : List (List Command) → Prop
  | [] => True
  | p :: ps => textsP N T p ∧ textsPs N T ps
end

/-- the text `s` stands between quotes in `i`, up to blanks inside the quotes -/
def QuotedIn (s i : Str) : Prop :=
  ∃ q w₁ w₂, (q = '\'' ∨ q = '"') ∧ (∀ c ∈ w₁, isSpace c = true) ∧ (∀ c ∈ w₂, isSpace c = true) ∧
    (q :: (w₁ ++ (s ++ (w₂ ++ [q])))) <:+: i

/-- the text of a search quoted in a `map` command, parser.rs:694-697: `\"` stands for `"`, `\\` for `\` -/
def unquoted (s : Str) : Str := replaceAll c!"\\\\" c!"\\" (replaceAll c!"\\\"" c!"\"" s)

/-- the texts inside a query: its parts, and the parts of searches quoted in it -/
inductive Inside (q : Str) : Str → Prop
  | here : Inside q q
  | part {s t : Str} : Inside q s → t <:+: s → Inside q t
  | quoted {s : Str} : Inside q s → Inside q (unquoted s)

/-- names the parser supplies when none is written -/
def defaultNames : List Str := [c!"Total", c!"_no", c!"_raw", c!"count", c!"percent", c!"TERM"]

/-- other texts the parser supplies -/
def defaultTexts : List Str := [
  c!"Total", c!"raw", c!"%m/%d/%Y %H:%M:%S", c!"%m/%d/%Y:%H:%M:%S.", c!"+", c!"0", c!"(", c!")", c!"AND", c!"OR",
  c!"NOT", c!"=", c!"inner", c!"local", c!"OTHER", c!" ", c!"sed",
  c!"seconds", c!"minutes", c!"hours", c!"days", c!"weeks", c!"months"]

end Verif.Spec
