import Verif.Spl.Ast
/-
What a parsed query looks like: facts about every expression and every command in it, at any depth.
-/
namespace Verif.Spec
open Verif

mutual
/-- `E` holds of every expression and `C` of every command occurring in an expression -/
def everyE (E : Expr → Prop) (C : Command → Prop) : Expr → Prop
  | .const k => E (.const k)
  | .fv f v => E (.fv f v)
  | .fb f v => E (.fb f v)
  | .fc f v => E (.fc f v)
  | .aliasedField f a => E (.aliasedField f a)
  | .binary l op r => E (.binary l op r) ∧ everyE E C l ∧ everyE E C r
  | .unary op r => E (.unary op r) ∧ everyE E C r
  | .call n as => E (.call n as) ∧ everyEs E C as
  | .fieldIn f es => E (.fieldIn f es) ∧ everyEs E C es
  | .alias e n => E (.alias e n) ∧ everyE E C e
  | .timeModifier m => E (.timeModifier m)
  | .searchModifier m => E (.searchModifier m)
  | .subSearch cs => E (.subSearch cs) ∧ everyP E C cs

/-- the same for a list of expressions -/
def everyEs (E : Expr → Prop) (C : Command → Prop) : List Expr → Prop
  | [] => True
  | e :: es => everyE E C e ∧ everyEs E C es

/-- the same for the assignments of `eval` -/
def everyAs (E : Expr → Prop) (C : Command → Prop) : List (Str × Expr) → Prop
  | [] => True
  | (_, e) :: es => everyE E C e ∧ everyAs E C es

/-- the same for the keys of `sort` -/
def everyKs (E : Expr → Prop) (C : Command → Prop) : List (Option Str × Expr) → Prop
  | [] => True
  | (_, e) :: es => everyE E C e ∧ everyKs E C es

/-- the same for a command -/
def everyC (E : Expr → Prop) (C : Command → Prop) : Command → Prop
  | .eval as => C (.eval as) ∧ everyAs E C as
  | .eventStats b fs by_ => C (.eventStats b fs by_) ∧ everyEs E C fs
  | .head e k n => C (.head e k n) ∧ everyE E C e
  | .inputLookup a b s m t (some w) => C (.inputLookup a b s m t (some w)) ∧ everyE E C w
  | .join o fs sub => C (.join o fs sub) ∧ everyP E C sub
  | .map sub n => C (.map sub n) ∧ everyP E C sub
  | .multiSearch ps => C (.multiSearch ps) ∧ everyPs E C ps
  | .sort ks n d => C (.sort ks n d) ∧ everyKs E C ks
  | .stats o fs b d => C (.stats o fs b d) ∧ everyEs E C fs
  | .streamStats fs b c w => C (.streamStats fs b c w) ∧ everyEs E C fs
  | .tstats o es d n (some w) b p => C (.tstats o es d n (some w) b p) ∧ everyEs E C es ∧ everyE E C w
  | .tstats o es d n none b p => C (.tstats o es d n none b p) ∧ everyEs E C es
  | .where_ e => C (.where_ e) ∧ everyE E C e
  | .search e => C (.search e) ∧ everyE E C e
  | c => C c

/-- the same for a pipeline -/
def everyP (E : Expr → Prop) (C : Command → Prop) : List Command → Prop
  | [] => True
  | c :: cs => everyC E C c ∧ everyP E C cs

/-- the same for several pipelines -/
def everyPs (E : Expr → Prop) (C : Command → Prop) : List (List Command) → Prop
  | [] => True
  | p :: ps => everyP E C p ∧ everyPs E C ps
end

/-- the operators with a fixed spelling -/
def fixedOps : List Str :=
  [c!"*", c!"/", c!"+", c!"-", c!".", c!"=", c!"::", c!"==", c!"!=", c!"<", c!"<=", c!">", c!">="]

/-- a 64-bit integer that can be negated -/
def isI64 (n : Int) : Prop := -(2 ^ 63) < n ∧ n < 2 ^ 63

/-- the reserved words, src/spl/parser.rs:346-408 -/
def reservedWords : List Str := [
  c!"AFTER", c!"AND", c!"APPLY", c!"AS", c!"ASC", c!"BEFORE", c!"BETWEEN", c!"BIN", c!"BRANCH",
  c!"BY", c!"DEDUP", c!"DISTINCT", c!"EVENTSTATS", c!"EXISTS", c!"EXPORT", c!"FIT", c!"FROM",
  c!"FUNCTION", c!"GROUP", c!"GROUPBY", c!"HAVING", c!"HEAD", c!"HISTPERC", c!"IMPORT", c!"IN",
  c!"INNER", c!"INTO", c!"IS", c!"JOIN", c!"LIKE", c!"LIMIT", c!"LOOKUP", c!"NOT", c!"OFFSET",
  c!"ON", c!"ONCHANGE", c!"OR", c!"ORDER", c!"ORDERBY", c!"OUTER", c!"OUTPUTNEW", c!"RENAME",
  c!"RESET", c!"RETURN", c!"REX", c!"SEARCH", c!"SELECT", c!"SORT", c!"STATS", c!"STREAMSTATS",
  c!"THRU", c!"THROUGH", c!"TIMECHART", c!"TIMEWRAP", c!"UNION", c!"WHERE", c!"WHILE", c!"XOR"]

/-- a reserved word, in any casing -/
def Reserved (s : Str) : Prop := upper s ∈ reservedWords

instance (s : Str) : Decidable (Reserved s) := inferInstanceAs (Decidable (_ ∈ _))

/-- what is true of every expression of a parsed query -/
def exprShape : Expr → Prop
  | .const (.int n) => isI64 n
  | .const .null => False
  | .fv .. | .fb .. | .fc .. | .aliasedField .. => False
  | .binary _ op _ => op ∈ fixedOps ∨ lower op = c!"and" ∨ lower op = c!"or"
  | .unary op _ => lower op = c!"not"
  | .fieldIn _ es => ∀ e ∈ es, ∃ k, e = .const k
  | .alias e _ => ∃ n as, e = .call n as
  | .call n as => as ≠ [] → ¬ Reserved n
  | _ => True

/-- the last word of `datamodel`, which is not the name of a model -/
def searchModes : List Str := [c!"search", c!"flat", c!"acceleration_search"]

/-- the comparisons of a condition -/
def condOps : List Str := [c!"=", c!"::", c!"==", c!"!=", c!"<", c!"<=", c!">", c!">="]

/-- What the condition of `where` and `tstats` is made of, in every parsed query: the left side of a comparison is a field, and the right side is a
call or a constant that is not a field. -/
inductive CondShape : Expr → Prop
  | cmp {f op : Str} {k : Constant} : op ∈ condOps → (∀ g, k ≠ .field g) → CondShape (.binary (.const (.field f)) op (.const k))
  | cmpCall {f op n : Str} {as : List Expr} : op ∈ condOps → CondShape (.binary (.const (.field f)) op (.call n as))
  | conn {op : Str} {l r : Expr} : op = c!"AND" ∨ op = c!"OR" → CondShape l → CondShape r → CondShape (.binary l op r)
  | not {e : Expr} : CondShape e → CondShape (.unary c!"NOT" e)
  | isIn {f : Str} {es : List Expr} : CondShape (.fieldIn f es)
  | call {n : Str} {as : List Expr} : CondShape (.call n as)
  | time {m : FmtTimeModifier} : CondShape (.timeModifier m)
  | modifier {m : SearchModifier} : CondShape (.searchModifier m)

/-- what is true of every command of a parsed query -/
def cmdShape : Command → Prop
  | .join _ fs _ => fs ≠ []
  | .multiSearch ps => 2 ≤ ps.length
  | .table fs | .fields _ fs => fs ≠ []
  | .rename as => as ≠ []
  | .sort ks n _ => ks ≠ [] ∧ isI64 n
  | .stats _ fs _ _ => fs ≠ []
  | .tstats _ es _ _ w _ p => es ≠ [] ∧ p = none ∧ ∀ e, w = some e → CondShape e
  | .where_ e => CondShape e
  | .lookup a => ∀ o, a.output = some o → lower o.kv = c!"output"
  | .top a => a.fields ≠ [] ∧ ∀ b, a.by_ = some b → b ≠ []
  | .tail n => n < 2 ^ 64
  | .makeResults a => isI64 a.count
  | .dataModel a => (∀ n, a.dataModelName = some n → n ∉ searchModes) ∧ (∀ n, a.datasetName = some n → n ∉ searchModes) ∧
      ∀ m, a.searchMode = some m → lower m ∈ searchModes
  | .dedup _ fs _ _ _ ks => fs ≠ [] ∧ (∀ f ∈ fs, lower f ≠ c!"sortby") ∧ ks ≠ []
  | .eventStats _ fs _ | .streamStats fs _ _ _ => fs ≠ []
  | .fillNull _ fs => ∀ l, fs = some l → l ≠ []
  | .regex i _ => ∀ x, i = some x → x.2 = c!"=" ∨ x.2 = c!"!="
  | .return_ _ fs => fs ≠ []
  | .rex a => a.mode = none ∨ a.mode = some c!"sed"
  | _ => True

end Verif.Spec
