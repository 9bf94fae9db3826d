import Verif.Tr.Commands
/-
Specification: queries and programs in which the fields have other names.
-/
namespace Verif.Spec
open Verif

mutual
/-- an expression with other names for the fields; the elements of an `IN` list are values -/
def renE (ρ : Str → Str) : Expr → Expr
  | .const (.field n) => .const (.field (ρ n))
  | .binary l s r => .binary (renE ρ l) s (renE ρ r)
  | .unary s r => .unary s (renE ρ r)
  | .call f as => .call f (renEs ρ as)
  | .fieldIn f es => .fieldIn (ρ f) es
  | .alias e n => .alias (renE ρ e) (ρ n)
  | e => e
/-- several expressions -/
def renEs (ρ : Str → Str) : List Expr → List Expr
  | [] => []
  | e :: es => renE ρ e :: renEs ρ es
end

/-- a field after BY -/
def renBy (ρ : Str → Str) (f : SpField) : SpField := ⟨ρ f.field, f.span⟩

mutual
/-- a command with other names for the fields it reads and writes -/
def renCmd (ρ : Str → Str) : Command → Command
  | .addTotals c => .addTotals { c with fields := c.fields.map ρ, fieldName := ρ c.fieldName }
  | .convert t cs => .convert t (cs.map fun c => ⟨c.func, ρ c.field, c.alias.map ρ⟩)
  | .eval as => .eval (as.map fun a => (ρ a.1, renE ρ a.2))
  | .fields r fs => .fields r (fs.map ρ)
  | .fillNull v fs => .fillNull v (fs.map fun l => l.map ρ)
  | .rename as => .rename (as.map fun a => (ρ a.1, ρ a.2))
  | .regex (some (f, op)) re => .regex (some (ρ f, op)) re
  | .sort ks n d => .sort (ks.map fun k => (k.1, renE ρ k.2)) n d
  | .stats o es by_ d => .stats o (renEs ρ es) (by_.map fun l => l.map (renBy ρ)) d
  | .table fs => .table (fs.map ρ)
  | .top c => .top { c with fields := c.fields.map ρ, by_ := c.by_.map fun l => l.map ρ, countField := ρ c.countField, percentField := ρ c.percentField }
  | .rare c => .rare { c with fields := c.fields.map ρ, by_ := c.by_.map fun l => l.map ρ, countField := ρ c.countField, percentField := ρ c.percentField }
  | .spath p i (some o) => .spath p (ρ i) (some (ρ o))
  | .tstats o es dm nn w by_ p => .tstats o (renEs ρ es) dm nn (w.map (renE ρ)) (by_.map fun l => l.map (renBy ρ)) p
  | .where_ e => .where_ (renE ρ e)
  | .multiSearch ps => .multiSearch (renSubs ρ ps)
  | c => c
/-- several commands -/
def renCmds (ρ : Str → Str) : List Command → List Command
  | [] => []
  | c :: cs => renCmd ρ c :: renCmds ρ cs
/-- several searches -/
def renSubs (ρ : Str → Str) : List (List Command) → List (List Command)
  | [] => []
  | p :: ps => renCmds ρ p :: renSubs ρ ps
end

mutual
/-- a column expression of PySpark with other names for the columns -/
def renP (ρ : Str → Str) : PE → PE
  | .named n => .named (ρ n)
  | .lit c => .lit c
  | .method c f as => .method (renP ρ c) f (renPs ρ as)
  | .fn f as => .fn f (renPs ρ as)
  | .aliased c n => .aliased (renP ρ c) (ρ n)
  | .bin op l r => .bin op (renP ρ l) (renP ρ r)
  | .not r => .not (renP ρ r)
  | .py c => .py c
/-- several of them -/
def renPs (ρ : Str → Str) : List PE → List PE
  | [] => []
  | e :: es => renP ρ e :: renPs ρ es
end

/-- a column to group by -/
def renCN (ρ : Str → Str) : CN → CN
  | .col c => .col (renP ρ c)
  | .name n => .name (ρ n)

/-- an argument of a library function -/
def renRE (ρ : Str → Str) : RE → RE
  | .expr e => .expr (renP ρ e)
  | .dict kvs => .dict (kvs.map fun kv => (kv.1, renP ρ kv.2))
  | .list es => .list (renPs ρ es)

/-- a name between quotes -/
def renQuoted (ρ : Str → Str) : PE → PE
  | .py t => pyStr (ρ (t.drop 1).dropLast)
  | e => e

/-- A keyword argument of a library function: those of `commands.eval`, `commands.stats` and `commands.tstats` are named after fields, and
`commands.fill_null` gets a list of names between quotes. -/
def renKw (ρ : Str → Str) (func : Str) (kw : Str × RE) : Str × RE :=
  if func = c!"eval" ∨ func = c!"stats" ∨ func = c!"tstats" then (ρ kw.1, renRE ρ kw.2)
  else if func = c!"fill_null" then (kw.1, match kw.2 with
    | .list es => .list (es.map (renQuoted ρ))
    | r => r)
  else (kw.1, renRE ρ kw.2)

/-- a data frame of PySpark with other names for the columns -/
def renDF (ρ : Str → Str) : DF → DF
  | .select d cs => .select (renDF ρ d) (renPs ρ cs)
  | .where_ d c => .where_ (renDF ρ d) (renP ρ c)
  | .groupBy d cs => .groupBy (renDF ρ d) (cs.map (renCN ρ))
  | .agg d cs => .agg (renDF ρ d) (renPs ρ cs)
  | .withColumn d c n => .withColumn (renDF ρ d) (renP ρ c) (ρ n)
  | .withColumnRenamed d o n => .withColumnRenamed (renDF ρ d) (ρ o) (ρ n)
  | .orderBy d cs => .orderBy (renDF ρ d) (renPs ρ cs)
  | .unionByName d e => .unionByName (renDF ρ d) (renDF ρ e)
  | .limit d n => .limit (renDF ρ d) n
  | .tail d n => .tail (renDF ρ d) n
  | .arbitraryMethod d m ps => .arbitraryMethod (renDF ρ d) m (renPs ρ ps)
  | .join d e c t => .join (renDF ρ d) (renDF ρ e) (renP ρ c) t
  | .alias d n => .alias (renDF ρ d) n
  | .named d n => .named (renDF ρ d) n
  | .runtimeRoot n f as ks => .runtimeRoot n f (as.map (renRE ρ)) (ks.map (renKw ρ f))
  | .runtime n d f as ks => .runtime n (renDF ρ d) f (as.map (renRE ρ)) (ks.map (renKw ρ f))
  | d => d

/-! ### Where names of fields are texts -/

/-- Arguments of evaluation functions that are texts (formats, separators, patterns, networks): a word there is no field.  The
second argument of `cidrmatch` is part of a text of SQL. -/
def textArgs : List (Str × List Nat) :=
  [ (c!"cidrmatch", [0, 1]), (c!"strftime", [1]), (c!"strptime", [1]), (c!"split", [1]), (c!"replace", [1, 2]), (c!"mvzip", [2]) ]

/-- a field by itself -/
def isFieldE : Expr → Bool
  | .const (.field _) => true
  | _ => false

/-- a network -/
def isNetE : Expr → Bool
  | .const (.ipv4cidr _) => true
  | _ => false

mutual
/-- No field stands for a text, and none is compared with a network (such a test is a text of SQL with the name in it). -/
def opaqueE : Expr → Bool
  | .binary l _ r => opaqueE l && opaqueE r && !(isFieldE l && isNetE r)
  | .unary _ r => opaqueE r
  | .call f as => opaqueEs as && ((textArgs.lookup f).getD []).all fun i => (as[i]?.map isFieldE).getD false == false
  | .alias e _ => opaqueE e
  | _ => true
/-- the same for several -/
def opaqueEs : List Expr → Bool
  | [] => true
  | e :: es => opaqueE e && opaqueEs es
end

mutual
/-- the functions an expression calls -/
def calledIn : Expr → List Str
  | .binary l _ r => calledIn l ++ calledIn r
  | .unary _ r => calledIn r
  | .call f as => f :: calledInL as
  | .alias e _ => calledIn e
  | _ => []
/-- the same for several -/
def calledInL : List Expr → List Str
  | [] => []
  | e :: es => calledIn e ++ calledInL es
end

/-- Names columns get from functions, and names the translation itself uses: a renaming has to keep them. -/
def keptNames : List Str := evalTable.map (fun x => x.2.alias) ++ statsTable.map (fun x => x.2.alias) ++ [c!"exactperc", c!"percentile", c!"upperperc", c!"_time", c!"_raw", c!"count",
  c!"host", c!"source", c!"sourcetype", c!"splunk_server", c!"splunk_server_group"]

/-- Names of arguments that `commands.stats` and `commands.tstats` have beside those named after fields. -/
def libraryNames : List Str := [c!"by", c!"from_", c!"where", c!"fill_null_value"]

mutual
/-- Commands that treat the names of fields as names: those that are translated, with the exceptions of
`bin`, `rex`, `spath` without `output`, `lookup` and `join` (they build names and texts from names) and
searches for something besides one index (a word there may be a value). -/
def opaqueC : Command → Bool
  | .addTotals _ | .fields .. | .head .. | .makeResults _ | .rename _ | .regex .. | .sort .. | .table _ | .tail _ | .top _ | .rare _ | .fillNull .. | .dataModel _ => true
  | .convert .. => true
  | .eval as => as.all fun a => opaqueE a.2
  | .spath _ _ o => o.isSome
  | .stats _ es by_ _ => opaqueEs es && (by_.getD []).all fun f => f.span.isNone
  | .tstats _ es _ _ w by_ _ => opaqueEs es && w.all opaqueE && (by_.getD []).all fun f => f.span.isNone
  | .where_ e => opaqueE e
  | .multiSearch ps => opaqueSubs ps
  | .search (.binary (.const (.field f)) op (.const (.field _))) => f == c!"index" && op == c!"="
  | _ => false
/-- the same for several -/
def opaqueCs : List Command → Bool
  | [] => true
  | c :: cs => opaqueC c && opaqueCs cs
/-- the same for several searches -/
def opaqueSubs : List (List Command) → Bool
  | [] => true
  | p :: ps => opaqueCs p && opaqueSubs ps
end

mutual
/-- the functions a command calls -/
def calledInC : Command → List Str
  | .convert _ cs => cs.map (·.func)
  | .eval as => as.flatMap fun a => calledIn a.2
  | .stats _ es _ _ => calledInL es
  | .tstats _ es _ _ w _ _ => calledInL es ++ (w.map calledIn).getD []
  | .where_ e => calledIn e
  | .multiSearch ps => calledInSubs ps
  | _ => []
/-- the same for several -/
def calledInCs : List Command → List Str
  | [] => []
  | c :: cs => calledInC c ++ calledInCs cs
/-- the same for several searches -/
def calledInSubs : List (List Command) → List Str
  | [] => []
  | p :: ps => calledInCs p ++ calledInSubs ps
end

end Verif.Spec
