import Verif.Basic.Text
/-
The PySpark tree: /repo/src/pyspark/ast.rs, /repo/src/pyspark/alias.rs.
-/
namespace Verif

/-- `Expr` and `ColumnLike` of pyspark/ast.rs:58-88,264-268, merged: `Expr::Column(c)` is `c`
itself and `Expr::PyLiteral(PyLiteral(code))` is `py code`. -/
inductive PE
  | named (name : Str)
  | lit (code : Str)
  | method (col : PE) (func : Str) (args : List PE)
  | fn (func : Str) (args : List PE)
  | aliased (col : PE) (name : Str)
  | bin (op : Str) (left right : PE)
  | not (right : PE)
  | py (code : Str)
deriving Inhabited, Repr

namespace PE

/-- `TryInto<ColumnLike> for Expr`, pyspark/ast.rs:292-300 -/
def isCol : PE → Bool
  | py _ => false
  | _ => true

/-- `Aliasable::unaliased` for `ColumnLike`/`Expr`, alias.rs:7-9,27-49 -/
def unalias : PE → PE
  | aliased (py c) n => aliased (py c) n
  | aliased c _ => unalias c
  | e => e

/-- name part of `unaliased_with_name`, alias.rs:27-49 -/
def aliasName : PE → Option Str
  | aliased _ n => some n
  | _ => none

/-- `ColumnLike::aliased`, ast.rs:127-140, and `with_alias`, alias.rs:52-54,65-67 -/
def withAlias (e : PE) (n : Str) : PE := aliased (unalias e) n

/-- `maybe_with_alias`, alias.rs:56-61,69-74 -/
def maybeAlias (e : PE) : Option Str → PE
  | some n => withAlias e n
  | none => e

/-- `ColumnLike::method_call`, ast.rs:103-118 -/
def mkMethod (col : PE) (func : Str) (args : List PE) : PE := method (unalias col) func args

/-- `ColumnLike::binary_op`, ast.rs:142-158 -/
def mkBin (l : PE) (op : Str) (r : PE) : PE := bin op (unalias l) (unalias r)

/-- `ColumnLike::unary_not`, ast.rs:160-171 -/
def mkNot (r : PE) : PE := not (unalias r)

end PE

/-- `PyLiteral::from(String)`, ast.rs:25-34: double quotes around the text, nothing escaped. -/
def pyStr (s : Str) : PE := .py (c!"\"" ++ s ++ c!"\"")

/-- `PyLiteral::from(i64)`, ast.rs:36-40 -/
def pyInt (n : Int) : PE := .py (showInt n)

/-- `PyLiteral::from(bool)`, ast.rs:46-50 -/
def pyBool (b : Bool) : PE := .py (if b then c!"True" else c!"False")

/-- `PyLiteral::from(Option<String>)`, ast.rs:16-23 -/
def pyOptStr : Option Str → PE
  | some s => pyStr s
  | none => .py c!"None"

mutual
/-- `ToSparkQuery for ColumnLike`, ast.rs:219-261.  (For `py` see `renderE`.) -/
def renderC : PE → Str
  | .named n => c!"F.col('" ++ n ++ c!"')"
  | .lit c => c!"F.lit(" ++ c ++ c!")"
  | .method col f args => renderE col ++ c!"." ++ f ++ c!"(" ++ joinWith c!", " (renderArgs args) ++ c!")"
  | .fn f args =>
    (if f.contains '.' then f else c!"F." ++ f) ++ c!"(" ++ joinWith c!", " (renderArgs args) ++ c!")"
  | .aliased col n => renderE col ++ c!".alias('" ++ n ++ c!"')"
  | .bin op l r => renderE l ++ c!" " ++ op ++ c!" " ++ renderE r
  | .not r => c!"~" ++ renderE r
  | .py c => c

/-- `ToSparkQuery for Expr`, ast.rs:270-280: a binary operation is parenthesised. -/
def renderE : PE → Str
  | .bin op l r => c!"(" ++ (renderE l ++ c!" " ++ op ++ c!" " ++ renderE r) ++ c!")"
  | .named n => c!"F.col('" ++ n ++ c!"')"
  | .lit c => c!"F.lit(" ++ c ++ c!")"
  | .method col f args => renderE col ++ c!"." ++ f ++ c!"(" ++ joinWith c!", " (renderArgs args) ++ c!")"
  | .fn f args =>
    (if f.contains '.' then f else c!"F." ++ f) ++ c!"(" ++ joinWith c!", " (renderArgs args) ++ c!")"
  | .aliased col n => renderE col ++ c!".alias('" ++ n ++ c!"')"
  | .not r => c!"~" ++ renderE r
  | .py c => c

/-- the argument lists of ast.rs:225-228,237-240 -/
def renderArgs : List PE → List Str
  | [] => []
  | a :: as => renderE a :: renderArgs as
end

/-- `ColumnOrName`, ast.rs:302-306 -/
inductive CN
  | col (c : PE)
  | name (n : Str)
deriving Repr

/-- `ToSparkQuery for ColumnOrName`, ast.rs:320-327 -/
def CN.render : CN → Str
  | .col c => renderC c
  | .name n => c!"\"" ++ n ++ c!"\""

/-- `From<ColumnOrName> for RuntimeExpr`, ast.rs:507-514 -/
def CN.toPE : CN → PE
  | .col c => c
  | .name n => .named n

/-- `RuntimeExpr`, ast.rs:478-485.  Simplification: the entries of `PyDict`/`PyList` are
expressions and data frames do not occur as arguments; the translators build nothing else
(cmd_fill_null:16, cmd_t_stats:45,75, cmd_stats:66). -/
inductive RE
  | expr (e : PE)
  | dict (kvs : List (Str × PE))
  | list (es : List PE)
deriving Repr

/-- `ToSparkQuery for RuntimeExpr`, ast.rs:347-362 (dict), 390-405 (list), 543-553.
No entry has a preface, so the dropped prefaces of ast.rs:347-405 are empty. -/
def RE.render : RE → Str
  | .expr e => renderE e
  | .dict kvs => c!"{ " ++ joinWith c!", " (kvs.map fun kv => c!"\"" ++ kv.1 ++ c!"\": " ++ renderE kv.2) ++ c!" }"
  | .list es => c!"[ " ++ joinWith c!", " (es.map renderE) ++ c!" ]"

/-- `DataFrame`, ast.rs:555-632.  `Runtime` is split by whether it has a source. -/
inductive DF
  | source (name : Str)
  | runtimeRoot (name func : Str) (args : List RE) (kwargs : List (Str × RE))
  | runtime (name : Str) (source : DF) (func : Str) (args : List RE) (kwargs : List (Str × RE))
  | rawSource (code : Str)
  | named (source : DF) (name : Str)
  | select (source : DF) (columns : List PE)
  | where_ (source : DF) (condition : PE)
  | groupBy (source : DF) (columns : List CN)
  | agg (source : DF) (columns : List PE)
  | withColumn (source : DF) (column : PE) (name : Str)
  | withColumnRenamed (source : DF) (oldName newName : Str)
  | orderBy (source : DF) (columns : List PE)
  | unionByName (source other : DF)
  | limit (source : DF) (n : Nat)
  | tail (source : DF) (n : Nat)
  | join (source other : DF) (condition : PE) (joinType : Str)
  | alias (source : DF) (name : Str)
  | arbitraryMethod (source : DF) (method : Str) (params : List PE)
deriving Inhabited, Repr

/-- `DataFrame::default`, ast.rs:766-770 -/
def DF.default : DF := .source c!"main"

/-- `DataFrame::where_`, ast.rs:678-683 -/
def DF.mkWhere (d : DF) (c : PE) : DF := .where_ d c.unalias

/-- `DataFrame::with_column`, ast.rs:696-702 -/
def DF.mkWithColumn (d : DF) (name : Str) (c : PE) : DF := .withColumn d c.unalias name

/-- `DataFrame::join`, ast.rs:738-750 -/
def DF.mkJoin (d other : DF) (c : PE) (ty : Str) : DF := .join d other c.unalias ty

/-- `PythonCode`, base.rs:41-44 -/
structure PyCode where
  preface : List Str
  primary : Str
deriving DecidableEq, Repr

/-- `Display for PythonCode`, base.rs:69-76 -/
def PyCode.text (c : PyCode) : Str := (c.preface.flatMap fun l => l ++ c!"\n") ++ c.primary

/-- `From<String> for PythonCode`, base.rs:60-67 -/
def PyCode.of (s : Str) : PyCode := ⟨[], s⟩

/-- one statement `name = commands.func(first, args..., kwargs...)`, ast.rs:777-816 -/
def runtimeStmt (name func first : Str) (args : List RE) (kwargs : List (Str × RE)) : Str :=
  name ++ c!" = commands." ++ func ++ c!"(" ++
    joinWith c!", " (first :: (args.map RE.render ++ kwargs.map fun kv => kv.1 ++ c!"=" ++ kv.2.render))
    ++ c!")"

/-- `ToSparkQuery for DataFrame`, ast.rs:772-949 -/
def DF.render : DF → PyCode
  | .source n => .of (c!"spark.table('" ++ n ++ c!"')")
  | .rawSource c => .of c
  | .runtimeRoot name func args kwargs =>
    ⟨[runtimeStmt name func c!"None" args kwargs], name⟩
  | .runtime name src func args kwargs =>
    let s := src.render
    ⟨s.preface ++ [runtimeStmt name func s.primary args kwargs], name⟩
  | .named src name => let s := src.render; ⟨s.preface ++ [name ++ c!" = " ++ s.primary], name⟩
  | .select src cols =>
    .of (src.render.text ++ c!".select(" ++ joinWith c!", " (cols.map renderC) ++ c!",)")
  | .where_ src cond => .of (src.render.text ++ c!".where(" ++ renderE cond ++ c!",)")
  | .groupBy src cols =>
    .of (src.render.text ++ c!".groupBy([" ++ (cols.flatMap fun c => c.render ++ c!", ") ++ c!"])")
  | .agg src cols =>
    .of (src.render.text ++ c!".agg(" ++ joinWith c!", " (cols.map renderC) ++ c!",)")
  | .withColumn src col name =>
    .of (src.render.text ++ c!".withColumn('" ++ name ++ c!"', " ++ renderC col ++ c!",)")
  | .withColumnRenamed src o n =>
    .of (src.render.text ++ c!".withColumnRenamed('" ++ o ++ c!"', '" ++ n ++ c!"',)")
  | .orderBy src cols =>
    .of (src.render.text ++ c!".orderBy(" ++ joinWith c!", " (cols.map renderC) ++ c!",)")
  | .unionByName src other =>
    .of (src.render.text ++ c!".unionByName(" ++ other.render.text ++ c!", allowMissingColumns=True,)")
  | .limit src n => .of (src.render.text ++ c!".limit(" ++ showNat n ++ c!",)")
  | .tail src n => .of (src.render.text ++ c!".tail(" ++ showNat n ++ c!")")
  | .join src other cond ty =>
    .of (src.render.text ++ c!".join(" ++ other.render.text ++ c!", " ++ renderE cond ++ c!", '" ++ ty ++ c!"',)")
  | .alias src n => .of (src.render.text ++ c!".alias('" ++ n ++ c!"',)")
  | .arbitraryMethod src m ps =>
    .of (src.render.text ++ c!"." ++ m ++ c!"(" ++ joinWith c!"," (ps.map renderE) ++ c!",)")

end Verif
