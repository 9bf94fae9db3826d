import Verif.Tr.Funcs
/-
Expression translation: /repo/src/pyspark/transpiler/expr.rs.
-/
namespace Verif

/-- `SIMPLE_OP_MAP` with its default, expr.rs:11-16,28-31 -/
def mapOp (s : Str) : Str :=
  if s = c!"=" then c!"=="
  else if s = c!"AND" then c!"&"
  else if s = c!"OR" then c!"|"
  else if s = c!"NOT" then c!"~"
  else s

/-- `str::replace("*", "%")` of expr.rs:52,123 -/
def starToPercent (s : Str) : Str := replaceAll c!"*" c!"%" s

/-- `c.like("pattern")`, expr.rs:51-52,122-124 -/
def likeTest (c : PE) (pattern : Str) : PE := PE.mkMethod c c!"like" [pyStr (starToPercent pattern)]

/-- one check of a `FieldIn`, expr.rs:118-159 -/
def fieldInCheck (field : Str) : Expr → Option PE
  | .const k => match k with
    | .wildcard v => some (likeTest (.named field) v)
    | .bool b => some (PE.mkBin (.named field) c!"==" (pyBool b))
    | .int n => some (PE.mkBin (.named field) c!"==" (pyInt n))
    | .double d => some (PE.mkBin (.named field) c!"==" (.py d.text))
    | .str s => some (PE.mkBin (.named field) c!"==" (pyStr s))
    | .field s => some (PE.mkBin (.named field) c!"==" (pyStr s))
    | .ipv4cidr s => some (PE.mkBin (.named field) c!"==" (pyStr s))
    | _ => none
  | _ => none

/-- the checks of a `FieldIn` list, expr.rs:116-161 -/
def fieldInChecks (field : Str) : List Expr → Option (List PE)
  | [] => some []
  | e :: es => match fieldInCheck field e with
    | none => none
    | some c => match fieldInChecks field es with
      | none => none
      | some cs => some (c :: cs)

/-- expr.rs:114-164 -/
def fieldInTr (field : Str) (es : List Expr) : Option PE :=
  (fieldInChecks field es).map fun cs => (joinAsBinaries c!"|" cs).getD (.lit c!"True")

/-- leaves, expr.rs:74-108 -/
def constTr : Constant → Option PE
  | .field n => some (.named n)
  | .int n => some (.lit (showInt n))
  | .double d => some (.lit d.text)
  | .str s => some (.lit (c!"'" ++ s ++ c!"'"))
  | .bool b => some (.lit (if b then c!"true" else c!"false"))
  | .ipv4cidr s => some (.lit (c!"'" ++ s ++ c!"'"))
  | _ => none

/-- wildcard right-hand sides, expr.rs:49-59 -/
def wildcardTr (l : Option PE) (op : Str) (pattern : Str) : Option PE :=
  match l with
  | none => none
  | some l =>
    if op = c!"=" then some (likeTest l pattern)
    else if op = c!"==" then some (likeTest l pattern)
    else if op = c!"!=" then some (PE.mkNot (likeTest l pattern))
    else none

/-- general binary operation, expr.rs:61-66 -/
def generalBin (l : Option PE) (op : Str) (r : Option PE) : Option PE :=
  match l, r with
  | some l, some r => some (PE.mkBin l op r)
  | _, _ => none

/-- the `Binary` arm, expr.rs:22-67.  The translations of both operands are passed in. -/
def binTr (left : Expr) (symbol : Str) (right : Expr) (l r : Option PE) : Option PE :=
  match right with
  | .const (.wildcard p) => wildcardTr l (mapOp symbol) p
  | .const (.ipv4cidr cidr) =>
    match left with
    | .const (.field col) =>
      if mapOp symbol = c!"==" then
        some (.fn c!"expr" [pyStr (c!"cidr_match('" ++ cidr ++ c!"', " ++ col ++ c!")")])
      else generalBin l (mapOp symbol) r
    | _ => generalBin l (mapOp symbol) r
  | _ => generalBin l (mapOp symbol) r

mutual
/-- `ToSparkExpr for ast::Expr`, expr.rs:18-184 -/
def exprTr (m : Mode) : Expr → Option PE
  | .binary l s r => binTr l s r (exprTr m l) (exprTr m r)
  | .unary s r => if s = c!"NOT" then (exprTr m r).map PE.mkNot else none
  | .const k => constTr k
  | .fieldIn f es => fieldInTr f es
  | .call name args => evalFn m name (argsTr m args)
  | _ => none

/-- arguments of a call with the result of `map_arg`, functions/mod.rs:69-76 -/
def argsTr (m : Mode) : List Expr → List Arg
  | [] => []
  | e :: es => ⟨e, (exprTr m e).map PE.unalias⟩ :: argsTr m es
end

/-- `_strip_quotes`, expr.rs:222-230: `^".+"$` or `^'.+'$` (`.` does not match a newline). -/
def stripQuotes (s : Str) : Str :=
  match s with
  | [] => s
  | q :: rest =>
    if (q = '"' || q = '\'') && rest.length ≥ 2 && rest.getLast? = some q
        && !(rest.dropLast.contains '\n') then rest.dropLast else s

/-- the containment test of a bare term, expr.rs:204-210 -/
def rawTest (term : Str) : PE :=
  PE.mkMethod (.named c!"_raw") c!"ilike" [pyStr (c!"%" ++ term ++ c!"%")]

/-- `Expr::_into_search_expr` / `ColumnLike::into_search_expr`, expr.rs:187-192,202-236.
An alias is taken off, the rest is rewritten and the alias is put back (`withAlias`). -/
def searchRw : PE → PE
  | .named n => rawTest n
  | .lit c => rawTest (stripQuotes c)
  | .not r => .not (searchRw r)
  | .bin op l r =>
    if op = c!"&" || op = c!"|" then PE.mkBin (searchRw l) op (searchRw r) else .bin op l r
  | .aliased (.py c) n => .aliased (.aliased (.py c) n) n
  | .aliased c n => PE.withAlias (searchRw c) n
  | e => e

/-- `Expr::into_search_expr`, expr.rs:194-198 -/
def intoSearch (e : PE) : PE := (searchRw e.unalias).maybeAlias e.aliasName

end Verif
