import Verif.Basic.Text
/-
Capture groups of a regular expression: /repo/src/commands/regex_utils.rs.  The regex parser
(`regex_syntax`) is external; its syntax tree is modelled as far as the visitor looks at it.
-/
namespace Verif

mutual
/-- `regex_syntax::ast::ClassSet`, as visited by `_visit_class_set`, regex_utils.rs:6-16 -/
inductive ReClass
  | item (i : ReItem)
  | binary (l r : ReClass)

/-- `regex_syntax::ast::ClassSetItem`, regex_utils.rs:18-37; `leaf` is every other variant -/
inductive ReItem
  | leaf
  | bracketed (k : ReClass)
  | union (items : List ReItem)
end

/-- `regex_syntax::ast::GroupKind`, regex_utils.rs:61-69 -/
inductive ReGroup
  | index (i : Nat)
  | name (n : Str) (i : Nat)
  | nonCapturing
deriving DecidableEq, Repr

/-- `regex_syntax::ast::Ast`, as visited by `_visit_node`, regex_utils.rs:39-86; `leaf` is
every variant without children -/
inductive ReAst
  | leaf
  | classBracketed (k : ReClass)
  | repetition (a : ReAst)
  | group (kind : ReGroup) (a : ReAst)
  | alternation (as : List ReAst)
  | concat (as : List ReAst)

mutual
/-- `_visit_class_set`, regex_utils.rs:6-16 -/
def visitClass : ReClass → List (Nat × Option Str) → List (Nat × Option Str)
  | .item i, gs => visitItem i gs
  | .binary l r, gs => visitClass r (visitClass l gs)

/-- `_visit_class_set_item`, regex_utils.rs:18-37 -/
def visitItem : ReItem → List (Nat × Option Str) → List (Nat × Option Str)
  | .leaf, gs => gs
  | .bracketed k, gs => visitClass k gs
  | .union is, gs => visitItems is gs

/-- the loop of regex_utils.rs:31-33 -/
def visitItems : List ReItem → List (Nat × Option Str) → List (Nat × Option Str)
  | [], gs => gs
  | i :: is, gs => visitItems is (visitItem i gs)
end

/-- `groups.push(...)`, regex_utils.rs:61-69 -/
def pushGroup (k : ReGroup) (gs : List (Nat × Option Str)) : List (Nat × Option Str) :=
  match k with
  | .index i => gs ++ [(i, none)]
  | .name n i => gs ++ [(i, some n)]
  | .nonCapturing => gs

mutual
/-- `_visit_node`, regex_utils.rs:39-86 -/
def visitNode : ReAst → List (Nat × Option Str) → List (Nat × Option Str)
  | .leaf, gs => gs
  | .classBracketed k, gs => visitClass k gs
  | .repetition a, gs => visitNode a gs
  | .group k a, gs => visitNode a (pushGroup k gs)
  | .alternation as, gs => visitNodes as gs
  | .concat as, gs => visitNodes as gs

/-- the loops of regex_utils.rs:74-76,80-82 -/
def visitNodes : List ReAst → List (Nat × Option Str) → List (Nat × Option Str)
  | [], gs => gs
  | a :: as, gs => visitNodes as (visitNode a gs)
end

/-- `get_groups_from_ast`, regex_utils.rs:88-92 -/
def groupsOf (a : ReAst) : List (Nat × Option Str) := visitNode a []

end Verif
