import Verif.Spec.RowsFragment
/-
Specification: the rows of `join` (SPL reference), and the rows of the method `join` of a PySpark data frame.
-/
namespace Verif.Spec

/-! ### SPL -/

/-- Does an event of the subsearch belong to an event of the main search?  They agree in the fields joined on; with `usetime`
it is not later (or not earlier) than that one. -/
def splMatch (S : Sem) (o : JoinOpts) (fs : List Str) (l r : Event) : Bool :=
  (fs.all fun f => S.cmp .eq (l f) (r f) == some true) &&
    (!o.useTime || S.cmp (if o.earlier then .ge else .le) (l c!"_time") (r c!"_time") == some true)

/-- An event with the fields of a matching one: a field both have is overwritten or not, as asked for. -/
def splJoinedRow (o : JoinOpts) (fs lcols rcols : List Str) (l r : Event) : Event := fun m =>
  if m ∈ rcols ∧ m ∉ fs ∧ r m ≠ .null ∧ (o.overwrite = true ∨ m ∉ lcols ∨ l m = .null) then r m
  else if m ∈ lcols then l m else .null

/-- `join`: every event of the main search with each of the first `max` events of the subsearch that match it (0: with all);
an event without a match is left out by `inner`, and kept as it is by `left` and `outer`, which are the same. -/
def splJoin (S : Sem) (o : JoinOpts) (fs : List Str) (L R : Frame) : Option Frame :=
  if 0 ≤ o.max ∧ o.joinType ∈ [c!"inner", c!"left", c!"outer"] then
    some ⟨R.cols.foldl addCol L.cols, L.rows.flatMap fun l =>
      let ms := R.rows.filter (splMatch S o fs l)
      if ms.isEmpty then (if o.joinType = c!"inner" then [] else [onlyFields L.cols l])
      else (if o.max = 0 then ms else ms.take o.max.toNat).map (splJoinedRow o fs L.cols R.cols l)⟩
  else none

/-- a query that ends with `join` -/
def splJoinQuery (S : Sem) (A : Aggs) (O : Arrangement) (T : Str → Frame) (q : List Command) (o : JoinOpts) (fs : List Str)
    (sub : List Command) : Option Frame :=
  (splQuery S A O T q).bind fun L => (splQuery S A O T sub).bind fun R => splJoin S o fs L R

/-! ### PySpark -/

/-- The result of a join: the columns of both frames, and for each row the row on either side it is made of; there is none on
the side without a match. -/
structure Joined where
  left : List Str
  right : List Str
  rows : List (Option Event × Option Event)

/-- the values of some columns on one side; null where there is no row -/
def sideValues (cols : List Str) (r : Option Event) : List Val := cols.map fun n => (r.map fun r => r n).getD .null

/-- The column of a name after the join, as position; `none`: there is no such column, or there are several, and Spark does not
know which is meant. -/
def Joined.column (J : Joined) (n : Str) : Option Nat :=
  if (J.left ++ J.right).count n = 1 then (J.left ++ J.right).idxOf? n else none

/-- the columns of two frames with names, by qualified name -/
def bothRows (a b : Str) (l r : Event) : Event := fun m =>
  match stripPrefix? (a ++ c!".") m with
  | some n => l n
  | none => match stripPrefix? (b ++ c!".") m with
    | some n => r n
    | none => .null

/-- a qualified name of one of these columns -/
def bothKnow (a b : Str) (L R : List Str) (m : Str) : Bool :=
  match stripPrefix? (a ++ c!".") m with
  | some n => L.contains n
  | none => match stripPrefix? (b ++ c!".") m with
    | some n => R.contains n
    | none => false

/-- every row of the left side with the rows of the right side for which a condition holds -/
def matchesOf (m : Event → Event → Option Bool) (L R : List Event) : Option (List (Event × List Event)) :=
  each (fun l => (keepIf (m l) R).map fun ms => (l, ms)) L

/-- the rows of the right side for which the condition holds with no row of the left side -/
def unmatched (m : Event → Event → Option Bool) (L R : List Event) : Option (List Event) :=
  keepIf (fun r => (each (fun l => m l r) L).map fun bs => bs.all (!·)) R

/-- The rows of a join: all pairs for which the condition holds; with `left` also the rows of the left side that are in none,
with `outer` those of both sides. -/
def joinRows (how : Str) (m : Event → Event → Option Bool) (L R : List Event) : Option (List (Option Event × Option Event)) :=
  (matchesOf m L R).bind fun ps => (unmatched m L R).bind fun us =>
    let inner := fun p : Event × List Event => p.2.map fun r => (some p.1, some r)
    let left := fun p : Event × List Event => if p.2.isEmpty then [(some p.1, none)] else inner p
    if how = c!"inner" then some (ps.flatMap inner)
    else if how = c!"left" then some (ps.flatMap left)
    else if how = c!"outer" then some (ps.flatMap left ++ us.map fun r => (none, some r))
    else none

/-- `e.alias('n')` -/
def aliasedFrame : PyE → Option (Str × PyE)
  | .call (.attr e f) [.str n] => if f = c!"alias" then some (n, e) else none
  | _ => none

/-- Value of `l.alias('a').join(r.alias('b'), condition, 'how')`. -/
def joinEval (S : Sem) (A : Aggs) (O : Arrangement) (T : Str → Frame) : PyE → Option Joined
  | .call (.attr l f) [r, c, .str how] =>
    if f = c!"join" then
      (aliasedFrame l).bind fun (a, l) => (aliasedFrame r).bind fun (b, r) =>
        (frameEval S A O T l).bind fun L => (frameEval S A O T r).bind fun R =>
          if a ≠ b && (colRefs c).all (bothKnow a b L.cols R.cols) then
            (joinRows how (fun x y => (colValue S c (bothRows a b x y)).map fun v => S.truth v == some true) L.rows R.rows).map
              fun rows => ⟨L.cols, R.cols, rows⟩
          else none
    else none
  | _ => none

/-- the result of the program in a text that ends with a join -/
def textJoin (S : Sem) (A : Aggs) (O : Arrangement) (T : Str → Frame) (text : Str) : Option Joined :=
  match readProg text with
  | some ⟨[], e⟩ => joinEval S A O T e
  | _ => none

/-! ### the fragment -/

/-- A main search and a subsearch of the fragment, joined on fields both have; their columns. -/
def fitsJoin (colsOf : Str → List Str) (q : List Command) (o : JoinOpts) (fs : List Str) (sub : List Command) :
    Option (List Str × List Str) :=
  (fitsQuery colsOf q).bind fun a => (fitsQuery colsOf sub).bind fun b =>
    if goodCols a.2 && goodCols b.2 && !fs.isEmpty && fs.all a.2.contains && fs.all b.2.contains && decide (o.max = 1) &&
        [c!"inner", c!"left", c!"outer"].contains o.joinType && (!o.useTime || a.2.contains c!"_time" && b.2.contains c!"_time") then
      some (a.2, b.2)
    else none

end Verif.Spec
