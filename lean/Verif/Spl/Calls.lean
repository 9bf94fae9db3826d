import Verif.Spl.Counted
/-
The recursive grammar of `Spl/Grammar.lean`, with the number of recursive calls.  Every definition here has the parser of the same name in
`Spl/Grammar.lean` inside (`gram_p`); commands that do not recurse are taken over as they are.
-/
namespace Verif.Spl.Count
open Counted Lex
open P (ms0 ms1 lift eof wsRight)

local notation "CG" => Counted true

def binLevel (lower : CG true Expr) (op : G true Str) (same : Counted false false Expr) : CG true Expr :=
  map (fun x => match x.2 with
      | none => x.1
      | some (o, r) => .binary x.1 o r)
    (seq lower (opt (seq (free op) same)))

def subSearch : CG true Pipeline :=
  delim (free (P.ws (tag! "["))) (pre (free (P.opt (P.ws (tag! "|")))) (sepList0 (free (P.ws (tag! "|"))) (rec_ .cmd))) (free (P.ws (tag! "]")))

def callP : CG true (Str × List Expr) := seq (free (lift token)) (parenthesized (commaList0 (recE .e9n)))

def callExpr : CG true Expr := map (fun x => .call x.1 x.2) callP

def expr2 : CG true Expr :=
  parenthesized (recE .e9w) <|||>
  free (P.map (fun t => .call c!"TERM" [.const (.field t)]) (lift termCall)) <|||>
  callExpr <|||>
  free (P.map (fun v => .const v) (lift constant)) <|||>
  map (fun p => .subSearch p) subSearch

def expr3 : CG true Expr := binLevel expr2 (P.ws (tag! "*" <||> tag! "/")) (recE .e3)

def expr4 : CG true Expr := binLevel expr3 (P.ws (tag! "+" <||> tag! "-")) (recE .e4)

def expr5 : CG true Expr := binLevel expr4 (P.ws (P.delim ms0 (tag! ".") ms1)) (recE .e5)

def expr6 : CG true Expr := free fieldInExpr <|||> binLevel expr5 (P.ws cmpOps) (recE .e6)

def expr7 : CG true Expr :=
  map (fun x => .unary x.1 x.2)
    (sepPair (free (tagi! "NOT")) (free ms1) (recE .e7) <|||>
     seq (free (P.ws (tagi! "NOT"))) (parenthesized (recE .e9w))) <|||>
  expr6

def expr8 : CG true Expr := binLevel expr7 (P.ws (tagi! "OR")) (recE .e8)

def expr9n : CG true Expr := binLevel expr8 (P.ws andPattern) (recE .e9n)

def expr9w : CG true Expr := binLevel expr8 (P.ws andPattern <||> P.map (fun _ => c!"AND") ms1) (recE .e9w)

abbrev expr : CG true Expr := expr9n

def aliasedCall : CG true Expr :=
  map (fun x => .alias x.1 x.2) (sepPair callExpr (free (P.ws (tagi! "as"))) (free (lift token)))

def statsCall : CG true (List Expr) :=
  commaOrSpaceList1 (
    aliasedCall <|||>
    callExpr <|||>
    free (P.map (fun x => .alias (.call x.1 []) x.2) (lift aliasedField)) <|||>
    free (P.map (fun v => .call v []) (lift (P.verify (fun v => lower v != c!"by") token))))

def comparisonExpression : CG true Expr :=
  map (fun x => .binary (.const (.field x.1)) x.2.1 x.2.2)
    (seq (free (lift field)) (seq (free (lift (P.ws comparisonOperator)))
      (callExpr <|||> free (P.map (fun v => .const v) (lift literal))))) <|||>
  free fieldInExpr

def lterm : CG true Expr :=
  parenthesized (recE .lexpr) <|||>
  map (fun e => .unary c!"NOT" e) (pre (free (P.ws (tagi! "NOT"))) (recE .lterm)) <|||>
  free (P.map (fun ms => combineAll c!"OR" (ms.map .timeModifier)) (lift timeOpts)) <|||>
  callExpr <|||>
  comparisonExpression <|||>
  free (P.map .searchModifier (lift searchModifier))

def lgroup : CG true Expr := map (combineAll c!"AND") (sepList1 (free (P.ws (tagi! "AND") <||> ms1)) lterm)

def lexpr : CG true Expr := map (combineAll c!"OR") (sepList1 (free (P.ws (tagi! "OR"))) lgroup)

/-! ### the commands that recurse -/

def eval : CG true Command :=
  pre (free (name (tagi! "eval")))
    (map .eval (commaList0 (sepPair (free (P.ws (lift field))) (free (P.ws (tag! "="))) (ws expr))))

def eventStats : CG true Command :=
  pre (free (name (tagi! "eventstats")))
    (map (fun x => .eventStats x.1 x.2.1 (x.2.2.getD []))
      (seq (free (options fun o => getBoolean o c!"allnum" false))
        (seq (ws statsCall) (free (P.opt (P.pre (P.ws (tagi! "by")) (lift fieldList0)))))))

def head : CG true Command :=
  pre (free (name (tagi! "head")))
    (map (fun x => .head x.1 (x.2.1.getD false) (x.2.2.getD false))
      (seq (ws (free (P.map (fun n => .const (.int n))
              (lift int <||> P.pre (P.ws (tagi! "limit=")) (lift int))) <|||> expr))
        (free (P.seq (P.ws (P.opt (P.pre (P.ws (tagi! "keeplast=")) (lift bool_))))
             (P.ws (P.opt (P.pre (P.ws (tagi! "null=")) (lift bool_))))))))

def inputLookup : CG true Command :=
  pre (free (name (tagi! "inputlookup")))
    (map (fun x => .inputLookup x.1.1 x.1.2.1 x.1.2.2.1 x.1.2.2.2 x.2.1 x.2.2)
      (seq
        (free (options fun o => do
          let append ← getBoolean o c!"append" false
          let strict ← getBoolean o c!"strict" false
          let start ← getInt o c!"start" 0
          let max ← getInt o c!"max" 1000000000
          return (append, strict, start, max)))
        (seq (free (P.ws (lift token))) (ws (opt (pre (free (P.ws (tagi! "where"))) expr))))))

def join : CG true Command :=
  pre (free (name (tagi! "join")))
    (map (fun x => .join x.1 x.2.1 x.2.2)
      (seq
        (free (options fun o => do
          let joinType ← getString o c!"type" c!"inner"
          let useTime ← getBoolean o c!"usetime" false
          let earlier ← getBoolean o c!"earlier" true
          let overwrite ← getBoolean o c!"overwrite" true
          let max ← getInt o c!"max" 1
          return ({ joinType, useTime, earlier, overwrite, max } : JoinOpts)))
        (seq (free (lift fieldList1)) subSearch)))

/-- The search inside the quotes of `map` is read by `pipeline`. -/
def embedded : CG true Pipeline where
  p := Spl.embedded
  count κ i := match doubleQuotedAlt.run () i with
    | none => 0
    | some (_, s) => κ .pipe ((unescapeSearch s).dropWhile isSpace)
  grd κ κ' i h := by
    cases hd : doubleQuotedAlt.run () i with
    | none => rfl
    | some x =>
      have h1 := doubleQuotedAlt_short hd
      have h2 := unescapeSearch_length x.2
      have h3 := (List.dropWhile_suffix isSpace (l := unescapeSearch x.2)).length_le
      exact h .pipe _ (by simp [bound]; omega)

def quotedSearch : CG true Pipeline := pre (free (P.seq (P.ws (tagi! "search")) (P.ws (tag! "=")))) embedded

def map_ : CG true Command :=
  pre (free (name (tagi! "map")))
    (map (fun x => .map x.1 x.2)
      (seq quotedSearch (free (options fun o => getInt o c!"maxsearches" 10))))

def multiSearch : CG true Command :=
  pre (free (name (tagi! "multisearch")))
    (map .multiSearch (verify (fun ps => decide (2 ≤ ps.length)) (many1 (ws subSearch))))

def sort : CG true Command :=
  pre (free (name (tagi! "sort")))
    (map (fun x => .sort x.2.1 (x.1.getD 10000) x.2.2.isSome)
      (seq (free (P.opt (P.pre (P.opt (P.ws (tagi! "limit="))) (P.ws (lift int)))))
        (seq (commaList1 (seq (free (P.opt (tag! "+" <||> tag! "-"))) expr))
          (free (P.opt (P.ws (tagi! "desc")))))))

def stats : CG true Command :=
  pre (free (name (tagi! "stats")))
    (map (fun x => .stats x.1 x.2.1 x.2.2.1 (x.2.2.2.getD false))
      (seq
        (free (options fun o => do
          let partitions ← getInt o c!"partitions" 1
          let allNum ← getBoolean o c!"allnum" false
          let delim ← getString o c!"delim" c!" "
          return ({ partitions := toU64 partitions, allNum, delim } : StatsOpts)))
        (seq statsCall
          (free (P.seq (P.opt (P.pre (P.ws (tagi! "by")) (lift spFieldList1)))
            (P.opt (P.pre (P.seq (P.ws (tagi! "dedup_splitvals")) (P.ws (tag! "="))) (lift bool_))))))))

def streamStats : CG true Command :=
  pre (free (name (tagi! "streamstats")))
    (map (fun x => .streamStats x.2.1 (x.2.2.getD []) x.1.1 x.1.2)
      (seq
        (free (options fun o => do
          let current ← getBoolean o c!"current" true
          let window ← getInt o c!"window" 0
          return (current, window)))
        (seq (ws statsCall) (free (P.opt (P.pre (P.ws (tagi! "by")) (lift spFieldList1)))))))

def tsWhere : CG true Expr := pre (free (P.ws (tagi! "where"))) (ws (lexpr <|||> free fieldInExpr))

def tstats : CG true Command :=
  pre (free (name (tagi! "tstats")))
    (map (fun x => .tstats x.1 x.2.1 (x.2.2.1.map Prod.fst) (x.2.2.1.bind Prod.snd) x.2.2.2.1
        (x.2.2.2.2.bind Prod.fst) (x.2.2.2.2.bind Prod.snd))
      (seq
        (free (options fun o => do
          let prestats ← getBoolean o c!"prestats" false
          let «local» ← getBoolean o c!"local" false
          let append ← getBoolean o c!"append" false
          let summariesOnly ← getBoolean o c!"summariesonly" false
          let includeReducedBuckets ← getBoolean o c!"include_reduced_buckets" false
          let allowOldSummaries ← getBoolean o c!"allow_old_summaries" false
          let chunkSize ← getInt o c!"chunk_size" 10000000
          let fillnullValue ← getStringOption o c!"fillnull_value"
          return ({ prestats, «local», append, summariesOnly, includeReducedBuckets,
                    allowOldSummaries, chunkSize, fillnullValue } : TStatsOpts)))
        (seq (free (lift (P.spaceList1 tsFunction)))
          (seq (free (P.ws (P.opt (lift tsFrom))))
            (seq (ws (opt tsWhere)) (free (P.ws (P.opt (lift tsBy)))))))))

def where_ : CG true Command := pre (free (name (tagi! "where"))) (map .where_ lexpr)

def search : CG true Command :=
  pre (free (P.map (fun _ => ()) (P.seq (tagi! "search") (ms1.weak <||> eof)) <||> P.map (fun _ => ()) ms0))
    (map (fun es => .search (combineAll c!"AND" es)) (commaOrSpaceList1 expr))

def commandA : CG true Command :=
  free addTotals <|||> free bin <|||> free collect <|||> free convert <|||> free dataModel <|||> free dedup <|||> eval <|||>
  eventStats <|||> free fields <|||> free fillNull <|||> free format <|||> head <|||> inputLookup <|||> join <|||>
  free lookup <|||> free makeResults <|||> map_ <|||> multiSearch <|||> free mvCombine <|||> free mvExpand

def commandB : CG true Command :=
  free rare <|||> free regex <|||> free rename <|||> free return_ <|||> free rex <|||> sort <|||> free spath <|||> stats <|||>
  streamStats <|||> free table <|||> free tail <|||> free top <|||> tstats <|||> where_

def command : CG true Command := commandA <|||> commandB <|||> search

def pipeline : CG false Pipeline :=
  pre (free (P.opt (P.ws (tag! "|")))) (allConsuming (ws (sepList0 (free (P.ws (tag! "|"))) command)))

/-- The body of every recursive parser function, counted. -/
def gram : (n : NT) → CG false n.ty
  | .e3 => expr3.weak
  | .e4 => expr4.weak
  | .e5 => expr5.weak
  | .e6 => expr6.weak
  | .e7 => expr7.weak
  | .e8 => expr8.weak
  | .e9n => expr9n.weak
  | .e9w => expr9w.weak
  | .lexpr => lexpr.weak
  | .lterm => lterm.weak
  | .cmd => command.weak
  | .pipe => pipeline

/-- The parsers inside are those of the grammar. -/
theorem gram_p (n : NT) : (gram n).p = Spl.gram n := by cases n <;> rfl

/-- The calls when calls nest at most `k` deep. -/
def upTo : Nat → Calls
  | 0, _, _ => 0
  | k + 1, n, i => 1 + (gram n).count (upTo k) i

/-- The number of calls of recursive parser functions made by a function on a text, its own call included. -/
def calls : Calls := fun n i => upTo (i.length + 1) n i

theorem upTo_agree : ∀ m k l, m ≤ k → m ≤ l → ∀ n i, i.length < m → upTo k n i = upTo l n i
  | 0, _, _, _, _, _, _, h => by omega
  | m + 1, k + 1, l + 1, hk, hl, n, i, hi => by
    rw [upTo, upTo, (gram n).grd (upTo k) (upTo l) i fun n' j hj => ?_]
    simp only [bound, if_true] at hj
    exact upTo_agree m k l (by omega) (by omega) n' j (by omega)

/-- The calls of a function: its own, and those its body makes. -/
theorem calls_eq (n : NT) (i : Str) : calls n i = 1 + (gram n).count calls i := by
  show upTo (i.length + 1) n i = _
  rw [upTo, (gram n).grd (upTo i.length) calls i fun n' j hj => ?_]
  simp only [bound, if_true] at hj
  exact upTo_agree (j.length + 1) _ _ (by omega) (by omega) n' j (by omega)

end Verif.Spl.Count
