import Verif.Spl.Lexer
/-
The recursive part of /repo/src/spl/parser.rs and the bodies of the 35 command parsers
(/repo/src/commands/cmd_*/spl.rs).  Line references without a file name are to
/repo/src/spl/parser.rs.

The Rust functions call each other recursively.  A recursive call is modelled by a
request to the environment (`call`); `gram` gives the body of each function; `Spl.fix`
ties the knot, and `Verif.Props.Parse` proves that it is the unique solution of the
recursive equations.
-/
namespace Verif
open P

/-- The parser functions reached by recursive calls. -/
inductive NT
  | e3 | e4 | e5 | e6 | e7 | e8 | e9n | e9w | lexpr | lterm | cmd | pipe
deriving DecidableEq, Repr

/-- Result type of each recursive parser function. -/
abbrev NT.ty : NT → Type
  | .cmd => Command
  | .pipe => Pipeline
  | _ => Expr

/-- A meaning for every recursive parser function. -/
structure Rec where
  run : (n : NT) → Str → PRes n.ty
  suf : ∀ n i r a, run n i = some (r, a) → r <:+ i

instance : Env Rec where
  agree ρ σ k := ∀ n i, i.length < k → ρ.run n i = σ.run n i
  mono h hk n i hi := h n i (Nat.lt_of_lt_of_le hi hk)

/-- Parsers of the recursive grammar; `c` tells whether success consumes input. -/
abbrev G (c : Bool) (α : Type) := P Rec true c α

/-- A recursive call. -/
def call (n : NT) : P Rec false false n.ty where
  run ρ i := ρ.run n i
  suf ρ i r a h := ρ.suf n i r a h
  con h := by simp at h
  grd ρ σ i h := h n i (by simp [bound])

/-- Recursive call of one of the expression functions. -/
def callE (n : NT) (h : n.ty = Expr := by rfl) : P Rec false false Expr := h ▸ call n

namespace Spl
open Lex

/-- Two-operand levels of the expression ladder: `pair(lower, opt(pair(op, same)))` mapped to
`Binary::new(left, op text, right)`; 986-1003, 1005-1019, 1021-1032, 1077-1085, 1087-1114. -/
def binLevel (lower : G true Expr) (op : G true Str) (same : P Rec false false Expr) : G true Expr :=
  P.map (fun x => match x.2 with
      | none => x.1
      | some (o, r) => .binary x.1 o r)
    (seq lower (opt (seq op same)))

/-- `sub_search`, 1253-1262 -/
def subSearch : G true Pipeline :=
  delim (ws (tag! "[")) (pre (opt (ws (tag! "|"))) (sepList0 (ws (tag! "|")) (call .cmd))) (ws (tag! "]"))

/-- `call`, 896-904, as name and arguments -/
def callP : G true (Str × List Expr) :=
  seq (lift token) (parenthesized (commaList0 (callE .e9n)))

/-- `map(call, Expr::Call)` -/
def callExpr : G true Expr := P.map (fun x => .call x.1 x.2) callP

/-- `expr_base`, 972-980 and `expr2`, 982-984 -/
def expr2 : G true Expr :=
  parenthesized (callE .e9w) <||>
  P.map (fun t => .call c!"TERM" [.const (.field t)]) (lift termCall) <||>
  callExpr <||>
  P.map (fun v => .const v) (lift constant) <||>
  P.map (fun p => .subSearch p) subSearch

/-- `expr3`, 986-1003 -/
def expr3 : G true Expr := binLevel expr2 (ws (tag! "*" <||> tag! "/")) (callE .e3)

/-- `expr4`, 1005-1019 -/
def expr4 : G true Expr := binLevel expr3 (ws (tag! "+" <||> tag! "-")) (callE .e4)

/-- `expr5`, 1021-1032; `Concatenate::pattern`, operators.rs:51-53 -/
def expr5 : G true Expr := binLevel expr4 (ws (delim ms0 (tag! ".") ms1)) (callE .e5)

/-- Operators of `expr6`, 1041-1049; `Equals::pattern` also accepts `::` (operators.rs:108-110) -/
def cmpOps : G true Str :=
  tag! "==" <||> (tag! "=" <||> tag! "::") <||> tag! "!=" <||>
  tag! "<=" <||> tag! "<" <||> tag! ">=" <||> tag! ">"

/-- `field_in` as an expression -/
def fieldInExpr : G true Expr :=
  P.map (fun x => .fieldIn x.1 (x.2.map .const)) (lift fieldIn)

/-- `expr6`, 1034-1059 -/
def expr6 : G true Expr :=
  fieldInExpr <||> binLevel expr5 (ws cmpOps) (callE .e6)

/-- `expr7`, 1061-1075 -/
def expr7 : G true Expr :=
  P.map (fun x => .unary x.1 x.2)
    (sepPair (tagi! "NOT") ms1 (callE .e7) <||>
     seq (ws (tagi! "NOT")) (parenthesized (callE .e9w))) <||>
  expr6

/-- `expr8`, 1077-1085 -/
def expr8 : G true Expr := binLevel expr7 (ws (tagi! "OR")) (callE .e8)

/-- `And::pattern`, operators.rs:27-32 -/
def andPattern : G true Str := tagi! "AND" <||> tag! " "

/-- `expr9_no_whitespace`, 1087-1098; also `expr`, 1116-1118 -/
def expr9n : G true Expr := binLevel expr8 (ws andPattern) (callE .e9n)

/-- `expr9_with_whitespace`, 1100-1114 -/
def expr9w : G true Expr :=
  binLevel expr8 (ws andPattern <||> P.map (fun _ => c!"AND") ms1) (callE .e9w)

/-- `expr`, 1116-1118 -/
abbrev expr : G true Expr := expr9n

/-- `aliased_call`, 1135-1143 -/
def aliasedCall : G true Expr :=
  P.map (fun x => .alias x.1 x.2) (sepPair callExpr (ws (tagi! "as")) (lift token))

/-- `stats_call`, 1147-1175 -/
def statsCall : G true (List Expr) :=
  commaOrSpaceList1 (
    aliasedCall <||>
    callExpr <||>
    P.map (fun x => .alias (.call x.1 []) x.2) (lift aliasedField) <||>
    P.map (fun v => .call v []) (lift (verify (fun v => lower v != c!"by") token)))

/-- `combine_all_expressions`, 1281-1296, on a list whose first element is split off. -/
def combine (sym : Str) (e : Expr) (es : List Expr) : Expr :=
  es.foldl (fun acc x => .binary acc sym x) e

/-- `combine_all_expressions(..).unwrap()`; the lists come from `separated_list1`, so they
are never empty and the panic of `unwrap` on an empty list is unreachable. -/
def combineAll (sym : Str) : List Expr → Expr
  | [] => default
  | e :: es => combine sym e es

/-- `comparison_expression`, 1335-1349 -/
def comparisonExpression : G true Expr :=
  P.map (fun x => .binary (.const (.field x.1)) x.2.1 x.2.2)
    (seq (lift field) (seq (lift (ws comparisonOperator))
      (callExpr <||> P.map (fun v => .const v) (lift literal)))) <||>
  fieldInExpr

/-- `logical_expression_term`, 1316-1331 -/
def lterm : G true Expr :=
  parenthesized (callE .lexpr) <||>
  P.map (fun e => .unary c!"NOT" e) (pre (ws (tagi! "NOT")) (callE .lterm)) <||>
  P.map (fun ms => combineAll c!"OR" (ms.map .timeModifier)) (lift timeOpts) <||>
  callExpr <||>
  comparisonExpression <||>
  P.map .searchModifier (lift searchModifier)

/-- `logical_expression_group`, 1306-1314 -/
def lgroup : G true Expr :=
  P.map (combineAll c!"AND") (sepList1 (ws (tagi! "AND") <||> ms1) lterm)

/-- `logical_expression`, 1299-1304 -/
def lexpr : G true Expr :=
  P.map (combineAll c!"OR") (sepList1 (ws (tagi! "OR")) lgroup)

/-! ### Commands -/

/-- `SplCommand::match_name`, commands/spl.rs:37-52 -/
def name (p : G true Str) : G true Unit := P.map (fun _ => ()) (seq p (ms1.weak <||> eof))

/-- `SplCommandOptions::match_options`, commands/spl.rs:11-15 -/
def options {α : Type} (f : List (Str × Constant) → Option α) : G false α :=
  filterMap f (lift commandOptions)

/-- cmd_add_totals/spl.rs:60-91 -/
def addTotals : G true Command :=
  pre (name (tagi! "addtotals"))
    (P.map (fun x => .addTotals { x.1 with fields := x.2 })
      (seq
        (options fun o => do
          let row ← getBoolean o c!"row" true
          let col ← getBoolean o c!"col" false
          let fieldName ← getString o c!"fieldname" c!"Total"
          let labelField ← getStringOption o c!"labelfield"
          let label ← getString o c!"label" c!"Total"
          return ({ fields := [], row, col, fieldName, labelField, label } : AddTotals))
        (many0 (ws (lift field)))))

/-- `alt((into(aliased_field), into(field)))`, cmd_bin/spl.rs:79 -/
def fieldOrAlias : L true FieldOrAlias :=
  P.map (fun x => .alias x.1 x.2) aliasedField <||> P.map .field field

/-- cmd_bin/spl.rs:56-92 -/
def bin : G true Command :=
  pre (name (tagi! "bin" <||> tagi! "bucket"))
    (P.map (fun x => .bin { x.1 with field := x.2 })
      (seq
        (options fun o => do
          let span ← getSpanOption o c!"span"
          let minSpan ← getSpanOption o c!"minspan"
          let bins ← getIntOption o c!"bins"
          let start ← getIntOption o c!"start"
          let «end» ← getIntOption o c!"end"
          let alignTime ← getStringOption o c!"aligntime"
          return ({ field := .field [], span, minSpan, bins, start, «end», alignTime } : Bin))
        (lift fieldOrAlias)))

/-- cmd_collect/spl.rs:92-152 -/
def collect : G true Command :=
  pre (name (tagi! "collect"))
    (P.map (fun x => .collect { x.1 with fields := x.2 })
      (seq
        (options fun o => do
          let index? ← getStringOption o c!"index"
          let index ← index?
          let addTime ← getBoolean o c!"addtime" true
          let file ← getStringOption o c!"file"
          let host ← getStringOption o c!"host"
          let marker ← getStringOption o c!"marker"
          let outputFormat ← getString o c!"output_format" c!"raw"
          let runInPreview ← getBoolean o c!"run_in_preview" false
          let spool ← getBoolean o c!"spool" true
          let source ← getStringOption o c!"source"
          let sourceType ← getStringOption o c!"sourcetype"
          let testMode ← getBoolean o c!"testmode" false
          return ({ index, fields := [], addTime, file, host, marker, outputFormat, runInPreview,
                    spool, source, sourceType, testMode } : Collect))
        (lift fieldList0)))

/-- One conversion, cmd_convert/spl.rs:74-85 -/
def conversion : L true FieldConversion :=
  P.map (fun x => { func := x.1, field := x.2.1, alias := x.2.2 })
    (ws (seq token (seq (delim (tag! "(") (ws field) (tag! ")"))
      (ws (opt (pre (ws (tagi! "AS")) field))))))

/-- cmd_convert/spl.rs:56-90 -/
def convert : G true Command :=
  pre (name (tagi! "convert"))
    (P.map (fun x => .convert x.1 x.2)
      (seq (options fun o => getString o c!"timeformat" c!"%m/%d/%Y %H:%M:%S")
        (many0 (lift conversion))))

/-- `field_not_keyword`, cmd_data_model/spl.rs:64-68 -/
def fieldNotKeyword : L true Str :=
  verify (fun v => v != c!"search" && v != c!"flat" && v != c!"acceleration_search") field

/-- cmd_data_model/spl.rs:52-96 -/
def dataModel : G true Command :=
  pre (name (tagi! "datamodel"))
    (P.map (fun x => .dataModel { x.1 with
        dataModelName := x.2.1, datasetName := x.2.2.1, searchMode := x.2.2.2 })
      (seq
        (options fun o => do
          let strictFields ← getBoolean o c!"strict_fields" false
          let allowOldSummaries ← getBoolean o c!"allow_old_summaries" false
          let summariesOnly ← getBoolean o c!"summariesonly" true
          return ({ dataModelName := none, datasetName := none, searchMode := none,
                    strictFields, allowOldSummaries, summariesOnly } : DataModel))
        (seq (opt (ws (lift fieldNotKeyword)))
          (seq (opt (ws (lift fieldNotKeyword)))
            (opt (tagi! "search" <||> tagi! "flat" <||> tagi! "acceleration_search"))))))

/-- cmd_dedup/spl.rs:48-50,79-133 -/
def dedup : G true Command :=
  pre (name (tagi! "dedup"))
    (P.map (fun x => .dedup (x.1.getD 1) x.2.2.1 x.2.1.1 x.2.1.2.1 x.2.1.2.2
        (x.2.2.2.getD [(some c!"+", c!"_no")]))
      (seq (opt (lift int))
        (seq
          (options fun o => do
            let keepEvents ← getBoolean o c!"keepevents" false
            let keepEmpty ← getBoolean o c!"keepempty" false
            let consecutive ← getBoolean o c!"consecutive" false
            return (keepEvents, keepEmpty, consecutive))
          (seq (many1 (ws (lift (verify (fun f => lower f != c!"sortby") field))))
            (opt (pre (ws (tagi! "sortby"))
              (many1 (ws (seq (opt (tag! "+" <||> tag! "-")) (lift field))))))))))

/-- cmd_eval/spl.rs:35-47 -/
def eval : G true Command :=
  pre (name (tagi! "eval"))
    (P.map .eval (commaList0 (sepPair (ws (lift field)) (ws (tag! "=")) (ws expr))))

/-- cmd_event_stats/spl.rs:41-69 -/
def eventStats : G true Command :=
  pre (name (tagi! "eventstats"))
    (P.map (fun x => .eventStats x.1 x.2.1 (x.2.2.getD []))
      (seq (options fun o => getBoolean o c!"allnum" false)
        (seq (ws statsCall) (opt (pre (ws (tagi! "by")) (lift fieldList0))))))

/-- cmd_fields/spl.rs:49-62 -/
def fields : G true Command :=
  pre (name (tagi! "fields"))
    (P.map (fun x => .fields (decide (x.1.getD c!"+" = c!"-")) x.2)
      (seq (opt (ws (tag! "+" <||> tag! "-"))) (lift fieldList1)))

/-- cmd_fill_null/spl.rs:45-63 -/
def fillNull : G true Command :=
  pre (name (tagi! "fillnull"))
    (P.map (fun x => .fillNull (x.1.getD c!"0") x.2)
      (seq (opt (pre (tag! "value=") (lift (doubleQuoted <||> token))))
        (opt (many1 (ws (lift field))))))

/-- cmd_format/spl.rs:68-111 -/
def format : G true Command :=
  pre (name (tagi! "format"))
    (P.map (fun x =>
        let d := x.2.getD (c!"(", c!"(", c!"AND", c!")", c!"OR", c!")")
        .format { mvSep := x.1.1, maxResults := x.1.2, rowPrefix := d.1, colPrefix := d.2.1,
                  colSep := d.2.2.1, colEnd := d.2.2.2.1, rowSep := d.2.2.2.2.1,
                  rowEnd := d.2.2.2.2.2 })
      (seq
        (options fun o => do
          let mvSep ← getString o c!"mvsep" c!"OR"
          let maxResults ← getInt o c!"maxresults" 0
          return (mvSep, maxResults))
        (opt (let q : G true Str := ws (lift doubleQuoted)
              seq q (seq q (seq q (seq q (seq q q))))))))

/-- cmd_head/spl.rs:52-75 -/
def head : G true Command :=
  pre (name (tagi! "head"))
    (P.map (fun x => .head x.1 (x.2.1.getD false) (x.2.2.getD false))
      (seq (ws (P.map (fun n => .const (.int n))
              (lift int <||> pre (ws (tagi! "limit=")) (lift int)) <||> expr))
        (seq (ws (opt (pre (ws (tagi! "keeplast=")) (lift bool_))))
             (ws (opt (pre (ws (tagi! "null=")) (lift bool_)))))))

/-- cmd_input_lookup/spl.rs:52-86 -/
def inputLookup : G true Command :=
  pre (name (tagi! "inputlookup"))
    (P.map (fun x => .inputLookup x.1.1 x.1.2.1 x.1.2.2.1 x.1.2.2.2 x.2.1 x.2.2)
      (seq
        (options fun o => do
          let append ← getBoolean o c!"append" false
          let strict ← getBoolean o c!"strict" false
          let start ← getInt o c!"start" 0
          let max ← getInt o c!"max" 1000000000
          return (append, strict, start, max))
        (seq (ws (lift token)) (ws (opt (pre (ws (tagi! "where")) expr))))))

/-- cmd_join/spl.rs:63-95 -/
def join : G true Command :=
  pre (name (tagi! "join"))
    (P.map (fun x => .join x.1 x.2.1 x.2.2)
      (seq
        (options fun o => do
          let joinType ← getString o c!"type" c!"inner"
          let useTime ← getBoolean o c!"usetime" false
          let earlier ← getBoolean o c!"earlier" true
          let overwrite ← getBoolean o c!"overwrite" true
          let max ← getInt o c!"max" 1
          return ({ joinType, useTime, earlier, overwrite, max } : JoinOpts))
        (seq (lift fieldList1) subSearch)))

/-- `field_rep`, cmd_lookup/spl.rs:41-53 -/
def fieldRep : L true (List FieldLike) :=
  commaOrSpaceList1 (
    P.map (fun x => .aliased x.1 x.2) (verify (fun x => lower x.2 != c!"output") aliasedField) <||>
    P.map .field (verify (fun f => lower f != c!"output") field))

/-- `lookup_output`, cmd_lookup/spl.rs:58-70 -/
def lookupOutput : L true LookupOutput :=
  P.map (fun x => { kv := x.1, fields := x.2 })
    (sepPair (tagi! "OUTPUT" <||> tagi! "OUTPUTNEW") ms1 fieldRep)

/-- cmd_lookup/spl.rs:89-103 -/
def lookup : G true Command :=
  pre (name (tagi! "lookup"))
    (P.map (fun x => .lookup { dataset := x.1, fields := x.2.1, output := x.2.2 })
      (seq (ws (lift token)) (seq (ws (lift fieldRep)) (ws (opt (lift lookupOutput))))))

/-- cmd_make_results/spl.rs:43-68 -/
def makeResults : G true Command :=
  pre (name (tagi! "makeresults"))
    (P.map .makeResults
      (options fun o => do
        let count ← getInt o c!"count" 1
        let annotate ← getBoolean o c!"annotate" false
        let server ← getString o c!"splunk_server" c!"local"
        let serverGroup ← getStringOption o c!"splunk_server_group"
        return ({ count, annotate, server, serverGroup } : MakeResults)))

/-- The unescaping in `quoted_search`, 694-697 -/
def unescapeSearch (s : Str) : Str :=
  replaceAll c!"\\\\" c!"\\" (replaceAll c!"\\\"" c!"\"" s)

theorem replaceAux_length (pat rep : Str) (h : rep.length ≤ pat.length) :
    ∀ n s, (replaceAux pat rep n s).length ≤ s.length := by
  intro n
  induction n with
  | zero => intro s; exact Nat.le_refl _
  | succ n ih =>
    intro s
    cases s with
    | nil => simp [replaceAux]
    | cons c cs =>
      simp only [replaceAux]
      cases hp : stripPrefix? pat (c :: cs) with
      | none => simp [ih cs]
      | some r =>
        have := ih r
        rw [stripPrefix?_some] at hp
        have hl : (c :: cs).length = pat.length + r.length := by rw [hp]; simp
        simp only [List.length_append]
        omega

theorem unescapeSearch_length (s : Str) : (unescapeSearch s).length ≤ s.length :=
  Nat.le_trans (replaceAux_length _ _ (by simp) _ _) (replaceAux_length _ _ (by simp) _ _)

/-- The text returned by `double_quoted_alt` is shorter than its input. -/
theorem doubleQuotedAlt_short {i r s : Str} (h : doubleQuotedAlt.run () i = some (r, s)) :
    s.length < i.length := by
  simp only [doubleQuotedAlt, delim, pre, post, P.map, seq, ws, recast, ms0, takeWhile0] at h
  cases h1 : (tag! "\"" : L true Str).run () i with
  | none => simp [h1] at h
  | some x =>
    obtain ⟨r1, t⟩ := x
    have c1 := (tag! "\"" : L true Str).con rfl _ _ _ _ h1
    simp only [h1] at h
    cases h2 : (recognize (many0 dqAltStep)).run () (List.dropWhile isSpace r1) with
    | none => simp [h2] at h
    | some y =>
      obtain ⟨r2, s2⟩ := y
      simp only [h2] at h
      have hs2 : s2.length ≤ (List.dropWhile isSpace r1).length := by
        simp only [recognize] at h2
        split at h2
        · simp only [Option.some.injEq, Prod.mk.injEq] at h2
          rw [← h2.2]; simp
        · simp at h2
      have hd := (List.dropWhile_suffix isSpace (l := r1)).length_le
      cases h3 : (tag! "\"" : L true Str).run () (List.dropWhile isSpace r2) with
      | none => simp [h3] at h
      | some z =>
        obtain ⟨r3, q⟩ := z
        simp only [h3, Option.some.injEq, Prod.mk.injEq] at h
        rw [← h.2]; omega

/-- `map_parser(double_quoted_alt, ..)` of `quoted_search`, 691-707: the unescaped text is
parsed by `all_consuming(ws(pipeline))`.  As `pipeline` itself consumes everything, only
the leading half of `ws` matters. -/
def embedded : G true Pipeline where
  run ρ i := match doubleQuotedAlt.run () i with
    | none => none
    | some (r, s) => match ρ.run .pipe ((unescapeSearch s).dropWhile isSpace) with
      | some ([], p) => some (r, p)
      | _ => none
  suf ρ i r a h := by
    cases hd : doubleQuotedAlt.run () i with
    | none => simp [hd] at h
    | some x =>
      obtain ⟨r', s⟩ := x
      simp only [hd] at h
      split at h
      · simp only [Option.some.injEq, Prod.mk.injEq] at h
        rw [← h.1]; exact doubleQuotedAlt.suf _ _ _ _ hd
      · simp at h
  con _ ρ i r a h := by
    cases hd : doubleQuotedAlt.run () i with
    | none => simp [hd] at h
    | some x =>
      obtain ⟨r', s⟩ := x
      simp only [hd] at h
      split at h
      · simp only [Option.some.injEq, Prod.mk.injEq] at h
        rw [← h.1]; exact doubleQuotedAlt.con rfl _ _ _ _ hd
      · simp at h
  grd ρ σ i h := by
    cases hd : doubleQuotedAlt.run () i with
    | none => rfl
    | some x =>
      obtain ⟨r', s⟩ := x
      have h1 := doubleQuotedAlt_short hd
      have h2 := unescapeSearch_length s
      have h3 := (List.dropWhile_suffix isSpace (l := unescapeSearch s)).length_le
      have := h .pipe ((unescapeSearch s).dropWhile isSpace) (by simp [bound]; omega)
      simp only [this]

/-- `quoted_search`, 690-709 -/
def quotedSearch : G true Pipeline :=
  pre (seq (ws (tagi! "search")) (ws (tag! "="))) embedded

/-- cmd_map/spl.rs:38-61 -/
def map_ : G true Command :=
  pre (name (tagi! "map"))
    (P.map (fun x => .map x.1 x.2)
      (seq quotedSearch (options fun o => getInt o c!"maxsearches" 10)))

/-- cmd_multi_search/spl.rs:39-48; `many_m_n(2, usize::MAX, ..)` -/
def multiSearch : G true Command :=
  pre (name (tagi! "multisearch"))
    (P.map .multiSearch (verify (fun ps => decide (2 ≤ ps.length)) (many1 (ws subSearch))))

/-- cmd_mv_combine/spl.rs:41-60 -/
def mvCombine : G true Command :=
  pre (name (tagi! "mvcombine"))
    (P.map (fun x => .mvCombine x.1 x.2)
      (seq (opt (pre (seq (ws (tagi! "delim")) (ws (tag! "="))) (ws (lift doubleQuoted))))
        (lift field)))

/-- cmd_mv_expand/spl.rs:43-62 -/
def mvExpand : G true Command :=
  pre (name (tagi! "mvexpand"))
    (P.map (fun x => .mvExpand x.1 x.2)
      (seq (ws (lift field))
        (opt (pre (seq (ws (tagi! "limit")) (ws (tag! "="))) (ws (lift int))))))

/-- Options of `top` and `rare`, cmd_top/spl.rs:95-105, cmd_rare/spl.rs:95-105 -/
def topRareOpts (o : List (Str × Constant)) : Option TopRare := do
  let countField ← getString o c!"countfield" c!"count"
  let limit ← getInt o c!"limit" 10
  let otherStr ← getString o c!"otherstr" c!"OTHER"
  let percentField ← getString o c!"percentfield" c!"percent"
  let showCount ← getBoolean o c!"showcount" true
  let showPercent ← getBoolean o c!"showperc" true
  let useOther ← getBoolean o c!"useother" false
  return { fields := [], n := toU64 limit, by_ := none, countField, otherStr, percentField,
           showCount, showPercent, useOther }

/-- Assembly of `TopCommand` / `RareCommand`, cmd_top/spl.rs:120-131, cmd_rare/spl.rs:120-131 -/
def topRareOf (x : Option Int × TopRare × List Str × Option (List Str)) : TopRare :=
  { x.2.1 with
    n := match x.1 with | some n => toU64 n | none => x.2.1.n
    fields := x.2.2.1
    by_ := x.2.2.2 }

/-- cmd_rare/spl.rs:108-134 -/
def rare : G true Command :=
  pre (name (tagi! "rare"))
    (P.map (fun x => .rare (topRareOf x))
      (seq (ws (opt (lift int))) (seq (ws (options topRareOpts))
        (seq (ws (lift fieldList0)) (ws (opt (pre (ws (tagi! "BY")) (lift fieldList0))))))))

/-- cmd_regex/spl.rs:41-60 -/
def regex : G true Command :=
  pre (name (tagi! "regex"))
    (P.map (fun x => .regex x.1 x.2)
      (seq (opt (seq (ws (lift field)) (ws (tag! "=" <||> tag! "!=")))) (lift doubleQuoted)))

/-- cmd_rename/spl.rs:36-47 -/
def rename : G true Command :=
  pre (name (tagi! "rename")) (P.map .rename (commaList1 (lift aliasedField)))

/-- cmd_return/spl.rs:48-74 -/
def return_ : G true Command :=
  pre (name (tagi! "return"))
    (P.map (fun x => .return_ (x.1.getD 1) x.2)
      (seq (ws (opt (lift int)))
        (many1 (P.map (fun v => .alias v.2 v.1) (ws (lift fieldAndValue))) <||>
         many1 (P.map .field (ws (pre (tag! "$") (lift field)))) <||>
         many1 (P.map .field (ws (lift field))))))

/-- cmd_rex/spl.rs:55-90 -/
def rex : G true Command :=
  pre (name (tagi! "rex"))
    (P.map (fun x => .rex { x.1 with regex := x.2 })
      (seq
        (options fun o => do
          let mode? ← getStringOption o c!"mode"
          let mode := mode?.map lower
          guard (mode = none ∨ mode = some c!"sed")
          let field ← getString o c!"field" c!"_raw"
          let maxMatch ← getInt o c!"max_match" 1
          let offsetField ← getStringOption o c!"offset_field"
          return ({ field, maxMatch, offsetField, mode, regex := [] } : Rex))
        (lift doubleQuoted)))

/-- cmd_sort/spl.rs:60-81 -/
def sort : G true Command :=
  pre (name (tagi! "sort"))
    (P.map (fun x => .sort x.2.1 (x.1.getD 10000) x.2.2.isSome)
      (seq (opt (pre (opt (ws (tagi! "limit="))) (ws (lift int))))
        (seq (commaList1 (seq (opt (tag! "+" <||> tag! "-")) expr))
          (opt (ws (tagi! "desc"))))))

/-- cmd_s_path/spl.rs:61-80 -/
def spath : G true Command :=
  pre (name (tagi! "spath"))
    (P.map (fun x => .spath x.2.2 (x.1.getD c!"_raw") x.2.1)
      (seq (opt (ws (pre (tagi! "input=") (lift field))))
        (seq (opt (ws (pre (tagi! "output=") (lift field))))
          (ws (pre (opt (tagi! "path=")) (lift string))))))

/-- cmd_stats/spl.rs:56-93 -/
def stats : G true Command :=
  pre (name (tagi! "stats"))
    (P.map (fun x => .stats x.1 x.2.1 x.2.2.1 (x.2.2.2.getD false))
      (seq
        (options fun o => do
          let partitions ← getInt o c!"partitions" 1
          let allNum ← getBoolean o c!"allnum" false
          let delim ← getString o c!"delim" c!" "
          return ({ partitions := toU64 partitions, allNum, delim } : StatsOpts))
        (seq statsCall
          (seq (opt (pre (ws (tagi! "by")) (lift spFieldList1)))
            (opt (pre (seq (ws (tagi! "dedup_splitvals")) (ws (tag! "="))) (lift bool_)))))))

/-- cmd_stream_stats/spl.rs:46-79 -/
def streamStats : G true Command :=
  pre (name (tagi! "streamstats"))
    (P.map (fun x => .streamStats x.2.1 (x.2.2.getD []) x.1.1 x.1.2)
      (seq
        (options fun o => do
          let current ← getBoolean o c!"current" true
          let window ← getInt o c!"window" 0
          return (current, window))
        (seq (ws statsCall) (opt (pre (ws (tagi! "by")) (lift spFieldList1))))))

/-- cmd_table/spl.rs:32-39 -/
def table : G true Command :=
  pre (name (tagi! "table")) (P.map .table (lift fieldList1))

/-- cmd_tail/spl.rs:33-40 -/
def tail : G true Command :=
  pre (name (tagi! "tail")) (P.map (fun n => .tail (toU64 n)) (lift int))

/-- cmd_top/spl.rs:108-134 -/
def top : G true Command :=
  pre (name (tagi! "top"))
    (P.map (fun x => .top (topRareOf x))
      (seq (ws (opt (lift int))) (seq (ws (options topRareOpts))
        (seq (lift fieldList1) (ws (opt (pre (ws (tagi! "BY")) (lift fieldList1))))))))

/-- `recognize(separated_list1(tag("."), token))`, cmd_t_stats/spl.rs:136,142 -/
def dotted : L true Str := recognize (sepList1 (tag! ".") token)

/-- `_parse_from_datamodel`, cmd_t_stats/spl.rs:130-147 -/
def tsFrom : L true (Str × Option Str) :=
  pre (ws (tagi! "from"))
    (seq (ws (pre (ws (tagi! "datamodel=")) dotted))
      (opt (ws (pre (ws (tagi! "where")) (ws (pre (tagi! "nodename=") dotted))))))

/-- `_parse_where`, cmd_t_stats/spl.rs:149-154 -/
def tsWhere : G true Expr := pre (ws (tagi! "where")) (ws (lexpr <||> fieldInExpr))

/-- `_parse_by`, cmd_t_stats/spl.rs:162-181 -/
def tsBy : L true (Option (List SpField) × Option Str) :=
  pre (ws (tagi! "by"))
    (P.map (fun fs => (some fs, none)) spFieldList1 <||>
     P.map (fun f => (none, some f))
      (ws (pre (tagi! "PREFIX") (delim (tag! "(") field (tag! ")")))))

/-- `_stats_function_count`, cmd_t_stats/spl.rs:183-200 -/
def tsCount : L true Expr :=
  P.map (fun f => .call c!"count" (match f with | none => [] | some f => [.const (.field f)]))
    (pre (tagi! "count")
      (opt (delim ms1
        (verify (fun f => lower f != c!"from" && lower f != c!"where" && lower f != c!"by") field)
        (ms1.weak <||> eof))))

/-- `_stats_function_call`, cmd_t_stats/spl.rs:202-214 -/
def tsCall : L true Expr :=
  P.map (fun x => .call x.1 [.const (.field x.2)]) (seq token (delim (tag! "(") field (tag! ")")))

/-- `_stats_function`, cmd_t_stats/spl.rs:217-231 -/
def tsFunction : L true Expr :=
  P.map (fun x => match x.2 with | none => x.1 | some a => .alias x.1 a)
    (seq (tsCall <||> tsCount) (opt (pre (delim ms1 (tagi! "AS") ms1) token)))

/-- cmd_t_stats/spl.rs:113-128,233-267 -/
def tstats : G true Command :=
  pre (name (tagi! "tstats"))
    (P.map (fun x => .tstats x.1 x.2.1 (x.2.2.1.map Prod.fst) (x.2.2.1.bind Prod.snd) x.2.2.2.1
        (x.2.2.2.2.bind Prod.fst) (x.2.2.2.2.bind Prod.snd))
      (seq
        (options fun o => do
          let prestats ← getBoolean o c!"prestats" false
          let «local» ← getBoolean o c!"local" false
          let append ← getBoolean o c!"append" false
          let summariesOnly ← getBoolean o c!"summariesonly" false
          let includeReducedBuckets ← getBoolean o c!"include_reduced_buckets" false
          let allowOldSummaries ← getBoolean o c!"allow_old_summaries" false
          let chunkSize ← getInt o c!"chunk_size" 10000000
          let fillnullValue ← getStringOption o c!"fillnull_value"
          return ({ prestats, «local», append, summariesOnly, includeReducedBuckets,
                    allowOldSummaries, chunkSize, fillnullValue } : TStatsOpts))
        (seq (lift (spaceList1 tsFunction))
          (seq (ws (opt (lift tsFrom)))
            (seq (ws (opt tsWhere)) (ws (opt (lift tsBy))))))))

/-- cmd_where/spl.rs:33-40 -/
def where_ : G true Command := pre (name (tagi! "where")) (P.map .where_ lexpr)

/-- cmd_search/spl.rs:39-60; the command name is optional. -/
def search : G true Command :=
  pre (P.map (fun _ => ()) (seq (tagi! "search") (ms1.weak <||> eof)) <||> P.map (fun _ => ()) ms0)
    (P.map (fun es => .search (combineAll c!"AND" es)) (commaOrSpaceList1 expr))

/-- First group of alternatives of `command`, 1208-1231 -/
def commandA : G true Command :=
  addTotals <||> bin <||> collect <||> convert <||> dataModel <||> dedup <||> eval <||>
  eventStats <||> fields <||> fillNull <||> format <||> head <||> inputLookup <||> join <||>
  lookup <||> makeResults <||> map_ <||> multiSearch <||> mvCombine <||> mvExpand

/-- Second group of alternatives of `command`, 1232-1247 -/
def commandB : G true Command :=
  rare <||> regex <||> rename <||> return_ <||> rex <||> sort <||> spath <||> stats <||>
  streamStats <||> table <||> tail <||> top <||> tstats <||> where_

/-- `command`, 1207-1250 -/
def command : G true Command := commandA <||> commandB <||> search

/-- `pipeline`, 1265-1273 -/
def pipeline : G false Pipeline :=
  pre (opt (ws (tag! "|"))) (allConsuming (ws (sepList0 (ws (tag! "|")) command)))

/-- The body of every recursive parser function. -/
def gram : (n : NT) → G false n.ty
  | .e3 => expr3.weak
  | .e4 => expr4.weak
  | .e5 => expr5.weak
  | .e6 => expr6.weak
  | .e7 => expr7.weak
  | .e8 => expr8.weak
  | .e9n => expr9n.weak
  | .e9w => expr9w.weak
  | .lexpr => lexpr.weak
  | .lterm => lterm.weak
  | .cmd => command.weak
  | .pipe => pipeline

/-- `level k`: the meaning of the recursive functions when calls may nest `k` deep. -/
def level : Nat → Rec
  | 0 => { run := fun _ _ => none, suf := fun _ _ _ _ h => by simp at h }
  | k + 1 => { run := fun n i => (gram n).run (level k) i,
               suf := fun n i r a h => (gram n).suf (level k) i r a h }

/-- The meaning of the recursive functions: every recursive call is on a shorter input
(shown by the index `g` of `P`), so nesting depth `length + 1` is enough. -/
def fix : Rec where
  run n i := (level (i.length + 1)).run n i
  suf n i r a h := (level (i.length + 1)).suf n i r a h

end Spl

/-- `spl_transpiler.parse`, /repo/src/lib.rs:18-24: `none` is the reported parse error. -/
def parse (s : Str) : Option Pipeline :=
  match Spl.fix.run .pipe s with
  | some ([], p) => some p
  | _ => none

end Verif
