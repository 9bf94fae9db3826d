import Verif.Lemmas.Effort
import Verif.Lemmas.Conditions
import Verif.Props.Parse
import Verif.Props.Precedence
/-
C101: how many calls of its recursive functions the parser makes on a text; C102: how deep they nest.
-/
namespace Verif
open P Lex Spl Spec Lemmas Props
open Counted (after free recE)
open Count (calls calls_eq)

/-- The number of calls of recursive parser functions that parsing a text takes. -/
def effort (q : Str) : Nat := calls .pipe q

/-- `NOT (` written `n` times in front of a text -/
def notsBefore : Nat → Str → Str
  | 0, t => t
  | n + 1, t => c!"NOT (" ++ notsBefore n t

/-- parentheses opened `n` times in front of a text -/
def opensBefore : Nat → Str → Str
  | 0, t => t
  | n + 1, t => '(' :: opensBefore n t

theorem nots_mem {c : Char} (hc : c ∉ c!"NOT (") : ∀ {n : Nat} {t : Str}, c ∉ t → c ∉ notsBefore n t
  | 0, _, h => h
  | n + 1, t, h => by
    rw [notsBefore, List.mem_append]
    exact fun h' => h'.elim hc (nots_mem hc h)

/-! ### Refused texts -/

/-- Parentheses are not read when none is closed. -/
theorem paren_open {g c : Bool} {α : Type} (p : P Rec g c α) {u : Str} (h : ')' ∉ u) : (parenthesized p).run fix u = none := by
  rw [parenthesized, run_recast, run_delim]
  cases h1 : (wsRight (tag! "(") : G true Str).run fix u with
  | none => rfl
  | some x =>
    rw [Option.bind_some]
    cases h2 : p.run fix x.1 with
    | none => rfl
    | some y =>
      have hs := (p.suf _ _ _ _ h2).trans ((wsRight (tag! "(") : G true Str).suf _ _ _ _ h1)
      rw [Option.bind_some, run_wsLeft, tag_none (fun c t e => ?_)]
      · rfl
      · have : c ∈ u := hs.subset ((List.dropWhile_suffix isSpace).subset (by rw [e]; simp))
        exact fun e' => h (e' ▸ this)

theorem binLevel_none {ρ : Rec} {low : G true Expr} {op : G true Str} {same : P Rec false false Expr} {i : Str} (h : low.run ρ i = none) :
    (binLevel low op same).run ρ i = none := by
  rw [binLevel, run_map, run_seq, h]; rfl

/-- A text that begins with a parenthesis is an expression only if the text in parentheses is. -/
theorem open_none {ρ : Rec} {u : Str} (h : (parenthesized (callE .e9w)).run ρ ('(' :: u) = none) :
    expr7.run ρ ('(' :: u) = none ∧ expr9n.run ρ ('(' :: u) = none ∧ expr9w.run ρ ('(' :: u) = none := by
  have h2 : expr2.run ρ ('(' :: u) = none := by rw [expr2, run_alt, h]; rfl
  have h5 : expr5.run ρ ('(' :: u) = none := binLevel_none (low := expr4) (binLevel_none (low := expr3) (binLevel_none h2))
  have h6 : expr6.run ρ ('(' :: u) = none := by rw [expr6, run_alt, binLevel_none h5]; rfl
  have h7 : expr7.run ρ ('(' :: u) = none := by rw [expr7, run_alt, h6]; rfl
  have h8 : expr8.run ρ ('(' :: u) = none := binLevel_none h7
  exact ⟨h7, binLevel_none h8, binLevel_none h8⟩

theorem expr7_open {u : Str} (h : ')' ∉ u) : expr7.run fix ('(' :: u) = none :=
  (open_none (paren_open (callE .e9w) (u := '(' :: u) (by simpa using h))).1

theorem search_none {ρ : Rec} {i : Str} (h : expr9n.run ρ (i.dropWhile isSpace) = none) : pipeline.run ρ (c!"search " ++ i) = none := by
  have hA : commandA.run ρ (c!"search " ++ i) = none := rfl
  have hB : commandB.run ρ (c!"search " ++ i) = none := rfl
  have hname : (P.map (fun _ => ()) (seq (tagi! "search") (ms1.weak <||> eof)) <||> P.map (fun _ => ()) ms0 : G false Unit).run ρ
      (c!"search " ++ i) = some (i.dropWhile isSpace, ()) := rfl
  have hS : search.run ρ (c!"search " ++ i) = none := by
    rw [search, run_pre, hname, Option.bind_some, run_map, commaOrSpaceList1, run_recast, run_sepList1, h]; rfl
  have hc : command.run ρ (c!"search " ++ i) = none := by rw [command, run_alt, hA, run_alt, hB, hS]; rfl
  have ho : (opt (ws (tag! "|")) : G false (Option Str)).run ρ (c!"search " ++ i) = some (c!"search " ++ i, none) := rfl
  rw [pipeline, run_pre, ho, Option.bind_some, run_allConsuming, run_ws,
    show (c!"search " ++ i).dropWhile isSpace = c!"search " ++ i from rfl, run_sepList0, hc]
  rfl

theorem le_add_after {α : Type} (n : Nat) (r : PRes α) (f : Str → Nat) : n ≤ n + after r f := Nat.le_add_right _ _

theorem count_open {u : Str} (h : ')' ∉ u) : calls .e9w (u.dropWhile isSpace) ≤ calls .e7 ('(' :: u) := by
  have hpc : (Counted.parenthesized (recE .e9w)).count calls ('(' :: u) = calls .e9w (u.dropWhile isSpace) := by
    rw [count_parenthesized, run_wsRight, tag_same, Option.map_some]
    show 0 + (calls .e9w (u.dropWhile isSpace) + after _ fun _ => 0) = _
    rw [after_zero]; omega
  have h2 : calls .e9w (u.dropWhile isSpace) ≤ Count.expr2.count calls ('(' :: u) := by
    rw [count_expr2, hpc]; exact Nat.le_add_right _ _
  have h5 : Count.expr2.count calls ('(' :: u) ≤ Count.expr5.count calls ('(' :: u) :=
    Nat.le_trans (le_add_after _ _ _) (Nat.le_trans (le_add_after _ _ _) (le_add_after _ _ _))
  have h6 : Count.expr5.count calls ('(' :: u) ≤ Count.expr6.count calls ('(' :: u) := by
    rw [count_expr6, show (fieldInExpr.run fix ('(' :: u)).isNone = true from rfl, if_pos rfl, Nat.zero_add]
    exact le_add_after _ _ _
  have h7 : Count.expr6.count calls ('(' :: u) ≤ Count.expr7.count calls ('(' :: u) := by
    rw [count_expr7, show ((P.map (fun x => Expr.unary x.1 x.2) notAlt).run fix ('(' :: u)).isNone = true from rfl, if_pos rfl]
    exact Nat.le_add_left _ _
  have := calls_eq .e7 ('(' :: u)
  have e : (Count.gram .e7).count calls ('(' :: u) = Count.expr7.count calls ('(' :: u) := rfl
  omega

/-- Both ways of reading `NOT (` are tried when the parenthesis is not closed. -/
theorem count_not {u : Str} (h : ')' ∉ u) : 2 * calls .e9w (u.dropWhile isSpace) ≤ Count.expr7.count calls (c!"NOT (" ++ u) := by
  have h1 : (sepPair (tagi! "NOT") ms1 (callE .e7) : G true (Str × Expr)).run fix (c!"NOT (" ++ u) = none := by
    have h7 : (callE .e7).run fix ('(' :: u) = none := (fix_eq .e7 ('(' :: u)).trans (expr7_open h)
    rw [run_sepPair, show (tagi! "NOT" : G true Str).run fix (c!"NOT (" ++ u) = some (c!" (" ++ u, c!"NOT") from rfl, Option.bind_some,
      show (ms1 : G true Str).run fix (c!" (" ++ u) = some ('(' :: u, c!" ") from rfl, Option.bind_some, h7]
    rfl
  have h2 : (Counted.sepPair (free (tagi! "NOT")) (free ms1) (recE .e7)).count calls (c!"NOT (" ++ u) = 0 + (0 + calls .e7 ('(' :: u)) := rfl
  have h3 : (Counted.seq (free (ws (tagi! "NOT"))) (Counted.parenthesized (recE .e9w))).count calls (c!"NOT (" ++ u) =
      0 + (0 + (calls .e9w (u.dropWhile isSpace) + after ((callE .e9w).run fix (u.dropWhile isSpace)) fun _ => 0)) := rfl
  have h4 := count_open h
  rw [after_zero] at h3
  rw [count_expr7, count_alt, h2, h3]
  show _ ≤ 0 + (0 + calls .e7 ('(' :: u)) + (if ((sepPair (tagi! "NOT") ms1 (callE .e7) : G true (Str × Expr)).run fix (c!"NOT (" ++ u)).isNone then _ else 0) + _
  rw [h1]
  simp only [Option.isNone_none, if_true]
  omega

theorem count_nots {t : Str} (h : ')' ∉ t) : ∀ n, 2 ^ n ≤ calls .e9w ((notsBefore n t).dropWhile isSpace)
  | 0 => by rw [calls_eq]; omega
  | n + 1 => by
    have := count_nots h n
    have h2 := count_not (nots_mem (n := n) (by decide) h)
    have h8 : Count.expr7.count calls (c!"NOT (" ++ notsBefore n t) ≤ Count.expr9w.count calls (c!"NOT (" ++ notsBefore n t) :=
      Nat.le_trans (le_add_after _ _ _) (le_add_after _ _ _)
    show _ ≤ calls .e9w (c!"NOT (" ++ notsBefore n t)
    rw [calls_eq]
    show _ ≤ 1 + Count.expr9w.count calls (c!"NOT (" ++ notsBefore n t)
    omega

theorem alt_zero {g₁ c₁ g₂ c₂ : Bool} {α : Type} {p : Counted g₁ c₁ α} {q : Counted g₂ c₂ α} {i : Str} (hp : p.count calls i = 0)
    (hq : q.count calls i = 0) : (p <|||> q).count calls i = 0 := by
  rw [count_alt, hp, hq]; simp

theorem pre_zero {c₁ g₂ c₂ : Bool} {α β : Type} {p : P Rec true c₁ α} {q : Counted g₂ c₂ β} {i : Str} (hp : p.run fix i = none) :
    (Counted.pre (free p) q).count calls i = 0 := by
  show 0 + after (p.run fix i) _ = 0
  rw [hp]; rfl

theorem alt_next {c₁ g₂ c₂ : Bool} {α : Type} {p : P Rec true c₁ α} {q : Counted g₂ c₂ α} {i : Str} (hp : p.run fix i = none) :
    (free p <|||> q).count calls i = q.count calls i := by
  show 0 + (if (p.run fix i).isNone then _ else 0) = _
  rw [hp]; simp

/-- what is counted on a query that begins with `search` -/
theorem search_count (i : Str) : effort (c!"search " ++ i) = 1 + (Count.search.count calls (c!"search " ++ i) +
    after (command.run fix (c!"search " ++ i)) (fun r => Counted.sepCount ((ws (tag! "|") : G true Str).run fix) (command.run fix) (fun _ => 0)
      (Count.command.count calls) r.length r)) := by
  have hA : commandA.run fix (c!"search " ++ i) = none := rfl
  have hB : commandB.run fix (c!"search " ++ i) = none := rfl
  have hA0 : Count.commandA.count calls (c!"search " ++ i) = 0 := by
    unfold Count.commandA
    repeat' apply alt_zero
    all_goals first | exact count_free _ _ _ | exact pre_zero rfl
  have hB0 : Count.commandB.count calls (c!"search " ++ i) = 0 := by
    unfold Count.commandB
    repeat' apply alt_zero
    all_goals first | exact count_free _ _ _ | exact pre_zero rfl
  have hc : Count.command.count calls (c!"search " ++ i) = Count.search.count calls (c!"search " ++ i) := by
    show Count.commandA.count calls _ + (if (commandA.run fix _).isNone then Count.commandB.count calls _ +
      (if (commandB.run fix _).isNone then Count.search.count calls _ else 0) else 0) = _
    rw [hA, hB, hA0, hB0]; simp
  rw [effort, calls_eq, ← hc]
  show 1 + (0 + (0 + ((Count.command.count calls (c!"search " ++ i) + _) + after _ fun _ => 0))) = _
  rw [after_zero, Nat.zero_add, Nat.zero_add, Nat.add_zero]
  rfl

theorem search_body (i : Str) : Count.search.count calls (c!"search " ++ i) = Count.expr9n.count calls (i.dropWhile isSpace) +
    after (expr9n.run fix (i.dropWhile isSpace)) (fun r => Counted.sepCount ((commaOrSpaceSep : G true Str).run fix) (expr9n.run fix) (fun _ => 0)
      (Count.expr9n.count calls) r.length r) := by
  show 0 + (Count.expr9n.count calls (i.dropWhile isSpace) + _) = _
  rw [Nat.zero_add]
  rfl

/-- **C101** is refuted: on `NOT (` written `n` times and any text that closes no parenthesis, parsing makes at least
`2 ^ n` calls.  Each `NOT (` is tried as NOT before an expression in parentheses, and again as NOT with parentheses of its own. -/
theorem C101_exponential (n : Nat) (t : Str) (h : ')' ∉ t) : 2 ^ n ≤ effort (c!"search " ++ notsBefore n t) := by
  rw [search_count, search_body]
  cases n with
  | zero => omega
  | succ n =>
    have h1 := count_nots h n
    have h2 := count_not (nots_mem (n := n) (by decide) h)
    have h8 : Count.expr7.count calls (c!"NOT (" ++ notsBefore n t) ≤ Count.expr9n.count calls (c!"NOT (" ++ notsBefore n t) :=
      Nat.le_trans (le_add_after _ _ _) (le_add_after _ _ _)
    have e : (notsBefore (n + 1) t).dropWhile isSpace = c!"NOT (" ++ notsBefore n t := rfl
    rw [e]
    omega

/-- NOT is not an operand. -/
theorem not_operand (u : Str) : expr6.run fix (c!"NOT (" ++ u) = none := by
  have ht : token.run () (c!"NOT (" ++ u) = none :=
    token_reserved (w := c!"NOT") (rest := c!" (" ++ u) (by decide) (Stops.cons (by decide)) (by decide)
  have hx : tokenExtras.run () (c!"NOT (" ++ u) = none := by
    show tokenExtras.run () (c!"NOT" ++ (c!" (" ++ u)) = none
    rw [tokenExtras, run_verify, recognize_many1_satisfy (f := isExtraChar) (ds := c!"NOT") (rest := c!" (" ++ u) (by decide)
      (by decide) (Stops.cons (by decide))]
    rfl
  have hf : field.run () (c!"NOT (" ++ u) = none := field_none ht (by rintro c t ⟨⟩; decide) (by rintro c t ⟨⟩; decide)
  have hk : constant.run () (c!"NOT (" ++ u) = none := by
    rw [constant, reparse, run_filterMap, rawConstant, run_recognize, run_alt, run_alt, hx]; rfl
  have hc : callExpr.run fix (c!"NOT (" ++ u) = none := by rw [callExpr, run_map, callP, run_seq, run_lift, ht]; rfl
  have hi : fieldInExpr.run fix (c!"NOT (" ++ u) = none := by rw [fieldInExpr, run_map, run_lift, fieldIn, run_sepPair, hf]; rfl
  have h2 : expr2.run fix (c!"NOT (" ++ u) = none := by
    rw [expr2, run_alt, run_alt, run_alt, run_alt, hc, run_map (fun v => Expr.const v), run_lift, hk]; rfl
  have h5 : expr5.run fix (c!"NOT (" ++ u) = none := binLevel_none (low := expr4) (binLevel_none (low := expr3) (binLevel_none h2))
  rw [expr6, run_alt, hi, binLevel_none h5]; rfl

/-- These texts are refused. -/
theorem C101_refused (n : Nat) (t : Str) (h : ')' ∉ t) : parse (c!"search " ++ notsBefore (n + 1) t) = none := by
  have hu : ')' ∉ notsBefore n t := nots_mem (by decide) h
  show parse (c!"search " ++ (c!"NOT (" ++ notsBefore n t)) = none
  generalize notsBefore n t = u at hu
  have h7 : (callE .e7).run fix ('(' :: u) = none := (fix_eq .e7 ('(' :: u)).trans (expr7_open hu)
  have h1 : (sepPair (tagi! "NOT") ms1 (callE .e7) : G true (Str × Expr)).run fix (c!"NOT (" ++ u) = none := by
    rw [run_sepPair, show (tagi! "NOT" : G true Str).run fix (c!"NOT (" ++ u) = some (c!" (" ++ u, c!"NOT") from rfl, Option.bind_some,
      show (ms1 : G true Str).run fix (c!" (" ++ u) = some ('(' :: u, c!" ") from rfl, Option.bind_some, h7]
    rfl
  have h2 : (seq (ws (tagi! "NOT")) (parenthesized (callE .e9w)) : G true (Str × Expr)).run fix (c!"NOT (" ++ u) = none := by
    rw [run_seq, show (ws (tagi! "NOT") : G true Str).run fix (c!"NOT (" ++ u) = some ('(' :: u, c!"NOT") from rfl, Option.bind_some,
      paren_open _ (by simpa using hu)]
    rfl
  have h6 := not_operand u
  have h7' : expr7.run fix (c!"NOT (" ++ u) = none := by
    rw [expr7, run_alt, run_map, run_alt, h1, h2, h6]; rfl
  have h9 : expr9n.run fix (c!"NOT (" ++ u) = none := binLevel_none (low := expr8) (binLevel_none h7')
  have hp : fix.run .pipe (c!"search " ++ (c!"NOT (" ++ u)) = none := (fix_eq .pipe _).trans (search_none (i := c!"NOT (" ++ u) h9)
  unfold parse
  rw [hp]

/-! ### Accepted texts -/

/-- `multisearch` with a single search, nested `n` deep -/
def singles : Nat → Str
  | 0 => c!"[]"
  | n + 1 => c!"[multisearch " ++ (singles n ++ c!"]")

/-- the end of a search: the end of the text or the bracket that closes it -/
def Shut (rest : Str) : Prop := rest = [] ∨ ∃ u, rest = ']' :: u

theorem Shut.stops {rest : Str} (h : Shut rest) : Stops isSpace rest := by
  rcases h with rfl | ⟨u, rfl⟩
  · exact Stops.nil _
  · exact Stops.cons (by decide)

theorem Shut.follow {rest : Str} (h : Shut rest) (k : Nat) : Follow k rest := by
  rcases h with rfl | ⟨u, rfl⟩
  · exact .nil
  · exact .close u (by decide)

theorem singles_head (n : Nat) : ∃ t, singles n = '[' :: t := by cases n <;> exact ⟨_, rfl⟩

/-- A search in brackets as an expression. -/
theorem expr_sub {t rest : Str} {cs : Pipeline} (hr : Shut rest) (h : subSearch.run fix ('[' :: t) = some (rest, cs)) :
    expr9n.run fix ('[' :: t) = some (rest, .subSearch cs) := by
  have hq := fun j h3 h7 (hj : j ≤ 9) => (hr.follow 9).quiet (j := j) hj h3 h7
  have h2 : expr2.run fix ('[' :: t) = some (rest, .subSearch cs) := by
    rw [expr2, run_alt, run_alt, run_alt, run_alt, run_map (fun p => Expr.subSearch p), h]; rfl
  have h5 : expr5.run fix ('[' :: t) = some (rest, .subSearch cs) :=
    binLevel_stop (lower := expr4) (binLevel_stop (lower := expr3) (binLevel_stop h2 (hq 3 (by omega) (by omega) (by omega)))
      (hq 4 (by omega) (by omega) (by omega))) (hq 5 (by omega) (by omega) (by omega))
  have h6 : expr6.run fix ('[' :: t) = some (rest, .subSearch cs) := by
    rw [expr6, run_alt, show fieldInExpr.run fix ('[' :: t) = none from rfl, Option.none_or]
    exact binLevel_stop h5 (hq 6 (by omega) (by omega) (by omega))
  have h7 : expr7.run fix ('[' :: t) = some (rest, .subSearch cs) := expr7_up rfl h6
  exact binLevel_stop (lower := expr8) (binLevel_stop h7 (hq 8 (by omega) (by omega) (by omega))) (hq 9 (by omega) (by omega) (by omega))

/-- The word in front, read as a search term. -/
theorem expr_multi {t : Str} : expr9n.run fix (c!"multisearch " ++ '[' :: t) = some (' ' :: '[' :: t, .const (.field c!"multisearch")) := by
  have h : Written 9 _ _ := w_name (w := c!"multisearch") (k := 9) (by decide) (by decide) (by decide) (by decide) (by decide)
  exact (written_good h (' ' :: '[' :: t) (.gap (g := c!" ") gap1 ⟨Stops.cons (by decide), by simp [lower, lowerC], by simp [lower, lowerC], by simp [lower, lowerC]⟩)).1

/-- One search is not enough for `multisearch`. -/
theorem commandA_single {t rest : Str} {cs : Pipeline} (hr : Shut rest) (h : subSearch.run fix ('[' :: t) = some (rest, cs)) :
    multiSearch.run fix (c!"multisearch " ++ '[' :: t) = none ∧ commandA.run fix (c!"multisearch " ++ '[' :: t) = none := by
  have hmany : (many1 (ws subSearch)).run fix ('[' :: t) = some (rest, [cs]) := by
    have h1 : (ws subSearch).run fix ('[' :: t) = some (rest, cs) := by
      rw [run_ws, drop_stops (Stops.cons (by decide)), h, Option.map_some, drop_stops hr.stops]
    have h2 : manyLoop ((ws subSearch).run fix) rest.length rest = (rest, []) := by
      rcases hr with rfl | ⟨u, rfl⟩ <;> rfl
    rw [run_many1, h1, Option.map_some, h2]
  have hm : multiSearch.run fix (c!"multisearch " ++ '[' :: t) = none := by
    rw [multiSearch, run_pre, show (name (tagi! "multisearch")).run fix (c!"multisearch " ++ '[' :: t) = some ('[' :: t, ()) from rfl,
      Option.bind_some, run_map, run_verify, hmany]
    rfl
  have hA : commandA.run fix (c!"multisearch " ++ '[' :: t) = none := by
    have : commandA.run fix (c!"multisearch " ++ '[' :: t) = (multiSearch.run fix (c!"multisearch " ++ '[' :: t)).or
        ((mvCombine <||> mvExpand : G true Command).run fix (c!"multisearch " ++ '[' :: t)) := by rw [← run_alt]; rfl
    rw [this, hm]; rfl
  exact ⟨hm, hA⟩

/-- The text is read as a search for the word and for what the search in brackets gives. -/
theorem command_single {t rest : Str} {cs : Pipeline} (hr : Shut rest) (h : subSearch.run fix ('[' :: t) = some (rest, cs)) :
    command.run fix (c!"multisearch " ++ '[' :: t) = some (rest, .search (.binary (.const (.field c!"multisearch")) c!"AND" (.subSearch cs))) := by
  have hA := (commandA_single hr h).2
  have hB : commandB.run fix (c!"multisearch " ++ '[' :: t) = none := rfl
  have hname : (P.map (fun _ => ()) (seq (tagi! "search") (ms1.weak <||> eof)) <||> P.map (fun _ => ()) ms0 : G false Unit).run fix
      (c!"multisearch " ++ '[' :: t) = some (c!"multisearch " ++ '[' :: t, ()) := rfl
  have hloop : sepLoop ((commaOrSpaceSep : G true Str).run fix) (expr.run fix) (' ' :: '[' :: t).length (' ' :: '[' :: t) = (rest, [.subSearch cs]) := by
    have hsep : (commaOrSpaceSep : G true Str).run fix (' ' :: '[' :: t) = some ('[' :: t, c!" ") := rfl
    have hend : ∀ n, sepLoop ((commaOrSpaceSep : G true Str).run fix) (expr.run fix) n rest = (rest, []) := by
      intro n
      cases n with
      | zero => rfl
      | succ n => rcases hr with rfl | ⟨u, rfl⟩ <;> rfl
    rw [List.length_cons, sepLoop, hsep]
    simp only [show expr.run fix ('[' :: t) = _ from expr_sub hr h, hend]
  have hS : search.run fix (c!"multisearch " ++ '[' :: t) =
      some (rest, .search (.binary (.const (.field c!"multisearch")) c!"AND" (.subSearch cs))) := by
    rw [search, run_pre, hname, Option.bind_some, run_map, commaOrSpaceList1, run_recast, run_sepList1,
      show expr.run fix (c!"multisearch " ++ '[' :: t) = _ from expr_multi, Option.map_some, hloop]
    rfl
  rw [command, run_alt, hA, run_alt, hB, hS]; rfl

theorem alt_ge {g₁ c₁ g₂ c₂ : Bool} {α : Type} {p : Counted g₁ c₁ α} {q : Counted g₂ c₂ α} {i : Str} {n : Nat} (hp : p.p.run fix i = none)
    (hq : n ≤ q.count calls i) : n ≤ (p <|||> q).count calls i := by
  rw [count_alt, hp]; simp; omega

theorem alt_first {g₁ c₁ g₂ c₂ : Bool} {α : Type} {p : Counted g₁ c₁ α} {q : Counted g₂ c₂ α} {i : Str} {n : Nat}
    (hp : n ≤ p.count calls i) : n ≤ (p <|||> q).count calls i := by
  rw [count_alt]; omega

/-- The search in brackets is parsed twice. -/
theorem count_single {t rest : Str} {cs : Pipeline} (hr : Shut rest) (h : subSearch.run fix ('[' :: t) = some (rest, cs)) :
    2 * Count.subSearch.count calls ('[' :: t) ≤ Count.command.count calls (c!"multisearch " ++ '[' :: t) := by
  have hA := (commandA_single hr h).2
  have hB : commandB.run fix (c!"multisearch " ++ '[' :: t) = none := rfl
  have hM : Count.subSearch.count calls ('[' :: t) ≤ Count.multiSearch.count calls (c!"multisearch " ++ '[' :: t) := by
    have hw : (Counted.ws Count.subSearch).count calls ('[' :: t) = 0 + (Count.subSearch.count calls ('[' :: t) + after _ fun _ => 0) := rfl
    show _ ≤ 0 + ((Counted.ws Count.subSearch).count calls ('[' :: t) + _)
    omega
  have h1 : Count.subSearch.count calls ('[' :: t) ≤ Count.commandA.count calls (c!"multisearch " ++ '[' :: t) := by
    unfold Count.commandA
    repeat (refine alt_ge rfl ?_)
    exact alt_first hM
  have h2 : Count.subSearch.count calls ('[' :: t) ≤ Count.search.count calls (c!"multisearch " ++ '[' :: t) := by
    have h3 : Count.subSearch.count calls ('[' :: t) ≤ Count.expr9n.count calls ('[' :: t) := by
      have h4 : Count.subSearch.count calls ('[' :: t) ≤ Count.expr2.count calls ('[' :: t) := by
        rw [count_expr2, show ((parenthesized (callE .e9w)).run fix ('[' :: t)).isNone = true from rfl,
          show ((P.map (fun t => Expr.call c!"TERM" [.const (.field t)]) (lift termCall)).run fix ('[' :: t)).isNone = true from rfl,
          show (callExpr.run fix ('[' :: t)).isNone = true from rfl,
          show ((P.map (fun v => Expr.const v) (lift constant)).run fix ('[' :: t)).isNone = true from rfl]
        simp only [if_true]
        omega
      have h5 : Count.expr2.count calls ('[' :: t) ≤ Count.expr5.count calls ('[' :: t) :=
        Nat.le_trans (le_add_after _ _ _) (Nat.le_trans (le_add_after _ _ _) (le_add_after _ _ _))
      have h6 : Count.expr5.count calls ('[' :: t) ≤ Count.expr6.count calls ('[' :: t) := by
        rw [count_expr6, show (fieldInExpr.run fix ('[' :: t)).isNone = true from rfl, if_pos rfl, Nat.zero_add]
        exact le_add_after _ _ _
      have h7 : Count.expr6.count calls ('[' :: t) ≤ Count.expr7.count calls ('[' :: t) := by
        rw [count_expr7, show ((P.map (fun x => Expr.unary x.1 x.2) notAlt).run fix ('[' :: t)).isNone = true from rfl, if_pos rfl]
        exact Nat.le_add_left _ _
      have h8 : Count.expr7.count calls ('[' :: t) ≤ Count.expr9n.count calls ('[' :: t) :=
        Nat.le_trans (le_add_after _ _ _) (le_add_after _ _ _)
      omega
    show _ ≤ 0 + (Count.expr9n.count calls (c!"multisearch " ++ '[' :: t) + after (expr9n.run fix (c!"multisearch " ++ '[' :: t)) fun r =>
      Counted.sepCount ((commaOrSpaceSep : G true Str).run fix) (expr9n.run fix) (fun _ => 0) (Count.expr9n.count calls) r.length r)
    rw [expr_multi]
    show _ ≤ 0 + (_ + (0 + (Count.expr9n.count calls ('[' :: t) + _)))
    omega
  rw [Count.command, count_alt, show (Count.commandA.p.run fix _) = _ from hA, count_alt, show (Count.commandB.p.run fix _) = _ from hB]
  simp only [Option.isNone_none, if_true]
  omega

theorem sub_run {t rest : Str} {c : Command} (hr : Shut rest) (h : command.run fix t = some (']' :: rest, c)) (ht : Stops isSpace t)
    (hb : ∀ c s, t = c :: s → c ≠ '|') : subSearch.run fix ('[' :: t) = some (rest, [c]) ∧ calls .cmd t ≤ Count.subSearch.count calls ('[' :: t) := by
  have hopen : (ws (tag! "[") : G true Str).run fix ('[' :: t) = some (t, c!"[") := by
    rw [run_ws, drop_stops (Stops.cons (by decide)), tag_same, Option.map_some, drop_stops ht]
  have hbar : (opt (ws (tag! "|")) : G false (Option Str)).run fix t = some (t, none) := by
    rw [run_opt, run_ws, drop_stops ht, tag_none hb]; rfl
  constructor
  · have hc : (call .cmd).run fix t = some (']' :: rest, c) := (fix_eq .cmd t).trans h
    have hl : (sepList0 (ws (tag! "|")) (call .cmd) : P Rec false false (List Command)).run fix t = some (']' :: rest, [c]) := by
      rw [run_sepList0, hc]; rfl
    rw [subSearch, run_delim, hopen, Option.bind_some, run_pre, hbar, Option.bind_some, hl, Option.bind_some,
      show (ws (tag! "]") : G true Str).run fix (']' :: rest) = some (rest.dropWhile isSpace, c!"]") from rfl, drop_stops hr.stops]
    rfl
  · show _ ≤ 0 + after ((ws (tag! "[") : G true Str).run fix ('[' :: t)) (fun r => (0 + after ((opt (ws (tag! "|")) : G false (Option Str)).run fix r)
      (fun r => calls .cmd r + _)) + _)
    rw [hopen]
    show _ ≤ 0 + ((0 + after ((opt (ws (tag! "|")) : G false (Option Str)).run fix t) (fun r => calls .cmd r + _)) + _)
    rw [hbar]
    show _ ≤ 0 + ((0 + (calls .cmd t + _)) + _)
    omega

/-- reading and counting of nested single searches -/
theorem singles_read : ∀ n rest, Shut rest → (∃ cs, subSearch.run fix (singles n ++ rest) = some (rest, cs)) ∧
    2 ^ n ≤ Count.subSearch.count calls (singles n ++ rest)
  | 0, rest, hr => by
    have hc : (call .cmd).run fix (']' :: rest) = none := (fix_eq .cmd (']' :: rest)).trans rfl
    have hl : (sepList0 (ws (tag! "|")) (call .cmd) : P Rec false false (List Command)).run fix (']' :: rest) = some (']' :: rest, []) := by
      rw [run_sepList0, hc]
    refine ⟨⟨[], ?_⟩, ?_⟩
    · show subSearch.run fix ('[' :: ']' :: rest) = _
      rw [subSearch, run_delim, show (ws (tag! "[") : G true Str).run fix ('[' :: ']' :: rest) = some (']' :: rest, c!"[") from rfl,
        Option.bind_some, run_pre, show (opt (ws (tag! "|")) : G false (Option Str)).run fix (']' :: rest) = some (']' :: rest, none) from rfl,
        Option.bind_some, hl, Option.bind_some,
        show (ws (tag! "]") : G true Str).run fix (']' :: rest) = some (rest.dropWhile isSpace, c!"]") from rfl, drop_stops hr.stops]
      rfl
    · show 1 ≤ 0 + ((0 + (calls .cmd (']' :: rest) + _)) + _)
      rw [calls_eq]
      omega
  | n + 1, rest, hr => by
    obtain ⟨⟨cs, h1⟩, h2⟩ := singles_read n (']' :: rest) (.inr ⟨rest, rfl⟩)
    obtain ⟨t, ht⟩ := singles_head n
    have e : singles (n + 1) ++ rest = '[' :: (c!"multisearch " ++ '[' :: (t ++ ']' :: rest)) := by rw [singles, ht]; simp
    have e' : singles n ++ ']' :: rest = '[' :: (t ++ ']' :: rest) := by rw [ht]; rfl
    rw [e'] at h1 h2
    rw [e]
    have hs := sub_run hr (command_single (.inr ⟨rest, rfl⟩) h1) (Stops.cons (by decide)) (by rintro c s ⟨⟩; decide)
    refine ⟨⟨_, hs.1⟩, Nat.le_trans ?_ hs.2⟩
    have := count_single (.inr ⟨rest, rfl⟩) h1
    rw [calls_eq]
    show _ ≤ 1 + Count.command.count calls _
    omega

/-- **C101** is refuted for queries that are accepted, too: `multisearch` with one search is read as a search for the word, after the
search in brackets has been parsed for `multisearch` and thrown away. -/
theorem C101_exponential_accepted (n : Nat) : (parse (c!"multisearch " ++ singles n)).isSome ∧ 2 ^ n ≤ effort (c!"multisearch " ++ singles n) ∧
    (c!"multisearch " ++ singles n).length = 14 * (n + 1) := by
  obtain ⟨⟨cs, h1⟩, h2⟩ := singles_read n [] (.inl rfl)
  obtain ⟨t, ht⟩ := singles_head n
  have hl : ∀ n, (singles n).length = 14 * n + 2 := by
    intro n
    induction n with
    | zero => rfl
    | succ n ih => simp [singles, ih]; omega
  refine ⟨?_, ?_, by rw [List.length_append, hl]; simp; omega⟩
  · rw [List.append_nil, ht] at h1
    rw [ht, parse_one rfl (command_single (.inl rfl) h1)]; rfl
  · rw [List.append_nil, ht] at h1 h2
    have := count_single (.inl rfl) h1
    rw [ht, effort, calls_eq]
    show _ ≤ 1 + (0 + (0 + ((Count.command.count calls (c!"multisearch " ++ '[' :: t) + _) + _)))
    omega

theorem poly_lt (c d : Nat) : ∃ m, c + (m + 5) * d < 2 ^ m := by
  refine ⟨2 * (c + 5 * d), ?_⟩
  generalize hj : c + 5 * d = j
  have h1 : j + 1 ≤ 2 ^ j := Nat.lt_two_pow_self
  have h2 : (j + 1) * (j + 1) ≤ 2 ^ j * 2 ^ j := Nat.mul_le_mul h1 h1
  rw [show 2 * j = j + j by omega, Nat.pow_add]
  have h3 : j * (2 * d) ≤ j * j := Nat.mul_le_mul_left _ (by omega)
  have e1 : (j + j + 5) * d = j * (2 * d) + 5 * d := by
    rw [Nat.add_mul, ← Nat.two_mul, Nat.mul_comm 2 j, Nat.mul_assoc]
  have e2 : (j + 1) * (j + 1) = j * j + j + j + 1 := by rw [Nat.add_mul, Nat.mul_add]; omega
  omega

/-- **C101** No polynomial in the length of the text bounds the number of calls, not even on the queries that are accepted. -/
theorem C101_no_polynomial : ¬ ∃ c d, ∀ q, (parse q).isSome → effort q ≤ c * (q.length + 1) ^ d := by
  rintro ⟨c, d, h⟩
  obtain ⟨m, hm⟩ := poly_lt c d
  obtain ⟨h0, h2, hl⟩ := C101_exponential_accepted (2 ^ m)
  have h1 := h _ h0
  have h3 : (c!"multisearch " ++ singles (2 ^ m)).length + 1 ≤ 2 ^ (m + 5) := by
    rw [hl, Nat.pow_add]
    have : 0 < 2 ^ m := Nat.two_pow_pos m
    omega
  have h4 : c * ((c!"multisearch " ++ singles (2 ^ m)).length + 1) ^ d ≤ 2 ^ c * 2 ^ ((m + 5) * d) := by
    refine Nat.mul_le_mul (Nat.le_of_lt Nat.lt_two_pow_self) ?_
    rw [Nat.pow_mul]
    exact Nat.pow_le_pow_left h3 d
  rw [← Nat.pow_add] at h4
  have h5 : 2 ^ (2 ^ m) ≤ 2 ^ (c + (m + 5) * d) := Nat.le_trans h2 (Nat.le_trans h1 h4)
  have h6 := (Nat.pow_le_pow_iff_right (by decide : 1 < 2)).1 h5
  omega

/-- **C101** What holds: a search whose expression is written in the forms of `Written` takes at most one call for each character of the
expression, and one more. -/
theorem C101_linear_partial {e : Expr} {s : Str} (h : Written 9 e s) : effort (c!"search " ++ s) ≤ s.length + 1 := by
  have hs := written_stops h
  have hF : Follow 9 [] := .nil
  have h1 : Count.expr9n.count calls s ≤ s.length := by
    have := (written_cheap h [] hF).1
    rwa [List.append_nil] at this
  rw [search_count, search_body, command_search (search_run h), drop_stops hs.2, expr_written h]
  show 1 + (_ + 0 + 0) ≤ _
  omega

/-- The same for `eval`. -/
theorem C101_linear_eval_partial {f s : Str} {e : Expr} (hf : IsName f) (ht : f ≠ c!"t") (hF : f ≠ c!"f") (h : Written 9 e s) :
    effort (c!"eval " ++ (f ++ '=' :: s)) ≤ s.length + 1 := by
  have hs := written_stops h
  have h1 : Count.expr9n.count calls s ≤ s.length := by
    have := (written_cheap h [] .nil).1
    rwa [List.append_nil] at this
  have hw := name_lead hf
  obtain ⟨c, t, ef, hc⟩ := hw.head
  have hfs : Stops isSpace (f ++ '=' :: s) := by rw [ef]; exact Stops.cons (tokenChar_space hc)
  have hfield := run_field (rest := '=' :: s) hf.ne hw.token (Stops.cons (by decide)) (Stops.cons (by decide))
    (isName_res hf) ht hF
  have hrun := eval_run hf ht hF h
  have hitem : (Counted.sepPair (free (ws (lift field))) (free (ws (tag! "="))) (Counted.ws Count.expr)).count calls (f ++ '=' :: s) =
      Count.expr9n.count calls s := by
    show 0 + after ((ws (lift field) : G true Str).run fix _) (fun r => 0 + after ((ws (tag! "=") : G true Str).run fix r) (fun r =>
      0 + after ((ms0 : G false Str).run fix r) (fun r => Count.expr9n.count calls r + after (expr9n.run fix r) fun _ => 0))) = _
    rw [run_ws, drop_stops hfs, run_lift, hfield, Option.map_some, List.dropWhile_cons_of_neg (by decide)]
    show 0 + (0 + after ((ws (tag! "=") : G true Str).run fix ('=' :: s)) _) = _
    rw [run_ws, List.dropWhile_cons_of_neg (by decide), tag_same, Option.map_some, drop_stops hs.2]
    show 0 + (0 + (0 + (Count.expr9n.count calls (s.dropWhile isSpace) + after _ fun _ => 0))) = _
    rw [after_zero, drop_stops hs.2]; omega
  have hread : (sepPair (ws (lift field)) (ws (tag! "=")) (ws expr) : G true (Str × Expr)).run fix (f ++ '=' :: s) = some ([], (f, e)) :=
    item_read hf ht hF hs.2 (expr_written h)
  have hcount : Count.eval.count calls (c!"eval " ++ (f ++ '=' :: s)) = Count.expr9n.count calls s := by
    show 0 + ((Counted.sepPair (free (ws (lift field))) (free (ws (tag! "="))) (Counted.ws Count.expr)).count calls
      ((f ++ '=' :: s).dropWhile isSpace) + after ((sepPair (ws (lift field)) (ws (tag! "=")) (ws expr) : G true (Str × Expr)).run fix
        ((f ++ '=' :: s).dropWhile isSpace)) _) = _
    rw [drop_stops hfs, hitem, hread]
    show 0 + (Count.expr9n.count calls s + 0) = _
    omega
  have hA : Count.commandA.count calls (c!"eval " ++ (f ++ '=' :: s)) = Count.expr9n.count calls s := by
    rw [Count.commandA, alt_next rfl, alt_next rfl, alt_next rfl, alt_next rfl, alt_next rfl, alt_next rfl, count_alt, hcount]
    show _ + (if (eval.run fix _).isNone then _ else 0) = _
    rw [hrun]; rfl
  have hB : command.run fix (c!"eval " ++ (f ++ '=' :: s)) = _ := command_eval hrun
  have hAr : commandA.run fix (c!"eval " ++ (f ++ '=' :: s)) = some ([], .eval [(f, e)]) := commandA_eval hrun
  have hC : Count.command.count calls (c!"eval " ++ (f ++ '=' :: s)) = Count.expr9n.count calls s := by
    rw [Count.command, count_alt, hA]
    show _ + (if (commandA.run fix _).isNone then _ else 0) = _
    rw [hAr]; rfl
  rw [effort, calls_eq]
  show 1 + (0 + (0 + ((Count.command.count calls (c!"eval " ++ (f ++ '=' :: s)) +
    after (command.run fix (c!"eval " ++ (f ++ '=' :: s))) _) + after _ fun _ => 0))) ≤ _
  rw [after_zero, hB, hC]
  show 1 + (0 + (0 + (_ + 0 + 0))) ≤ _
  omega

/-- Three hundred characters are enough for more than `10 ^ 17` calls. -/
example : (c!"search " ++ notsBefore 58 c!"a=1").length = 300 ∧ 10 ^ 17 < effort (c!"search " ++ notsBefore 58 c!"a=1") :=
  ⟨by decide +kernel, Nat.lt_of_lt_of_le (by decide) (C101_exponential 58 c!"a=1" (by decide))⟩

/-- The same text with the parentheses closed, nested three deep: read with seven calls; not closed: refused after twenty-two. -/
example : effort c!"search NOT (NOT (NOT (a)))" = 7 ∧ effort c!"search NOT (NOT (NOT (a" = 22 := by decide +kernel

/-- Three searches in one another. -/
example : c!"multisearch " ++ singles 2 = c!"multisearch [multisearch [multisearch []]]" ∧
    effort c!"multisearch [multisearch [multisearch []]]" = 15 := by decide +kernel

/-- Nested parentheses are read with one call for each. -/
example : Written 9 (.const (.field c!"a")) c!"((a))" ∧ effort (c!"search " ++ c!"((a))") ≤ 6 ∧ effort c!"search ((a))" = 3 := by
  have h : Written 2 (.const (.field c!"a")) c!"((a))" :=
    Written.paren (w_up (w_name (w := c!"a") (k := 9) (by decide) (by decide) (by decide) (by decide) (by decide)).paren (by decide) (by decide))
  exact ⟨w_up h (by decide) (by decide), C101_linear_partial (w_up h (by decide) (by decide)), by decide +kernel⟩

/-! ### Depth -/

/-- Calls nested at most `k` deep are enough for a text: whatever deeper calls answer, the answer is the same. -/
def DepthSuffices (k : Nat) (q : Str) : Prop := ∀ ρ, answer (levelFrom ρ k) q = parse q

theorem opens_deep {w : Str} (hw : Stops isSpace w) : ∀ k, (level k).run .e9w (opensBefore k w) = none
  | 0 => rfl
  | k + 1 => by
    have hs : Stops isSpace (opensBefore k w) := by
      cases k with
      | zero => exact hw
      | succ k => exact Stops.cons (by decide)
    have h1 : (callE .e9w).run (level k) (opensBefore k w) = none := opens_deep hw k
    have h2 : (parenthesized (callE .e9w)).run (level k) ('(' :: opensBefore k w) = none := by
      rw [parenthesized, run_recast, run_delim, run_wsRight, tag_same, Option.map_some, Option.bind_some, drop_stops hs, h1]; rfl
    exact (open_none h2).2.2

theorem opens_query {w : Str} (hw : Stops isSpace w) (k : Nat) : answer (level k) (c!"search " ++ opensBefore k w) = none := by
  cases k with
  | zero => rfl
  | succ k =>
    have hs : Stops isSpace (opensBefore k w) := by
      cases k with
      | zero => exact hw
      | succ k => exact Stops.cons (by decide)
    have h1 : (callE .e9w).run (level k) (opensBefore k w) = none := opens_deep hw k
    have h2 : (parenthesized (callE .e9w)).run (level k) ('(' :: opensBefore k w) = none := by
      rw [parenthesized, run_recast, run_delim, run_wsRight, tag_same, Option.map_some, Option.bind_some, drop_stops hs, h1]; rfl
    have h3 : (level (k + 1)).run .pipe (c!"search " ++ opensBefore (k + 1) w) = none :=
      search_none (i := '(' :: opensBefore k w) (open_none h2).2.1
    unfold answer
    rw [h3]

theorem opens_append (k : Nat) (s t : Str) : opensBefore k (s ++ t) = opensBefore k s ++ t := by
  induction k with
  | zero => rfl
  | succ k ih => rw [opensBefore, opensBefore, ih]; rfl

/-- a field in `k` pairs of parentheses -/
theorem nested_written : ∀ k, Written 9 (.const (.field c!"a")) (opensBefore k c!"a" ++ List.replicate k ')')
  | 0 => w_name (w := c!"a") (by decide) (by decide) (by decide) (by decide) (by decide)
  | k + 1 => by
    have h := (nested_written k).paren
    have e : c!"(" ++ (opensBefore k c!"a" ++ List.replicate k ')') ++ c!")" = opensBefore (k + 1) c!"a" ++ List.replicate (k + 1) ')' := by
      rw [List.replicate_succ', opensBefore]; simp
    rw [e] at h
    exact w_up h (by decide) (by decide)

/-- **C102** is refuted: for every depth there is a query that is accepted and needs calls nested deeper: a field in as many pairs of
parentheses. -/
theorem C102_unbounded (k : Nat) : ∃ q, q.length = 2 * k + 8 ∧ (parse q).isSome ∧ ¬ DepthSuffices k q := by
  have hp : parse (c!"search " ++ (opensBefore k c!"a" ++ List.replicate k ')')) = _ := C08_search_partial (nested_written k)
  refine ⟨c!"search " ++ (opensBefore k c!"a" ++ List.replicate k ')'), ?_, ?_, fun h => ?_⟩
  · have hl : ∀ k, (opensBefore k c!"a").length = k + 1 := by
      intro k
      induction k with
      | zero => rfl
      | succ k ih => rw [opensBefore, List.length_cons, ih]
    simp [hl]; omega
  · rw [hp]; rfl
  · have h1 := h (level 0)
    rw [← level_eq_levelFrom, hp, ← opens_append, opens_query (stops_append (Stops.cons (by decide)) (by decide))] at h1
    cases h1

/-- **C102** What holds: calls nested one deeper than the text is long are enough. -/
theorem C102_length_partial (q : Str) : DepthSuffices (q.length + 1) q := fun ρ => C01_bounded_depth ρ q _ (Nat.lt_succ_self _)

/-- Three pairs of parentheses: depth three is not enough, depth four is. -/
example : (parse c!"search (((a)))").isSome = true ∧ answer (level 3) c!"search (((a)))" = none ∧
    (answer (level 4) c!"search (((a)))").isSome = true := by
  refine ⟨?_, ?_, ?_⟩ <;> decide +kernel

end Verif
