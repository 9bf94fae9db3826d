import Verif.Lemmas.Ladder
/-
C08, C09, C10: precedence, associativity and parentheses.
-/
namespace Verif
open P Lex Spl Spec Lemmas

theorem expr_written {e : Expr} {s : Str} (h : Written 9 e s) : expr9n.run fix s = some ([], e) := by
  have := (written_good h [] .nil).1
  rwa [List.append_nil] at this

theorem item_read {f s : Str} {e : Expr} (hf : IsName f) (ht : f ≠ c!"t") (hF : f ≠ c!"f") (hs : Stops isSpace s)
    (he : expr9n.run fix s = some ([], e)) :
    (sepPair (ws (lift field)) (ws (tag! "=")) (ws expr) : G true (Str × Expr)).run fix (f ++ '=' :: s) = some ([], (f, e)) := by
  have hw := name_lead hf
  obtain ⟨c, t, ef, hc⟩ := hw.head
  have hfs : Stops isSpace (f ++ '=' :: s) := by rw [ef]; exact Stops.cons (tokenChar_space hc)
  have hfield := run_field (rest := '=' :: s) hf.ne hw.token (Stops.cons (by decide)) (Stops.cons (by decide))
    (isName_res hf) ht hF
  rw [run_sepPair, run_ws, drop_stops hfs, run_lift, hfield, Option.map_some, Option.bind_some,
    List.dropWhile_cons_of_neg (by decide), run_ws, List.dropWhile_cons_of_neg (by decide), tag_same, Option.map_some,
    Option.bind_some, drop_stops hs, run_ws, drop_stops hs, show expr.run fix s = _ from he]
  rfl

theorem eval_read {f s : Str} {e : Expr} (hf : IsName f) (ht : f ≠ c!"t") (hF : f ≠ c!"f") (hs : Stops isSpace s)
    (he : expr9n.run fix s = some ([], e)) : eval.run fix (c!"eval " ++ (f ++ '=' :: s)) = some ([], .eval [(f, e)]) := by
  obtain ⟨c, t, ef, hc⟩ := (name_lead hf).head
  have hfs : Stops isSpace (f ++ '=' :: s) := by rw [ef]; exact Stops.cons (tokenChar_space hc)
  have hname : (name (tagi! "eval")).run fix (c!"eval " ++ (f ++ '=' :: s)) =
      some ((f ++ '=' :: s).dropWhile isSpace, ()) := rfl
  rw [eval, run_pre, hname, drop_stops hfs, Option.bind_some, run_map, run_commaList0, item_read hf ht hF hs he]
  rfl

theorem eval_run {f s : Str} {e : Expr} (hf : IsName f) (ht : f ≠ c!"t") (hF : f ≠ c!"f") (h : Written 9 e s) :
    eval.run fix (c!"eval " ++ (f ++ '=' :: s)) = some ([], .eval [(f, e)]) :=
  eval_read hf ht hF (written_stops h).2 (expr_written h)

theorem commandA_eval {i : Str} {r : Str} {c : Command} (h : eval.run fix (c!"eval " ++ i) = some (r, c)) :
    commandA.run fix (c!"eval " ++ i) = some (r, c) := by
  have hA : commandA.run fix (c!"eval " ++ i) =
      (eval.run fix (c!"eval " ++ i)).or
        ((eventStats <||> fields <||> fillNull <||> format <||> head <||> inputLookup <||> join <||> lookup <||>
          makeResults <||> map_ <||> multiSearch <||> mvCombine <||> mvExpand : G true Command).run fix (c!"eval " ++ i)) := by
    rw [← run_alt]; rfl
  rw [hA, h]; rfl

theorem command_eval {i : Str} {r : Str} {c : Command} (h : eval.run fix (c!"eval " ++ i) = some (r, c)) :
    command.run fix (c!"eval " ++ i) = some (r, c) := by
  rw [command, run_alt, commandA_eval h]; rfl

theorem search_run {s : Str} {e : Expr} (h : Written 9 e s) : search.run fix (c!"search " ++ s) = some ([], .search e) := by
  have hs := written_stops h
  have hname : (P.map (fun _ => ()) (seq (tagi! "search") (ms1.weak <||> eof)) <||> P.map (fun _ => ()) ms0 : G false Unit).run fix
      (c!"search " ++ s) = some (s.dropWhile isSpace, ()) := rfl
  have hlist : (commaOrSpaceList1 expr : G true (List Expr)).run fix s = some ([], [e]) := by
    rw [commaOrSpaceList1, run_recast, run_sepList1, expr_written h]; rfl
  rw [search, run_pre, hname, drop_stops hs.2, Option.bind_some, run_map, hlist]
  rfl

theorem command_search {i : Str} {r : Str} {c : Command} (h : search.run fix (c!"search " ++ i) = some (r, c)) :
    command.run fix (c!"search " ++ i) = some (r, c) := by
  have hA : commandA.run fix (c!"search " ++ i) = none := rfl
  have hB : commandB.run fix (c!"search " ++ i) = none := rfl
  rw [command, run_alt, hA, run_alt, hB, h]; rfl

theorem parse_one {q : Str} {c : Command} (hd : (afterLead q).dropWhile isSpace = q) (h : command.run fix q = some ([], c)) :
    parse q = some [c] := by
  rw [parse_eq, hd, run_sepList0, h]
  rfl

/-- Every expression written with fields, integers, quoted texts, words with stars, time spans, lists after IN, calls,
parentheses and operators (comparisons and `+` with or without blanks, the others between blanks) is read
with these levels, tightest first: `*` `/`, then `+` `-`, then `.`, then comparisons, then NOT, then OR, then
AND.  Equal levels group to the right.  The property asks for NOT first and AND before OR. -/
theorem C08_eval_partial {f s : Str} {e : Expr} (hf : IsName f) (ht : f ≠ c!"t") (hF : f ≠ c!"f") (h : Written 9 e s) :
    parse (c!"eval " ++ (f ++ '=' :: s)) = some [.eval [(f, e)]] :=
  parse_one rfl (command_eval (eval_run hf ht hF h))

theorem C08_search_partial {s : Str} {e : Expr} (h : Written 9 e s) : parse (c!"search " ++ s) = some [.search e] :=
  parse_one rfl (command_search (search_run h))

theorem w_field {w : Str} (h : IsName w) (ht : w ≠ c!"t") (hf : w ≠ c!"f") : ∀ k, Written (k + 2) (.const (.field w)) w ∨ 9 < k + 2
  | 0 => .inl (.field h ht hf)
  | k + 1 => by
    rcases w_field h ht hf k with h' | h'
    · by_cases hk : k + 2 < 9
      · exact .inl (.up h' hk)
      · right; omega
    · right; omega

/-- a field name as an operand of any level -/
theorem w_name {k : Nat} {w : Str} (h : IsName w) (ht : w ≠ c!"t") (hf : w ≠ c!"f") (h2 : 2 ≤ k) (h9 : k ≤ 9) :
    Written k (.const (.field w)) w := by
  rcases w_field h ht hf (k - 2) with h' | h'
  · rwa [show k - 2 + 2 = k by omega] at h'
  · omega

theorem gap1 : Gap c!" " := ⟨by decide, by decide⟩

instance (w : Str) : Decidable (IsName w) :=
  decidable_of_iff (w ≠ [] ∧ (∀ c ∈ w, isNameChar c = true) ∧ (w.head?.all fun c => !isDig c) = true ∧ ¬ Reserved w)
    ⟨fun ⟨a, b, c, d⟩ => ⟨a, b, fun x s e => by subst e; simpa using c, d⟩,
     fun h => ⟨h.ne, h.chars, by
       cases w with
       | nil => rfl
       | cons x s => simp [h.head x s rfl], h.notReserved⟩⟩

example : Written 9 (.binary (.binary (.const (.field c!"a")) c!"+" (.binary (.const (.int 2)) c!"*" (.const (.field c!"b"))))
    c!">" (.call c!"len" [.const (.field c!"c")])) c!"a + 2 * b > len(c)" := by
  refine .up (.up (.up (.bin (k := 5) (s₁ := c!"a + 2 * b") (g₁ := c!" ") (g₂ := c!" ") .gt gap1 gap1 (.up ?_ (by decide))
    (.up (.up (.up (.up ?_ (by decide)) (by decide)) (by decide)) (by decide))) (by decide)) (by decide)) (by decide)
  · exact .bin (k := 3) (s₁ := c!"a") (g₁ := c!" ") (g₂ := c!" ") .add gap1 gap1 (w_name (by decide) (by decide) (by decide) (by decide) (by decide))
      (.up (.bin (k := 2) (s₁ := showInt 2) (g₁ := c!" ") (g₂ := c!" ") .mul gap1 gap1 (.int (by unfold isI64; decide))
        (w_name (by decide) (by decide) (by decide) (by decide) (by decide))) (by decide))
  · exact .call (f := c!"len") (s := c!"c") (by decide) (by decide)
      (.one (w_name (by decide) (by decide) (by decide) (by decide) (by decide)))

theorem blanks0 : Blanks [] := .inl rfl
theorem blanks1 : Blanks c!" " := .inr gap1

/-- an operand of any level -/
theorem w_up {k : Nat} {e : Expr} {s : Str} (h : Written 2 e s) (h2 : 2 ≤ k) (h9 : k ≤ 9) : Written k e s := by
  have : ∀ n, 2 + n ≤ 9 → Written (2 + n) e s := by
    intro n
    induction n with
    | zero => exact fun _ => h
    | succ n ih => exact fun hn => Written.up (k := 2 + n) (ih (by omega)) (by omega)
  have := this (k - 2) (by omega)
  rwa [show 2 + (k - 2) = k by omega] at this

/-- a larger one: `NOT( a.b="x y") AND c IN (1, u*  "v") OR TERM(p q)` -/
example : Written 9
    (.binary (.unary c!"NOT" (.binary (.const (.field c!"a.b")) c!"=" (.const (.str c!"x y")))) c!"AND"
      (.binary (.fieldIn c!"c" [.const (.int 1), .const (.wildcard c!"u*"), .const (.str c!"v")]) c!"OR"
        (.call c!"TERM" [.const (.field c!"p q")])))
    c!"NOT( a.b=\"x y\") AND c IN (1, u*  \"v\") OR TERM(p q)" := by
  have q1 : Quotable c!"x y" := ⟨.plain (by decide) (by decide) (.plain (by decide) (by decide) (.plain (by decide) (by decide) .nil)), by decide,
    by intro c t h; obtain ⟨rfl, -⟩ := List.cons.inj h; decide⟩
  have q2 : Quotable c!"v" := ⟨.plain (by decide) (by decide) .nil, by decide, by intro c t h; obtain ⟨rfl, -⟩ := List.cons.inj h; decide⟩
  have star : WildWord c!"u*" := ⟨by decide, by decide, by intro c t h; obtain ⟨rfl, -⟩ := List.cons.inj h; decide⟩
  have fab : FieldText c!"a.b" := .dot (w := c!"a") ⟨by decide, by decide, by decide⟩ (.one (w := c!"b") ⟨by decide, by decide, by decide⟩)
  have h1 : Written 6 _ c!"a.b=\"x y\"" := .op (k := 5) (s₁ := c!"a.b") (g₁ := []) (g₂ := []) .eq blanks0 blanks0 (.inl (by decide))
    (w_up (.value (.field fab)) (by decide) (by decide)) (w_up (.value (.str q1 (.of_at (by decide)) (by decide))) (by decide) (by decide))
  have h2 : Written 7 _ c!"NOT( a.b=\"x y\")" := .notParen (n := c!"NOT") (g₁ := c!" ") (g₂ := []) (by decide) blanks1 blanks0
    (.up (.up (.up h1 (by decide)) (by decide)) (by decide))
  have h3 : Written 6 _ c!"c IN (1, u*  \"v\")" := .isIn (f := c!"c") (g₁ := c!" ") (k := c!"IN") (g₂ := c!" ") (g₃ := []) (g₄ := [])
    (.one ⟨by decide, by decide, by decide⟩) gap1 (by decide) blanks1 blanks0 blanks0
    (.cons (g := c!", ") (.int (n := 1) (by unfold isI64; decide)) (.comma (g₁ := []) (g₂ := c!" ") blanks0 blanks1)
      (.cons (g := c!"  ") (.star star) (.gap ⟨by decide, by decide⟩) (.one (.str q2 (.of_at (by decide)) (by decide)))))
  have h4 : Written 2 _ c!"TERM(p q)" := .term (k := c!"TERM") (t := c!"p q") (by decide) (by decide)
    (by intro c t h; obtain ⟨rfl, -⟩ := List.cons.inj h; decide)
  exact .bin (k := 8) (g₁ := c!" ") (g₂ := c!" ") (.and (op := c!"AND") (by decide)) gap1 gap1 (.up h2 (by decide))
    (.up (.bin (k := 7) (g₁ := c!" ") (g₂ := c!" ") (.or (op := c!"OR") (by decide)) gap1 gap1 (.up h3 (by decide))
      (w_up h4 (by decide) (by decide))) (by decide))

/-- OR binds tighter than AND in `search`, for all operands. -/
theorem C08_or_before_and {a b c : Str} (ha : IsField a) (hb : IsField b) (hc : IsField c) :
    parse (c!"search " ++ (a ++ c!" AND " ++ b ++ c!" OR " ++ c)) =
      some [.search (.binary (.const (.field a)) c!"AND" (.binary (.const (.field b)) c!"OR" (.const (.field c))))] ∧
    parse (c!"search " ++ (a ++ c!" OR " ++ b ++ c!" AND " ++ c)) =
      some [.search (.binary (.binary (.const (.field a)) c!"OR" (.const (.field b))) c!"AND" (.const (.field c)))] := by
  constructor
  · apply C08_search_partial
    have h1 : Written 8 _ _ := .bin (k := 7) (g₁ := c!" ") (g₂ := c!" ") (.or (op := c!"OR") (by decide)) gap1 gap1
      (w_name hb.name hb.notT hb.notF (by decide) (by decide)) (w_name hc.name hc.notT hc.notF (by decide) (by decide))
    have h2 : Written 9 _ _ := .bin (k := 8) (g₁ := c!" ") (g₂ := c!" ") (.and (op := c!"AND") (by decide)) gap1 gap1
      (w_name ha.name ha.notT ha.notF (by decide) (by decide)) (.up h1 (by decide))
    simpa using h2
  · apply C08_search_partial
    have h1 : Written 8 _ _ := .bin (k := 7) (g₁ := c!" ") (g₂ := c!" ") (.or (op := c!"OR") (by decide)) gap1 gap1
      (w_name ha.name ha.notT ha.notF (by decide) (by decide)) (w_name hb.name hb.notT hb.notF (by decide) (by decide))
    have h2 : Written 9 _ _ := .bin (k := 8) (g₁ := c!" ") (g₂ := c!" ") (.and (op := c!"AND") (by decide)) gap1 gap1
      h1 (w_name hc.name hc.notT hc.notF (by decide) (by decide))
    simpa using h2

example : IsField c!"status" ∧ IsField c!"host" ∧ IsField c!"user_id" := by
  refine ⟨⟨?_, ?_, ?_⟩, ⟨?_, ?_, ?_⟩, ⟨?_, ?_, ?_⟩⟩ <;> decide

/-- NOT applies to a whole comparison, not to its left side. -/
theorem C08_not_after_comparison {a b : Str} (ha : IsField a) (hb : IsField b) :
    parse (c!"search " ++ (c!"NOT " ++ a ++ c!" = " ++ b)) =
      some [.search (.unary c!"NOT" (.binary (.const (.field a)) c!"=" (.const (.field b))))] := by
  apply C08_search_partial
  have h1 : Written 6 _ _ := .bin (k := 5) (g₁ := c!" ") (g₂ := c!" ") .eq gap1 gap1
    (w_name ha.name ha.notT ha.notF (by decide) (by decide)) (w_name hb.name hb.notT hb.notF (by decide) (by decide))
  have h2 : Written 7 _ _ := .not (n := c!"NOT") (g := c!" ") (by decide) gap1 (.up h1 (by decide))
  have h3 : Written 9 _ _ := .up (.up h2 (by decide)) (by decide)
  simpa using h3

/-- The operators of one level group to the right, for every operator and all operands: in particular
`a - b - c` is read as `a - (b - c)`, which is not the property. -/
theorem C09_groups_right {a b c op op' : Str} {k : Nat} (ho : Op k op) (ho' : Op k op') (ha : IsField a) (hb : IsField b)
    (hc : IsField c) :
    parse (c!"eval x=" ++ (a ++ c!" " ++ op ++ c!" " ++ (b ++ c!" " ++ op' ++ c!" " ++ c))) =
      some [.eval [(c!"x", .binary (.const (.field a)) op (.binary (.const (.field b)) op' (.const (.field c))))]] := by
  have h2 := op_gt ho
  have h9 := op_le ho
  obtain ⟨k, rfl⟩ : ∃ j, k = j + 1 := ⟨k - 1, by omega⟩
  have hw : Written (k + 1) _ _ := .bin ho gap1 gap1 (w_name ha.name ha.notT ha.notF (by omega) (by omega))
    (.bin ho' gap1 gap1 (w_name hb.name hb.notT hb.notF (by omega) (by omega))
      (w_name hc.name hc.notT hc.notF (by omega) (by omega)))
  have hup : ∀ n, ∀ {m e s}, Written m e s → m + n ≤ 9 → Written (m + n) e s := by
    intro n
    induction n with
    | zero => intro m e s h _; exact h
    | succ n ih => intro m e s h hm; exact .up (ih h (by omega)) (show m + n < 9 by omega)
  have := hup (9 - (k + 1)) hw (by omega)
  rw [show k + 1 + (9 - (k + 1)) = 9 by omega] at this
  exact C08_eval_partial (f := c!"x") (by decide) (by decide) (by decide) this

/-- operations on fields, written one after the other -/
def chainText : Str → List (Str × Str) → Str
  | a, [] => a
  | a, (op, b) :: xs => a ++ c!" " ++ op ++ c!" " ++ chainText b xs

/-- the same operations grouped to the right -/
def chainRight : Str → List (Str × Str) → Expr
  | a, [] => .const (.field a)
  | a, (op, b) :: xs => .binary (.const (.field a)) op (chainRight b xs)

theorem chain_written {k : Nat} (h3 : 2 ≤ k) (h9 : k < 9) : ∀ (xs : List (Str × Str)) (a : Str), IsField a →
    (∀ x ∈ xs, Op (k + 1) x.1 ∧ IsField x.2) → Written (k + 1) (chainRight a xs) (chainText a xs)
  | [], _, ha, _ => w_name ha.name ha.notT ha.notF (by omega) (by omega)
  | (op, b) :: xs, a, ha, h => .bin (h (op, b) (by simp)).1 gap1 gap1 (w_name ha.name ha.notT ha.notF (by omega) (by omega))
      (chain_written h3 h9 xs b (h (op, b) (by simp)).2 fun x hx => h x (by simp [hx]))

/-- Chains of any length group to the right. -/
theorem C09_chain_groups_right {k : Nat} {a : Str} {xs : List (Str × Str)} (ha : IsField a)
    (h : ∀ x ∈ xs, Op k x.1 ∧ IsField x.2) :
    parse (c!"eval x=" ++ chainText a xs) = some [.eval [(c!"x", chainRight a xs)]] := by
  cases xs with
  | nil =>
    exact C08_eval_partial (f := c!"x") (by decide) (by decide) (by decide) (w_name ha.name ha.notT ha.notF (by omega) (by omega))
  | cons x xs =>
    have ho := (h x (by simp)).1
    have h2 := op_gt ho
    have h9 := op_le ho
    obtain ⟨k, rfl⟩ : ∃ j, k = j + 1 := ⟨k - 1, by omega⟩
    have hup := chain_written (by omega) (by omega) (x :: xs) a ha h
    have : ∀ n, k + 1 + n ≤ 9 → Written (k + 1 + n) (chainRight a (x :: xs)) (chainText a (x :: xs)) := by
      intro n
      induction n with
      | zero => intro _; exact hup
      | succ n ih => intro hn; exact .up (ih (by omega)) (show k + 1 + n < 9 by omega)
    have := this (9 - (k + 1)) (by omega)
    rw [show k + 1 + (9 - (k + 1)) = 9 by omega] at this
    exact C08_eval_partial (f := c!"x") (by decide) (by decide) (by decide) this

/-- What holds of the property: one subtraction or division alone keeps its operands in order.
Missing: longer chains, which group the other way. -/
theorem C09_single_partial {a b op : Str} (ho : op = c!"-" ∨ op = c!"/") (ha : IsField a) (hb : IsField b) :
    parse (c!"eval x=" ++ (a ++ c!" " ++ op ++ c!" " ++ b)) =
      some [.eval [(c!"x", .binary (.const (.field a)) op (.const (.field b)))]] := by
  rcases ho with rfl | rfl
  · exact C09_chain_groups_right (k := 4) (xs := [(c!"-", b)]) ha (by simp [hb]; exact .sub)
  · exact C09_chain_groups_right (k := 3) (xs := [(c!"/", b)]) ha (by simp [hb]; exact .div)

/-- Subtraction and division in chains of three. -/
theorem C09_minus_and_divide_refuted :
    parse c!"eval x=a - b - c" ≠ some [.eval [(c!"x", .binary (.binary (.const (.field c!"a")) c!"-" (.const (.field c!"b")))
      c!"-" (.const (.field c!"c")))]] ∧
    parse c!"eval x=a / b / c" ≠ some [.eval [(c!"x", .binary (.binary (.const (.field c!"a")) c!"/" (.const (.field c!"b")))
      c!"/" (.const (.field c!"c")))]] := by
  have ha : IsField c!"a" := ⟨by decide, by decide, by decide⟩
  have hb : IsField c!"b" := ⟨by decide, by decide, by decide⟩
  have hc : IsField c!"c" := ⟨by decide, by decide, by decide⟩
  constructor
  · have h : parse c!"eval x=a - b - c" = _ := C09_groups_right .sub .sub ha hb hc
    rw [h]; simp
  · have h : parse c!"eval x=a / b / c" = _ := C09_groups_right .div .div ha hb hc
    rw [h]; simp

/-- trees of fields, integers and binary operators -/
inductive Tree
  | field (w : Str)
  | int (n : Int)
  | bin (l : Tree) (op : Str) (r : Tree)

/-- the tree can be written: its names are names, its integers fit 64 bits, its operators exist -/
def Tree.Valid : Tree → Prop
  | .field w => IsField w
  | .int n => isI64 n
  | .bin l op r => (∃ k, Op k op) ∧ l.Valid ∧ r.Valid

/-- the expression meant by a tree -/
def Tree.expr : Tree → Expr
  | .field w => .const (.field w)
  | .int n => .const (.int n)
  | .bin l op r => .binary l.expr op r.expr

/-- the tree written with parentheses around every operation -/
def Tree.text : Tree → Str
  | .field w => w
  | .int n => showInt n
  | .bin l op r => c!"(" ++ (l.text ++ c!" " ++ op ++ c!" " ++ r.text) ++ c!")"

theorem written_up {m n : Nat} {e : Expr} {s : Str} (h : Written m e s) (hm : m ≤ n) (hn : n ≤ 9) : Written n e s := by
  obtain ⟨d, rfl⟩ : ∃ d, n = m + d := ⟨n - m, by omega⟩
  clear hm
  induction d with
  | zero => exact h
  | succ d ih => exact .up (ih (by omega)) (show m + d < 9 by omega)

theorem tree_written : ∀ (t : Tree), t.Valid → Written 2 t.expr t.text
  | .field _, h => .field h.name h.notT h.notF
  | .int _, h => .int h
  | .bin l op r, ⟨⟨k, ho⟩, hl, hr⟩ => by
    have h2 := op_gt ho
    have h9 := op_le ho
    obtain ⟨k, rfl⟩ : ∃ j, k = j + 1 := ⟨k - 1, by omega⟩
    have h := Written.bin (k := k) ho gap1 gap1 (written_up (tree_written l hl) (by omega) (by omega))
      (written_up (tree_written r hr) (by omega) (by omega))
    exact .paren (written_up h (by omega) (by omega))

/-- Every tree written with all its parentheses is read back as that tree. -/
theorem C10_parentheses {f : Str} (hf : IsField f) {t : Tree} (ht : t.Valid) :
    parse (c!"eval " ++ (f ++ '=' :: t.text)) = some [.eval [(f, t.expr)]] :=
  C08_eval_partial hf.name hf.notT hf.notF (written_up (tree_written t ht) (by omega) (by omega))

/-- The same in `search`. -/
theorem C10_parentheses_search {t : Tree} (ht : t.Valid) : parse (c!"search " ++ t.text) = some [.search t.expr] :=
  C08_search_partial (written_up (tree_written t ht) (by omega) (by omega))

example : (Tree.bin (.bin (.field c!"a") c!"-" (.int (-3))) c!"OR" (.bin (.field c!"c") c!"." (.int 7))).Valid := by
  refine ⟨⟨8, .or (by decide)⟩, ⟨⟨4, .sub⟩, ⟨by decide, by decide, by decide⟩, show isI64 _ by unfold isI64; decide⟩, ⟨5, .cat⟩, ⟨by decide, by decide, by decide⟩, show isI64 _ by unfold isI64; decide⟩

end Verif
