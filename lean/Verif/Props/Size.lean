import Verif.Lemmas.ProgSize
import Verif.Props.Query
import Verif.Props.Program
import Verif.Props.Effort
/-
C103: how long a generated program is, compared with its query.
-/
namespace Verif.Props
open Verif Verif.Spec Verif.Lemmas Verif.Lemmas.Size

/-- calls of `memk` around a text, one in another -/
def memks : Nat → Str → Str
  | 0, t => t
  | n + 1, t => c!"memk(" ++ memks n t ++ c!")"

/-- the expression it stands for -/
def memkExpr : Nat → Expr → Expr
  | 0, e => e
  | n + 1, e => .call c!"memk" [memkExpr n e]

theorem memks_length (n : Nat) (t : Str) : (memks n t).length = 6 * n + t.length := by
  induction n with
  | zero => simp [memks]
  | succ n ih => simp [memks, ih]; omega

theorem memks_written {e : Expr} {t : Str} (h : Written 9 e t) : ∀ n, Written 9 (memkExpr n e) (memks n t)
  | 0 => h
  | n + 1 => w_up (Written.call (f := c!"memk") (by decide) (by decide) (.one (memks_written h n))) (by decide) (by decide)

theorem memks_query {e : Expr} {t : Str} (h : Written 9 e t) (n : Nat) : QueryText [.eval [(c!"x", memkExpr n e)]] (c!"eval x=" ++ memks n t) := by
  have h1 : Assignment (c!"x", memkExpr n e) (c!"x" ++ ([] ++ '=' :: ([] ++ memks n t))) :=
    .mk ⟨rfl, .inl (.one ⟨by decide, by decide, by decide⟩)⟩ (.inl rfl) (.inl rfl) (memks_written h n)
  have h2 : CmdText false (.eval [(c!"x", memkExpr n e)]) (c!"eval" ++ (c!" " ++ (c!"x" ++ ([] ++ '=' :: ([] ++ memks n t))))) :=
    .named (.eval (.one h1)) rfl (by simp) ⟨by decide, by decide⟩
  have h3 := QueryText.direct (g₁ := []) (g₂ := []) (.inl rfl) (.one h2) (.inl rfl)
  simpa using h3

theorem bin_ge (op : Str) (l r : PE) : (renderE l).length + (renderE r).length ≤ (renderE (.bin op l r)).length := by
  simp [renderE]; omega

theorem args_ge (a : PE) (as : List PE) : (renderE a).length + (joinWith c!", " (renderArgs as)).length ≤ (joinWith c!", " (renderArgs (a :: as))).length := by
  cases as with
  | nil => simp [renderArgs, joinWith]
  | cons b as => simp [renderArgs, joinWith]; omega

theorem fn_ge (f : Str) (as : List PE) : (joinWith c!", " (renderArgs as)).length ≤ (renderE (.fn f as)).length := by
  rw [renderE]
  split <;> simp <;> omega

theorem method_ge (c : PE) (f : Str) (as : List PE) : (renderE c).length + (joinWith c!", " (renderArgs as)).length ≤ (renderE (.method c f as)).length := by
  simp [renderE]; omega

/-- `memk` repeats its argument four times. -/
theorem memk_text (c : PE) : 4 * (renderE c).length ≤ (renderE (memkFn c)).length := by
  have re : ∀ as, (renderE c).length ≤ (renderE (.fn c!"regexp_extract" (c :: as))).length := fun as =>
    Nat.le_trans (Nat.le_trans (Nat.le_add_right _ _) (args_ge c as)) (fn_ge _ _)
  have unit : ∀ as, (renderE c).length ≤ (renderE (.fn c!"upper" [.fn c!"regexp_extract" (c :: as)])).length := fun as =>
    Nat.le_trans (Nat.le_trans (re as) (Nat.le_trans (Nat.le_add_right _ _) (args_ge _ []))) (fn_ge _ _)
  have test : ∀ as k, (renderE c).length ≤ (renderE (.bin c!"==" (.fn c!"upper" [.fn c!"regexp_extract" (c :: as)]) (.lit k))).length := fun as k =>
    Nat.le_trans (unit as) (Nat.le_trans (Nat.le_add_right _ _) (bin_ge _ _ _))
  simp only [memkFn, PE.mkBin, PE.mkMethod, PE.unalias]
  have first : ∀ p as, (renderE p).length ≤ (joinWith c!", " (renderArgs (p :: as))).length := fun p as =>
    Nat.le_trans (Nat.le_add_right _ _) (args_ge p as)
  have left : ∀ p f as, (renderE p).length ≤ (renderE (.method p f as)).length := fun p f as =>
    Nat.le_trans (Nat.le_add_right _ _) (method_ge p f as)
  have both : ∀ {a b : Nat} {p f q as}, a ≤ (renderE p).length → b ≤ (renderE q).length → a + b ≤ (renderE (.method p f (q :: as))).length :=
    fun h1 h2 => Nat.le_trans (Nat.add_le_add h1 (Nat.le_trans h2 (first _ _))) (method_ge _ _ _)
  have four : 4 * (renderE c).length = (renderE c).length + ((renderE c).length + (renderE c).length + (renderE c).length) := by omega
  rw [four]
  refine Nat.le_trans (Nat.add_le_add ?_ ?_) (bin_ge _ _ _)
  · exact Nat.le_trans (re _) (left _ _ _)
  · refine Nat.le_trans ?_ (left _ _ _)
    exact both (both (Nat.le_trans (test _ _) (Nat.le_trans (first _ _) (fn_ge _ _))) (test _ _)) (test _ _)

theorem memks_column {e : Expr} {p : PE} (h : exprTr .disallow e = some p) (hp : p.isCol = true) : ∀ n, ∃ q, exprTr .disallow (memkExpr n e) = some q ∧
    q.isCol = true ∧ 4 ^ n * (renderE p.unalias).length ≤ (renderE q.unalias).length
  | 0 => ⟨p, h, hp, by simp⟩
  | n + 1 => by
    obtain ⟨q, h1, h2, h3⟩ := memks_column h hp n
    refine ⟨.aliased (memkFn q.unalias) c!"memk", ?_, rfl, ?_⟩
    · rw [memkExpr, exprTr, argsTr, argsTr, h1]; rfl
    · have h4 := memk_text q.unalias
      have h5 : (PE.aliased (memkFn q.unalias) c!"memk").unalias = memkFn q.unalias := rfl
      rw [h5, Nat.pow_succ]
      have := Nat.mul_le_mul_left 4 h3
      have e : 4 ^ n * 4 * (renderE p.unalias).length = 4 * (4 ^ n * (renderE p.unalias).length) := by rw [Nat.mul_comm (4 ^ n) 4, Nat.mul_assoc]
      omega

theorem renderC_ge (p : PE) : (renderE p).length ≤ (renderC p).length + 2 := by
  cases p <;> simp only [renderC, renderE, List.length_append, List.length_cons, List.length_nil] <;> first | omega | (split <;> omega)

/-- **C103** is refuted: nested calls of `memk`, which standalone programs write out, give a program of at least `4 ^ n` characters for a query of
`6 * n + 8`, and the query is accepted. -/
theorem C103_exponential (x : Ext) (n : Nat) : ∃ t, (c!"eval x=" ++ memks n c!"a").length = 6 * n + 8 ∧
    (parse (c!"eval x=" ++ memks n c!"a")).bind (renderPipeline ⟨.disallow, x⟩) = some t ∧ 4 ^ n ≤ t.length := by
  have hw : Written 9 (.const (.field c!"a")) c!"a" := w_name (by decide) (by decide) (by decide) (by decide) (by decide)
  have hp := C69_read_partial (memks_query hw n)
  obtain ⟨p, h1, h2, h3⟩ := memks_column (e := .const (.field c!"a")) (p := .named c!"a") rfl rfl n
  refine ⟨(DF.default.mkWithColumn c!"x" p).render.text, ?_, ?_, ?_⟩
  · rw [List.length_append, memks_length]; simp; omega
  · rw [hp, Option.bind_some, renderPipeline, runCmds, transform]
    simp only [dispatch, evalStandalone, evalLoop, h1, h2, if_true, Option.map_some, runCmds]
    rfl
  · have h4 := renderC_ge p.unalias
    have h5 : (renderE (PE.named c!"a").unalias).length = 10 := rfl
    rw [h5] at h3
    have : 0 < 4 ^ n := Nat.pow_pos (by decide)
    rw [DF.mkWithColumn, DF.render, of_text]
    simp only [List.length_append]
    omega

/-- **C103** No polynomial bounds the length of standalone programs. -/
theorem C103_no_polynomial (x : Ext) : ¬ ∃ c d, ∀ q t, (parse q).bind (renderPipeline ⟨.disallow, x⟩) = some t → t.length ≤ c * (q.length + 1) ^ d := by
  rintro ⟨c, d, h⟩
  obtain ⟨m, hm⟩ := poly_lt c d
  obtain ⟨t, hl, ht, h2⟩ := C103_exponential x (2 ^ m)
  have h1 := h _ _ ht
  have h3 : (c!"eval x=" ++ memks (2 ^ m) c!"a").length + 1 ≤ 2 ^ (m + 5) := by
    rw [hl, Nat.pow_add]
    have : 0 < 2 ^ m := Nat.two_pow_pos m
    omega
  have h4 : c * ((c!"eval x=" ++ memks (2 ^ m) c!"a").length + 1) ^ d ≤ 2 ^ c * 2 ^ ((m + 5) * d) := by
    refine Nat.mul_le_mul (Nat.le_of_lt Nat.lt_two_pow_self) ?_
    rw [Nat.pow_mul]
    exact Nat.pow_le_pow_left h3 d
  rw [← Nat.pow_add] at h4
  have h0 : 2 ^ (2 ^ m) ≤ 4 ^ (2 ^ m) := Nat.pow_le_pow_left (by decide) _
  have h5 : 2 ^ (2 ^ m) ≤ 2 ^ (c + (m + 5) * d) := Nat.le_trans h0 (Nat.le_trans h2 (Nat.le_trans h1 h4))
  have h6 := (Nat.pow_le_pow_iff_right (by decide : 1 < 2)).1 h5
  omega

/-- **C103** A translated column is at most a hundred times as long as its expression when functions may be called from the library, and otherwise
if the expression does not call `memk`. -/
theorem C103_column_partial {m : Mode} {e : Expr} (hm : m ≠ .disallow ∨ noCall c!"memk" e = true) {p : PE} (h : exprTr m e = some p) :
    (renderE p).length ≤ 100 * exprLen e := by
  have h1 := exprTr_size e p hm h
  have h2 := renderE_size p
  omega

/-- **C103** A program is bounded by the square of the query's length, for every query in documented form: with the library whatever the query calls,
standalone if no expression calls `memk`.  Of the parser of regular expressions only `GroupsFit` is assumed: it finds no more groups than the expression
has characters, with names and numbers no longer. -/
theorem C103_quadratic_partial {m : Mode} {x : Ext} (hx : Arranges x) (hg : GroupsFit x) {cs : List Command} {q t : Str} (hq : QueryText cs q)
    (hc : m ≠ .disallow ∨ withoutCalls c!"memk" cs = true) (h : (parse q).bind (renderPipeline ⟨m, x⟩) = some t) :
    t.length ≤ 6000 * (q.length * q.length) + 19 := by
  rw [C69_read_partial hq, Option.bind_some, renderPipeline, Option.map_eq_some_iff] at h
  obtain ⟨s, hs, rfl⟩ := h
  have h0 := query_count hq
  have h1 := (run_text hx hg (E := 2 * (q.length + 1) + 400) (K := q.length + 1)
    (fun n hn => by have := showNat_le n; omega) _ ⟨1, none⟩ _ hc (by simp only; omega) hs).2
  have h2 := query_len hq
  have h3 : Size.St.len ⟨1, none⟩ = 19 := rfl
  have h5 : (2 * (q.length + 1) + 400) * cmdsN cs ≤ 1000 * (q.length * q.length) := by
    rcases Nat.eq_zero_or_pos q.length with hz | hp
    · have : cmdsN cs = 0 := by omega
      rw [this]; simp
    · refine Nat.le_trans (Nat.mul_le_mul_left _ h0) ?_
      rw [← Nat.mul_assoc]
      exact Nat.mul_le_mul_right _ (by omega)
  unfold sq at h2
  split
  · rename_i d hd
    have h4 : Size.St.len s = d.render.text.length := by simp [Size.St.len, St.cur, hd]
    omega
  · simp

/-- Two nested calls: a query of 20 characters and its program of more than 700; with the library the program is short. -/
example : (c!"eval x=" ++ memks 2 c!"a") = c!"eval x=memk(memk(a))" ∧
    ((outOf .disallow c!"eval x=memk(memk(a))").any fun t => decide (700 < t.length)) = true ∧
    outOf .allow c!"eval x=memk(memk(a))" = some c!"df_1 = commands.eval(None, x=functions.eval.memk(functions.eval.memk(F.col('a'))))\ndf_1" := by
  decide +kernel

/-- A query that meets the conditions of `C103_quadratic_partial`; standalone and, as there, with the library. -/
example : (∃ cs, QueryText cs c!"index=main status >= 500 | eval x=a + 2 | STATS allnum=t count, sum(x) AS total by host, _time span=5m | sort 5 -total" ∧
    withoutCalls c!"memk" cs = true ∧ (renderPipeline ⟨.disallow, ⟨fun _ => none, id⟩⟩ cs).isSome = true ∧
    ((renderPipeline ⟨.allow, ⟨fun _ => none, id⟩⟩ cs).any fun t => decide (300 < t.length)) = true) :=
  ⟨_, .direct (g₁ := []) (s := c!"index=main status >= 500 | eval x=a + 2 | STATS allnum=t count, sum(x) AS total by host, _time span=5m | sort 5 -total")
    (g₂ := []) blanks0
    (.cons (s := c!"index=main status >= 500") (g₁ := c!" ") (g₂ := c!" ")
      (t := c!"eval x=a + 2 | STATS allnum=t count, sum(x) AS total by host, _time span=5m | sort 5 -total") example_search blanks1 (by decide) blanks1
      (.cons (s := c!"eval x=a + 2") (g₁ := c!" ") (g₂ := c!" ") (t := c!"STATS allnum=t count, sum(x) AS total by host, _time span=5m | sort 5 -total")
        example_eval blanks1 (by decide) blanks1
        (.cons (s := c!"STATS allnum=t count, sum(x) AS total by host, _time span=5m") (g₁ := c!" ") (g₂ := c!" ") (t := c!"sort 5 -total")
          example_stats blanks1 (by decide) blanks1 (.one example_sort)))) blanks0, rfl, by decide +kernel, by decide +kernel⟩

theorem example_joined : CmdText false (.join ⟨c!"left", false, true, true, 1⟩ [c!"host"]
      [.search (.binary (.binary (.const (.field c!"index")) c!"=" (.const (.field c!"main"))) c!"AND" (.binary (.const (.field c!"status")) c!">=" (.const (.int 500)))),
        .eval [(c!"x", .binary (.const (.field c!"a")) c!"+" (.const (.int 2)))]])
    c!"join type=left host [index=main status >= 500 | eval x=a + 2]" :=
  .join (k := c!"join") (g := c!" ") (os := [(c!"type", .field c!"left")]) (t := c!"host") (g₂ := c!" ") (u := c!"[index=main status >= 500 | eval x=a + 2]")
    (by decide) gap1 (.one (column_lit f_host)) blanks1
    (.plain (g₁ := []) (s := c!"index=main status >= 500 | eval x=a + 2") (g₂ := []) blanks0
      (.cons (s := c!"index=main status >= 500") (g₁ := c!" ") (g₂ := c!" ") (t := c!"eval x=a + 2") example_search blanks1 (by decide) blanks1 (.one example_eval))
      blanks0 (by decide))
    (.both (s := c!"type=left") (g := c!" ") (.one (g₁ := []) (g₂ := []) f_type.name blanks0 blanks0 (.field (.one f_left))) gap1 (by decide))
    ⟨⟨some c!"left", ⟨c!"left", .inl rfl, rfl⟩, rfl⟩, rfl, rfl, rfl, ⟨none, rfl, rfl⟩⟩

/-- the same for a search in brackets, and a parser of regular expressions with `GroupsFit` that finds a group -/
example : (∃ cs, QueryText cs c!"join type=left host [index=main status >= 500 | eval x=a + 2]" ∧ withoutCalls c!"memk" cs = true ∧
      (renderPipeline ⟨.disallow, ⟨fun _ => none, id⟩⟩ cs).isSome = true) ∧
    Arranges ⟨fun r => if r = c!"(?P<user>a+)" then some (.group (.name c!"user" 1) (.repetition .leaf)) else none, id⟩ ∧
    GroupsFit ⟨fun r => if r = c!"(?P<user>a+)" then some (.group (.name c!"user" 1) (.repetition .leaf)) else none, id⟩ := by
  refine ⟨⟨_, .direct (g₁ := []) (s := c!"join type=left host [index=main status >= 500 | eval x=a + 2]") (g₂ := []) blanks0 (.one example_joined) blanks0, rfl,
    by decide +kernel⟩, fun l => List.Perm.refl l, fun r a h => ?_⟩
  dsimp only at h
  split at h
  · rename_i hr
    cases h
    subst hr
    decide
  · cases h

/-- Columns that meet the conditions of `C103_column_partial`, and one that does not. -/
example : exprLen (.call c!"memk" [.const (.field c!"a")]) = 7 ∧ (exprTr .allow (.call c!"memk" [.const (.field c!"a")])).isSome = true ∧
    noCall c!"memk" (.call c!"rmunit" [.const (.field c!"a")]) = true ∧ (exprTr .disallow (.call c!"rmunit" [.const (.field c!"a")])).isSome = true ∧
    ((exprTr .disallow (memkExpr 2 (.const (.field c!"a")))).any fun p => decide (100 * exprLen (memkExpr 2 (.const (.field c!"a"))) < (renderE p).length)) = true := by
  decide +kernel

end Verif.Props
