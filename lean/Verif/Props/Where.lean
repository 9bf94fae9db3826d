import Verif.Props.Precedence
import Verif.Lemmas.Conditions
/-
C08 in `where`: NOT, then AND, then OR, grouped to the left.
-/
namespace Verif
open P Lex Spl Spec Lemmas

theorem where_run {s : Str} {e : Expr} (h : CondOr e s) : where_.run fix (c!"where " ++ s) = some ([], .where_ e) := by
  have hs := condOr_stops h
  have hname : (name (tagi! "where")).run fix (c!"where " ++ s) = some (s.dropWhile isSpace, ()) := rfl
  have := condOr_good h [] (orStop_end (g := []) (u := []) (.inl rfl) (.inl rfl))
  rw [List.append_nil] at this
  rw [where_, run_pre, hname, drop_stops hs.2, Option.bind_some, run_map, this]
  rfl

theorem command_where {i r : Str} {c : Command} (h : where_.run fix (c!"where " ++ i) = some (r, c)) :
    command.run fix (c!"where " ++ i) = some (r, c) := by
  have hA : commandA.run fix (c!"where " ++ i) = none := rfl
  have hB : commandB.run fix (c!"where " ++ i) = where_.run fix (c!"where " ++ i) := rfl
  rw [command, run_alt, hA, run_alt, hB, h]; rfl

/-- In `where` the documented order of the logical operators holds: NOT, then AND, then OR, each grouped to the
left, for comparisons of fields with constants and calls, membership tests, calls, conditions side by side and
parentheses. -/
theorem C08_where_partial {s : Str} {e : Expr} (h : CondOr e s) : parse (c!"where " ++ s) = some [.where_ e] :=
  parse_one rfl (command_where (where_run h))

theorem condName (w : Str) (h1 : IsName w) (h2 : w ≠ c!"t" ∧ w ≠ c!"f" ∧ lower (w.take 3) ≠ c!"not" ∧ lower w ∉ timeWords) : CondName w :=
  ⟨.one ⟨h1, h2.1, h2.2.1⟩, h2.2.2.1, h2.2.2.2⟩

theorem rightInt (n : Int) (h : -1000 < n ∧ n < 1000) : CondRight (.const (.int n)) (showInt n) :=
  .lit (.int (by unfold isI64; omega))

/-- `a=1 AND b>2 OR NOT c=-3` -/
example : CondOr (.binary (.binary (.binary (.const (.field c!"a")) c!"=" (.const (.int 1))) c!"AND"
      (.binary (.const (.field c!"b")) c!">" (.const (.int 2)))) c!"OR"
      (.unary c!"NOT" (.binary (.const (.field c!"c")) c!"=" (.const (.int (-3)))))) c!"a=1 AND b>2 OR NOT c=-3" := by
  have ca : CondTerm _ _ := .cmp (f := c!"a") (op := c!"=") (g₁ := []) (g₂ := []) (condName _ (by decide) (by decide)) .eq
    (.inl rfl) (.inl rfl) (rightInt 1 (by decide))
  have cb : CondTerm _ _ := .cmp (f := c!"b") (op := c!">") (g₁ := []) (g₂ := []) (condName _ (by decide) (by decide)) .gt
    (.inl rfl) (.inl rfl) (rightInt 2 (by decide))
  have cc : CondTerm _ _ := .cmp (f := c!"c") (op := c!"=") (g₁ := []) (g₂ := []) (condName _ (by decide) (by decide)) .eq
    (.inl rfl) (.inl rfl) (rightInt (-3) (by decide))
  exact .mk (es := [_]) (.more (op := c!"OR") (es := [_]) (.cons (op := c!"AND") ca (by decide) gap1 gap1 (.one cb)) (by decide) gap1 gap1
    (.single (.one (.not (n := c!"NOT") (by decide) gap1 cc))))

/-- `src.ip!="10*" host IN (web,db) NOT( isnull(d) )` -/
example : CondOr (.binary (.binary (.binary (.const (.field c!"src.ip")) c!"!=" (.const (.wildcard c!"10*"))) c!"AND"
      (.fieldIn c!"host" [.const (.field c!"web"), .const (.field c!"db")])) c!"AND" (.unary c!"NOT" (.call c!"isnull" [.const (.field c!"d")])))
      c!"src.ip!=\"10*\" host IN (web,db) NOT( isnull(d) )" := by
  have fd : ∀ w, IsName w → (w ≠ c!"t" ∧ w ≠ c!"f") → IsField w := fun w h1 h2 => ⟨h1, h2.1, h2.2⟩
  have q10 : Quotable c!"10*" := by
    refine ⟨.plain (by decide) (by decide) (.plain (by decide) (by decide) (.plain (by decide) (by decide) .nil)), by decide, ?_⟩
    intro c t e
    rw [← (List.cons.inj e).1]; decide
  have ca : CondTerm _ _ := .cmp (f := c!"src.ip") (op := c!"!=") (g₁ := []) (g₂ := [])
    ⟨.dot (w := c!"src") (p := c!"ip") (fd _ (by decide) (by decide)) (.one (fd _ (by decide) (by decide))), by decide, by decide⟩ .ne
    (.inl rfl) (.inl rfl) (.lit (.wild (s := c!"10*") q10 (by decide)))
  have cb : CondTerm _ _ := .isIn (f := c!"host") (k := c!"IN") (g₂ := c!" ") (g₃ := []) (g₄ := []) (condName _ (by decide) (by decide)) gap1
    (by decide) blanks1 blanks0 blanks0
    (.cons (.field (w := c!"web") (.one (fd _ (by decide) (by decide)))) (.comma (g₁ := []) (g₂ := []) blanks0 blanks0) (.one (.field (w := c!"db") (.one (fd _ (by decide) (by decide))))))
  have cd : CondTerm _ _ := .call (f := c!"isnull") (g₁ := []) (g₂ := []) (by decide) (by decide) blanks0 blanks0
    (.one (w_name (w := c!"d") (by decide) (by decide) (by decide) (by decide) (by decide)))
  exact .mk (es := []) (.single (es := [_, _]) (.next ca gap1 (by decide) (.next cb gap1 (by decide)
    (.one (.notParen (n := c!"NOT") (g₁ := c!" ") (g₂ := c!" ") (by decide) blanks1 blanks1 (.mk (es := []) (.single (es := []) (.one cd))))))))

/-- The same condition is grouped differently by `search` and by `where`. -/
theorem C08_search_where_disagree :
    parse c!"search a = 1 OR b = 2 AND c = 3" = some [.search (.binary
      (.binary (.binary (.const (.field c!"a")) c!"=" (.const (.int 1))) c!"OR" (.binary (.const (.field c!"b")) c!"=" (.const (.int 2))))
      c!"AND" (.binary (.const (.field c!"c")) c!"=" (.const (.int 3))))] ∧
    parse c!"where a = 1 OR b = 2 AND c = 3" = some [.where_ (.binary
      (.binary (.const (.field c!"a")) c!"=" (.const (.int 1))) c!"OR"
      (.binary (.binary (.const (.field c!"b")) c!"=" (.const (.int 2))) c!"AND" (.binary (.const (.field c!"c")) c!"=" (.const (.int 3)))))] :=
  ⟨isParse_sound (by decide +kernel), isParse_sound (by decide +kernel)⟩

/-! ### Keywords inside longer words -/

/-- A name that begins with the letters of a keyword is read whole as an operand between AND or OR in `search`. -/
theorem C53_operand_partial {a b : Str} (ha : IsField a) (hb : IsField b) :
    parse (c!"search " ++ (a ++ c!" AND " ++ b)) = some [.search (.binary (.const (.field a)) c!"AND" (.const (.field b)))] ∧
    parse (c!"search " ++ (a ++ c!" OR " ++ b)) = some [.search (.binary (.const (.field a)) c!"OR" (.const (.field b)))] := by
  constructor
  · apply C08_search_partial
    have h2 : Written 9 _ _ := .bin (k := 8) (g₁ := c!" ") (g₂ := c!" ") (.and (op := c!"AND") (by decide)) gap1 gap1
      (w_name ha.name ha.notT ha.notF (by decide) (by decide)) (w_name hb.name hb.notT hb.notF (by decide) (by decide))
    simpa using h2
  · apply C08_search_partial
    have h2 : Written 8 _ _ := .bin (k := 7) (g₁ := c!" ") (g₂ := c!" ") (.or (op := c!"OR") (by decide)) gap1 gap1
      (w_name ha.name ha.notT ha.notF (by decide) (by decide)) (w_name hb.name hb.notT hb.notF (by decide) (by decide))
    have h3 := written_up h2 (n := 9) (by decide) (by decide)
    simpa using h3

example : IsField c!"notes" ∧ IsField c!"android" ∧ IsField c!"orders" := by
  refine ⟨⟨?_, ?_, ?_⟩, ⟨?_, ?_, ?_⟩, ⟨?_, ?_, ?_⟩⟩ <;> decide

/-- Keywords are also recognised at the beginning of longer words: NOT in `where`, AND and OR between conditions. -/
theorem C53_keyword_splits_word :
    parse c!"where notes=5" = some [.where_ (.unary c!"NOT" (.binary (.const (.field c!"es")) c!"=" (.const (.int 5))))] ∧
    parse c!"where a=1 android=2" = some [.where_ (.binary (.binary (.const (.field c!"a")) c!"=" (.const (.int 1))) c!"AND"
      (.binary (.const (.field c!"roid")) c!"=" (.const (.int 2))))] ∧
    parse c!"search a orders=1" = some [.search (.binary (.const (.field c!"a")) c!"or"
      (.binary (.const (.field c!"ders")) c!"=" (.const (.int 1))))] :=
  ⟨isParse_sound (by decide +kernel), isParse_sound (by decide +kernel), isParse_sound (by decide +kernel)⟩

theorem where_lexpr {s : Str} {e : Expr} (hs : Stops isSpace s) (h : lexpr.run fix s = some ([], e)) :
    parse (c!"where " ++ s) = some [.where_ e] := by
  have hname : (name (tagi! "where")).run fix (c!"where " ++ s) = some (s.dropWhile isSpace, ()) := rfl
  refine parse_one rfl (command_where ?_)
  rw [where_, run_pre, hname, drop_stops hs, Option.bind_some, run_map, h]
  rfl

theorem chain_lexpr {e : Expr} {es : List Expr} {s : Str} (h : Chain andSep (lterm.run fix) (e :: es) s []) :
    lexpr.run fix s = some ([], joinLeft c!"AND" e es) := by
  have hg : lgroup.run fix s = some ([], joinLeft c!"AND" e es) := by
    have := chain_list h
    rw [lgroup, run_map]
    rw [show (ws (tagi! "AND") <||> ms1 : G true Str) = andSep from rfl, this, ← foldl_joinLeft]; rfl
  have := chain_list (chain_one (s := orSep) hg (orStop_end (g := []) (u := []) (.inl rfl) (.inl rfl)).2)
  rw [lexpr, run_map]
  rw [show (ws (tagi! "OR") : G true Str) = orSep from rfl, this]; rfl

theorem orStop_nil : OrStop [] := orStop_end (g := []) (u := []) (.inl rfl) (.inl rfl)

/-- Disagreement, for all conditions: letters that spell NOT at the beginning of a condition of `where` are taken for
the operator, whatever follows them.  A comparison of a field whose name begins with these letters becomes the negated
comparison of the field named by the rest. -/
theorem C53_not_splits {n s : Str} {e : Expr} (hn : lower n = c!"not") (h : CondTerm e s) :
    parse (c!"where " ++ (n ++ s)) = some [.where_ (.unary c!"NOT" e)] := by
  have hns := word_stops hn fun b hb => space_all (f := fun b => lowerC b ≠ 'n') (by decide) hb
  refine where_lexpr (cond_stops_append hns _).2 (chain_lexpr (es := []) (chain_one ?_ orStop_nil.1.2))
  have := lterm_not hn (g := []) (.inl rfl) h (condTerm_good h) [] orStop_nil.1.1
  simpa using this

/-- Disagreement, for all conditions: the same for AND between two conditions that stand side by side. -/
theorem C53_and_splits {op g s t : Str} {e e' : Expr} (ho : lower op = c!"and") (hg : Gap g) (h : CondTerm e s) (h' : CondTerm e' t) :
    parse (c!"where " ++ (s ++ g ++ (op ++ t))) = some [.where_ (.binary e c!"AND" e')] := by
  have hc : Chain andSep (lterm.run fix) [e, e'] (s ++ (g ++ (op ++ t))) [] := by
    have ht := condTerm_stops h'
    have h2 : Chain andSep (lterm.run fix) [e'] t [] := by
      have := condTerm_good h' [] orStop_nil.1.1
      rw [List.append_nil] at this
      exact chain_one this orStop_nil.1.2
    exact chain_cons (condTerm_good h _ (termEnd_gap hg)) (and_read (g₂ := []) ho hg (.inl rfl) ht.2)
      (by have := gap_length hg; simp; omega) (fun b w h => suf_length h) h2
  have hs := condTerm_stops h
  rw [List.append_assoc]
  exact where_lexpr (cond_stops_append hs _).2 (chain_lexpr hc)

/-- conditions on fields named `notes` and `android` in these two forms -/
example : CondTerm (.binary (.const (.field c!"es")) c!"=" (.const (.int 5))) c!"es=5" ∧
    CondTerm (.binary (.const (.field c!"roid")) c!"=" (.const (.int 2))) c!"roid=2" ∧ IsField (c!"not" ++ c!"es") ∧
    IsField (c!"and" ++ c!"roid") :=
  ⟨.cmp (f := c!"es") (op := c!"=") (g₁ := []) (g₂ := []) (condName _ (by decide) (by decide)) .eq (.inl rfl) (.inl rfl) (rightInt 5 (by decide)),
   .cmp (f := c!"roid") (op := c!"=") (g₁ := []) (g₂ := []) (condName _ (by decide) (by decide)) .eq (.inl rfl) (.inl rfl) (rightInt 2 (by decide)),
   ⟨by decide, by decide, by decide⟩, ⟨by decide, by decide, by decide⟩⟩

end Verif
