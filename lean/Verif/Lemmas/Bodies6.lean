import Verif.Lemmas.Bodies5
/-
Reading what follows the name of a command: head, sort, lookup.
-/
namespace Verif
open P Lex Spl Spec Lemmas

theorem letter_notDig {c : Char} (h : isLetter c = true) : isDig c = false := by
  cases hd : isDig c with
  | false => rfl
  | true =>
    exfalso
    simp only [isDig, Bool.and_eq_true, decide_eq_true_eq] at hd
    simp only [isLetter, Bool.or_eq_true, Bool.and_eq_true, decide_eq_true_eq] at h
    rcases h with ⟨h1, -⟩ | ⟨h1, -⟩ <;> exact absurd (Char.le_trans h1 hd.2) (by decide)

/-- An expression ends before a keyword. -/
theorem starts_kw {k kw x : Str} (hk : lower k = kw) (h : 3 ≤ kw.length ∧ (∀ c ∈ kw, isLetter c = true) ∧ kw.take 2 ≠ c!"or" ∧ kw.take 3 ≠ c!"and" ∧ kw.take 2 ≠ c!"in") : Starts (k ++ x) := by
  obtain ⟨h1, h2, h3, h4, h5⟩ := h
  have hl : 3 ≤ k.length := by rw [← hk] at h1; simpa [lower] using h1
  have ht : ∀ n, n ≤ 3 → lower ((k ++ x).take n) = kw.take n := fun n hn => by
    rw [List.take_append_of_le_length (by omega), ← hk]; unfold lower; rw [List.map_take]
  refine ⟨?_, by rw [ht 2 (by omega)]; exact h3, by rw [ht 3 (by omega)]; exact h4, fun e => absurd e (by rw [ht 2 (by omega)]; exact h5)⟩
  cases k with
  | nil => simp at hl
  | cons c t =>
    refine Stops.cons ?_
    have hc : isLetter c = true := lower_all hk (fun _ hy => lowerC_letter (h2 _ hy)) c (by simp)
    have key : ∀ c ∈ c!" \t\r\n*/+-.=:!<>", isLetter c = false := by decide
    cases ho : isOpStart c with
    | false => rfl
    | true =>
      exfalso
      simp only [isOpStart, Bool.or_eq_true, decide_eq_true_eq] at ho
      have hm : c ∈ c!" \t\r\n*/+-.=:!<>" := by
        rcases ho with ho | ho
        · have := (isSpace_iff c).1 ho
          simp only [List.mem_cons, List.not_mem_nil, or_false] at this ⊢
          rcases this with h | h | h | h <;> simp [h]
        · simp only [List.mem_cons, List.not_mem_nil, or_false] at ho ⊢
          rcases ho with h | h | h | h | h | h | h | h | h | h <;> simp [h]
      rw [key c hm] at hc
      exact absurd hc (by decide)

/-- What ends an item: the end of the command, or blanks. -/
def Ends (u : Str) : Prop := ∀ f : Char → Bool, (∀ c ∈ c!"|] \t\r\n", f c = false) → Stops f u

theorem End.ends {u : Str} (h : End u) : Ends u := fun _ hf => h.head hf

theorem gap_ends {g u : Str} (h : Gap g) : Ends (g ++ u) := fun f hf => gap_stops ⟨hf _ (by decide), hf _ (by decide), hf _ (by decide), hf _ (by decide)⟩ h

/-! ### head -/

theorem intText_noEq {n : Int} {s : Str} (h : IntText n s) : '=' ∉ s := by
  obtain ⟨-⟩ := h
  intro hm
  exact absurd ((number_lead n).token _ hm) (by decide)

/-- how `head` counts -/
def headP : G true Expr := P.map (fun n => .const (.int n)) (lift int <||> pre (ws (tagi! "limit=")) (lift int)) <||> expr

theorem limit_read {R : Type} [Env R] {ρ : R} {k g u : Str} (hk : lower k = c!"limit") (hg : Blanks g) (hu : Stops isSpace u) :
    Stops isSpace (k ++ '=' :: (g ++ u)) ∧ (ws (tagi! "limit=") : P R true true Str).run ρ (k ++ '=' :: (g ++ u)) = some (u, k ++ c!"=") := by
  have hst : Stops isSpace (k ++ '=' :: (g ++ u)) := by
    have := word_stops hk (fun b hb => space_all (f := fun b => lowerC b ≠ 'l') (by decide) hb)
    exact stops_append this.2 this.1
  refine ⟨hst, ?_⟩
  have e : k ++ '=' :: (g ++ u) = (k ++ c!"=") ++ (g ++ u) := by simp
  rw [run_ws, drop_stops hst, e, tagi_read (by unfold lower at hk ⊢; rw [List.map_append, hk]; decide), Option.map_some, drop_blanks hg hu]

theorem headCount_read {e : Expr} {t u : Str} (h : HeadCount e t) (hf : Follow 9 u) (hu : Ends u) : t ≠ [] ∧ Stops isSpace (t ++ u) ∧ headP.run fix (t ++ u) = some (u, e) := by
  cases h with
  | int h =>
    refine ⟨(intText_stops (u := u) h).1, (intText_stops h).2, ?_⟩
    rw [headP, run_alt, run_map, run_alt, run_lift, intText_read h (hu _ (by decide))]; rfl
  | @limit n k g s hk hg h =>
    have hi := (intText_stops (u := u) h).2
    have hl := fun ρ : Rec => limit_read (ρ := ρ) hk hg hi
    simp only [List.append_assoc, List.cons_append]
    refine ⟨by simp, (hl fix).1, ?_⟩
    have h0 : int.run () (k ++ '=' :: (g ++ (s ++ u))) = none := by
      refine int_none (letter_ne hk rfl (by decide) _) (letter_ne hk rfl (by decide) _) ?_
      obtain ⟨c, t, rfl, hc, -⟩ := lower_cons hk
      exact Stops.cons (letter_notDig (lowerC_letter (by rw [hc]; decide)))
    rw [headP, run_alt, run_map, run_alt, run_lift, h0, Option.none_or, run_pre, (hl fix).2, Option.bind_some, run_lift, intText_read h (hu _ (by decide))]; rfl
  | cond h hn =>
    have hs := written_stops h
    refine ⟨hs.1, stops_append hs.2 hs.1, ?_⟩
    rw [headP, run_alt, run_map, run_alt, run_lift, noCount_int hn hs.1 (hu _ (by decide)), Option.none_or, run_pre, ws_end (tagi_take (t := 'l') (ts := c!"imit=") ?_), Option.bind_none,
      Option.map_none, Option.none_or, expr_read h hf]
    rw [drop_stops (stops_append hs.2 hs.1)]
    exact noCount_limit hn (hu _ (by decide))

theorem boolText_read {b : Bool} {w u : Str} (h : BoolText b w) (hu : AfterWord u) : Stops isSpace (w ++ u) ∧ bool_.run () (w ++ u) = some (u, b) := by
  have hu' : u = [] ∨ ∃ c s, u = c :: s ∧ (isSpace c = true ∨ c = '(' ∨ c = ')' ∨ c = '.' ∨ c = ':') := by
    rcases hu with h | ⟨c, s, e, h⟩
    · exact .inl h
    · exact .inr ⟨c, s, e, .inl ((isSpace_iff c).2 h)⟩
  have hst : ∀ {kw : Str} {x : Char} {xs : Str}, lower w = kw → kw = x :: xs → (∀ b, isSpace b = true → lowerC b ≠ x) → Stops isSpace (w ++ u) := by
    intro kw x xs h1 h2 h3
    subst h2
    have := word_stops h1 h3
    exact stops_append this.2 this.1
  cases h with
  | yes h =>
    refine ⟨?_, run_bool (by simpa using h) hu'⟩
    simp only [trueWords, List.mem_cons, List.not_mem_nil, or_false] at h
    rcases h with h | h <;> exact hst h rfl (fun b hb => space_all (f := fun b => lowerC b ≠ 't') (by decide) hb)
  | no h =>
    refine ⟨?_, run_bool (by simpa using h) hu'⟩
    simp only [falseWords, List.mem_cons, List.not_mem_nil, or_false] at h
    rcases h with h | h <;> exact hst h rfl (fun b hb => space_all (f := fun b => lowerC b ≠ 'f') (by decide) hb)

theorem setting_bool {key s u : Str} {b : Bool} {t : Char} {ts : Str} (h : Setting key BoolText b s) (hkey : key ++ c!"=" = lower (t :: ts)) (hu : AfterWord u)
    (hs : ∀ b, isSpace b = true → lowerC b ≠ lowerC t) :
    Stops isSpace (s ++ u) ∧ (ws (opt (pre (ws (tagNoCaseL t ts)) (lift bool_))) : G false (Option Bool)).run fix (s ++ u) = some (u.dropWhile isSpace, some b) := by
  obtain ⟨hk, hf⟩ := h
  rename_i k w
  have hk2 : lower (k ++ c!"=") = lower (t :: ts) := by
    rw [← hkey, ← hk]; unfold lower; rw [List.map_append]; rfl
  have hst : Stops isSpace ((k ++ c!"=") ++ (w ++ u)) := by
    have := word_stops (x := lowerC t) hk2 hs
    exact stops_append this.2 this.1
  have e : k ++ '=' :: w ++ u = (k ++ c!"=") ++ (w ++ u) := by simp
  rw [e]
  refine ⟨hst, ?_⟩
  have hb := boolText_read hf hu
  rw [run_ws, drop_stops hst, opt_some (y := (u, b)) (by rw [run_pre, run_ws, drop_stops hst, tagi_read hk2, Option.map_some, Option.bind_some, drop_stops hb.1, run_lift, hb.2])]; rfl

theorem setting_end {α : Type} {rest : Str} {t : Char} {ts : Str} {q : L true α} (he : End rest) (ht : lowerC t ≠ '|' ∧ lowerC t ≠ ']') :
    (ws (opt (pre (ws (tagNoCaseL t ts)) (lift q))) : G false (Option α)).run fix rest = some (rest.dropWhile isSpace, none) := by
  rw [run_ws, opt_none (by rw [run_pre, ws_end (tagi_take (by exact he.drop.take ht))]; rfl), Option.map_some, dropWhile_idem]

theorem keeplast_null {k u : Str} {α : Type} {q : L true α} (hk : lower k = c!"null") :
    (ws (opt (pre (ws (tagi! "keeplast=")) (lift q))) : G false (Option α)).run fix (k ++ u) = some (k ++ u, none) := by
  have hst : Stops isSpace (k ++ u) := by
    have := word_stops hk (fun b hb => space_all (f := fun b => lowerC b ≠ 'n') (by decide) hb)
    exact stops_append this.2 this.1
  rw [run_ws, drop_stops hst, opt_none, Option.map_some, drop_stops hst]
  rw [run_pre, run_ws, drop_stops hst]
  obtain ⟨c, t, rfl, hc, -⟩ := lower_cons hk
  rw [List.cons_append, tagi_ne (by rw [hc]; decide)]; rfl

theorem setting_starts {α : Type} {key s u : Str} {p : α → Str → Prop} {a : α} (h : Setting key p a s)
    (hk : 3 ≤ key.length ∧ (∀ c ∈ key, isLetter c = true) ∧ key.take 2 ≠ c!"or" ∧ key.take 3 ≠ c!"and" ∧ key.take 2 ≠ c!"in") : Starts (s ++ u) := by
  obtain ⟨h, -⟩ := h
  rw [List.append_assoc]; exact starts_kw h hk

theorem head_good {k : Str} (hk : lower k = c!"head") {e : Expr} {x y : Option Bool} {t u s : Str} (h : HeadCount e t) (hx : ThenMaybe (Setting c!"keeplast" BoolText) x t u)
    (hy : ThenMaybe (Setting c!"null" BoolText) y u s) : Staged k (x.isSome || y.isSome) (.head e (x.getD false) (y.getD false)) s := by
  have hspK : ∀ b, isSpace b = true → lowerC b ≠ lowerC 'k' := fun b hb => space_all (f := fun b => lowerC b ≠ 'k') (by decide) hb
  have hspN : ∀ b, isSpace b = true → lowerC b ≠ lowerC 'n' := fun b hb => space_all (f := fun b => lowerC b ≠ 'n') (by decide) hb
  have h0 := headCount_read h (.nil) (end_nil.ends)
  have hst : Stops isSpace t := by have := h0.2.1; rwa [List.append_nil] at this
  have hsts : Stops isSpace s := by
    cases hx <;> cases hy <;> first | exact hst | exact stops_append hst h0.1 | (rw [List.append_assoc]; exact stops_append hst h0.1)
  refine stage 11 rfl (by decide) (by decide) (fun x => run_pre _ _ _ _) hk ⟨hsts, fun rest he ha => ?_⟩
  refine ⟨rest.dropWhile isSpace, ?_, dropWhile_idem _⟩
  have key : ∀ v, Follow 9 v → Ends v → ∀ a b, (seq (ws (opt (pre (ws (tagi! "keeplast=")) (lift bool_)))) (ws (opt (pre (ws (tagi! "null=")) (lift bool_)))) : G false _).run fix (v.dropWhile isSpace) =
      some (rest.dropWhile isSpace, a, b) →
      (P.map (fun x => Command.head x.1 (x.2.1.getD false) (x.2.2.getD false))
      (seq (ws (P.map (fun n => .const (.int n))
              (lift int <||> pre (ws (tagi! "limit=")) (lift int)) <||> expr))
        (seq (ws (opt (pre (ws (tagi! "keeplast=")) (lift bool_))))
             (ws (opt (pre (ws (tagi! "null=")) (lift bool_))))))  : G true Command).run fix (t ++ v) = some (rest.dropWhile isSpace, .head e (a.getD false) (b.getD false)) := by
    intro v h1 h2 a b h3
    have h4 := headCount_read h h1 h2
    rw [headP] at h4
    rw [run_map, run_seq, run_ws, drop_stops h4.2.1, h4.2.2, Option.map_some, Option.bind_some, h3]; rfl
  cases hx with
  | none =>
    cases hy with
    | none =>
      refine key rest (he.follow 9) he.ends none none ?_
      rw [run_seq, setting_end he.drop (by decide), Option.bind_some, setting_end he.drop.drop (by decide), dropWhile_idem, dropWhile_idem]; rfl
    | @some b w g t hg hy =>
      have := setting_bool (t := 'n') (ts := c!"ull=") hy rfl (ha rfl) hspN
      rw [List.append_assoc, List.append_assoc]
      refine key _ (.gap hg (setting_starts hy (by decide))) (gap_ends hg) none _ ?_
      rw [drop_gap hg this.1, run_seq]
      have h2 : ∀ u, (ws (opt (pre (ws (tagi! "keeplast=")) (lift bool_))) : G false (Option Bool)).run fix (w ++ u) = some (w ++ u, none) := fun u => by
        obtain ⟨hy, -⟩ := hy
        rw [List.append_assoc]; exact keeplast_null hy
      rw [h2, Option.bind_some, this.2]; rfl
  | some hg hx =>
    cases hy with
    | none =>
      have := setting_bool (t := 'k') (ts := c!"eeplast=") hx rfl (ha rfl) hspK
      rw [List.append_assoc, List.append_assoc]
      refine key _ (.gap hg (setting_starts hx (by decide))) (gap_ends hg) _ none ?_
      rw [drop_gap hg this.1, run_seq, this.2, Option.bind_some, setting_end he.drop (by decide), dropWhile_idem]; rfl
    | @some _ w₂ _ _ hg2 hy =>
      have h2 := setting_bool (t := 'n') (ts := c!"ull=") hy rfl (ha rfl) hspN
      have h1 := setting_bool (t := 'k') (ts := c!"eeplast=") hx rfl (afterWord_gap (x := w₂ ++ rest) hg2) hspK
      simp only [List.append_assoc]
      refine key _ (.gap hg (setting_starts hx (by decide))) (gap_ends hg) _ _ ?_
      rw [drop_gap hg h1.1, run_seq, h1.2, Option.bind_some, drop_gap hg2 h2.1, h2.2]; rfl

/-! ### sort -/

theorem sortKey_read {a : Option Str × Expr} {s u : Str} (h : SortKey a s) (hu : Follow 9 u) : (seq (opt (tag! "+" <||> tag! "-")) expr : G true (Option Str × Expr)).run fix (s ++ u) = some (u, a) := by
  cases h with
  | @plain e s h hn =>
    have hne : ∀ c t, s ++ u = c :: t → c ≠ '-' := by
      obtain ⟨c, t, rfl⟩ := List.exists_cons_of_ne_nil (written_stops h).1
      intro c' t' e
      simp only [List.cons_append, List.cons.injEq] at e
      rw [← e.1]; exact hn c t rfl
    rw [run_seq, opt_none, Option.bind_some, expr_read h hu]
    · rfl
    · rw [run_alt, tag_none (written_ne h (by decide)), tag_none hne]; rfl
  | up h => rw [run_seq, run_opt, run_alt, List.cons_append, tag_same, Option.some_or, Option.elim_some, Option.bind_some, expr_read h hu]; rfl
  | down h => rw [run_seq, run_opt, run_alt, List.cons_append, tag_ne (by decide), tag_same, Option.none_or, Option.elim_some, Option.bind_some, expr_read h hu]; rfl

theorem sortKey_stops {a : Option Str × Expr} {s : Str} (h : SortKey a s) : s ≠ [] ∧ ∀ u, Stops isSpace (s ++ u) := by
  cases h with
  | plain h => exact ⟨(written_stops h).1, fun u => stops_append (written_stops h).2 (written_stops h).1⟩
  | up h => exact ⟨by simp, fun u => Stops.cons (by decide)⟩
  | down h => exact ⟨by simp, fun u => Stops.cons (by decide)⟩

theorem sortKeys_read {ks : List (Option Str × Expr)} {t u : Str} (h : Items byComma SortKey ks t) (hu : Follow 9 u) (hc : ∀ c s, u.dropWhile isSpace = c :: s → c ≠ ',') :
    (commaList1 (seq (opt (tag! "+" <||> tag! "-")) expr) : G true _).run fix (t ++ u) = some (u, ks) := by
  rw [run_commaList1, (sepList1_read (ρ := fix) (nx := id) (Follow 9) (fun _ _ _ hi hu => sortKey_read hi hu)
    (fun g b bs t hg hl => ⟨comma_follow hg 9, by
      obtain ⟨m, hm, -⟩ := comma_sep (ρ := fix) hg (items_first (P' := Stops isSpace) (fun _ _ _ hc => (sortKey_stops hc).2 _) hl u)
      exact ⟨m, hm⟩⟩) hu
    (fun r x hr => by rw [id, commaSep_end hc] at hr; simp at hr) h).1]
  rfl

theorem sort_good {k : Str} (hk : lower k = c!"sort") {ks : List (Option Str × Expr)} {n : Option Int} {d : Option Unit} {t u s : Str} (h : Items byComma SortKey ks t)
    (hd : ThenMaybe (fun _ k => lower k = c!"desc") d t u) (hc : n = none → NoCount t) (hn : MaybeThen SortCount n u s) : Staged k false (.sort ks (n.getD 10000) d.isSome) s := by
  have hst := items_first (P' := Stops isSpace) (fun _ _ _ hc => (sortKey_stops hc).2 _) h
  have hne : t ≠ [] := items_ne (fun _ _ hc => (sortKey_stops hc).1) h
  have hust : ∀ w, Stops isSpace (u ++ w) := by
    cases hd with
    | none => exact hst
    | some => intro w; rw [List.append_assoc]; exact hst _
  have hune : u ≠ [] := by
    cases hd with
    | none => exact hne
    | some => simp [hne]
  have hkeys : ∀ rest, End rest → ∃ r x, (seq (commaList1 (seq (opt (tag! "+" <||> tag! "-")) expr)) (opt (ws (tagi! "desc"))) : G true _).run fix (u ++ rest) = some (r, ks, x) ∧
      x.isSome = d.isSome ∧ r.dropWhile isSpace = rest.dropWhile isSpace := by
    intro rest he
    cases hd with
    | none =>
      refine ⟨rest, none, ?_, rfl, rfl⟩
      rw [run_seq, sortKeys_read h (he.follow 9) (he.drop_ne (by decide)), Option.bind_some, opt_none (ws_end (tagi_take (t := 'd') (ts := c!"esc") (he.take (by decide))))]; rfl
    | @some a w g t hg hw =>
      refine ⟨rest.dropWhile isSpace, some w, ?_, rfl, dropWhile_idem _⟩
      have hsp : ∀ b, isSpace b = true → lowerC b ≠ 'd' := fun b hb => space_all (f := fun b => lowerC b ≠ 'd') (by decide) hb
      have hdr : (g ++ (w ++ rest)).dropWhile isSpace = w ++ rest := word_drop hg hw hsp
      rw [List.append_assoc, List.append_assoc, run_seq, sortKeys_read h (.gap hg (starts_kw hw (by decide))) (by rw [hdr]; exact letter_ne hw rfl (by decide) _), Option.bind_some,
        opt_some (y := (rest.dropWhile isSpace, w)) (by rw [run_ws, hdr, tagi_read (by rw [hw]; decide)]; rfl)]; rfl
  cases hn with
  | none =>
    refine stage 25 rfl (by decide) (by decide) (fun x => run_pre _ _ _ _) hk ⟨stops_self hust, fun rest he _ => ?_⟩
    obtain ⟨r, x, h1, h2, h3⟩ := hkeys rest he
    refine ⟨r, ?_, h3⟩
    have hno : ∃ v, Ends v ∧ u ++ rest = t ++ v := by
      cases hd with
      | none => exact ⟨rest, he.ends, rfl⟩
      | some hg => exact ⟨_, gap_ends hg, by rw [List.append_assoc, List.append_assoc]⟩
    obtain ⟨v, hv, e⟩ := hno
    rw [run_map, run_seq, opt_none, Option.bind_some, h1]
    · simp [h2]
    · rw [run_pre, opt_none, Option.bind_some, run_ws, drop_stops (hust _), run_lift, e, noCount_int (hc rfl) hne (hv _ (by decide))]
      · rfl
      · refine ws_end (tagi_take (t := 'l') (ts := c!"imit=") ?_)
        rw [drop_stops (hust _), e]
        exact noCount_limit (hc rfl) (hv _ (by decide))
  | @some a s g _ ha hg =>
    have hcount : s ≠ [] ∧ Stops isSpace s ∧ ∀ rest, (pre (opt (ws (tagi! "limit="))) (ws (lift int)) : G true Int).run fix (s ++ (g ++ (u ++ rest))) = some (u ++ rest, a) := by
      cases ha with
      | plain ha =>
        refine ⟨(intText_stops (u := []) ha).1, stops_self fun u => (intText_stops ha).2, fun rest => ?_⟩
        rw [run_pre, opt_none, Option.bind_some, run_ws, drop_stops (intText_stops ha).2, run_lift, intText_read ha (gap_stops (by decide) hg), Option.map_some, drop_gap hg (hust _)]
        refine ws_end (tagi_take (t := 'l') (ts := c!"imit=") ?_)
        rw [drop_stops (intText_stops ha).2]
        exact noKey (kw := c!"limit=") (intText_noEq ha) (gap_stops (by decide) hg) (by decide)
      | @limit k g' s' hk' hg' ha =>
        have hl := fun u => limit_read (ρ := fix) hk' hg' (intText_stops (u := u) ha).2
        have hs0 : ∀ u, Stops isSpace (k ++ '=' :: (g' ++ (s' ++ u))) := fun u => (hl u).1
        refine ⟨by simp, by have := hs0 []; rwa [List.append_nil] at this, fun rest => ?_⟩
        simp only [List.append_assoc, List.cons_append]
        rw [run_pre, opt_some (hl _).2, Option.bind_some, run_ws, drop_stops (intText_stops ha).2, run_lift, intText_read ha (gap_stops (by decide) hg), Option.map_some, drop_gap hg (hust _)]
    refine stage 25 rfl (by decide) (by decide) (fun x => run_pre _ _ _ _) hk ⟨stops_append hcount.2.1 hcount.1, fun rest he _ => ?_⟩
    obtain ⟨r, x, h1, h2, h3⟩ := hkeys rest he
    refine ⟨r, ?_, h3⟩
    rw [List.append_assoc, List.append_assoc, run_map, run_seq, opt_some (hcount.2.2 rest), Option.bind_some, h1]
    simp [h2]

/-! ### lookup -/

theorem lookupField_column {a : FieldLike} {s : Str} (h : LookupField a s) : ∃ f u, s = f ++ u ∧ (FieldText f ∨ WildWord f) := by
  cases h with
  | plain h => exact ⟨_, [], by simp, h.1.2⟩
  | named h => exact renamed_head h

theorem lookupField_stops {a : FieldLike} {s u : Str} (h : LookupField a s) : Stops isSpace (s ++ u) := by
  obtain ⟨f, v, rfl, h'⟩ := lookupField_column h
  rw [List.append_assoc]; exact column_stops h'

theorem lookupField_comma {a : FieldLike} {s u : Str} (h : LookupField a s) : ∀ c t, s ++ u = c :: t → c ≠ ',' := by
  obtain ⟨f, v, rfl, h'⟩ := lookupField_column h
  rw [List.append_assoc]; exact column_ne h' (by decide)

/-- the rest after an item that is not renamed -/
structure NotAs (u : Str) : Prop where
  after : After u
  as_ : lower ((u.dropWhile isSpace).take 2) ≠ c!"as"

theorem End.notAs {u : Str} (h : End u) : NotAs u := ⟨h.after, h.take (by decide)⟩

theorem comma_notAs {g u : Str} (h : Comma g) : NotAs (g ++ u) := by
  refine ⟨comma_after h, ?_⟩
  obtain ⟨h1, h2⟩ := h
  rw [List.append_assoc, List.cons_append, drop_blanks h1 (Stops.cons (by decide))]
  simp [lower, lowerC]

theorem byList_notAs {g t rest : Str} (h : byListNotAs g t) (ht : Stops isSpace (t ++ rest)) (hr : Stops isLetter rest) : NotAs (g ++ (t ++ rest)) := by
  rcases h with h | ⟨h, hn⟩
  · exact comma_notAs h
  · refine ⟨gap_after h, ?_⟩
    rw [drop_gap h ht]
    exact fun e => hn (take_letters hr (kw := c!"as") (by decide) e).2

theorem byList_sep {R : Type} [Env R] {ρ : R} {g t s : Str} (h : byListNotAs g t) (hs : Stops isSpace s) (hc : ∀ c t, s = c :: t → c ≠ ',') :
    ∃ m, (commaOrSpaceSep : P R true true Str).run ρ (g ++ s) = some (s, m) := by
  rcases h with h | ⟨h, -⟩
  · obtain ⟨h1, h2⟩ := h; exact listSep_read (.comma h1 h2) hs hc
  · exact listSep_read (.gap h) hs hc

/-- one field of `lookup` as read -/
def lookupItem : L true FieldLike := P.map (fun x => .aliased x.1 x.2) (verify (fun x => lower x.2 != c!"output") aliasedField) <||>
    P.map .field (verify (fun f => lower f != c!"output") field)

theorem lookupItem_read {a : FieldLike} {s u : Str} (h : LookupField a s) (hu : NotAs u) : lookupItem.run () (s ++ u) = some (u, a) := by
  cases h with
  | plain h =>
    rw [lookupItem, run_alt, run_map, run_verify, aliased_none h.1.2 hu.after hu.as_, run_map, columnNot_read h hu.after]; rfl
  | @named f n s h hn =>
    rw [lookupItem, run_alt, run_map, run_verify, renamed_read h hu.after.token]
    have hb : (lower n != c!"output") = true := by simpa using hn
    simp only [Option.filter_some, hb, if_true]
    rfl

theorem fieldRep_read {as : List FieldLike} {s rest : Str} (h : Items byListNotAs LookupField as s) (hr : NotAs rest) (hc : ∀ c t, rest.dropWhile isSpace = c :: t → c ≠ ',')
    (hf : lookupItem.run () (rest.dropWhile isSpace) = none) : fieldRep.run () (s ++ rest) = some (rest, as) :=
  (sepList1_read (ρ := ()) (sp := (commaOrSpaceSep : L true Str)) (p := lookupItem) (nx := id) NotAs (fun _ _ _ hi hu => lookupItem_read hi hu)
    (fun g b bs t hg hl => ⟨byList_notAs hg (items_first (P' := Stops isSpace) (fun _ _ _ hc => lookupField_stops hc) hl _) hr.after.letter,
      byList_sep hg (items_first (P' := Stops isSpace) (fun _ _ _ hc => lookupField_stops hc) hl _) (items_first (P' := fun x => ∀ c t, x = c :: t → c ≠ ',') (fun _ _ _ hc => lookupField_comma hc) hl _)⟩)
    hr (fun r x hr => by rw [commaOrSpace_end hc hr]; exact hf) h).1

theorem fieldRep_end {as : List FieldLike} {s rest : Str} (h : Items byListNotAs LookupField as s) (he : End rest) : fieldRep.run () (s ++ rest) = some (rest, as) := by
  refine fieldRep_read h he.notAs (he.drop_ne (by decide)) ?_
  rw [lookupItem, run_alt, run_map, run_map, run_verify, run_verify, aliasedField, run_sepPair, (field_end he).2]; rfl

theorem gap_ms1L {g u : Str} (hg : Gap g) (hu : Stops isSpace u) : ∃ m, (ms1 : L true Str).run () (g ++ u) = some (u, m) := by
  obtain ⟨b, g', rfl, hb⟩ := gap_head hg
  have hd := drop_gap hg hu
  rw [List.cons_append] at hd ⊢
  rw [List.dropWhile_cons_of_pos hb] at hd
  rw [run_ms1]
  simp only [hb, if_true, hd]
  exact ⟨_, rfl⟩

theorem lookup_good {k : Str} (hk : lower k = c!"lookup") {a : Lookup} {g t u : Str} (hd : IsName a.dataset) (hg : Gap g) (h : Items byListNotAs LookupField a.fields t)
    (ho : ThenMaybe (fun (o : LookupOutput) u => ∃ g v, lower o.kv = c!"output" ∧ byGapNotAs g v ∧ Items byListNotAs LookupField o.fields v ∧ u = o.kv ++ (g ++ v)) a.output t u) :
    Staged k false (.lookup a) (a.dataset ++ (g ++ u)) := by
  obtain ⟨ds, fs, out⟩ := a
  have hst := items_first (P' := Stops isSpace) (fun _ _ _ hc => lookupField_stops hc) h
  have hust : ∀ w, Stops isSpace (u ++ w) := by
    cases ho with
    | none => exact hst
    | some => intro w; rw [List.append_assoc]; exact hst _
  refine stage 14 rfl (by decide) (by decide) (fun x => run_pre _ _ _ _) hk (bodyGood_of (nx := List.dropWhile isSpace) (lead_stops (name_lead hd)) dropWhile_idem fun rest he => ?_)
  rw [List.append_assoc, List.append_assoc, run_map, run_seq, run_ws, drop_stops (lead_stops (name_lead hd)), run_lift, run_token hd.ne (name_lead hd).token (gap_after hg).token (isName_res hd),
    Option.map_some, Option.bind_some, drop_gap hg (hust _), run_seq, run_ws, drop_stops (hust _), run_lift]
  cases ho with
  | none =>
    rw [fieldRep_end h he, Option.map_some, Option.bind_some, run_ws, dropWhile_idem, opt_none]
    · simp [dropWhile_idem]
    · rw [run_lift, lookupOutput, run_map, run_sepPair, run_alt, tagi_take (t := 'O') (ts := c!"UTPUT") (he.take (by decide)), tagi_take (t := 'O') (ts := c!"UTPUTNEW") (he.take (by decide))]; rfl
  | @some o w g₁ t hg₁ hw =>
    obtain ⟨kv, ofs⟩ := o
    obtain ⟨g₂, v, hkv, ⟨hg₂, hnv⟩, hv, rfl⟩ := hw
    have hvst := items_first (P' := Stops isSpace) (fun _ _ _ hc => lookupField_stops hc) hv
    have hsp : ∀ b, isSpace b = true → lowerC b ≠ 'o' := fun b hb => space_all (f := fun b => lowerC b ≠ 'o') (by decide) hb
    simp only [List.append_assoc]
    have hdr : (g₁ ++ (kv ++ (g₂ ++ (v ++ rest)))).dropWhile isSpace = kv ++ (g₂ ++ (v ++ rest)) := word_drop hg₁ hkv hsp
    have hkst : Stops isSpace (kv ++ (g₂ ++ (v ++ rest))) := by
      have := word_stops hkv hsp
      exact stops_append this.2 this.1
    have hfld := keyword_field hkv rfl (by decide) (by decide) (by decide) (gap_after hg₂ (u := v ++ rest))
    rw [fieldRep_read h ⟨gap_after hg₁, by rw [hdr]; exact take_head (kw := c!"as") hkv rfl (by decide)⟩ (by rw [hdr]; exact letter_ne hkv rfl (by decide) _), Option.map_some, Option.bind_some, hdr,
      run_ws, drop_stops hkst]
    · obtain ⟨m, hm⟩ := gap_ms1L hg₂ (hvst rest)
      rw [opt_some (y := (rest, ⟨kv, ofs⟩)) (by
        rw [run_lift, lookupOutput, run_map, run_sepPair, run_alt, tagi_read (t := 'O') (ts := c!"UTPUT") (by rw [hkv]; decide), Option.some_or, Option.bind_some, hm, Option.bind_some, fieldRep_end hv he]; rfl)]
      rfl
    · rw [hdr, lookupItem, run_alt, run_map, run_map, run_verify, run_verify, aliasedField, run_sepPair, hfld, Option.bind_some,
        ws_end (tagi_take (t := 'A') (ts := c!"S") (by rw [drop_gap hg₂ (hvst _)]; exact take_append_as he hnv))]
      simp [hkv]

end Verif
