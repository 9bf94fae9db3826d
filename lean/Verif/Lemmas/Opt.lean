import Verif.Lemmas.Pipes
/-
Reading the options of a command and what follows them.
-/
namespace Verif
open P Lex Spl Spec Lemmas

/-- A text after a word: the word ends here, and no equals sign follows. -/
structure NoEq (x : Str) : Prop where
  token : Stops tokenCont x
  eq : ∀ c s, x.dropWhile isSpace = c :: s → c ≠ '='

theorem End.noEq {rest : Str} (h : End rest) : NoEq rest := ⟨h.token, h.drop_ne (by decide)⟩

theorem sign_noEq {c : Char} {u : Str} (h : tokenCont c = false ∧ isSpace c = false ∧ c ≠ '=') : NoEq (c :: u) := by
  refine ⟨Stops.cons h.1, fun x s e => ?_⟩
  rw [drop_stops (Stops.cons h.2.1), List.cons.injEq] at e
  rw [← e.1]; exact h.2.2

theorem gap_noEq {g u : Str} (hg : Gap g) (hu : Stops isSpace u) (hne : ∀ c s, u = c :: s → c ≠ '=') : NoEq (g ++ u) :=
  ⟨(gap_after hg).token, by rw [drop_gap hg hu]; exact hne⟩

theorem comma_noEq {g u : Str} (hg : Comma g) : NoEq (g ++ u) := by
  refine ⟨(comma_after hg).token, ?_⟩
  obtain ⟨h1, h2⟩ := hg
  rw [List.append_assoc, List.cons_append, drop_blanks h1 (Stops.cons (by decide))]
  intro c s e; simp only [List.cons.injEq] at e; rw [← e.1]; decide

theorem listSep_noEq {g u : Str} (hg : ListSep g) (hu : Stops isSpace u) (hne : ∀ c s, u = c :: s → c ≠ '=') : NoEq (g ++ u) := by
  cases hg with
  | gap hg => exact gap_noEq hg hu hne
  | comma h1 h2 => exact comma_noEq (.mk h1 h2)

/-- Not an option. -/
def NotOpt (x : Str) : Prop := fieldAndConstant.run () x = none

theorem word_notOpt {w x : Str} (hw : LeadWord w) (hx : NoEq x) : NotOpt (w ++ x) := by
  rw [NotOpt, fieldAndConstant, run_sepPair, run_token hw.ne hw.token hx.token hw.res, Option.bind_some, run_ws, tag_none hx.eq]; rfl

theorem sign_notOpt {c : Char} {x : Str} (h : tokenCont c = false) : NotOpt (c :: x) := by
  rw [NotOpt, fieldAndConstant, run_sepPair, token_none (Stops.cons h)]; rfl

theorem End.notOpt {rest : Str} (h : End rest) : NotOpt rest := by
  rw [NotOpt, fieldAndConstant, run_sepPair, token_none h.token]; rfl

theorem column_notOpt {f x : Str} (h : FieldText f ∨ WildWord f) (hx : NoEq x) : NotOpt (f ++ x) := by
  obtain ⟨w, d, rfl, hw, -, -, hd⟩ := column_lead h
  rw [List.append_assoc]
  refine word_notOpt hw ?_
  cases hd with
  | nil => exact hx
  | dot _ _ => exact sign_noEq (by decide)

/-- a list whose items do not look like options -/
theorem items_notOpt {α : Type} {S : Str → Str → Prop} {I : α → Str → Prop} {as : List α} {s rest : Str} (hi : ∀ a s u, I a s → NoEq u → NotOpt (s ++ u))
    (hsep : ∀ g b bs t, S g t → Items S I (b :: bs) t → NoEq (g ++ (t ++ rest))) (h : Items S I as s) (hr : NoEq rest) : NotOpt (s ++ rest) := by
  cases h with
  | one h => exact hi _ _ _ h hr
  | cons h hg hl => rw [List.append_assoc, List.append_assoc]; exact hi _ _ _ h (hsep _ _ _ _ hg hl)

theorem columns_notOpt {fs : List Str} {s rest : Str} (h : Items byList Column fs s) (hr : NoEq rest) : NotOpt (s ++ rest) :=
  items_notOpt (fun _ _ _ hc hu => by obtain ⟨rfl, hc⟩ := hc; exact column_notOpt hc hu)
    (fun _ _ _ _ hg hl => listSep_noEq hg (column_items hl _).1 ((column_items hl _).2 '=' (by decide))) h hr

theorem gapColumns_notOpt {fs : List Str} {s rest : Str} (h : Items byGap Column fs s) (hr : NoEq rest) : NotOpt (s ++ rest) :=
  items_notOpt (fun _ _ _ hc hu => by obtain ⟨rfl, hc⟩ := hc; exact column_notOpt hc hu)
    (fun _ _ _ _ hg hl => gap_noEq hg (column_items hl _).1 ((column_items hl _).2 '=' (by decide))) h hr

/-- What may stand after the options. -/
structure OptTail (t : Str) : Prop where
  stops : Stops isSpace t
  notOpt : ∀ rest, End rest → NotOpt (t ++ rest)

theorem optTail_nil : OptTail [] := ⟨Stops.nil _, fun _ h => h.notOpt⟩

theorem optsThen_stops {os : List (Str × Constant)} {t s : Str} (h : OptsThen os t s) (ht : Stops isSpace t) : Stops isSpace s := by
  cases h with
  | none => exact ht
  | only h => exact stops_self fun u => opts_stops h u
  | both h _ _ => exact opts_stops h _

theorem optsThen_read {os : List (Str × Constant)} {t s rest : Str} (h : OptsThen os t s) (ht : OptTail t) (he : End rest) :
    ∃ r, End r ∧ r.dropWhile isSpace = rest.dropWhile isSpace ∧ (t ≠ [] → r = rest) ∧
      ∀ {α : Type} (f : List (Str × Constant) → Option α), (options f).run fix (s ++ rest) = (f os).map fun x => (t ++ r, x) := by
  have key : ∀ s r, commandOptions.run () (s ++ rest) = some (r, os) → ∀ {α : Type} (f : List (Str × Constant) → Option α),
      (options f).run fix (s ++ rest) = (f os).map fun x => (r, x) := by
    intro s r hs α f
    rw [options, run_filterMap, run_lift, hs]; rfl
  cases h with
  | none =>
    refine ⟨rest, he, rfl, fun _ => rfl, fun f => key _ _ ?_ f⟩
    have hn : (ws fieldAndConstant).run () (t ++ rest) = none := by
      rw [run_ws]
      have : fieldAndConstant.run () ((t ++ rest).dropWhile isSpace) = none := by
        cases t with
        | nil => exact he.drop.notOpt
        | cons c u => rw [drop_stops (stops_append ht.stops (by simp))]; exact ht.notOpt rest he
      rw [this]; rfl
    rw [commandOptions, run_many0]
    have hl : ∀ n, manyLoop ((ws fieldAndConstant).run ()) n (t ++ rest) = (t ++ rest, []) := by
      intro n; cases n with
      | zero => rfl
      | succ n => simp only [manyLoop, hn]
    rw [hl]
  | only h =>
    refine ⟨rest.dropWhile isSpace, he.drop, dropWhile_idem _, fun h => absurd rfl h, fun f => key _ _ ?_ f⟩
    rw [commandOptions, run_many0, opts_loop h ⟨he.extra, rfl, he.drop.notOpt⟩ _ (Nat.le_refl _)]; rfl
  | @both _ s g t h hg hne =>
    refine ⟨rest, he, rfl, fun _ => rfl, fun f => key _ _ ?_ f⟩
    have hx : OptEnd (g ++ (t ++ rest)) (t ++ rest) := by
      refine ⟨?_, drop_gap hg (stops_append ht.stops hne), ht.notOpt rest he⟩
      obtain ⟨c, u, rfl, hc⟩ := gap_head hg
      exact Stops.cons (space_all (f := fun c => isExtraChar c = false) (by decide) hc)
    rw [List.append_assoc, List.append_assoc, commandOptions, run_many0, opts_loop h hx _ (Nat.le_refl _)]

/-- a command that begins with its options -/
theorem optBody {α β : Type} {gg cc : Bool} {f : List (Str × Constant) → Option α} {q : P Rec gg cc β} {g : α × β → Command} {os : List (Str × Constant)} {t s : Str} {x : α}
    {y : β} {nx : Str → Str} (h : OptsThen os t s) (ht : OptTail t) (hf : f os = some x) (hn : ∀ r, (nx r).dropWhile isSpace = r.dropWhile isSpace)
    (hq : ∀ r, End r → q.run fix (t ++ r) = some (nx r, y)) : BodyGood ((P.map g (seq (options f) q)).run fix) false (g (x, y)) s := by
  refine ⟨optsThen_stops h ht.stops, fun rest he _ => ?_⟩
  obtain ⟨r, h1, h2, -, h3⟩ := optsThen_read h ht he
  refine ⟨nx r, ?_, by rw [hn, h2]⟩
  rw [run_map, run_seq, h3, hf]
  simp only [Option.map_some, Option.bind_some, hq r h1]

theorem getIntOption_of {os : List (Str × Constant)} {k : Str} {x : Option Int} (h : IntIs os k x) : getIntOption os k = some x := by
  unfold getIntOption IntIs at *
  rw [optGet_last]
  cases e : lastValue os k with
  | none => rw [e] at h; subst h; rfl
  | some v => rw [e] at h; obtain ⟨n, rfl, rfl⟩ := h; rfl

theorem getSpanOption_of {os : List (Str × Constant)} {k : Str} {x : Option TimeSpan} (h : SpanIs os k x) : getSpanOption os k = some x := by
  unfold getSpanOption SpanIs at *
  rw [optGet_last]
  cases e : lastValue os k with
  | none => rw [e] at h; subst h; rfl
  | some v => rw [e] at h; obtain ⟨n, rfl, rfl⟩ := h; rfl

end Verif
