import Verif.Lemmas.Only
import Verif.Spec.Options
import Verif.Props.Keywords
/-
C11: command options.
-/
namespace Verif
open P Lex Spl Spec Lemmas

theorem optGet_last (os : List (Str × Constant)) (k : Str) : optGet k os = lastValue os k := by
  unfold lastValue
  induction os with
  | nil => rfl
  | cons o os ih =>
    obtain ⟨k', v⟩ := o
    rw [optGet, ih]
    by_cases hk : k' = k
    · rw [List.filter_cons_of_pos (by simpa using hk)]
      cases hf : os.filter fun o => o.1 = k with
      | nil => simp [hk]
      | cons a l => rw [List.getLast?_cons_cons]; cases h' : (a :: l).getLast? with
        | none => simp at h'
        | some b => rfl
    · rw [List.filter_cons_of_neg (by simpa using hk)]
      cases (os.filter fun o => o.1 = k).getLast? <;> simp [hk]

theorem getIntOption_spec {os : List (Str × Constant)} {k : Str} {x : Option Int} (h : getIntOption os k = some x) : IntIs os k x := by
  unfold getIntOption at h; unfold IntIs; rw [optGet_last] at h
  split at h
  · rename_i n e; rw [e]; exact ⟨n, rfl, (Option.some.inj h).symm⟩
  · simp at h
  · rename_i e; rw [e]; exact (Option.some.inj h).symm

theorem getInt_spec {os : List (Str × Constant)} {k : Str} {d x : Int} (h : getInt os k d = some x) : IntOr os k d x := by
  obtain ⟨y, hy, rfl⟩ := Option.map_eq_some_iff.1 h
  exact ⟨y, getIntOption_spec hy, rfl⟩

theorem getStringOption_spec {os : List (Str × Constant)} {k : Str} {x : Option Str} (h : getStringOption os k = some x) : StrIs os k x := by
  unfold getStringOption at h; unfold StrIs; rw [optGet_last] at h
  split at h
  · rename_i n e; rw [e]; exact ⟨n, .inl rfl, (Option.some.inj h).symm⟩
  · rename_i n e; rw [e]; exact ⟨n, .inr rfl, (Option.some.inj h).symm⟩
  · simp at h
  · rename_i e; rw [e]; exact (Option.some.inj h).symm

theorem getString_spec {os : List (Str × Constant)} {k : Str} {d x : Str} (h : getString os k d = some x) : StrOr os k d x := by
  obtain ⟨y, hy, rfl⟩ := Option.map_eq_some_iff.1 h
  exact ⟨y, getStringOption_spec hy, rfl⟩

theorem getSpanOption_spec {os : List (Str × Constant)} {k : Str} {x : Option TimeSpan} (h : getSpanOption os k = some x) : SpanIs os k x := by
  unfold getSpanOption at h; unfold SpanIs; rw [optGet_last] at h
  split at h
  · rename_i n e; rw [e]; exact ⟨n, rfl, (Option.some.inj h).symm⟩
  · simp at h
  · rename_i e; rw [e]; exact (Option.some.inj h).symm

theorem opts_value {os : List (Str × Constant)} {s : Str} (h : Opts os s) : ∀ o ∈ os, ∃ t, OptValue o.2 t := by
  induction h with
  | one _ _ _ hv => intro o ho; rw [List.mem_singleton] at ho; subst ho; exact ⟨_, hv⟩
  | cons _ _ _ hv _ _ ih =>
    intro o ho
    rcases List.mem_cons.1 ho with rfl | ho
    · exact ⟨_, hv⟩
    · exact ih o ho

theorem lastValue_mem {os : List (Str × Constant)} {k : Str} {v : Constant} (h : lastValue os k = some v) : (k, v) ∈ os := by
  obtain ⟨o, ho, rfl⟩ := Option.map_eq_some_iff.1 h
  have := List.mem_of_getLast? ho
  rw [List.mem_filter] at this
  have e : o.1 = k := by simpa using this.2
  rw [← e]; exact this.1

theorem not_field_t : ¬ FieldText c!"t" := by
  intro h
  obtain ⟨w, d, e, hw, hd⟩ := fieldText_parts h
  cases hd with
  | nil => rw [List.append_nil] at e; exact hw.notT e.symm
  | dot => exact absurd (by rw [e]; simp : '.' ∈ c!"t") (by decide)

theorem not_field_f : ¬ FieldText c!"f" := by
  intro h
  obtain ⟨w, d, e, hw, hd⟩ := fieldText_parts h
  cases hd with
  | nil => rw [List.append_nil] at e; exact hw.notF e.symm
  | dot => exact absurd (by rw [e]; simp : '.' ∈ c!"f") (by decide)

theorem getBoolean_spec {os : List (Str × Constant)} {k : Str} {d b : Bool} (ht : ∀ v, lastValue os k = some v → ∃ t, OptValue v t)
    (h : getBoolean os k d = some b) : FlagOr os k d b := by
  unfold getBoolean at h; unfold FlagOr; rw [optGet_last] at h
  split at h
  · rename_i n e; rw [e]; exact .inl (by rw [Option.some.inj h])
  · rename_i v e
    rw [e]
    obtain ⟨t, hv⟩ := ht _ e
    split at h
    · rename_i ev; subst ev; exact .inr (by rw [← Option.some.inj h]; rfl)
    · split at h
      · rename_i ev; subst ev
        cases hv with
        | field h => exact absurd h not_field_t
        | dotted h => cases h
      · split at h
        · rename_i ev; subst ev; exact .inr (by rw [← Option.some.inj h]; rfl)
        · split at h
          · rename_i ev; subst ev
            cases hv with
            | field h => exact absurd h not_field_f
            | dotted h => cases h
          · simp at h
  · simp at h
  · rename_i e; rw [e]; exact (Option.some.inj h).symm

/-! ### Reading the options -/

theorem space_stops_nil {g : Str} (h : Blanks g) : ∀ c ∈ g, isSpace c = true := blanks_space h

theorem nameOnly {w : Str} (hw : ∀ c ∈ w, isNameChar c = true) : ∀ c ∈ w, isTokenChar c = true :=
  fun c hc => nameChar_token (hw c hc)

theorem token_word {w u : Str} (hne : w ≠ []) (hw : ∀ c ∈ w, isNameChar c = true) (hu : Stops tokenCont u) :
    token.run () (w ++ u) = none ∨ token.run () (w ++ u) = some (u, w) := by
  cases h : Lex.notReserved w with
  | true => exact .inr (run_token hne (nameOnly hw) hu h)
  | false => exact .inl (token_reserved (nameOnly hw) hu h)

theorem space_tokenCont {c : Char} (h : isSpace c = true) : tokenCont c = false :=
  space_all (f := fun c => tokenCont c = false) (by decide) h

theorem noOption_none {t : Str} (h : NoOption t) : fieldAndConstant.run () t = none := by
  rw [fieldAndConstant, run_sepPair]
  cases h with
  | nil => rfl
  | @sign c t hc =>
    have : tokenCont c = false := by
      revert c; exact (by decide : ∀ c ∈ c!"[]()|\"',", tokenCont c = false)
    rw [token_none (Stops.cons this)]; rfl
  | @word w g hne hw hg =>
    have hst : Stops tokenCont g := by simpa using blanks_stops (fun _ => space_tokenCont) hg (Stops.nil tokenCont)
    rcases token_word hne hw hst with e | e
    · rw [e]; rfl
    · have : g.dropWhile isSpace = [] := dropWhile_blank (blanks_space hg)
      rw [e, Option.bind_some, run_ws, this]; rfl
  | @wordThen w g c u hne hw hg hc =>
    have hst : Stops tokenCont (g ++ c :: u) := by
      obtain ⟨x, y, rfl, hx⟩ := gap_head hg
      exact Stops.cons (space_tokenCont hx)
    rcases token_word hne hw hst with e | e
    · rw [e]; rfl
    · have h1 : isSpace c = false := by
        cases hs : isSpace c with
        | false => rfl
        | true => rcases space_cases hs with rfl | rfl | rfl | rfl <;> exact absurd (by decide) hc
      have h2 : c ≠ '=' := fun e => hc (by rw [e]; decide)
      rw [e, Option.bind_some, run_ws, drop_gap hg (Stops.cons h1), tag_ne h2]; rfl
  | @wordSign w c u hne hw hc =>
    have key : tokenCont c = false ∧ isSpace c = false ∧ c ≠ '=' := by
      revert c; exact (by decide : ∀ c ∈ c!"()|\"',", tokenCont c = false ∧ isSpace c = false ∧ c ≠ '=')
    rcases token_word hne hw (Stops.cons key.1) with e | e
    · rw [e]; rfl
    · rw [e, Option.bind_some, run_ws, drop_stops (Stops.cons key.2.1), tag_ne key.2.2]; rfl

theorem option_read {k g₁ g₂ t rest : Str} {v : Constant} (hk : IsName k) (h1 : Blanks g₁) (h2 : Blanks g₂) (hv : OptValue v t)
    (hr : Stops isExtraChar rest) :
    (ws fieldAndConstant).run () (k ++ (g₁ ++ ('=' :: (g₂ ++ (t ++ rest))))) = some (rest.dropWhile isSpace, (k, v)) := by
  obtain ⟨c, u, e, hc⟩ := (name_lead hk).head
  have hs : Stops isSpace (k ++ (g₁ ++ ('=' :: (g₂ ++ (t ++ rest))))) := by rw [e]; exact Stops.cons (tokenChar_space hc)
  have ht : Stops tokenCont (g₁ ++ ('=' :: (g₂ ++ (t ++ rest)))) :=
    blanks_stops (fun _ => space_tokenCont) h1 (Stops.cons (by decide))
  rw [run_ws, drop_stops hs, fieldAndConstant, run_sepPair, run_token hk.ne (name_lead hk).token ht (isName_res hk),
    Option.bind_some, run_ws, drop_gap_tail (blanks_space h1) (Stops.cons (by decide)), tag_same, Option.map_some, Option.bind_some,
    drop_gap_tail (blanks_space h2) (value_stops hv).2, value_read hv hr]
  rfl

theorem opts_stops {os : List (Str × Constant)} {s : Str} (h : Opts os s) (u : Str) : Stops isSpace (s ++ u) := by
  have key : ∀ {k x : Str}, IsName k → Stops isSpace (k ++ x ++ u) := fun hk => by
    obtain ⟨c, t, rfl, hc⟩ := (name_lead hk).head
    exact Stops.cons (tokenChar_space hc)
  cases h with
  | one hk => exact key hk
  | cons hk => exact key hk

theorem afterOpts_extra {rest tail : Str} (h : AfterOpts rest tail) : Stops isExtraChar rest := by
  cases h with
  | @close c t hc =>
    refine Stops.cons ?_
    revert c; exact (by decide : ∀ c ∈ c!"[|\"", isExtraChar c = false)
  | nil => exact Stops.nil _
  | gap hg _ =>
    obtain ⟨x, y, rfl, hx⟩ := gap_head hg
    exact Stops.cons (space_all (f := fun c => isExtraChar c = false) (by decide) hx)

theorem noOption_stops {t : Str} (h : NoOption t) : Stops isSpace t := by
  have hw : ∀ {w u : Str}, w ≠ [] → (∀ c ∈ w, isNameChar c = true) → Stops isSpace (w ++ u) := by
    intro w u hne hw
    obtain ⟨c, w, rfl⟩ := List.exists_cons_of_ne_nil hne
    exact Stops.cons (tokenChar_space (nameChar_token (hw c (by simp))))
  cases h with
  | nil => exact Stops.nil _
  | @sign c t hc => refine Stops.cons ?_; revert c; exact (by decide : ∀ c ∈ c!"[]()|\"',", isSpace c = false)
  | word h1 h2 => exact hw h1 h2
  | wordThen h1 h2 => exact hw h1 h2
  | wordSign h1 h2 => exact hw h1 h2

theorem afterOpts_drop {rest tail : Str} (h : AfterOpts rest tail) : rest.dropWhile isSpace = tail ∧ fieldAndConstant.run () tail = none := by
  cases h with
  | @close c t hc =>
    have : NoOption (c :: t) := .sign (by
      revert c; exact (by decide : ∀ c ∈ c!"[|\"", c ∈ c!"[]()|\"',"))
    exact ⟨drop_stops (noOption_stops this), noOption_none this⟩
  | nil => exact ⟨rfl, rfl⟩
  | gap hg ht => exact ⟨drop_gap hg (noOption_stops ht), noOption_none ht⟩

theorem afterOpts_stops {rest tail : Str} (h : AfterOpts rest tail) : Stops isSpace tail := by
  cases h with
  | @close c t hc => refine Stops.cons ?_; revert c; exact (by decide : ∀ c ∈ c!"[|\"", isSpace c = false)
  | nil => exact Stops.nil _
  | gap _ ht => exact noOption_stops ht

/-- `rest` ends the options; what follows the blanks is `tail`. -/
structure OptEnd (rest tail : Str) : Prop where
  extra : Stops isExtraChar rest
  drop : rest.dropWhile isSpace = tail
  none : fieldAndConstant.run () tail = none

theorem afterOpts_end {rest tail : Str} (ha : AfterOpts rest tail) : OptEnd rest tail :=
  ⟨afterOpts_extra ha, (afterOpts_drop ha).1, (afterOpts_drop ha).2⟩

theorem opts_loop {os : List (Str × Constant)} {s rest tail : Str} (h : Opts os s) (ha : OptEnd rest tail) :
    ∀ n, (s ++ rest).length ≤ n → manyLoop ((ws fieldAndConstant).run ()) n (s ++ rest) = (tail, os) := by
  have hend : (ws fieldAndConstant).run () tail = none := by
    rw [run_ws, ← ha.drop, dropWhile_idem, ha.drop, ha.none]; rfl
  have hstop : ∀ n, manyLoop ((ws fieldAndConstant).run ()) n tail = (tail, []) := by
    intro n; cases n with
    | zero => rfl
    | succ n => simp only [manyLoop, hend]
  induction h with
  | @one k g₁ g₂ t v hk h1 h2 hv =>
    intro n hn
    cases n with
    | zero => obtain ⟨c, u, rfl⟩ := List.exists_cons_of_ne_nil hk.ne; simp at hn
    | succ n =>
      have := option_read hk h1 h2 hv ha.extra
      rw [ha.drop] at this
      have e : k ++ (g₁ ++ '=' :: (g₂ ++ t)) ++ rest = k ++ (g₁ ++ '=' :: (g₂ ++ (t ++ rest))) := by simp
      rw [e, manyLoop, this]
      simp only [hstop]
  | @cons k g₁ g₂ t g s v os hk h1 h2 hv hg ho ih =>
    intro n hn
    cases n with
    | zero => obtain ⟨c, u, rfl⟩ := List.exists_cons_of_ne_nil hk.ne; simp at hn
    | succ n =>
      have hx : Stops isExtraChar (g ++ (s ++ rest)) := by
        obtain ⟨x, y, rfl, hx⟩ := gap_head hg
        exact Stops.cons (space_all (f := fun c => isExtraChar c = false) (by decide) hx)
      have := option_read hk h1 h2 hv hx
      rw [drop_gap hg (opts_stops ho rest)] at this
      have e : k ++ (g₁ ++ '=' :: (g₂ ++ (t ++ (g ++ s)))) ++ rest = k ++ (g₁ ++ '=' :: (g₂ ++ (t ++ (g ++ (s ++ rest))))) := by simp
      have hlen : (s ++ rest).length ≤ n := by
        have := gap_length hg
        rw [e] at hn
        simp only [List.length_append, List.length_cons] at hn ⊢
        omega
      rw [e, manyLoop, this]
      simp only [ih n hlen]

theorem options_run {α : Type} {os : List (Str × Constant)} {s rest tail : Str} (h : Opts os s) (ha : AfterOpts rest tail)
    (f : List (Str × Constant) → Option α) :
    (options f).run fix (s ++ rest) = (f os).map fun x => (tail, x) := by
  rw [options, run_filterMap, run_lift, commandOptions, run_many0, opts_loop h (afterOpts_end ha) _ (Nat.le_refl _)]
  rfl

/-! ### The commands -/

set_option linter.unusedSimpArgs false

/-- The command reads the options, and what it makes of them depends on the last values only. -/
def ReadsOptions (p : G true Command) (kw : Str) : Prop :=
  ∃ (α : Type) (f : List (Str × Constant) → Option α) (q : Str → α → PRes Command),
    (∀ os os', (∀ k, optGet k os = optGet k os') → f os = f os') ∧
    (∀ os s rest tail, Opts os s → AfterOpts rest tail → p.run fix (kw ++ (s ++ rest)) = (f os).bind (q tail)) ∧
    (∀ os s tail x r c, Opts os s → f os = some x → q tail x = some (r, c) → OptsOf os c)

theorem readsOptions_lead {α β : Type} {gg cc : Bool} {kw : Str} {n : G true Str} {f : List (Str × Constant) → Option α} {q : P Rec gg cc β}
    {g : α × β → Command} (hn : ∀ i, (name n).run fix (kw ++ i) = some (i.dropWhile isSpace, ()))
    (hf : ∀ os os', (∀ k, optGet k os = optGet k os') → f os = f os')
    (hs : ∀ os, (∀ k v, lastValue os k = some v → ∃ t, OptValue v t) → ∀ x y, f os = some x → OptsOf os (g (x, y)))
    {p : G true Command} (hp : ∀ i, p.run fix i = (pre (name n) (P.map g (seq (options f) q))).run fix i) : ReadsOptions p kw := by
  refine ⟨α, f, fun tail x => (q.run fix tail).map fun y => (y.1, g (x, y.2)), hf, ?_, ?_⟩
  · intro os s rest tail ho ha
    rw [hp, run_pre, hn, drop_stops (opts_stops ho rest), Option.bind_some, run_map, run_seq, options_run ho ha]
    cases f os with
    | none => rfl
    | some x =>
      simp only [Option.map_some, Option.bind_some]
      cases q.run fix tail <;> rfl
  · intro os s tail x r c ho hx hq
    obtain ⟨y, _, e⟩ := Option.map_eq_some_iff.1 hq
    simp only [Prod.mk.injEq] at e
    rw [← e.2]
    refine hs os (fun k v hv => ?_) x y.2 hx
    exact opts_value ho _ (lastValue_mem hv)

theorem bind_spec {α β : Type} {o : Option α} {f : α → Option β} {x : β} (h : o.bind f = some x) : ∃ a, o = some a ∧ f a = some x :=
  Option.bind_eq_some_iff.1 h

theorem reads_addTotals : ReadsOptions addTotals c!"addtotals " := by
  refine readsOptions_lead (fun i => rfl) ?_ ?_ (fun i => rfl)
  · intro os os' h; simp only [getBoolean, getString, getStringOption, h]
  · intro os hv x y hx
    obtain ⟨a1, h1, hx⟩ := bind_spec hx
    obtain ⟨a2, h2, hx⟩ := bind_spec hx
    obtain ⟨a3, h3, hx⟩ := bind_spec hx
    obtain ⟨a4, h4, hx⟩ := bind_spec hx
    obtain ⟨a5, h5, hx⟩ := bind_spec hx
    have := Option.some.inj hx
    subst this
    exact ⟨getBoolean_spec (hv _) h1, getBoolean_spec (hv _) h2, getString_spec h3, getStringOption_spec h4, getString_spec h5⟩

theorem toU64_mod (n : Int) : (toU64 n : Int) = n % 2 ^ 64 := by
  unfold toU64
  have : 0 ≤ n % (2 ^ 64 : Int) := Int.emod_nonneg _ (by decide)
  omega

theorem reads_bin : ReadsOptions bin c!"bin " := by
  refine readsOptions_lead (fun i => rfl) ?_ ?_ (fun i => rfl)
  · intro os os' h; simp only [getBoolean, getString, getStringOption, getInt, getIntOption, getSpanOption, h]
  · intro os hv x y hx
    obtain ⟨a1, h1, hx⟩ := bind_spec hx
    obtain ⟨a2, h2, hx⟩ := bind_spec hx
    obtain ⟨a3, h3, hx⟩ := bind_spec hx
    obtain ⟨a4, h4, hx⟩ := bind_spec hx
    obtain ⟨a5, h5, hx⟩ := bind_spec hx
    obtain ⟨a6, h6, hx⟩ := bind_spec hx
    have := Option.some.inj hx
    subst this
    exact ⟨getSpanOption_spec h1, getSpanOption_spec h2, getIntOption_spec h3, getIntOption_spec h4, getIntOption_spec h5, getStringOption_spec h6⟩

theorem reads_dataModel : ReadsOptions dataModel c!"datamodel " := by
  refine readsOptions_lead (fun i => rfl) ?_ ?_ (fun i => rfl)
  · intro os os' h; simp only [getBoolean, getString, getStringOption, getInt, getIntOption, getSpanOption, h]
  · intro os hv x y hx
    obtain ⟨a1, h1, hx⟩ := bind_spec hx
    obtain ⟨a2, h2, hx⟩ := bind_spec hx
    obtain ⟨a3, h3, hx⟩ := bind_spec hx
    have := Option.some.inj hx
    subst this
    exact ⟨getBoolean_spec (hv _) h1, getBoolean_spec (hv _) h2, getBoolean_spec (hv _) h3⟩

theorem reads_inputLookup : ReadsOptions inputLookup c!"inputlookup " := by
  refine readsOptions_lead (fun i => rfl) ?_ ?_ (fun i => rfl)
  · intro os os' h; simp only [getBoolean, getString, getStringOption, getInt, getIntOption, getSpanOption, h]
  · intro os hv x y hx
    obtain ⟨a1, h1, hx⟩ := bind_spec hx
    obtain ⟨a2, h2, hx⟩ := bind_spec hx
    obtain ⟨a3, h3, hx⟩ := bind_spec hx
    obtain ⟨a4, h4, hx⟩ := bind_spec hx
    have := Option.some.inj hx
    subst this
    exact ⟨getBoolean_spec (hv _) h1, getBoolean_spec (hv _) h2, getInt_spec h3, getInt_spec h4⟩

theorem reads_format : ReadsOptions format c!"format " := by
  refine readsOptions_lead (fun i => rfl) ?_ ?_ (fun i => rfl)
  · intro os os' h; simp only [getBoolean, getString, getStringOption, getInt, getIntOption, getSpanOption, h]
  · intro os hv x y hx
    obtain ⟨a1, h1, hx⟩ := bind_spec hx
    obtain ⟨a2, h2, hx⟩ := bind_spec hx
    have := Option.some.inj hx
    subst this
    exact ⟨getString_spec h1, getInt_spec h2⟩

theorem reads_join : ReadsOptions join c!"join " := by
  refine readsOptions_lead (fun i => rfl) ?_ ?_ (fun i => rfl)
  · intro os os' h; simp only [getBoolean, getString, getStringOption, getInt, getIntOption, getSpanOption, h]
  · intro os hv x y hx
    obtain ⟨a1, h1, hx⟩ := bind_spec hx
    obtain ⟨a2, h2, hx⟩ := bind_spec hx
    obtain ⟨a3, h3, hx⟩ := bind_spec hx
    obtain ⟨a4, h4, hx⟩ := bind_spec hx
    obtain ⟨a5, h5, hx⟩ := bind_spec hx
    have := Option.some.inj hx
    subst this
    exact ⟨getString_spec h1, getBoolean_spec (hv _) h2, getBoolean_spec (hv _) h3, getBoolean_spec (hv _) h4, getInt_spec h5⟩

theorem reads_stats : ReadsOptions stats c!"stats " := by
  refine readsOptions_lead (fun i => rfl) ?_ ?_ (fun i => rfl)
  · intro os os' h; simp only [getBoolean, getString, getStringOption, getInt, getIntOption, getSpanOption, h]
  · intro os hv x y hx
    obtain ⟨a1, h1, hx⟩ := bind_spec hx
    obtain ⟨a2, h2, hx⟩ := bind_spec hx
    obtain ⟨a3, h3, hx⟩ := bind_spec hx
    have := Option.some.inj hx
    subst this
    exact ⟨⟨_, getInt_spec h1, toU64_mod _⟩, getBoolean_spec (hv _) h2, getString_spec h3⟩

theorem reads_streamStats : ReadsOptions streamStats c!"streamstats " := by
  refine readsOptions_lead (fun i => rfl) ?_ ?_ (fun i => rfl)
  · intro os os' h; simp only [getBoolean, getString, getStringOption, getInt, getIntOption, getSpanOption, h]
  · intro os hv x y hx
    obtain ⟨a1, h1, hx⟩ := bind_spec hx
    obtain ⟨a2, h2, hx⟩ := bind_spec hx
    have := Option.some.inj hx
    subst this
    exact ⟨getBoolean_spec (hv _) h1, getInt_spec h2⟩

theorem reads_tstats : ReadsOptions tstats c!"tstats " := by
  refine readsOptions_lead (fun i => rfl) ?_ ?_ (fun i => rfl)
  · intro os os' h; simp only [getBoolean, getString, getStringOption, getInt, getIntOption, getSpanOption, h]
  · intro os hv x y hx
    obtain ⟨a1, h1, hx⟩ := bind_spec hx
    obtain ⟨a2, h2, hx⟩ := bind_spec hx
    obtain ⟨a3, h3, hx⟩ := bind_spec hx
    obtain ⟨a4, h4, hx⟩ := bind_spec hx
    obtain ⟨a5, h5, hx⟩ := bind_spec hx
    obtain ⟨a6, h6, hx⟩ := bind_spec hx
    obtain ⟨a7, h7, hx⟩ := bind_spec hx
    obtain ⟨a8, h8, hx⟩ := bind_spec hx
    have := Option.some.inj hx
    subst this
    exact ⟨getBoolean_spec (hv _) h1, getBoolean_spec (hv _) h2, getBoolean_spec (hv _) h3, getBoolean_spec (hv _) h4, getBoolean_spec (hv _) h5, getBoolean_spec (hv _) h6, getInt_spec h7, getStringOption_spec h8⟩

theorem reads_convert : ReadsOptions convert c!"convert " := by
  refine readsOptions_lead (fun i => rfl) ?_ ?_ (fun i => rfl)
  · intro os os' h; simp only [getBoolean, getString, getStringOption, h]
  · intro os hv x y h1
    exact getString_spec h1

theorem reads_eventStats : ReadsOptions eventStats c!"eventstats " := by
  refine readsOptions_lead (fun i => rfl) ?_ ?_ (fun i => rfl)
  · intro os os' h; simp only [getBoolean, getString, getStringOption, h]
  · intro os hv x y h1
    exact getBoolean_spec (hv _) h1

theorem reads_collect : ReadsOptions collect c!"collect " := by
  refine readsOptions_lead (fun i => rfl) ?_ ?_ (fun i => rfl)
  · intro os os' h; simp only [getBoolean, getString, getStringOption, h]
  · intro os hv x y hx
    obtain ⟨a1, h1, hx⟩ := bind_spec hx
    obtain ⟨a2, h2, hx⟩ := bind_spec hx
    obtain ⟨a3, h3, hx⟩ := bind_spec hx
    obtain ⟨a4, h4, hx⟩ := bind_spec hx
    obtain ⟨a5, h5, hx⟩ := bind_spec hx
    obtain ⟨a6, h6, hx⟩ := bind_spec hx
    obtain ⟨a7, h7, hx⟩ := bind_spec hx
    obtain ⟨a8, h8, hx⟩ := bind_spec hx
    obtain ⟨a9, h9, hx⟩ := bind_spec hx
    obtain ⟨a10, h10, hx⟩ := bind_spec hx
    obtain ⟨a11, h11, hx⟩ := bind_spec hx
    obtain ⟨a12, h12, hx⟩ := bind_spec hx
    have := Option.some.inj hx
    subst this
    subst h2
    exact ⟨getStringOption_spec h1, getBoolean_spec (hv _) h3, getStringOption_spec h4, getStringOption_spec h5,
      getStringOption_spec h6, getString_spec h7, getBoolean_spec (hv _) h8, getBoolean_spec (hv _) h9,
      getStringOption_spec h10, getStringOption_spec h11, getBoolean_spec (hv _) h12⟩

theorem reads_rex : ReadsOptions rex c!"rex " := by
  refine readsOptions_lead (fun i => rfl) ?_ ?_ (fun i => rfl)
  · intro os os' h; simp only [getInt, getIntOption, getString, getStringOption, h]
  · intro os hv x y hx
    obtain ⟨a1, h1, hx⟩ := bind_spec hx
    obtain ⟨a2, h2, hx⟩ := bind_spec hx
    obtain ⟨a3, h3, hx⟩ := bind_spec hx
    obtain ⟨a4, h4, hx⟩ := bind_spec hx
    obtain ⟨a5, h5, hx⟩ := bind_spec hx
    have := Option.some.inj hx
    subst this
    refine ⟨getString_spec h3, getInt_spec h4, getStringOption_spec h5, a1, getStringOption_spec h1, rfl, ?_⟩
    simp only [guard] at h2
    split at h2
    · rename_i h; exact h
    · simp at h2

theorem reads_makeResults : ReadsOptions makeResults c!"makeresults " := by
  refine ⟨_, fun o => do
        let count ← getInt o c!"count" 1
        let annotate ← getBoolean o c!"annotate" false
        let server ← getString o c!"splunk_server" c!"local"
        let serverGroup ← getStringOption o c!"splunk_server_group"
        return ({ count, annotate, server, serverGroup } : MakeResults), fun tail x => some (tail, .makeResults x), ?_, ?_, ?_⟩
  · intro os os' h; simp only [getInt, getIntOption, getString, getStringOption, getBoolean, h]
  · intro os s rest tail ho ha
    have hn : (name (tagi! "makeresults")).run fix (c!"makeresults " ++ (s ++ rest)) = some ((s ++ rest).dropWhile isSpace, ()) := rfl
    rw [makeResults, run_pre, hn, drop_stops (opts_stops ho rest), Option.bind_some, run_map, options_run ho ha]
    rw [Option.map_map]
    exact Option.map_eq_bind
  · intro os s tail x r c ho hx hq
    simp only [Option.some.injEq, Prod.mk.injEq] at hq
    rw [← hq.2]
    have hv : ∀ k v, lastValue os k = some v → ∃ t, OptValue v t := fun k v h => opts_value ho _ (lastValue_mem h)
    obtain ⟨a1, h1, hx⟩ := bind_spec hx
    obtain ⟨a2, h2, hx⟩ := bind_spec hx
    obtain ⟨a3, h3, hx⟩ := bind_spec hx
    obtain ⟨a4, h4, hx⟩ := bind_spec hx
    have := Option.some.inj hx
    subst this
    exact ⟨getInt_spec h1, getBoolean_spec (hv _) h2, getString_spec h3, getStringOption_spec h4⟩

theorem int_opts {os : List (Str × Constant)} {s : Str} (h : Opts os s) (u : Str) : int.run () (s ++ u) = none := by
  have key : ∀ {k x : Str}, IsName k → int.run () (k ++ x) = none := fun {k x} hk => by
    obtain ⟨c, t, e, hc⟩ := (name_lead hk).head
    have hcn : isNameChar c = true := hk.chars c (by rw [e]; simp)
    refine int_none ?_ ?_ ?_
    · exact name_ne hk.chars hk.ne (by decide)
    · exact name_ne hk.chars hk.ne (by decide)
    · rw [e]; exact Stops.cons (hk.head c t e)
  cases h with
  | one hk => rw [List.append_assoc]; exact key hk
  | cons hk => rw [List.append_assoc]; exact key hk

theorem bind_shape {α β γ δ : Type} (o : Option α) (t : Str) (w : δ) (q : Str → PRes β) (G : δ × α × β → γ) :
    ((((o.map fun x => (t, x)).bind fun x => (q x.1).map fun y => (y.1, (x.2, y.2))).map fun z => (z.1, (w, z.2))).map
      fun u => (u.1, G u.2)) = o.bind fun x => (q t).map fun y => (y.1, G (w, (x, y.2))) := by
  cases o with
  | none => rfl
  | some x => simp only [Option.map_some, Option.bind_some]; cases q t <;> rfl

theorem reads_dedup : ReadsOptions dedup c!"dedup " := by
  refine ⟨_, fun o => do
            let keepEvents ← getBoolean o c!"keepevents" false
            let keepEmpty ← getBoolean o c!"keepempty" false
            let consecutive ← getBoolean o c!"consecutive" false
            return (keepEvents, keepEmpty, consecutive),
    fun tail x => (((seq (many1 (ws (lift (verify (fun f => lower f != c!"sortby") field))))
            (opt (pre (ws (tagi! "sortby"))
              (many1 (ws (seq (opt (tag! "+" <||> tag! "-")) (lift field))))))) : G true _).run fix tail).map fun y =>
      (y.1, .dedup 1 y.2.1 x.1 x.2.1 x.2.2 (y.2.2.getD [(some c!"+", c!"_no")])), ?_, ?_, ?_⟩
  · intro os os' h; simp only [getBoolean, h]
  · intro os s rest tail ho ha
    have hn : (name (tagi! "dedup")).run fix (c!"dedup " ++ (s ++ rest)) = some ((s ++ rest).dropWhile isSpace, ()) := rfl
    rw [dedup, run_pre, hn, drop_stops (opts_stops ho rest), Option.bind_some, run_map, run_seq, run_opt, run_lift, int_opts ho,
      Option.elim_none, Option.bind_some, run_seq, options_run ho ha]
    exact bind_shape _ _ _ _ (fun x : Option Int × (Bool × Bool × Bool) × List Str × Option (List (Option Str × Str)) => Command.dedup (x.1.getD 1) x.2.2.1 x.2.1.1 x.2.1.2.1 x.2.1.2.2
        (x.2.2.2.getD [(some c!"+", c!"_no")]))
  · intro os s tail x r c ho hx hq
    obtain ⟨y, _, e⟩ := Option.map_eq_some_iff.1 hq
    simp only [Prod.mk.injEq] at e
    rw [← e.2]
    have hv : ∀ k v, lastValue os k = some v → ∃ t, OptValue v t := fun k v h => opts_value ho _ (lastValue_mem h)
    obtain ⟨a1, h1, hx⟩ := bind_spec hx
    obtain ⟨a2, h2, hx⟩ := bind_spec hx
    obtain ⟨a3, h3, hx⟩ := bind_spec hx
    have := Option.some.inj hx
    subst this
    exact ⟨getBoolean_spec (hv _) h1, getBoolean_spec (hv _) h2, getBoolean_spec (hv _) h3⟩

theorem topRareOpts_congr {os os' : List (Str × Constant)} (h : ∀ k, optGet k os = optGet k os') : topRareOpts os = topRareOpts os' := by
  simp only [topRareOpts, getInt, getIntOption, getString, getStringOption, getBoolean, h]

theorem topRareOpts_spec {os : List (Str × Constant)} {x : TopRare} (hv : ∀ k v, lastValue os k = some v → ∃ t, OptValue v t)
    (hx : topRareOpts os = some x) : StrOr os c!"countfield" c!"count" x.countField ∧ WrapOr os c!"limit" 10 x.n ∧
      StrOr os c!"otherstr" c!"OTHER" x.otherStr ∧ StrOr os c!"percentfield" c!"percent" x.percentField ∧
      FlagOr os c!"showcount" true x.showCount ∧ FlagOr os c!"showperc" true x.showPercent ∧
      FlagOr os c!"useother" false x.useOther := by
  obtain ⟨a1, h1, hx⟩ := bind_spec hx
  obtain ⟨a2, h2, hx⟩ := bind_spec hx
  obtain ⟨a3, h3, hx⟩ := bind_spec hx
  obtain ⟨a4, h4, hx⟩ := bind_spec hx
  obtain ⟨a5, h5, hx⟩ := bind_spec hx
  obtain ⟨a6, h6, hx⟩ := bind_spec hx
  obtain ⟨a7, h7, hx⟩ := bind_spec hx
  have := Option.some.inj hx
  subst this
  exact ⟨getString_spec h1, ⟨_, getInt_spec h2, toU64_mod _⟩, getString_spec h3, getString_spec h4, getBoolean_spec (hv _) h5,
    getBoolean_spec (hv _) h6, getBoolean_spec (hv _) h7⟩

theorem readsOptions_topRare {gg cc : Bool} {kw : Str} {n : G true Str} {q : P Rec gg cc (List Str × Option (List Str))}
    {g : TopRare → Command} (hn : ∀ i, (name n).run fix (kw ++ i) = some (i.dropWhile isSpace, ()))
    (hs : ∀ os x, (StrOr os c!"countfield" c!"count" x.countField ∧ WrapOr os c!"limit" 10 x.n ∧
      StrOr os c!"otherstr" c!"OTHER" x.otherStr ∧ StrOr os c!"percentfield" c!"percent" x.percentField ∧
      FlagOr os c!"showcount" true x.showCount ∧ FlagOr os c!"showperc" true x.showPercent ∧
      FlagOr os c!"useother" false x.useOther) → OptsOf os (g x))
    {p : G true Command} (hp : ∀ i, p.run fix i = (pre (name n) (P.map (fun x => g (topRareOf x))
      (seq (ws (opt (lift int))) (seq (ws (options topRareOpts)) q)))).run fix i) : ReadsOptions p kw := by
  refine ⟨_, topRareOpts, fun tail x => (q.run fix tail).map fun y => (y.1, g (topRareOf (none, x, y.2))), fun _ _ => topRareOpts_congr, ?_, ?_⟩
  · intro os s rest tail ho ha
    have hst := drop_stops (opts_stops ho rest)
    rw [hp, run_pre, hn, hst, Option.bind_some, run_map, run_seq, run_ws, hst, run_opt, run_lift, int_opts ho,
      Option.elim_none, Option.map_some, hst, Option.bind_some, run_seq, run_ws, hst, options_run ho ha]
    cases topRareOpts os with
    | none => rfl
    | some x =>
      simp only [Option.map_some, Option.bind_some, Option.map_map, drop_stops (afterOpts_stops ha)]
      rfl
  · intro os s tail x r c ho hx hq
    obtain ⟨y, _, e⟩ := Option.map_eq_some_iff.1 hq
    simp only [Prod.mk.injEq] at e
    rw [← e.2]
    have := topRareOpts_spec (fun k v h => opts_value ho _ (lastValue_mem h)) hx
    exact hs _ _ this

theorem reads_top : ReadsOptions top c!"top " :=
  readsOptions_topRare (g := .top) (fun i => rfl) (fun _ _ h => h) (fun i => rfl)

theorem reads_rare : ReadsOptions rare c!"rare " :=
  readsOptions_topRare (g := .rare) (fun i => rfl) (fun _ _ h => h) (fun i => rfl)

theorem afterLead_cons {c : Char} {s : Str} (h1 : isSpace c = false) (h2 : c ≠ '|') : (afterLead (c :: s)).dropWhile isSpace = c :: s := by
  have : afterLead (c :: s) = c :: s := by
    rw [afterLead, run_ws, drop_stops (Stops.cons h1), tag_ne h2]; rfl
  rw [this, drop_stops (Stops.cons h1)]

/-- the command that reads a stage beginning with the word -/
def Owner (kw : Str) (p : G true Command) : Prop := ReadsOptions p kw ∧
    (∀ i, command.run fix (kw ++ i) = (p.run fix (kw ++ i)).or (search.run fix (kw ++ i))) ∧
    ∀ i, (afterLead (kw ++ i)).dropWhile isSpace = kw ++ i

theorem owner_addTotals : Owner c!"addtotals " addTotals := ⟨reads_addTotals, only_addTotals, fun i => afterLead_cons (by decide) (by decide)⟩
theorem owner_bin : Owner c!"bin " bin := ⟨reads_bin, only_bin, fun i => afterLead_cons (by decide) (by decide)⟩
theorem owner_collect : Owner c!"collect " collect := ⟨reads_collect, only_collect, fun i => afterLead_cons (by decide) (by decide)⟩
theorem owner_convert : Owner c!"convert " convert := ⟨reads_convert, only_convert, fun i => afterLead_cons (by decide) (by decide)⟩
theorem owner_dataModel : Owner c!"datamodel " dataModel := ⟨reads_dataModel, only_dataModel, fun i => afterLead_cons (by decide) (by decide)⟩
theorem owner_dedup : Owner c!"dedup " dedup := ⟨reads_dedup, only_dedup, fun i => afterLead_cons (by decide) (by decide)⟩
theorem owner_eventStats : Owner c!"eventstats " eventStats := ⟨reads_eventStats, only_eventStats, fun i => afterLead_cons (by decide) (by decide)⟩
theorem owner_format : Owner c!"format " format := ⟨reads_format, only_format, fun i => afterLead_cons (by decide) (by decide)⟩
theorem owner_inputLookup : Owner c!"inputlookup " inputLookup := ⟨reads_inputLookup, only_inputLookup, fun i => afterLead_cons (by decide) (by decide)⟩
theorem owner_join : Owner c!"join " join := ⟨reads_join, only_join, fun i => afterLead_cons (by decide) (by decide)⟩
theorem owner_makeResults : Owner c!"makeresults " makeResults := ⟨reads_makeResults, only_makeResults, fun i => afterLead_cons (by decide) (by decide)⟩
theorem owner_rare : Owner c!"rare " rare := ⟨reads_rare, only_rare, fun i => afterLead_cons (by decide) (by decide)⟩
theorem owner_rex : Owner c!"rex " rex := ⟨reads_rex, only_rex, fun i => afterLead_cons (by decide) (by decide)⟩
theorem owner_stats : Owner c!"stats " stats := ⟨reads_stats, only_stats, fun i => afterLead_cons (by decide) (by decide)⟩
theorem owner_streamStats : Owner c!"streamstats " streamStats := ⟨reads_streamStats, only_streamStats, fun i => afterLead_cons (by decide) (by decide)⟩
theorem owner_top : Owner c!"top " top := ⟨reads_top, only_top, fun i => afterLead_cons (by decide) (by decide)⟩
theorem owner_tstats : Owner c!"tstats " tstats := ⟨reads_tstats, only_tstats, fun i => afterLead_cons (by decide) (by decide)⟩

theorem option_command : ∀ kw ∈ optionCommands, ∃ p, Owner kw p := by
  unfold optionCommands
  simp only [List.forall_mem_cons]
  exact ⟨⟨_, owner_addTotals⟩, ⟨_, owner_bin⟩, ⟨_, owner_collect⟩, ⟨_, owner_convert⟩, ⟨_, owner_dataModel⟩, ⟨_, owner_dedup⟩, ⟨_, owner_eventStats⟩, ⟨_, owner_format⟩, ⟨_, owner_inputLookup⟩, ⟨_, owner_join⟩, ⟨_, owner_makeResults⟩, ⟨_, owner_rare⟩, ⟨_, owner_rex⟩, ⟨_, owner_stats⟩, ⟨_, owner_streamStats⟩, ⟨_, owner_top⟩, ⟨_, owner_tstats⟩, by simp⟩

theorem option_query {kw s rest : Str} {c : Command} {cs : Pipeline}
    {p : G true Command} (hc : ∀ e, c ≠ .search e)
    (ho : ∀ i, command.run fix (kw ++ i) = (p.run fix (kw ++ i)).or (search.run fix (kw ++ i)))
    (hd : ∀ i, (afterLead (kw ++ i)).dropWhile isSpace = kw ++ i) (h : parse (kw ++ (s ++ rest)) = some (c :: cs)) :
    ∃ r, p.run fix (kw ++ (s ++ rest)) = some (r, c) ∧
      ∀ i, p.run fix (kw ++ i) = some (r, c) → parse (kw ++ i) = some (c :: cs) := by
  obtain ⟨r, hr, hq⟩ := parse_head (hd _) h
  refine ⟨r, ?_, fun i hi => hq _ (hd _) ?_⟩
  · rw [ho] at hr
    rcases Option.or_eq_some_iff.1 hr with hr | ⟨_, hr⟩
    · exact hr
    · obtain ⟨e, rfl⟩ := search_only hr
      exact absurd rfl (hc e)
  · rw [ho, hi]; rfl

/-- A query that begins with the name of a command that takes options, then options, then other text: when it is read as
that command and not as an implicit search, every option has the last value written for it, of the right type, or
the default when it is not written. -/
theorem C11_values_partial {kw s rest tail : Str} {os : List (Str × Constant)} {c : Command} {cs : Pipeline} (hk : kw ∈ optionCommands)
    (ho : Opts os s) (ha : AfterOpts rest tail) (h : parse (kw ++ (s ++ rest)) = some (c :: cs)) (hc : ∀ e, c ≠ .search e) :
    OptsOf os c := by
  obtain ⟨p, ⟨α, f, q, _, hrun, hspec⟩, hor, hd⟩ := option_command _ hk
  obtain ⟨r, hr, _⟩ := option_query hc hor hd h
  rw [hrun os s rest tail ho ha] at hr
  obtain ⟨x, hx, hq⟩ := bind_spec hr
  exact hspec os s tail x r c ho hx hq

/-- Writing other options with the same last values gives the same query: options may be permuted, and of repeated ones
only the last counts. -/
theorem C11_last_value {kw s s' rest tail : Str} {os os' : List (Str × Constant)} {c : Command} {cs : Pipeline} (hk : kw ∈ optionCommands)
    (ho : Opts os s) (ho' : Opts os' s') (ha : AfterOpts rest tail) (hl : ∀ k, lastValue os k = lastValue os' k)
    (h : parse (kw ++ (s ++ rest)) = some (c :: cs)) (hc : ∀ e, c ≠ .search e) :
    parse (kw ++ (s' ++ rest)) = some (c :: cs) := by
  obtain ⟨p, ⟨α, f, q, hf, hrun, _⟩, hor, hd⟩ := option_command _ hk
  obtain ⟨r, hr, hgo⟩ := option_query hc hor hd h
  refine hgo _ ?_
  rw [hrun os s rest tail ho ha] at hr
  rw [hrun os' s' rest tail ho' ha, ← hf os os' (fun k => by rw [optGet_last, optGet_last, hl])]
  exact hr

theorem lastValue_perm {os os' : List (Str × Constant)} (hp : os.Perm os') (hn : (os.map Prod.fst).Nodup) (k : Str) :
    lastValue os k = lastValue os' k := by
  have h1 : ∀ l : List (Str × Constant), (l.map Prod.fst).Nodup → (l.filter fun o => o.1 = k).length ≤ 1 := by
    intro l hl
    have : (l.filter fun o => o.1 = k).map Prod.fst = List.replicate (l.filter fun o => o.1 = k).length k := by
      rw [List.eq_replicate_iff]
      refine ⟨by simp, fun b hb => ?_⟩
      obtain ⟨o, ho, rfl⟩ := List.mem_map.1 hb
      simpa using (List.mem_filter.1 ho).2
    have hsub : ((l.filter fun o => o.1 = k).map Prod.fst).Nodup := hl.sublist (List.filter_sublist.map _)
    rw [this] at hsub
    generalize (l.filter fun o => o.1 = k).length = n at hsub
    match n, hsub with
    | 0, _ => omega
    | 1, _ => omega
    | n + 2, h => simp [List.replicate] at h
  have hf := hp.filter fun o => o.1 = k
  have ha := h1 os hn
  unfold lastValue
  cases ea : os.filter fun o => o.1 = k with
  | nil => rw [ea] at hf; rw [hf.symm.eq_nil]
  | cons a l =>
    cases l with
    | nil => rw [ea] at hf; rw [hf.symm.eq_singleton]
    | cons b l => rw [ea] at ha; simp at ha

/-- Permuting options with distinct keys. -/
theorem C11_permuted {kw s s' rest tail : Str} {os os' : List (Str × Constant)} {c : Command} {cs : Pipeline} (hk : kw ∈ optionCommands)
    (ho : Opts os s) (ho' : Opts os' s') (ha : AfterOpts rest tail) (hp : os.Perm os') (hn : (os.map Prod.fst).Nodup)
    (h : parse (kw ++ (s ++ rest)) = some (c :: cs)) (hc : ∀ e, c ≠ .search e) :
    parse (kw ++ (s' ++ rest)) = some (c :: cs) :=
  C11_last_value hk ho ho' ha (lastValue_perm hp hn) h hc

theorem getInt_of {os : List (Str × Constant)} {k : Str} {d x : Int} (h : IntOr os k d x) : getInt os k d = some x := by
  obtain ⟨y, hy, rfl⟩ := h
  unfold getInt getIntOption IntIs at *
  rw [optGet_last]
  cases e : lastValue os k with
  | none => rw [e] at hy; subst hy; rfl
  | some v => rw [e] at hy; obtain ⟨n, rfl, rfl⟩ := hy; rfl

theorem getStringOption_of {os : List (Str × Constant)} {k : Str} {x : Option Str} (h : StrIs os k x) : getStringOption os k = some x := by
  unfold getStringOption StrIs at *
  rw [optGet_last]
  cases e : lastValue os k with
  | none => rw [e] at h; subst h; rfl
  | some v => rw [e] at h; obtain ⟨n, rfl | rfl, rfl⟩ := h <;> rfl

theorem getString_of {os : List (Str × Constant)} {k : Str} {d x : Str} (h : StrOr os k d x) : getString os k d = some x := by
  obtain ⟨y, hy, rfl⟩ := h
  rw [getString, getStringOption_of hy]; rfl

theorem getBoolean_of {os : List (Str × Constant)} {k : Str} {d b : Bool} (h : FlagOr os k d b) : getBoolean os k d = some b := by
  unfold getBoolean FlagOr at *
  rw [optGet_last]
  cases e : lastValue os k with
  | none => rw [e] at h; subst h; rfl
  | some v =>
    rw [e] at h
    rcases h with rfl | rfl
    · rfl
    · cases b <;> rfl

/-- `makeresults` with any options: it is read as the command exactly when every option given has a value of the right
type. -/
theorem C11_makeresults {os : List (Str × Constant)} {s : Str} (ho : Opts os s) (m : MakeResults) :
    parse (c!"makeresults " ++ s) = some [.makeResults m] ↔ OptsOf os (.makeResults m) := by
  constructor
  · intro h
    refine C11_values_partial (rest := []) (cs := []) (by decide +kernel : c!"makeresults " ∈ optionCommands) ho .nil ?_ (fun e => by simp)
    rw [List.append_nil]; exact h
  · rintro ⟨h1, h2, h3, h4⟩
    have e1 := getInt_of h1
    have e2 := getBoolean_of h2
    have e3 := getString_of h3
    have e4 := getStringOption_of h4
    have hst := opts_stops ho []
    rw [List.append_nil] at hst
    have hn : (name (tagi! "makeresults")).run fix (c!"makeresults " ++ s) = some (s.dropWhile isSpace, ()) := rfl
    have hr := options_run (α := MakeResults) ho .nil (fun o => do
        let count ← getInt o c!"count" 1
        let annotate ← getBoolean o c!"annotate" false
        let server ← getString o c!"splunk_server" c!"local"
        let serverGroup ← getStringOption o c!"splunk_server_group"
        return ({ count, annotate, server, serverGroup } : MakeResults))
    rw [List.append_nil] at hr
    refine parse_one (afterLead_cons (by decide) (by decide)) ?_
    have : makeResults.run fix (c!"makeresults " ++ s) = some ([], .makeResults m) := by
      rw [makeResults, run_pre, hn, drop_stops hst, Option.bind_some, run_map, hr, e1, e2, e3, e4]; rfl
    rw [only_makeResults, this]; rfl

theorem isName_lit {c : Char} {w : Str} (h : ∀ x ∈ c :: w, isNameChar x = true) (hd : isDig c = false) (hr : ¬ Reserved (c :: w)) :
    IsName (c :: w) := ⟨by simp, h, fun x s e => by rw [← (List.cons.inj e).1]; exact hd, hr⟩

theorem opts_ex : Opts [(c!"count", .int 3), (c!"annotate", .bool true)] c!"count=3 annotate = t" :=
  .cons (k := c!"count") (g₁ := []) (g₂ := []) (t := showInt 3) (g := c!" ") (isName_lit (by decide) (by decide) (by decide +kernel))
    (.inl rfl) (.inl rfl) (.int (by unfold isI64; decide)) ⟨by decide, by decide⟩
    (.one (k := c!"annotate") (g₁ := c!" ") (g₂ := c!" ") (isName_lit (by decide) (by decide) (by decide +kernel))
      (.inr ⟨by decide, by decide⟩) (.inr ⟨by decide, by decide⟩) .yes)

example : parse c!"makeresults count=3 annotate = t" = some [.makeResults ⟨3, true, c!"local", none⟩] :=
  (C11_makeresults opts_ex _).2 ⟨⟨some 3, ⟨3, rfl, rfl⟩, rfl⟩, .inl rfl, ⟨none, rfl, rfl⟩, rfl⟩

theorem opts_ex2 : Opts [(c!"max", .int 1), (c!"type", .field c!"left"), (c!"max", .int 0)] c!"max=1 type=left max=0" :=
  .cons (k := c!"max") (g₁ := []) (g₂ := []) (t := showInt 1) (g := c!" ") (isName_lit (by decide) (by decide) (by decide +kernel))
    (.inl rfl) (.inl rfl) (.int (by unfold isI64; decide)) ⟨by decide, by decide⟩
    (.cons (k := c!"type") (g₁ := []) (g₂ := []) (t := c!"left") (g := c!" ") (isName_lit (by decide) (by decide) (by decide +kernel))
      (.inl rfl) (.inl rfl) (.field (.one ⟨isName_lit (by decide) (by decide) (by decide +kernel), by decide, by decide⟩)) ⟨by decide, by decide⟩
      (.one (k := c!"max") (g₁ := []) (g₂ := []) (t := showInt 0) (isName_lit (by decide) (by decide) (by decide +kernel))
        (.inl rfl) (.inl rfl) (.int (by unfold isI64; decide))))

theorem opts_ex3 : Opts [(c!"max", .int 0), (c!"type", .field c!"left")] c!"max=0 type=left" :=
  .cons (k := c!"max") (g₁ := []) (g₂ := []) (t := showInt 0) (g := c!" ") (isName_lit (by decide) (by decide) (by decide +kernel))
    (.inl rfl) (.inl rfl) (.int (by unfold isI64; decide)) ⟨by decide, by decide⟩
    (.one (k := c!"type") (g₁ := []) (g₂ := []) (t := c!"left") (isName_lit (by decide) (by decide) (by decide +kernel))
      (.inl rfl) (.inl rfl) (.field (.one ⟨isName_lit (by decide) (by decide) (by decide +kernel), by decide, by decide⟩)))

theorem after_ex : AfterOpts c!" k [search a=1] | head 5" c!"k [search a=1] | head 5" :=
  .gap (g := c!" ") ⟨by decide, by decide⟩ (.wordThen (w := c!"k") (g := c!" ") (by decide) (by decide) ⟨by decide, by decide⟩ (by decide))

/-- both queries are read, the first with a repeated and permuted option -/
example : (parse c!"join max=1 type=left max=0 k [search a=1] | head 5").map List.length = some 2 ∧
    parse c!"join max=1 type=left max=0 k [search a=1] | head 5" = parse c!"join max=0 type=left k [search a=1] | head 5" := by
  have h : (parse c!"join max=1 type=left max=0 k [search a=1] | head 5").map List.length = some 2 := by decide +kernel
  have hc : (parse c!"join max=1 type=left max=0 k [search a=1] | head 5").map (fun p => p.map fun c => match c with | .search _ => true | _ => false) =
    some [false, false] := by decide +kernel
  refine ⟨h, ?_⟩
  cases hp : parse c!"join max=1 type=left max=0 k [search a=1] | head 5" with
  | none => rw [hp] at h; simp at h
  | some p =>
    cases p with
    | nil => rw [hp] at h; simp at h
    | cons c cs =>
      refine (C11_last_value (by decide +kernel : c!"join " ∈ optionCommands) opts_ex2 opts_ex3 after_ex ?_ hp ?_).symm
      · intro k
        by_cases h1 : c!"max" = k
        · subst h1; decide +kernel
        · by_cases h2 : c!"type" = k
          · subst h2; decide +kernel
          · simp [lastValue, List.filter, h1, h2]
      · rintro e rfl; rw [hp] at hc; simp at hc

/-- A value of the wrong type does not make the query fail: the whole stage becomes an implicit search. -/
theorem C11_wrong_type_becomes_search :
    parse c!"makeresults count=abc" = some [.search (.binary (.const (.field c!"makeresults")) c!"AND"
      (.binary (.const (.field c!"count")) c!"=" (.const (.field c!"abc"))))] :=
  isParse_sound (by decide +kernel)

/-! ### C57: reserved words among documented options and values -/

theorem options_none {α : Type} {i : Str} (h : (ws fieldAndConstant).run () i = none) (f : List (Str × Constant) → Option α) :
    (options f).run fix i = (f []).map fun x => (i, x) := by
  have : ∀ n, manyLoop ((ws fieldAndConstant).run ()) n i = (i, []) := by
    intro n; cases n with
    | zero => rfl
    | succ n => simp only [manyLoop, h]
  rw [options, run_filterMap, run_lift, commandOptions, run_many0, this]; rfl

theorem top_limit (t : Str) : top.run fix (c!"top limit=" ++ t) = none := by
  have hu : Stops tokenCont ('=' :: t) := Stops.cons (by decide)
  have ht : token.run () (c!"limit" ++ '=' :: t) = none := token_reserved (by decide) hu (by decide +kernel)
  have hs : Stops isSpace (c!"limit" ++ '=' :: t) := Stops.cons (by decide)
  have hi : int.run () (c!"limit" ++ '=' :: t) = none :=
    int_none (fun c s e => by rw [← (List.cons.inj e).1]; decide) (fun c s e => by rw [← (List.cons.inj e).1]; decide) (Stops.cons (by decide))
  have hf : field.run () (c!"limit" ++ '=' :: t) = none :=
    field_none ht (fun c s e => by rw [← (List.cons.inj e).1]; decide) (fun c s e => by rw [← (List.cons.inj e).1]; decide)
  have ho : (ws fieldAndConstant).run () (c!"limit" ++ '=' :: t) = none := by
    rw [run_ws, drop_stops hs, fieldAndConstant, run_sepPair, ht]; rfl
  have hn : (name (tagi! "top")).run fix (c!"top " ++ (c!"limit" ++ '=' :: t)) =
      some ((c!"limit" ++ '=' :: t).dropWhile isSpace, ()) := rfl
  have hl : fieldList1.run () (c!"limit" ++ '=' :: t) = none := by
    rw [fieldList1, commaOrSpaceList1, run_recast, run_sepList1, hf]; rfl
  show top.run fix (c!"top " ++ (c!"limit" ++ '=' :: t)) = none
  rw [top, run_pre, hn, drop_stops hs, Option.bind_some, run_map, run_seq, run_ws, drop_stops hs, run_opt, run_lift, hi,
    Option.elim_none, Option.map_some, drop_stops hs, Option.bind_some, run_seq, run_ws, drop_stops hs, options_none ho]
  have : topRareOpts [] = some ⟨[], 10, none, c!"count", c!"OTHER", c!"percent", true, true, false⟩ := rfl
  rw [this, Option.map_some, Option.map_some, Option.bind_some, drop_stops hs, run_seq, run_lift, hl]; rfl

theorem join_type {v u : Str} (hv : ∀ c ∈ v, isNameChar c = true) (hne : v ≠ []) (hr : Reserved v) (hu : Stops isExtraChar u) :
    join.run fix (c!"join type=" ++ (v ++ u)) = none := by
  have hres : Lex.notReserved v = false := by
    cases h : Lex.notReserved v with
    | false => rfl
    | true =>
      unfold Lex.notReserved at h
      simp only [Bool.not_eq_true', List.contains_eq_mem, decide_eq_false_iff_not] at h
      exact absurd hr h
  have hx : ∀ c ∈ v, isExtraChar c = true := fun c hc => by simp [isExtraChar, nameOnly hv c hc]
  have h1 : tokenExtras.run () (v ++ u) = none := by
    rw [tokenExtras, run_verify, recognize_many1_satisfy hne hx hu]
    simp [Option.filter, hres]
  have h2 : constant.run () (v ++ u) = none := by
    rw [constant, reparse, run_filterMap, rawConstant, run_recognize, run_alt, run_alt, doubleQuoted_none (name_ne hv hne (by decide)),
      singleQuoted_none (name_ne hv hne (by decide)), h1]; rfl
  have hvs : Stops isSpace (v ++ u) := by
    obtain ⟨c, w, rfl⟩ := List.exists_cons_of_ne_nil hne
    exact Stops.cons (tokenChar_space (nameChar_token (hv c (by simp))))
  have hs : Stops isSpace (c!"type" ++ '=' :: (v ++ u)) := Stops.cons (by decide)
  have ht : token.run () (c!"type" ++ '=' :: (v ++ u)) = some ('=' :: (v ++ u), c!"type") :=
    run_token (by decide) (by decide) (Stops.cons (by decide)) (by decide +kernel)
  have ho : (ws fieldAndConstant).run () (c!"type" ++ '=' :: (v ++ u)) = none := by
    rw [run_ws, drop_stops hs, fieldAndConstant, run_sepPair, ht, Option.bind_some, run_ws, drop_stops (Stops.cons (by decide)), tag_same,
      Option.map_some, Option.bind_some, drop_stops hvs, h2]; rfl
  have hf : field.run () (c!"type" ++ '=' :: (v ++ u)) = some ('=' :: (v ++ u), c!"type") :=
    run_field (by decide) (by decide) (Stops.cons (by decide)) (Stops.cons (by decide)) (by decide +kernel) (by decide) (by decide)
  have hl : fieldList1.run () (c!"type" ++ '=' :: (v ++ u)) = some ('=' :: (v ++ u), [c!"type"]) := by
    rw [fieldList1, commaOrSpaceList1, run_recast, run_sepList1, hf]; rfl
  have hn : (name (tagi! "join")).run fix (c!"join " ++ (c!"type" ++ '=' :: (v ++ u))) =
      some ((c!"type" ++ '=' :: (v ++ u)).dropWhile isSpace, ()) := rfl
  have hsub : subSearch.run fix ('=' :: (v ++ u)) = none := rfl
  show join.run fix (c!"join " ++ (c!"type" ++ '=' :: (v ++ u))) = none
  rw [join, run_pre, hn, drop_stops hs, Option.bind_some, run_map, run_seq, options_none ho]
  have : ∀ o : Option JoinOpts, o.map (fun x => (c!"type" ++ '=' :: (v ++ u), x)) =
    o.bind fun x => some (c!"type" ++ '=' :: (v ++ u), x) := fun o => by cases o <;> rfl
  rw [this, Option.bind_assoc]
  simp only [Option.bind_some]
  rw [run_seq, run_lift, hl, Option.bind_some, hsub]
  rfl

/-- The documented option `limit` of `top` can never be given: no stage that begins with `top limit=` is a `top` command. -/
theorem C57_top_limit {t : Str} {c : Command} {cs : Pipeline} (h : parse (c!"top limit=" ++ t) = some (c :: cs)) :
    ∃ e, c = .search e := by
  obtain ⟨r, hr, _⟩ := parse_head (afterLead_cons (by decide) (by decide)) h
  have := only_top (c!"limit=" ++ t)
  rw [show c!"top " ++ (c!"limit=" ++ t) = c!"top limit=" ++ t from rfl] at this
  replace hr : command.run fix (c!"top limit=" ++ t) = some (r, c) := hr
  rw [this, top_limit, Option.none_or] at hr
  exact search_only hr

theorem C57_limit_rejected : parse c!"top limit=5 x" = none ∧ (parse c!"top 5 x").isSome ∧
    parse c!"rare limit=5 x" = none ∧ (parse c!"rare 5 x").isSome :=
  ⟨Option.isNone_iff_eq_none.1 (by decide +kernel), by decide +kernel, Option.isNone_iff_eq_none.1 (by decide +kernel), by decide +kernel⟩

/-- Nor can the documented join types `inner` and `outer`, being reserved words. -/
theorem C57_join_type {v u : Str} {c : Command} {cs : Pipeline} (hv : ∀ c ∈ v, isNameChar c = true) (hne : v ≠ []) (hr : Reserved v)
    (hu : Stops isExtraChar u) (h : parse (c!"join type=" ++ (v ++ u)) = some (c :: cs)) : ∃ e, c = .search e := by
  obtain ⟨r, hr', _⟩ := parse_head (afterLead_cons (by decide) (by decide)) h
  have := only_join (c!"type=" ++ (v ++ u))
  rw [show c!"join " ++ (c!"type=" ++ (v ++ u)) = c!"join type=" ++ (v ++ u) from rfl] at this
  replace hr' : command.run fix (c!"join type=" ++ (v ++ u)) = some (r, c) := hr'
  rw [this, join_type hv hne hr hu, Option.none_or] at hr'
  exact search_only hr'

theorem C57_join_type_rejected : parse c!"join type=outer k [search a=1]" = none ∧ parse c!"join type=inner k [search a=1]" = none ∧
    (parse c!"join type=left k [search a=1]").isSome ∧ Reserved c!"outer" ∧ Reserved c!"inner" :=
  ⟨Option.isNone_iff_eq_none.1 (by decide +kernel), Option.isNone_iff_eq_none.1 (by decide +kernel), by decide +kernel,
    by decide +kernel, by decide +kernel⟩

end Verif
