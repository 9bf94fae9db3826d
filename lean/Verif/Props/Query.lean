import Verif.Lemmas.Bodies9
/-
C69: a query written as the grammar of `Spec.QueryText` says is read as exactly the commands it was written for.
-/
namespace Verif
open P Lex Spl Spec Lemmas

/-! ### Commands -/

theorem body_good {b : Bool} {kw k s : Str} {c : Command} (h : Body b kw c s) (hk : lower k = kw) : Staged k b c s := by
  cases h with
  | addtotals h ho hf => exact addtotals_good hk h ho hf
  | bin hw h ho hf => exact bin_good (by simpa [hk] using hw) h ho hf
  | collect h ho hf => exact collect_good hk h ho hf
  | convert h ho hf => exact convert_good hk h ho hf
  | datamodel h ho hf => exact datamodel_good hk h ho hf
  | dedup hf hs h hn ho => exact dedup_good hk hf hs h hn ho
  | eval h => exact eval_good hk h
  | eventstats hf hb h ho => exact eventstats_good hk hf hb h ho
  | fields h => exact fields_good hk h
  | fieldsKeep hg h => exact fields_sign hk (.inl rfl) hg h
  | fieldsDrop hg h => exact fields_sign hk (.inr rfl) hg h
  | fillnull h => exact fillnull_value hk h
  | fillnullIn hf h => exact fillnull_in hk hf h
  | fillnullAll => exact fillnull_all hk
  | format h ho hd => exact format_good hk h ho hd
  | formatWith h ho hi => exact format_with hk h ho hi
  | head h hx hy => exact head_good hk h hx hy
  | inputlookup hf hw h ho => exact inputlookup_good hk hf hw h ho
  | lookup hd hg h ho => exact lookup_good hk hd hg h ho
  | makeresults h ho => exact makeresults_good hk h ho
  | mvcombine hf h => exact mvcombine_good hk hf h
  | mvexpand hf h => exact mvexpand_good hk hf h
  | rare hf hb h hn ho hm => exact rare_good hk hf hb h hn ho hm
  | regex h => exact regex_good hk h
  | regexOf hf ho h1 h2 h => exact regex_of hk hf ho h1 h2 h
  | rename h => exact rename_good hk h
  | return_ h hn => exact return_good hk h hn
  | rex h ho hq => exact rex_good hk h ho hq
  | sort h hd hc hn => exact sort_good hk h hd hc hn
  | spath hp ht ho hi => exact spath_good hk hp ht ho hi
  | stats hf hb h ho => exact stats_good hk hf hb h ho
  | streamstats hf hb h ho => exact streamstats_good hk hf hb h ho
  | table h => exact table_good hk h
  | tail h => exact tail_good hk h
  | top hf hb h hn ho hm => exact top_good hk hf hb h hn ho hm
  | tstats hi hm hw hb h ho => exact tstats_good hk hi hm hw hb h ho
  | where_ h => exact where_good hk h
  | search h => exact stage_search hk (search_good h)

theorem optsThen_ne {os : List (Str × Constant)} {t s : Str} (h : OptsThen os t s) (ht : t ≠ []) : s ≠ [] := by
  cases h with
  | none => exact ht
  | only => exact absurd rfl ht
  | both _ _ _ => simp [ht]

theorem pipe_good {b : Bool} {cs : List Command} {s : Str} (h : PipeText b cs s) : PipeGood b cs s := by
  induction h using PipeText.rec (motive_1 := fun b c s _ => CmdGood b c s) (motive_3 := fun cs s _ => SubGood cs s)
    (motive_4 := fun cs s _ => Items (fun g _ => Blanks g) SubGood cs s) (motive_5 := fun cs q _ => WholeGood cs q) with
  | named hb hk hne hg => exact (body_good hb hk).2 hne _ hg
  | bare hb hk => exact (body_good hb hk).1 rfl rfl
  | @implicit e es s h hn =>
    have ht := terms_stops h []
    rw [List.append_nil] at ht
    exact stage_implicit (items_ne (fun _ _ hc => (written_stops hc).1) h) (ht.2 '|' (by decide)) hn (search_good h)
  | join hk hg hf h2 hs ho hoo ih => exact (join_good hk hf h2 ih ho hoo).2 (optsThen_ne ho (by obtain ⟨v, rfl⟩ := ih.head; simp)) _ hg
  | multisearch hk hg hs hl ih => exact (multisearch_good hk ih hl).2 (items_ne (fun _ _ hc => by obtain ⟨v, rfl⟩ := hc.head; simp) ih) _ hg
  | map hk hg hkw h1 h2 hq h ho ih =>
    refine (map_good hk hkw h1 h2 ih h ho).2 (fun e => ?_) _ hg
    rw [(List.append_eq_nil_iff.1 e).1] at hkw; exact absurd hkw (by decide)
  | one h ih => exact pipe_one ih
  | cons h h1 hb h2 ht ih iht => exact pipe_cons ih h1 hb h2 iht
  | plain h1 h h2 hb ih => exact sub_plain h1 ih h2 hb
  | piped h0 h1 h h2 hb ih => exact sub_piped h0 h1 ih h2 hb
  | last h ih => exact .one ih
  | more h h1 h2 ih iht =>
    cases iht with
    | one h' => exact .cons ih h1 (.one h')
    | cons h' hg hl => exact .cons ih h1 (.cons h' hg hl)
  | direct h1 h h2 ih => exact whole_plain h1 ih h2
  | afterBar h0 h1 h h2 ih => exact whole_piped h0 h1 ih h2

/-- **C69**  A query written in documented form is read, and as exactly the commands written. -/
theorem C69_read_partial {cs : List Command} {q : Str} (h : QueryText cs q) : parse q = some cs := by
  cases h with
  | direct h1 h h2 => exact query_plain h1 (pipe_good h) h2
  | afterBar h0 h1 h h2 => exact query_piped h0 h1 (pipe_good h) h2

/-- **C69**  No text is the documented form of two different queries. -/
theorem C69_unambiguous_partial {cs cs' : List Command} {q : Str} (h : QueryText cs q) (h' : QueryText cs' q) : cs = cs' := by
  have := (C69_read_partial h).symm.trans (C69_read_partial h')
  simpa using this

/-- **C03** (partial).  Blanks after a query written as the grammar says change nothing. -/
theorem C03_trailing_partial {cs : List Command} {q g : Str} (h : QueryText cs q) (hg : Blanks g) : parse (q ++ g) = parse q := by
  have key : ∀ {g₂ : Str}, Blanks g₂ → Blanks (g₂ ++ g) := by
    intro g₂ h2
    rcases h2 with rfl | h2
    · exact hg
    · rcases hg with rfl | hg
      · rw [List.append_nil]; exact .inr h2
      · exact .inr ⟨by simp [h2.ne], fun c hc => (List.mem_append.1 hc).elim (h2.blank c) (hg.blank c)⟩
  have h' : QueryText cs (q ++ g) := by
    cases h with
    | direct h1 h h2 => simpa using QueryText.direct h1 h (key h2)
    | afterBar h0 h1 h h2 => simpa using QueryText.afterBar h0 h1 h (key h2)
  rw [C69_read_partial h, C69_read_partial h']

/-! ### An example -/

theorem isField_lit {w : Str} (h1 : w ≠ []) (h2 : ∀ c ∈ w, isNameChar c = true) (h3 : w.head?.all (fun c => !isDig c) = true) (h4 : ¬ Reserved w)
    (h5 : w ≠ c!"t") (h6 : w ≠ c!"f") : IsField w :=
  ⟨⟨h1, h2, fun c s e => by rw [e] at h3; simpa using h3, h4⟩, h5, h6⟩

theorem column_lit {w : Str} (h : IsField w) : Column w w := ⟨rfl, .inl (.one h)⟩

theorem f_host : IsField c!"host" := isField_lit (by decide) (by decide) (by decide) (by decide) (by decide) (by decide)
theorem f_time : IsField c!"_time" := isField_lit (by decide) (by decide) (by decide) (by decide) (by decide) (by decide)
theorem f_index : IsField c!"index" := isField_lit (by decide) (by decide) (by decide) (by decide) (by decide) (by decide)
theorem f_main : IsField c!"main" := isField_lit (by decide) (by decide) (by decide) (by decide) (by decide) (by decide)
theorem f_status : IsField c!"status" := isField_lit (by decide) (by decide) (by decide) (by decide) (by decide) (by decide)
theorem f_x : IsField c!"x" := isField_lit (by decide) (by decide) (by decide) (by decide) (by decide) (by decide)
theorem f_a : IsField c!"a" := isField_lit (by decide) (by decide) (by decide) (by decide) (by decide) (by decide)
theorem f_b : IsField c!"b" := isField_lit (by decide) (by decide) (by decide) (by decide) (by decide) (by decide)
theorem f_count : IsField c!"count" := isField_lit (by decide) (by decide) (by decide) (by decide) (by decide) (by decide)
theorem f_sum : IsField c!"sum" := isField_lit (by decide) (by decide) (by decide) (by decide) (by decide) (by decide)
theorem f_total : IsField c!"total" := isField_lit (by decide) (by decide) (by decide) (by decide) (by decide) (by decide)
theorem f_hosts : IsField c!"hosts" := isField_lit (by decide) (by decide) (by decide) (by decide) (by decide) (by decide)
theorem f_type : IsField c!"type" := isField_lit (by decide) (by decide) (by decide) (by decide) (by decide) (by decide)
theorem f_left : IsField c!"left" := isField_lit (by decide) (by decide) (by decide) (by decide) (by decide) (by decide)
theorem f_allnum : IsField c!"allnum" := isField_lit (by decide) (by decide) (by decide) (by decide) (by decide) (by decide)

theorem w_col {w : Str} (h : IsField w) {k : Nat} (h2 : 2 ≤ k) (h9 : k ≤ 9) : Written k (.const (.field w)) w := w_up (.value (.field (.one h))) h2 h9

def exampleText : Str := c!"index=main status >= 500 | eval x=a + 2 | STATS allnum=t count, sum(x) AS total by host, _time span=5m | join type=left host [| inputlookup hosts| fields - b] |sort 5 -total | head 3 null=true "

def exampleQuery : List Command := [
  .search (.binary (.binary (.const (.field c!"index")) c!"=" (.const (.field c!"main"))) c!"AND" (.binary (.const (.field c!"status")) c!">=" (.const (.int 500)))),
  .eval [(c!"x", .binary (.const (.field c!"a")) c!"+" (.const (.int 2)))],
  .stats ⟨1, true, c!" "⟩ [.call c!"count" [], .alias (.call c!"sum" [.const (.field c!"x")]) c!"total"] (some [⟨c!"host", none⟩, ⟨c!"_time", some ⟨5, c!"minutes"⟩⟩]) false,
  .join ⟨c!"left", false, true, true, 1⟩ [c!"host"] [.inputLookup false false 0 1000000000 c!"hosts" none, .fields true [c!"b"]],
  .sort [(some c!"-", .const (.field c!"total"))] 5 false,
  .head (.const (.int 3)) false true]

theorem cons_ex {a : Char} {s : Str} {P : Char → Prop} (h : P a) : ∀ c u, a :: s = c :: u → P c := fun _ _ e => (List.cons.inj e).1 ▸ h

theorem example_search : CmdText false (.search (.binary (.binary (.const (.field c!"index")) c!"=" (.const (.field c!"main"))) c!"AND"
    (.binary (.const (.field c!"status")) c!">=" (.const (.int 500))))) c!"index=main status >= 500" := by
  refine .implicit (e := .binary (.const (.field c!"index")) c!"=" (.const (.field c!"main"))) (es := [.binary (.const (.field c!"status")) c!">=" (.const (.int 500))])
    (.cons (s := c!"index=main") (g := c!" ") (t := c!"status >= 500") ?_ (.inr ⟨gap1, ?_⟩) (.one ?_)) ?_
  · exact .up (.up (.up (.op (k := 5) (s₁ := c!"index") (g₁ := []) (g₂ := []) .eq blanks0 blanks0 (.inl (by decide)) (w_col f_index (by decide) (by decide))
      (w_col f_main (by decide) (by decide))) (by decide)) (by decide)) (by decide)
  · exact ⟨cons_ex (by decide), by decide, by decide, fun h => absurd h (by decide)⟩
  · exact .up (.up (.up (.op (k := 5) (s₁ := c!"status") (g₁ := c!" ") (g₂ := c!" ") (s₂ := showInt 500) .ge blanks1 blanks1 (.inl (by decide)) (w_col f_status (by decide) (by decide))
      (w_up (.int (by unfold isI64; decide)) (by decide) (by decide))) (by decide)) (by decide)) (by decide)
  · intro kw hk h
    exact absurd h ((by decide : ∀ kw ∈ commandNames, lower ((c!"index=main status >= 500").take kw.length) ≠ kw) kw hk)

theorem example_eval : CmdText false (.eval [(c!"x", .binary (.const (.field c!"a")) c!"+" (.const (.int 2)))]) c!"eval x=a + 2" :=
  .named (k := c!"eval") (g := c!" ") (.eval (.one (.mk (g₁ := []) (g₂ := []) (column_lit f_x) blanks0 blanks0
    (.up (.up (.up (.up (.up (.op (k := 3) (s₁ := c!"a") (g₁ := c!" ") (g₂ := c!" ") (s₂ := showInt 2) .add blanks1 blanks1 (.inl (by decide)) (w_col f_a (by decide) (by decide))
        (w_up (.int (by unfold isI64; decide)) (by decide) (by decide))) (by decide)) (by decide)) (by decide)) (by decide)) (by decide))))) (by decide) (by decide) gap1

theorem example_stats : CmdText false (.stats ⟨1, true, c!" "⟩ [.call c!"count" [], .alias (.call c!"sum" [.const (.field c!"x")]) c!"total"]
    (some [⟨c!"host", none⟩, ⟨c!"_time", some ⟨5, c!"minutes"⟩⟩]) false) c!"STATS allnum=t count, sum(x) AS total by host, _time span=5m" := by
  refine .named (k := c!"STATS") (g := c!" ") (.stats (os := [(c!"allnum", .bool true)]) (t := c!"count, sum(x) AS total") (u := c!"count, sum(x) AS total by host, _time span=5m")
    ?_ ?_ (.both (s := c!"allnum=t") (g := c!" ") (.one (g₁ := []) (g₂ := []) f_allnum.name blanks0 blanks0 .yes) gap1 (by decide)) ?_) (by decide) (by decide) gap1
  · exact .cons (s := c!"count") (g := c!", ") (t := c!"sum(x) AS total") (.word f_count) (.inl (.mk (g₁ := []) (g₂ := c!" ") blanks0 blanks1))
      (.one (.callAs (f := c!"sum") (g₁ := []) (g₂ := []) (s := c!"x") (g₃ := c!" ") (k := c!"AS") (g₄ := c!" ") (n := c!"total") f_sum.name blanks0 blanks0
        (.one (w_col f_x (by decide) (by decide))) gap1 (by decide) gap1 (.inl f_total.name)))
  · exact .some (g := c!" ") (s := c!"by host, _time span=5m") gap1 (.mk (k := c!"by") (g := c!" ") (t := c!"host, _time span=5m") (by decide) gap1
      (.cons (s := c!"host") (g := c!", ") (t := c!"_time span=5m") (.plain (column_lit f_host)) (.comma (g₁ := []) (g₂ := c!" ") blanks0 blanks1)
        (.one (.span (f := c!"_time") (g := c!" ") (k := c!"span") (g₂ := []) (m := c!"m") (n := 5) (column_lit f_time) gap1 (by decide) blanks0 (by decide)
          (by decide : (c!"m", c!"minutes") ∈ unitSpellings) (by decide)))))
  · exact ⟨⟨1, ⟨none, rfl, rfl⟩, by decide⟩, .inl rfl, ⟨none, rfl, rfl⟩⟩

theorem example_sub : SubText [.inputLookup false false 0 1000000000 c!"hosts" none, .fields true [c!"b"]] c!"[| inputlookup hosts| fields - b]" :=
  .piped (g₀ := []) (g₁ := c!" ") (s := c!"inputlookup hosts| fields - b") (g₂ := []) blanks0 blanks1
    (.cons (s := c!"inputlookup hosts") (g₁ := []) (g₂ := c!" ") (t := c!"fields - b")
      (.named (k := c!"inputlookup") (g := c!" ") (.inputlookup (os := []) (.inl f_hosts.name) .none .none ⟨rfl, rfl, ⟨none, rfl, rfl⟩, ⟨none, rfl, rfl⟩⟩) (by decide) (by decide) gap1)
      blanks0 (by decide) blanks1
      (.one (.named (k := c!"fields") (g := c!" ") (.fieldsDrop (g := c!" ") blanks1 (.one (column_lit f_b))) (by decide) (by decide) gap1))) blanks0 (by decide)

theorem example_join : CmdText false (.join ⟨c!"left", false, true, true, 1⟩ [c!"host"] [.inputLookup false false 0 1000000000 c!"hosts" none, .fields true [c!"b"]])
    c!"join type=left host [| inputlookup hosts| fields - b]" :=
  .join (k := c!"join") (g := c!" ") (os := [(c!"type", .field c!"left")]) (t := c!"host") (g₂ := c!" ") (by decide) gap1 (.one (column_lit f_host)) blanks1 example_sub
    (.both (s := c!"type=left") (g := c!" ") (.one (g₁ := []) (g₂ := []) f_type.name blanks0 blanks0 (.field (.one f_left))) gap1 (by decide))
    ⟨⟨some c!"left", ⟨c!"left", .inl rfl, rfl⟩, rfl⟩, rfl, rfl, rfl, ⟨none, rfl, rfl⟩⟩

theorem example_sort : CmdText false (.sort [(some c!"-", .const (.field c!"total"))] 5 false) c!"sort 5 -total" :=
  .named (k := c!"sort") (g := c!" ") (.sort (n := some 5) (d := none) (t := c!"-total") (.one (.down (w_col f_total (by decide) (by decide)))) .none (fun h => absurd h (by decide))
    (.some (s := showInt 5) (g := c!" ") (.plain (.mk (by unfold isI64; decide))) gap1)) (by decide) (by decide) gap1

theorem example_head : CmdText true (.head (.const (.int 3)) false true) c!"head 3 null=true" :=
  .named (k := c!"head") (g := c!" ") (.head (x := none) (y := some true) (t := showInt 3) (.int (.mk (by unfold isI64; decide))) .none
    (.some (g := c!" ") gap1 (.mk (k := c!"null") (t := c!"true") (by decide) (.yes (by decide))))) (by decide) (by decide) gap1

/-- six commands, with an implicit search, options, a span, a search in brackets and blanks around the pipes -/
theorem example_written : QueryText exampleQuery exampleText :=
  .direct (g₁ := []) (g₂ := c!" ") blanks0
    (.cons (g₁ := c!" ") (g₂ := c!" ") example_search blanks1 (by decide) blanks1
      (.cons (g₁ := c!" ") (g₂ := c!" ") example_eval blanks1 (by decide) blanks1
        (.cons (g₁ := c!" ") (g₂ := c!" ") example_stats blanks1 (by decide) blanks1
          (.cons (g₁ := c!" ") (g₂ := []) example_join blanks1 (by decide) blanks0
            (.cons (g₁ := c!" ") (g₂ := c!" ") example_sort blanks1 (by decide) blanks1 (.one example_head)))))) blanks1

example : parse exampleText = some exampleQuery := C69_read_partial example_written

example : parse (exampleText ++ c!" \n\t ") = parse exampleText :=
  C03_trailing_partial example_written (.inr ⟨by decide, by decide⟩)

/-! ### An example with tstats and map -/

theorem f_Net : IsField c!"Net" := isField_lit (by decide) (by decide) (by decide) (by decide) (by decide) (by decide)
theorem f_Web : IsField c!"Web" := isField_lit (by decide) (by decide) (by decide) (by decide) (by decide) (by decide)
theorem f_maxsearches : IsField c!"maxsearches" := isField_lit (by decide) (by decide) (by decide) (by decide) (by decide) (by decide)

theorem example_tstats : CmdText false (.tstats ⟨false, false, false, false, false, false, 10000000, none⟩
    [.call c!"count" [], .alias (.call c!"sum" [.const (.field c!"x")]) c!"total"] (some c!"Net.Web") none none (some [⟨c!"host", none⟩]) none)
    c!"tstats count sum(x) AS total from datamodel=Net.Web by host" := by
  refine .named (k := c!"tstats") (g := c!" ") (.tstats (os := []) (b := false) (m := some (c!"Net.Web", none)) (w := none) (by_ := some [⟨c!"host", none⟩])
    (t := c!"count sum(x) AS total") (u := c!"count sum(x) AS total from datamodel=Net.Web") (v := c!"count sum(x) AS total from datamodel=Net.Web") ?_ ?_ .none ?_ .none ?_) (by decide) (by decide) gap1
  · have : TsCall (.alias (.call c!"sum" [.const (.field c!"x")]) c!"total") c!"sum(x) AS total" :=
      .named (f := c!"sum") (x := c!"x") (g₁ := c!" ") (k := c!"AS") (g₂ := c!" ") (n := c!"total") f_sum.name (column_lit f_x) gap1 (by decide) gap1 f_total.name
    exact .countThen (k := c!"count") (g := c!" ") (s := c!"sum(x) AS total") (t := []) (by decide) gap1 this (.call this)
  · exact .some (g := c!" ") (s := c!"from datamodel=Net.Web") gap1
      (.model (k := c!"from") (g := c!" ") (d := c!"datamodel") (g₂ := []) (m := c!"Net.Web") (by decide) gap1 (by decide) blanks0 (.dot (w := c!"Net") f_Net.name (.one f_Web.name)))
  · exact .some (g := c!" ") (s := c!"by host") gap1 (.mk (k := c!"by") (g := c!" ") (t := c!"host") (by decide) gap1 (.one (.plain (column_lit f_host))))
  · exact ⟨rfl, rfl, rfl, rfl, rfl, rfl, ⟨none, rfl, rfl⟩, rfl⟩

theorem example_inner : QueryText [.search (.binary (.const (.field c!"host")) c!"=" (.const (.str c!"a")))] c!"search host=\"a\"" := by
  refine .direct (g₁ := []) (s := c!"search host=\"a\"") (g₂ := []) blanks0 (.one (.named (k := c!"search") (g := c!" ")
    (.search (e := .binary (.const (.field c!"host")) c!"=" (.const (.str c!"a"))) (es := []) (.one ?_)) (by decide) (by decide) gap1)) blanks0
  exact .up (.up (.up (.op (k := 5) (s₁ := c!"host") (g₁ := []) (g₂ := []) (s₂ := c!"\"a\"") .eq blanks0 blanks0 (.inl (by decide)) (w_col f_host (by decide) (by decide))
    (w_up (.value (.str (s := c!"a") ⟨.plain (by decide) (by decide) .nil, by decide, cons_ex (by decide)⟩ (.of_at (by decide)) (by decide))) (by decide) (by decide))) (by decide)) (by decide)) (by decide)

theorem example_map : CmdText false (.map [.search (.binary (.const (.field c!"host")) c!"=" (.const (.str c!"a")))] 5)
    c!"map search=\"search host=\\\"a\\\"\" maxsearches=5" :=
  .map (k := c!"map") (g := c!" ") (kw := c!"search") (g₁ := []) (g₂ := []) (os := some [(c!"maxsearches", .int 5)]) (by decide) gap1 (by decide) blanks0 blanks0 example_inner
    (.some (g := c!" ") (s := c!"maxsearches=5") gap1 (.one (g₁ := []) (g₂ := []) f_maxsearches.name blanks0 blanks0 (.int (by unfold isI64; decide))))
    ⟨some 5, ⟨5, rfl, rfl⟩, rfl⟩

example : parse c!"| tstats count sum(x) AS total from datamodel=Net.Web by host | map search=\"search host=\\\"a\\\"\" maxsearches=5" = some [
    .tstats ⟨false, false, false, false, false, false, 10000000, none⟩ [.call c!"count" [], .alias (.call c!"sum" [.const (.field c!"x")]) c!"total"] (some c!"Net.Web") none none
      (some [⟨c!"host", none⟩]) none,
    .map [.search (.binary (.const (.field c!"host")) c!"=" (.const (.str c!"a")))] 5] :=
  C69_read_partial (.afterBar (g₀ := []) (g₁ := c!" ") (g₂ := []) blanks0 blanks1
    (.cons (g₁ := c!" ") (g₂ := c!" ") example_tstats blanks1 (by decide) blanks1 (.one example_map)) blanks0)

end Verif
