import Verif.Props.NewColumns
/-
C79: the events `makeresults` makes up.
-/
namespace Verif.Props
open Verif Spl Spec Lemmas Col

/-- A data frame whose program does not depend on any table. -/
def MakesRows (d : DF) (G : Sem → Frame) : Prop :=
  ∃ e, progTree d = some ⟨[], e⟩ ∧ ∀ (S : Sem) (A : Aggs) (O : Arrangement) (T : Str → Frame), frameEval S A O T e = some (G S)

theorem makesRows_range (n : Nat) : MakesRows (.rawSource (c!"spark.range(0, " ++ showInt n ++ c!", 1)"))
    (fun _ => ⟨[c!"id"], (List.range n).map fun i : Nat => rowOf [(c!"id", .num i)]⟩) := by
  have hs : showInt (n : Int) = showNat n := rfl
  refine ⟨mCall (.name c!"spark") c!"range" [.num c!"0" [], natTree n, .num c!"1" []], ?_, fun S A O T => ?_⟩
  · rw [progTree, hs]
    have e : ((c!"spark.range(0, " ++ showNat n ++ c!", 1)").drop 15).take ((c!"spark.range(0, " ++ showNat n ++ c!", 1)").length - 19) = showNat n := by
      have e1 : (c!"spark.range(0, " ++ showNat n ++ c!", 1)").drop 15 = showNat n ++ c!", 1)" := by
        rw [List.append_assoc]; rfl
      have e2 : (c!"spark.range(0, " ++ showNat n ++ c!", 1)").length - 19 = (showNat n).length := by
        simp only [List.length_append, List.length_cons, List.length_nil]; omega
      rw [e1, e2, List.take_left]
    unfold rangeTree
    dsimp only
    rw [e, if_pos rfl, show codeTree (showNat n) = some (natTree n) from code_int (n : Int)]
    rfl
  · simp only [mCall, natTree]
    rw [frameEval.eq_def]
    dsimp only
    rw [if_pos ⟨rfl, rfl, by decide, by decide⟩, digitsVal_showNat]

theorem MakesRows.col {d : DF} {G : Sem → Frame} {n : Str} {p : PE} {g : Sem → Event → Val} (h : MakesRows d G) (hm : Means p g)
    (hw : within (fun _ => false) p = true) (hn : Plain '\'' n = true) (hc : ∀ S, ColsOk (addCol (G S).cols n) = true) :
    MakesRows (d.mkWithColumn n p) (fun S => ⟨addCol (G S).cols n, (G S).rows.map fun r => setField r n (g S r)⟩) := by
  obtain ⟨e, h1, h2⟩ := h
  obtain ⟨t, ht, hv⟩ := hm
  refine ⟨mCall e c!"withColumn" [.str n, t], ?_, fun S A O T => ?_⟩
  · simp only [DF.mkWithColumn, progTree, h1, onResult, unalias_of_within hw, ht, hn, if_true, Option.map_some]
  · have hval : ∀ r, colValue S t r = some (g S r) := fun r => by
      obtain ⟨o, h1, h2, h3⟩ := hv S r
      rw [colValue, h1, Option.bind_some, if_pos h2, h3]
    have hk : known (G S).cols t = true := by
      rw [known, List.all_eq_true]
      intro c hc'
      have := refs_within p t hw ht c hc'
      cases this
    rw [frameEval_method _ (h2 S A O T) (by decide)]
    unfold frameMethod
    rw [if_neg (by decide), if_pos rfl]
    simp only [hk, if_true]
    rw [each_map (g := fun r => setField r n (g S r)) fun r _ => by rw [hval r]; rfl, Option.bind_some, okFrame, if_pos (hc S)]

/-- The same fields added to every one of some rows. -/
def madeFrame (l : List (Str × Val)) (n : Nat) : Frame :=
  ⟨c!"id" :: l.map Prod.fst, (List.range n).map fun i : Nat => rowOf ((c!"id", .num i) :: l)⟩

theorem setField_rowOf {l : List (Str × Val)} {n : Str} {v : Val} (h : l.lookup n = none) : setField (rowOf l) n v = rowOf (l ++ [(n, v)]) := by
  funext m
  simp only [setField, rowOf, List.lookup_append]
  by_cases e : m = n
  · subst e; simp [h]
  · have : (m == n) = false := by simpa using e
    rw [if_neg e]
    simp [List.lookup_cons, this]

theorem MakesRows.made {d : DF} {l : Sem → List (Str × Val)} {k : Nat} {n : Str} {p : PE} {g : Sem → Val} (h : MakesRows d (fun S => madeFrame (l S) k))
    (hm : Means p (fun S _ => g S)) (hw : within (fun _ => false) p = true) (hn : Plain '\'' n = true)
    (ns : List Str) (hl : ∀ S, (l S).map Prod.fst = ns) (hc' : ColsOk ((c!"id" :: ns) ++ [n]) = true) :
    MakesRows (d.mkWithColumn n p) (fun S => madeFrame (l S ++ [(n, g S)]) k) := by
  have hc : ∀ S, ColsOk ((c!"id" :: (l S).map Prod.fst) ++ [n]) = true := fun S => by rw [hl S]; exact hc'
  have hn' : ∀ S, n ∉ c!"id" :: (l S).map Prod.fst := fun S hin => by
    have := (Bool.and_eq_true ..).mp (hc S)
    have := of_decide_eq_true this.2
    rw [List.map_append, List.nodup_append] at this
    exact this.2.2 _ (List.mem_map_of_mem hin) _ (by simp) rfl
  have ha : ∀ S, addCol (madeFrame (l S) k).cols n = c!"id" :: (l S).map Prod.fst ++ [n] := fun S => by
    rw [addCol, if_neg]
    · rfl
    · exact hn' S
  have h1 := h.col hm hw hn (fun S => by rw [ha S]; exact hc S)
  have e : (fun S => (⟨addCol (madeFrame (l S) k).cols n, (madeFrame (l S) k).rows.map fun r => setField r n (g S)⟩ : Frame)) = fun S => madeFrame (l S ++ [(n, g S)]) k := by
    funext S
    rw [ha S]
    simp only [madeFrame, List.map_append, List.map_cons, List.map_nil, List.map_map, List.cons_append]
    refine congrArg _ (List.map_congr_left fun i _ => ?_)
    show setField (rowOf _) _ _ = _
    rw [setField_rowOf]
    · rfl
    · rw [List.lookup_eq_none_iff]
      intro x hx
      have := hn' S
      rcases List.mem_cons.1 hx with rfl | hx
      · simp only [List.mem_cons, not_or] at this
        simpa using fun e => this.1 e
      · simp only [List.mem_cons, not_or, List.mem_map, not_exists, not_and] at this
        simpa using fun e => this.2 x hx e.symm
  rw [← e]
  exact h1

/-- The row without one of its columns. -/
def without (n : Str) (r : Event) : Event := fun m => if m = n then .null else r m

theorem made_null : Means (.lit c!"None") (fun _ _ => .null) := means_lit ⟨.name c!"None", by decide +kernel, fun _ _ => rfl⟩

theorem made_now : Means (.fn c!"current_timestamp" []) (fun S _ => S.prim .now []) :=
  means_prim (fs := []) (by decide +kernel) (by decide +kernel) ⟨c!"current_timestamp", 0, by decide +kernel⟩ trivial

theorem made_makesRows (x : Ext) (c : MakeResults) (s : St) (h0 : 0 ≤ c.count) (ha : c.annotate = true → Plain '"' c.server = true ∧ c.serverGroup = none) :
    ∃ d, transform ⟨.disallow, x⟩ (.makeResults c) s = some (s.put d) ∧ MakesRows d (fun S => madeFrame (madeFields S c) c.count.toNat) := by
  have hn : showInt c.count = showInt (c.count.toNat : Int) := by rw [Int.toNat_of_nonneg h0]
  have base : MakesRows ((DF.rawSource (c!"spark.range(0, " ++ showInt c.count ++ c!", 1)")).mkWithColumn c!"_time" (.fn c!"current_timestamp" []))
      (fun S => madeFrame [(c!"_time", S.prim .now [])] c.count.toNat) := by
    rw [hn]
    exact MakesRows.made (l := fun _ => []) (makesRows_range c.count.toNat) made_now (by decide +kernel) (by decide +kernel) [] (fun _ => rfl) (by decide +kernel)
  cases han : c.annotate with
  | false =>
    refine ⟨_, by simp only [transform, dispatch, makeResultsTr, han]; rfl, ?_⟩
    simp only [madeFields, han]
    exact base
  | true =>
    obtain ⟨hp, hsg⟩ := ha han
    refine ⟨_, by simp only [transform, dispatch, makeResultsTr, han, hsg, if_true]; rfl, ?_⟩
    simp only [madeFields, han, hsg, if_true]
    refine MakesRows.made (l := fun S => [(c!"_time", S.prim .now []), (c!"_raw", .null), (c!"host", .null), (c!"source", .null), (c!"sourcetype", .null),
      (c!"splunk_server", .str c.server)]) ?_ made_null (by decide +kernel) (by decide +kernel) [c!"_time", c!"_raw", c!"host", c!"source", c!"sourcetype", c!"splunk_server"] (fun _ => rfl) (by decide +kernel)
    refine MakesRows.made (l := fun S => [(c!"_time", S.prim .now []), (c!"_raw", .null), (c!"host", .null), (c!"source", .null), (c!"sourcetype", .null)]) ?_
      (means_lit ⟨.str c.server, codeTree_dquote hp, fun _ _ => rfl⟩) (by simp [within]) (by decide +kernel) [c!"_time", c!"_raw", c!"host", c!"source", c!"sourcetype"] (fun _ => rfl) (by decide +kernel)
    refine MakesRows.made (l := fun S => [(c!"_time", S.prim .now []), (c!"_raw", .null), (c!"host", .null), (c!"source", .null)]) ?_ made_null
      (by decide +kernel) (by decide +kernel) [c!"_time", c!"_raw", c!"host", c!"source"] (fun _ => rfl) (by decide +kernel)
    refine MakesRows.made (l := fun S => [(c!"_time", S.prim .now []), (c!"_raw", .null), (c!"host", .null)]) ?_ made_null
      (by decide +kernel) (by decide +kernel) [c!"_time", c!"_raw", c!"host"] (fun _ => rfl) (by decide +kernel)
    refine MakesRows.made (l := fun S => [(c!"_time", S.prim .now []), (c!"_raw", .null)]) ?_ made_null
      (by decide +kernel) (by decide +kernel) [c!"_time", c!"_raw"] (fun _ => rfl) (by decide +kernel)
    exact MakesRows.made (l := fun S => [(c!"_time", S.prim .now [])]) base made_null (by decide +kernel) (by decide +kernel) [c!"_time"] (fun _ => rfl) (by decide +kernel)

/-- **C79** (partial).  `makeresults` makes as many events as asked for, with the current time and, if asked for, the fields that say
where an event comes from.  The table of the program has these columns and an additional one, `id`; without it the rows are
the events.
Missing: a name of a group of servers (`C79_group_refused`), the additional column (`C79_extra_column`), and names of
servers that are no plain text. -/
theorem C79_made_partial (x : Ext) (c : MakeResults) (h0 : 0 ≤ c.count) (ha : c.annotate = true → Plain '"' c.server = true ∧ c.serverGroup = none) :
    ∃ text, renderPipeline ⟨.disallow, x⟩ [.makeResults c] = some text ∧
      ∀ (S : Sem) (A : Aggs) (O O' : Arrangement) (T : Str → Frame), ∃ F F', splQuery S A O T [.makeResults c] = some F ∧
        textRows S A O' T text = some F' ∧ F'.cols = c!"id" :: F.cols ∧ F'.rows.map (without c!"id") = F.rows ∧
        F.rows.length = c.count.toNat := by
  obtain ⟨d, h1, e, h2, h3⟩ := made_makesRows x c ⟨1, none⟩ h0 ha
  obtain ⟨text, t1, t2⟩ := query_of_steps x (q := [.makeResults c]) (cs := []) (s := St.put ⟨1, none⟩ d) (by simp only [runCmds, h1]) rfl h2
  refine ⟨text, t1, fun S A O O' T => ⟨splMade S c, _, rfl, by rw [t2]; exact h3 S A O' T, rfl, ?_, by simp [splMade]⟩⟩
  simp only [madeFrame, splMade, List.map_map]
  rw [List.eq_replicate_iff]
  refine ⟨by simp, fun r hr => ?_⟩
  obtain ⟨i, _, rfl⟩ := List.mem_map.1 hr
  funext m
  simp only [Function.comp_apply, without, rowOf]
  by_cases e : m = c!"id"
  · subst e
    rw [if_pos rfl]
    unfold madeFields
    split <;> rfl
  · have : (m == c!"id") = false := by simpa using e
    rw [if_neg e, List.lookup_cons, this]

example : (0 : Int) ≤ (⟨3, true, c!"local", none⟩ : MakeResults).count ∧ Plain '"' c!"local" = true ∧
    parse c!"makeresults count=3 annotate=t" = some [.makeResults ⟨3, true, c!"local", none⟩] :=
  ⟨by decide, by decide +kernel, isParse_sound (by decide +kernel)⟩

/-- The commands that follow are run on these rows, the additional column included: the result is the one SPL describes for
events that have such a field. -/
theorem C79_then_partial (x : Ext) (hx : Arranges x) (c : MakeResults) (h0 : 0 ≤ c.count)
    (ha : c.annotate = true → Plain '"' c.server = true ∧ c.serverGroup = none) (cs : List Command) (o : Bool) (cols : List Str)
    (hc : fitsCmds true (c!"id" :: if c.annotate then [c!"_time", c!"_raw", c!"host", c!"source", c!"sourcetype", c!"splunk_server", c!"splunk_server_group"]
      else [c!"_time"]) cs = some (o, cols)) :
    ∃ text, renderPipeline ⟨.disallow, x⟩ (.makeResults c :: cs) = some text ∧
      ∀ (S : Sem) (A : Aggs) (O O' : Arrangement) (T : Str → Frame), definiteCmds S A O cs (madeFrame (madeFields S c) c.count.toNat) →
        ∃ F F', splRun S A O cs (madeFrame (madeFields S c) c.count.toNat) = some F ∧ textRows S A O' T text = some F' ∧
          F.cols = cols ∧ SameTable F F' ∧ (o = true → F' = F) := by
  obtain ⟨d, h1, e, h2, h3⟩ := made_makesRows x c ⟨1, none⟩ h0 ha
  have hcols : ∀ S, (madeFrame (madeFields S c) c.count.toNat).cols = c!"id" ::
      if c.annotate then [c!"_time", c!"_raw", c!"host", c!"source", c!"sourcetype", c!"splunk_server", c!"splunk_server_group"] else [c!"_time"] := fun S => by
    unfold madeFrame madeFields
    split <;> rfl
  have hg : goodCols (c!"id" :: if c.annotate then [c!"_time", c!"_raw", c!"host", c!"source", c!"sourcetype", c!"splunk_server", c!"splunk_server_group"]
      else [c!"_time"]) = true := by
    cases c.annotate <;> decide +kernel
  obtain ⟨tr, k1, k2⟩ := cmds_steps x hx cs hg hc
  obtain ⟨s', r1, r2, r3⟩ := k1 (St.put ⟨1, none⟩ d) e h2 (Or.inl rfl)
  obtain ⟨text, t1, t2⟩ := query_of_steps x (q := .makeResults c :: cs) (cs := []) (by simp only [runCmds, h1, r1]) r2 r3
  refine ⟨text, t1, fun S A O O' T hd => ?_⟩
  obtain ⟨G, G', g1, g2, g3, g4⟩ := k2 S A O O' T e _ _ (h3 S A O' T) ⟨rfl, .refl _, fun _ => rfl⟩ (hcols S) hd
  refine ⟨G, G', g1, by rw [t2, g2], g4, ⟨g3.1, g3.2.1⟩, fun ho => ?_⟩
  have e1 := g3.1
  have e2 := g3.2.2 ho
  cases G; cases G'
  simp only at e1 e2
  rw [e1, e2]

example : (fitsCmds true [c!"id", c!"_time"] [.eval [(c!"a", .const (.int 1))], .head (.const (.int 2)) false false]) =
    some (true, [c!"id", c!"_time", c!"a"]) ∧
    parse c!"makeresults count=3 | eval a=1 | head 2" =
      some [.makeResults ⟨3, false, c!"local", none⟩, .eval [(c!"a", .const (.int 1))], .head (.const (.int 2)) false false] :=
  ⟨by decide +kernel, isParse_sound (by decide +kernel)⟩

/-- The additional column is one SPL does not have, whatever the options: a query that goes on with all fields sees it. -/
theorem C79_extra_column (S : Sem) (c : MakeResults) (n : Nat) : c!"id" ∈ (madeFrame (madeFields S c) n).cols ∧ c!"id" ∉ (splMade S c).cols := by
  refine ⟨List.mem_cons_self .., ?_⟩
  unfold splMade madeFields
  dsimp only
  split <;> simp

set_option maxRecDepth 4000 in
/-- A group of servers is written into the program as a name of Python, not as a text: the program has a variable nothing
is assigned to. -/
theorem C79_group_refused (x : Ext) : parse c!"makeresults annotate=t splunk_server_group=g" = some [.makeResults ⟨1, true, c!"local", some c!"g"⟩] ∧
    ∃ text, renderPipeline ⟨.disallow, x⟩ [.makeResults ⟨1, true, c!"local", some c!"g"⟩] = some text ∧
      ((readProg text).any fun p => (vars p.result).contains c!"g" && !inScope globals p.stmts p.result) = true :=
  ⟨isParse_sound (by decide +kernel), c!"spark.range(0, 1, 1).withColumn('_time', F.current_timestamp(),).withColumn('_raw', F.lit(None),).withColumn('host', F.lit(None),).withColumn('source', F.lit(None),).withColumn('sourcetype', F.lit(None),).withColumn('splunk_server', F.lit(\"local\"),).withColumn('splunk_server_group', F.lit(g),)",
    by rfl, by decide +kernel⟩

end Verif.Props
