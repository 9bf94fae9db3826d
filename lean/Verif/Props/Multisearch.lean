import Verif.Props.Matching
import Verif.Spec.Multi
/-
C41: the rows of `multisearch`.
-/
namespace Verif.Props
open Verif Spl Spec Lemmas

theorem colsOk_nodup {cols : List Str} (h : ColsOk cols = true) : cols.Nodup := by
  have := of_decide_eq_true ((Bool.and_eq_true ..).mp h).2
  exact (List.pairwise_map.1 this).imp fun h e => h (by rw [e])

theorem colsOk_left {a b : List Str} (h : ColsOk (a ++ b) = true) : ColsOk a = true := by
  simp only [ColsOk, List.all_append, Bool.and_eq_true, decide_eq_true_eq, List.map_append] at h ⊢
  exact ⟨h.1.1, (List.nodup_append.1 h.2).1⟩

/-- Adding columns that are different from each other. -/
theorem foldl_addCol_filter : ∀ (l cs : List Str), l.Nodup → l.foldl addCol cs = cs ++ l.filter fun n => !cs.contains n
  | [], cs, _ => by simp
  | n :: l, cs, h => by
    rw [List.nodup_cons] at h
    rw [List.foldl_cons, foldl_addCol_filter l _ h.2]
    by_cases hn : n ∈ cs
    · simp [addCol, hn]
    · have : l.filter (fun m => !(cs ++ [n]).contains m) = l.filter fun m => !cs.contains m := by
        apply List.filter_congr
        intro m hm
        have : m ≠ n := fun e => h.1 (e ▸ hm)
        simp [this]
      rw [addCol, if_neg hn, this]
      simp [hn]

theorem onlyFields_more {a b : List Str} (h : ∀ n ∈ a, n ∈ b) (r : Event) : onlyFields b (onlyFields a r) = onlyFields a r := by
  funext m
  simp only [onlyFields]
  by_cases ha : m ∈ a
  · simp [ha, h m ha]
  · simp [ha]

/-- the program of the union -/
def unionCode (e t : PyE) : PyE := mCall e c!"unionByName" [t, .kwarg c!"allowMissingColumns" (.name c!"True")]

/-- Further searches, added to a frame whose rows have only its columns. -/
theorem multi_steps (x : Ext) (hx : Arranges x) (colsOf : Str → List Str) : ∀ (ps : List (List Command)) (fs : List (Bool × List Str)) (cols : List Str),
    each (fitsQuery colsOf) ps = some fs → (∀ f ∈ fs, goodCols f.2 = true) → ColsOk ((fs.flatMap Prod.snd).foldl addCol cols) = true →
    ∃ tr : PyE → PyE,
      (∀ n d e, progTree d = some ⟨[], e⟩ → ∃ n' d', multiTr ⟨.disallow, x⟩ ps n (some d) = some ⟨n', some d'⟩ ∧ progTree d' = some ⟨[], tr e⟩) ∧
      ∀ (S : Sem) (A : Aggs) (O O' : Arrangement) (T T' : Str → Frame), (∀ i, (T i).cols = colsOf i) → (∀ i, SameTable (T i) (T' i)) →
        (∀ p ∈ ps, Definite S A O T p) → ∀ (e : PyE) (rows : List Event) (F' : Frame), frameEval S A O' T' e = some F' → F'.cols = cols →
          F'.rows.Perm rows → (∀ r ∈ rows, onlyFields cols r = r) →
          ∃ Gs G', each (splQuery S A O T) ps = some Gs ∧ frameEval S A O' T' (tr e) = some G' ∧ Gs.map Frame.cols = fs.map Prod.snd ∧
            G'.cols = (fs.flatMap Prod.snd).foldl addCol cols ∧
            G'.rows.Perm (rows ++ Gs.flatMap fun G => G.rows.map (onlyFields G.cols))
  | [], fs, cols, h, _, _ => by
    simp only [each, Option.some.injEq] at h
    subst h
    exact ⟨id, fun n d e he => ⟨n, d, rfl, he⟩, fun S A O O' T T' hc hs _ e rows F' hF h1 h2 h3 =>
      ⟨[], F', rfl, hF, rfl, h1, by simpa using h2⟩⟩
  | p :: ps, fs, cols, h, hg, hok => by
    simp only [each, Option.bind_eq_some_iff, Option.map_eq_some_iff] at h
    obtain ⟨⟨o, ccols⟩, hp, fs', hps, rfl⟩ := h
    obtain ⟨t, h1, h2⟩ := translates_query x hx colsOf p o ccols hp
    have hgc : goodCols ccols = true := hg (o, ccols) (by simp)
    simp only [List.flatMap_cons, List.foldl_append] at hok
    obtain ⟨tr, i1, i2⟩ := multi_steps x hx colsOf ps fs' (ccols.foldl addCol cols) hps (fun f hf => hg f (by simp [hf])) hok
    refine ⟨fun e => tr (unionCode e t), fun n d e he => ?_, fun S A O O' T T' hc hs hd e rows F' hF k1 k2 k3 => ?_⟩
    · obtain ⟨s, g1, g2, g3⟩ := h1 n
      have hu : progTree (.unionByName d s.cur) = some ⟨[], unionCode e t⟩ := by
        simp only [progTree, he, g3, onResult, operand, Option.map_some, unionCode]
      obtain ⟨n', d', j1, j2⟩ := i1 s.next _ _ hu
      exact ⟨n', d', by simp only [multiTr, g1, g2, unionStep]; exact j1, j2⟩
    · obtain ⟨G, G', g1, g2, g3, g4⟩ := h2 S A O O' T T' hc hs (hd p (by simp))
      have hcols : cols ++ G.cols.filter (fun n => !cols.contains n) = ccols.foldl addCol cols := by
        rw [g4, foldl_addCol_filter _ _ (colsOk_nodup (goodCols_ok hgc))]
      have hok1 : ColsOk (ccols.foldl addCol cols) = true := by
        obtain ⟨b, hb⟩ := foldl_addCol (fs'.flatMap Prod.snd) (ccols.foldl addCol cols)
        rw [hb] at hok
        exact colsOk_left hok
      have hu : frameEval S A O' T' (unionCode e t) =
          some ⟨ccols.foldl addCol cols, F'.rows.map (onlyFields cols) ++ G'.rows.map (onlyFields G.cols)⟩ := by
        rw [unionCode, frameEval_union hF g2]
        simp only [unionFrame, k1, g3.1, hcols, okFrame, hok1, if_true]
      have hperm : (F'.rows.map (onlyFields cols) ++ G'.rows.map (onlyFields G.cols)).Perm (rows ++ G.rows.map (onlyFields G.cols)) := by
        refine List.Perm.append ?_ (g3.2.1.map _)
        have := k2.map (onlyFields cols)
        rwa [List.map_congr_left (l := rows) (g := id) (fun r hr => k3 r hr), List.map_id] at this
      have honly : ∀ r ∈ rows ++ G.rows.map (onlyFields G.cols), onlyFields (ccols.foldl addCol cols) r = r := by
        intro r hr
        rcases List.mem_append.1 hr with hr | hr
        · rw [← k3 r hr]
          refine onlyFields_more (fun n hn => ?_) r
          rw [← hcols]
          exact List.mem_append_left _ hn
        · obtain ⟨r', _, rfl⟩ := List.mem_map.1 hr
          refine onlyFields_more (fun n hn => ?_) r'
          rw [← hcols]
          by_cases hm : n ∈ cols
          · exact List.mem_append_left _ hm
          · exact List.mem_append_right _ (List.mem_filter.2 ⟨hn, by simpa using hm⟩)
      obtain ⟨Gs, H, j1, j2, j3, j4, j5⟩ := i2 S A O O' T T' hc hs (fun p hp => hd p (by simp [hp])) _ _ _ hu rfl hperm honly
      refine ⟨G :: Gs, H, by simp only [each, g1, j1, Option.bind_some, Option.map_some], j2, by simp [g4, j3], ?_, ?_⟩
      · rw [List.flatMap_cons, List.foldl_append]; exact j4
      · rw [List.flatMap_cons, ← List.append_assoc]; exact j5

/-- What has to be shown of a query that starts with `multisearch`. -/
def ComputesTogether (x : Ext) (colsOf : Str → List Str) (ps : List (List Command)) (cs : List Command) (ordered : Bool) (cols : List Str)
    (text : Str) : Prop :=
  renderPipeline ⟨.disallow, x⟩ (.multiSearch ps :: cs) = some text ∧
    ∀ (S : Sem) (A : Aggs) (O O' : Arrangement) (T T' : Str → Frame), (∀ i, (T i).cols = colsOf i) → (∀ i, SameTable (T i) (T' i)) →
      DefiniteMulti S A O T ps cs →
      ∃ F F', splMulti S A O T ps cs = some F ∧ textRows S A O' T' text = some F' ∧ F.cols = cols ∧ SameTable F F' ∧
        (ordered = true → F'.rows = F.rows)

/-- **C41** (partial).  `multisearch` with searches of the fragment of C75, followed by commands of the fragment: the program
computes the events of all the searches, each with the fields it has, and what the commands make of them.
Missing: searches outside the fragment, `multisearch` after other commands (`C41_forgets_input`), with the library
(`C41_runtime_text_broken`). -/
theorem C41_rows_partial (x : Ext) (hx : Arranges x) (colsOf : Str → List Str) (ps : List (List Command)) (cs : List Command)
    (ordered : Bool) (cols : List Str) (h : fitsMulti colsOf ps cs = some (ordered, cols)) :
    ∃ text, ComputesTogether x colsOf ps cs ordered cols text := by
  simp only [fitsMulti, Option.bind_eq_some_iff] at h
  obtain ⟨fs, hfs, h⟩ := h
  split at h
  case isFalse => cases h
  rename_i hc
  simp only [Bool.and_eq_true, decide_eq_true_eq, List.all_eq_true] at hc
  obtain ⟨⟨hlen, hgood⟩, hall⟩ := hc
  obtain ⟨p, q, ps, rfl⟩ : ∃ p q qs, ps = p :: q :: qs := by
    match ps, hlen with
    | p :: q :: qs, _ => exact ⟨p, q, qs, rfl⟩
  have hfs0 := hfs
  rw [each] at hfs
  simp only [Option.bind_eq_some_iff, Option.map_eq_some_iff] at hfs
  obtain ⟨⟨o, c1⟩, hp, fs', hps, rfl⟩ := hfs
  simp only [List.flatMap_cons, List.foldl_append] at hgood h
  have hg1 : goodCols c1 = true := hall (o, c1) (by simp)
  have hc1 : c1.foldl addCol [] = c1 := by
    rw [foldl_addCol_filter _ _ (colsOk_nodup (goodCols_ok hg1))]
    simp
  rw [hc1] at hgood h
  obtain ⟨t, t1, t2⟩ := translates_query x hx colsOf p o c1 hp
  rw [each] at hps
  simp only [Option.bind_eq_some_iff, Option.map_eq_some_iff] at hps
  obtain ⟨⟨o2, c2⟩, hq, fs'', hqs, rfl⟩ := hps
  have hg2 : goodCols c2 = true := hall (o2, c2) (by simp)
  obtain ⟨u, u1, u2⟩ := translates_query x hx colsOf q o2 c2 hq
  simp only [List.flatMap_cons, List.foldl_append] at hgood h
  obtain ⟨tr, i1, i2⟩ := multi_steps x hx colsOf ps fs'' (c2.foldl addCol c1) hqs (fun f hf => hall f (by simp [hf])) (goodCols_ok hgood)
  obtain ⟨cr, r1, r2⟩ := cmds_steps x hx cs hgood h
  obtain ⟨s, a1, a2, a3⟩ := t1 1
  obtain ⟨s2, b1, b2, b3⟩ := u1 s.next
  have hu : progTree (.unionByName s.cur s2.cur) = some ⟨[], unionCode t u⟩ := by
    simp only [progTree, a3, b3, onResult, operand, Option.map_some, unionCode]
  obtain ⟨n', d', e1, e2⟩ := i1 s2.next _ _ hu
  obtain ⟨s3, f1, f2, f3⟩ := r1 ⟨n', some d'⟩ _ e2 (Or.inl rfl)
  have hrun : runCmds ⟨.disallow, x⟩ (.multiSearch (p :: q :: ps) :: cs) ⟨1, none⟩ = some s3 := by
    have : transform ⟨.disallow, x⟩ (.multiSearch (p :: q :: ps)) ⟨1, none⟩ = some ⟨n', some d'⟩ := by
      simp only [transform, dispatch, multiTr, a1, a2, unionStep, b1, b2]
      exact e1
    simp only [runCmds, this, f1]
  obtain ⟨text, x1, x2⟩ := query_of_steps x (cs := []) hrun f2 f3
  refine ⟨text, x1, fun S A O O' T T' hc hs hd => ?_⟩
  obtain ⟨F, F', g1, g2, g3, g4⟩ := t2 S A O O' T T' hc hs (hd.1 p (by simp))
  obtain ⟨G, G', k1, k2, k3, k4⟩ := u2 S A O O' T T' hc hs (hd.1 q (by simp))
  have hcols : c1 ++ c2.filter (fun n => !c1.contains n) = c2.foldl addCol c1 := by
    rw [foldl_addCol_filter _ _ (colsOk_nodup (goodCols_ok hg2))]
  have hok1 : ColsOk (c2.foldl addCol c1) = true := by
    obtain ⟨b, hb⟩ := foldl_addCol (fs''.flatMap Prod.snd) (c2.foldl addCol c1)
    have := goodCols_ok hgood
    rw [hb] at this
    exact colsOk_left this
  have hue : frameEval S A O' T' (unionCode t u) =
      some ⟨c2.foldl addCol c1, F'.rows.map (onlyFields c1) ++ G'.rows.map (onlyFields c2)⟩ := by
    rw [unionCode, frameEval_union g2 k2]
    simp only [unionFrame, g3.1, k3.1, g4, k4, hcols, okFrame, hok1, if_true]
  obtain ⟨Gs, H, j1, j2, j3, j4, j5⟩ := i2 S A O O' T T' hc hs (fun p hp => hd.1 p (by simp [hp])) _
    (F.rows.map (onlyFields c1) ++ G.rows.map (onlyFields c2)) _ hue rfl
    ((g3.2.1.map _).append (k3.2.1.map _)) (by
      intro r hr
      rcases List.mem_append.1 hr with hr | hr
      · obtain ⟨r', _, rfl⟩ := List.mem_map.1 hr
        refine onlyFields_more (fun n hn => ?_) r'
        rw [← hcols]
        exact List.mem_append_left _ hn
      · obtain ⟨r', _, rfl⟩ := List.mem_map.1 hr
        refine onlyFields_more (fun n hn => ?_) r'
        rw [← hcols]
        by_cases hm : n ∈ c1
        · exact List.mem_append_left _ hm
        · exact List.mem_append_right _ (List.mem_filter.2 ⟨hn, by simpa using hm⟩))
  have hall : each (splQuery S A O T) (p :: q :: ps) = some (F :: G :: Gs) := by
    simp only [each, g1, k1, j1, Option.bind_some, Option.map_some]
  have hGs : Gs.flatMap Frame.cols = fs''.flatMap Prod.snd := by
    rw [List.flatMap_def, j3, List.flatMap_def]
  have htc : (splTogether (F :: G :: Gs)).cols = H.cols := by
    simp only [splTogether, List.flatMap_cons, List.foldl_append, g4, k4, hc1, hGs, j4]
  obtain ⟨R, R', m1, m2, m3, m4⟩ := r2 S A O O' T' _ (splTogether (F :: G :: Gs)) H j2
    ⟨htc.symm, by simpa [splTogether, g4, k4] using j5, by simp⟩ (by rw [htc, j4]) (hd.2 _ hall)
  refine ⟨R, R', ?_, by rw [x2]; exact m2, m4, ⟨m3.1, m3.2.1⟩, m3.2.2⟩
  rw [splMulti, hall, Option.bind_some]
  exact m1

/-- two searches of the fragment, of tables with different columns -/
def twoSearches : List (List Command) :=
  [ [.search (.binary (.binary (.const (.field c!"index")) c!"=" (.const (.field c!"web"))) c!"AND"
      (.binary (.const (.field c!"status")) c!">=" (.const (.int 400))))],
    [.search (.binary (.const (.field c!"index")) c!"=" (.const (.field c!"db"))), .eval [(c!"kind", .const (.str c!"db"))]] ]

/-- `web` has `host status`, every other table `host query` -/
def twoTables : Str → List Str := fun i => if i = c!"web" then [c!"host", c!"status"] else [c!"host", c!"query"]

example : parse c!"multisearch [search index=web status>=400] [search index=db | eval kind=\"db\"] | where host=\"a\" | stats count by host" =
      some [.multiSearch twoSearches, .where_ (.binary (.const (.field c!"host")) c!"=" (.const (.str c!"a"))),
        .stats ⟨1, false, c!" "⟩ [.call c!"count" []] (some [⟨c!"host", none⟩]) false] ∧
    fitsMulti twoTables twoSearches [.where_ (.binary (.const (.field c!"host")) c!"=" (.const (.str c!"a"))),
        .stats ⟨1, false, c!" "⟩ [.call c!"count" []] (some [⟨c!"host", none⟩]) false] = some (false, [c!"host", c!"count"]) ∧
    fitsMulti twoTables twoSearches [] = some (false, [c!"host", c!"status", c!"query", c!"kind"]) :=
  ⟨isParse_sound (by decide +kernel), by decide +kernel, by decide +kernel⟩

/-- the events of two searches -/
example (S : Sem) (A : Aggs) (O : Arrangement) (T : Str → Frame)
    (ha : T c!"a" = ⟨[c!"x"], [rowOf [(c!"x", .num 1)]]⟩) (hb : T c!"b" = ⟨[c!"y"], [rowOf [(c!"y", .num 2)]]⟩) :
    ∃ F, splMulti S A O T [[.search (.binary (.const (.field c!"index")) c!"=" (.const (.field c!"a")))],
        [.search (.binary (.const (.field c!"index")) c!"=" (.const (.field c!"b")))]] [] = some F ∧
      F.cols = [c!"x", c!"y"] ∧ F.rows.map (fun r => (r c!"x", r c!"y")) = [(.num 1, .null), (.null, .num 2)] := by
  have ea : splQuery S A O T [.search (.binary (.const (.field c!"index")) c!"=" (.const (.field c!"a")))] = some (T c!"a") := by
    rw [splQuery, show (searchTerms (.binary (.const (.field c!"index")) c!"=" (.const (.field c!"a")))).filterMap indexValue = [c!"a"] from rfl]
    dsimp only; rw [ha]; rfl
  have eb : splQuery S A O T [.search (.binary (.const (.field c!"index")) c!"=" (.const (.field c!"b")))] = some (T c!"b") := by
    rw [splQuery, show (searchTerms (.binary (.const (.field c!"index")) c!"=" (.const (.field c!"b")))).filterMap indexValue = [c!"b"] from rfl]
    dsimp only; rw [hb]; rfl
  refine ⟨splTogether [T c!"a", T c!"b"], by simp only [splMulti, each, ea, eb]; rfl, ?_, ?_⟩
  · rw [ha, hb]; rfl
  · rw [ha, hb]; rfl

end Verif.Props
