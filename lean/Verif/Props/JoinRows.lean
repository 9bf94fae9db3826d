import Verif.Props.Multisearch
import Verif.Spec.Join
import Verif.Props.Program
/-
C87: the rows of `join`.
-/
namespace Verif.Props
open Verif Spl Spec Lemmas

/-! ### the condition -/

/-- A condition on a row of either side. -/
def Joins (lc rc : List Str) (p : PE) (f : Sem → Event → Event → Bool) : Prop :=
  p.unalias = p ∧ ∃ t, pyTree p = some t ∧ (colRefs t).all (bothKnow c!"LEFT" c!"RIGHT" lc rc) = true ∧
    ∀ S l r, ∃ v, pyEval S (bothRows c!"LEFT" c!"RIGHT" l r) t = some (.column v) ∧ (S.truth v == some true) = f S l r

theorem strip_left (n : Str) : stripPrefix? (c!"LEFT" ++ c!".") (c!"LEFT." ++ n) = some n := by
  rw [stripPrefix?_some]; rfl

theorem strip_right (n : Str) : stripPrefix? (c!"LEFT" ++ c!".") (c!"RIGHT." ++ n) = none ∧
    stripPrefix? (c!"RIGHT" ++ c!".") (c!"RIGHT." ++ n) = some n :=
  ⟨by simp [stripPrefix?], by rw [stripPrefix?_some]; rfl⟩

/-- a comparison of the columns of one name -/
theorem joins_cmp {lc rc : List Str} {f op : Str} {o : Oper} (ho : pyOp op = some o) (hl : (opLevel op).isSome = true)
    (hc : o = .eq ∨ o = .ge ∨ o = .le) (h1 : f ∈ lc) (h2 : f ∈ rc) (hp : Plain '\'' f = true) :
    Joins lc rc (PE.mkBin (.named (c!"LEFT." ++ f)) op (.named (c!"RIGHT." ++ f))) fun S l r => S.cmp o (l f) (r f) == some true := by
  have pl : Plain '\'' (c!"LEFT." ++ f) = true := plain_append (by decide +kernel) hp
  have pr : Plain '\'' (c!"RIGHT." ++ f) = true := plain_append (by decide +kernel) hp
  refine ⟨rfl, .bin op (fCall c!"col" [.str (c!"LEFT." ++ f)]) (fCall c!"col" [.str (c!"RIGHT." ++ f)]), ?_, ?_, fun S l r => ?_⟩
  · simp only [PE.mkBin, PE.unalias, pyTree, hl, if_true, pl, pr]
  · simp [fCall, colRefs, textName, bothKnow, stripPrefix?, h1, h2]
  · refine ⟨S.op o (l f) (r f), ?_, ?_⟩
    · simp only [fCall, pyEval, ho, pyEvals, fFn, if_true, Option.bind_some, Option.map_some, Obj.isColumn, Bool.or_self, Obj.val,
        bothRows, strip_left, strip_right]
    · rcases hc with rfl | rfl | rfl <;> simp only [Sem.op, S.truth_ofB]

theorem joins_and {lc rc : List Str} {p q : PE} {f g : Sem → Event → Event → Bool} (h : Joins lc rc p f) (k : Joins lc rc q g) :
    Joins lc rc (.bin c!"&" p q) fun S l r => f S l r && g S l r := by
  obtain ⟨_, t, h1, h2, h3⟩ := h
  obtain ⟨_, u, k1, k2, k3⟩ := k
  refine ⟨rfl, .bin c!"&" t u, ?_, ?_, fun S l r => ?_⟩
  · simp only [pyTree, h1, k1]
    rfl
  · rw [colRefs, List.all_append, h2, k2]; rfl
  · obtain ⟨v, a1, a2⟩ := h3 S l r
    obtain ⟨w, b1, b2⟩ := k3 S l r
    refine ⟨S.op .and v w, ?_, ?_⟩
    · rw [pyEval, show pyOp c!"&" = some .and from rfl, a1, b1]
      rfl
    · show _ = (f S l r && g S l r)
      rw [← a2, ← b2]
      simp only [Sem.op, S.truth_ofB]
      cases S.truth v with
      | none => cases S.truth w with
        | none => rfl
        | some b => cases b <;> rfl
      | some a => cases a <;> cases S.truth w with
        | none => rfl
        | some b => cases b <;> rfl

theorem joins_key {lc rc : List Str} {f : Str} (h1 : f ∈ lc) (h2 : f ∈ rc) (hp : Plain '\'' f = true) :
    Joins lc rc (joinKey f) fun S l r => S.cmp .eq (l f) (r f) == some true :=
  joins_cmp rfl rfl (.inl rfl) h1 h2 hp

theorem joins_keys {lc rc : List Str} : ∀ (fs : List Str) (p : PE) (f : Sem → Event → Event → Bool), Joins lc rc p f →
    (∀ n ∈ fs, n ∈ lc ∧ n ∈ rc ∧ Plain '\'' n = true) →
    Joins lc rc (joinBinFrom c!"&" p (fs.map joinKey)) fun S l r => f S l r && fs.all fun n => S.cmp .eq (l n) (r n) == some true
  | [], p, f, h, _ => by simpa [joinBinFrom] using h
  | n :: fs, p, f, h, hf => by
    obtain ⟨a, b, c⟩ := hf n (by simp)
    have := joins_keys fs _ _ (joins_and h (joins_key a b c)) fun n hn => hf n (by simp [hn])
    simpa only [List.map_cons, joinBinFrom, List.all_cons, Bool.and_assoc] using this

/-- The whole condition is the one SPL describes. -/
theorem joins_condition {lc rc : List Str} {o : JoinOpts} {f : Str} {fs : List Str} (hf : ∀ n ∈ f :: fs, n ∈ lc ∧ n ∈ rc ∧ Plain '\'' n = true)
    (ht : o.useTime = true → c!"_time" ∈ lc ∧ c!"_time" ∈ rc) :
    Joins lc rc (joinTime o.useTime o.earlier (joinBinFrom c!"&" (joinKey f) (fs.map joinKey))) fun S l r => splMatch S o (f :: fs) l r := by
  obtain ⟨a, b, c⟩ := hf f (by simp)
  have hk := joins_keys fs _ _ (joins_key a b c) fun n hn => hf n (by simp [hn])
  unfold joinTime
  by_cases hu : o.useTime = true
  · rw [if_pos hu]
    obtain ⟨t1, t2⟩ := ht hu
    have hm : ∀ p q : PE, p.unalias = p → q.unalias = q → PE.mkBin p c!"&" q = .bin c!"&" p q := fun p q hp hq => by rw [PE.mkBin, hp, hq]
    by_cases he : o.earlier = true
    · have htime : Joins lc rc (PE.mkBin (.named c!"LEFT._time") c!">=" (.named c!"RIGHT._time")) fun S l r =>
          S.cmp .ge (l c!"_time") (r c!"_time") == some true :=
        joins_cmp (f := c!"_time") rfl rfl (.inr (.inl rfl)) t1 t2 (by decide +kernel)
      rw [if_pos he, hm _ _ hk.1 htime.1]
      simpa [splMatch, hu, he] using joins_and hk htime
    · have htime : Joins lc rc (PE.mkBin (.named c!"LEFT._time") c!"<=" (.named c!"RIGHT._time")) fun S l r =>
          S.cmp .le (l c!"_time") (r c!"_time") == some true :=
        joins_cmp (f := c!"_time") rfl rfl (.inr (.inr rfl)) t1 t2 (by decide +kernel)
      rw [if_neg he, hm _ _ hk.1 htime.1]
      simpa [splMatch, hu, he] using joins_and hk htime
  · rw [if_neg hu]
    simpa [splMatch, hu] using hk

/-! ### the rows -/

/-- the rows of a join -/
def pairRows (how : Str) (m : Event → Event → Bool) (L R : List Event) : List (Option Event × Option Event) :=
  (L.flatMap fun l => if (R.filter (m l)).isEmpty then (if how = c!"inner" then [] else [(some l, none)])
    else (R.filter (m l)).map fun r => (some l, some r)) ++
  if how = c!"outer" then (R.filter fun r => L.all fun l => !m l r).map fun r => (none, some r) else []

theorem joinRows_eq {how : Str} {f : Event → Event → Option Bool} {m : Event → Event → Bool} (h : ∀ l r, f l r = some (m l r)) (L R : List Event)
    (hh : how = c!"inner" ∨ how = c!"left" ∨ how = c!"outer") : joinRows how f L R = some (pairRows how m L R) := by
  have h1 : matchesOf f L R = some (L.map fun l => (l, R.filter (m l))) := by
    refine each_map fun l _ => ?_
    rw [keepIf_filter (g := m l) fun r _ => h l r]; rfl
  have h2 : unmatched f L R = some (R.filter fun r => L.all fun l => !m l r) := by
    refine keepIf_filter fun r _ => ?_
    rw [each_map (g := fun l => m l r) fun l _ => h l r]
    simp [List.all_map, Function.comp_def]
  simp only [joinRows, h1, h2, Option.bind_some]
  rcases hh with rfl | rfl | rfl
  · simp only [if_true, pairRows, List.flatMap_map, if_neg (show c!"inner" ≠ c!"outer" by decide), List.append_nil, Option.some.injEq]
    congr 1
    funext l
    by_cases he : (R.filter (m l)).isEmpty
    · rw [if_pos he]; rw [List.isEmpty_iff] at he; rw [he]; rfl
    · rw [if_neg he]
  · simp only [if_neg (show c!"left" ≠ c!"inner" by decide), if_neg (show c!"left" ≠ c!"outer" by decide), if_true, pairRows, List.flatMap_map,
      List.append_nil]
  · simp only [if_neg (show c!"outer" ≠ c!"inner" by decide), if_neg (show c!"outer" ≠ c!"left" by decide), if_true, pairRows, List.flatMap_map]

/-- A query that ends with `join`, and the pairs of rows its program computes. -/
theorem join_translates (x : Ext) (hx : Arranges x) (colsOf : Str → List Str) (q : List Command) (o : JoinOpts) (fs : List Str) (sub : List Command)
    {lc rc : List Str} (h : fitsJoin colsOf q o fs sub = some (lc, rc)) :
    ∃ text, renderPipeline ⟨.disallow, x⟩ (q ++ [.join o fs sub]) = some text ∧
      ∀ (S : Sem) (A : Aggs) (O O' : Arrangement) (T T' : Str → Frame), (∀ i, (T i).cols = colsOf i) → (∀ i, SameTable (T i) (T' i)) →
        Definite S A O T q → Definite S A O T sub →
        ∃ L R L' R', splQuery S A O T q = some L ∧ splQuery S A O T sub = some R ∧ L.cols = lc ∧ R.cols = rc ∧ L'.Perm L.rows ∧ R'.Perm R.rows ∧
          textJoin S A O' T' text = some ⟨lc, rc, pairRows o.joinType (splMatch S o fs) L' R'⟩ := by
  simp only [fitsJoin, Option.bind_eq_some_iff] at h
  obtain ⟨⟨oa, lc⟩, ha, ⟨ob, rc⟩, hb, h⟩ := h
  split at h
  case isFalse => cases h
  rename_i hc
  simp only [Option.some.injEq, Prod.mk.injEq] at h
  obtain ⟨rfl, rfl⟩ := h
  simp only [Bool.and_eq_true, decide_eq_true_eq, List.all_eq_true, List.contains_iff_mem, Bool.not_eq_true', Bool.or_eq_true] at hc
  obtain ⟨⟨⟨⟨⟨⟨⟨g1, g2⟩, hne⟩, f1⟩, f2⟩, hmax⟩, hty⟩, htime⟩ := hc
  obtain ⟨f, fs, rfl⟩ : ∃ f fs', fs = f :: fs' := by
    cases fs with
    | nil => simp at hne
    | cons f fs' => exact ⟨f, fs', rfl⟩
  obtain ⟨e, t1, t2⟩ := translates_query x hx colsOf q oa _ ha
  obtain ⟨u, u1, u2⟩ := translates_query x hx colsOf sub ob _ hb
  have hj := joins_condition (o := o) (f := f) (fs := fs)
    (fun n hn => ⟨f1 n hn, f2 n hn, (goodCols_plain g1 (f1 n hn)).1⟩) (fun hu => by
      rcases htime with ht | ht
      · rw [hu] at ht; cases ht
      · exact ht)
  obtain ⟨hun, t, j1, j2, j3⟩ := hj
  obtain ⟨s, a1, a2, a3⟩ := t1 1
  obtain ⟨s', b1, b2, b3⟩ := u1 s.next
  have hty3 : o.joinType = c!"inner" ∨ o.joinType = c!"left" ∨ o.joinType = c!"outer" := by simpa using hty
  have hpt : Plain '\'' o.joinType = true := by rcases hty3 with h | h | h <;> rw [h] <;> decide +kernel
  have hcond : (o.joinType = c!"inner" || o.joinType = c!"left" || o.joinType = c!"outer") = true := by
    rcases hty3 with h | h | h <;> rw [h] <;> decide +kernel
  generalize hd : (DF.alias s.cur c!"LEFT").mkJoin (.alias s'.cur c!"RIGHT")
      (joinTime o.useTime o.earlier (joinBinFrom c!"&" (joinKey f) (fs.map joinKey))) o.joinType = d
  have htr : transform ⟨.disallow, x⟩ (.join o (f :: fs) sub) s = some ⟨s'.next, some d⟩ := by
    simp only [transform, dispatch, b1, joinTr, joinOutcome, hmax, if_true, b2, hcond, List.map_cons, joinAsBinaries, Outcome.toOption, hd]
  have hrun : runCmds ⟨.disallow, x⟩ (q ++ [.join o (f :: fs) sub]) ⟨1, none⟩ = some ⟨s'.next, some d⟩ := by
    rw [runCmds_append, a1, Option.bind_some]
    simp only [runCmds, htr]
  have hprog : progTree d = some ⟨[], mCall (mCall e c!"alias" [.str c!"LEFT"]) c!"join"
      [mCall u c!"alias" [.str c!"RIGHT"], t, .str o.joinType]⟩ := by
    rw [← hd, DF.mkJoin, hun]
    simp only [progTree, a3, b3, onResult, operand, j1, hpt, show Plain '\'' c!"LEFT" = true by decide +kernel,
      show Plain '\'' c!"RIGHT" = true by decide +kernel, if_true, Option.map_some]
  refine ⟨d.render.text, by simp only [renderPipeline, hrun, Option.map_some], fun S A O O' T T' hcs hs hd1 hd2 => ?_⟩
  obtain ⟨L, L', l1, l2, l3, l4⟩ := t2 S A O O' T T' hcs hs hd1
  obtain ⟨R, R', r1, r2, r3, r4⟩ := u2 S A O O' T T' hcs hs hd2
  refine ⟨L, R, L'.rows, R'.rows, l1, r1, l4, r4, l3.2.1, r3.2.1, ?_⟩
  have hk : (colRefs t).all (bothKnow c!"LEFT" c!"RIGHT" L'.cols R'.cols) = true := by rw [l3.1, r3.1, l4, r4]; exact j2
  rw [textJoin, read_prog hprog]
  simp only [mCall, joinEval, if_true, aliasedFrame, Option.bind_some, l2, r2, hk, ne_eq, show c!"LEFT" ≠ c!"RIGHT" by decide, not_false_eq_true,
    decide_true, Bool.and_self]
  rw [joinRows_eq (m := splMatch S o (f :: fs)) (fun l r => by
    obtain ⟨v, v1, v2⟩ := j3 S l r
    simp only [colValue, v1, Option.bind_some, Obj.isColumn, if_true, Obj.val, Option.map_some, v2]) _ _ hty3]
  simp only [Option.map_some, l3.1, r3.1, l4, r4]

/-! ### C87 -/

/-- What has to be shown of a query that ends with `join`: one text, and on all tables the frame SPL describes and the one
the program computes. -/
def JoinComputes (x : Ext) (colsOf : Str → List Str) (q : List Command) (o : JoinOpts) (fs : List Str) (sub : List Command) (lc rc : List Str)
    (P : Sem → Frame → Frame → Frame → Joined → Prop) : Prop :=
  ∃ text, renderPipeline ⟨.disallow, x⟩ (q ++ [.join o fs sub]) = some text ∧
    ∀ (S : Sem) (A : Aggs) (O O' : Arrangement) (T T' : Str → Frame), (∀ i, (T i).cols = colsOf i) → (∀ i, SameTable (T i) (T' i)) →
      Definite S A O T q → Definite S A O T sub →
      ∃ L R F J, splQuery S A O T q = some L ∧ splQuery S A O T sub = some R ∧ splJoinQuery S A O T q o fs sub = some F ∧
        textJoin S A O' T' text = some J ∧ J.left = lc ∧ J.right = rc ∧ P S L R F J

theorem fitsJoin_facts {colsOf : Str → List Str} {q : List Command} {o : JoinOpts} {fs : List Str} {sub : List Command} {lc rc : List Str}
    (h : fitsJoin colsOf q o fs sub = some (lc, rc)) :
    goodCols lc = true ∧ goodCols rc = true ∧ (∀ n ∈ fs, n ∈ lc ∧ n ∈ rc) ∧ o.max = 1 ∧ o.joinType ∈ [c!"inner", c!"left", c!"outer"] := by
  simp only [fitsJoin, Option.bind_eq_some_iff] at h
  obtain ⟨⟨oa, lc⟩, ha, ⟨ob, rc⟩, hb, h⟩ := h
  split at h
  case isFalse => cases h
  rename_i hc
  simp only [Option.some.injEq, Prod.mk.injEq] at h
  obtain ⟨rfl, rfl⟩ := h
  simp only [Bool.and_eq_true, decide_eq_true_eq, List.all_eq_true, List.contains_iff_mem] at hc
  obtain ⟨⟨⟨⟨⟨⟨⟨g1, g2⟩, hne⟩, f1⟩, f2⟩, hmax⟩, hty⟩, htime⟩ := hc
  exact ⟨g1, g2, fun n hn => ⟨f1 n hn, f2 n hn⟩, hmax, hty⟩

theorem join_computes (x : Ext) (hx : Arranges x) (colsOf : Str → List Str) (q : List Command) (o : JoinOpts) (fs : List Str) (sub : List Command)
    {lc rc : List Str} (h : fitsJoin colsOf q o fs sub = some (lc, rc)) (P : Sem → Frame → Frame → Frame → Joined → Prop)
    (hP : ∀ S L R L' R', L.cols = lc → R.cols = rc → L'.Perm L.rows → R'.Perm R.rows →
      P S L R ⟨R.cols.foldl addCol L.cols, L.rows.flatMap fun l =>
        if (R.rows.filter (splMatch S o fs l)).isEmpty then (if o.joinType = c!"inner" then [] else [onlyFields L.cols l])
        else ((R.rows.filter (splMatch S o fs l)).take 1).map (splJoinedRow o fs L.cols R.cols l)⟩
        ⟨lc, rc, pairRows o.joinType (splMatch S o fs) L' R'⟩) : JoinComputes x colsOf q o fs sub lc rc P := by
  obtain ⟨text, h1, h2⟩ := join_translates x hx colsOf q o fs sub h
  obtain ⟨_, _, _, hmax, hty⟩ := fitsJoin_facts h
  refine ⟨text, h1, fun S A O O' T T' hc hs hd1 hd2 => ?_⟩
  obtain ⟨L, R, L', R', a1, a2, a3, a4, a5, a6, a7⟩ := h2 S A O O' T T' hc hs hd1 hd2
  refine ⟨L, R, _, _, a1, a2, ?_, a7, rfl, rfl, hP S L R L' R' a3 a4 a5 a6⟩
  rw [splJoinQuery, a1, a2, Option.bind_some, Option.bind_some, splJoin, if_pos ⟨by rw [hmax]; decide, hty⟩]
  simp only [hmax, if_neg (show (1 : Int) ≠ 0 by decide)]
  rfl

/-- a list with at most one element has one order -/
theorem perm_single {α} {a b : List α} (h : a.Perm b) (hb : b.length ≤ 1) : a = b := by
  match b, hb with
  | [], _ => exact List.perm_nil.1 h
  | [y], _ => exact List.perm_singleton.1 h

/-- **C87** (partial).  A search of the fragment of C75 joined, with `inner` or `left`, with a subsearch of the fragment, on fields both have:
the pairs of rows the program computes are the events SPL describes, with the values of all fields; the second columns of the
fields joined on are left out.
Missing: `outer` and several matches (`C87_too_many`), other fields both have (`C87_ambiguous`), commands after the `join`
(likewise), `max` other than 1 (not translated). -/
theorem C87_join_partial (x : Ext) (hx : Arranges x) (colsOf : Str → List Str) (q : List Command) (o : JoinOpts) (fs : List Str) (sub : List Command)
    {lc rc : List Str} (h : fitsJoin colsOf q o fs sub = some (lc, rc)) (hty : o.joinType ≠ c!"outer") (hdis : ∀ n ∈ rc, n ∈ lc → n ∈ fs) :
    JoinComputes x colsOf q o fs sub lc rc fun S L R F J =>
      F.cols = lc ++ rc.filter (fun n => n ∉ fs) ∧
      ((∀ l ∈ L.rows, (R.rows.filter (splMatch S o fs l)).length ≤ 1) →
        (J.rows.map fun p => sideValues lc p.1 ++ sideValues (rc.filter fun n => n ∉ fs) p.2).Perm (F.rows.map fun r => F.cols.map r)) := by
  obtain ⟨g1, g2, hfs, _, _⟩ := fitsJoin_facts h
  refine join_computes x hx colsOf q o fs sub h _ fun S L R L' R' hL hR pL pR => ?_
  have hcols : rc.foldl addCol lc = lc ++ rc.filter fun n => n ∉ fs := by
    rw [foldl_addCol_filter _ _ (colsOk_nodup (goodCols_ok g2))]
    congr 1
    apply List.filter_congr
    intro n hn
    by_cases hl : n ∈ lc
    · simp [hl, hdis n hn hl]
    · have : n ∉ fs := fun hf => hl (hfs n hf).1
      simp [hl, this]
  dsimp only
  rw [hL, hR, hcols]
  refine ⟨rfl, fun hone => ?_⟩
  have hboth : ∀ l r, sideValues lc (some l) ++ sideValues (rc.filter fun n => n ∉ fs) (some r) =
      (lc ++ rc.filter fun n => n ∉ fs).map (splJoinedRow o fs lc rc l r) := by
    intro l r
    rw [List.map_append]
    congr 1
    · refine List.map_congr_left fun n hn => ?_
      have : ¬ (n ∈ rc ∧ n ∉ fs ∧ r n ≠ .null ∧ (o.overwrite = true ∨ n ∉ lc ∨ l n = .null)) := fun c => c.2.1 (hdis n c.1 hn)
      simp only [splJoinedRow, if_neg this, if_pos hn, Option.map_some, Option.getD_some]
    · refine List.map_congr_left fun n hn => ?_
      obtain ⟨h1, h2⟩ := List.mem_filter.1 hn
      have h2 : n ∉ fs := by simpa using h2
      have h3 : n ∉ lc := fun hl => h2 (hdis n h1 hl)
      by_cases hn : r n = .null
      · simp [splJoinedRow, h3, hn]
      · simp [splJoinedRow, h1, h2, h3, hn]
  have hleft : ∀ l, sideValues lc (some l) ++ sideValues (rc.filter fun n => n ∉ fs) none =
      (lc ++ rc.filter fun n => n ∉ fs).map (onlyFields lc l) := by
    intro l
    rw [List.map_append]
    congr 1
    · refine List.map_congr_left fun n hn => ?_
      simp [onlyFields, hn]
    · refine List.map_congr_left fun n hn => ?_
      obtain ⟨h1, h2⟩ := List.mem_filter.1 hn
      have h2 : n ∉ fs := by simpa using h2
      have h3 : n ∉ lc := fun hl => h2 (hdis n h1 hl)
      simp [onlyFields, h3]
  rw [pairRows, if_neg hty, List.append_nil, List.map_flatMap, List.map_flatMap]
  refine (List.Perm.flatMap_right _ pL).trans (List.Perm.of_eq ?_)
  rw [List.flatMap_def, List.flatMap_def]
  congr 1
  refine List.map_congr_left fun l hl => ?_
  have he := perm_single (pR.filter (splMatch S o fs l)) (hone l hl)
  rw [he]
  have hms := hone l hl
  generalize R.rows.filter (splMatch S o fs l) = ms at hms
  match ms, hms with
  | [], _ =>
    by_cases hi : o.joinType = c!"inner"
    · simp only [List.isEmpty_nil, if_true, if_pos hi, List.map_nil]
    · simp only [List.isEmpty_nil, if_true, if_neg hi, List.map_cons, List.map_nil, hleft]
  | [r], _ => simp only [List.isEmpty_cons, Bool.false_eq_true, if_false, List.map_cons, List.map_nil, hboth, List.take_succ_cons, List.take_nil]

theorem sum_le {α} {f g : α → Nat} : ∀ {l : List α}, (∀ a ∈ l, f a ≤ g a) → (l.map f).sum ≤ (l.map g).sum
  | [], _ => Nat.le_refl _
  | a :: l, h => by
    simp only [List.map_cons, List.sum_cons]
    exact Nat.add_le_add (h a (by simp)) (sum_le fun b hb => h b (by simp [hb]))

theorem sum_lt {α} {f g : α → Nat} : ∀ {l : List α}, (∀ a ∈ l, f a ≤ g a) → (∃ a ∈ l, f a < g a) → (l.map f).sum < (l.map g).sum
  | a :: l, h, ⟨b, hb, hlt⟩ => by
    simp only [List.map_cons, List.sum_cons]
    rcases List.mem_cons.1 hb with rfl | hb
    · exact Nat.add_lt_add_of_lt_of_le hlt (sum_le fun b hb => h b (by simp [hb]))
    · exact Nat.add_lt_add_of_le_of_lt (h a (by simp)) (sum_lt (fun b hb => h b (by simp [hb])) ⟨b, hb, hlt⟩)

/-- Disagreement: `max=1` pairs an event with one matching event of the subsearch, the program with all of them; and `outer` is
`left` in SPL, while the program adds the events of the subsearch that match none.  So there are more rows as soon as an event
has two matches, or with `outer` an event of the subsearch has none. -/
theorem C87_too_many (x : Ext) (hx : Arranges x) (colsOf : Str → List Str) (q : List Command) (o : JoinOpts) (fs : List Str) (sub : List Command)
    {lc rc : List Str} (h : fitsJoin colsOf q o fs sub = some (lc, rc)) :
    JoinComputes x colsOf q o fs sub lc rc fun S L R F J =>
      F.rows.length ≤ J.rows.length ∧
      ((∃ l ∈ L.rows, 2 ≤ (R.rows.filter (splMatch S o fs l)).length) ∨
          (o.joinType = c!"outer" ∧ ∃ r ∈ R.rows, ∀ l ∈ L.rows, splMatch S o fs l r = false) →
        F.rows.length < J.rows.length) := by
  refine join_computes x hx colsOf q o fs sub h _ fun S L R L' R' hL hR pL pR => ?_
  dsimp only
  rw [pairRows, List.length_append, List.length_flatMap, List.length_flatMap, (List.Perm.map _ pL).sum_nat]
  have hle : ∀ l ∈ L.rows, (if (R.rows.filter (splMatch S o fs l)).isEmpty then (if o.joinType = c!"inner" then [] else [onlyFields L.cols l])
        else ((R.rows.filter (splMatch S o fs l)).take 1).map (splJoinedRow o fs L.cols R.cols l)).length ≤
      (if (R'.filter (splMatch S o fs l)).isEmpty then (if o.joinType = c!"inner" then [] else [((some l, none) : Option Event × Option Event)])
        else (R'.filter (splMatch S o fs l)).map fun r => (some l, some r)).length := by
    intro l _
    have hp := pR.filter (splMatch S o fs l)
    generalize R.rows.filter (splMatch S o fs l) = ms at hp
    cases ms with
    | nil =>
      rw [List.perm_nil.1 hp]
      by_cases hi : o.joinType = c!"inner" <;> simp [hi]
    | cons m ms =>
      have hl := hp.length_eq
      generalize R'.filter (splMatch S o fs l) = ms' at hl
      cases ms' with
      | nil => simp at hl
      | cons => simp
  refine ⟨Nat.le_trans (sum_le hle) (Nat.le_add_right _ _), ?_⟩
  rintro (⟨l, hl, h2⟩ | ⟨ho, r, hr, hn⟩)
  · refine Nat.lt_of_lt_of_le (sum_lt hle ⟨l, hl, ?_⟩) (Nat.le_add_right _ _)
    have hp := (pR.filter (splMatch S o fs l)).length_eq
    generalize R.rows.filter (splMatch S o fs l) = ms at hp h2
    generalize R'.filter (splMatch S o fs l) = ms' at hp
    match ms, ms', hp, h2 with
    | a :: b :: ms, a' :: b' :: ms', _, _ => simp
    | a :: b :: ms, [a'], hp, _ => simp at hp
    | a :: b :: ms, [], hp, _ => simp at hp
  · refine Nat.lt_of_le_of_lt (sum_le hle) ?_
    rw [if_pos ho, List.length_map]
    refine Nat.lt_add_of_pos_right (List.length_pos_of_mem (a := r) (List.mem_filter.2 ⟨pR.mem_iff.2 hr, ?_⟩))
    rw [List.all_eq_true]
    intro l hl
    rw [hn l (pL.mem_iff.1 hl)]
    rfl

/-- Disagreement: after the `join` there are two columns of every name both sides have, among them the fields joined on, so that
Spark does not know which one is meant by it.  The events SPL describes have such a field once. -/
theorem C87_ambiguous (x : Ext) (hx : Arranges x) (colsOf : Str → List Str) (q : List Command) (o : JoinOpts) (fs : List Str) (sub : List Command)
    {lc rc : List Str} (h : fitsJoin colsOf q o fs sub = some (lc, rc)) :
    JoinComputes x colsOf q o fs sub lc rc fun _ _ _ F J =>
      fs ≠ [] ∧ (∀ f ∈ fs, f ∈ lc ∧ f ∈ rc) ∧ ∀ f, f ∈ lc ∨ f ∈ rc → F.cols.count f = 1 ∧ (J.column f = none ↔ f ∈ lc ∧ f ∈ rc) := by
  obtain ⟨g1, g2, hfs, _, _⟩ := fitsJoin_facts h
  have n1 := colsOk_nodup (goodCols_ok g1)
  have n2 := colsOk_nodup (goodCols_ok g2)
  refine join_computes x hx colsOf q o fs sub h _ fun S L R L' R' hL hR pL pR => ?_
  dsimp only
  rw [hL, hR, foldl_addCol_filter _ _ n2]
  refine ⟨?_, hfs, fun f hf => ⟨?_, ?_⟩⟩
  · rintro rfl
    simp [fitsJoin] at h
  · by_cases hl : f ∈ lc
    · rw [List.count_append, n1.count, if_pos hl, List.count_eq_zero_of_not_mem]
      simp [hl]
    · have hr : f ∈ rc := hf.resolve_left hl
      rw [List.count_append, n1.count, if_neg hl, List.Nodup.count (n2.filter _), if_pos (by simp [hl, hr])]
  · rw [Joined.column]
    dsimp only
    rw [List.count_append, n1.count, n2.count]
    by_cases hl : f ∈ lc <;> by_cases hr : f ∈ rc
    · simp [hl, hr]
    · simp [hl, hr, List.idxOf?, List.findIdx?_eq_none_iff]
    · simp [hl, hr, List.idxOf?, List.findIdx?_eq_none_iff]
    · exact absurd hf (by simp [hl, hr])

/-- a query that ends with `join` -/
def orderQuery : List Command :=
  [.search (.binary (.binary (.const (.field c!"index")) c!"=" (.const (.field c!"orders"))) c!"AND"
    (.binary (.const (.field c!"total")) c!">" (.const (.int 100))))]

/-- the subsearch -/
def userQuery : List Command :=
  [.search (.binary (.const (.field c!"index")) c!"=" (.const (.field c!"users"))), .fields false [c!"id", c!"name"]]

/-- the columns of the two tables -/
def orderCols : Str → List Str := fun i => if i = c!"orders" then [c!"id", c!"total"] else [c!"id", c!"name", c!"mail"]

example : parse c!"search index=orders total>100 | join type=left id [search index=users | fields id, name]" =
      some (orderQuery ++ [.join ⟨c!"left", false, true, true, 1⟩ [c!"id"] userQuery]) ∧
    outOf .disallow c!"search index=orders total>100 | join type=left id [search index=users | fields id, name]" = some
      c!"spark.table('orders').where((F.col('total') > F.lit(100)),).alias('LEFT',).join(spark.table('users').select(F.col('id'), F.col('name'),).alias('RIGHT',), (F.col('LEFT.id') == F.col('RIGHT.id')), 'left',)" ∧
    fitsJoin orderCols orderQuery ⟨c!"left", false, true, true, 1⟩ [c!"id"] userQuery = some ([c!"id", c!"total"], [c!"id", c!"name"]) ∧
    (∀ n ∈ [c!"id", c!"name"], n ∈ [c!"id", c!"total"] → n ∈ [c!"id"]) :=
  ⟨isParse_sound (by decide +kernel), by decide +kernel, by decide +kernel, by decide +kernel⟩

/-- With `usetime`, on two fields. -/
example : parse c!"search index=a | join usetime=true earlier=false id kind [search index=b]" =
      some [.search (.binary (.const (.field c!"index")) c!"=" (.const (.field c!"a"))),
        .join ⟨c!"inner", true, false, true, 1⟩ [c!"id", c!"kind"] [.search (.binary (.const (.field c!"index")) c!"=" (.const (.field c!"b")))]] ∧
    fitsJoin (fun _ => [c!"_time", c!"id", c!"kind"]) [.search (.binary (.const (.field c!"index")) c!"=" (.const (.field c!"a")))]
      ⟨c!"inner", true, false, true, 1⟩ [c!"id", c!"kind"] [.search (.binary (.const (.field c!"index")) c!"=" (.const (.field c!"b")))] =
        some ([c!"_time", c!"id", c!"kind"], [c!"_time", c!"id", c!"kind"]) :=
  ⟨isParse_sound (by decide +kernel), by decide +kernel⟩

/-- Events with one match, with two, with none, and one of the subsearch that matches none. -/
def joinExample : List Event × List Event :=
  ([rowOf [(c!"id", .str c!"1")], rowOf [(c!"id", .str c!"2")], rowOf [(c!"id", .str c!"3")]],
   [rowOf [(c!"id", .str c!"1"), (c!"name", .str c!"a")], rowOf [(c!"id", .str c!"2"), (c!"name", .str c!"b")],
    rowOf [(c!"id", .str c!"2"), (c!"name", .str c!"c")], rowOf [(c!"id", .str c!"4"), (c!"name", .str c!"d")]])

/-- The matches of these events. -/
example : joinExample.1.map (fun l => (joinExample.2.filter (splMatch plainSem ⟨c!"outer", false, true, true, 1⟩ [c!"id"] l)).map fun r => r c!"name") =
      [[.str c!"a"], [.str c!"b", .str c!"c"], []] ∧
    (pairRows c!"outer" (splMatch plainSem ⟨c!"outer", false, true, true, 1⟩ [c!"id"]) joinExample.1 joinExample.2).map
        (fun p => (sideValues [c!"id"] p.1, sideValues [c!"name"] p.2)) =
      [([.str c!"1"], [.str c!"a"]), ([.str c!"2"], [.str c!"b"]), ([.str c!"2"], [.str c!"c"]), ([.str c!"3"], [.null]), ([.null], [.str c!"d"])] ∧
    ((splJoin plainSem ⟨c!"outer", false, true, true, 1⟩ [c!"id"] ⟨[c!"id"], joinExample.1⟩ ⟨[c!"id", c!"name"], joinExample.2⟩).map
        fun F => (F.cols, F.rows.map fun r => F.cols.map r)) =
      some ([c!"id", c!"name"], [[.str c!"1", .str c!"a"], [.str c!"2", .str c!"b"], [.str c!"3", .null]]) := by
  refine ⟨by decide +kernel, by decide +kernel, by decide +kernel⟩

/-- A command after the `join` reads the field joined on as a column of one name. -/
example : outOf .disallow c!"search index=a | join id [search index=b] | table id" = some
    c!"spark.table('a').alias('LEFT',).join(spark.table('b').alias('RIGHT',), (F.col('LEFT.id') == F.col('RIGHT.id')), 'inner',).select(F.col('id'),)" := by
  decide +kernel

end Verif.Props
