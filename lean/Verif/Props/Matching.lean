import Verif.Props.NewColumns
import Verif.Lemmas.PlainCmd
import Verif.Props.Convert
/-
C80 and C81: the rows `regex` keeps and the fields `rex` extracts.
-/
namespace Verif.Props
open Verif Spl Spec Lemmas Col

/-! ### C80: regex -/

/-- the condition on the rows, given how the pattern is written -/
def regexCond (field : Str) (inverted : Bool) (pattern : PyE) : PyE :=
  let t := fCall c!"regexp_like" [fCall c!"col" [.str field], pattern]
  if inverted then .inv t else t

/-- `spark.table('main').where(...)` -/
def regexProg (field : Str) (inverted : Bool) (pattern : PyE) : PyE :=
  mCall (mCall (.name c!"spark") c!"table" [.str c!"main"]) c!"where" [regexCond field inverted pattern]

theorem regexTr_item (item : Option (Str × Str)) (re : Str) (s : St) : regexTr item re s = (regexItem item).map fun x =>
    s.put (s.cur.mkWhere (if x.2 then PE.mkNot (PE.fn c!"regexp_like" [.named x.1, pyRaw re]) else PE.fn c!"regexp_like" [.named x.1, pyRaw re])) := by
  unfold regexTr regexItem
  cases item <;> rfl

/-- **C80** (partial).  `regex`: the program tests the field of the command (`_raw` by default) against the pattern, as it is written, and
keeps or removes the rows that match, as asked for.  If only the pattern were given as a column, the rows kept would be those SPL keeps.
Missing: the pattern is not given as a column (`C80_regex_fails`). -/
theorem C80_regex_partial (x : Ext) (item : Option (Str × Str)) (re f : Str) (neg : Bool) (hi : regexItem item = some (f, neg))
    (hf : Plain '\'' f = true) (hr : rawOk re = true) :
    ∃ text, renderPipeline ⟨.disallow, x⟩ [.regex item re] = some text ∧ readProg text = some ⟨[], regexProg f neg (.str re)⟩ ∧
      ∀ (S : Sem) (A : Aggs) (O O' : Arrangement) (T : Str → Frame), ColsOk (T c!"main").cols = true → f ∈ (T c!"main").cols →
        frameEval S A O' T (regexProg f neg (fCall c!"lit" [.str re])) = splQuery S A O T [.regex item re] := by
  have htree : pyTree ((if neg then PE.mkNot (PE.fn c!"regexp_like" [.named f, pyRaw re]) else PE.fn c!"regexp_like" [.named f, pyRaw re])).unalias =
      some (regexCond f neg (.str re)) := by
    have h1 : pyTree (PE.fn c!"regexp_like" [.named f, pyRaw re]) = some (fCall c!"regexp_like" [fCall c!"col" [.str f], .str re]) := by
      simp only [pyTree, pyTrees, hf, if_true, pyRaw, codeTree_raw hr, show funcTree c!"regexp_like" = some (.attr (.name c!"F") c!"regexp_like") from by decide +kernel]
      rfl
    cases neg with
    | false => exact h1
    | true =>
      show pyTree (.not _) = _
      rw [pyTree]
      show (pyTree (PE.fn c!"regexp_like" [.named f, pyRaw re])).map _ = _
      rw [h1]
      rfl
  have hp : progTree ((St.cur ⟨1, none⟩).mkWhere (if neg then PE.mkNot (PE.fn c!"regexp_like" [.named f, pyRaw re]) else PE.fn c!"regexp_like" [.named f, pyRaw re])) =
      some ⟨[], regexProg f neg (.str re)⟩ := by
    show progTree (.where_ (.source c!"main") _) = _
    simp only [progTree, show Plain '\'' c!"main" = true by decide +kernel, if_true, onResult, htree, Option.map_some]
    rfl
  refine ⟨_, ?_, read_prog hp, ?_⟩
  · simp only [renderPipeline, runCmds, transform, dispatch, regexTr_item, hi, Option.map_some]
    rfl
  · intro S A O O' T hc hin
    have hF : frameEval S A O' T (mCall (.name c!"spark") c!"table" [.str c!"main"]) = some (T c!"main") := by
      simp only [mCall, frameEval, and_self, if_true, okFrame, hc]
    have hk : known (T c!"main").cols (regexCond f neg (fCall c!"lit" [.str re])) = true := by
      have : colRefs (regexCond f neg (fCall c!"lit" [.str re])) = [f] := by
        cases neg <;> simp [regexCond, colRefs, colRefsL, fCall, textName]
      rw [known, this]
      simpa using hin
    have hv : ∀ r, ((colValue S (regexCond f neg (fCall c!"lit" [.str re])) r).map fun v => S.truth v == some true) =
        some (S.truth (S.prim .regexFind [r f, .str re]) == some (!neg)) := by
      intro r
      have h0 : pyEval S r (fCall c!"regexp_like" [fCall c!"col" [.str f], fCall c!"lit" [.str re]]) = some (.column (S.prim .regexFind [r f, .str re])) := by
        rfl
      cases neg with
      | false =>
        simp only [regexCond, colValue, Bool.false_eq_true, if_false, h0]
        rfl
      | true =>
        simp only [regexCond, colValue, if_true, pyEval, h0, Option.bind_some, Obj.isColumn, Option.map_some, Obj.val, Sem.neg, S.truth_ofB]
        cases S.truth (S.prim .regexFind [r f, .str re]) with
        | none => rfl
        | some b => cases b <;> rfl
    rw [regexProg, frameEval_method _ hF (by decide)]
    unfold frameMethod
    rw [if_pos rfl]
    simp only [hk, if_true, keepIf_filter fun r _ => hv r, Option.map_some, splQuery, splRun, splCmd, hi, Option.bind_some]

example : regexItem (some (c!"url", c!"!=")) = some (c!"url", true) ∧ rawOk c!"^/a\\.b\\d+$" = true ∧
    parse c!"regex url!=\"^/a\\.b\\d+$\"" = some [.regex (some (c!"url", c!"!=")) c!"^/a\\.b\\d+$"] :=
  ⟨by decide +kernel, by decide +kernel, isParse_sound (by decide +kernel)⟩

/-- The pattern is handed to `regexp_like` as a text.  This function takes columns, and takes a text for the name of a
column: the program yields no rows, whatever the pattern, as soon as there is a row to test. -/
theorem C80_regex_fails (x : Ext) (item : Option (Str × Str)) (re f : Str) (neg : Bool) (hi : regexItem item = some (f, neg))
    (hf : Plain '\'' f = true) (hr : rawOk re = true) :
    ∃ text, renderPipeline ⟨.disallow, x⟩ [.regex item re] = some text ∧
      ∀ (S : Sem) (A : Aggs) (O O' : Arrangement) (T : Str → Frame), (T c!"main").rows ≠ [] →
        textRows S A O' T text = none ∧ (splQuery S A O T [.regex item re]).isSome = true := by
  obtain ⟨text, h1, h2, _⟩ := C80_regex_partial x item re f neg hi hf hr
  refine ⟨text, h1, fun S A O O' T hne => ⟨?_, by simp [splQuery, splRun, splCmd, hi]⟩⟩
  rw [textRows_of h2]
  have hv : ∀ r, colValue S (regexCond f neg (.str re)) r = none := by
    intro r
    have h0 : pyEval S r (fCall c!"regexp_like" [fCall c!"col" [.str f], .str re]) = none := rfl
    cases neg with
    | false => simp only [regexCond, colValue, Bool.false_eq_true, if_false, h0]; rfl
    | true => simp only [regexCond, colValue, if_true, pyEval, h0]; rfl
  cases hF : frameEval S A O' T (mCall (.name c!"spark") c!"table" [.str c!"main"]) with
  | none =>
    simp only [mCall] at hF
    rw [regexProg, mCall, frameEval.eq_def]
    simp only [mCall, hF, Option.bind_none]
    simp
  | some F =>
    have : F.rows ≠ [] := by
      simp only [mCall, frameEval, and_self, if_true, okFrame] at hF
      split at hF
      · cases hF; exact hne
      · cases hF
    rw [regexProg, frameEval_method _ hF (by decide)]
    unfold frameMethod
    rw [if_pos rfl]
    dsimp only
    split
    · cases hrows : F.rows with
      | nil => exact absurd hrows this
      | cons r rs => simp only [keepIf, hv r]; rfl
    · rfl

/-! ### C81: rex -/

theorem groupName_mono {p q : Str → Bool} (h : ∀ n, p n = true → q n = true) {s : Str} {y : Option Str × Str} (hy : groupName p s = some y) :
    groupName q s = some y := by
  unfold groupName at hy ⊢
  split at hy
  · split at hy
    · rename_i hp
      rw [if_pos (h _ hp)]
      exact hy
    · cases hy
  · cases hy

theorem javaName_pcre {n : Str} (h : javaName n = true) : pcreName n = true := by
  simp only [javaName, pcreName, Bool.and_eq_true, List.all_eq_true] at h ⊢
  refine ⟨fun c hc => ?_, h.2⟩
  have := h.1 c hc
  simp only [Bool.or_eq_true, Bool.and_eq_true]
  exact Or.inl this

theorem javaOpen_pcre {s : Str} {y : Option Str × Str} (h : javaOpen s = some y) : pcreOpen s = some y := by
  unfold javaOpen at h
  split at h
  · exact groupName_mono (fun n => javaName_pcre) h
  · cases h
  · rename_i h1 h2
    unfold pcreOpen
    split
    · exact absurd rfl (h1 _)
    · exact absurd rfl (h2 _)
    · exact absurd rfl (h2 _)
    · exact h

theorem readParts_mono {f g : Str → Option (Option Str × Str)} (h : ∀ s y, f s = some y → g s = some y) (n : Nat) (s : Str) :
    ∀ y, readParts f n s = some y → readParts g n s = some y := by
  fun_induction readParts f n s with
  | case1 => intro y hy; rw [readParts]; exact hy
  | case2 => intro y hy; cases hy
  | case3 n s ih =>
    intro y hy
    rw [Option.bind_eq_some_iff] at hy
    obtain ⟨a, h1, h2⟩ := hy
    rw [Option.map_eq_some_iff] at h2
    obtain ⟨b, h2, rfl⟩ := h2
    rw [readParts, h _ _ h1, Option.bind_some, ih a b h2]
    rfl
  | case4 n s hq ih =>
    intro y hy
    rw [Option.map_eq_some_iff] at hy
    obtain ⟨b, h2, rfl⟩ := hy
    rw [readParts, if_pos hq, ih b h2]
    rfl
  | case5 => intro y hy; cases hy
  | case6 n s ih =>
    intro y hy
    rw [Option.map_eq_some_iff] at hy
    obtain ⟨b, h2, rfl⟩ := hy
    rw [readParts, ih b h2]
    rfl
  | case7 => intro y hy; cases hy
  | case8 n s h0 h1 h2 h3 cs r hi ih =>
    intro y hy
    rw [Option.map_eq_some_iff] at hy
    obtain ⟨b, hb, rfl⟩ := hy
    rw [readParts.eq_6 _ _ _ h0 h1 h2 h3, hi]
    simp only [ih b hb, Option.map_some]

/-- The names of the groups are as many as there are groups. -/
theorem readParts_names (f : Str → Option (Option Str × Str)) (n : Nat) (s : Str) :
    ∀ y, readParts f n s = some y → (y.1.filter (· == .opens)).length = y.2.length := by
  fun_induction readParts f n s with
  | case1 => intro y hy; cases hy; rfl
  | case2 => intro y hy; cases hy
  | case3 n s ih =>
    intro y hy
    rw [Option.bind_eq_some_iff] at hy
    obtain ⟨a, h1, h2⟩ := hy
    rw [Option.map_eq_some_iff] at h2
    obtain ⟨b, h2, rfl⟩ := h2
    simp [ih a b h2]
  | case4 n s hq ih =>
    intro y hy
    rw [Option.map_eq_some_iff] at hy
    obtain ⟨b, h2, rfl⟩ := hy
    simpa [List.filter_cons] using ih b h2
  | case5 => intro y hy; cases hy
  | case6 n s ih =>
    intro y hy
    rw [Option.map_eq_some_iff] at hy
    obtain ⟨b, h2, rfl⟩ := hy
    simpa [List.filter_cons] using ih b h2
  | case7 => intro y hy; cases hy
  | case8 n s h0 h1 h2 h3 cs r hi ih =>
    intro y hy
    rw [Option.map_eq_some_iff] at hy
    obtain ⟨b, hb, rfl⟩ := hy
    simpa [List.filter_cons] using ih b hb

theorem groupsOk_count : ∀ (o : Bool) (ps : List Part), groupsOk o ps = true →
    (ps.filter (· == .closes)).length = (ps.filter (· == .opens)).length + if o then 1 else 0
  | o, [], h => by cases o <;> simp [groupsOk] at h ⊢
  | o, .opens :: ps, h => by
    simp only [groupsOk, Bool.and_eq_true] at h
    have := groupsOk_count true ps h.2
    cases o <;> simp at h
    simpa [List.filter_cons] using this
  | o, .closes :: ps, h => by
    simp only [groupsOk, Bool.and_eq_true] at h
    have := groupsOk_count false ps h.2
    cases o <;> simp at h
    simp [this]
  | o, .some .. :: ps, h => by
    have := groupsOk_count o ps h
    simpa [List.filter_cons] using this
  | o, .ends :: ps, h => by
    have := groupsOk_count o ps h
    simpa [List.filter_cons] using this

theorem firstDown_some {α : Type} {f : Nat → Option α} {least : Nat} {y : α} : ∀ n, firstDown f least n = some y → ∃ k, f k = some y
  | 0, h => by
    rw [firstDown] at h
    split at h
    · exact ⟨0, h⟩
    · cases h
  | n + 1, h => by
    rw [firstDown] at h
    split at h
    · cases h
    · cases hf : f (n + 1) with
      | some z => rw [hf] at h; exact ⟨n + 1, by rw [hf]; exact h⟩
      | none => rw [hf] at h; exact firstDown_some n h

theorem matchHere_length (i : Bool) : ∀ (ps : List Part) (cur : Str) (gs : List Str) (s : Str) (y : List Str), matchHere i ps cur gs s = some y →
    y.length = gs.length + (ps.filter (· == .closes)).length
  | [], cur, gs, s, y, h => by cases h; simp
  | .opens :: ps, cur, gs, s, y, h => by
    rw [matchHere] at h
    simpa [List.filter_cons] using matchHere_length i ps _ _ _ _ h
  | .closes :: ps, cur, gs, s, y, h => by
    rw [matchHere] at h
    have := matchHere_length i ps _ _ _ _ h
    simp [this]; omega
  | .ends :: ps, cur, gs, s, y, h => by
    rw [matchHere] at h
    split at h
    · simpa [List.filter_cons] using matchHere_length i ps _ _ _ _ h
    · cases h
  | .some .. :: ps, cur, gs, s, y, h => by
    rw [matchHere] at h
    obtain ⟨k, hk⟩ := firstDown_some _ h
    simpa [List.filter_cons] using matchHere_length i ps _ _ _ _ hk

theorem findMatch_length (p : Pattern) : ∀ (s : Str) (y : List Str), findMatch p s = some y → y.length = (p.parts.filter (· == .closes)).length
  | [], y, h => by simpa using matchHere_length _ _ _ _ _ _ h
  | c :: s, y, h => by
    rw [findMatch, Option.or_eq_some_iff] at h
    rcases h with h | ⟨_, h⟩
    · simpa using matchHere_length _ _ _ _ _ _ h
    · split at h
      · cases h
      · exact findMatch_length p s y h

/-- What is known of a pattern of Java that is read. -/
theorem readNamed_facts {s : Str} {p : Pattern} {ns : List (Option Str)} (h : readNamed javaOpen s = some (p, ns)) :
    readNamed pcreOpen s = some (p, ns) ∧ readPattern s = some p ∧ (p.parts.filter (· == .opens)).length = ns.length ∧
      ∀ t gs, findMatch p t = some gs → gs.length = ns.length := by
  have h' := h
  unfold readNamed at h
  dsimp only at h
  split at h
  · rename_i ps hps
    split at h
    · rename_i hok
      simp only [Option.some.injEq, Prod.mk.injEq] at h
      obtain ⟨rfl, rfl⟩ := h
      have hn := readParts_names _ _ _ _ hps
      refine ⟨?_, by rw [readPattern, h']; rfl, hn, fun t gs hg => ?_⟩
      · unfold readNamed
        dsimp only
        rw [readParts_mono (fun _ _ => javaOpen_pcre) _ _ _ hps]
        simp only [hok, if_true]
      · have := findMatch_length _ _ _ hg
        rw [this]
        have := groupsOk_count false _ hok
        simpa [hn] using this
    · cases h
  · cases h

theorem foldl_addCol : ∀ (l : List Str) (cols : List Str), ∃ b, l.foldl addCol cols = cols ++ b
  | [], cols => ⟨[], by simp⟩
  | n :: l, cols => by
    obtain ⟨b, hb⟩ := foldl_addCol l (addCol cols n)
    rw [List.foldl_cons, hb]
    unfold addCol
    split
    · exact ⟨b, rfl⟩
    · exact ⟨n :: b, by simp⟩

theorem goodCols_left {a b : List Str} (h : goodCols (a ++ b) = true) : goodCols a = true := by
  simp only [goodCols, ColsOk, Bool.and_eq_true, List.all_append, List.map_append, decide_eq_true_eq, List.nodup_append] at h ⊢
  exact ⟨⟨h.1.1.1, h.1.2.1⟩, h.2.1⟩

/-- The row with the groups of the first match in a field, one after the other. -/
def rexRow (S : Sem) (re field : Str) (l : List (Str × Nat)) (r : Event) : Event :=
  l.foldl (fun r g => setField r g.1 (groupOf S re g.2 (r field))) r

theorem rex_frames {c : Rex} {p : Pattern} (hp : readPattern c.regex = some p) (hr : rawOk c.regex = true) : ∀ (l : List (Str × Nat)) (d : DF) (e : PyE) (cols : List Str),
    progTree d = some ⟨[], e⟩ → (∀ g ∈ l, 1 ≤ g.2 ∧ g.2 ≤ (p.parts.filter (· == .opens)).length) → c.field ∈ cols →
    goodCols ((l.map Prod.fst).foldl addCol cols) = true →
    ∃ e', progTree ((l.map fun g => (g.2, some g.1)).foldl (rexCol c) d) = some ⟨[], e'⟩ ∧
      ∀ (S : Sem) (A : Aggs) (O : Arrangement) (T : Str → Frame) (F : Frame), frameEval S A O T e = some F → F.cols = cols →
        frameEval S A O T e' = some ⟨(l.map Prod.fst).foldl addCol cols, F.rows.map (rexRow S c.regex c.field l)⟩
  | [], d, e, cols, hd, _, _, _ => ⟨e, hd, fun S A O T F hF hc => by
      rw [hF]
      cases F
      simp only at hc
      subst hc
      simp [show rexRow S c.regex c.field [] = id from rfl]⟩
  | (n, k) :: l, d, e, cols, hd, hl, hf, hg => by
    rw [List.map_cons, List.foldl_cons] at hg
    have hg1 : goodCols (addCol cols n) = true := by
      obtain ⟨b, hb⟩ := foldl_addCol (l.map Prod.fst) (addCol cols n)
      rw [hb] at hg
      exact goodCols_left hg
    have hg0 : goodCols cols = true := by
      obtain ⟨b, hb⟩ := foldl_addCol [n] cols
      rw [List.foldl_cons, List.foldl_nil] at hb
      rw [hb] at hg1
      exact goodCols_left hg1
    have hk := hl (n, k) (List.mem_cons_self ..)
    have hm : Means (.fn c!"regexp_extract" [.named c.field, pyRaw c.regex, pyInt k]) (fun S row => groupOf S c.regex k (row c.field)) :=
      means_extract_code (means_named (goodCols_plain hg0 hf).1) ⟨_, codeTree_raw hr, fun _ _ => rfl⟩
        (fun t => by unfold extractGroup; rw [hp]; simp only [hk, and_self, if_true, Option.isSome_some])
    have hw : within cols.contains (.fn c!"regexp_extract" [.named c.field, pyRaw c.regex, pyInt k]) = true := by
      simp [within, withinL, notCol, pyRaw, pyInt, hf]
    obtain ⟨t, ht, hv⟩ := hm
    have hd1 : progTree (rexCol c d (k, some n)) = some ⟨[], mCall e c!"withColumn" [.str n, t]⟩ := by
      rw [rexCol]
      simp only [DF.mkWithColumn, Option.getD_some, progTree, hd, onResult, unalias_of_within hw, ht, (goodCols_plain hg1 (mem_addCol cols n)).1, if_true, Option.map_some]
    obtain ⟨e', h1, h2⟩ := rex_frames hp hr l _ _ (addCol cols n) hd1 (fun g hgm => hl g (List.mem_cons_of_mem _ hgm))
      (by unfold addCol; split; exact hf; exact List.mem_append_left _ hf) hg
    refine ⟨e', h1, fun S A O T F hF hc => ?_⟩
    have hval : ∀ r, colValue S t r = some (groupOf S c.regex k (r c.field)) := fun r => by
      obtain ⟨o, h1, h2, h3⟩ := hv S r
      rw [colValue, h1, Option.bind_some, if_pos h2, h3]
    have hF1 : frameEval S A O T (mCall e c!"withColumn" [.str n, t]) =
        some ⟨addCol cols n, F.rows.map fun r => setField r n (groupOf S c.regex k (r c.field))⟩ := by
      rw [frameEval_method _ hF (by decide)]
      unfold frameMethod
      rw [if_neg (by decide), if_pos rfl]
      simp only [hc, known_within hw ht, if_true]
      rw [each_map (g := fun r => setField r n (groupOf S c.regex k (r c.field))) fun r _ => by rw [hval r]; rfl, Option.bind_some, okFrame, if_pos (goodCols_ok hg1)]
    rw [h2 S A O T _ hF1 rfl, List.map_map]
    rfl

/-- With a match, the row is the one SPL describes. -/
theorem rexRow_groups {S : Sem} {re field t : Str} {p : Pattern} {gs : List Str} (hp : readPattern re = some p) (hm : findMatch p t = some gs)
    (hl : gs.length ≤ (p.parts.filter (· == .opens)).length) :
    ∀ (ns : List Str) (k : Nat) (r : Event), field ∉ ns → S.text (r field) = some t → gs.length = k + ns.length →
      rexRow S re field (ns.zipIdx (k + 1)) r = setGroups (ns.map some) (gs.drop k) r
  | [], k, r, _, _, _ => by
    simp only [List.zipIdx_nil, rexRow, List.foldl_nil, List.map_nil]
    cases gs.drop k <;> rfl
  | n :: ns, k, r, hf, ht, hlen => by
    simp only [List.mem_cons, not_or] at hf
    simp only [List.length_cons] at hlen
    have hk : k < gs.length := by omega
    rw [List.drop_eq_getElem_cons hk, List.map_cons, setGroups, List.zipIdx_cons]
    have hg : groupOf S re (k + 1) (r field) = .str gs[k] := by
      unfold groupOf
      rw [ht]
      unfold extractGroup
      rw [hp]
      simp only [show 1 ≤ k + 1 ∧ k + 1 ≤ (p.parts.filter (· == .opens)).length from ⟨by omega, by omega⟩, and_self, if_true, hm, Option.getD_some]
      simp [hk]
    have := rexRow_groups hp hm hl ns (k + 1) (setField r n (.str gs[k])) hf.2 (by rw [setField, if_neg hf.1]; exact ht) (by omega)
    rw [← this]
    show rexRow S re field _ (setField r n (groupOf S re (k + 1) (r field))) = _
    rw [hg]

/-- What the program of `rex` computes, whether or not there is a match. -/
theorem rex_program (x : Ext) (c : Rex) (p : Pattern) (ns : List Str) (ast : ReAst) (cols : List Str)
    (hmode : c.mode = none) (hmax : c.maxMatch = 1) (hr : rawOk c.regex = true) (hp : readNamed javaOpen c.regex = some (p, ns.map some))
    (hx : x.parseRe c.regex = some ast) (hgs : groupsOf ast = (ns.zipIdx 1).map fun g => (g.2, some g.1))
    (hf : c.field ∈ cols) (hg : goodCols (ns.foldl addCol cols) = true) :
    ∃ text, renderPipeline ⟨.disallow, x⟩ [.rex c] = some text ∧
      ∀ (S : Sem) (A : Aggs) (O : Arrangement) (T : Str → Frame), (T c!"main").cols = cols →
        textRows S A O T text = some ⟨ns.foldl addCol cols, (T c!"main").rows.map (rexRow S c.regex c.field (ns.zipIdx 1))⟩ := by
  obtain ⟨hpc, hpat, hop, hlen⟩ := readNamed_facts hp
  have hcols : goodCols cols = true := by
    obtain ⟨b, hb⟩ := foldl_addCol ns cols
    rw [hb] at hg
    exact goodCols_left hg
  have hmain : progTree (St.cur ⟨1, none⟩) = some ⟨[], mCall (.name c!"spark") c!"table" [.str c!"main"]⟩ := by
    show progTree (.source c!"main") = _
    simp only [progTree, show Plain '\'' c!"main" = true by decide +kernel, if_true]
  have hfst : (ns.zipIdx 1).map Prod.fst = ns := List.zipIdx_map_fst 1 ns
  obtain ⟨e', h1, h2⟩ := rex_frames (c := c) hpat hr (ns.zipIdx 1) _ _ cols hmain (fun g hgm => by
      have := List.mem_zipIdx hgm
      rw [hop]; simp; omega) hf (by rw [hfst]; exact hg)
  have hrun : runCmds ⟨.disallow, x⟩ [.rex c] ⟨1, none⟩ = some (St.put ⟨1, none⟩ (((ns.zipIdx 1).map fun g => (g.2, some g.1)).foldl (rexCol c) (St.cur ⟨1, none⟩))) := by
    simp only [runCmds, transform, dispatch, rexTr, hmode, reduceCtorEq, if_false, hmax, if_true, hx, Option.map_some, hgs]
  obtain ⟨text, t1, t2⟩ := query_of_steps x (cs := []) hrun rfl h1
  refine ⟨text, t1, fun S A O T hc => ?_⟩
  have hF : frameEval S A O T (mCall (.name c!"spark") c!"table" [.str c!"main"]) = some (T c!"main") := by
    have : ColsOk (T c!"main").cols = true := by rw [hc]; exact goodCols_ok hcols
    simp only [mCall, frameEval, and_self, if_true, okFrame, this]
  rw [t2, h2 S A O T _ hF hc, hfst]

/-- **C81** (partial).  `rex`: every event gets the named groups of the first match of the pattern in the field as fields, for patterns
Java reads as well (without `(?P<` and without underscores in names), all of whose groups have a name, different from each other and from the name of the field, if
every event matches and if the parser of regular expressions used by the translation numbers the groups from left to right.
Missing: events that do not match (`C81_no_match_lost`), groups without a name (`C81_unnamed_group`), names with underscores and
`(?P<` (`C81_java_names`), a group with the name of the field (`C81_same_field`), and the options `mode` and `max_match` (refused). -/
theorem C81_rex_partial (x : Ext) (c : Rex) (p : Pattern) (ns : List Str) (ast : ReAst) (cols : List Str)
    (hmode : c.mode = none) (hmax : c.maxMatch = 1) (hoff : c.offsetField = none) (hr : rawOk c.regex = true)
    (hp : readNamed javaOpen c.regex = some (p, ns.map some))
    (hx : x.parseRe c.regex = some ast) (hgs : groupsOf ast = (ns.zipIdx 1).map fun g => (g.2, some g.1))
    (hf : c.field ∈ cols) (hfn : c.field ∉ ns) (hg : goodCols (ns.foldl addCol cols) = true) :
    ∃ text, renderPipeline ⟨.disallow, x⟩ [.rex c] = some text ∧
      ∀ (S : Sem) (A : Aggs) (O O' : Arrangement) (T : Str → Frame), (T c!"main").cols = cols →
        (∀ r ∈ (T c!"main").rows, ((S.text (r c.field)).bind (findMatch p)).isSome = true) →
        ∃ F, splQuery S A O T [.rex c] = some F ∧ textRows S A O' T text = some F ∧ F.cols = ns.foldl addCol cols := by
  obtain ⟨hpc, hpat, hop, hlen⟩ := readNamed_facts hp
  obtain ⟨text, t1, t2⟩ := rex_program x c p ns ast cols hmode hmax hr hp hx hgs hf hg
  refine ⟨text, t1, fun S A O O' T hc hm => ⟨⟨ns.foldl addCol cols, (T c!"main").rows.map (splRex S c.field (p, ns.map some))⟩, ?_, ?_, rfl⟩⟩
  · simp only [splQuery, splRun, splCmd, hmode, hmax, hoff, and_self, if_true, hpc, Option.map_some, Option.bind_some, addNames, hc]
    simp [List.filterMap_map]
  · rw [t2 S A O' T hc]
    refine congrArg some (congrArg _ (List.map_congr_left fun r hrm => ?_))
    obtain ⟨gs, hgm⟩ := Option.isSome_iff_exists.1 (hm r hrm)
    have hgm' := hgm
    rw [Option.bind_eq_some_iff] at hgm'
    obtain ⟨t, ht, hfm⟩ := hgm'
    have hl := hlen t gs hfm
    rw [List.length_map] at hl
    rw [splRex, hgm]
    have := rexRow_groups (S := S) (field := c.field) hpat hfm (by rw [hop, List.length_map, hl]; exact Nat.le_refl _) ns 0 r hfn ht (by omega)
    simpa using this

example : (readNamed javaOpen c!"from (?<from>\\w+) to (?<to>\\w+)").map Prod.snd = some [some c!"from", some c!"to"] ∧
    rawOk c!"from (?<from>\\w+) to (?<to>\\w+)" = true ∧
    ((Tests.ext.parseRe c!"from (?<from>\\w+) to (?<to>\\w+)").map groupsOf = some [(1, some c!"from"), (2, some c!"to")]) ∧
    ((readNamed javaOpen c!"from (?<from>\\w+) to (?<to>\\w+)").bind fun p => findMatch p.1 c!"mail from ann to bob today") = some [c!"ann", c!"bob"] ∧
    goodCols ([c!"from", c!"to"].foldl addCol [c!"_time", c!"_raw"]) = true ∧
    parse c!"rex \"from (?<from>\\w+) to (?<to>\\w+)\"" = some [.rex ⟨c!"_raw", 1, none, none, c!"from (?<from>\\w+) to (?<to>\\w+)"⟩] :=
  ⟨by decide +kernel, by decide +kernel, by decide +kernel, by decide +kernel, by decide +kernel, isParse_sound (by decide +kernel)⟩

/-- An event that does not match keeps its fields in SPL; in the program the field of the group becomes empty. -/
theorem C81_no_match_lost (x : Ext) (hx : x.parseRe c!"(?<n>\\d+)" = some (.group (.name c!"n" 1) (.repetition .leaf))) (S : Sem) (A : Aggs)
    (O O' : Arrangement) (T : Str → Frame) (r : Event) (hr : S.text (r c!"_raw") = some c!"abc") (hn : r c!"n" = .str c!"old")
    (hT : T c!"main" = ⟨[c!"_raw", c!"n"], [r]⟩) :
    parse c!"rex \"(?<n>\\d+)\"" = some [.rex ⟨c!"_raw", 1, none, none, c!"(?<n>\\d+)"⟩] ∧
    (∃ F, splQuery S A O T [.rex ⟨c!"_raw", 1, none, none, c!"(?<n>\\d+)"⟩] = some F ∧ F.rows = [r] ∧ r c!"n" = .str c!"old") ∧
    ∃ text F' r', renderPipeline ⟨.disallow, x⟩ [.rex ⟨c!"_raw", 1, none, none, c!"(?<n>\\d+)"⟩] = some text ∧
      textRows S A O' T text = some F' ∧ F'.rows = [r'] ∧ r' c!"n" = .str [] := by
  have hp : readNamed javaOpen c!"(?<n>\\d+)" = some (⟨false, false, [.opens, .some .digit 1 none, .closes]⟩, [c!"n"].map some) := by decide +kernel
  have hm : findMatch ⟨false, false, [.opens, .some .digit 1 none, .closes]⟩ c!"abc" = none := by decide +kernel
  refine ⟨isParse_sound (by decide +kernel), ⟨⟨[c!"_raw", c!"n"], [r]⟩, ?_, rfl, hn⟩, ?_⟩
  · have hpc := (readNamed_facts hp).1
    simp only [splQuery, splRun, splCmd, hT, and_self, if_true, hpc, Option.map_some, Option.bind_some, List.map_cons, List.map_nil, splRex, hr, hm]
    rfl
  · obtain ⟨text, t1, t2⟩ := rex_program x ⟨c!"_raw", 1, none, none, c!"(?<n>\\d+)"⟩ _ [c!"n"] _ [c!"_raw", c!"n"] rfl rfl (by decide +kernel) hp hx rfl
      (by decide) (by decide +kernel)
    refine ⟨text, _, _, t1, t2 S A O' T (by rw [hT]), by rw [hT]; rfl, ?_⟩
    have hpat := (readNamed_facts hp).2.1
    simp only [rexRow, List.zipIdx_cons, List.zipIdx_nil, List.foldl_cons, List.foldl_nil, setField, if_true, groupOf, hr, extractGroup, hpat, hm]
    rfl

/-- Names of groups with underscores, and the form `(?P<n>`, are patterns of SPL but not of Java: the programs fail. -/
theorem C81_java_names : (readNamed pcreOpen c!"(?<user_id>\\w+)").map Prod.snd = some [some c!"user_id"] ∧
    (readNamed pcreOpen c!"(?P<user>\\w+)").map Prod.snd = some [some c!"user"] ∧
    ∀ (x : Ext), x.parseRe c!"(?<user_id>\\w+)" = some (.group (.name c!"user_id" 1) (.repetition .leaf)) →
      x.parseRe c!"(?P<user>\\w+)" = some (.group (.name c!"user" 1) (.repetition .leaf)) →
      ∃ t1 t2, renderPipeline ⟨.disallow, x⟩ [.rex ⟨c!"_raw", 1, none, none, c!"(?<user_id>\\w+)"⟩] = some t1 ∧
        renderPipeline ⟨.disallow, x⟩ [.rex ⟨c!"_raw", 1, none, none, c!"(?P<user>\\w+)"⟩] = some t2 ∧
        ∀ (S : Sem) (A : Aggs) (O : Arrangement) (T : Str → Frame) (r : Event) (t : Str), S.text (r c!"_raw") = some t → T c!"main" = ⟨[c!"_raw"], [r]⟩ →
          textRows S A O T t1 = none ∧ textRows S A O T t2 = none := by
  refine ⟨by decide +kernel, by decide +kernel, fun x h1 h2 => ⟨c!"spark.table('main').withColumn('user_id', F.regexp_extract(F.col('_raw'), r\"(?<user_id>\\w+)\", 1),)",
    c!"spark.table('main').withColumn('user', F.regexp_extract(F.col('_raw'), r\"(?P<user>\\w+)\", 1),)", ?_, ?_, ?_⟩⟩
  · simp only [renderPipeline, runCmds, transform, dispatch, rexTr, reduceCtorEq, if_false, if_true, h1, Option.map_some]
    rfl
  · simp only [renderPipeline, runCmds, transform, dispatch, rexTr, reduceCtorEq, if_false, if_true, h2, Option.map_some]
    rfl
  · intro S A O T r t ht hT
    have key : ∀ n re, readPattern re = none → frameEval S A O T (mCall (mCall (.name c!"spark") c!"table" [.str c!"main"]) c!"withColumn"
        [.str n, fCall c!"regexp_extract" [fCall c!"col" [.str c!"_raw"], .str re, .num c!"1" []]]) = none := by
      intro n re hre
      rw [frameEval_method (F := ⟨[c!"_raw"], [r]⟩) _ (by simp only [mCall, frameEval, and_self, if_true, hT, okFrame]; rfl) (by decide)]
      unfold frameMethod
      rw [if_neg (by decide), if_pos rfl]
      have hv : colValue S (fCall c!"regexp_extract" [fCall c!"col" [.str c!"_raw"], .str re, .num c!"1" []]) r = none := by
        have : pyEval S r (fCall c!"regexp_extract" [fCall c!"col" [.str c!"_raw"], .str re, .num c!"1" []]) =
            (match S.text (r c!"_raw") with | none => some (.column .null) | some t => (extractGroup re 1 t).map fun g => .column (.str g)) := rfl
        rw [colValue, this, ht]
        simp only [extractGroup, hre]
        rfl
      dsimp only
      split
      · simp only [each, hv]
        rfl
      · rfl
    constructor
    · rw [textRows_of (e := mCall (mCall (.name c!"spark") c!"table" [.str c!"main"]) c!"withColumn"
        [.str c!"user_id", fCall c!"regexp_extract" [fCall c!"col" [.str c!"_raw"], .str c!"(?<user_id>\\w+)", .num c!"1" []]]) (by decide +kernel)]
      exact key _ _ (by decide +kernel)
    · rw [textRows_of (e := mCall (mCall (.name c!"spark") c!"table" [.str c!"main"]) c!"withColumn"
        [.str c!"user", fCall c!"regexp_extract" [fCall c!"col" [.str c!"_raw"], .str c!"(?P<user>\\w+)", .num c!"1" []]]) (by decide +kernel)]
      exact key _ _ (by decide +kernel)

/-- A group without a name becomes a column with its number for a name, which SPL does not make a field of. -/
theorem C81_unnamed_group (x : Ext) (hx : x.parseRe c!"(\\d+)" = some (.group (.index 1) (.repetition .leaf))) :
    parse c!"rex \"(\\d+)\"" = some [.rex ⟨c!"_raw", 1, none, none, c!"(\\d+)"⟩] ∧
    (∀ S A O (F : Frame), (splCmd S A O F (.rex ⟨c!"_raw", 1, none, none, c!"(\\d+)"⟩)).map Frame.cols = some F.cols) ∧
    renderPipeline ⟨.disallow, x⟩ [.rex ⟨c!"_raw", 1, none, none, c!"(\\d+)"⟩] =
      some c!"spark.table('main').withColumn('1', F.regexp_extract(F.col('_raw'), r\"(\\d+)\", 1),)" := by
  refine ⟨isParse_sound (by decide +kernel), fun S A O F => ?_, ?_⟩
  · have : readNamed pcreOpen c!"(\\d+)" = some (⟨false, false, [.opens, .some .digit 1 none, .closes]⟩, [none]) := by decide +kernel
    simp only [splCmd, and_self, if_true, this, Option.map_some]
    rfl
  · simp only [renderPipeline, runCmds, transform, dispatch, rexTr, reduceCtorEq, if_false, if_true, hx, Option.map_some]
    rfl

/-- A group with the name of the field: the next group is looked for in the new value of the field. -/
theorem C81_same_field (x : Ext) (hx : x.parseRe c!"(?<a>\\w) (?<b>\\w)" =
      some (.concat [.group (.name c!"a" 1) .leaf, .leaf, .group (.name c!"b" 2) .leaf])) (S : Sem) (A : Aggs)
    (O O' : Arrangement) (T : Str → Frame) (r : Event) (hr : S.text (r c!"a") = some c!"x y") (hs : S.text (.str c!"x") = some c!"x")
    (hT : T c!"main" = ⟨[c!"a"], [r]⟩) :
    parse c!"rex field=a \"(?<a>\\w) (?<b>\\w)\"" = some [.rex ⟨c!"a", 1, none, none, c!"(?<a>\\w) (?<b>\\w)"⟩] ∧
    (∃ F s, splQuery S A O T [.rex ⟨c!"a", 1, none, none, c!"(?<a>\\w) (?<b>\\w)"⟩] = some F ∧ F.rows = [s] ∧ s c!"b" = .str c!"y") ∧
    ∃ text F' s', renderPipeline ⟨.disallow, x⟩ [.rex ⟨c!"a", 1, none, none, c!"(?<a>\\w) (?<b>\\w)"⟩] = some text ∧
      textRows S A O' T text = some F' ∧ F'.rows = [s'] ∧ s' c!"b" = .str [] := by
  have hp : readNamed javaOpen c!"(?<a>\\w) (?<b>\\w)" =
    some (⟨false, false, [.opens, .some .word 1 (some 1), .closes, .some (.these c!" ") 1 (some 1), .opens, .some .word 1 (some 1), .closes]⟩, [c!"a", c!"b"].map some) := by
    decide +kernel
  have hm : findMatch ⟨false, false, [.opens, .some .word 1 (some 1), .closes, .some (.these c!" ") 1 (some 1), .opens, .some .word 1 (some 1), .closes]⟩ c!"x y" =
    some [c!"x", c!"y"] := by decide +kernel
  have hm' : findMatch ⟨false, false, [.opens, .some .word 1 (some 1), .closes, .some (.these c!" ") 1 (some 1), .opens, .some .word 1 (some 1), .closes]⟩ c!"x" =
    none := by decide +kernel
  refine ⟨isParse_sound (by decide +kernel), ⟨⟨[c!"a", c!"b"], [setGroups [some c!"a", some c!"b"] [c!"x", c!"y"] r]⟩, _, ?_, rfl, rfl⟩, ?_⟩
  · have hpc := (readNamed_facts hp).1
    simp only [splQuery, splRun, splCmd, hT, and_self, if_true, hpc, Option.map_some, Option.bind_some, List.map_cons, List.map_nil, splRex, hr, hm]
    rfl
  · obtain ⟨text, t1, t2⟩ := rex_program x ⟨c!"a", 1, none, none, c!"(?<a>\\w) (?<b>\\w)"⟩ _ [c!"a", c!"b"] _ [c!"a"] rfl rfl (by decide +kernel) hp hx rfl
      (by decide) (by decide +kernel)
    refine ⟨text, _, _, t1, t2 S A O' T (by rw [hT]), by rw [hT]; rfl, ?_⟩
    have hpat := (readNamed_facts hp).2.1
    have e1 : groupOf S c!"(?<a>\\w) (?<b>\\w)" 1 (r c!"a") = .str c!"x" := by
      simp only [groupOf, hr, extractGroup, hpat, hm]
      rfl
    have e2 : groupOf S c!"(?<a>\\w) (?<b>\\w)" 2 (.str c!"x") = .str [] := by
      simp only [groupOf, hs, extractGroup, hpat, hm']
      rfl
    simp only [rexRow, List.zipIdx_cons, List.zipIdx_nil, List.foldl_cons, List.foldl_nil, setField, if_true, e1, e2]

end Verif.Props
