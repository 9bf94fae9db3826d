import Verif.Props.QueryRows
import Verif.Props.Program
/-
C108: a field name in double quotes.

"If a field name contains characters other than a-z, A-Z, 0-9 or the underscore, it must be enclosed in quotation marks"
(SPL reference): the name is what stands between the quotes.  The parser keeps them as part of the name.
-/
namespace Verif.Props
open Verif P Lex Spl Spec Lemmas

/-- a name written between double quotes: some text without quotes, backslashes and line ends -/
structure NameInQuotes (w : Str) : Prop where
  ne : w ≠ []
  quote : '"' ∉ w
  plain : Plain '\'' w = true

/-- A field as it is written in a list, with the name it stands for: a word, or a name between double quotes. -/
inductive FieldWritten : Str → Str → Prop
  | word {w : Str} : FieldText w → FieldWritten w w
  | quoted {w : Str} : NameInQuotes w → FieldWritten w ('"' :: (w ++ c!"\""))

/-- Several fields, as written in a list: the names, the texts of the single fields, and the text of the list. -/
inductive FieldsWritten : List Str → List Str → Str → Prop
  | one {f t : Str} : FieldWritten f t → FieldsWritten [f] [t] t
  | cons {f t g s : Str} {fs ts : List Str} : FieldWritten f t → ListSep g → FieldsWritten fs ts s → FieldsWritten (f :: fs) (t :: ts) (t ++ (g ++ s))

theorem NameInQuotes.body {w : Str} (h : NameInQuotes w) : QuotedBody w := by
  obtain ⟨-, hq, hp⟩ := h
  induction w with
  | nil => exact .nil
  | cons c w ih =>
    simp only [Plain, List.all_cons, Bool.and_eq_true, bne_iff_ne, ne_eq] at hp
    simp only [List.mem_cons, not_or] at hq
    exact .plain (fun e => hq.1 e.symm) hp.1.1.1.2 (ih hq.2 (by simpa [Plain] using hp.2))

theorem NameInQuotes.read {w u : Str} (h : NameInQuotes w) (hu : Verif.After u) : field.run () ('"' :: (w ++ c!"\"") ++ u) = some (u, '"' :: (w ++ c!"\"")) := by
  have := field_quote h.body h.ne hu
  simpa using this

/-- a field of a list as the parser reads it: its text -/
def FieldKept (f s : Str) : Prop := f = s ∧ ∃ n, FieldWritten n s

theorem FieldKept.read {f t u : Str} (h : FieldKept f t) (hu : Verif.After u) : field.run () (t ++ u) = some (u, f) := by
  obtain ⟨rfl, n, h⟩ := h
  cases h with
  | word h => exact column_read (.inl h) hu
  | quoted h => exact h.read hu

theorem FieldKept.first {f t : Str} (u : Str) (h : FieldKept f t) : Stops isSpace (t ++ u) ∧ ∀ q, isNameChar q = false ∧ q ≠ '*' ∧ q ≠ '"' → ∀ c s, t ++ u = c :: s → c ≠ q := by
  obtain ⟨rfl, n, h⟩ := h
  cases h with
  | word h => exact ⟨column_stops (.inl h), fun q hq => column_ne (.inl h) ⟨hq.1, hq.2.1⟩⟩
  | quoted h =>
    refine ⟨Stops.cons (by decide), fun q hq c s e => ?_⟩
    rw [List.cons_append, List.cons.injEq] at e
    rw [← e.1]; exact fun e => hq.2.2 e.symm

theorem kept_items {ts : List Str} {s : Str} (h : Items byList FieldKept ts s) (u : Str) :
    Stops isSpace (s ++ u) ∧ ∀ q, isNameChar q = false ∧ q ≠ '*' ∧ q ≠ '"' → ∀ c t, s ++ u = c :: t → c ≠ q :=
  ⟨items_first (P' := Stops isSpace) (fun _ _ u hc => (hc.first u).1) h u,
   fun q hq => items_first (P' := fun x => ∀ c t, x = c :: t → c ≠ q) (fun _ _ u hc => (hc.first u).2 q hq) h u⟩

theorem kept_read {ts : List Str} {s rest : Str} (h : Items byList FieldKept ts s) (he : End rest) :
    fieldList1.run () (s ++ rest) = some (rest, ts) ∧ fieldList0.run () (s ++ rest) = some (rest, ts) :=
  sepList1_read (nx := id) Verif.After (fun _ _ _ hi hu => hi.read hu)
    (fun g b bs t hg hl => ⟨listSep_after hg, listSep_read hg (kept_items hl _).1 ((kept_items hl _).2 ',' (by decide))⟩)
    he.after (fun r x hr => by rw [commaOrSpace_end (he.drop_ne (by decide)) hr]; exact (field_end he).2) h

theorem FieldsWritten.items {fs ts : List Str} {s : Str} (h : FieldsWritten fs ts s) : Items byList FieldKept ts s := by
  induction h with
  | one h => exact .one ⟨rfl, _, h⟩
  | @cons f t g s fs ts h hg hl ih =>
    cases hl with
    | one h' => exact .cons ⟨rfl, _, h⟩ hg ih
    | cons h' hg' hl' => exact .cons ⟨rfl, _, h⟩ hg ih

theorem table_kept {k : Str} (hk : lower k = c!"table") {ts : List Str} {s : Str} (h : Items byList FieldKept ts s) : Staged k false (.table ts) s := by
  have hst := fun u => (kept_items h u).1
  refine stage 29 rfl (by decide) (by decide) (fun x => run_pre _ _ _ _) hk (bodyGood_of (nx := id) (stops_self hst) (fun _ => rfl) fun rest he => ?_)
  rw [run_map, run_lift, (kept_read h he).1]
  rfl

theorem fields_kept {k : Str} (hk : lower k = c!"fields") {ts : List Str} {s : Str} (h : Items byList FieldKept ts s) : Staged k false (.fields false ts) s := by
  have hst := fun u => (kept_items h u).1
  refine stage 8 rfl (by decide) (by decide) (fun x => run_pre _ _ _ _) hk (bodyGood_of (nx := id) (stops_self hst) (fun _ => rfl) fun rest he => ?_)
  rw [run_map, run_seq, run_opt, run_ws, drop_stops (hst rest), run_alt, tag_none ((kept_items h rest).2 '+' (by decide)), tag_none ((kept_items h rest).2 '-' (by decide))]
  simp only [Option.or_none, Option.map_none, Option.elim_none, Option.bind_some]
  rw [run_lift, (kept_read h he).1]
  rfl

theorem kept_ne {ts : List Str} {s : Str} (h : Items byList FieldKept ts s) : s ≠ [] := by
  refine items_ne (fun _ t hc => ?_) h
  obtain ⟨rfl, n, hc⟩ := hc
  cases hc with
  | word h =>
    cases h with
    | one h => exact h.1.ne
    | dot => simp
  | quoted => simp

theorem main_source : progTree (St.cur ⟨1, none⟩) = some ⟨[], mCall (.name c!"spark") c!"table" [.str c!"main"]⟩ := by
  show progTree (.source c!"main") = _
  simp only [progTree, show Plain '\'' c!"main" = true by decide +kernel, if_true]

theorem main_frame {S : Sem} {A : Aggs} {O : Arrangement} {T : Str → Frame} (h : ColsOk (T c!"main").cols = true) :
    frameEval S A O T (mCall (.name c!"spark") c!"table" [.str c!"main"]) = some (T c!"main") := by
  simp only [mCall, frameEval, and_self, if_true, okFrame, h]

/-- No column of the table has a double quote in its name. -/
def NoQuotes (F : Frame) : Prop := ∀ c ∈ F.cols, '"' ∉ c

/-- Disagreement: in `table` and `fields` the quotes become part of the names.  The program asks for columns with quotes in
their names and fails on every table without such columns, whether or not the columns meant are there. -/
theorem C108_table (x : Ext) {k g s : Str} {fs ts : List Str} {c : List Str → Command}
    (hc : lower k = c!"table" ∧ c = .table ∨ lower k = c!"fields" ∧ c = .fields false) (hg : Gap g)
    (h : FieldsWritten fs ts s) (hp : ∀ t ∈ ts, Plain '\'' t = true) (hq : ∃ t ∈ ts, '"' ∈ t) :
    parse (k ++ (g ++ s)) = some [c ts] ∧
    ∃ text, renderPipeline ⟨.disallow, x⟩ [c ts] = some text ∧
      ∀ (S : Sem) (A : Aggs) (O O' : Arrangement) (T : Str → Frame), ColsOk (T c!"main").cols = true → NoQuotes (T c!"main") →
        textRows S A O' T text = none ∧ ∃ F, splQuery S A O T [c fs] = some F ∧ ∀ f ∈ fs, f ∈ F.cols := by
  have hi := h.items
  refine ⟨?_, ?_⟩
  · have : CmdGood false (c ts) (k ++ (g ++ s)) := by
      rcases hc with ⟨hk, rfl⟩ | ⟨hk, rfl⟩
      · exact (table_kept hk hi).2 (kept_ne hi) g hg
      · exact (fields_kept hk hi).2 (kept_ne hi) g hg
    have := query_plain (.inl rfl) (pipe_one this) (.inl rfl)
    simpa using this
  · have hrun : runCmds ⟨.disallow, x⟩ [c ts] ⟨1, none⟩ = some (St.put ⟨1, none⟩ (.select (St.cur ⟨1, none⟩) (ts.map .named))) := by
      rcases hc with ⟨-, rfl⟩ | ⟨-, rfl⟩ <;> rfl
    obtain ⟨text, h1, h2⟩ := query_of_steps x (cs := []) (e := mCall (mCall (.name c!"spark") c!"table" [.str c!"main"]) c!"select" (ts.map fun n => fCall c!"col" [.str n])) hrun rfl (by
      have : (ts.map PE.named).isEmpty = false := by
        cases h <;> rfl
      simp only [progTree, main_source, onResult, colTrees, this, pyTrees_named hp]
      rfl)
    refine ⟨text, h1, fun S A O O' T hok hno => ⟨?_, ?_⟩⟩
    · rw [h2, frameEval_method _ (main_frame hok) (by decide)]
      unfold frameMethod
      rw [if_neg (by decide), if_neg (by decide), if_neg (by decide), if_pos rfl, each_plainCol, Option.bind_some, if_neg]
      intro ha
      obtain ⟨t, ht, hqt⟩ := hq
      have := List.all_eq_true.1 ha t ht
      exact hno t (by simpa using this) hqt
    · rcases hc with ⟨-, rfl⟩ | ⟨-, rfl⟩
      · exact ⟨_, rfl, fun f hf => hf⟩
      · refine ⟨_, rfl, fun f hf => ?_⟩
        simp only
        exact List.mem_append_left _ hf

example : FieldsWritten [c!"host", c!"Total Count"] [c!"host", c!"\"Total Count\""] c!"host, \"Total Count\"" :=
  .cons (f := c!"host") (t := c!"host") (g := c!", ") (s := c!"\"Total Count\"") (.word (.one f_host)) (.comma (g₁ := []) (g₂ := c!" ") (.inl rfl) (.inr ⟨by decide, by decide⟩))
    (.one (.quoted ⟨by decide, by decide, by decide⟩))

/-! ### rename -/

theorem rename_kept {k f t g₁ a g₂ n w : Str} (hk : lower k = c!"rename") (hf : FieldKept f t) (h1 : Gap g₁) (ha : lower a = c!"as") (h2 : Gap g₂) (hn : NewName n w) :
    Staged k false (.rename [(f, n)]) (t ++ (g₁ ++ (a ++ (g₂ ++ w)))) := by
  refine stage 22 rfl (by decide) (by decide) (fun x => run_pre _ _ _ _) hk
    (bodyGood_of (nx := id) (hf.first _).1 (fun _ => rfl) fun rest he => ?_)
  have hr : aliasedField.run () (t ++ (g₁ ++ (a ++ (g₂ ++ w))) ++ rest) = some (rest, (f, n)) := by
    simp only [List.append_assoc]
    rw [aliasedField, run_sepPair, hf.read (gap_after h1), Option.bind_some, as_read h1 ha h2 (newName_stops hn).2, Option.bind_some, newName_read hn he.token]
    rfl
  have := (sepList1_read (ρ := fix) (sp := (commaSep : G true Str)) (p := lift aliasedField) (nx := id) (I := fun b s => b = (f, n) ∧ s = t ++ (g₁ ++ (a ++ (g₂ ++ w))))
    (S := fun _ _ => False) (fun u => u = rest) (fun b s u hb hu => by obtain ⟨rfl, rfl⟩ := hb; subst hu; exact hr) (fun _ _ _ _ h => h.elim) rfl
    (fun r x hr => by rw [id, commaSep_end (he.drop_ne (by decide))] at hr; simp at hr) (.one ⟨rfl, rfl⟩)).1
  rw [run_map, run_commaList1, this]
  rfl

/-- Disagreement: `rename "a b" AS n` renames nothing.  The program asks for a column with quotes in its name to be renamed, which
leaves a table without such a column as it is; in SPL the column between the quotes gets the new name. -/
theorem C108_rename (x : Ext) {k g w g₁ a g₂ n t : Str} (hk : lower k = c!"rename") (hg : Gap g) (hw : NameInQuotes w) (h1 : Gap g₁) (ha : lower a = c!"as") (h2 : Gap g₂)
    (hn : NewName n t) (hnp : Plain '\'' n = true) :
    parse (k ++ (g ++ (('"' :: (w ++ c!"\"")) ++ (g₁ ++ (a ++ (g₂ ++ t)))))) = some [.rename [('"' :: (w ++ c!"\""), n)]] ∧
    ∃ text, renderPipeline ⟨.disallow, x⟩ [.rename [('"' :: (w ++ c!"\""), n)]] = some text ∧
      ∀ (S : Sem) (A : Aggs) (O O' : Arrangement) (T : Str → Frame), ColsOk (T c!"main").cols = true → NoQuotes (T c!"main") →
        textRows S A O' T text = some (T c!"main") ∧
        (w ∈ (T c!"main").cols → ∃ F, splQuery S A O T [.rename [(w, n)]] = some F ∧ n ∈ F.cols ∧ (w ≠ n → w ∉ F.cols)) := by
  refine ⟨?_, ?_⟩
  · have := (rename_kept hk (f := '"' :: (w ++ c!"\"")) ⟨rfl, w, .quoted hw⟩ h1 ha h2 hn).2 (by simp) g hg
    have := query_plain (.inl rfl) (pipe_one this) (.inl rfl)
    simpa using this
  · have hp : Plain '\'' ('"' :: (w ++ c!"\"")) = true := by
      have := hw.plain
      simp only [Plain, List.all_cons, List.all_append, List.all_nil] at this ⊢
      rw [this]; decide
    have hrun : runCmds ⟨.disallow, x⟩ [.rename [('"' :: (w ++ c!"\""), n)]] ⟨1, none⟩ = some (St.put ⟨1, none⟩ (.withColumnRenamed (St.cur ⟨1, none⟩) ('"' :: (w ++ c!"\"")) n)) := rfl
    obtain ⟨text, t1, t2⟩ := query_of_steps x (cs := []) (e := mCall (mCall (.name c!"spark") c!"table" [.str c!"main"]) c!"withColumnRenamed" [.str ('"' :: (w ++ c!"\"")), .str n]) hrun rfl (by
      simp only [progTree, main_source, onResult, hp, hnp, Bool.and_self, if_true]
      rfl)
    refine ⟨text, t1, fun S A O O' T hok hno => ⟨?_, fun hm => ⟨_, rfl, ?_, fun hne hc => ?_⟩⟩⟩
    · rw [t2, frameEval_method _ (main_frame hok) (by decide)]
      unfold frameMethod
      rw [if_neg (by decide), if_neg (by decide), if_pos rfl]
      simp only
      rw [if_neg]
      exact fun hc => hno _ hc (by simp)
    · simp only [renamedCols, List.mem_map, List.mem_filter]
      exact ⟨w, ⟨hm, by simp⟩, by simp [renamedCol]⟩
    · simp only [renamedCols, List.mem_map, List.mem_filter] at hc
      obtain ⟨c, -, hc⟩ := hc
      simp only [renamedCol, List.find?_cons] at hc
      by_cases e : w = c
      · subst e; simp at hc; exact hne hc.symm
      · simp [e] at hc; exact e hc.symm

example : NameInQuotes c!"Total Count" ∧ NewName c!"n" c!"n" ∧ NewName c!"a b" c!"\"a b\"" :=
  ⟨⟨by decide, by decide, by decide⟩, .word ⟨by decide, by decide, by intro c s e; cases e; decide, by decide⟩, .quoted (s := c!"a b") ⟨.plain (by decide) (by decide) (.plain (by decide) (by decide) (.plain (by decide) (by decide) .nil)), by decide, by intro c t e; cases e; decide⟩⟩

/-- Disagreement: after BY the name with its quotes is put between quotes again, and the program is not Python; `sort` and `mvexpand`
refuse a quoted name; in a search the name becomes a text, so that the condition is the same for all events. -/
theorem C108_others :
    outOf .disallow c!"stats count by \"src ip\"" = some c!"spark.table('main').groupBy([\"\"src ip\"\", ]).agg(F.count(F.lit(1)).alias('count'),)" ∧
    readProg c!"spark.table('main').groupBy([\"\"src ip\"\", ]).agg(F.count(F.lit(1)).alias('count'),)" = none ∧
    outOf .disallow c!"search \"src ip\"=1" = some c!"spark.table('main').where((F.lit('src ip') == F.lit(1)),)" ∧
    outOf .disallow c!"sort \"src ip\"" = none ∧ outOf .disallow c!"mvexpand \"src ip\"" = none ∧
    outOf .disallow c!"eval \"src ip\"=1" = some c!"spark.table('main').withColumn('\"src ip\"', F.lit(1),)" := by
  refine ⟨?_, ?_, ?_, ?_, ?_, ?_⟩ <;> decide +kernel

/-- **C108** (partial).  A new name between quotes is the text between them: `rename` gives a column written as a word the name without the quotes.
Missing: names between quotes of columns that are there (`C108_table`, `C108_rename`, `C108_others`). -/
theorem C108_new_name_partial (x : Ext) {k g f g₁ a g₂ n : Str} (hk : lower k = c!"rename") (hg : Gap g) (hf : FieldText f) (h1 : Gap g₁) (ha : lower a = c!"as") (h2 : Gap g₂)
    (hn : Quotable n) (hfp : Plain '\'' f = true) (hnp : Plain '\'' n = true) (hns : SimpleName n = true) :
    parse (k ++ (g ++ (f ++ (g₁ ++ (a ++ (g₂ ++ '"' :: (n ++ c!"\""))))))) = some [.rename [(f, n)]] ∧
    ∃ text, renderPipeline ⟨.disallow, x⟩ [.rename [(f, n)]] = some text ∧
      ∀ (S : Sem) (A : Aggs) (O' : Arrangement) (T : Str → Frame), ColsOk (T c!"main").cols = true → f ∈ (T c!"main").cols →
        (∀ c ∈ (T c!"main").cols, lower c ≠ lower n) →
        ∃ F, textRows S A O' T text = some F ∧ n ∈ F.cols ∧ f ∉ F.cols ∧ F.rows.map (fun r => r n) = (T c!"main").rows.map fun r => r f := by
  refine ⟨?_, ?_⟩
  · have := (rename_kept hk (f := f) ⟨rfl, f, .word hf⟩ h1 ha h2 (.quoted hn)).2 (by simp) g hg
    have := query_plain (.inl rfl) (pipe_one this) (.inl rfl)
    simpa using this
  · have hrun : runCmds ⟨.disallow, x⟩ [.rename [(f, n)]] ⟨1, none⟩ = some (St.put ⟨1, none⟩ (.withColumnRenamed (St.cur ⟨1, none⟩) f n)) := rfl
    obtain ⟨text, t1, t2⟩ := query_of_steps x (cs := []) (e := mCall (mCall (.name c!"spark") c!"table" [.str c!"main"]) c!"withColumnRenamed" [.str f, .str n]) hrun rfl (by
      simp only [progTree, main_source, onResult, hfp, hnp, Bool.and_self, if_true]
      rfl)
    refine ⟨text, t1, fun S A O' T hok hm hlow => ?_⟩
    have hok' : ColsOk ((T c!"main").cols.map fun c => if c = f then n else c) = true := by
      simp only [ColsOk, Bool.and_eq_true, decide_eq_true_eq, List.all_eq_true, List.mem_map] at hok ⊢
      refine ⟨?_, ?_⟩
      · rintro c ⟨d, hd, rfl⟩
        split
        · exact hns
        · exact hok.1 d hd
      · have hnd := hok.2
        clear hok hm
        generalize (T c!"main").cols = cols at hnd hlow
        induction cols with
        | nil => simp
        | cons d ds ih =>
          simp only [List.map_cons, List.nodup_cons, List.mem_map, not_exists, not_and] at hnd ⊢
          refine ⟨?_, ih hnd.2 fun c hc => hlow c (List.mem_cons_of_mem _ hc)⟩
          rintro _ ⟨e, he, rfl⟩ heq
          by_cases h1 : e = f <;> by_cases h2 : d = f <;> simp only [h1, h2, if_true, if_false] at heq
          · subst h1; subst h2; exact hnd.1 _ he rfl
          · exact hlow d List.mem_cons_self heq.symm
          · exact hlow e (List.mem_cons_of_mem _ he) heq
          · exact hnd.1 e he heq
    refine ⟨⟨(T c!"main").cols.map fun c => if c = f then n else c, (T c!"main").rows.map fun r m => if m = n then r f else if m = f then .null else r m⟩, ?_, ?_, ?_, ?_⟩
    · rw [t2, frameEval_method _ (main_frame hok) (by decide)]
      unfold frameMethod
      rw [if_neg (by decide), if_neg (by decide), if_pos rfl]
      simp only [hm, if_true, okFrame, hok']
    · exact List.mem_map.2 ⟨f, hm, by simp⟩
    · intro hc
      obtain ⟨c, hc, e⟩ := List.mem_map.1 hc
      split at e
      · subst e; exact hlow _ hm rfl
      · contradiction
    · simp only [List.map_map]
      exact List.map_congr_left fun r _ => by simp

end Verif.Props
