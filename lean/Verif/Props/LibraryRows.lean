import Verif.Lemmas.BuiltRows
import Verif.Props.LibraryFrames
import Verif.Props.QueryRows
/-
C86: the rows a query computes that is translated with the runtime library allowed.
-/
namespace Verif.Props
open Verif Spl Spec Lemmas Rt Library

theorem byOk_cmd {o : Bool} {cols : List Str} {c : Command} {y : Bool × List Str} (h : fitsCmd o cols c = some y) :
    Library.ByOk (fun n => Plain '\'' n = true) c := by
  unfold Library.ByOk
  split
  · rename_i so es bys dd
    intro f hf
    simp only [fitsCmd] at h
    split at h
    · rename_i ks ns hk hn
      split at h
      · rename_i hc
        simp only [Bool.and_eq_true] at hc
        have hm : f.field ∈ ks := by
          cases bys with
          | none => simp at hf
          | some fs =>
            simp only [byNames] at hk
            split at hk
            · rw [← Option.some.inj hk]
              exact List.mem_map_of_mem hf
            · cases hk
        exact (goodCols_plain hc.2 (List.mem_append_left _ hm)).1
      · cases h
    · cases h
  · trivial

theorem byOk_cmds : ∀ {cs : List Command} {o : Bool} {cols : List Str} {y : Bool × List Str}, fitsCmds o cols cs = some y →
    ∀ c ∈ cs, Library.ByOk (fun n => Plain '\'' n = true) c
  | [], _, _, _, _, c, hc => by cases hc
  | c :: cs, o, cols, y, h, c', hc => by
    rw [fitsCmds] at h
    cases hf : fitsCmd o cols c with
    | none => rw [hf] at h; cases h
    | some z =>
      rw [hf, Option.bind_some] at h
      rcases List.mem_cons.1 hc with rfl | hc
      · exact byOk_cmd hf
      · exact byOk_cmds h c' hc

theorem byOk_query {colsOf : Str → List Str} {q : List Command} {y : Bool × List Str} (h : fitsQuery colsOf q = some y) :
    ∀ c ∈ q, Library.ByOk (fun n => Plain '\'' n = true) c := by
  unfold fitsQuery at h
  split at h
  · cases h
  · split at h
    · split at h
      · exact byOk_cmds h
      · cases h
    · split at h
      · intro c hc
        rcases List.mem_cons.1 hc with rfl | hc
        · trivial
        · exact byOk_cmds h c hc
      · cases h
    · cases h
  · split at h
    · exact byOk_cmds h
    · cases h

/-- What has to be shown of a query: with the library allowed it is translated, the program runs and ends with a data frame,
and on all tables that frame has the rows described. -/
def LibraryComputesRows (W : World) (x : Ext) (colsOf : Str → List Str) (q : List Command) (ordered : Bool) (cols : List Str) : Prop :=
  ∃ t e, runCmds ⟨.allow, x⟩ q ⟨1, none⟩ = some t ∧ renderPipeline ⟨.allow, x⟩ q = some t.cur.render.text ∧ runDF W t.cur = some e ∧
    ∀ (S : Sem) (A : Aggs) (O O' : Arrangement) (T T' : Str → Frame), (∀ i, (T i).cols = colsOf i) → (∀ i, SameTable (T i) (T' i)) →
      Definite S A O T q →
      ∃ F F', splQuery S A O T q = some F ∧ builtRows S A O' T' e = some F' ∧ F.cols = cols ∧ SameTable F F' ∧
        (ordered = true → F'.rows = F.rows)

/-- **C86** (partial).  Every query whose rows are those described when it is translated without the library (C75), made of
commands that do the same with the library (C68): translated with the library allowed, the program runs and computes, on
all tables with the given columns, the columns and the rows the query describes, in the order described where there is one.
Missing: what `fitsQuery` and `SharedQuery` leave out, see the disagreements of C61-C67 and C75. -/
theorem C86_library_rows_partial (W : World) (x : Ext) (hx : Arranges x) (colsOf : Str → List Str) (q : List Command) (ordered : Bool)
    (cols : List Str) {i : Option Str} (h : fitsQuery colsOf q = some (ordered, cols)) (hs : SharedQuery (Readable x) i q)
    (hW : ∀ n, i = some n → W.lookup [(c!"index", .lit (c!"\"" ++ n ++ c!"\""))] = some (.source n)) :
    LibraryComputesRows W x colsOf q ordered cols := by
  obtain ⟨t, t', e, h1, h2, h3, h4, h5⟩ := query_runs rowsOf_closed hx hs (byOk_query h) hW
  obtain ⟨p, k1, k2⟩ := translates_query x hx colsOf q ordered cols h
  obtain ⟨s, k3, k4, k5⟩ := k1 1
  rw [h2] at k3
  have k3 := Option.some.inj k3
  subst k3
  obtain ⟨d, hd⟩ := Option.ne_none_iff_exists'.1 h5
  refine ⟨t, e, h1, ?_, h3, fun S A O O' T T' hc ht hd => ?_⟩
  · simp only [renderPipeline, h1, Option.map_some, St.cur, hd, Option.getD_some]
  · obtain ⟨F, F', g1, g2, g3, g4⟩ := k2 S A O O' T T' hc ht hd
    exact ⟨F, F', g1, h4 S A O' T' F' (by rw [built_of k5, g2]), g4, ⟨g3.1, g3.2.1⟩, g3.2.2⟩

/-- **C86** (partial), from the text of the query and with the library as delivered. -/
theorem C86_text_partial (types : DF → List (Str × Str)) (x : Ext) (hx : Arranges x) (colsOf : Str → List Str) {q : List Command} {query : Str}
    (ht : QueryText q query) (ordered : Bool) (cols : List Str) {n : Str} (h : fitsQuery colsOf q = some (ordered, cols))
    (hs : SharedQuery (Readable x) (some n) q) (hp : Plain '"' n = true) (hn : n ≠ []) :
    parse query = some q ∧ LibraryComputesRows (delivered types) x colsOf q ordered cols :=
  ⟨C69_read_partial ht, C86_library_rows_partial _ x hx colsOf q ordered cols h hs fun _ hi => by
    simp only [Option.some.injEq] at hi
    exact hi ▸ lookup_delivered hp hn⟩

/-- a query in both fragments -/
def libQuery : List Command :=
  [ .search (.binary (.binary (.const (.field c!"index")) c!"=" (.const (.field c!"web"))) c!"AND"
      (.binary (.const (.field c!"status")) c!">=" (.const (.int 400)))),
    .eval [(c!"kb", .binary (.const (.field c!"bytes")) c!"/" (.const (.int 1024)))],
    .where_ (.binary (.const (.field c!"kb")) c!">" (.const (.int 1))),
    .stats ⟨1, false, c!" "⟩ [.call c!"count" [], .alias (.call c!"avg" [.const (.field c!"kb")]) c!"mean"] (some [⟨c!"host", none⟩]) false,
    .sort [(some c!"-", .const (.field c!"mean"))] 10000 false, .head (.const (.int 5)) false false,
    .rename [(c!"mean", c!"kilobytes")], .table [c!"host", c!"kilobytes"] ]

theorem libQuery_shared : SharedQuery (Readable x) (some c!"web") libQuery := by
  have hb : Shared (.binary (.const (.field c!"bytes")) c!"/" (.const (.int 1024))) := .binary (by decide) (.const rfl) (.const rfl) rfl rfl
  refine .indexed (.left (.index (.inl rfl) (by decide)) (.cmp (by decide) (by decide) rfl)) (by decide +kernel) (by decide +kernel) ?_
  intro c hc
  simp only [List.mem_cons, List.not_mem_nil, or_false] at hc
  rcases hc with rfl | rfl | rfl | rfl | rfl | rfl | rfl
  · exact .eval (by simpa using hb) (by decide) (by decide) (by decide +kernel)
  · exact .where_ (.binary (by decide) (.const rfl) (.const rfl) rfl rfl) rfl
  · exact .stats (ls := [c!"count", c!"mean"]) (by simp)
      (.cons (.plain (by decide) (by simp)) (.cons (.named (by decide) (by simpa using .const rfl)) .nil)) (by decide) (by decide) (by decide)
      (by decide +kernel)
  · exact .sort (by simp)
  · exact .head
  · exact .rename
  · exact .table

example : parse c!"search index=web status>=400 | eval kb=bytes / 1024 | where kb>1 | stats count avg(kb) AS mean BY host | sort -mean | head 5 | rename mean AS kilobytes | table host, kilobytes" =
      some libQuery ∧
    fitsQuery webCols libQuery = some (true, [c!"host", c!"kilobytes"]) ∧ SharedQuery (Readable x) (some c!"web") libQuery :=
  ⟨isParse_sound (by decide +kernel), by decide +kernel, libQuery_shared⟩

end Verif.Props
