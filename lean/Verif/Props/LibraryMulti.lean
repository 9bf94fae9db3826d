import Verif.Props.LibraryFrames
/-
C68: `multisearch` with the library.  The searches of `multisearch` and the commands after it compute
the same rows with and without the library.
-/
namespace Verif.Props
open Verif Verif.Rt Verif.Spec Verif.Lemmas.Library

/-- the tables of the indexes are found by the library -/
def Found (W : World) (i : Option Str) : Prop :=
  ∀ n, i = some n → W.lookup [(c!"index", .lit (c!"\"" ++ n ++ c!"\""))] = some (.source n)

/-- the searches of a `multisearch`: each is a shared query -/
def SharedSearches (W : World) (x : Ext) (ps : List (List Command)) : Prop :=
  ∀ p ∈ ps, ∃ i, SharedQuery (Readable x) i p ∧ Found W i

theorem search_runs_from {W x i cs} (hx : Arranges x) (h : SharedQuery (Readable x) i cs) (hW : Found W i) (n n' : Nat) :
    ∃ t t' d e d', runCmds ⟨.allow, x⟩ cs ⟨n, none⟩ = some t ∧ runCmds ⟨.disallow, x⟩ cs ⟨n', none⟩ = some t' ∧
      t.df = some d ∧ runDF W d = some e ∧ t'.df = some d' ∧ SameRows e d' := by
  have fin : ∀ {c cs} {t t' : St}, transform ⟨.allow, x⟩ c ⟨n, none⟩ = some t → transform ⟨.disallow, x⟩ c ⟨n', none⟩ = some t' →
      Runs SameRows W t t' → t.df ≠ none → (∀ c ∈ cs, SharedCmd (Readable x) false c) →
      ∃ t t' d e d', runCmds ⟨.allow, x⟩ (c :: cs) ⟨n, none⟩ = some t ∧ runCmds ⟨.disallow, x⟩ (c :: cs) ⟨n', none⟩ = some t' ∧
      t.df = some d ∧ runDF W d = some e ∧ t'.df = some d' ∧ SameRows e d' := by
    intro c cs t t' h1 h2 h3 h4 h5
    obtain ⟨u, u', k1, k2, k3, k4⟩ := cmds_run sameRows_closed hx h3 h4 h5 fun c _ => byOk_true c
    rcases k3 with ⟨k3, _⟩ | ⟨d, e, d', k5, k6, k7, k8⟩
    · exact absurd k3 k4
    · exact ⟨u, u', d, e, d', by simp only [runCmds, h1, k1], by simp only [runCmds, h2, k2], k5, k6, k7, k8⟩
  cases h with
  | indexed h hd hk hc =>
    obtain ⟨t, t', h1, h2, h3, h4⟩ := index_runs sameRows_closed (n := n) (n' := n') (m := .allow) (by decide) hx (hW _ rfl) h hd hk
    exact fin h1 h2 h3 h4 hc
  | other h hc =>
    obtain ⟨t, t', h1, h2, h3, h4⟩ := cmd_runs sameRows_closed (W := W) (s := ⟨n, none⟩) (s' := ⟨n', none⟩) hx (.inl ⟨rfl, rfl⟩) (by simp) h (byOk_true _)
    exact fin h1 h2 h3 h4 hc

theorem sameRows_union {a b c d : DF} (h : SameRows a b) (k : SameRows c d) : SameRows (.unionByName a c) (.unionByName b d) :=
  fun V S hl => by simp only [Spark.meaning, h V S hl, k V S hl]

theorem multi_runs {W x} (hx : Arranges x) : ∀ {ps : List (List Command)} {n n' : Nat} {acc acc' : Option DF},
    SharedSearches W x ps → Runs SameRows W ⟨n, acc⟩ ⟨n', acc'⟩ → (ps = [] → acc ≠ none) →
    ∃ t t', multiTr ⟨.allow, x⟩ ps n acc = some t ∧ multiTr ⟨.disallow, x⟩ ps n' acc' = some t' ∧ Runs SameRows W t t' ∧ t.df ≠ none
  | [], n, n', acc, acc', _, hr, h0 => ⟨_, _, rfl, rfl, hr, h0 rfl⟩
  | p :: ps, n, n', acc, acc', hp, hr, _ => by
    obtain ⟨i, hq, hW⟩ := hp p List.mem_cons_self
    obtain ⟨t, t', d, e, d', h1, h2, h3, h4, h5, h6⟩ := search_runs_from hx hq hW n n'
    have hacc : Runs SameRows W ⟨t.next, some (unionStep acc d)⟩ ⟨t'.next, some (unionStep acc' d')⟩ := by
      rcases hr with ⟨k1, k2⟩ | ⟨b, f, b', k1, k2, k3, k4⟩
      · simp only at k1 k2
        subst k1 k2
        exact .inr ⟨_, e, d', rfl, h4, rfl, h6⟩
      · simp only at k1 k3
        subst k1 k3
        exact .inr ⟨_, .unionByName f e, _, rfl, by simp only [unionStep, runDF, k2, h4], rfl, sameRows_union k4 h6⟩
    obtain ⟨u, u', k1, k2, k3⟩ := multi_runs hx (ps := ps) (n := t.next) (n' := t'.next) (fun q hq => hp q (List.mem_cons_of_mem _ hq)) hacc (by simp)
    exact ⟨u, u', by simp only [multiTr, h1, h3, k1], by simp only [multiTr, h2, h5, k2], k3⟩

/-- **C68.** For every `multisearch` of shared queries followed by shared commands both translations succeed, and the
expression built with the library computes the same rows as the one without it.
Missing: the text.  When a search after the first one uses the library its assignment is printed between the
parentheses of `unionByName`, and the text is no program (`Props/Program.lean`); the claim is about the expression. -/
theorem C68_multisearch_partial {W x ps cs} (hx : Arranges x) (h0 : ps ≠ []) (hp : SharedSearches W x ps)
    (hc : ∀ c ∈ cs, SharedCmd (Readable x) false c) :
    ∃ t t' e, runCmds ⟨.allow, x⟩ (.multiSearch ps :: cs) ⟨1, none⟩ = some t ∧ runCmds ⟨.disallow, x⟩ (.multiSearch ps :: cs) ⟨1, none⟩ = some t' ∧
      runDF W t.cur = some e ∧ SameRows e t'.cur := by
  obtain ⟨t, t', h1, h2, h3, h4⟩ := multi_runs hx (n := 1) (n' := 1) (acc := none) (acc' := none) hp (.inl ⟨rfl, rfl⟩) (fun h => absurd h h0)
  obtain ⟨u, u', k1, k2, k3, _⟩ := cmds_run sameRows_closed hx h3 h4 hc fun c _ => byOk_true c
  obtain ⟨e, k5, k6⟩ := k3.cur sameRows_closed
  obtain ⟨p, ps, rfl⟩ := List.exists_cons_of_ne_nil h0
  have ht : transform ⟨.allow, x⟩ (.multiSearch (p :: ps)) ⟨1, none⟩ = some t := by
    simp only [transform, h1]
    rfl
  have ht' : transform ⟨.disallow, x⟩ (.multiSearch (p :: ps)) ⟨1, none⟩ = some t' := by
    simp only [transform, h2]
    rfl
  exact ⟨u, u', e, by simp only [runCmds, ht, k1], by simp only [runCmds, ht', k2], k5, k6⟩

/-- The rows of the searches come in the order of the searches, with and without the library. -/
theorem C68_multisearch_order : (∃ t, runCmds ⟨.allow, Tests.ext⟩
      [.multiSearch [[.makeResults ⟨1, true, c!"local", none⟩], [.makeResults ⟨1, true, c!"local", none⟩, .head (.const (.int 3)) false false]]] ⟨1, none⟩ = some t ∧
      ∃ a b, runDF (delivered fun _ => []) t.cur = some (.unionByName a (.limit b 3)) ∧ a = b) := ⟨_, rfl, _, _, rfl, rfl⟩

example (types) : ∃ t t' e,
    runCmds ⟨.allow, Tests.ext⟩ (.multiSearch [.search indexedExample :: restExample, nativeExample.take 2] :: restExample) ⟨1, none⟩ = some t ∧
    runCmds ⟨.disallow, Tests.ext⟩ (.multiSearch [.search indexedExample :: restExample, nativeExample.take 2] :: restExample) ⟨1, none⟩ = some t' ∧
    runDF (delivered types) t.cur = some e ∧ SameRows e t'.cur := by
  refine C68_multisearch_partial arranges_id (by simp) ?_ restExample_ok
  intro p hp
  simp only [List.mem_cons, List.not_mem_nil, or_false] at hp
  rcases hp with rfl | rfl
  · refine ⟨_, .indexed indexedExample_ok (by decide) (by decide) restExample_ok, ?_⟩
    intro n hn
    simp only [Option.some.injEq] at hn
    subst hn
    exact lookup_delivered (by decide) (by decide)
  · refine ⟨none, .other (.makeResults (by decide)) ?_, fun n hn => by cases hn⟩
    intro c hc
    have hc : c ∈ [Command.regex (some (c!"host", c!"!=")) c!"^a"] := hc
    rw [List.mem_singleton] at hc
    subst hc
    exact .regex (by simp)

end Verif.Props
