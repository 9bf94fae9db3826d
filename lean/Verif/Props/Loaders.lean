import Verif.Spl.Loaders
import Verif.Props.Macros
/-
C106, C107: which definition a macro loader returns.
-/
namespace Verif
open P Lex Spl Lemmas

/-! ### The registry -/

theorem register_find (n : Str) (d : MacroDef) (m : Str) : ∀ r : Registry,
    (Registry.register n d r).loader m = if m = n then .found d else Registry.loader r m := by
  intro r
  induction r with
  | nil =>
    by_cases h : m = n
    · subst h; simp [Registry.register, Registry.loader]
    · have : ¬ n = m := fun e => h e.symm
      simp [Registry.register, Registry.loader, h, this]
  | cons e r ih =>
    obtain ⟨k, e⟩ := e
    simp only [Registry.loader, Registry.register] at ih ⊢
    by_cases hk : k = n
    · subst hk
      by_cases h : m = k
      · subst h; simp
      · have : ¬ k = m := fun e => h e.symm
        simp [h, this]
    · rw [if_neg hk]
      by_cases h : k = m
      · subst h; simp [hk]
      · simpa [List.find?_cons, h] using ih

theorem ofCalls_snoc (calls : List (Str × MacroDef)) (n : Str) (d : MacroDef) :
    Registry.ofCalls (calls ++ [(n, d)]) = Registry.register n d (Registry.ofCalls calls) := by
  simp [Registry.ofCalls]

/-- A registry returns the definition that was registered last under the name. -/
theorem C106_registry (calls : List (Str × MacroDef)) (n : Str) (d : MacroDef) :
    (Registry.ofCalls calls).loader n = .found d ↔
      ∃ before after, calls = before ++ (n, d) :: after ∧ ∀ c ∈ after, c.1 ≠ n := by
  have key : ∀ k (calls : List (Str × MacroDef)), calls.length = k → ((Registry.ofCalls calls).loader n = .found d ↔
      ∃ before after, calls = before ++ (n, d) :: after ∧ ∀ c ∈ after, c.1 ≠ n) := by
    intro k
    induction k with
    | zero =>
      intro calls hl
      rw [List.length_eq_zero_iff.1 hl]
      simp [Registry.ofCalls, Registry.loader]
    | succ k ih =>
      intro calls hl
      have hne : calls ≠ [] := by rintro rfl; simp at hl
      obtain ⟨init, ⟨m, e⟩, rfl⟩ : ∃ init last, calls = init ++ [last] :=
        ⟨calls.dropLast, calls.getLast hne, (List.dropLast_concat_getLast hne).symm⟩
      have hi : init.length = k := by simpa using hl
      rw [ofCalls_snoc, register_find]
      by_cases h : n = m
      · subst h
        rw [if_pos rfl]
        constructor
        · intro h; cases h; exact ⟨init, [], rfl, by simp⟩
        · rintro ⟨b, a, he, ha⟩
          rcases List.eq_nil_or_concat a with rfl | ⟨a, x, rfl⟩
          · have := (List.append_inj' he rfl).2
            simp at this; rw [this]
          · rw [List.concat_eq_append, ← List.cons_append, ← List.append_assoc] at he
            have := (List.append_inj' he rfl).2
            simp at this
            exact absurd (by rw [← this]) (ha x (by simp))
      · rw [if_neg h, ih init hi]
        constructor
        · rintro ⟨b, a, rfl, ha⟩
          refine ⟨b, a ++ [(m, e)], by simp, fun c hc => ?_⟩
          rcases List.mem_append.1 hc with hc | hc
          · exact ha c hc
          · rw [List.mem_singleton.1 hc]; exact fun e => h e.symm
        · rintro ⟨b, a, he, ha⟩
          rcases List.eq_nil_or_concat a with rfl | ⟨a, x, rfl⟩
          · have := (List.append_inj' he rfl).2
            simp at this; exact absurd this.1.symm h
          · rw [List.concat_eq_append, ← List.cons_append, ← List.append_assoc] at he
            have := (List.append_inj' he rfl).1
            exact ⟨b, a, this, fun c hc => ha c (by simp [hc])⟩
  exact key _ calls rfl

example : (Registry.ofCalls [(c!"m", ⟨[], c!"a"⟩), (c!"n", ⟨[], c!"b"⟩), (c!"m", ⟨[], c!"c"⟩)]).loader c!"m" = .found ⟨[], c!"c"⟩ := by
  decide +kernel

/-! ### The folder -/

theorem glob_cons (c : Char) (p s : Str) : globMatch (c :: p) s =
    if c = '*' then (List.range (s.length + 1)).any fun k => globMatch p (s.drop k)
    else match s with
      | [] => false
      | d :: s => c == d && globMatch p s := by
  rw [globMatch.eq_def]; rfl

theorem glob_plain : ∀ {p s : Str}, '*' ∉ p → (globMatch p s = true ↔ p = s)
  | [], s, _ => by rw [globMatch]; cases s <;> simp
  | c :: p, s, h => by
    have hc : ¬ c = '*' := fun e => h (by simp [e])
    rw [glob_cons, if_neg hc]
    cases s with
    | nil => simp
    | cons d s =>
      simp only [Bool.and_eq_true, beq_iff_eq, List.cons.injEq]
      rw [glob_plain (fun hx => h (List.mem_cons.2 (.inr hx)))]

theorem glob_star {p s : Str} : globMatch ('*' :: p) s = true ↔ ∃ m r, s = m ++ r ∧ globMatch p r = true := by
  rw [glob_cons, if_pos rfl, List.any_eq_true]
  constructor
  · rintro ⟨k, _, h⟩
    exact ⟨s.take k, s.drop k, (List.take_append_drop k s).symm, h⟩
  · rintro ⟨m, r, rfl, h⟩
    refine ⟨m.length, ?_, ?_⟩
    · rw [List.mem_range]; simp; omega
    · rw [List.drop_left]; exact h

theorem glob_after {a p : Str} (ha : '*' ∉ a) : ∀ {s : Str}, globMatch (a ++ p) s = true ↔ ∃ r, s = a ++ r ∧ globMatch p r = true := by
  induction a with
  | nil => simp
  | cons c a ih =>
    intro s
    have hc : ¬ c = '*' := fun e => ha (by simp [e])
    rw [List.cons_append, glob_cons, if_neg hc]
    cases s with
    | nil => simp
    | cons d s =>
      simp only [Bool.and_eq_true, beq_iff_eq]
      rw [ih (fun hx => ha (List.mem_cons.2 (.inr hx)))]
      constructor
      · rintro ⟨rfl, r, rfl, h⟩; exact ⟨r, rfl, h⟩
      · rintro ⟨r, he, h⟩
        simp only [List.cons_append, List.cons.injEq] at he
        exact ⟨he.1.symm, r, he.2, h⟩

theorem take_two {α : Type} {l : List α} : (l.take 2 = [] ↔ l = []) ∧ ∀ e, (l.take 2 = [e] ↔ l = [e]) := by
  match l with
  | [] => simp
  | [x] => simp
  | x :: y :: l => simp

theorem filter_one {α : Type} {f : α → Bool} {e : α} : ∀ {l : List α}, l.filter f = [e] ↔
    ∃ a b, l = a ++ e :: b ∧ f e = true ∧ ∀ x ∈ a ++ b, f x = false
  | [] => by simp
  | y :: l => by
    rw [List.filter_cons]
    by_cases hy : f y = true
    · rw [if_pos hy, List.cons.injEq, List.filter_eq_nil_iff]
      constructor
      · rintro ⟨rfl, h⟩
        exact ⟨[], l, rfl, hy, fun x hx => by simpa using h x (by simpa using hx)⟩
      · rintro ⟨a, b, he, hf, h⟩
        cases a with
        | nil =>
          simp only [List.nil_append, List.cons.injEq] at he
          exact ⟨he.1, fun x hx => by rw [he.2] at hx; simp [h x (by simpa using hx)]⟩
        | cons z a =>
          simp only [List.cons_append, List.cons.injEq] at he
          have := h z (by simp)
          rw [← he.1, hy] at this; cases this
    · rw [if_neg hy, filter_one]
      constructor
      · rintro ⟨a, b, rfl, hf, h⟩
        refine ⟨y :: a, b, rfl, hf, fun x hx => ?_⟩
        rcases List.mem_cons.1 hx with rfl | hx
        · simpa using hy
        · exact h x hx
      · rintro ⟨a, b, he, hf, h⟩
        cases a with
        | nil =>
          simp only [List.nil_append, List.cons.injEq] at he
          rw [he.1] at hy; exact absurd hf hy
        | cons z a =>
          simp only [List.cons_append, List.cons.injEq] at he
          exact ⟨a, b, he.2, hf, fun x hx => h x (by simp at hx ⊢; exact .inr hx)⟩

/-- The folder loader returns a definition exactly when one entry matches and it is a readable file. -/
theorem folder_found {other : Loader} {suffix name : Str} {tree : List Entry} {d : MacroDef} (hn : OneComponent name = true) :
    folderLoader other suffix tree name = .found d ↔ ∃ a e b, tree = a ++ e :: b ∧ e.content = some (some d) ∧
      globMatch (name ++ suffix) e.name = true ∧ ∀ x ∈ a ++ b, globMatch (name ++ suffix) x.name = false := by
  rw [folderLoader, if_pos hn]
  have hone : ∀ e, (tree.filter fun e => globMatch (name ++ suffix) e.name).take 2 = [e] ↔ ∃ a b, tree = a ++ e :: b ∧
      globMatch (name ++ suffix) e.name = true ∧ ∀ x ∈ a ++ b, globMatch (name ++ suffix) x.name = false :=
    fun e => (take_two.2 e).trans filter_one
  constructor
  · intro h
    split at h
    · cases h
    · rename_i e he
      obtain ⟨a, b, h1, h2, h3⟩ := (hone e).1 he
      split at h
      · cases h
      · cases h
      · rename_i d' hd
        cases h
        exact ⟨a, e, b, h1, hd, h2, h3⟩
    · cases h
  · rintro ⟨a, e, b, h1, hd, h2, h3⟩
    rw [(hone e).2 ⟨a, b, h1, h2, h3⟩]
    simp only [hd]

/-- A name without stars is looked up under exactly that name: the definition is that of the only entry below the
folder with the name and the suffix.  Missing: names that are not one component of a path. -/
theorem C106_folder_partial {other : Loader} {suffix name : Str} {tree : List Entry} {d : MacroDef} (hn : OneComponent name = true)
    (h1 : '*' ∉ name) (h2 : '*' ∉ suffix) :
    folderLoader other suffix tree name = .found d ↔ ∃ a e b, tree = a ++ e :: b ∧ e.content = some (some d) ∧
      e.name = name ++ suffix ∧ ∀ x ∈ a ++ b, x.name ≠ name ++ suffix := by
  have hs : '*' ∉ name ++ suffix := by simp [h1, h2]
  have hf : ∀ x : Entry, globMatch (name ++ suffix) x.name = false ↔ x.name ≠ name ++ suffix := by
    intro x
    rw [← Bool.not_eq_true, glob_plain hs]
    exact ⟨fun h e => h e.symm, fun h e => h e.symm⟩
  rw [folder_found hn]
  simp only [hf, glob_plain hs]
  constructor
  · rintro ⟨a, e, b, r1, r2, r3, r4⟩; exact ⟨a, e, b, r1, r2, r3.symm, r4⟩
  · rintro ⟨a, e, b, r1, r2, r3, r4⟩; exact ⟨a, e, b, r1, r2, r3.symm, r4⟩

/-- A folder with three macros and a subfolder whose name ends like a macro. -/
def someTree : List Entry :=
  [⟨c!"errors.json", some (some ⟨[], c!"level=error"⟩)⟩, ⟨c!"secret_index.json", some (some ⟨[], c!"index=secret"⟩)⟩,
   ⟨c!"old.json", none⟩, ⟨c!"errors.txt", some none⟩]

example : folderLoader (fun _ => .missing) c!".json" someTree c!"errors" = .found ⟨[], c!"level=error"⟩ := by decide +kernel

/-- A star in a name stands for anything: a folder with one macro returns it for a name that only fits as a pattern. -/
theorem C106_star {other : Loader} {suffix a b m : Str} {d : MacroDef} (ha : '*' ∉ a) (hb : '*' ∉ b) (hs : '*' ∉ suffix)
    (hn : OneComponent (a ++ '*' :: b) = true) :
    folderLoader other suffix [⟨a ++ m ++ b ++ suffix, some (some d)⟩] (a ++ '*' :: b) = .found d := by
  rw [folder_found hn]
  refine ⟨[], _, [], rfl, rfl, ?_, by simp⟩
  rw [List.append_assoc, glob_after ha]
  refine ⟨m ++ (b ++ suffix), by simp, ?_⟩
  rw [List.cons_append, glob_star]
  exact ⟨m, b ++ suffix, rfl, (glob_plain (by simp [hb, hs])).2 rfl⟩

/-- Names with `**` or a separator are not names the model describes: what happens with them is left to `other`. -/
theorem folder_other {other : Loader} {suffix a b : Str} {tree : List Entry} : folderLoader other suffix tree (a ++ '*' :: '*' :: b) = other (a ++ '*' :: '*' :: b) := by
  have h : ∀ a : Str, twoStars (a ++ '*' :: '*' :: b) = true := by
    intro a
    induction a with
    | nil => rfl
    | cons c a ih =>
      by_cases hc : c = '*'
      · subst hc
        cases a with
        | nil => rfl
        | cons d a =>
          by_cases hd : d = '*'
          · subst hd; rfl
          · simp only [List.cons_append] at ih ⊢
            rw [twoStars]
            · exact ih
            · simp [hd]
      · rw [List.cons_append, twoStars]
        · exact ih
        · simp [hc]
  unfold folderLoader OneComponent
  simp [h a]

/-- Such calls are read and expanded: no macro of the folder is called `s*`. -/
theorem C106_star_call : substituteMacros (fun _ _ _ => none) (Loader.defs (folderLoader (fun _ => .missing) c!".json" someTree)) 5 c!"search `s*` user=bob" =
    some c!"search index=secret user=bob" := by
  decide +kernel

/-- Two entries with the same name at different places are refused. -/
theorem C106_ambiguous {other : Loader} {suffix name : Str} {tree : List Entry} {a b c : List Entry} {e e' : Entry} (hn : OneComponent name = true)
    (ht : tree = a ++ e :: b ++ e' :: c) (h1 : '*' ∉ name) (h2 : '*' ∉ suffix) (he : e.name = name ++ suffix) (he' : e'.name = name ++ suffix) :
    folderLoader other suffix tree name = .fails := by
  have hs : '*' ∉ name ++ suffix := by simp [h1, h2]
  have g : globMatch (name ++ suffix) e.name = true := (glob_plain hs).2 he.symm
  have g' : globMatch (name ++ suffix) e'.name = true := (glob_plain hs).2 he'.symm
  rw [folderLoader, if_pos hn]
  have hl : 2 ≤ (tree.filter fun e => globMatch (name ++ suffix) e.name).length := by
    rw [ht]; simp [List.filter_append, g, g']; omega
  generalize (tree.filter fun e => globMatch (name ++ suffix) e.name) = l at hl
  match l, hl with
  | x :: y :: l, _ => simp

example : folderLoader (fun _ => .missing) c!".json" (someTree ++ someTree) c!"errors" = .fails := by decide +kernel

/-- The only entry with the name is a folder: the macro is missing (the next loader is asked); it is a file that cannot be
read or is no definition: an error. -/
theorem C106_not_a_file {other : Loader} {suffix name : Str} {a b : List Entry} {e : Entry} (hn : OneComponent name = true) (h1 : '*' ∉ name) (h2 : '*' ∉ suffix)
    (he : e.name = name ++ suffix) (ha : ∀ x ∈ a ++ b, x.name ≠ name ++ suffix) :
    (e.content = none → folderLoader other suffix (a ++ e :: b) name = .missing) ∧ (e.content = some none → folderLoader other suffix (a ++ e :: b) name = .fails) := by
  have hs : '*' ∉ name ++ suffix := by simp [h1, h2]
  have hl : ((a ++ e :: b).filter fun e => globMatch (name ++ suffix) e.name).take 2 = [e] :=
    (take_two.2 e).2 (filter_one.2 ⟨a, b, rfl, (glob_plain hs).2 he.symm, fun x hx => by
      cases hg : globMatch (name ++ suffix) x.name with
      | false => rfl
      | true => exact absurd ((glob_plain hs).1 hg).symm (ha x hx)⟩)
  rw [folderLoader, if_pos hn, hl]
  exact ⟨fun h => by simp only [h], fun h => by simp only [h]⟩

example : folderLoader (fun _ => .missing) c!".json" someTree c!"old" = .missing ∧ folderLoader (fun _ => .missing) c!".txt" someTree c!"errors" = .fails := by decide +kernel

/-! ### Several loaders -/

/-- Several loaders return the definition of the first that has one, or else of the fallback. -/
theorem C106_combined {fallback : Option Loader} {name : Str} {d : MacroDef} : ∀ {ls : List Loader},
    combinedLoader fallback ls name = .found d ↔
      (∃ a l b, ls = a ++ l :: b ∧ (∀ x ∈ a, x name = .missing) ∧ l name = .found d) ∨
      ((∀ x ∈ ls, x name = .missing) ∧ ∃ f, fallback = some f ∧ f name = .found d)
  | [] => by
    cases fallback <;> simp [combinedLoader]
  | l :: ls => by
    rw [combinedLoader]
    have other : l name ≠ .missing → (l name = .found d ↔ (∃ a l' b, l :: ls = a ++ l' :: b ∧ (∀ x ∈ a, x name = .missing) ∧ l' name = .found d) ∨
      ((∀ x ∈ l :: ls, x name = .missing) ∧ ∃ f, fallback = some f ∧ f name = .found d)) := by
      intro hl
      constructor
      · intro h; exact .inl ⟨[], l, ls, rfl, by simp, h⟩
      · rintro (⟨a, l', b, he, ha, h⟩ | ⟨h, _⟩)
        · cases a with
          | nil => simp only [List.nil_append, List.cons.injEq] at he; rw [he.1]; exact h
          | cons y a =>
            simp only [List.cons_append, List.cons.injEq] at he
            exact absurd (by rw [he.1]; exact ha y (by simp)) hl
        · exact absurd (h l (by simp)) hl
    split
    · rename_i hm
      rw [C106_combined]
      constructor
      · rintro (⟨a, l', b, rfl, ha, h⟩ | ⟨h, h'⟩)
        · refine .inl ⟨l :: a, l', b, rfl, fun x hx => ?_, h⟩
          rcases List.mem_cons.1 hx with rfl | hx
          · exact hm
          · exact ha x hx
        · refine .inr ⟨fun x hx => ?_, h'⟩
          rcases List.mem_cons.1 hx with rfl | hx
          · exact hm
          · exact h x hx
      · rintro (⟨a, l', b, he, ha, h⟩ | ⟨h, h'⟩)
        · cases a with
          | nil =>
            simp only [List.nil_append, List.cons.injEq] at he
            rw [← he.1, hm] at h; cases h
          | cons y a =>
            simp only [List.cons_append, List.cons.injEq] at he
            exact .inl ⟨a, l', b, he.2, fun x hx => ha x (by simp [hx]), h⟩
        · exact .inr ⟨fun x hx => h x (by simp [hx]), h'⟩
    · rename_i hm
      exact other fun e => hm e

example : combinedLoader (some fun _ => .found ⟨[], []⟩) [folderLoader (fun _ => .missing) c!".json" someTree, (Registry.ofCalls [(c!"m", ⟨[], c!"x"⟩)]).loader] c!"m" =
    .found ⟨[], c!"x"⟩ := by decide +kernel

/-- A loader that fails otherwise than by not having the macro ends the lookup, also when a later one has it. -/
theorem C106_failure_ends {fallback : Option Loader} {name : Str} {l : Loader} (hl : l name = .fails) (later : List Loader) :
    ∀ {a : List Loader}, (∀ x ∈ a, x name = .missing) → combinedLoader fallback (a ++ l :: later) name = .fails
  | [], _ => by rw [List.nil_append, combinedLoader, hl]
  | y :: a, h => by
    rw [List.cons_append, combinedLoader, h y (by simp)]
    exact C106_failure_ends hl later fun x hx => h x (by simp [hx])

example : combinedLoader none [folderLoader (fun _ => .missing) c!".json" (someTree ++ someTree), folderLoader (fun _ => .missing) c!".json" someTree] c!"errors" = .fails := by
  decide +kernel

/-- A call of a macro that the loader does not return is an error of the whole expansion. -/
theorem C106_undefined {other : Str → Str → Str → Option Str} {l : Loader} {code suffix : Str} {chunks : List (Str × MacroCall)} {x : Str × MacroCall}
    (hd : detectMacros code = some (chunks, suffix)) (hx : x ∈ chunks) (hl : ∀ d, l x.2.name ≠ .found d) (fuel : Nat) :
    substituteMacros other l.defs fuel code = none := by
  have hdef : l.defs x.2.name = none := by
    rw [Loader.defs]; split
    · rename_i d h; exact absurd h (hl d)
    · rfl
  have hc : ∀ {chunks : List (Str × MacroCall)}, x ∈ chunks → expandChunks other l.defs chunks suffix = none := by
    intro chunks
    induction chunks with
    | nil => simp
    | cons y rest ih =>
      intro hx
      obtain ⟨p, m⟩ := y
      rw [expandChunks]
      rcases List.mem_cons.1 hx with rfl | hx
      · simp only at hdef
        rw [expandCall, hdef]
      · split
        · rfl
        · rw [ih hx]
  cases fuel with
  | zero => rfl
  | succ fuel => simp [substituteMacros, expandOnce, hd, hc hx]

example : substituteMacros (fun _ _ _ => none) (Loader.defs (folderLoader (fun _ => .missing) c!".json" someTree)) 5 c!"search `errors` `warnings`" = none := by
  decide +kernel

/-! ### The cache -/

/-- what the cache holds after some lookups: the first result for each name -/
def cachedBy (other : Loader) (suffix : Str) : List (List Entry × Str) → Cache → Cache
  | [], c => c
  | (tree, name) :: rest, c => cachedBy other suffix rest (cachedLookup other suffix tree c name).2

theorem cachedRun_append (other : Loader) (suffix : Str) : ∀ (xs ys : List (List Entry × Str)) (c : Cache),
    cachedRun other suffix (xs ++ ys) c = cachedRun other suffix xs c ++ cachedRun other suffix ys (cachedBy other suffix xs c)
  | [], _, _ => rfl
  | (tree, name) :: xs, ys, c => by
    simp only [List.cons_append, cachedRun, cachedBy]
    rw [cachedRun_append]

/-- the cache after some lookups, by name -/
theorem cachedBy_find (other : Loader) (suffix : Str) (n : Str) : ∀ (xs : List (List Entry × Str)) (c : Cache),
    ((cachedBy other suffix xs c).find? fun e => e.1 == n).map Prod.snd =
      ((c.find? fun e => e.1 == n).map Prod.snd).or
        ((xs.filter fun x => x.2 == n).findSome? fun x => (folderLoader other suffix x.1).defs n)
  | [], c => by simp [cachedBy]
  | (tree, name) :: xs, c => by
    rw [cachedBy, cachedBy_find other suffix n xs]
    rw [cachedLookup]
    by_cases hn : name = n
    · subst hn
      rw [List.filter_cons_of_pos (by simp), List.findSome?_cons]
      cases hc : c.find? (fun e => e.1 == name) with
      | some e => simp [hc]
      | none =>
        cases hf : folderLoader other suffix tree name <;> simp [hc, hf, Loader.defs]
    · rw [List.filter_cons_of_neg (by simpa using hn)]
      cases hc : c.find? (fun e => e.1 == name) with
      | some e => simp
      | none =>
        cases hf : folderLoader other suffix tree name <;> simp [hn]

/-- After any lookups, a lookup returns the definition that was returned first for this name, and only if there was
none, what the folder holds now. -/
theorem C107_result (other : Loader) (suffix : Str) (past : List (List Entry × Str)) (tree : List Entry) (n : Str) :
    (cachedRun other suffix (past ++ [(tree, n)]) []).getLast? =
      some (match (past.filter fun x => x.2 == n).findSome? fun x => (folderLoader other suffix x.1).defs n with
        | some d => .found d
        | none => folderLoader other suffix tree n) := by
  rw [cachedRun_append]
  have h := cachedBy_find other suffix n past []
  simp only [List.find?_nil, Option.map_none, Option.none_or] at h
  rw [← h]
  simp only [cachedRun, cachedLookup]
  cases hc : (cachedBy other suffix past []).find? (fun e => e.1 == n) with
  | some e => simp
  | none => cases hf : folderLoader other suffix tree n <;> simp

/-- As long as the name has not been found before, the folder is read as it is. -/
theorem C107_first_partial {other : Loader} {suffix : Str} {past : List (List Entry × Str)} {tree : List Entry} {n : Str}
    (h : ∀ x ∈ past, x.2 = n → ∀ d, folderLoader other suffix x.1 n ≠ .found d) :
    (cachedRun other suffix (past ++ [(tree, n)]) []).getLast? = some (folderLoader other suffix tree n) := by
  rw [C107_result]
  have : ((past.filter fun x => x.2 == n).findSome? fun x => (folderLoader other suffix x.1).defs n) = none := by
    rw [List.findSome?_eq_none_iff]
    intro x hx
    obtain ⟨hx, he⟩ := List.mem_filter.1 hx
    rw [Loader.defs]
    split
    · rename_i d hd; exact absurd hd (h x hx (by simpa using he) d)
    · rfl
  rw [this]

example : cachedRun (fun _ => .missing) c!".json" [([], c!"errors"), (someTree, c!"errors")] [] = [.missing, .found ⟨[], c!"level=error"⟩] := by
  decide +kernel

/-- Once it has been found, a changed definition is never seen. -/
theorem C107_stale {other : Loader} {suffix n : Str} {before after : List Entry} {d : MacroDef}
    (h : folderLoader other suffix before n = .found d) :
    cachedRun other suffix [(before, n), (after, n)] [] = [.found d, .found d] := by
  simp [cachedRun, cachedLookup, h]

example : folderLoader (fun _ => .missing) c!".json" [] c!"errors" = .missing ∧
    cachedRun (fun _ => .missing) c!".json" [(someTree, c!"errors"), ([], c!"errors")] [] = [.found ⟨[], c!"level=error"⟩, .found ⟨[], c!"level=error"⟩] := by
  decide +kernel

end Verif
