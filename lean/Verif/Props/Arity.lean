import Verif.Lemmas.Frag
import Verif.Tests.Ext
/-
C46: no argument of a function is silently ignored.

The full property fails for `mvindex`, `mvzip`, `relative_time`, `earliest_time` and `latest_time`
(`C46_extra_arguments_ignored`) and is not checked at all when the call is left to the runtime
(`C46_runtime_unchecked`); everything else is covered below.
-/
namespace Verif
open Lemmas (apply_mapped mapArgs_length)

/-! ### what "used" means -/

mutual
/-- `x` is a part of an expression -/
def Occurs (x : PE) : PE → Prop
  | .named n => x = .named n
  | .lit c => x = .lit c
  | .py c => x = .py c
  | .not r => x = .not r ∨ Occurs x r
  | .aliased c n => x = .aliased c n ∨ Occurs x c
  | .bin op l r => x = .bin op l r ∨ Occurs x l ∨ Occurs x r
  | .method c f as => x = .method c f as ∨ Occurs x c ∨ OccursIn x as
  | .fn f as => x = .fn f as ∨ OccursIn x as
/-- `x` is a part of one of the expressions -/
def OccursIn (x : PE) : List PE → Prop
  | [] => False
  | e :: es => Occurs x e ∨ OccursIn x es
end

theorem occurs_self (x : PE) : Occurs x x := by
  cases x <;> simp [Occurs]

theorem occursIn_of {x e : PE} : ∀ {es : List PE}, e ∈ es → Occurs x e → OccursIn x es
  | y :: es, h, ho => by
    rcases List.mem_cons.1 h with rfl | h
    · exact .inl ho
    · exact .inr (occursIn_of h ho)

theorem occursIn_mem {x : PE} {es : List PE} (h : x ∈ es) : OccursIn x es := occursIn_of h (occurs_self x)

theorem occurs_unalias {x : PE} (hx : x.unalias = x) : ∀ {e : PE}, Occurs x e → Occurs x e.unalias
  | .aliased (.py c) n, h => h
  | .aliased (.named _) _, h => by rcases h with rfl | h; (simp [PE.unalias] at hx); exact h
  | .aliased (.lit _) _, h => by rcases h with rfl | h; (simp [PE.unalias] at hx); exact h
  | .aliased (.method _ _ _) _, h => by rcases h with rfl | h; (simp [PE.unalias] at hx); exact h
  | .aliased (.fn _ _) _, h => by rcases h with rfl | h; (simp [PE.unalias] at hx); exact h
  | .aliased (.bin _ _ _) _, h => by rcases h with rfl | h; (simp [PE.unalias] at hx); exact h
  | .aliased (.not _) _, h => by rcases h with rfl | h; (simp [PE.unalias] at hx); exact h
  | .aliased (.aliased c m) n, h => by
    rcases h with rfl | h
    · exfalso
      have : ∀ (c : PE) (n : Str), sizeOf c.unalias ≤ sizeOf c := by
        intro c n
        induction c using PE.unalias.induct <;> simp_all [PE.unalias] <;> omega
      have h1 : (PE.aliased (PE.aliased c m) n).unalias = (PE.aliased c m).unalias := by
        conv => lhs; rw [PE.unalias.eq_def]
      rw [h1] at hx
      have := this (.aliased c m) n
      rw [hx] at this
      simp at this
      omega
    · have h1 : (PE.aliased (PE.aliased c m) n).unalias = (PE.aliased c m).unalias := by
        conv => lhs; rw [PE.unalias.eq_def]
      rw [h1]
      exact occurs_unalias hx h
  | .named _, h => h
  | .lit _, h => h
  | .py _, h => h
  | .not _, h => h
  | .bin _ _ _, h => h
  | .method _ _ _, h => h
  | .fn _ _, h => h

/-- An argument is used in the result: its translation is a part of it, or it is a number or a text and the
literal is a part of it. -/
def Used (a : Arg) (e : PE) : Prop :=
  (∃ x, a.col = some x ∧ Occurs x e) ∨ (∃ n, a.src.asInt = some n ∧ Occurs (pyInt n) e) ∨
    (∃ s, a.src.asString = some s ∧ Occurs (pyStr s) e)

/-- the translation of an argument carries no alias -/
def Arg.Bare (a : Arg) : Prop := ∀ x, a.col = some x → x.unalias = x

theorem used_alias {a : Arg} {e : PE} (ha : a.Bare) (n : Str) (h : Used a e) : Used a (e.withAlias n) := by
  have key : ∀ x : PE, x.unalias = x → Occurs x e → Occurs x (e.withAlias n) := by
    intro x hx h
    unfold PE.withAlias
    rw [Occurs.eq_def]
    exact .inr (occurs_unalias hx h)
  rcases h with ⟨x, h, ho⟩ | ⟨x, h, ho⟩ | ⟨x, h, ho⟩
  · exact .inl ⟨x, h, key x (ha x h) ho⟩
  · exact .inr (.inl ⟨x, h, key _ rfl ho⟩)
  · exact .inr (.inr ⟨x, h, key _ rfl ho⟩)

/-! ### calls with exactly the declared parameters -/

theorem apply_exact {f : FnSpec} (hr : f.rest = .exact) {args : List Arg} {e : PE} (h : f.apply args = some e) :
    ∃ vs o, bindParams f.params args = some vs ∧ f.params.length = args.length ∧ f.body vs args [] = some o ∧
      e = o.withAlias f.alias := by
  unfold FnSpec.apply at h
  cases hb : bindParams f.params args with
  | none => rw [hb] at h; cases h
  | some vs =>
    rw [hb, hr] at h
    dsimp only at h
    by_cases hl : f.params.length = args.length
    · rw [if_pos hl] at h
      cases ho : f.body vs args [] with
      | none => rw [ho] at h; cases h
      | some o => rw [ho] at h; exact ⟨vs, o, rfl, hl, ho, (Option.some.inj h).symm⟩
    · rw [if_neg hl] at h; cases h

/-- every argument of every successful call is used -/
def Uses (f : FnSpec) : Prop :=
  ∀ args e, (∀ a ∈ args, a.Bare) → f.apply args = some e → ∀ a ∈ args, Used a e

theorem bind_cons {p : PK} {ps : List PK} {a : Arg} {as : List Arg} {vs : List ArgVal}
    (h : bindParams (p :: ps) (a :: as) = some vs) :
    ∃ v us, bindParam p a = some v ∧ bindParams ps as = some us ∧ vs = v :: us := by
  rw [bindParams] at h
  cases h1 : bindParam p a with
  | none => rw [h1] at h; cases h
  | some v =>
    rw [h1] at h
    cases h2 : bindParams ps as with
    | none => rw [h2] at h; cases h
    | some us => rw [h2] at h; exact ⟨v, us, rfl, rfl, (Option.some.inj h).symm⟩

/-- the literal or column bound to a parameter -/
def ArgVal.pe : ArgVal → PE
  | .e x => x
  | .i n => pyInt n
  | .s t => pyStr t

theorem used_of_bind {p : PK} {a : Arg} {v : ArgVal} {e : PE} (h : bindParam p a = some v) (ho : Occurs v.pe e) : Used a e := by
  cases p with
  | expr =>
    cases hc : a.col with
    | none => rw [bindParam, hc] at h; cases h
    | some x => rw [bindParam, hc] at h; cases h; exact .inl ⟨x, hc, ho⟩
  | int =>
    cases hc : a.src.asInt with
    | none => rw [bindParam, hc] at h; cases h
    | some x => rw [bindParam, hc] at h; cases h; exact .inr (.inl ⟨x, hc, ho⟩)
  | str =>
    cases hc : a.src.asString with
    | none => rw [bindParam, hc] at h; cases h
    | some x => rw [bindParam, hc] at h; cases h; exact .inr (.inr ⟨x, hc, ho⟩)

theorem bare_of_bind {p : PK} {a : Arg} {v : ArgVal} (ha : a.Bare) (h : bindParam p a = some v) : v.pe.unalias = v.pe := by
  cases p with
  | expr =>
    cases hc : a.col with
    | none => rw [bindParam, hc] at h; cases h
    | some x => rw [bindParam, hc] at h; cases h; exact ha x hc
  | int =>
    cases hc : a.src.asInt with
    | none => rw [bindParam, hc] at h; cases h
    | some x => rw [bindParam, hc] at h; cases h; rfl
  | str =>
    cases hc : a.src.asString with
    | none => rw [bindParam, hc] at h; cases h
    | some x => rw [bindParam, hc] at h; cases h; rfl

theorem uses_nullary (a : Str) (e : PE) : Uses (.nullary a e) := by
  intro args e' _ h x hx
  obtain ⟨_, _, _, hl, _⟩ := apply_exact rfl h
  cases args with
  | nil => cases hx
  | cons => cases hl

/-- one parameter -/
theorem uses_exact1 {al : Str} {p : PK} {body : List ArgVal → List Arg → List PE → Option PE}
    (hb : ∀ v args o, v.pe.unalias = v.pe → body [v] args [] = some o → Occurs v.pe o) : Uses ⟨al, [p], .exact, body⟩ := by
  intro args e hbare h x hx
  obtain ⟨vs, o, hbind, hl, ho, rfl⟩ := apply_exact rfl h
  match args, hl with
  | [a], _ =>
    obtain ⟨v, us, h1, h2, rfl⟩ := bind_cons hbind
    cases h2
    rw [List.mem_singleton] at hx
    subst hx
    have hba := hbare x (by simp)
    exact used_alias hba _ (used_of_bind h1 (hb v _ o (bare_of_bind hba h1) ho))

/-- two parameters -/
theorem uses_exact2 {al : Str} {p q : PK} {body : List ArgVal → List Arg → List PE → Option PE}
    (hb : ∀ v w args o, v.pe.unalias = v.pe → w.pe.unalias = w.pe → body [v, w] args [] = some o →
      Occurs v.pe o ∧ Occurs w.pe o) : Uses ⟨al, [p, q], .exact, body⟩ := by
  intro args e hbare h x hx
  obtain ⟨vs, o, hbind, hl, ho, rfl⟩ := apply_exact rfl h
  match args, hl with
  | [a, b], _ =>
    obtain ⟨v, us, h1, m1, rfl⟩ := bind_cons hbind
    obtain ⟨w, us, h2, m2, rfl⟩ := bind_cons m1
    cases m2
    have hba := hbare a (by simp)
    have hbb := hbare b (by simp)
    obtain ⟨k1, k2⟩ := hb v w _ o (bare_of_bind hba h1) (bare_of_bind hbb h2) ho
    simp only [List.mem_cons, List.not_mem_nil, or_false] at hx
    rcases hx with rfl | rfl
    · exact used_alias hba _ (used_of_bind h1 k1)
    · exact used_alias hbb _ (used_of_bind h2 k2)

/-- three parameters -/
theorem uses_exact3 {al : Str} {p q r : PK} {body : List ArgVal → List Arg → List PE → Option PE}
    (hb : ∀ u v w args o, u.pe.unalias = u.pe → v.pe.unalias = v.pe → w.pe.unalias = w.pe → body [u, v, w] args [] = some o →
      Occurs u.pe o ∧ Occurs v.pe o ∧ Occurs w.pe o) : Uses ⟨al, [p, q, r], .exact, body⟩ := by
  intro args e hbare h x hx
  obtain ⟨vs, o, hbind, hl, ho, rfl⟩ := apply_exact rfl h
  match args, hl with
  | [a, b, c], _ =>
    obtain ⟨u, us, h1, m1, rfl⟩ := bind_cons hbind
    obtain ⟨v, us, h2, m2, rfl⟩ := bind_cons m1
    obtain ⟨w, us, h3, m3, rfl⟩ := bind_cons m2
    cases m3
    have hba := hbare a (by simp)
    have hbb := hbare b (by simp)
    have hbc := hbare c (by simp)
    obtain ⟨k1, k2, k3⟩ := hb u v w _ o (bare_of_bind hba h1) (bare_of_bind hbb h2) (bare_of_bind hbc h3) ho
    simp only [List.mem_cons, List.not_mem_nil, or_false] at hx
    rcases hx with rfl | rfl | rfl
    · exact used_alias hba _ (used_of_bind h1 k1)
    · exact used_alias hbb _ (used_of_bind h2 k2)
    · exact used_alias hbc _ (used_of_bind h3 k3)

theorem uses_one {al : Str} {f : PE → PE} (hf : ∀ x : PE, x.unalias = x → Occurs x (f x)) : Uses (.one al f) := by
  apply uses_exact1
  intro v args o hv ho
  cases v with
  | e x => cases ho; exact hf x hv
  | i => cases ho
  | s => cases ho

theorem uses_two {al : Str} {f : PE → PE → PE}
    (hf : ∀ x y : PE, x.unalias = x → y.unalias = y → Occurs x (f x y) ∧ Occurs y (f x y)) : Uses (.two al f) := by
  apply uses_exact2
  intro v w args o hv hw ho
  cases v <;> cases w <;> first | cases ho; done | (cases ho; exact hf _ _ hv hw)

/-! ### any number of arguments -/

theorem mapArgs_mem : ∀ {args : List Arg} {ms : List PE}, mapArgs args = some ms → ∀ a ∈ args, ∃ x ∈ ms, a.col = some x
  | a :: as, ms, h, b, hb => by
    rw [mapArgs] at h
    cases hc : a.col with
    | none => rw [hc] at h; cases h
    | some x =>
      rw [hc] at h
      cases h2 : mapArgs as with
      | none => rw [h2] at h; cases h
      | some xs =>
        rw [h2] at h
        cases h
        rcases List.mem_cons.1 hb with rfl | hb
        · exact ⟨x, by simp, hc⟩
        · obtain ⟨y, hy, hy'⟩ := mapArgs_mem h2 b hb
          exact ⟨y, by simp [hy], hy'⟩

theorem mapArgs_bare : ∀ {args : List Arg} {ms : List PE}, mapArgs args = some ms → (∀ a ∈ args, a.Bare) →
    ∀ x ∈ ms, x.unalias = x
  | [], ms, h, _, x, hx => by rw [mapArgs] at h; cases h; cases hx
  | a :: as, ms, h, hb, x, hx => by
    rw [mapArgs] at h
    cases hc : a.col with
    | none => rw [hc] at h; cases h
    | some y =>
      rw [hc] at h
      cases h2 : mapArgs as with
      | none => rw [h2] at h; cases h
      | some xs =>
        rw [h2] at h
        cases h
        rcases List.mem_cons.1 hx with rfl | hx
        · exact hb a (by simp) x hc
        · exact mapArgs_bare h2 (fun b hb' => hb b (by simp [hb'])) x hx

theorem uses_mapped {al : Str} {b : List PE → Option PE}
    (hb : ∀ ms o, (∀ x ∈ ms, x.unalias = x) → b ms = some o → ∀ x ∈ ms, Occurs x o) :
    Uses ⟨al, [], .mapped, fun _ _ ms => b ms⟩ := by
  intro args e hbare h a ha
  cases hm : mapArgs args with
  | none => simp [FnSpec.apply, bindParams, hm] at h
  | some ms =>
    rw [apply_mapped al b args hm] at h
    cases ho : b ms with
    | none => rw [ho] at h; cases h
    | some o =>
      rw [ho] at h
      cases h
      obtain ⟨x, hx, hc⟩ := mapArgs_mem hm a ha
      exact used_alias (hbare a ha) _ (.inl ⟨x, hc, hb ms o (mapArgs_bare hm hbare) ho x hx⟩)

/-- `tonumber` and `tostring`: one parameter, any further argument refused -/
theorem uses_onlyOne {al : Str} {f : PE → PE} (hf : ∀ x : PE, x.unalias = x → Occurs x (f x)) :
    Uses ⟨al, [.expr], .mapped, fun | [.e x], _, [] => some (f x) | _, _, _ => none⟩ := by
  intro args e hbare h a ha
  match args with
  | [] => cases ha
  | [b] =>
    rw [List.mem_singleton] at ha
    subst ha
    cases hc : a.col with
    | none => simp [FnSpec.apply, bindParams, bindParam, hc] at h
    | some x =>
      simp [FnSpec.apply, bindParams, bindParam, hc, mapArgs] at h
      subst h
      have hb := hbare a (by simp)
      exact used_alias hb _ (.inl ⟨x, hc, hf x (hb x hc)⟩)
  | b :: c :: rest =>
    exfalso
    cases hc : b.col with
    | none => simp [FnSpec.apply, bindParams, bindParam, hc] at h
    | some x =>
      cases hm : mapArgs (c :: rest) with
      | none => simp [FnSpec.apply, bindParams, bindParam, hc, hm] at h
      | some ms =>
        have := mapArgs_length hm
        cases ms with
        | nil => simp at this
        | cons m ms => simp [FnSpec.apply, bindParams, bindParam, hc, hm] at h

theorem occurs_fold {f : PE → PE → PE} (hl : ∀ v c x : PE, Occurs x v → x.unalias = x → Occurs x (f v c))
    (hr : ∀ v c : PE, c.unalias = c → Occurs c (f v c)) :
    ∀ (ms : List PE) (v : PE), (∀ x ∈ ms, x.unalias = x) → ∀ x : PE, x.unalias = x → x ∈ ms ∨ Occurs x v → Occurs x (ms.foldl f v)
  | [], v, _, x, _, h => by simpa using h
  | m :: ms, v, hm, x, hx, h => by
    rw [List.foldl_cons]
    apply occurs_fold hl hr ms (f v m) (fun y hy => hm y (by simp [hy])) x hx
    rcases h with h | h
    · rcases List.mem_cons.1 h with rfl | h
      · exact .inr (hr v x hx)
      · exact .inl h
    · exact .inr (hl v m x h hx)

theorem occurs_foldArgs {f : PE → PE → PE} (hl : ∀ v c x : PE, Occurs x v → x.unalias = x → Occurs x (f v c))
    (hr : ∀ v c : PE, c.unalias = c → Occurs c (f v c)) {ms : List PE} {o : PE} (hm : ∀ x ∈ ms, x.unalias = x)
    (h : foldArgs f ms = some o) : ∀ x ∈ ms, Occurs x o := by
  intro x hx
  cases ms with
  | nil => cases hx
  | cons m ms =>
    cases h
    refine occurs_fold hl hr ms m (fun y hy => hm y (by simp [hy])) x (hm x hx) ?_
    rcases List.mem_cons.1 hx with rfl | hx
    · exact .inr (occurs_self x)
    · exact .inl hx

theorem occurs_mkNot {x c : PE} (hx : x.unalias = x) (h : Occurs x c) : Occurs x (PE.mkNot c) := by
  simp only [PE.mkNot, Occurs]
  exact .inr (occurs_unalias hx h)

theorem occurs_case (neg : Bool) : ∀ (acc : PE) (ms : List PE), ms.length % 2 = 0 → (∀ x ∈ ms, x.unalias = x) →
    ∀ x : PE, x.unalias = x → x ∈ ms ∨ Occurs x acc → Occurs x (caseFrom neg acc ms)
  | acc, [], _, _, x, _, h => by
    rw [caseFrom.eq_def]
    simpa using h
  | acc, [_], hl, _, _, _, _ => by simp at hl
  | acc, c :: v :: rest, hl, hm, x, hx, h => by
    rw [caseFrom.eq_def]
    dsimp only
    refine occurs_case neg _ rest (by simp at hl; omega) (fun y hy => hm y (by simp [hy])) x hx ?_
    simp only [List.mem_cons] at h
    have key : ∀ y, OccursIn x [y, v] → Occurs x (PE.mkMethod acc c!"when" [y, v]) := by
      intro y hy
      simp only [PE.mkMethod, Occurs]
      exact .inr (.inr hy)
    rcases h with (rfl | rfl | h) | h
    · refine .inr (key _ (.inl ?_))
      split
      · exact occurs_mkNot hx (occurs_self x)
      · exact occurs_self x
    · exact .inr (key _ (.inr (.inl (occurs_self x))))
    · exact .inl h
    · refine .inr ?_
      simp only [PE.mkMethod, Occurs]
      exact .inr (.inl (occurs_unalias hx h))

theorem occurs_caseBody (neg : Bool) (ms : List PE) (o : PE) (hm : ∀ x ∈ ms, x.unalias = x) (h : caseBody neg ms = some o) :
    ∀ x ∈ ms, Occurs x o := by
  intro x hx
  unfold caseBody at h
  split at h
  · rename_i hl
    match ms, hl, hm, h, hx with
    | c :: v :: rest, hl, hm, h, hx =>
      cases h
      have hxx := hm x hx
      refine occurs_case neg _ rest (by simp at hl; omega) (fun y hy => hm y (by simp [hy])) x hxx ?_
      simp only [List.mem_cons] at hx
      rcases hx with rfl | rfl | hx
      · refine .inr ?_
        simp only [Occurs, OccursIn]
        refine .inr (.inl ?_)
        split
        · exact occurs_mkNot hxx (occurs_self x)
        · exact occurs_self x
      · refine .inr ?_
        simp only [Occurs, OccursIn]
        exact .inr (.inr (.inl (occurs_self x)))
      · exact .inl hx
  · cases h

/-! ### all functions -/

/-- the functions whose further arguments are looked up by position, or that build a text from an argument -/
def loose : List Str := [c!"cidrmatch", c!"relative_time", c!"strftime", c!"strptime", c!"mvindex", c!"mvzip"]

theorem uses_fn1 (a f : Str) : Uses (fn1 a f) := uses_one fun x _ => by simp [Occurs, OccursIn, occurs_self]

theorem uses_fn2 (a f : Str) : Uses (fn2 a f) := uses_two fun x y _ _ => by simp [Occurs, OccursIn, occurs_self]

theorem eval_uses : ∀ p ∈ evalTable, p.1 ∈ loose ∨ Uses p.2 := by
  unfold evalTable
  repeat'
    first
    | exact fun _ h => absurd h (List.not_mem_nil)
    | refine List.forall_mem_cons.2 ⟨?_, ?_⟩
    | exact .inr (uses_fn1 _ _)
    | exact .inr (uses_fn2 _ _)
    | exact .inr (uses_nullary _ _)
    | exact .inl (by decide +kernel)
    | exact .inr (uses_one fun x hx => by
        simp [memkFn, rmunitFn, rmcommaFn, PE.mkMethod, PE.mkBin, PE.unalias, Occurs, OccursIn, occurs_self, hx])
    | exact .inr (uses_onlyOne fun x hx => by simp [PE.mkMethod, Occurs, OccursIn, occurs_self, hx])
    | exact .inr (uses_two fun x y hx _ => by simp [PE.mkMethod, Occurs, OccursIn, occurs_self, hx])
    | exact .inr (uses_exact2 fun v w args o hv hw h => by
        cases v <;> cases w <;> first
          | cases h; done
          | (cases h; simp [ArgVal.pe, Occurs, OccursIn, occurs_self]))
    | exact .inr (uses_exact3 fun u v w args o hu hv hw h => by
        cases u <;> cases v <;> cases w <;> first
          | cases h; done
          | (cases h; simp [ArgVal.pe, PE.mkMethod, PE.unalias, Occurs, OccursIn, occurs_self]))
    | exact .inr (uses_mapped fun ms o hm h x hx => occurs_caseBody _ ms o hm h x hx)
    | exact .inr (uses_mapped fun ms o hm h x hx => by
        cases h
        exact .inr (occursIn_mem hx))
    | exact .inr (uses_mapped fun ms o hm h x hx => by
        refine occurs_foldArgs ?_ ?_ hm h x hx
        · intro v c x h _
          simp [Occurs, OccursIn, h]
        · intro v c _
          simp [Occurs, OccursIn, occurs_self])
    | exact .inr (uses_mapped fun ms o hm h x hx => by
        cases hf : foldArgs (fun v c => PE.mkBin v c!"+" c) ms with
        | none => rw [hf] at h; cases h
        | some y =>
          rw [hf] at h
          cases h
          have := occurs_foldArgs (fun v c x h hx => by
            simp only [PE.mkBin, Occurs]
            exact .inr (.inl (occurs_unalias hx h))) (fun v c hc => by
            simp only [PE.mkBin, Occurs, hc]
            exact .inr (.inr (occurs_self c))) hm hf x hx
          simp only [PE.mkBin, Occurs]
          exact .inr (.inl (occurs_unalias (hm x hx) this)))

theorem lookupFn_mem : ∀ {tbl : List (Str × FnSpec)} {name : Str} {f : FnSpec}, lookupFn name tbl = some f → (name, f) ∈ tbl
  | (n, g) :: rest, name, f, h => by
    rw [lookupFn] at h
    split at h
    · rename_i hn
      cases h
      subst hn
      simp
    · exact List.mem_cons_of_mem _ (lookupFn_mem h)

theorem used_pass {name : Str} {args : List Arg} {e : PE} (h : passThrough name args = some e) (a : Arg) (ha : a ∈ args) :
    Used a e := by
  unfold passThrough at h
  cases hm : mapArgs args with
  | none => rw [hm] at h; cases h
  | some ms =>
    rw [hm] at h
    cases h
    obtain ⟨x, hx, hc⟩ := mapArgs_mem hm a ha
    refine .inl ⟨x, hc, ?_⟩
    simp only [Occurs]
    exact .inr (.inr (occursIn_mem hx))

/-- the arguments of a call as the translator passes them on -/
theorem argsTr_mem (m : Mode) : ∀ {es : List Expr} {e : Expr}, e ∈ es → ⟨e, (exprTr m e).map PE.unalias⟩ ∈ argsTr m es
  | x :: es, e, h => by
    rw [argsTr]
    rcases List.mem_cons.1 h with rfl | h
    · simp
    · exact List.mem_cons_of_mem _ (argsTr_mem m h)

theorem argsTr_bare (m : Mode) : ∀ {es : List Expr}, ∀ a ∈ argsTr m es, a.Bare
  | x :: es, a, h => by
    rw [argsTr] at h
    rcases List.mem_cons.1 h with rfl | h
    · intro y hy
      dsimp only at hy
      cases hx : exprTr m x with
      | none => rw [hx] at hy; cases hy
      | some z => rw [hx] at hy; cases hy; exact Lemmas.unalias_idem z
    · exact argsTr_bare m a h

theorem argsTr_length (m : Mode) : ∀ es : List Expr, (argsTr m es).length = es.length
  | [] => rfl
  | x :: es => by rw [argsTr, List.length_cons, List.length_cons, argsTr_length m es]

/-- An argument is used: the expression it translates to is a part of the result, or it is a number or text
and the Python literal of it is. -/
def ArgUsed (arg : Expr) (e : PE) : Prop :=
  (∃ x, exprTr .disallow arg = some x ∧ Occurs x.unalias e) ∨
    (∃ n, arg = .const (.int n) ∧ Occurs (pyInt n) e) ∨
    (∃ s, arg.asString = some s ∧ Occurs (pyStr s) e)

theorem argUsed_of {arg : Expr} {e : PE} (h : Used ⟨arg, (exprTr .disallow arg).map PE.unalias⟩ e) : ArgUsed arg e := by
  rcases h with ⟨x, h, ho⟩ | ⟨n, h, ho⟩ | ⟨s, h, ho⟩
  · dsimp only at h
    cases hx : exprTr .disallow arg with
    | none => rw [hx] at h; cases h
    | some z => rw [hx] at h; cases h; exact .inl ⟨z, hx, ho⟩
  · refine .inr (.inl ⟨n, ?_, ho⟩)
    dsimp only at h
    unfold Expr.asInt at h
    split at h
    · cases h; rfl
    · cases h
  · exact .inr (.inr ⟨s, h, ho⟩)

/-- **C46** (partial; missing: the functions in `loose`, of which `mvindex`, `mvzip` and `relative_time`
indeed ignore arguments).  Whenever a call is translated without the runtime, each of its arguments is part of
the result; this includes every function the translator does not know. -/
theorem C46_every_argument_used_partial {name : Str} {args : List Expr} {e : PE} (hn : name ∉ loose)
    (h : exprTr .disallow (.call name args) = some e) : ∀ arg ∈ args, ArgUsed arg e := by
  intro arg ha
  apply argUsed_of
  rw [exprTr] at h
  have hm := argsTr_mem .disallow ha
  change evalFnBare name _ = some e at h
  unfold evalFnBare at h
  split at h
  · rename_i f hf
    rcases eval_uses _ (lookupFn_mem hf) with hl | hu
    · exact absurd hl hn
    · exact hu _ e (argsTr_bare _) h _ hm
  · split at h
    · cases h
    · exact used_pass h _ hm

/-- the hypotheses are met by a call with three arguments of three kinds -/
example : ∃ e, exprTr .disallow (.call c!"replace" [.const (.field c!"a"), .const (.str c!"x"), .const (.str c!"y")]) = some e :=
  ⟨_, rfl⟩

/-- a call whose first parameter is a column -/
theorem apply_first {f : FnSpec} {ps : List PK} (hp : f.params = .expr :: ps) {a : Arg} {as : List Arg} {e : PE}
    (h : f.apply (a :: as) = some e) : ∃ x us ms o, a.col = some x ∧ f.body (.e x :: us) (a :: as) ms = some o ∧
      e = o.withAlias f.alias := by
  unfold FnSpec.apply at h
  rw [hp] at h
  cases hb : bindParams (.expr :: ps) (a :: as) with
  | none => rw [hb] at h; cases h
  | some vs =>
    obtain ⟨v, us, h1, h2, rfl⟩ := bind_cons hb
    cases hc : a.col with
    | none => rw [bindParam, hc] at h1; cases h1
    | some x =>
      rw [bindParam, hc] at h1
      cases h1
      rw [hb] at h
      dsimp only at h
      have fin : ∀ {t : Option PE}, Option.map (fun o => o.withAlias f.alias) t = some e → ∃ o, t = some o ∧ e = o.withAlias f.alias := by
        intro t ht
        cases t with
        | none => cases ht
        | some o => exact ⟨o, rfl, (Option.some.inj ht).symm⟩
      obtain ⟨o, ho, he⟩ := fin h
      clear h fin
      split at ho
      · split at ho
        · exact ⟨x, us, [], o, rfl, ho, he⟩
        · cases ho
      · exact ⟨x, us, [], o, rfl, ho, he⟩
      · split at ho
        · cases ho
        · exact ⟨x, us, _, o, rfl, ho, he⟩

theorem occurs_offset {x t : PE} {o : TimeSpan} (hx : x.unalias = x) (h : Occurs x t) : Occurs x (offsetTime t o) := by
  simp only [offsetTime, PE.mkBin, Occurs]
  exact .inr (.inl (occurs_unalias hx h))

theorem occurs_relative {x o : PE} {s : SnapTime} (hx : x.unalias = x) (h : relativeTimeBody x s = some o) : Occurs x o := by
  unfold relativeTimeBody at h
  have h0 : Occurs x (PE.fn c!"to_timestamp" [x]) := by simp [Occurs, OccursIn, occurs_self]
  have h1 : Occurs x (match s.span with | none => PE.fn c!"to_timestamp" [x] | some o => offsetTime (PE.fn c!"to_timestamp" [x]) o) := by
    split
    · exact h0
    · exact occurs_offset hx h0
  dsimp only at h
  unfold roundTime at h
  cases hr : roundUnit s.snap with
  | none => rw [hr] at h; cases h
  | some u =>
    rw [hr] at h
    dsimp only [Option.map_some] at h
    have h2 : ∀ {t : PE}, Occurs x t → Occurs x (PE.fn c!"date_trunc" [pyStr u, t]) := by
      intro t ht
      simp only [Occurs, OccursIn]
      exact .inr (.inr (.inl ht))
    cases h
    split
    · exact h2 h1
    · exact occurs_offset hx (h2 h1)

/-- **C46** (partial, the functions with further arguments by position): the first argument of each of them is
used. -/
theorem C46_first_argument_used_partial {name : Str} {arg : Expr} {args : List Expr} {e : PE}
    (hn : name ∈ [c!"relative_time", c!"strftime", c!"strptime", c!"mvindex", c!"mvzip"])
    (h : exprTr .disallow (.call name (arg :: args)) = some e) : ∃ x, exprTr .disallow arg = some x ∧ Occurs x.unalias e := by
  rw [exprTr, argsTr] at h
  have key : ∀ (f : FnSpec) (ps : List PK), f.params = .expr :: ps →
      (∀ x us as ms o, x.unalias = x → f.body (.e x :: us) as ms = some o → Occurs x o) →
      f.apply (⟨arg, (exprTr .disallow arg).map PE.unalias⟩ :: argsTr .disallow args) = some e →
      ∃ x, exprTr .disallow arg = some x ∧ Occurs x.unalias e := by
    intro f ps hp hf h
    obtain ⟨x, us, ms, o, hc, ho, rfl⟩ := apply_first hp h
    dsimp only at hc
    cases hx : exprTr .disallow arg with
    | none => rw [hx] at hc; cases hc
    | some z =>
      rw [hx] at hc
      cases hc
      have hu : z.unalias.unalias = z.unalias := Lemmas.unalias_idem z
      refine ⟨z, rfl, ?_⟩
      simp only [PE.withAlias, Occurs]
      exact .inr (occurs_unalias hu (hf _ us _ ms o hu ho))
  have one : ∀ {x : PE} {f : Str} {l : List PE}, Occurs x (.fn f (x :: l)) := by
    intro x f l
    simp [Occurs, OccursIn, occurs_self]
  simp only [List.mem_cons, List.not_mem_nil, or_false] at hn
  rcases hn with rfl | rfl | rfl | rfl | rfl
  · refine key _ _ rfl ?_ h
    intro x us as ms o hx ho
    cases us with
    | nil =>
      change relativeTimeArgs x as = some o at ho
      unfold relativeTimeArgs at ho
      split at ho
      · exact occurs_relative hx ho
      · cases ho
    | cons => cases ho
  · refine key _ _ rfl ?_ h
    intro x us as ms o hx ho
    match us, ho with
    | [.s f], ho =>
      change (convertTimeFormat f).map _ = some o at ho
      cases hf : convertTimeFormat f with
      | none => rw [hf] at ho; cases ho
      | some t => rw [hf] at ho; cases ho; exact one
  · refine key _ _ rfl ?_ h
    intro x us as ms o hx ho
    match us, ho with
    | [.s f], ho =>
      change (convertTimeFormat f).map _ = some o at ho
      cases hf : convertTimeFormat f with
      | none => rw [hf] at ho; cases ho
      | some t => rw [hf] at ho; cases ho; exact one
  · refine key _ _ rfl ?_ h
    intro x us as ms o hx ho
    match us, ho with
    | [.i n], ho =>
      change mvindexBody x n as = some o at ho
      unfold mvindexBody at ho
      split at ho
      · cases ho; exact one
      · split at ho
        · cases ho
        · cases ho; exact one
  · refine key _ _ rfl ?_ h
    intro x us as ms o hx ho
    match us, ho with
    | [.e y], ho =>
      change mvzipBody x y as = some o at ho
      unfold mvzipBody at ho
      split at ho
      · cases ho
      · cases ho; exact one

example : ∃ e, exprTr .disallow (.call c!"mvindex" [.const (.field c!"a"), .const (.int 1)]) = some e := ⟨_, rfl⟩

/-! ### number of arguments -/

/-- the documented number of arguments of the functions that have a fixed one -/
def evalArity : List (Str × Nat) :=
  ([c!"false", c!"null", c!"true", c!"now", c!"time", c!"pi", c!"random"].map fun f => (f, 0)) ++
  ([c!"memk", c!"rmunit", c!"rmcomma", c!"bit_not", c!"md5", c!"sha1", c!"sha256", c!"sha512", c!"isnotnull", c!"isnull",
    c!"json_keys", c!"json_valid", c!"abs", c!"ceiling", c!"exact", c!"exp", c!"floor", c!"ln", c!"sqrt", c!"sum",
    c!"mvcount", c!"len", c!"lower", c!"upper", c!"urldecode", c!"acos", c!"acosh", c!"asin", c!"asinh", c!"atan",
    c!"atanh", c!"cos", c!"cosh", c!"sin", c!"sinh", c!"tan", c!"tanh"].map fun f => (f, 1)) ++
  ([c!"bit_and", c!"bit_or", c!"bit_xor", c!"bit_shift_left", c!"bit_shift_right", c!"cidrmatch", c!"in", c!"like",
    c!"match", c!"nullif", c!"strftime", c!"strptime", c!"log", c!"pow", c!"round", c!"split", c!"ltrim", c!"rtrim",
    c!"trim", c!"atan2", c!"hypot"].map fun f => (f, 2)) ++
  ([c!"if", c!"replace", c!"substr"].map fun f => (f, 3))

/-- the documented number of arguments of the aggregate functions that have a fixed one -/
def statsArity : List (Str × Nat) :=
  [c!"avg", c!"distinct_count", c!"dc", c!"estdc", c!"max", c!"mean", c!"median", c!"min", c!"mode", c!"range",
   c!"stdev", c!"stdevp", c!"sum", c!"sumsq", c!"var", c!"varp", c!"first", c!"last", c!"list", c!"values", c!"earliest",
   c!"latest", c!"rate", c!"exactperc95", c!"percentile95", c!"upperperc95"].map fun f => (f, 1)

/-- a table against a model table -/
def arityOk (spec : Str → Option FnSpec) (p : Str × Nat) : Bool :=
  match spec p.1 with
  | some f => decide (f.rest = .exact) && f.params.length == p.2
  | none => false

theorem arity_of {spec : Str → Option FnSpec} {tbl : List (Str × Nat)} (hok : tbl.all (arityOk spec) = true)
    {name : Str} {n : Nat} (hn : (name, n) ∈ tbl) : ∃ f, spec name = some f ∧ f.rest = .exact ∧ f.params.length = n := by
  have := List.all_eq_true.1 hok _ hn
  unfold arityOk at this
  split at this
  · rename_i f hf
    simp only [Bool.and_eq_true, decide_eq_true_eq, beq_iff_eq] at this
    exact ⟨f, hf, this.1, this.2⟩
  · cases this

/-- **C46** (partial; missing: functions whose number of arguments varies).  A call to a function with a fixed
number of parameters fails unless exactly that many arguments are given. -/
theorem C46_arity_partial {name : Str} {n : Nat} (hn : (name, n) ∈ evalArity) {args : List Expr}
    (hl : args.length ≠ n) : exprTr .disallow (.call name args) = none := by
  obtain ⟨f, hf, hr, hp⟩ := arity_of (spec := fun nm => lookupFn nm evalTable) (by decide +kernel) hn
  cases h : exprTr .disallow (.call name args) with
  | none => rfl
  | some e =>
    exfalso
    rw [exprTr] at h
    change evalFnBare name _ = some e at h
    unfold evalFnBare at h
    rw [hf] at h
    obtain ⟨_, _, _, hl', _⟩ := apply_exact hr h
    rw [argsTr_length, hp] at hl'
    exact hl hl'.symm

example : (c!"if", 3) ∈ evalArity ∧ [Expr.const (.field c!"a")].length ≠ 3 := by decide +kernel

/-- `tonumber` and `tostring` have one parameter and refuse the second one they are documented to have. -/
theorem C46_arity_convert_partial {name : Str} (hn : name = c!"tonumber" ∨ name = c!"tostring") {args : List Expr}
    (hl : args.length ≠ 1) : exprTr .disallow (.call name args) = none := by
  have key : ∀ (al : Str) (g : PE → PE), FnSpec.apply ⟨al, [.expr], .mapped, fun | [.e x], _, [] => some (g x) | _, _, _ => none⟩
      (argsTr .disallow args) = none := by
    intro al g
    match args, hl with
    | [], _ => rfl
    | a :: b :: rest, _ =>
      rw [argsTr, argsTr]
      cases hc : exprTr .disallow a with
      | none => simp [FnSpec.apply, bindParams, bindParam]
      | some x =>
        cases hm : mapArgs (⟨b, (exprTr .disallow b).map PE.unalias⟩ :: argsTr .disallow rest) with
        | none => simp [FnSpec.apply, bindParams, bindParam, hm]
        | some ms =>
          have := mapArgs_length hm
          cases ms with
          | nil => simp at this
          | cons m ms => simp [FnSpec.apply, bindParams, bindParam, hm]
  rw [exprTr]
  change evalFnBare name _ = none
  rcases hn with rfl | rfl
  · exact key _ _
  · exact key _ _

example : ([] : List Expr).length ≠ 1 := by decide

/-- the same for the aggregate functions -/
theorem C46_stats_arity_partial {name : Str} {n : Nat} (hn : (name, n) ∈ statsArity) {args : List Expr} {df : DF}
    (hl : args.length ≠ n) : statsFn .disallow name (argsTr .disallow args) df = none := by
  obtain ⟨f, hf, hr, hp⟩ := arity_of (spec := statsSpec) (by decide +kernel) hn
  change statsFnBare name _ df = none
  unfold statsFnBare
  cases h : statsFnBareCol name (argsTr .disallow args) with
  | none => rfl
  | some e =>
    exfalso
    unfold statsFnBareCol at h
    rw [hf] at h
    obtain ⟨_, _, _, hl', _⟩ := apply_exact hr h
    rw [argsTr_length, hp] at hl'
    exact hl hl'.symm

example : (c!"avg", 1) ∈ statsArity ∧ ([] : List Expr).length ≠ 1 := by decide +kernel

/-- `count` takes no argument or one. -/
theorem C46_count_arity_partial {args : List Expr} {df : DF} (hl : 2 ≤ args.length) :
    statsFn .disallow c!"count" (argsTr .disallow args) df = none := by
  change statsFnBare c!"count" _ df = none
  unfold statsFnBare
  have : statsFnBareCol c!"count" (argsTr .disallow args) = none := by
    change FnSpec.apply ⟨c!"count", [], .mapped, fun _ _ ms => match ms with
      | [] => some (PE.fn c!"count" [.lit c!"1"])
      | [x] => some (.fn c!"count" [x])
      | _ => none⟩ (argsTr .disallow args) = none
    cases hm : mapArgs (argsTr .disallow args) with
    | none => simp [FnSpec.apply, bindParams, hm]
    | some ms =>
      rw [apply_mapped c!"count" (fun ms => match ms with
      | [] => some (PE.fn c!"count" [.lit c!"1"])
      | [x] => some (.fn c!"count" [x])
      | _ => none) _ hm]
      have := mapArgs_length hm
      rw [argsTr_length] at this
      match ms, this with
      | [], h => simp at h; omega
      | [_], h => simp at h; omega
      | _ :: _ :: _, _ => rfl
  rw [this]
  rfl

example : 2 ≤ [Expr.const (.field c!"a"), Expr.const (.field c!"b")].length := by decide

/-- every aggregate but `count`, `earliest_time` and `latest_time` uses each argument -/
theorem stats_uses : ∀ p ∈ statsTable, p.1 ∈ [c!"earliest_time", c!"latest_time"] ∨ Uses p.2 := by
  unfold statsTable
  repeat'
    first
    | exact fun _ h => absurd h (List.not_mem_nil)
    | refine List.forall_mem_cons.2 ⟨?_, ?_⟩
    | exact .inr (uses_fn1 _ _)
    | exact .inl (by decide +kernel)
    | exact .inr (uses_one fun x hx => by
        simp [rateBody, timeCol, PE.mkBin, PE.unalias, Occurs, OccursIn, occurs_self, hx])
    | exact .inr (uses_mapped fun ms o hm h x hx => by
        match ms, h, hx with
        | [y], h, hx =>
          cases h
          exact .inr (occursIn_mem hx))

/-- **C46** for aggregates (partial; missing: `earliest_time` and `latest_time`, which ignore theirs). -/
theorem C46_stats_every_argument_used_partial {name : Str} {args : List Expr} {e : PE} {df df' : DF}
    (hn : name ∉ [c!"earliest_time", c!"latest_time"])
    (h : statsFn .disallow name (argsTr .disallow args) df = some (df', e)) : ∀ arg ∈ args, ArgUsed arg e := by
  intro arg ha
  apply argUsed_of
  have hm := argsTr_mem .disallow ha
  change statsFnBare name _ df = some (df', e) at h
  unfold statsFnBare at h
  cases hc : statsFnBareCol name (argsTr .disallow args) with
  | none => rw [hc] at h; cases h
  | some e' =>
    rw [hc] at h
    cases h
    unfold statsFnBareCol at hc
    split at hc
    · rename_i f hf
      have hu : Uses f := by
        unfold statsSpec at hf
        split at hf
        · rename_i g hg
          cases hf
          exact (stats_uses _ (lookupFn_mem hg)).resolve_left hn
        · have hp : ∀ a b, Uses (percentileSpec a b name) := by
            intro a b
            apply uses_exact1
            intro v args o hv ho
            cases v with
            | e x =>
              change (parseU32 _).map _ = some o at ho
              cases hp : parseU32 (replaceAll a [] name) with
              | none => rw [hp] at ho; cases ho
              | some n =>
                rw [hp] at ho
                cases ho
                simp [ArgVal.pe, Occurs, OccursIn, occurs_self]
            | i => cases ho
            | s => cases ho
          split at hf
          · cases hf; exact hp _ _
          · split at hf
            · cases hf; exact hp _ _
            · split at hf
              · cases hf; exact hp _ _
              · cases hf
      exact hu _ e (argsTr_bare _) hc _ hm
    · split at hc
      · cases hc
      · exact used_pass hc _ hm

/-! ### unknown functions -/

theorem mapArgs_all (m : Mode) : ∀ {args : List Expr} {xs : List PE}, args.map (exprTr m) = xs.map some →
    mapArgs (argsTr m args) = some (xs.map PE.unalias)
  | [], [], _ => rfl
  | [], _ :: _, h => by cases h
  | _ :: _, [], h => by cases h
  | a :: args, x :: xs, h => by
    simp only [List.map_cons, List.cons.injEq] at h
    rw [argsTr, mapArgs, h.1, mapArgs_all m h.2]
    rfl

/-- **C46**: a function the translator does not know is passed through under its own name with all its arguments
in order. -/
theorem C46_unknown_passed_partial {name : Str} {args : List Expr} {xs : List PE}
    (h1 : lookupFn name evalTable = none) (h2 : name ∉ evalUnsupported)
    (hx : args.map (exprTr .disallow) = xs.map some) :
    exprTr .disallow (.call name args) = some (.aliased (.fn name (xs.map PE.unalias)) name) := by
  have hm := mapArgs_all .disallow hx
  rw [exprTr]
  change evalFnBare name _ = _
  unfold evalFnBare
  rw [h1]
  dsimp only
  rw [if_neg h2, passThrough, hm]
  rfl

/-- **C46** when the runtime is required: every function but `cidrmatch` is called with all its arguments in
order. -/
theorem C46_runtime_passed_partial {name : Str} {args : List Expr} {xs : List PE} (h1 : name ≠ c!"cidrmatch")
    (hx : args.map (exprTr .require) = xs.map some) :
    exprTr .require (.call name args) = some (.fn (c!"functions.eval." ++ runtimeEvalName name) (xs.map PE.unalias)) := by
  have hm := mapArgs_all .require hx
  rw [exprTr]
  change evalFnRuntime name _ = _
  unfold evalFnRuntime
  rw [if_neg h1, hm]
  rfl

example : lookupFn c!"frobnicate" evalTable = none ∧ c!"frobnicate" ∉ evalUnsupported := by
  constructor
  · exact Option.isNone_iff_eq_none.1 (by decide +kernel)
  · decide +kernel

/-! ### where the property fails -/

/-- **C46** fails: a fourth argument of `mvindex` and `mvzip`, a third of `relative_time` and any argument of
`earliest_time` disappear. -/
theorem C46_extra_arguments_ignored :
    (parse c!"eval x=mvindex(a,1,2,b)").bind (renderPipeline ⟨.disallow, Tests.ext⟩) =
      some c!"spark.table('main').withColumn('x', F.slice(F.col('a'), 2, 2),)" ∧
    (parse c!"eval x=mvzip(a,b,\"-\",c)").bind (renderPipeline ⟨.disallow, Tests.ext⟩) =
      some c!"spark.table('main').withColumn('x', F.zip_with(F.col('a'), F.col('b'), lambda left_, right_: F.concat_ws(r\"-\", left_, right_)),)" ∧
    (parse c!"eval x=relative_time(a,\"-1d@d\",b)").bind (renderPipeline ⟨.disallow, Tests.ext⟩) =
      some c!"spark.table('main').withColumn('x', F.date_trunc(\"day\", (F.to_timestamp(F.col('a')) + F.expr(\"INTERVAL -1 DAYS\"))),)" ∧
    (parse c!"stats earliest_time(a)").bind (renderPipeline ⟨.disallow, Tests.ext⟩) =
      some c!"spark.table('main').groupBy([]).agg(F.min(F.col('_time')).alias('earliest_time'),)" := by
  refine ⟨by decide +kernel, by decide +kernel, by decide +kernel, by decide +kernel⟩

/-- When the runtime may be used the number of arguments is not checked: the program calls `abs` with two. -/
theorem C46_runtime_unchecked :
    (parse c!"eval x=abs(a,b)").bind (renderPipeline ⟨.disallow, Tests.ext⟩) = none ∧
    (parse c!"eval x=abs(a,b)").bind (renderPipeline ⟨.allow, Tests.ext⟩) =
      some c!"df_1 = commands.eval(None, x=functions.eval.abs(F.col('a'), F.col('b')))\ndf_1" := by
  refine ⟨by decide +kernel, by decide +kernel⟩

end Verif
