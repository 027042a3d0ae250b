import Verif.Props.Flexure
import Verif.Props.SeaLevel

/-!
# Flexure and subsidence in a run (C23, C68, C69)
-/

set_option autoImplicit false
set_option linter.unusedSectionVars false

namespace Verif.Props

open Verif Verif.Spec

variable {K σ : Type*} {R C : ℕ} [Field K] [LinearOrder K] [IsStrictOrderedRing K]

/-- Where the flexure components keep their state in the state of all components. -/
structure FlexLens (σ : Type*) (R C : ℕ) (K : Type*) where
  get : σ → FlexState R C K
  set : FlexState R C K → σ → σ
  get_set : ∀ s p, get (set s p) = s
  set_get : ∀ p, set (get p) p = p
  set_set : ∀ s s' p, set s (set s' p) = set s p

/-- The three kinds of components that move the bedrock. -/
inductive Mover (C : ℕ) (K : Type*) where
  | subsidence (rate : Fin C → K)
  | sediment
  | water

/-- The component of a kind. -/
def moverComponent (L : FlexLens σ R C K) (expf : K → K) (flex : (Fin C → K) → Fin C → K)
    (gravity dx : K) (flexWater : Profile R C K → K → Profile R C K) :
    Mover C K → Component σ R C K
  | .subsidence rate => subsidenceComponent rate
  | .sediment => flexComponent (sedFlexStep expf flex gravity dx) L.get L.set
  | .water => flexComponent (waterFlexStep expf flexWater) L.get L.set

/-! ### C23 -/

/-- The same state of components and grid, apart from the scratch field
`lithosphere_surface__increment_of_elevation`. -/
def SameButLitho (L : FlexLens σ R C K) (x y : σ × World R C K) : Prop :=
  x.2 = y.2 ∧ ∃ l, y.1 = L.set { L.get x.1 with litho := l } x.1

/-- Two outcomes that agree: both raise, or both succeed with the same state apart from the scratch
field. -/
def SameOutcome (L : FlexLens σ R C K) : Except Err (σ × World R C K) →
    Except Err (σ × World R C K) → Prop
  | .ok x, .ok y => SameButLitho L x y
  | .error _, .error _ => True
  | _, _ => False

theorem sameButLitho_refl (L : FlexLens σ R C K) (x : σ × World R C K) : SameButLitho L x x :=
  ⟨rfl, (L.get x.1).litho, by rw [L.set_get]⟩

theorem sameButLitho_trans (L : FlexLens σ R C K) {x y z : σ × World R C K}
    (h : SameButLitho L x y) (h' : SameButLitho L y z) : SameButLitho L x z := by
  obtain ⟨h1, l, h2⟩ := h
  obtain ⟨h1', l', h2'⟩ := h'
  refine ⟨h1.trans h1', l', ?_⟩
  rw [h2', h2, L.get_set, L.set_set]

theorem sameOutcome_refl (L : FlexLens σ R C K) (x : Except Err (σ × World R C K)) :
    SameOutcome L x x := by
  cases x with
  | error e => trivial
  | ok x => exact sameButLitho_refl L x

theorem sameOutcome_trans (L : FlexLens σ R C K) {x y z : Except Err (σ × World R C K)}
    (h : SameOutcome L x y) (h' : SameOutcome L y z) : SameOutcome L x z := by
  cases x <;> cases y <;> cases z <;>
    first
    | exact trivial
    | exact h.elim
    | exact h'.elim
    | exact sameButLitho_trans L h h'

theorem setProfile_setProfile (f : NodeField R C K) (u v : Fin R → Fin C → K) :
    setProfile (setProfile f u) v = setProfile f v := by
  funext n
  unfold setProfile
  cases activeIndex n.1 <;> rfl

/-- Every mover: it may raise (depending on which fields there are), otherwise it subtracts a
deflection from the increment of the bedrock and changes the flexure state, both independent of the
increment. -/
def moverEffect (expf : K → K) (flex : (Fin C → K) → Fin C → K)
    (gravity dx : K) (flexWater : Profile R C K → K → Profile R C K) (m : Mover C K) (dt : K)
    (s : FlexState R C K) (w : World R C K) : Except Err (Profile R C K × FlexState R C K) :=
  match m with
  | .subsidence rate => .ok (fun _ c => -(rate c * dt), s)
  | .sediment =>
    match w.sedLoad with
    | none => .error .abort
    | some total =>
      let pressure := setProfile s.pressure fun r c => (getProfile total r c - s.lastLoad r c) * gravity * dx
      let litho := setProfile s.litho fun r => flex (getProfile pressure r)
      let d := dynamicDeflection expf s.sed (fun r => flex (getProfile pressure r)) dt
      .ok (d.1, { s with sed := d.2, lastLoad := getProfile total, pressure := pressure, litho := litho })
  | .water =>
    match w.seaIncr, w.waterIncr with
    | some dsl, some depth =>
      let d := dynamicDeflection expf s.water (flexWater (getProfile depth) dsl) dt
      .ok (d.1, { s with water := d.2, litho := setProfile s.litho fun _ _ => 0 })
    | _, _ => .error .abort

/-- What a mover does, in terms of `moverEffect`. -/
theorem moverComponent_cases (L : FlexLens σ R C K) (expf : K → K) (flex : (Fin C → K) → Fin C → K)
    (gravity dx : K) (flexWater : Profile R C K → K → Profile R C K) (m : Mover C K) (dt : K)
    (p : σ) (w : World R C K) :
    (∃ e, moverComponent L expf flex gravity dx flexWater m dt (p, w) = .error e ∧
      (w.increment = none ∨ ∃ e', moverEffect expf flex gravity dx flexWater m dt (L.get p) w = .error e')) ∨
    (∃ f D s', w.increment = some f ∧
      moverEffect expf flex gravity dx flexWater m dt (L.get p) w = .ok (D, s') ∧
      moverComponent L expf flex gravity dx flexWater m dt (p, w) =
        .ok (L.set s' p, { w with increment := some (setProfile f fun r c => getProfile f r c - D r c) })) := by
  cases hi : w.increment with
  | none =>
    refine Or.inl ?_
    cases m with
    | subsidence rate =>
      exact ⟨_, by simp only [moverComponent, subsidenceComponent, subsidenceStep, hi]; rfl, Or.inl rfl⟩
    | sediment =>
      cases hs : w.sedLoad with
      | none => exact ⟨_, by simp only [moverComponent, flexComponent, sedFlexStep, hs]; rfl, Or.inl rfl⟩
      | some t =>
        exact ⟨_, by simp only [moverComponent, flexComponent, sedFlexStep, hs, subtractDeflection, hi]; rfl,
          Or.inl rfl⟩
    | water =>
      cases hs : w.seaIncr with
      | none => exact ⟨_, by simp only [moverComponent, flexComponent, waterFlexStep, hs]; rfl, Or.inl rfl⟩
      | some t =>
        cases hw : w.waterIncr with
        | none =>
          exact ⟨_, by simp only [moverComponent, flexComponent, waterFlexStep, hs, hw]; rfl, Or.inl rfl⟩
        | some d =>
          exact ⟨_, by simp only [moverComponent, flexComponent, waterFlexStep, hs, hw,
            subtractDeflection, hi]; rfl, Or.inl rfl⟩
  | some f =>
    cases m with
    | subsidence rate =>
      refine Or.inr ⟨f, _, _, rfl, rfl, ?_⟩
      simp only [moverComponent, subsidenceComponent, subsidenceStep, hi, L.set_get, sub_neg_eq_add]
    | sediment =>
      cases hs : w.sedLoad with
      | none =>
        exact Or.inl ⟨_, by simp only [moverComponent, flexComponent, sedFlexStep, hs]; rfl,
          Or.inr ⟨.abort, by simp only [moverEffect, hs]⟩⟩
      | some t =>
        refine Or.inr ⟨f, _, _, rfl, by simp only [moverEffect, hs]; rfl, ?_⟩
        simp only [moverComponent, flexComponent, sedFlexStep, hs, subtractDeflection, hi,
          getProfile_setProfile]
    | water =>
      cases hs : w.seaIncr with
      | none =>
        exact Or.inl ⟨_, by simp only [moverComponent, flexComponent, waterFlexStep, hs]; rfl,
          Or.inr ⟨.abort, by simp only [moverEffect, hs]⟩⟩
      | some t =>
        cases hw : w.waterIncr with
        | none =>
          exact Or.inl ⟨_, by simp only [moverComponent, flexComponent, waterFlexStep, hs, hw]; rfl,
            Or.inr ⟨.abort, by simp only [moverEffect, hs, hw]⟩⟩
        | some d =>
          refine Or.inr ⟨f, _, _, rfl, by simp only [moverEffect, hs, hw]; rfl, ?_⟩
          simp only [moverComponent, flexComponent, waterFlexStep, hs, hw, subtractDeflection, hi]

/-- The effect of a mover does not depend on the increment of the bedrock. -/
theorem moverEffect_increment (expf : K → K) (flex : (Fin C → K) → Fin C → K)
    (gravity dx : K) (flexWater : Profile R C K → K → Profile R C K) (m : Mover C K) (dt : K)
    (s : FlexState R C K) (w : World R C K) (i : Option (NodeField R C K)) :
    moverEffect expf flex gravity dx flexWater m dt s { w with increment := i } =
      moverEffect expf flex gravity dx flexWater m dt s w := by
  cases m <;> rfl

/-- Nor, apart from the scratch field itself, on the scratch field. -/
theorem moverEffect_litho (expf : K → K) (flex : (Fin C → K) → Fin C → K)
    (gravity dx : K) (flexWater : Profile R C K → K → Profile R C K) (m : Mover C K) (dt : K)
    (s : FlexState R C K) (w : World R C K) (l : NodeField R C K) :
    (∀ e, moverEffect expf flex gravity dx flexWater m dt s w = .error e →
      moverEffect expf flex gravity dx flexWater m dt { s with litho := l } w = .error e) ∧
    (∀ D s', moverEffect expf flex gravity dx flexWater m dt s w = .ok (D, s') →
      ∃ l', moverEffect expf flex gravity dx flexWater m dt { s with litho := l } w =
        .ok (D, { s' with litho := l' })) := by
  unfold moverEffect
  cases m with
  | subsidence rate => exact ⟨fun e h => (by cases h), fun D s' h => ⟨l, by cases h; rfl⟩⟩
  | sediment =>
    cases w.sedLoad with
    | none => exact ⟨fun e h => h, fun D s' h => (by cases h)⟩
    | some t => exact ⟨fun e h => (by cases h), fun D s' h => ⟨_, by cases h; rfl⟩⟩
  | water =>
    cases w.seaIncr with
    | none => exact ⟨fun e h => h, fun D s' h => (by cases h)⟩
    | some a =>
      cases w.waterIncr with
      | none => exact ⟨fun e h => h, fun D s' h => (by cases h)⟩
      | some d => exact ⟨fun e h => (by cases h), fun D s' h => ⟨_, by cases h; rfl⟩⟩

/-- Two effects one after the other, in either order. -/
theorem moverEffect_swap (expf : K → K) (flex : (Fin C → K) → Fin C → K)
    (gravity dx : K) (flexWater : Profile R C K → K → Profile R C K) (m n : Mover C K) (dt : K)
    (s : FlexState R C K) (w : World R C K) (hne : m ≠ n) (D : Profile R C K) (s1 : FlexState R C K)
    (hm : moverEffect expf flex gravity dx flexWater m dt s w = .ok (D, s1)) :
    (∀ e, moverEffect expf flex gravity dx flexWater n dt s w = .error e →
      moverEffect expf flex gravity dx flexWater n dt s1 w = .error e) ∧
    (∀ E t, moverEffect expf flex gravity dx flexWater n dt s w = .ok (E, t) →
      ∃ st l, moverEffect expf flex gravity dx flexWater n dt s1 w = .ok (E, st) ∧
        moverEffect expf flex gravity dx flexWater m dt t w = .ok (D, { st with litho := l })) := by
  cases m with
  | subsidence rate =>
    cases hm
    refine ⟨fun e h => h, fun E t h => ⟨t, t.litho, h, rfl⟩⟩
  | sediment =>
    cases hs : w.sedLoad with
    | none => simp only [moverEffect, hs] at hm; cases hm
    | some tot =>
      simp only [moverEffect, hs] at hm
      cases hm
      cases n with
      | subsidence rate =>
        refine ⟨fun e h => (by cases h), fun E t h => ?_⟩
        cases h
        exact ⟨_, _, rfl, by simp only [moverEffect, hs]; rfl⟩
      | sediment => exact absurd rfl hne
      | water =>
        cases h1 : w.seaIncr with
        | none =>
          refine ⟨fun e h => ?_, fun E t h => ?_⟩
          · simp only [moverEffect, h1] at h ⊢; exact h
          · simp only [moverEffect, h1] at h; cases h
        | some a =>
          cases h2 : w.waterIncr with
          | none =>
            refine ⟨fun e h => ?_, fun E t h => ?_⟩
            · simp only [moverEffect, h1, h2] at h ⊢; exact h
            · simp only [moverEffect, h1, h2] at h; cases h
          | some d =>
            refine ⟨fun e h => ?_, fun E t h => ?_⟩
            · simp only [moverEffect, h1, h2] at h; cases h
            · simp only [moverEffect, h1, h2] at h
              cases h
              exact ⟨_, _, by simp only [moverEffect, h1, h2]; rfl, by simp only [moverEffect, hs]; rfl⟩
  | water =>
    cases h1 : w.seaIncr with
    | none => simp only [moverEffect, h1] at hm; cases hm
    | some a =>
      cases h2 : w.waterIncr with
      | none => simp only [moverEffect, h1, h2] at hm; cases hm
      | some d =>
        simp only [moverEffect, h1, h2] at hm
        cases hm
        cases n with
        | subsidence rate =>
          refine ⟨fun e h => (by cases h), fun E t h => ?_⟩
          cases h
          exact ⟨_, _, rfl, by simp only [moverEffect, h1, h2]; rfl⟩
        | water => exact absurd rfl hne
        | sediment =>
          cases hs : w.sedLoad with
          | none =>
            refine ⟨fun e h => ?_, fun E t h => ?_⟩
            · simp only [moverEffect, hs] at h ⊢; exact h
            · simp only [moverEffect, hs] at h; cases h
          | some tot =>
            refine ⟨fun e h => ?_, fun E t h => ?_⟩
            · simp only [moverEffect, hs] at h; cases h
            · simp only [moverEffect, hs] at h
              cases h
              exact ⟨_, _, by simp only [moverEffect, hs]; rfl, by simp only [moverEffect, h1, h2]; rfl⟩

/-- A mover takes states that agree to outcomes that agree. -/
theorem mover_congr (L : FlexLens σ R C K) (expf : K → K) (flex : (Fin C → K) → Fin C → K)
    (gravity dx : K) (flexWater : Profile R C K → K → Profile R C K) (m : Mover C K) (dt : K)
    (x y : σ × World R C K) (h : SameButLitho L x y) :
    SameOutcome L (moverComponent L expf flex gravity dx flexWater m dt x)
      (moverComponent L expf flex gravity dx flexWater m dt y) := by
  obtain ⟨p, w⟩ := x
  obtain ⟨q, v⟩ := y
  obtain ⟨h1, l, h2⟩ := h
  dsimp only at h1 h2
  subst h1
  obtain ⟨he, ho⟩ := moverEffect_litho expf flex gravity dx flexWater m dt (L.get p) w l
  rcases moverComponent_cases L expf flex gravity dx flexWater m dt p w with
    ⟨e, c1, c2⟩ | ⟨f, D, s', c1, c2, c3⟩ <;>
  rcases moverComponent_cases L expf flex gravity dx flexWater m dt q w with
    ⟨e', d1, d2⟩ | ⟨f', D', s'', d1, d2, d3⟩
  · rw [c1, d1]; trivial
  · exfalso
    rcases c2 with c2 | ⟨e2, c2⟩
    · rw [c2] at d1; cases d1
    · have := he e2 c2
      rw [h2, L.get_set, this] at d2
      cases d2
  · exfalso
    rcases d2 with d2 | ⟨e2, d2⟩
    · rw [d2] at c1; cases c1
    · obtain ⟨l', hl⟩ := ho D s' c2
      rw [h2, L.get_set, hl] at d2
      cases d2
  · rw [c3, d3]
    obtain ⟨l', hl⟩ := ho D s' c2
    rw [h2, L.get_set, hl] at d2
    cases d2
    rw [c1] at d1
    cases d1
    refine ⟨rfl, l', ?_⟩
    dsimp only
    rw [h2, L.set_set, L.get_set, L.set_set]

theorem runComponents_congr (L : FlexLens σ R C K) (cs : List (Component σ R C K)) (dt : K)
    (hcs : ∀ c ∈ cs, ∀ x y, SameButLitho L x y → SameOutcome L (c dt x) (c dt y))
    (x y : σ × World R C K) (h : SameButLitho L x y) :
    SameOutcome L (runComponents cs dt x) (runComponents cs dt y) := by
  induction cs generalizing x y with
  | nil => exact h
  | cons c cs ih =>
    rw [runComponents, runComponents]
    have := hcs c (by simp) x y h
    cases h1 : c dt x with
    | error e =>
      rw [h1] at this
      cases h2 : c dt y with
      | error e' => trivial
      | ok b => rw [h2] at this; exact this.elim
    | ok a =>
      rw [h1] at this
      cases h2 : c dt y with
      | error e' => rw [h2] at this; exact this.elim
      | ok b =>
        rw [h2] at this
        exact ih (fun c hc => hcs c (by simp [hc])) a b this

/-- Two movers in either order. -/
theorem mover_swap (L : FlexLens σ R C K) (expf : K → K) (flex : (Fin C → K) → Fin C → K)
    (gravity dx : K) (flexWater : Profile R C K → K → Profile R C K) (m n : Mover C K) (dt : K)
    (x : σ × World R C K) :
    SameOutcome L
      (runComponents [moverComponent L expf flex gravity dx flexWater m,
        moverComponent L expf flex gravity dx flexWater n] dt x)
      (runComponents [moverComponent L expf flex gravity dx flexWater n,
        moverComponent L expf flex gravity dx flexWater m] dt x) := by
  by_cases hne : m = n
  · subst hne; exact sameOutcome_refl L _
  obtain ⟨p, w⟩ := x
  simp only [runComponents]
  -- an outcome when the second mover has run
  have second : ∀ (a b : Mover C K), a ≠ b → ∀ (f : NodeField R C K) D s1, w.increment = some f →
      moverEffect expf flex gravity dx flexWater a dt (L.get p) w = .ok (D, s1) →
      ∀ e, moverEffect expf flex gravity dx flexWater b dt (L.get p) w = .error e →
      ∃ e', moverComponent L expf flex gravity dx flexWater b dt (L.set s1 p,
        { w with increment := some (setProfile f fun r c => getProfile f r c - D r c) }) = .error e' := by
    intro a b hab f D s1 hf ha e hb
    have hs := (moverEffect_swap expf flex gravity dx flexWater a b dt (L.get p) w hab D s1 ha).1 e hb
    rcases moverComponent_cases L expf flex gravity dx flexWater b dt (L.set s1 p)
      { w with increment := some (setProfile f fun r c => getProfile f r c - D r c) } with
      ⟨e2, c1, -⟩ | ⟨f2, D2, s2, c1, c2, -⟩
    · exact ⟨e2, c1⟩
    · rw [L.get_set, moverEffect_increment, hs] at c2
      cases c2
  rcases moverComponent_cases L expf flex gravity dx flexWater m dt p w with
    ⟨e, c1, c2⟩ | ⟨f, D, s1, c1, c2, c3⟩ <;>
  rcases moverComponent_cases L expf flex gravity dx flexWater n dt p w with
    ⟨e', d1, d2⟩ | ⟨f', E, t1, d1, d2, d3⟩
  · rw [c1, d1]; trivial
  · rcases c2 with c2 | ⟨e2, c2⟩
    · rw [c2] at d1; cases d1
    · obtain ⟨e3, h3⟩ := second n m (Ne.symm hne) f' E t1 d1 d2 e2 c2
      rw [c1, d3]
      dsimp only
      rw [h3]
      trivial
  · rcases d2 with d2 | ⟨e2, d2⟩
    · rw [d2] at c1; cases c1
    · obtain ⟨e3, h3⟩ := second m n hne f D s1 c1 c2 e2 d2
      rw [c3, d1]
      dsimp only
      rw [h3]
      trivial
  · rw [c1] at d1
    cases d1
    obtain ⟨st, l, m1, m2⟩ :=
      (moverEffect_swap expf flex gravity dx flexWater m n dt (L.get p) w hne D s1 c2).2 E t1 d2
    rw [c3, d3]
    dsimp only
    rcases moverComponent_cases L expf flex gravity dx flexWater n dt (L.set s1 p)
      { w with increment := some (setProfile f fun r c => getProfile f r c - D r c) } with
      ⟨e2, a1, a2⟩ | ⟨f2, D2, s2, a1, a2, a3⟩
    · exfalso
      rcases a2 with a2 | ⟨e3, a2⟩
      · cases a2
      · rw [L.get_set, moverEffect_increment, m1] at a2
        cases a2
    rcases moverComponent_cases L expf flex gravity dx flexWater m dt (L.set t1 p)
      { w with increment := some (setProfile f fun r c => getProfile f r c - E r c) } with
      ⟨e2, b1, b2⟩ | ⟨f3, D3, s3, b1, b2, b3⟩
    · exfalso
      rcases b2 with b2 | ⟨e3, b2⟩
      · cases b2
      · rw [L.get_set, moverEffect_increment, m2] at b2
        cases b2
    rw [a3, b3]
    rw [L.get_set, moverEffect_increment, m1] at a2
    rw [L.get_set, moverEffect_increment, m2] at b2
    cases a1
    cases b1
    cases a2
    cases b2
    refine ⟨?_, l, ?_⟩
    · dsimp only
      congr 2
      simp only [setProfile_setProfile, getProfile_setProfile]
      congr 1
      funext r c
      ring
    · dsimp only
      rw [L.set_set, L.set_set, L.get_set, L.set_set]

/-- C23, partial: within a step subsidence, sediment flexure and water flexure, any number of them,
may run in any order: all orders raise or none does, and the resulting grid and component states
are the same, apart from the field `lithosphere_surface__increment_of_elevation`, which holds the
result of the last solver call. -/
theorem bedrock_movers_commute_partial (L : FlexLens σ R C K) (expf : K → K)
    (flex : (Fin C → K) → Fin C → K) (gravity dx : K)
    (flexWater : Profile R C K → K → Profile R C K) (ms ns : List (Mover C K)) (hperm : ms.Perm ns)
    (dt : K) (x : σ × World R C K) :
    SameOutcome L
      (runComponents (ms.map (moverComponent L expf flex gravity dx flexWater)) dt x)
      (runComponents (ns.map (moverComponent L expf flex gravity dx flexWater)) dt x) := by
  induction hperm generalizing x with
  | nil => exact sameOutcome_refl L _
  | cons m h ih =>
    simp only [List.map_cons, runComponents]
    cases moverComponent L expf flex gravity dx flexWater m dt x with
    | error e => trivial
    | ok y => exact ih y
  | swap m n l =>
    have h2 : ∀ a b : Mover C K,
        runComponents ((a :: b :: l).map (moverComponent L expf flex gravity dx flexWater)) dt x =
        (match runComponents [moverComponent L expf flex gravity dx flexWater a,
            moverComponent L expf flex gravity dx flexWater b] dt x with
          | .error e => .error e
          | .ok y => runComponents (l.map (moverComponent L expf flex gravity dx flexWater)) dt y) := by
      intro a b
      simp only [List.map_cons, runComponents]
      cases moverComponent L expf flex gravity dx flexWater a dt x with
      | error e => rfl
      | ok y =>
        dsimp only
        cases moverComponent L expf flex gravity dx flexWater b dt y <;> rfl
    rw [h2, h2]
    have := mover_swap L expf flex gravity dx flexWater n m dt x
    cases h1 : runComponents [moverComponent L expf flex gravity dx flexWater n,
        moverComponent L expf flex gravity dx flexWater m] dt x with
    | error e =>
      rw [h1] at this
      cases h3 : runComponents [moverComponent L expf flex gravity dx flexWater m,
        moverComponent L expf flex gravity dx flexWater n] dt x with
      | error e' => trivial
      | ok y => rw [h3] at this; exact this.elim
    | ok y =>
      rw [h1] at this
      cases h3 : runComponents [moverComponent L expf flex gravity dx flexWater m,
        moverComponent L expf flex gravity dx flexWater n] dt x with
      | error e' => rw [h3] at this; exact this.elim
      | ok z =>
        rw [h3] at this
        refine runComponents_congr L _ dt ?_ y z this
        intro c hc u v huv
        obtain ⟨m', -, rfl⟩ := List.mem_map.mp hc
        exact mover_congr L expf flex gravity dx flexWater m' dt u v huv
  | trans h1 h2 i1 i2 => exact sameOutcome_trans L (i1 x) (i2 x)

/-! ### C68 -/

/-- A component that has nothing to do with the bedrock. -/
def Neutral (L : FlexLens σ R C K) (c : Component σ R C K) : Prop :=
  ∀ dt p w p' w', c dt (p, w) = .ok (p', w') →
    w'.increment = w.increment ∧ w'.bedrock = w.bedrock ∧ (L.get p').sed = (L.get p).sed ∧
    (L.get p').lastLoad = (L.get p).lastLoad ∧ (L.get p').water = (L.get p).water

/-- The deflection of a load. -/
def loadDeflection (flex : (Fin C → K) → Fin C → K) (gravity dx : K) (load : Fin C → K) : Fin C → K :=
  flex fun c => load c * gravity * dx

/-- The bedrock increment, with the deflections still pending applied, and the deflection of the
sediment load added back. -/
def settled (flex : (Fin C → K) → Fin C → K) (gravity dx : K) (s : FlexState R C K)
    (f : NodeField R C K) (r : Fin R) (c : Fin C) : K :=
  getProfile f r c - s.sed.pool r c - s.water.pool r c + loadDeflection flex gravity dx (s.lastLoad r) c

/-- What a mover adds: subsidence its rate, water its deflection, sediment nothing beyond what
`settled` accounts for. -/
def contribution (flexWater : Profile R C K → K → Profile R C K) (dt : K) (w : World R C K)
    (r : Fin R) (c : Fin C) : Mover C K → K
  | .subsidence rate => rate c * dt
  | .sediment => 0
  | .water => match w.seaIncr, w.waterIncr with
    | some dsl, some depth => -flexWater (getProfile depth) dsl r c
    | _, _ => 0

theorem loadDeflection_sub (flex : (Fin C → K) → Fin C → K)
    (hadd : ∀ a b, flex (fun c => a c + b c) = fun c => flex a c + flex b c) (gravity dx : K)
    (a b : Fin C → K) (c : Fin C) :
    loadDeflection flex gravity dx a c = loadDeflection flex gravity dx b c +
      flex (fun c => (a c - b c) * gravity * dx) c := by
  unfold loadDeflection
  have := congrFun (hadd (fun c => b c * gravity * dx) (fun c => (a c - b c) * gravity * dx)) c
  rw [← this]
  congr 1
  funext c
  ring

theorem mover_settled (L : FlexLens σ R C K) (expf : K → K)
    (flex : (Fin C → K) → Fin C → K)
    (hadd : ∀ a b, flex (fun c => a c + b c) = fun c => flex a c + flex b c)
    (gravity dx : K) (flexWater : Profile R C K → K → Profile R C K) (m : Mover C K) {dt : K}
    {p p' : σ} {w w' : World R C K}
    (h : moverComponent L expf flex gravity dx flexWater m dt (p, w) = .ok (p', w')) :
    ∃ f g, w.increment = some f ∧ w' = { w with increment := some g } ∧ ∀ r c,
      settled flex gravity dx (L.get p') g r c = settled flex gravity dx (L.get p) f r c +
        contribution flexWater dt w r c m := by
  rcases moverComponent_cases L expf flex gravity dx flexWater m dt p w with
    ⟨e, c1, -⟩ | ⟨f, D, s', c1, c2, c3⟩
  · rw [h] at c1; cases c1
  · rw [h] at c3
    cases c3
    refine ⟨f, _, c1, rfl, fun r c => ?_⟩
    rw [L.get_set]
    unfold settled
    rw [getProfile_setProfile]
    cases m with
    | subsidence rate =>
      cases c2
      simp only [contribution]
      ring
    | sediment =>
      cases hs : w.sedLoad with
      | none => simp only [moverEffect, hs] at c2; cases c2
      | some tot =>
        simp only [moverEffect, hs] at c2
        cases c2
        simp only [contribution, dynamicDeflection, getProfile_setProfile]
        rw [loadDeflection_sub flex hadd gravity dx (getProfile tot r) ((L.get p).lastLoad r)]
        ring
    | water =>
      cases h1 : w.seaIncr with
      | none => simp only [moverEffect, h1] at c2; cases c2
      | some a =>
        cases h2 : w.waterIncr with
        | none => simp only [moverEffect, h1, h2] at c2; cases c2
        | some d =>
          simp only [moverEffect, h1, h2] at c2
          cases c2
          simp only [contribution, dynamicDeflection, h1, h2]
          ring

theorem movers_settled (L : FlexLens σ R C K) (expf : K → K)
    (flex : (Fin C → K) → Fin C → K)
    (hadd : ∀ a b, flex (fun c => a c + b c) = fun c => flex a c + flex b c)
    (gravity dx : K) (flexWater : Profile R C K → K → Profile R C K) (ms : List (Mover C K)) {dt : K}
    {p p' : σ} {w w' : World R C K} (f : NodeField R C K) (hf : w.increment = some f)
    (h : runComponents (ms.map (moverComponent L expf flex gravity dx flexWater)) dt (p, w) =
      .ok (p', w')) :
    ∃ g, w' = { w with increment := some g } ∧ ∀ r c,
      settled flex gravity dx (L.get p') g r c = settled flex gravity dx (L.get p) f r c +
        (ms.map (contribution flexWater dt w r c)).sum := by
  induction ms generalizing p w f with
  | nil =>
    cases h
    refine ⟨f, ?_, fun r c => by simp⟩
    cases w'
    dsimp only at hf
    rw [hf]
  | cons m ms ih =>
    simp only [List.map_cons, runComponents] at h
    cases h1 : moverComponent L expf flex gravity dx flexWater m dt (p, w) with
    | error e => rw [h1] at h; cases h
    | ok y =>
      obtain ⟨p1, w1⟩ := y
      rw [h1] at h
      obtain ⟨f0, g0, m1, rfl, m3⟩ := mover_settled L expf flex hadd gravity dx flexWater m h1
      rw [hf] at m1
      cases m1
      obtain ⟨g, i1, i2⟩ := ih g0 rfl h
      refine ⟨g, i1, fun r c => ?_⟩
      rw [i2, m3, List.map_cons, List.sum_cons, add_assoc]
      congr 2

/-- C68: over any history of a `SequenceModel` whose bedrock is moved only by subsidence, sediment
flexure and water flexure (any number, in any order, among other components), the bedrock of the
active rows, with the pending deflections applied and the deflection of the sediment load added
back, has moved by the subsidence and the water deflections of all steps, and by nothing else. So
each load has bent the bedrock exactly once, whatever the time steps. -/
theorem bedrock_budget (L : FlexLens σ R C K) (expf : K → K) (flex : (Fin C → K) → Fin C → K)
    (hadd : ∀ a b, flex (fun c => a c + b c) = fun c => flex a c + flex b c)
    (gravity dx : K) (flexWater : Profile R C K → K → Profile R C K) (ms : List (Mover C K))
    (pre post : List (Component σ R C K)) (hpre : ∀ c ∈ pre, Neutral L c)
    (hpost : ∀ c ∈ post, Neutral L c ∧ Keeps c World.seaIncr ∧ Keeps c World.waterIncr)
    (porosity : σ → K) (s s' : ModelState σ R C K) (obs : List (Observation σ R C K))
    (hs : s.world.increment = some fun _ => 0)
    (h : ModelHistory (pre ++ (ms.map (moverComponent L expf flex gravity dx flexWater) ++ post))
      porosity s obs s') (r : Fin R) (c : Fin C) :
    settled flex gravity dx (L.get s'.comps) s'.world.bedrock r c =
      settled flex gravity dx (L.get s.comps) s.world.bedrock r c +
      (obs.map fun o => (ms.map (contribution flexWater o.dt o.world r c)).sum).sum := by
  have hneutral : ∀ (cs : List (Component σ R C K)), (∀ c ∈ cs, Neutral L c) →
      ∀ {dt : K} {p p' : σ} {w w' : World R C K}, runComponents cs dt (p, w) = .ok (p', w') →
      w'.increment = w.increment ∧ w'.bedrock = w.bedrock ∧ (L.get p').sed = (L.get p).sed ∧
      (L.get p').lastLoad = (L.get p).lastLoad ∧ (L.get p').water = (L.get p).water := by
    intro cs hcs dt p p' w w' hrun
    induction cs generalizing p w with
    | nil => cases hrun; exact ⟨rfl, rfl, rfl, rfl, rfl⟩
    | cons c cs ih =>
      rw [runComponents] at hrun
      cases h1 : c dt (p, w) with
      | error e => rw [h1] at hrun; cases hrun
      | ok y =>
        obtain ⟨p1, w1⟩ := y
        rw [h1] at hrun
        obtain ⟨a1, a2, a3, a4, a5⟩ := hcs c (by simp) dt p w p1 w1 h1
        obtain ⟨b1, b2, b3, b4, b5⟩ := ih (fun c hc => hcs c (by simp [hc])) hrun
        exact ⟨b1.trans a1, b2.trans a2, b3.trans a3, b4.trans a4, b5.trans a5⟩
  induction h with
  | nil s => simp
  | step hc ha hr ih =>
    rename_i s s1 s2 time dt p w obs
    rw [runComponents_append] at hc
    cases h1 : runComponents pre dt (s.comps, clearDeposit s.world) with
    | error e => rw [h1] at hc; cases hc
    | ok y =>
      obtain ⟨p1, w1⟩ := y
      rw [h1] at hc
      dsimp only at hc
      obtain ⟨a1, a2, a3, a4, a5⟩ := hneutral pre hpre h1
      rw [runComponents_append] at hc
      cases h2 : runComponents (ms.map (moverComponent L expf flex gravity dx flexWater)) dt (p1, w1) with
      | error e => rw [h2] at hc; cases hc
      | ok y =>
        obtain ⟨p2, w2⟩ := y
        rw [h2] at hc
        dsimp only at hc
        have hinc : w1.increment = some fun _ => 0 := a1.trans hs
        obtain ⟨g, m1, m2⟩ := movers_settled L expf flex hadd gravity dx flexWater ms _ hinc h2
        obtain ⟨b1, b2, b3, b4, b5⟩ := hneutral post (fun c hc => (hpost c hc).1) hc
        have k1 : w.seaIncr = w1.seaIncr := by
          rw [runComponents_keeps World.seaIncr post (fun c hc => (hpost c hc).2.1) hc, m1]
        have k2 : w.waterIncr = w1.waterIncr := by
          rw [runComponents_keeps World.waterIncr post (fun c hc => (hpost c hc).2.2) hc, m1]
        have hcontr : (ms.map (contribution flexWater dt w r c)).sum =
            (ms.map (contribution flexWater dt w1 r c)).sum := by
          refine congrArg List.sum (List.map_congr_left fun m _ => ?_)
          cases m with
          | subsidence rate => rfl
          | sediment => rfl
          | water => simp only [contribution, k1, k2]
        obtain ⟨p', w', ev, w3, a, e1, e2, e3, e4, rfl⟩ := advanceComponents_ok ha
        have hfull : runComponents (pre ++ (ms.map (moverComponent L expf flex gravity dx flexWater)
            ++ post)) dt (s.comps, clearDeposit s.world) = .ok (p, w) := by
          rw [runComponents_append, h1]
          dsimp only
          rw [runComponents_append, h2]
          exact hc
        rw [hfull] at e1
        cases e1
        obtain ⟨-, -, -, -, -, hb, hi, -⟩ := updateFields_ok e3
        have hwinc : w.increment = some g := by rw [b1, m1]
        have hwbed : w.bedrock = s.world.bedrock := by rw [b2, m1]; exact a2
        have hi' : w3.increment = some fun _ => 0 := by
          rw [hi]
          show w.increment.map _ = _
          rw [hwinc]; rfl
        have hb' : w3.bedrock = fun n => s.world.bedrock n + g n := by
          funext n
          rw [hb n]
          show w.bedrock n + (w.increment.map _).getD 0 = _
          rw [hwinc, hwbed]; rfl
        rw [ih hi', List.map_cons, List.sum_cons, hcontr]
        have hm2 := m2 r c
        simp only [settled, getProfile, a3, a4, a5] at hm2
        simp only [settled, hb', b3, b4, b5, getProfile]
        linarith

/-! ### C69 -/

theorem waterDepth_eq (w : World R C K) (r : Fin R) (c : Fin C) :
    waterDepth w r c = max (w.seaLevel - getProfile w.topo r c) 0 := rfl

/-- What a step records as the change of water depth. -/
theorem water_increment_step {w w' : World R C K} (h : updateFields w = .ok w')
    (f : NodeField R C K) (hf : w.waterIncr = some f) :
    ∃ g, w'.waterIncr = some g ∧ ∀ r c, getProfile g r c =
      max (w'.seaLevel - getProfile w'.topo r c) 0 - max (w.seaLevel - getProfile w.topo r c) 0 := by
  unfold updateFields at h
  cases h1 : updateSedLoad w with
  | error e => rw [h1] at h; cases h
  | ok w1 =>
    rw [h1] at h
    dsimp only at h
    have e8 : (resetTopo (updateBedrock w1)).waterIncr = some f := by
      rw [← hf, ← (updateSedLoad_ok h1).2.2.2.2.2.2.2.1]
      unfold resetTopo updateBedrock
      cases w1.increment <;> rfl
    rw [e8] at h
    cases h
    refine ⟨_, rfl, fun r c => ?_⟩
    rw [getProfile_setProfile]
    rfl

/-- C69 is false: if the sea level changes but nothing else does, the recorded change of water
depth is 0 whatever the change of depth. -/
theorem water_increment_ignores_sea_level (comps : List (Component σ R C K)) (porosity : σ → K)
    (hk : ∀ c ∈ comps, Keeps c World.topo) (time dt : K) (s s' : ModelState σ R C K)
    (ha : advanceComponents comps porosity time dt s = .ok s') (htopo : s'.world.topo = s.world.topo)
    (p : σ) (w : World R C K)
    (hc : runComponents comps dt (s.comps, clearDeposit s.world) = .ok (p, w))
    (hw : w.waterIncr ≠ none) :
    ∃ g, s'.world.waterIncr = some g ∧ ∀ r c, getProfile g r c = 0 := by
  obtain ⟨p', w', ev, w3, a, e1, e2, e3, e4, rfl⟩ := advanceComponents_ok ha
  rw [hc] at e1
  cases e1
  obtain ⟨f, hf⟩ := Option.ne_none_iff_exists'.mp hw
  obtain ⟨g, g1, g2⟩ := water_increment_step e3 f hf
  refine ⟨g, g1, fun r c => ?_⟩
  have h1 : w.topo = (clearDeposit s.world).topo := runComponents_keeps World.topo comps hk hc
  have h2 : w3.topo = s.world.topo := htopo
  have h3 : w3.seaLevel = w.seaLevel := (updateFields_ok e3).2.2.2.2.1
  rw [g2, h2, h3]
  show _ - max (w.seaLevel - getProfile w.topo r c) 0 = 0
  rw [h1]
  show max (w.seaLevel - getProfile s.world.topo r c) 0 - max (w.seaLevel - getProfile s.world.topo r c) 0 = 0
  rw [sub_self]

/-- C69, partial (the components change neither sea level nor topography themselves): over any
history of a `SequenceModel`, the changes of water depth the components see, and the one they will
see next, add up to the change of the water depth. -/
theorem water_increments_partial (comps : List (Component σ R C K)) (porosity : σ → K)
    (hk : ∀ c ∈ comps, Keeps c World.topo ∧ Keeps c World.seaLevel ∧ Keeps c World.waterIncr)
    (s s' : ModelState σ R C K) (obs : List (Observation σ R C K))
    (h : ModelHistory comps porosity s obs s') (f : NodeField R C K)
    (hf : s.world.waterIncr = some f) :
    ∃ g, s'.world.waterIncr = some g ∧ ∀ r c,
      (obs.map fun o => (o.world.waterIncr.map fun f => getProfile f r c).getD 0).sum +
          getProfile g r c = getProfile f r c +
        (max (s'.world.seaLevel - getProfile s'.world.topo r c) 0 -
          max (s.world.seaLevel - getProfile s.world.topo r c) 0) := by
  induction h generalizing f with
  | nil s => exact ⟨f, hf, fun r c => by simp⟩
  | step hc ha hr ih =>
    rename_i s s1 s2 time dt p w obs
    obtain ⟨p', w', ev, w3, a, e1, e2, e3, e4, rfl⟩ := advanceComponents_ok ha
    rw [hc] at e1
    cases e1
    have k1 : w.topo = s.world.topo :=
      runComponents_keeps (w := clearDeposit s.world) World.topo comps (fun c hc => (hk c hc).1) hc
    have k2 : w.seaLevel = s.world.seaLevel :=
      runComponents_keeps (w := clearDeposit s.world) World.seaLevel comps (fun c hc => (hk c hc).2.1) hc
    have k3 : w.waterIncr = some f := by
      rw [← hf]
      exact runComponents_keeps (w := clearDeposit s.world) World.waterIncr comps
        (fun c hc => (hk c hc).2.2) hc
    obtain ⟨g1, hg1, hg2⟩ := water_increment_step e3 f k3
    obtain ⟨g, i1, i2⟩ := ih g1 hg1
    refine ⟨g, i1, fun r c => ?_⟩
    have h2 := i2 r c
    have h3 := hg2 r c
    simp only [k1, k2] at h3
    rw [List.map_cons, List.sum_cons]
    simp only [k3, Option.map_some, Option.getD_some]
    linarith

/-! ### Examples -/

/-- The components of the examples keep nothing else. -/
def exLens : FlexLens (FlexState 1 3 ℚ) 1 3 ℚ where
  get := id
  set := fun s _ => s
  get_set := fun _ _ => rfl
  set_get := fun _ => rfl
  set_set := fun _ _ _ => rfl

/-- A flexure state with half of a deflection of 8 pending. -/
def exFlex : FlexState 1 3 ℚ where
  sed := ⟨some 1, fun _ _ => 8⟩
  lastLoad := fun _ _ => 0
  water := ⟨none, fun _ _ => 0⟩
  pressure := fun _ => 0
  litho := fun _ => 0

/-- A linear solver: a load bends where it lies. -/
def exSolver (load : Fin 3 → ℚ) : Fin 3 → ℚ := fun c => load c / 1000

def exMover : Mover 3 ℚ → Component (FlexState 1 3 ℚ) 1 3 ℚ :=
  moverComponent exLens (fun _ => 1/2) exSolver 10 1 fun depth dsl r c => depth r c / 3 + dsl

/-- A grid with a load and a rise of sea level. -/
def exLoaded : World 1 3 ℚ :=
  { exWorld with sedLoad := some fun n => n.2.val * 100, seaIncr := some 3 }

/-- C23 on concrete states: the increment is the same in two orders, the scratch field is not. -/
theorem litho_depends_on_order :
    ((runComponents ([.subsidence fun _ => 1/10, .sediment, .water].map exMover) 10
      (exFlex, exLoaded)).toOption.map fun x => (x.2.increment.map fun f => f (1, 2), x.1.litho (1, 2)))
      = some (some (-7), 0) ∧
    ((runComponents ([.water, .sediment, .subsidence fun _ => 1/10].map exMover) 10
      (exFlex, exLoaded)).toOption.map fun x => (x.2.increment.map fun f => f (1, 2), x.1.litho (1, 2)))
      = some (some (-7), 2) := by decide +kernel

/-- C68: a model with all three movers runs for two steps. -/
example : ((match modelInit 0 (fun _ s => s) exFlex { exLoaded with seaIncr := some 0 } with
    | .ok s => match advanceComponents ([.subsidence fun _ => 1/10, .sediment, .water].map exMover)
        (fun _ => 1/2) 10 10 s with
      | .ok s => advanceComponents ([.subsidence fun _ => 1/10, .sediment, .water].map exMover)
        (fun _ => 1/2) 20 10 s
      | .error e => .error e
    | .error e => .error e : Except Err (ModelState (FlexState 1 3 ℚ) 1 3 ℚ))).toOption.map
      (fun s : ModelState (FlexState 1 3 ℚ) 1 3 ℚ =>
        (s.world.bedrock (1, 1) + 105, settled exSolver 10 1 s.comps s.world.bedrock 0 1 + 105)) =
    some (-71/12, -43/6) := by decide +kernel

/-- C69: the sea falls by 5 m, so do 5 m of water, and the recorded change of depth is 0. -/
theorem water_increment_differs :
    ((match modelInit 0 (fun t _ => t) (0 : ℚ) exWorld with
    | .ok s => advanceComponents [seaComponent (interpTable exTable) id fun t _ => t] (fun _ => 1/2)
        10 10 s
    | .error e => .error e : Except Err (ModelState ℚ 1 3 ℚ))).toOption.map
      (fun s : ModelState ℚ 1 3 ℚ => (waterDepth s.world 0 1, s.world.waterIncr.map fun f => f (1, 1)))
      = some (0, some 0) ∧ waterDepth exWorld 0 1 = 5 := by decide +kernel

end Verif.Props
