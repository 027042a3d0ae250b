import Verif.Lemmas.Prelude
import Verif.Model.Processes
import Verif.Lemmas.Driver
import Verif.Spec.Driver

/-!
# What the processes of the package leave alone
-/

set_option autoImplicit false
set_option linter.unusedSectionVars false

namespace Verif

open Spec

variable {K : Type*} {R C : ℕ} [Field K] [LinearOrder K] [IsStrictOrderedRing K]

/-- What a step of a process may change, and what it leaves alone. -/
structure Frame (p : Process K) (w w' : World R (C + 2) K) : Prop where
  bedrock : w'.bedrock = w.bedrock
  sedLoad : w'.sedLoad = w.sedLoad
  waterLoad : w'.waterLoad = w.waterLoad
  waterIncr : w'.waterIncr = w.waterIncr
  gridShore : w'.gridShore = w.gridShore
  gridShelf : w'.gridShelf = w.gridShelf
  increment : w'.increment.isSome = w.increment.isSome
  hasSand : w'.sand.isSome = w.sand.isSome
  rowShore : w'.rowShore.isSome = w.rowShore.isSome
  rowShelf : w'.rowShelf.isSome = w.rowShelf.isSome
  seaIncr : w.seaIncr.isSome → w'.seaIncr.isSome
  layers : p.name ≠ "compaction" → w'.layers = w.layers
  seaLevel : p.name ≠ "sea_level" → w'.seaLevel = w.seaLevel
  sand : p.name ≠ "fluvial" → w'.sand = w.sand
  deposit : p.name ≠ "fluvial" → p.name ≠ "submarine_diffusion" → w'.deposit = w.deposit
  topo : ∀ n : Node R (C + 2), n.2 ≠ 0 → w'.topo n = w.topo n
  noDiffusion : p.name ≠ "submarine_diffusion" → w'.topo = w.topo
  noSubsidence : p.name ≠ "subsidence" → p.name ≠ "flexure" → p.name ≠ "water_flexure" →
    w'.increment = w.increment

theorem subtractDeflection_ok {d : Profile R C K} {w w' : World R C K}
    (h : subtractDeflection d w = .ok w') : ∃ f g, w.increment = some f ∧
      w' = { w with increment := some g } := by
  unfold subtractDeflection at h
  cases hi : w.increment with
  | none => rw [hi] at h; cases h
  | some f => rw [hi] at h; cases h; exact ⟨f, _, rfl, rfl⟩

theorem sedFlexStep_world {expf : K → K} {flex : (Fin C → K) → Fin C → K} {g dx dt : K}
    {s s' : FlexState R C K} {w w' : World R C K}
    (h : sedFlexStep expf flex g dx dt s w = .ok (s', w')) : ∃ f f', w.increment = some f ∧
      w' = { w with increment := some f' } := by
  unfold sedFlexStep at h
  cases hl : w.sedLoad with
  | none => rw [hl] at h; cases h
  | some total =>
    rw [hl] at h
    dsimp only at h
    split at h
    · cases h
    · rename_i w1 hs
      cases h
      have := subtractDeflection_ok hs
      rwa [hl] at this

theorem waterFlexStep_world {expf : K → K} {flexWater : Profile R C K → K → Profile R C K} {dt : K}
    {s s' : FlexState R C K} {w w' : World R C K}
    (h : waterFlexStep expf flexWater dt s w = .ok (s', w')) : ∃ f f', w.increment = some f ∧
      w' = { w with increment := some f' } := by
  unfold waterFlexStep at h
  cases hl : w.seaIncr with
  | none => rw [hl] at h; cases h
  | some dsl =>
    cases hw : w.waterIncr with
    | none => rw [hl, hw] at h; cases h
    | some depth =>
      rw [hl, hw] at h
      dsimp only at h
      split at h
      · cases h
      · rename_i w1 hs
        cases h
        have := subtractDeflection_ok hs
        rwa [hl, hw] at this

theorem shorelineUpdate_world {kind : InterpKind K} {xtol rtol alpha : K} {asserting : Bool}
    {x : Fin C → K} {w w' : World R C K}
    (h : shorelineUpdate kind xtol rtol alpha asserting x w = .ok w') :
    ∃ a b a' b', w.rowShore = some a ∧ w.rowShelf = some b ∧
      w' = { w with rowShore := some a', rowShelf := some b' } := by
  unfold shorelineUpdate at h
  split at h
  · cases h
  · cases h1 : w.rowShore with
    | none => rw [h1] at h; cases h
    | some a =>
      cases h2 : w.rowShelf with
      | none => rw [h1, h2] at h; cases h
      | some b => rw [h1, h2] at h; cases h; exact ⟨a, b, _, _, rfl, rfl, rfl⟩

theorem fluvialStep_world {kind : InterpKind K} {xtol rtol : K} {expf sqrtf : K → K}
    {P : FluvialParams K} {dx dt : K} {x : Fin C → K} {w w' : World R C K}
    (h : fluvialStep kind xtol rtol expf sqrtf P dx dt x w = .ok w') :
    ∃ f i f' d', w.sand = some f ∧ w.increment = some i ∧
      w' = { w with sand := some f', deposit := d' } := by
  unfold fluvialStep at h
  cases hs : w.sand with
  | none => rw [hs] at h; cases h
  | some sand =>
    cases hi : w.increment with
    | none => rw [hs, hi] at h; cases h
    | some inc =>
      rw [hs, hi] at h
      dsimp only at h
      split_ifs at h with hR
      split at h
      · cases h
      · split_ifs at h
        cases h
        exact ⟨sand, inc, _, _, rfl, rfl, rfl⟩

theorem diffuserStep_world {kind : InterpKind K} {xtol rtol : K} {expf : K → K}
    {solve : NodeField R (C + 2) K → K → NodeField R (C + 2) K → Except Err (NodeField R (C + 2) K)}
    {dx : K} {x : Fin (C + 2) → K} {dt : K} {s s' : Diffuser R (C + 2) K}
    {w w' : World R (C + 2) K}
    (h : diffuserStep kind xtol rtol expf solve dx x dt s w = .ok (s', w')) :
    ∃ t d, w' = { w with topo := t, deposit := d } ∧ ∀ n : Node R (C + 2), n.2 ≠ 0 → t n = w.topo n := by
  unfold diffuserStep at h
  split at h
  · cases h
  · dsimp only at h
    split_ifs at h
    split at h
    · cases h
    · cases h
      refine ⟨_, _, rfl, fun n hn => ?_⟩
      unfold setUpstream
      split
      · rw [if_neg hn]
      · rfl

theorem component_frame {env : Env R C K} {p : Process K} {dt : K} {q q' : ProcState R C K}
    {w w' : World R (C + 2) K} (h : p.component env dt (q, w) = .ok (q', w')) : Frame p w w' := by
  cases p with
  | seaLevel curve start =>
    simp only [Process.component, seaComponent, seaStep] at h
    cases hc : curve (q.seaTime + dt) with
    | error e => simp only [hc] at h; cases h
    | ok v =>
      simp only [hc] at h
      cases h
      constructor <;> simp [Process.name]
  | subsidence curve =>
    simp only [Process.component, subsidenceComponent, subsidenceStep] at h
    cases hi : w.increment with
    | none => simp only [hi] at h; cases h
    | some f =>
      simp only [hi] at h
      cases h
      constructor <;> simp [Process.name, hi]
  | compaction =>
    simp only [Process.component] at h
    split at h
    · cases h
    · cases h
      constructor <;> simp [Process.name]
  | diffusion P =>
    simp only [Process.component, diffuserComponent] at h
    split at h
    · cases h
    · rename_i s1 w1 hs
      cases h
      obtain ⟨t, d, rfl, ht⟩ := diffuserStep_world hs
      constructor <;> simp [Process.name]
      intro a b hb
      exact ht (a, b) hb
  | fluvial P =>
    simp only [Process.component, fluvialComponent] at h
    split at h
    · cases h
    · rename_i w1 hs
      cases h
      obtain ⟨f, i, f', d', h1, h2, rfl⟩ := fluvialStep_world hs
      constructor <;> simp [Process.name, h1]
  | flexure t =>
    simp only [Process.component, flexComponent] at h
    split at h
    · cases h
    · rename_i s1 w1 hs
      cases h
      obtain ⟨f, f', h1, rfl⟩ := sedFlexStep_world hs
      constructor <;> simp [Process.name, h1]
  | waterFlexure t =>
    simp only [Process.component, flexComponent] at h
    split at h
    · cases h
    · rename_i s1 w1 hs
      cases h
      obtain ⟨f, f', h1, rfl⟩ := waterFlexStep_world hs
      constructor <;> simp [Process.name, h1]
  | shoreline alpha =>
    simp only [Process.component, shorelineComponent] at h
    split at h
    · cases h
    · rename_i w1 hs
      cases h
      obtain ⟨a, b, a', b', h1, h2, rfl⟩ := shorelineUpdate_world hs
      constructor <;> simp [Process.name, h1, h2]

end Verif
