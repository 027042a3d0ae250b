import Verif.Props.Flexure
import Verif.Props.DriverRun
import Mathlib.Tactic.LinearCombination

/-!
# The sediment load of a run (C85, C86)
-/

set_option autoImplicit false
set_option linter.unusedSectionVars false

namespace Verif.Spec

variable {K σ : Type*} {R C : ℕ} [Field K] [LinearOrder K]

/-- The weight of a deposit `dz` (negative for erosion) on a surface at `z` above sea level: half of
it grains of sand and mud, half voids, filled with water where below sea level. -/
def depositWeight (dz z sand : K) : K :=
  1/2 * (2650 * sand + 2720 * (1 - sand)) * dz + 1/2 * 1030 * (min (z + dz) 0 - min z 0)

/-- The weight of the deposit of a step at an active node. -/
def stepWeight (w : World R C K) (sand : NodeField R C K) (r : Fin R) (c : Fin C) : K :=
  depositWeight (w.deposit (⟨r.val + 1, by omega⟩, c))
    (w.topo (⟨r.val + 1, by omega⟩, c) - w.seaLevel) (sand (⟨r.val + 1, by omega⟩, c))

end Verif.Spec

namespace Verif.Props

open Verif Verif.Spec

variable {K σ : Type*} {R C : ℕ} [Field K] [LinearOrder K] [IsStrictOrderedRing K]

theorem loading_weight (dz z sand : K) :
    calcLoading dz z (1/2) (calcDensity sand 2650 2720) 1030 = depositWeight dz z sand := by
  rw [loading_parts]
  unfold depositWeight calcDensity
  have h1 := max_add_min (z + dz) 0
  have h2 := max_add_min z 0
  have e1 : max (z + dz) 0 = z + dz - min (z + dz) 0 := by linarith
  have e2 : max z 0 = z - min z 0 := by linarith
  rw [e1, e2]
  ring

/-- What `_update_fields` does to the load. -/
theorem updateFields_load {w w' : World R C K} (h : updateFields w = .ok w') :
    (w.sedLoad = none → w'.sedLoad = none) ∧
    ∀ load, w.sedLoad = some load → ∃ sand load', w.sand = some sand ∧ w'.sedLoad = some load' ∧
      (∀ (r : Fin R) (c : Fin C), load' (⟨r.val + 1, by omega⟩, c) =
        load (⟨r.val + 1, by omega⟩, c) + stepWeight w sand r c) ∧
      ∀ c : Fin C, load' (0, c) = load (0, c) ∧ load' (Fin.last _, c) = load (Fin.last _, c) := by
  unfold updateFields at h
  cases h1 : updateSedLoad w with
  | error e => rw [h1] at h; cases h
  | ok w1 =>
    rw [h1] at h
    dsimp only at h
    have hkeep : w'.sedLoad = w1.sedLoad := by
      have hb : (resetTopo (updateBedrock w1)).sedLoad = w1.sedLoad := by
        unfold resetTopo updateBedrock
        cases w1.increment <;> rfl
      cases hx : (resetTopo (updateBedrock w1)).waterIncr with
      | none => rw [hx] at h; cases h; exact hb
      | some f => rw [hx] at h; cases h; exact hb
    unfold updateSedLoad at h1
    refine ⟨?_, ?_⟩
    · intro h0
      rw [h0] at h1
      cases h1
      rw [hkeep, h0]
    · intro load hload
      rw [hload] at h1
      cases hs : w.sand with
      | none => rw [hs] at h1; cases h1
      | some sand =>
        rw [hs] at h1
        cases h1
        refine ⟨sand, _, rfl, hkeep, ?_, ?_⟩
        · intro r c
          have hset : ∀ v : Fin R → Fin C → K, setProfile load v (activeRow r, c) = v r c :=
            fun v => congrFun (congrFun (getProfile_setProfile load v) r) c
          have e := hset fun r c => getProfile load r c +
            calcLoading (getProfile w.deposit r c) (getProfile w.topo r c - w.seaLevel) (1/2)
              (calcDensity (getProfile sand r c) 2650 2720) 1030
          rw [loading_weight] at e
          exact e
        · intro c
          refine ⟨?_, ?_⟩
          · simp [setProfile, activeIndex]
          · simp [setProfile, activeIndex]

/-- C85: over any history of a `SequenceModel` whose components leave the load alone, the sediment
load of an active node changes by the weights of the deposits of the steps, and that of the
other nodes not at all. -/
theorem sediment_load_sum (comps : List (Component σ R C K)) (porosity : σ → K)
    (hk : ∀ c ∈ comps, Keeps c World.sedLoad) (s s' : ModelState σ R C K)
    (obs : List (Observation σ R C K)) (h : ModelHistory comps porosity s obs s')
    (load : NodeField R C K) (hload : s.world.sedLoad = some load) :
    ∃ load', s'.world.sedLoad = some load' ∧ (∀ o ∈ obs, o.world.sand ≠ none) ∧
      (∀ (r : Fin R) (c : Fin C), load' (⟨r.val + 1, by omega⟩, c) = load (⟨r.val + 1, by omega⟩, c) +
        (obs.map fun o => (o.world.sand.map fun f => stepWeight o.world f r c).getD 0).sum) ∧
      ∀ c : Fin C, load' (0, c) = load (0, c) ∧ load' (Fin.last _, c) = load (Fin.last _, c) := by
  induction h generalizing load with
  | nil s => exact ⟨load, hload, by simp, by simp, fun _ => ⟨rfl, rfl⟩⟩
  | step hc ha hr ih =>
    rename_i s s1 s2 time dt p w obs
    obtain ⟨p', w', ev, w3, a, e1, e2, e3, e4, rfl⟩ := advanceComponents_ok ha
    rw [hc] at e1
    cases e1
    have hw : w.sedLoad = some load := by
      rw [← hload]
      exact runComponents_keeps (w := clearDeposit s.world) World.sedLoad comps hk hc
    obtain ⟨sand, load1, l1, l2, l3⟩ := (updateFields_load e3).2 load hw
    obtain ⟨load', g1, g2, g3, g4⟩ := ih load1 l2
    have l1' : w.sand = some sand := l1
    refine ⟨load', g1, ?_, ?_, ?_⟩
    · intro o ho
      rcases List.mem_cons.mp ho with rfl | ho
      · rw [l1']
        simp
      · exact g2 o ho
    · intro r c
      rw [g3, l3.1, List.map_cons, List.sum_cons]
      simp only [l1', Option.map_some, Option.getD_some]
      rw [add_assoc]
      rfl
    · intro c
      exact ⟨(g4 c).1.trans (l3.2 c).1, (g4 c).2.trans (l3.2 c).2⟩

/-! ### C86 -/

/-- While erosion does not reach bedrock, the surface is the sum of the deposits. -/
theorem surface_eq_sum (l : List K) (h : ∀ k ≤ l.length, 0 ≤ (l.take k).sum) :
    surface l = l.sum := by
  induction l using List.reverseRecOn with
  | nil => rfl
  | append_singleton l a ih =>
    rw [surface_append, ih]
    · rw [List.sum_append, List.sum_singleton]
      have := h (l ++ [a]).length le_rfl
      rw [List.take_length, List.sum_append, List.sum_singleton] at this
      exact max_eq_right this
    · intro k hk
      have := h k (by rw [List.length_append]; omega)
      rwa [List.take_append_of_le_length hk] at this

/-- C86, partial: in a run of a fresh `SequenceModel` in which a cell stays under water, its sand
fraction does not change and erosion does not reach bedrock, the change of the load is the weight of
the change of the sediment. -/
theorem load_of_sediment_partial {start : K} {setTime : K → σ → σ} {p : σ} {w : World R C K}
    (hempty : w.layers = EventLayers.empty) {s s' : ModelState σ R C K}
    (hi : modelInit start setTime p w = .ok s) (comps : List (Component σ R C K))
    (porosity : σ → K) (hk : ∀ c ∈ comps, Keeps c World.layers)
    (hk' : ∀ c ∈ comps, Keeps c World.sedLoad)
    (obs : List (Observation σ R C K)) (h : ModelHistory comps porosity s obs s')
    (load : NodeField R C K) (hload : w.sedLoad = some load) (c : Cell R C) (f : K)
    (hsand : ∀ o ∈ obs, ∀ g, o.world.sand = some g → g (nodeAtCell c) = f)
    (hwet : ∀ o ∈ obs, o.world.topo (nodeAtCell c) ≤ o.world.seaLevel ∧
      o.world.topo (nodeAtCell c) + o.world.deposit (nodeAtCell c) ≤ o.world.seaLevel)
    (hrock : ∀ k ≤ obs.length,
      0 ≤ 100 + ((obs.take k).map fun o => o.world.deposit (nodeAtCell c)).sum) :
    ∃ load', s'.world.sedLoad = some load' ∧ load' (nodeAtCell c) = load (nodeAtCell c) +
      1/2 * (2650 * f + 2720 * (1 - f) + 1030) * ((s'.world.layers.dz c).sum - 100) := by
  have hs : s.world.sedLoad = some load := by
    unfold modelInit at hi
    cases h1 : w.rowShore with
    | none => rw [h1] at hi; cases hi
    | some a =>
      cases h2 : w.rowShelf with
      | none => rw [h1, h2] at hi; cases hi
      | some b =>
        rw [h1, h2] at hi
        dsimp only at hi
        split at hi
        · cases hi
        · cases hi
          dsimp only
          split <;> exact hload
  obtain ⟨load', g1, g2, g3, -⟩ := sediment_load_sum comps porosity hk' s s' obs h load hs
  refine ⟨load', g1, ?_⟩
  have hthick := model_thickness hempty hi comps porosity hk obs h c
  rw [surface_eq_sum] at hthick
  · have hnode : nodeAtCell c = (⟨c.1.val + 1, by omega⟩, ⟨c.2.val + 1, by omega⟩) := rfl
    rw [hnode] at hsand hwet hthick ⊢
    rw [g3, hthick, List.sum_cons]
    congr 1
    have hsum : ∀ l : List (Observation σ R C K), (∀ o ∈ l, o ∈ obs) →
        (l.map fun o => (o.world.sand.map fun f => stepWeight o.world f c.1
          ⟨c.2.val + 1, by omega⟩).getD 0).sum =
        1/2 * (2650 * f + 2720 * (1 - f) + 1030) * (l.map fun o =>
          o.world.deposit (⟨c.1.val + 1, by omega⟩, ⟨c.2.val + 1, by omega⟩)).sum := by
      intro l
      induction l with
      | nil => intro _; simp
      | cons o l ih =>
        intro hl
        rw [List.map_cons, List.sum_cons, ih fun o' ho' => hl o' (List.mem_cons_of_mem _ ho'),
          List.map_cons, List.sum_cons]
        have ho := hl o (by simp)
        obtain ⟨g, hg⟩ := Option.ne_none_iff_exists'.mp (g2 o ho)
        obtain ⟨w1, w2⟩ := hwet o ho
        rw [hg, Option.map_some, Option.getD_some]
        unfold stepWeight depositWeight
        rw [hsand o ho g hg, min_eq_left (by linarith), min_eq_left (by linarith)]
        ring
    rw [hsum obs fun _ h => h]
    ring
  · intro k hk
    cases k with
    | zero => simp
    | succ k =>
      rw [List.take_succ_cons, List.sum_cons, ← List.map_take]
      exact hrock k (by simpa using hk)

/-- C86 is false: a step that erodes 200 m takes the weight of 200 m from the load of a cell with
100 m of sediment. -/
theorem load_below_bedrock :
    (exStep [exErode]).toOption.map (fun s => ((s.world.layers.dz (0, 0)).sum,
      s.world.sedLoad.map fun f => f (1, 1))) =
      some (0, some (1/2 * (2650 * (1/4) + 2720 * (3/4) + 1030) * (-200) : ℚ)) := by
  decide +kernel

/-- C85: 2 m on a surface 5 m below sea level. -/
example : (exStep [exComp]).toOption.map (fun s => s.world.sedLoad.map fun f => (f (1, 1), f (0, 1))) =
    some (some (1/2 * (2650 * (1/4) + 2720 * (3/4) + 1030) * 2, (0 : ℚ))) := by decide +kernel

/-- C85, across sea level: 4 m on a surface 1 m below. -/
example : depositWeight 4 (-1) (1 : ℚ) = 3 * 1325 + 1 * (1325 + 515) := by decide +kernel

/-- The steps of the examples are histories in the sense of the theorems. -/
example : ∃ s s' obs, ModelHistory [exComp] (fun _ => 1/2) s obs s' ∧ obs.length = 1 ∧
    (∃ load, s.world.sedLoad = some load) ∧ ∀ c ∈ [exComp], Keeps c World.sedLoad := by
  obtain ⟨s, hs, -⟩ := exWorld_start
  have hsed : exModel.toOption.map (fun s => s.world.sedLoad.isSome) = some true := by decide +kernel
  have hstep : (exStep [exComp]).toOption.map (fun _ => ()) = some () := by decide +kernel
  unfold exStep at hstep
  rw [hs] at hstep hsed
  dsimp only at hstep
  cases ha : advanceComponents [exComp] (fun _ => 1/2) 100 100 s with
  | error e => rw [ha] at hstep; cases hstep
  | ok s' =>
    refine ⟨s, s', _, .step (hc := rfl) ha (.nil _), rfl, ?_, ?_⟩
    · exact Option.isSome_iff_exists.mp (Option.some.inj hsed)
    · intro c hc dt p w p' w' h
      simp only [List.mem_singleton] at hc
      subst hc
      cases h
      rfl

end Verif.Props
