import Verif.Props.Clock
import Verif.Model.Driver
import Verif.Lemmas.Archive

/-!
# Running a `SequenceModel` in parts (C154)
-/

set_option autoImplicit false
set_option linter.unusedSectionVars false

namespace Verif.Props

open Verif

variable {K W : Type*} [Field K] [LinearOrder K] [IsStrictOrderedRing K]

/-- The clock after `advance`, which moves whatever the outcome. -/
theorem clockAdvance_eq (c : Clock K) :
    c.advance = ({ c with time := c.time + c.step },
      match c.stop with
      | none => .ok ()
      | some stop => if stop < c.time + c.step then .error .stopIteration else .ok ()) := by
  unfold Clock.advance
  cases h : c.stop with
  | none => rfl
  | some stop =>
    dsimp only
    split_ifs <;> rfl

/-- C154: `run_one_step` moves the clock by its step whatever happens: also if a component raises, and
if the end has been reached. -/
theorem clock_moves_anyway (advance : K → K → W → Except Err W) (c : Clock K) (w : W)
    (dt : Option K) :
    (runOneStep advance c w dt).1 = { c with time := c.time + c.step } := by
  unfold runOneStep
  rw [clockAdvance_eq]
  cases h : c.stop with
  | none => rfl
  | some stop =>
    dsimp only
    split_ifs <;> rfl

/-- C154: steps that are taken one at a time and then a run are a run. Together with the rounds of the
first steps the loop ends exactly if the loop of the second part ends, with the same clock, exception
and model. -/
theorem steps_then_run {advance : K → K → W → Except Err W} {n : ℕ} {c c' : Clock K} {w w' : W}
    (h : runSteps advance c w (List.replicate n none) = (c', .ok w')) (fuel : ℕ) :
    runLoop advance (n + fuel) c w = runLoop advance fuel c' w' := by
  induction n generalizing c w with
  | zero =>
    simp only [List.replicate_zero, runSteps, Prod.mk.injEq, Except.ok.injEq] at h
    obtain ⟨rfl, rfl⟩ := h
    rw [Nat.zero_add]
  | succ n ih =>
    rw [List.replicate_succ, runSteps] at h
    rw [Nat.add_right_comm, runLoop]
    cases h1 : runOneStep advance c w none with
    | mk c1 r =>
      rw [h1] at h
      cases r with
      | error e => cases h
      | ok w1 => exact ih h

/-- C154: if one of the first steps raises, the run raises the same, at the same time. -/
theorem steps_raise_as_run {advance : K → K → W → Except Err W} {n : ℕ} {c c' : Clock K} {w : W}
    {e : Err} (he : e ≠ .stopIteration)
    (h : runSteps advance c w (List.replicate n none) = (c', .error e)) (fuel : ℕ) :
    runLoop advance (n + fuel) c w = some (c', .error e) := by
  induction n generalizing c w with
  | zero => simp [runSteps] at h
  | succ n ih =>
    rw [List.replicate_succ, runSteps] at h
    rw [Nat.add_right_comm, runLoop]
    cases h1 : runOneStep advance c w none with
    | mk c1 r =>
      rw [h1] at h
      cases r with
      | error e1 =>
        cases h
        cases e <;> first | rfl | exact absurd rfl he
      | ok w1 => exact ih h

/-- A run that ends has gone past the end of its clock, if no component raises `StopIteration`. -/
theorem run_ends_past {advance : K → K → W → Except Err W}
    (hq : ∀ t d w, advance t d w ≠ .error .stopIteration) {fuel : ℕ} {c c' : Clock K} {w w' : W}
    (h : runLoop advance fuel c w = some (c', .ok w')) :
    ∃ stop, c'.stop = some stop ∧ stop < c'.time ∧ c'.step = c.step ∧ c'.stop = c.stop := by
  induction fuel generalizing c w with
  | zero => cases h
  | succ fuel ih =>
    rw [runLoop] at h
    have hm := clock_moves_anyway advance c w none
    cases h1 : runOneStep advance c w none with
    | mk c1 r =>
      rw [h1] at h hm
      dsimp only at hm
      cases r with
      | ok w1 =>
        obtain ⟨stop, a1, a2, a3, a4⟩ := ih h
        rw [hm] at a3 a4
        exact ⟨stop, a1, a2, a3, a4⟩
      | error e =>
        have hs : e = .stopIteration := by
          cases e <;> first | rfl | cases h
        subst hs
        simp only [Option.some.injEq, Prod.mk.injEq] at h
        obtain ⟨rfl, -⟩ := h
        unfold runOneStep at h1
        rw [clockAdvance_eq] at h1
        cases hst : c.stop with
        | none =>
          rw [hst] at h1
          simp only [Prod.mk.injEq] at h1
          exact absurd h1.2 (hq _ _ _)
        | some stop =>
          rw [hst] at h1
          dsimp only at h1
          split_ifs at h1 with hlt
          · refine ⟨stop, by rw [hm]; exact hst, by rw [hm]; exact hlt, by rw [hm], by
              rw [hm]; first | rfl | exact hst⟩
          · simp only [Prod.mk.injEq] at h1
            exact absurd h1.2 (hq _ _ _)

/-- The drivers themselves do not raise `StopIteration`: if no component of a model does, neither does
a step of the model but at the end of the clock. -/
theorem model_quiet {σ : Type*} {R C : ℕ} {comps : List (Component σ R C K)}
    (hc : ∀ dt p, runComponents comps dt p ≠ .error .stopIteration) (porosity : σ → K) (time dt : K)
    (s : ModelState σ R C K) :
    advanceComponents comps porosity time dt s ≠ .error .stopIteration := by
  intro h
  unfold advanceComponents at h
  split at h
  · rename_i e he
    cases h
    exact hc _ _ he
  · split at h
    · rename_i e he
      cases h
      rw [add_def] at he
      split_ifs at he
      injection he with he
      cases he
    · split at h
      · rename_i e he
        cases h
        unfold updateFields updateSedLoad at he
        split at he
        · rename_i e1 he1
          split at he1
          · cases he1
          · split at he1 <;> cases he1
            cases he
        · cases he
      · split at h
        · rename_i e he
          cases h
          unfold Archive.archiveOld EventLayers.reduce at he
          split_ifs at he
          all_goals first | cases he | (split at he <;> cases he)
        · cases h

/-- C154 (partial): a model that has been run to its end stays as it is: every further `run()` leaves
it alone, and every further `run_one_step` raises `StopIteration`. Missing: its clock, which
moves on every time (`clock_runs_on`). -/
theorem run_again_partial {advance : K → K → W → Except Err W}
    (hq : ∀ t d w, advance t d w ≠ .error .stopIteration) {fuel : ℕ} {c c' : Clock K} {w w' : W}
    (hstep : 0 ≤ c.step) (h : runLoop advance fuel c w = some (c', .ok w')) (n : ℕ) (dt : Option K)
    (fuel' : ℕ) :
    let later : Clock K := { c' with time := c'.time + n * c'.step }
    runLoop advance (fuel' + 1) later w' = some ({ later with time := later.time + later.step },
      .ok w') ∧
    runOneStep advance later w' dt = ({ later with time := later.time + later.step },
      .error .stopIteration) := by
  obtain ⟨stop, h1, h2, h3, -⟩ := run_ends_past hq h
  intro later
  have hone : ∀ d, runOneStep advance later w' d = ({ later with time := later.time + later.step },
      .error .stopIteration) := by
    intro d
    unfold runOneStep
    rw [clockAdvance_eq]
    have hs : later.stop = some stop := h1
    rw [hs]
    have hlt : stop < later.time + later.step := by
      have : (0 : K) ≤ n * c'.step := by rw [h3]; positivity
      have h0 : 0 ≤ c'.step := by rw [h3]; exact hstep
      show stop < c'.time + n * c'.step + c'.step
      linarith
    dsimp only
    rw [if_pos hlt]
  refine ⟨?_, hone dt⟩
  rw [runLoop, hone none]

/-- C154, negation: a clock that is to end at 30 after a run shows 40, and 50 after another one, though
the model has taken three steps. And a step that raises and is repeated counts twice: 20, after one
step. -/
theorem clock_runs_on :
    (runLoop (fun t (_ : ℚ) w => .ok (w ++ [t])) 10 (Clock.init 0 (some 30) 10) []) =
      some (⟨0, some 30, 10, 40⟩, .ok [10, 20, 30]) ∧
    (runLoop (fun t (_ : ℚ) w => .ok (w ++ [t])) 10 ⟨0, some 30, 10, 40⟩ [10, 20, 30]) =
      some (⟨0, some 30, 10, 50⟩, .ok [10, 20, 30]) ∧
    (runOneStep (fun t (_ : ℚ) (w : List ℚ) => if t = 10 then .error .valueError else .ok (w ++ [t]))
      (Clock.init 0 (some 30) 10) [] none) = (⟨0, some 30, 10, 10⟩, .error .valueError) ∧
    (runOneStep (fun t (_ : ℚ) (w : List ℚ) => if t = 10 then .error .valueError else .ok (w ++ [t]))
      ⟨0, some 30, 10, 10⟩ [] none) = (⟨0, some 30, 10, 20⟩, .ok [20]) := by
  decide +kernel

/-- C154 needs components that do not raise `StopIteration`: `run` takes it for the end of the run. -/
theorem stop_of_component_hidden (e : Err) (w : W) (c : Clock K) (hc : c.stop = none) (fuel : ℕ) :
    runLoop (fun _ _ _ => .error e) (fuel + 1) c w =
      some ({ c with time := c.time + c.step }, if e = .stopIteration then .ok w else .error e) := by
  rw [runLoop]
  unfold runOneStep
  rw [clockAdvance_eq, hc]
  cases e <;> simp

/-- Two steps one at a time and then the third. -/
example : runSteps (fun t (_ : ℚ) w => .ok (w ++ [t])) (Clock.init 0 (some 30) 10) []
      (List.replicate 2 none) = (⟨0, some 30, 10, 20⟩, .ok [10, 20]) ∧
    runLoop (fun t (_ : ℚ) w => .ok (w ++ [t])) 2 ⟨0, some 30, 10, 20⟩ [10, 20] =
      some (⟨0, some 30, 10, 40⟩, .ok [10, 20, 30]) := by
  decide +kernel

end Verif.Props
