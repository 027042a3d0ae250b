import Mathlib.Algebra.Order.Floor.Ring
import Mathlib.Algebra.Order.Field.Basic
import Mathlib.Tactic.TypeStar
import Verif.Model.Err

/-!
# Clocks and run loops

The worlds `W` and what the components do to them are parameters here; the drivers in
`Verif.Model.Driver` supply them.
-/

set_option autoImplicit false

namespace Verif

variable {K W : Type*}

/-- landlab's `TimeStepper` (external; constructed at `/repo/sequence/sequence_model.py:118`). -/
structure Clock (K : Type*) where
  start : K
  stop : Option K
  step : K
  time : K
  deriving DecidableEq, Repr

/-- `TimeStepper(start, stop, step)`. -/
def Clock.init (start : K) (stop : Option K) (step : K) : Clock K := ⟨start, stop, step, start⟩

/-- landlab's `TimeStepper.advance` (external): the time is advanced first, then `StopIteration`
is raised if it is past the end. -/
def Clock.advance [Add K] [LT K] [DecidableLT K] (c : Clock K) : Clock K × Except Err Unit :=
  let c' := { c with time := c.time + c.step }
  match c.stop with
  | none => (c', .ok ())
  | some stop => if stop < c'.time then (c', .error .stopIteration) else (c', .ok ())

/-- `dt or self.clock.step` (`/repo/sequence/sequence_model.py:301`): 0 counts as not given. -/
def effectiveStep [Zero K] [DecidableEq K] (step : K) : Option K → K
  | none => step
  | some dt => if dt = 0 then step else dt

/-- `SequenceModel.run_one_step` (`/repo/sequence/sequence_model.py:299-305`). `advance time dt w`
is `advance_components(dt)` when the clock shows `time`. Assigning `clock.dt` has no effect on
landlab's clock. -/
def runOneStep [Zero K] [DecidableEq K] [Add K] [LT K] [DecidableLT K]
    (advance : K → K → W → Except Err W) (c : Clock K) (w : W) (dt : Option K) :
    Clock K × Except Err W :=
  match c.advance with
  | (c', .error e) => (c', .error e)
  | (c', .ok _) => (c', advance c'.time (effectiveStep c.step dt) w)

/-- A history of `run_one_step` calls. -/
def runSteps [Zero K] [DecidableEq K] [Add K] [LT K] [DecidableLT K]
    (advance : K → K → W → Except Err W) (c : Clock K) (w : W) :
    List (Option K) → Clock K × Except Err W
  | [] => (c, .ok w)
  | dt :: dts =>
    match runOneStep advance c w dt with
    | (c', .error e) => (c', .error e)
    | (c', .ok w') => runSteps advance c' w' dts

/-- `SequenceModel.run` (`/repo/sequence/sequence_model.py:307-311`) for at most `fuel` rounds of
the loop; `none` if it is still running. `StopIteration` ends the loop. -/
def runLoop [Zero K] [DecidableEq K] [Add K] [LT K] [DecidableLT K]
    (advance : K → K → W → Except Err W) :
    ℕ → Clock K → W → Option (Clock K × Except Err W)
  | 0, _, _ => none
  | fuel + 1, c, w =>
    match runOneStep advance c w none with
    | (c', .error .stopIteration) => some (c', .ok w)
    | (c', .error e) => some (c', .error e)
    | (c', .ok w') => runLoop advance fuel c' w'

/-- The loop of `sequence run` (`/repo/sequence/cli.py:308-312`) for at most `fuel` rounds: a step,
then `setParams` for `model.set_params(params.update(1))`. -/
def cliLoop [Zero K] [DecidableEq K] [Add K] [LT K] [DecidableLT K]
    (advance : K → K → W → Except Err W) (setParams : W → Except Err W) :
    ℕ → Clock K → W → Option (Clock K × Except Err W)
  | 0, _, _ => none
  | fuel + 1, c, w =>
    match runOneStep advance c w none with
    | (c', .error .stopIteration) => some (c', .ok w)
    | (c', .error e) => some (c', .error e)
    | (c', .ok w') =>
      match setParams w' with
      | .error .stopIteration => some (c', .ok w')
      | .error e => some (c', .error e)
      | .ok w'' => cliLoop advance setParams fuel c' w''

/-- The loop of `Sequence.run` (`/repo/sequence/sequence.py:162-163`). `update dt time w` is what
`update(dt)` does to the world; `time` is the time after the step. -/
def seqLoop [Add K] [Sub K] [Min K] (update : K → K → W → Except Err W) (dt target : K) :
    ℕ → K → W → Except Err (K × W)
  | 0, time, w => .ok (time, w)
  | n + 1, time, w =>
    let d := min dt (target - time)
    match update d (time + d) w with
    | .error e => .error e
    | .ok w' => seqLoop update dt target n (time + d) w'

/-- `Sequence.run(until, dt)` (`/repo/sequence/sequence.py:137-163`). A step of zero raises
`ZeroDivisionError`. -/
def seqRun [Field K] [LinearOrder K] [FloorRing K] (update : K → K → W → Except Err W)
    (timeStep : K) (time : K) (w : W) (target dt : Option K) : Except Err (K × W) :=
  let dt := dt.getD timeStep
  let target := target.getD (time + timeStep)
  if dt = 0 then .error .zeroDivision
  else
    let n := ⌊(target - time) / dt⌋
    let n := if 0 < (target - time) - dt * n then n + 1 else n
    seqLoop update dt target n.toNat time w

end Verif
