import Mathlib.Algebra.Order.Field.Basic
import Verif.Model.Err

/-!
# How long the components took

`SequenceModel.timer` and the report of `sequence --verbose run`.
-/

set_option autoImplicit false

namespace Verif

variable {K : Type*} [Field K]

/-- `timer[name] += duration` for a `defaultdict(float)`, whose items are in the order in which they
were made. -/
def addDuration (name : String) (d : K) : List (String × K) → List (String × K)
  | [] => [(name, 0 + d)]
  | (n, v) :: rest => if n = name then (n, v + d) :: rest else (n, v) :: addDuration name d rest

/-- The loop over the components (`/repo/sequence/sequence_model.py:323-326`), step after step:
which component ran and what `time.time()` (external) gave before and after. -/
def timers (timer : List (String × K)) : List (String × K × K) → List (String × K)
  | [] => timer
  | (name, before, after) :: rest => timers (addDuration name (after - before) timer) rest

/-- The readings of `steps` steps with the components `names`; `clock k` is the `k`-th reading. -/
def readings (clock : ℕ → K) : List String → ℕ → List (String × K × K)
  | [], _ => []
  | name :: names, k => (name, clock k, clock (k + 1)) :: readings clock names (k + 2)

/-- All steps of a run. -/
def runReadings (clock : ℕ → K) (names : List String) (steps : ℕ) : List (String × K × K) :=
  readings clock (List.replicate steps names).flatten 0

/-- Insertion into a sorted list, after the equal ones (python's sort is stable). -/
def insertTimed [LinearOrder K] (x : String × K) : List (String × K) → List (String × K)
  | [] => [x]
  | y :: ys => if x.2 < y.2 then x :: y :: ys else y :: insertTimed x ys

/-- `sorted(timer.items(), key=lambda v: v[1])`. -/
def sortTimed [LinearOrder K] (timer : List (String × K)) : List (String × K) :=
  timer.foldl (fun acc x => insertTimed x acc) []

/-- The report of `sequence --verbose run` (`/repo/sequence/cli.py:314-321`): the name of each
component, its share in percent and its seconds, both rounded to two digits by python (`round2`,
external). Division by zero raises. -/
def timingReport [LinearOrder K] (round2 : K → K) (timer : List (String × K)) :
    Except Err (List (String × K × K)) :=
  let total := (timer.map Prod.snd).sum
  (sortTimed timer).mapM fun p =>
    if total = 0 then .error .zeroDivision
    else .ok (p.1, round2 (p.2 / total * 100), round2 p.2)

end Verif
