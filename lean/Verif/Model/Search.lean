import Mathlib.Tactic.TypeStar

/-!
# Binary search

`numpy.searchsorted(side="right")` and python's `bisect.bisect` (both external) run the same
loop; it is written out here because the callers do not check that the list is sorted.
-/

set_option autoImplicit false

namespace Verif

variable {α : Type*} [LT α] [DecidableLT α] [Inhabited α]

/-- The loop of `bisect_right` on `xs[lo:hi]`, with fuel (`fuel ≥ hi - lo` is enough). -/
def bisectLoop (xs : List α) (v : α) : Nat → Nat → Nat → Nat
  | 0, lo, _ => lo
  | fuel + 1, lo, hi =>
    if lo < hi then
      let mid := (lo + hi) / 2
      if v < xs.getD mid default then bisectLoop xs v fuel lo mid
      else bisectLoop xs v fuel (mid + 1) hi
    else lo

/-- `np.searchsorted(xs, v, side="right")` (used at `/repo/sequence/input_reader.py:121`) and
`bisect.bisect(xs, v)` (used at `/repo/sequence/shoreline.py:224`). -/
def bisectRight (xs : List α) (v : α) : Nat := bisectLoop xs v xs.length 0 xs.length

end Verif
