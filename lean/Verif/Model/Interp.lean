import Mathlib.Algebra.Order.Field.Basic
import Verif.Model.Err

/-!
# Tabulated curves

The components read two-column files with `np.loadtxt` and interpolate them with scipy's
`interp1d`. Both are external; `interp1d(kind="linear", assume_sorted=True, bounds_error=True)` is
written out here, the reading of the file is not modelled.
-/

set_option autoImplicit false

namespace Verif

variable {K : Type*} [Field K] [LinearOrder K]

/-- A curve that can be evaluated at a point, or raises. Any `kind` of interpolation is one. -/
abbrev Curve (K : Type*) := K → Except Err K

/-- scipy's `interp1d._call_linear` (external) for an abscissa inside the range: the first
interval whose right end is not to the left of `x` (`searchsorted`, clipped to the intervals). -/
def linearAt : List (K × K) → K → K
  | p :: q :: rest, x =>
    if x ≤ q.1 ∨ rest = [] then (q.2 - p.2) / (q.1 - p.1) * (x - p.1) + p.2
    else linearAt (q :: rest) x
  | [p], _ => p.2
  | [], _ => 0

/-- scipy's `interp1d.__call__` (external) with `bounds_error=True`. -/
def interpTable (table : List (K × K)) : Curve K := fun x =>
  match table.head?, table.getLast? with
  | some p, some q => if x < p.1 ∨ q.1 < x then .error .valueError else .ok (linearAt table x)
  | _, _ => .error .indexError

/-- `interp1d(data[:, 0], data[:, 1], ...)` on the data read by `np.loadtxt`
(`/repo/sequence/sea_level.py:83-90`, `/repo/sequence/subsidence.py:75-82`,
`/repo/sequence/bathymetry.py:58-65`). A file of one line gives a one-dimensional array, whose
subscript `data[:, 0]` raises `IndexError`; so does an empty file. -/
def tableCurve (table : List (K × K)) : Except Err (Curve K) :=
  if table.length < 2 then .error .indexError else .ok (interpTable table)

/-- A curve evaluated at an array of points: one point out of range makes the whole evaluation
fail. -/
def Curve.atColumns {C : ℕ} (f : Curve K) (xs : Fin C → K) : Except Err (Fin C → K) :=
  match (List.ofFn xs).findSome? (fun x => match f x with
    | .error e => some e
    | .ok _ => none) with
  | some e => .error e
  | none => .ok fun c => match f (xs c) with
    | .ok v => v
    | .error _ => 0

end Verif
