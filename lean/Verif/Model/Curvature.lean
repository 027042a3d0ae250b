import Verif.Model.Shoreline

/-!
# The shelf edge by curvature

`find_shelf_edge_by_curvature` of `/repo/sequence/shoreline.py`.
-/

set_option autoImplicit false

namespace Verif

variable {K : Type*} [Field K] [LinearOrder K]

/-- `np.gradient(z, x)` (external) at position `i` of arrays of length `n`, at least two: at the
ends the slope of the first and last pair, inside the slope of the parabola through three points.
Numpy uses a shorter formula for equal spacings, which has the same value. -/
def gradientAt (n : ℕ) (x z : ℕ → K) (i : ℕ) : K :=
  if i = 0 then (z 1 - z 0) / (x 1 - x 0)
  else if i + 1 = n then (z i - z (i - 1)) / (x i - x (i - 1))
  else
    let h := x i - x (i - 1)
    let k := x (i + 1) - x i;
    (-k / (h * (h + k))) * z (i - 1) + (k - h) / (h * k) * z i + h / (k * (h + k)) * z (i + 1)

/-- `np.gradient(np.gradient(z, x), x)` -/
def curvatureAt (n : ℕ) (x z : ℕ → K) (i : ℕ) : K := gradientAt n x (gradientAt n x z) i

/-- `np.argmin` (external): the first position of the smallest element. -/
def argmin (l : List K) : Except Err ℕ := argmax (l.map fun v => -v)

/-- `find_shelf_edge_by_curvature` (`/repo/sequence/shoreline.py:146-179`). `np.gradient` raises
`ValueError` for arrays of different lengths and for fewer than two values. Equal `x`, where it gives
infinities or NaN, are not modelled. The sea level is not used. -/
def shelfEdgeByCurvature (x z : List K) (_seaLevel : K) : Except Err K :=
  if z.length ≠ x.length ∨ x.length < 2 then .error .valueError
  else
    match argmin ((List.range x.length).map
      (curvatureAt x.length (fun i => x.getD i 0) fun i => z.getD i 0)) with
    | .error e => .error e
    | .ok i =>
      match x[i]? with
      | some v => .ok v
      | none => .error .indexError

end Verif
