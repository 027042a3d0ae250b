import Verif.Model.Interp

/-!
# Plotting layers

The data that `/repo/sequence/plot.py` hands to matplotlib. Drawing itself is external.
-/

set_option autoImplicit false

namespace Verif

variable {K : Type*}

/-- `l[a:b]` for `0 ≤ a`, `0 ≤ b`. -/
def sliceUp {α : Type*} (a b : ℕ) (l : List α) : List α := (l.take b).drop a

/-- `l[a:b:-1]` for `0 ≤ a`, `0 ≤ b`. -/
def sliceDown {α : Type*} (a b : ℕ) (l : List α) : List α := ((l.take (a + 1)).drop (b + 1)).reverse

/-- `l[::step]` for `step` 1 or -1. -/
def stepped {α : Type*} (down : Bool) (l : List α) : List α := if down then l.reverse else l

/-- `_get_layers_to_plot` (`/repo/sequence/plot.py:295-301`): `None`, or start, stop and step of a
slice. The quotient is a float that is truncated; it is taken to be exact here, which it is for
numbers below 2⁵³ up to the rounding of a division of integers. -/
def layersToPlot (start stop num : ℤ) : Except Err (Option (ℤ × ℤ × ℤ)) :=
  if num = 0 then .ok none
  else
    let num := if num < 0 ∨ num > stop - start + 1 then stop - start + 1 else num
    if num = 0 then .error .zeroDivision
    else .ok (some (start, stop, (stop - start + 1).tdiv num))

section
variable [Field K] [LinearOrder K]

/-- `interp1d((a, b), (0.0, 1.0))(v)` (scipy, external; it sorts the abscissas). Division by zero
would be a NaN; it cannot happen if `a ≠ b`. -/
def interpUnit (a b : K) : Curve K :=
  if a ≤ b then interpTable [(a, 0), (b, 1)] else interpTable [(b, 1), (a, 0)]

/-- `_interp_between_layers` (`/repo/sequence/plot.py:396-414`). -/
def interpBetween (x yBottom yTop : List K) : Except Err (List K) :=
  if ¬ (yTop.length = yBottom.length ∧ yBottom.length = x.length) then .error .assertion
  else
    match x.head?, x.getLast? with
    | some a, some b =>
      if x.length = 1 then .ok yBottom
      else
        match x.mapM (interpUnit a b) with
        | .error e => .error e
        | .ok f => .ok (List.zipWith (fun y dy => y + dy) yBottom
            (List.zipWith (fun d f => d * f) (List.zipWith (fun t b => t - b) yTop yBottom) f))
    | _, _ => .ok []

/-- `_outline_layer` (`/repo/sequence/plot.py:330-393`). The limits are indices from
`np.searchsorted`, so not negative. -/
def outlineLayer (x yBottom yTop : List K) (bottom top : Option (Option ℕ × Option ℕ)) :
    Except Err (List K × List K) :=
  let bottom := bottom.getD (none, none)
  let top := top.getD (none, none)
  let b0 := bottom.1.getD 0
  let b1 := bottom.2.getD (x.length - 1)
  let t0 := top.1.getD 0
  let t1 := top.2.getD (x.length - 1)
  let xTop := sliceDown t1 t0 x
  let ys := sliceDown t1 t0 yTop
  let xBottom := sliceUp b0 b1 x
  let yb := sliceUp b0 b1 yBottom
  let leftDown := decide (t0 > b0)
  let left {α : Type _} (l : List α) : List α :=
    stepped leftDown (if t0 > b0 then sliceUp b0 (t0 + 1) l else sliceUp t0 (b0 + 1) l)
  match interpBetween (left x) (left yTop) (left yBottom) with
  | .error e => .error e
  | .ok yLeft =>
    let rightDown := decide (b1 > t1)
    let right {α : Type _} (l : List α) : List α :=
      stepped rightDown (if b1 > t1 then sliceUp t1 (b1 + 1) l else sliceUp b1 (t1 + 1) l)
    match interpBetween (right x) (right yBottom) (right yTop) with
    | .error e => .error e
    | .ok yRight =>
      .ok (xTop ++ (left x).dropLast ++ xBottom ++ (right x).dropLast,
        ys ++ yLeft.dropLast ++ yb ++ yRight.dropLast)

/-- `np.searchsorted(x, v)` of ascending `x` (numpy, external); NaN, here `none`, is sorted behind
all numbers. -/
def searchSorted (x : List K) (v : Option K) : ℕ :=
  match v with
  | none => x.length
  | some v => (x.takeWhile fun a => decide (a < v)).length

/-- `_fill_between_layers` (`/repo/sequence/plot.py:304-327`): the polygons that are filled. -/
def fillBetween (x : List K) (y : List (List K)) (lower upper : Option (List ℕ)) :
    Except Err (List (List K × List K)) :=
  let lower := lower.getD (List.replicate y.length 0)
  let upper := upper.getD (List.replicate y.length (x.length - 1))
  (List.range (y.length - 1)).mapM fun k =>
    match y[k]?, y[k + 1]?, lower[k]?, upper[k]?, lower[k + 1]?, upper[k + 1]? with
    | some yb, some yt, some lb, some ub, some lt, some ut =>
      outlineLayer x yb yt (some (some lb, some ub)) (some (some lt, some ut))
    | _, _, _, _, _, _ => .error .indexError

/-- The colours, `false` for none. -/
structure PlotColors where
  water : Bool := true
  land : Bool := true
  shoreface : Bool := true
  shelf : Bool := true

/-- What is drawn. -/
structure Drawing (K : Type*) where
  /-- the arguments of `fill_between`: columns, bottom and level -/
  waterFill : Option (List K × List K × K)
  /-- the line of the water surface: from, to and level -/
  waterLine : Option (K × K × K)
  land : List (List K × List K)
  shoreface : List (List K × List K)
  shelf : List (List K × List K)
  /-- start, stop and step of the layers that are drawn as lines -/
  lines : Option (ℤ × ℤ × ℤ)
  /-- the topmost surface, always drawn -/
  top : List K
  xlim : K × K

/-- A list of polygons, if wanted. -/
def wanted {α : Type*} (b : Bool) (l : Except Err (List α)) : Except Err (List α) :=
  if b then l else .ok []

/-- `plot_layers` (`/repo/sequence/plot.py:20-174`) on `y`, an array of layers with `cols`
columns. The mask `water` has to fit the columns (105). Titles, labels and the legend are left
out. -/
def plotLayers (colors : PlotColors) (start stop num : ℤ) (cols : ℕ) (y : List (List K))
    (x : Option (List K)) (shore shelf : Option (List (Option K))) : Except Err (Drawing K) :=
  let x := x.getD ((List.range cols).map fun (i : ℕ) => (i : K))
  let shore := shore.getD (List.replicate y.length (some 0))
  let shelf := shelf.getD (List.replicate y.length (some 0))
  let stackOfShore := shore.map (searchSorted x)
  let stackOfShelf := shelf.map (searchSorted x)
  match shore.getLast?, y.getLast? with
  | some s, some topLayer =>
    let water := (x.zip topLayer).filter fun p => match s with
      | some s => decide (s < p.1)
      | none => false
    let stop := if stop < 0 then y.length + stop + 1 else stop
    if x.length ≠ cols then .error .indexError else
    match layersToPlot start stop num with
    | .error e => .error e
    | .ok lines =>
      match wanted colors.land (fillBetween x y none (some stackOfShore)),
        wanted colors.shoreface (fillBetween x y (some stackOfShore) (some stackOfShelf)),
        wanted colors.shelf (fillBetween x y (some stackOfShelf) none) with
      | .ok land, .ok shoreface, .ok shelf =>
        match x.head?, x.getLast? with
        | some x0, some x1 =>
          .ok {
            waterFill := if colors.water then
              water.head?.map fun p => (water.map (·.1), water.map (·.2), p.2) else none
            waterLine := water.head?.bind fun p => water.getLast?.map fun q => (p.1, q.1, p.2)
            land := land
            shoreface := shoreface
            shelf := shelf
            lines := lines
            top := topLayer
            xlim := (x0, x1) }
        | _, _ => .error .indexError
      | .error e, _, _ => .error e
      | .ok _, .error e, _ => .error e
      | .ok _, .ok _, .error e => .error e
  | _, _ => .error .indexError

end

end Verif
