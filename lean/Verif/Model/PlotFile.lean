import Mathlib.Data.List.Sort
import Verif.Model.Plot
import Verif.Model.Output
import Verif.Model.Driver

/-!
# Plots of files and grids

`plot_file` and `plot_grid` of `/repo/sequence/plot.py`: what they hand to `plot_layers`. xarray,
which opens the file, shows fill values as NaN; NaN is `none`.
-/

set_option autoImplicit false

namespace Verif

variable {K σ : Type*} {R C : ℕ}

/-- What is given to `plot_layers`. -/
@[ext] structure PlotArgs (K : Type*) where
  elevation : List (List (Option K))
  x : List (Option K)
  shore : List (Option K)
  shelf : List (Option K)
  deriving DecidableEq

/-- A Python index into `n` elements, for an index that is in range. -/
def pyIndex (n : ℕ) (i : ℤ) : ℕ := if i < 0 then (i + n).toNat else i.toNat

/-- `a.reshape((..., cols))[row, :]` of a flat array. -/
def flatRow {α : Type*} (cols row : ℕ) (l : List α) : List α := (l.drop (row * cols)).take cols

/-- All time slices of a variable, fill values as NaN; a missing variable is a `KeyError`, which
becomes `MissingRequiredVariable` (`/repo/sequence/plot.py:267-268`). -/
def timeSlices (d : Dataset K (Option K)) (loc name : String) :
    Except Err (List (List (Option K))) :=
  match d.vars (loc, name) with
  | some f => .ok ((List.range d.times.length).map fun i =>
      (f i).getD (List.replicate ((d.dims loc).getD 0) none))
  | none => .error .missingVariable

/-- All slices of a layer variable. -/
def layerSlices (d : Dataset K (Option K)) (size : ℕ) (name : String) :
    Except Err (List (List (Option K))) :=
  match d.layerVars name with
  | some f => .ok ((List.range d.layerDim).map fun k => (f k).getD (List.replicate size none))
  | none => .error .missingVariable

section
variable [Field K] [LinearOrder K]

/-- `np.cumsum(..., axis=0)` of an xarray array (external), which counts NaN as 0: the running
sums of the columns. -/
def cumsumRows (acc : List K) : List (List (Option K)) → List (List K)
  | [] => []
  | l :: ls =>
    let acc' := List.zipWith (fun a v => a + v.getD 0) acc l
    acc' :: cumsumRows acc' ls

/-- `np.interp` (external) at a point between the first and the last abscissa: the last abscissa
that is not above the point decides. -/
def npInterp : List (K × Option K) → K → Option K
  | p :: q :: rest, x =>
    if x < q.1 then
      if x = p.1 then p.2
      else match p.2, q.2 with
        | some a, some b => some ((b - a) / (q.1 - p.1) * (x - p.1) + a)
        | _, _ => none
    else npInterp (q :: rest) x
  | [p], _ => p.2
  | [], _ => none

/-- `interp1d(x, y)(v)` (scipy, external) for arrays of floats: the table is sorted, values out of
range raise `ValueError`, NaN stays NaN. -/
def interpFloats (x : List K) (y : List (Option K)) (v : Option K) : Except Err (Option K) :=
  if x.length ≠ y.length then .error .valueError
  else
    let table := (x.zip y).insertionSort fun p q => p.1 ≤ q.1
    match table.head?, table.getLast?, v with
    | some p, some q, some v =>
      if v < p.1 ∨ q.1 < v then .error .valueError else .ok (npInterp table v)
    | some _, some _, none => .ok none
    | _, _, _ => .error .valueError

/-- `interp1d(x, y)(vs)`. -/
def interpAll (x : List K) (y vs : List (Option K)) : Except Err (List (Option K)) :=
  vs.mapM (interpFloats x y)

/-- The row to plot (`/repo/sequence/plot.py:249-252`). -/
def plotRow (R : ℕ) : Option ℤ → Except Err ℤ
  | none => .ok ((R / 2 : ℕ) : ℤ)
  | some r => if (R : ℤ) ≤ r ∨ r < -(R : ℤ) then .error .invalidRow else .ok r

/-- The variables that `plot_file` needs. -/
structure FileVars (K : Type*) where
  thickness : List (List (Option K))
  shore : List (List (Option K))
  shelf : List (List (Option K))
  bedrock : List (List (Option K))
  age : List (List (Option K))

/-- Reading them (`/repo/sequence/plot.py:254-268`). -/
def fileVars (d : Dataset K (Option K)) (R C : ℕ) : Except Err (FileVars K) :=
  match layerSlices d (R * C) "thickness", timeSlices d "row" "x_of_shore",
    timeSlices d "row" "x_of_shelf_edge", timeSlices d "node" "bedrock_surface__elevation",
    layerSlices d (R * C) "age" with
  | .ok thickness, .ok shore, .ok shelf, .ok bedrock, .ok age =>
    .ok ⟨thickness, shore, shelf, bedrock, age⟩
  | _, _, _, _, _ => .error .missingVariable

/-- `bedrock[-1, row, 1:-1] + np.cumsum(thickness_at_layer, axis=0)`
(`/repo/sequence/plot.py:279-281`): the bedrock is cut into `R + 2` rows of `C + 2` nodes, and it
is these that `row` counts. -/
def fileElevation (R C : ℕ) (row : ℤ) (v : FileVars K) (last : List (Option K)) :
    List (List (Option K)) :=
  let bed := ((flatRow (C + 2) (pyIndex (R + 2) row) last).drop 1).dropLast
  (cumsumRows (List.replicate C 0) (v.thickness.map (flatRow C (pyIndex R row)))).map fun h =>
    List.zipWith (fun (b : Option K) t => b.map (· + t)) bed h

/-- `x_of_cell` of the row, or the numbers of the cells (`/repo/sequence/plot.py:270-277`). -/
def fileX (d : Dataset K (Option K)) (R C : ℕ) (row : ℤ) : List (Option K) :=
  match d.xOf "cell" with
  | some x => flatRow C (pyIndex R row) x
  | none => (List.range ((d.dims "cell").getD 0)).map fun (i : ℕ) => some (i : K)

/-- `time_at_layer[:, row, 0]` -/
def fileAges (R C : ℕ) (row : ℤ) (v : FileVars K) : List (Option K) :=
  v.age.map fun a => (flatRow C (pyIndex R row) a).headD none

/-- `x_of_shore[:, row]` -/
def rowSeries (R : ℕ) (row : ℤ) (l : List (List (Option K))) : List (Option K) :=
  l.map fun s => s.getD (pyIndex R row) none

/-- `plot_file` (`/repo/sequence/plot.py:227-292`), as far as the call of `plot_layers`.
With a single time slice `squeeze` removes the time from the bedrock, and the three subscripts
raise `IndexError` (258-261, 279); with none the reshaped array is empty and they do so as well.
All variables are looked for before the nodes are counted; in the code the age comes after.
`reshape` is taken to fail unless the nodes form `R + 2` rows of `C + 2` columns. The `squeeze` of
the coordinates (274), which matters only for a single column, is left out. -/
def plotFile (d : Dataset K (Option K)) (row : Option ℤ) : Except Err (PlotArgs K) :=
  match d.dims "row" with
  | none => .error .missingVariable
  | some R =>
    match plotRow R row, d.dims "column" with
    | .error e, _ => .error e
    | .ok _, none => .error .missingVariable
    | .ok row, some C =>
      match fileVars d R C with
      | .error e => .error e
      | .ok v =>
        if d.dims "node" ≠ some ((R + 2) * (C + 2)) then .error .valueError
        else if d.times.length ≤ 1 then .error .indexError
        else
          match interpAll d.times (rowSeries R row v.shore) (fileAges R C row v),
            interpAll d.times (rowSeries R row v.shelf) (fileAges R C row v) with
          | .ok shore, .ok shelf =>
            .ok ⟨fileElevation R C row v (v.bedrock.getLastD []), fileX d R C row, shore, shelf⟩
          | .error e, _ => .error e
          | .ok _, .error e => .error e

/-- `x_of_shore[:, row].squeeze()` for a property of the row layers
(`/repo/sequence/plot.py:203-211`): one number per layer if all layers hold one number for the
stack; otherwise the table does not fit and `interp1d` raises (unless there are as many numbers as
layers, which is left out). A single layer becomes a number
without dimension, which `interp1d` does not accept either. Without layers there is no such
property. -/
def rowColumn (name : String) (layers : List (RowLayer R K))
    (get : RowLayer R K → Fin (R + 2) → List (Option K)) (row : Fin (R + 2)) :
    Except Err (List (Option K)) :=
  match layers with
  | [] => .error (.keyError name)
  | [_] => .error .valueError
  | layers => layers.mapM fun l =>
    match get l row with
    | [v] => .ok v
    | _ => .error .valueError

/-- `plot_grid` (`/repo/sequence/plot.py:177-224`) on the grid of a `Sequence`, as far as the call
of `plot_layers`, for the row that it chooses itself (194-195). With `R` rows of `C` stacks,
`at_layer.z` has `R * C` columns, which fit the `C` elevations of the bedrock only if these are as
many or if there is only one of them (197-199). -/
def plotGrid (s : SeqState σ (R + 1) (C + 3) K) (x : Fin (C + 3) → K) : Except Err (PlotArgs K) :=
  let row : Fin (R + 1) := ⟨(R + 1) / 2, by omega⟩
  let n := s.world.layers.n
  if (R + 1) * (C + 1) ≠ C + 1 ∧ C + 1 ≠ 1 then .error .valueError
  else
    let cells : List (Cell (R + 1) (C + 3)) :=
      (List.finRange (R + 1)).flatMap fun r => (List.finRange (C + 1)).map fun c => (r, c)
    let elevation := (List.range n).map fun k => cells.map fun c =>
      some (atCells s.world.bedrock (row, c.2) + ((s.world.layers.dz c).take (k + 1)).sum)
    let ages := (List.range n).map fun k => (s.world.layers.prop "age" (0, ⟨0, by omega⟩))[k]?
    let times := s.gridLayers.map (·.age)
    match rowColumn "x_of_shore" s.rowLayers.layers (·.shore) row.castSucc.castSucc,
      rowColumn "x_of_shelf_edge" s.rowLayers.layers (·.shelf) row.castSucc.castSucc with
    | .ok shore, .ok shelf =>
      match interpAll times shore ages, interpAll times shelf ages with
      | .ok shore, .ok shelf =>
        .ok ⟨elevation, (List.finRange (C + 1)).map fun c => some (x c.succ.castSucc), shore, shelf⟩
      | .error e, _ => .error e
      | .ok _, .error e => .error e
    | .error e, _ => .error e
    | .ok _, .error e => .error e

end

end Verif
