import Mathlib.Data.List.FinRange
import Verif.Model.Driver
import Verif.Model.Output

/-!
# An output writer in a model

`SequenceModel` puts the output writer behind all other components
(`/repo/sequence/sequence_model.py:119-121`) and runs it like one of them (323-326), so before the
layer of the step is added (328) and before old layers are archived (335-343).
-/

set_option autoImplicit false

namespace Verif

variable {K A σ : Type*} {R C : ℕ}

/-- The coordinates of a landlab grid (external): `x` and `y` of nodes, links, faces and cells,
`y` of rows and `x` of columns. -/
structure Geometry (A : Type*) where
  xOf : String → List A
  yOf : String → List A

/-- A node field as a flat array, row by row. -/
def nodeList (f : NodeField R C K) : List (Option K) :=
  (List.finRange (R + 2)).flatMap fun r => (List.finRange C).map fun c => some (f (r, c))

/-- One layer as a flat array, row by row. -/
def cellList (f : Cell R C → Option K) : List (Option K) :=
  (List.finRange R).flatMap fun r => (List.finRange (C - 2)).map fun c => f (r, c)

/-- A field that may not exist. -/
def optField (name : String) (v : Option (List (Option K))) : List (String × List (Option K)) :=
  match v with
  | none => []
  | some v => [(name, v)]

/-- What `to_netcdf` sees of the grid (`/repo/sequence/netcdf.py:102-126, 149-235`), `none` being NaN.
Fields that components create for themselves are left out. -/
def worldView (geo : Geometry K) (w : World R C K) : GridView (Option K) where
  rows := R
  cols := C
  xOf := fun loc => (geo.xOf loc).map some
  yOf := fun loc => (geo.yOf loc).map some
  fields := fun loc =>
    if loc = "node" then
      [("topographic__elevation", nodeList w.topo), ("bedrock_surface__elevation", nodeList w.bedrock),
       ("sediment_deposit__thickness", nodeList w.deposit)] ++
      optField "bedrock_surface__increment_of_elevation" (w.increment.map nodeList) ++
      optField "delta_sediment_sand__volume_fraction" (w.sand.map nodeList) ++
      optField "sediment__total_of_loading" (w.sedLoad.map nodeList) ++
      optField "water__total_of_loading" (w.waterLoad.map nodeList) ++
      optField "water__increment_of_depth" (w.waterIncr.map nodeList)
    else if loc = "row" then
      optField "x_of_shore" (w.rowShore.map List.ofFn) ++
      optField "x_of_shelf_edge" (w.rowShelf.map List.ofFn)
    else if loc = "grid" then
      [("sea_level__elevation", [some w.seaLevel])] ++
      optField "sea_level__increment_of_elevation" (w.seaIncr.map fun v => [some v]) ++
      optField "x_of_shore" (w.gridShore.map fun v => [v]) ++
      optField "x_of_shelf_edge" (w.gridShelf.map fun v => [v])
    else []
  tracking := w.layers.tracking
  nLayers := w.layers.n
  layer := fun name => (List.range w.layers.n).map fun k => cellList fun c => (w.layers.prop name c)[k]?
  dz := (List.range w.layers.n).map fun k => cellList fun c => (w.layers.dz c)[k]?

/-- A component that knows nothing of the writer. -/
def besideWriter (c : Component σ R C K) :
    Component (σ × (Writer K × FileSystem K A)) R C K := fun dt s =>
  match c dt (s.1.1, s.2) with
  | .error e => .error e
  | .ok (p, w) => .ok ((p, s.1.2), w)

/-- The output writer as a component (`/repo/sequence/output_writer.py:64-86`). -/
def writerComponent [Zero K] [Add K] [One K] (view : σ → World R C K → GridView A) :
    Component (σ × (Writer K × FileSystem K A)) R C K := fun dt s =>
  match writerStep (view s.1.1 s.2) (some dt) s.1.2 with
  | .error e => .error e
  | .ok q => .ok ((s.1.1, q), s.2)

/-- The components of a model with output (`/repo/sequence/sequence_model.py:119-121`). -/
def withWriter [Zero K] [Add K] [One K] (view : σ → World R C K → GridView A)
    (comps : List (Component σ R C K)) : List (Component (σ × (Writer K × FileSystem K A)) R C K) :=
  comps.map besideWriter ++ [writerComponent view]

end Verif
