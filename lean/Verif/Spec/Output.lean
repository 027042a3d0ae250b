import Verif.Model.Output

/-!
# What a user expects of an output file
-/

set_option autoImplicit false

namespace Verif.Spec

variable {K A : Type*}

/-- The locations that a writer writes fields of. -/
def locations : List String := ["node", "link", "face", "cell", "grid", "row"]

/-- The fields in the output of a writer created for the node fields `fields`: those at nodes
(all of them if none is given), everything else at links, faces, cells and the grid, and the
shoreline and shelf edge of every row. -/
def Requested (fields : List String) (loc name : String) : Prop :=
  (loc = "node" ∧ (fields = [] ∨ name ∈ fields)) ∨
  loc = "link" ∨ loc = "face" ∨ loc = "cell" ∨
  (loc = "grid" ∧ name ≠ "x_of_shore" ∧ name ≠ "x_of_shelf_edge") ∨
  (loc = "row" ∧ (name = "x_of_shore" ∨ name = "x_of_shelf_edge"))

instance (fields : List String) (loc name : String) : Decidable (Requested fields loc name) := by
  unfold Requested
  infer_instance

/-- The sizes of a grid. -/
structure Sizes where
  rows : ℕ
  cols : ℕ
  size : String → ℕ

/-- The number of elements at a location. -/
def Sizes.at (z : Sizes) (loc : String) : ℕ :=
  if loc = "grid" then 1 else if loc = "row" then z.rows else z.size loc

/-- A grid of the given sizes: all arrays have the right shapes. -/
structure HasSizes (z : Sizes) (g : GridView A) : Prop where
  rows : g.rows = z.rows
  cols : g.cols = z.cols
  x : ∀ loc ∈ ["node", "link", "face", "cell"], (g.xOf loc).length = z.size loc
  y : ∀ loc ∈ ["node", "link", "face", "cell"], (g.yOf loc).length = z.size loc
  yRow : (g.yOf "row").length = z.rows + 2
  xCol : (g.xOf "column").length = z.cols
  fields : ∀ loc name v, g.field loc name = some v → v.length = z.at loc
  layer : ∀ name ∈ g.tracking, (g.layer name).length = g.nLayers ∧
    ∀ l ∈ g.layer name, l.length = z.rows * (z.cols - 2)
  dz : g.dz.length = g.nLayers ∧ ∀ l ∈ g.dz, l.length = z.rows * (z.cols - 2)

/-- What a reader sees of a variable at time slice `i`: nothing if the variable does not exist or
holds the fill value there. -/
def slice (d : Dataset K A) (loc name : String) (i : ℕ) : Option (List A) :=
  (d.vars (loc, name)).bind fun f => f i

/-- What a reader sees of a layer variable. -/
def layerSlice (d : Dataset K A) (name : String) (k : ℕ) : Option (List A) :=
  (d.layerVars name).bind fun f => f k

/-- What happened in one write. -/
structure Write (K A : Type*) where
  time : K
  fields : List String
  view : GridView A

/-- The file holds one time slice for each write, in order, with the fields as they were. -/
structure Records (d : Dataset K A) (ws : List (Write K A)) : Prop where
  times : d.times = ws.map (·.time)
  requested : ∀ (i : ℕ) (w : Write K A), ws[i]? = some w → ∀ loc name, Requested w.fields loc name →
    slice d loc name i = w.view.field loc name
  others : ∀ (i : ℕ) (w : Write K A), ws[i]? = some w → ∀ loc name, ¬ Requested w.fields loc name →
    slice d loc name i = none
  beyond : ∀ i, ws.length ≤ i → ∀ loc name, slice d loc name i = none

/-- One call of `run_one_step` with the interval and the fields in force at that call. -/
structure Call (K A : Type*) where
  interval : ℕ
  fields : List String
  view : GridView A
  dt : Option K

/-- The model time covered by some calls; a step without a length has length 1. -/
def elapsed [Zero K] [One K] [Add K] (calls : List (Call K A)) : K :=
  (calls.map fun c => c.dt.getD 1).sum

/-- The writes that the calls ask for: call number `j` writes if its interval divides `j`, with
the length of the calls before it as time. -/
def writesOf [Zero K] [One K] [Add K] (calls : List (Call K A)) : List (Write K A) :=
  (List.range calls.length).filterMap fun j =>
    calls[j]?.bind fun c =>
      if c.interval ∣ j then some ⟨elapsed (calls.take j), c.fields, c.view⟩ else none

/-- What a layer variable holds after some writes: layer `k` is that of the last write that had
so many layers. -/
structure LayerRecords (d : Dataset K A) (ws : List (Write K A)) : Prop where
  dim : d.layerDim = (ws.map (·.view.nLayers)).foldl max 0
  thickness : ∀ k, layerSlice d "thickness" k =
    (ws.reverse.find? fun w => k < w.view.nLayers).bind fun w => w.view.dz[k]?
  layer : ∀ name, name ≠ "thickness" → ∀ k, layerSlice d name k =
    (ws.reverse.find? fun w => name ∈ w.view.tracking ∧ k < w.view.nLayers).bind
      fun w => (w.view.layer name)[k]?

/-- The layers in the file are those of the grid. -/
structure LayersAre (d : Dataset K A) (g : GridView A) : Prop where
  count : d.layerDim = g.nLayers
  layer : ∀ name ∈ g.tracking, name ≠ "thickness" → ∀ k < g.nLayers,
    layerSlice d name k = (g.layer name)[k]?
  thickness : ∀ k < g.nLayers, layerSlice d "thickness" k = g.dz[k]?

end Verif.Spec
