import Mathlib.Data.Fintype.Prod
import Verif.Model.Grid
import Verif.Model.Layers
import Verif.Model.Loading
import Verif.Model.Clock

/-!
# The two drivers

`Sequence` (`/repo/sequence/sequence.py`) and `SequenceModel` (`/repo/sequence/sequence_model.py`)
on a grid with `R` active rows and `C` columns. Components are arbitrary: a component is a
function of the time step and of the state of all components together with the grid.
-/

set_option autoImplicit false

namespace Verif

variable {K σ : Type*} {R C : ℕ}

/-- The grid with its fields. Fields that a component may or may not have created are optional.
`none` as a value of a shoreline position is NaN. Fields that no driver looks at are part of the
component state `σ`. -/
@[ext] structure World (R C : ℕ) (K : Type*) where
  /-- `topographic__elevation` -/
  topo : NodeField R C K
  /-- `bedrock_surface__elevation` -/
  bedrock : NodeField R C K
  /-- `sediment_deposit__thickness` -/
  deposit : NodeField R C K
  /-- `bedrock_surface__increment_of_elevation` -/
  increment : Option (NodeField R C K)
  /-- `delta_sediment_sand__volume_fraction` -/
  sand : Option (NodeField R C K)
  /-- `sediment__total_of_loading` -/
  sedLoad : Option (NodeField R C K)
  /-- `water__total_of_loading` -/
  waterLoad : Option (NodeField R C K)
  /-- `water__increment_of_depth` -/
  waterIncr : Option (NodeField R C K)
  /-- `sea_level__elevation` -/
  seaLevel : K
  /-- `sea_level__increment_of_elevation` -/
  seaIncr : Option K
  /-- `at_row["x_of_shore"]` -/
  rowShore : Option (Fin R → Option K)
  /-- `at_row["x_of_shelf_edge"]` -/
  rowShelf : Option (Fin R → Option K)
  /-- `at_grid["x_of_shore"]` -/
  gridShore : Option (Option K)
  /-- `at_grid["x_of_shelf_edge"]` -/
  gridShelf : Option (Option K)
  /-- `grid.event_layers` -/
  layers : EventLayers (Cell R C) K

/-- A component: its `run_one_step(dt)` as a function of the state of all components and the
grid. -/
abbrev Component (σ : Type*) (R C : ℕ) (K : Type*) := K → σ × World R C K → Except Err (σ × World R C K)

/-- `for component in ...: component.run_one_step(dt)` (`/repo/sequence/sequence.py:123-124`,
`/repo/sequence/sequence_model.py:323-326`). -/
def runComponents (comps : List (Component σ R C K)) (dt : K) (s : σ × World R C K) :
    Except Err (σ × World R C K) :=
  match comps with
  | [] => .ok s
  | c :: cs =>
    match c dt s with
    | .error e => .error e
    | .ok s' => runComponents cs dt s'

section
variable [Field K] [LinearOrder K]

/-- A field at the cells: `field[grid.node_at_cell]`. -/
def atCells (f : NodeField R C K) (c : Cell R C) : K := f (nodeAtCell c)

/-- `layer_properties` (`/repo/sequence/sequence.py:165-195`,
`/repo/sequence/sequence_model.py:345-378`). The two differ in the clock and in the porosity,
which are parameters here. -/
def layerProperties (time porosity : K) (w : World R C K) : EventLayers.Kwds (Cell R C) K :=
  [("age", fun _ => time),
   ("water_depth", fun c => w.seaLevel - atCells w.topo c),
   ("t0", fun c => clip0 (atCells w.deposit c)),
   ("porosity", fun _ => porosity)] ++
  match w.sand with
  | none => []
  | some sand => [("percent_sand", atCells sand)]

/-- `topographic__elevation[cells] = bedrock[cells] + event_layers.thickness`
(`/repo/sequence/sequence.py:101-104, 131-134`, `/repo/sequence/sequence_model.py:430-433`). -/
def resetTopo (w : World R C K) : World R C K :=
  { w with topo := setCells w.topo fun c => atCells w.bedrock c + w.layers.thickness c }

/-- `sediment_deposit__thickness.fill(0.0)` (`/repo/sequence/sequence.py:105, 135`,
`/repo/sequence/sequence_model.py:321`). -/
def clearDeposit (w : World R C K) : World R C K := { w with deposit := fun _ => 0 }

/-! ## SequenceModel -/

/-- A `SequenceModel` apart from its clock. -/
structure ModelState (σ : Type*) (R C : ℕ) (K : Type*) where
  comps : σ
  world : World R C K
  archived : ℕ

/-- `SequenceModel.__init__` (`/repo/sequence/sequence_model.py:114-150`) on an existing grid with
components already created. Setting the time of the sea-level component (139-140) is
`setSeaLevelTime`. -/
def modelInit (start : K) (setSeaLevelTime : K → σ → σ) (s : σ) (w : World R C K) :
    Except Err (ModelState σ R C K) :=
  match w.rowShore, w.rowShelf with
  | some _, some _ =>
    let w1 : World R C K :=
      { w with rowShore := some fun _ => none, rowShelf := some fun _ => none, seaLevel := 0 }
    match w1.layers.add (fun _ => 100)
        [("age", fun _ => start), ("water_depth", fun c => -atCells w1.bedrock c),
         ("t0", fun _ => 10), ("percent_sand", fun _ => 1/2), ("porosity", fun _ => 1/2)] with
    | .error e => .error e
    | .ok ev =>
      let w2 := { w1 with layers := ev }
      let w3 := match w2.waterLoad with
        | none => w2
        | some load =>
          { w2 with waterLoad := some (setProfile load fun r c =>
              calcWaterLoading (getProfile w2.topo r c - w2.seaLevel) 1030) }
      .ok ⟨setSeaLevelTime start s, w3, 0⟩
  | none, _ => .error (.keyError "x_of_shore")
  | some _, none => .error (.keyError "x_of_shelf_edge")

/-- The part of `SequenceModel._update_fields` that adds the load of the new deposit
(`/repo/sequence/sequence_model.py:409-422`). -/
def updateSedLoad (w : World R C K) : Except Err (World R C K) :=
  match w.sedLoad with
  | none => .ok w
  | some load =>
    match w.sand with
    | none => .error (.keyError "delta_sediment_sand__volume_fraction")
    | some sand =>
      .ok { w with sedLoad := some (setProfile load fun r c =>
        getProfile load r c +
          calcLoading (getProfile w.deposit r c) (getProfile w.topo r c - w.seaLevel) (1/2)
            (calcDensity (getProfile sand r c) 2650 2720) 1030) }

/-- The part of `SequenceModel._update_fields` that moves the bedrock
(`/repo/sequence/sequence_model.py:424-428`). -/
def updateBedrock (w : World R C K) : World R C K :=
  match w.increment with
  | none => w
  | some inc => { w with bedrock := fun n => w.bedrock n + inc n, increment := some fun _ => 0 }

/-- `np.clip(sea level - profile, a_min=0.0, a_max=None)`
(`/repo/sequence/sequence_model.py:402-407, 435-440`). -/
def waterDepth (w : World R C K) (r : Fin R) (c : Fin C) : K :=
  clip0 (w.seaLevel - getProfile w.topo r c)

/-- `SequenceModel._update_fields` (`/repo/sequence/sequence_model.py:400-443`). -/
def updateFields (w : World R C K) : Except Err (World R C K) :=
  let oldDepth := waterDepth w
  match updateSedLoad w with
  | .error e => .error e
  | .ok w1 =>
    let w2 := resetTopo (updateBedrock w1)
    let newDepth := waterDepth w2
    .ok (match w2.waterIncr with
      | none => w2
      | some f => { w2 with waterIncr := some (setProfile f fun r c => newDepth r c - oldDepth r c) })

/-- `SequenceModel.advance_components(dt)` when the clock shows `time`
(`/repo/sequence/sequence_model.py:313-343`). `porosity` is 0.5, or the maximum porosity of the
compaction component if there is one (367-369). -/
def advanceComponents (comps : List (Component σ R C K)) (porosity : σ → K) (time dt : K)
    (s : ModelState σ R C K) : Except Err (ModelState σ R C K) :=
  match runComponents comps dt (s.comps, clearDeposit s.world) with
  | .error e => .error e
  | .ok (p, w1) =>
    match w1.layers.add (atCells w1.deposit) (layerProperties time (porosity p) w1) with
    | .error e => .error e
    | .ok ev =>
      match updateFields { w1 with layers := ev } with
      | .error e => .error e
      | .ok w3 =>
        match Archive.archiveOld ⟨w3.layers, s.archived⟩ with
        | .error e => .error e
        | .ok a => .ok ⟨p, { w3 with layers := a.layers }, a.archived⟩

/-- `SequenceModel.load_grid` after the grid has been created and the bathymetry component has
set the topography (`/repo/sequence/sequence_model.py:165-171`). -/
def loadBedrock (w : World R C K) : World R C K := { w with bedrock := fun n => w.topo n - 100 }

/-! ## Sequence -/

/-- One layer of `grid.at_layer_grid`. -/
structure GridLayer (K : Type*) where
  age : K
  seaLevel : K
  shore : Option K
  shelf : Option K

/-- How landlab stores a property of `EventLayers` that is given as an array (external): one
number per stack if the array has as many elements as there are stacks, otherwise the whole array
of `m` elements for every stack. Decided by the first layer. -/
inductive RowShape where
  | scalar
  | vector (m : ℕ)
  deriving DecidableEq, Repr

/-- The shape decided by an array of `len` elements on `nStacks` stacks (landlab
`_allocate_layers_for`, external). -/
def rowShapeOf (nStacks len : ℕ) : RowShape := if len = nStacks then .scalar else .vector len

/-- Assigning an array to the new layer: numpy broadcasting to the stored shape. -/
def rowValues (nStacks : ℕ) (shape : RowShape) (v : List (Option K)) :
    Except Err (Fin nStacks → List (Option K)) :=
  match shape with
  | .scalar =>
    if h : v.length = nStacks then .ok fun s => [v[s.val]'(by rw [h]; exact s.isLt)]
    else if v.length = 1 then .ok fun _ => v
    else .error .valueError
  | .vector m =>
    if v.length = m then .ok fun _ => v
    else if v.length = 1 then .ok fun _ => List.replicate m (v.headD none)
    else .error .valueError

/-- One layer of `grid.at_layer_row`: for every stack a list, of one element if the property is
stored as one number per stack. -/
structure RowLayer (R : ℕ) (K : Type*) where
  age : K
  seaLevel : K
  shore : Fin (R + 2) → List (Option K)
  shelf : Fin (R + 2) → List (Option K)

/-- `grid.at_layer_row = EventLayers(grid.number_of_rows)` (`/repo/sequence/sequence.py:85`):
there are as many stacks as rows of nodes. -/
structure RowLayers (R : ℕ) (K : Type*) where
  shapes : Option (RowShape × RowShape)
  layers : List (RowLayer R K)

/-- What `add_layer` passes for the rows: the row field, or an array of NaN with one element per
row of nodes (`/repo/sequence/sequence.py:233-240`). -/
def rowArgument (f : Option (Fin R → Option K)) : List (Option K) :=
  match f with
  | some v => List.ofFn v
  | none => List.replicate (R + 2) none

/-- `grid.at_layer_row.add(1.0, ...)` (`/repo/sequence/sequence.py:254-260`). -/
def RowLayers.add (rl : RowLayers R K) (age seaLevel : K) (shore shelf : List (Option K)) :
    Except Err (RowLayers R K) :=
  let shapes := rl.shapes.getD (rowShapeOf (R + 2) shore.length, rowShapeOf (R + 2) shelf.length)
  match rowValues (R + 2) shapes.1 shore, rowValues (R + 2) shapes.2 shelf with
  | .ok a, .ok b => .ok ⟨some shapes, rl.layers ++ [⟨age, seaLevel, a, b⟩]⟩
  | .error e, _ => .error e
  | .ok _, .error e => .error e

/-- A `Sequence` apart from its clock. -/
structure SeqState (σ : Type*) (R C : ℕ) (K : Type*) where
  comps : σ
  world : World R C K
  archived : ℕ
  gridLayers : List (GridLayer K)
  rowLayers : RowLayers R K

/-- `Sequence.add_layer` (`/repo/sequence/sequence.py:217-270`). -/
def seqAddLayer (time : K) (s : SeqState σ R C K) (dz : Cell R C → K) :
    Except Err (SeqState σ R C K) :=
  let w1 := { s.world with topo := setCells s.world.topo fun c => atCells s.world.topo c + dz c }
  match w1.layers.add dz (layerProperties time (1/2) w1) with
  | .error e => .error e
  | .ok ev =>
    let gl := s.gridLayers ++
      [⟨time, w1.seaLevel, w1.gridShore.getD none, w1.gridShelf.getD none⟩]
    match s.rowLayers.add time w1.seaLevel (rowArgument w1.rowShore) (rowArgument w1.rowShelf) with
    | .error e => .error e
    | .ok rl =>
      match Archive.archiveOld ⟨ev, s.archived⟩ with
      | .error e => .error e
      | .ok a => .ok ⟨s.comps, { w1 with layers := a.layers }, a.archived, gl, rl⟩

/-- `Sequence.__init__` (`/repo/sequence/sequence.py:75-105`). `hasBedrock` says whether the
bedrock field already exists. -/
def seqInit (comps : σ) (w : World R C K) (hasBedrock : Bool) : Except Err (SeqState σ R C K) :=
  let w1 := if hasBedrock then w else loadBedrock w
  let thickness : Cell R C → K := fun c => atCells w1.topo c - atCells w1.bedrock c
  let s : SeqState σ R C K := ⟨comps, w1, 0, [], ⟨none, []⟩⟩
  match (if ∃ c, 0 < thickness c then seqAddLayer 0 s thickness else .ok s) with
  | .error e => .error e
  | .ok s' => .ok { s' with world := clearDeposit (resetTopo s'.world) }

/-- `Sequence.update(dt)` (`/repo/sequence/sequence.py:112-135`); `time` is the time after the
step. -/
def seqUpdate (comps : List (Component σ R C K)) (dt time : K) (s : SeqState σ R C K) :
    Except Err (SeqState σ R C K) :=
  match runComponents comps dt (s.comps, s.world) with
  | .error e => .error e
  | .ok (p, w1) =>
    match seqAddLayer time { s with comps := p, world := w1 } (atCells w1.deposit) with
    | .error e => .error e
    | .ok s' => .ok { s' with world := clearDeposit (resetTopo s'.world) }

end

end Verif
