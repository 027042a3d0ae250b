import Verif.Model.SeaLevel
import Verif.Model.Shoreline
import Verif.Model.Submarine
import Verif.Model.Fluvial
import Verif.Model.Flexure

/-!
# The processes of the package

The components that `SequenceModel.load_processes` can create
(`/repo/sequence/sequence_model.py:250-267`), with what their constructors do to the grid, on a grid
with at least two columns.
-/

set_option autoImplicit false

namespace Verif

variable {K : Type*} {R C : ℕ} [Field K] [LinearOrder K]

/-- What the processes of a model share: the external functions and the coordinates of the
columns. `compact` is the `Compact` component of the package `compaction` (external) as a function
of the layers; nothing is assumed of it here. -/
structure Env (R C : ℕ) (K : Type*) where
  kind : InterpKind K
  xtol : K
  rtol : K
  expf : K → K
  sqrtf : K → K
  solve : NodeField R (C + 2) K → K → NodeField R (C + 2) K → Except Err (NodeField R (C + 2) K)
  flex : (Fin (C + 2) → K) → Fin (C + 2) → K
  flexWater : Profile R (C + 2) K → K → Profile R (C + 2) K
  compact : K → EventLayers (Cell R (C + 2)) K → Except Err (EventLayers (Cell R (C + 2)) K)
  gravity : K
  dx : K
  x : Fin (C + 2) → K

/-- The arguments of `SubmarineDiffuser` (`/repo/sequence/submarine.py:48-61`). -/
structure DiffuserParams (K : Type*) where
  seaLevel : K
  plainSlope : K
  waveBase : K
  shorefaceHeight : K
  alpha : K
  shelfSlope : K
  sedimentLoad : K
  loadSeaLevel : K
  basinWidth : K

/-- A process by name (`/repo/sequence/sequence_model.py:250-264`) with the arguments of its
constructor. A file of sea levels or of subsidence rates is the curve made of it. The densities of
`SedimentFlexure` are left out: its step does not use them. -/
inductive Process (K : Type*) where
  | seaLevel (curve : Curve K) (start : K)
  | subsidence (curve : Curve K)
  | compaction
  | diffusion (P : DiffuserParams K)
  | fluvial (P : FluvialParams K)
  | flexure (isostasyTime : Option K)
  | waterFlexure (isostasyTime : Option K)
  | shoreline (alpha : K)

/-- The name in `process_class`. -/
def Process.name : Process K → String
  | .seaLevel .. => "sea_level"
  | .subsidence _ => "subsidence"
  | .compaction => "compaction"
  | .diffusion _ => "submarine_diffusion"
  | .fluvial _ => "fluvial"
  | .flexure _ => "flexure"
  | .waterFlexure _ => "water_flexure"
  | .shoreline _ => "shoreline"

/-- The attributes of all processes of a model (at most one of each name). -/
structure ProcState (R C : ℕ) (K : Type*) where
  seaTime : K
  rate : Fin (C + 2) → K
  diffuser : Diffuser R (C + 2) K
  flex : FlexState R (C + 2) K

/-- `if name not in grid.at_node: grid.add_zeros(name, at="node")`. -/
def addZeros (f : Option (NodeField R C K)) : Option (NodeField R C K) :=
  match f with
  | some f => some f
  | none => some fun _ => 0

/-- The constructors: `SeaLevelTimeSeries.__init__` (`/repo/sequence/sea_level.py:47-76`),
`SubsidenceTimeSeries.__init__` (`/repo/sequence/subsidence.py:33-64`),
`SubmarineDiffuser.__init__` (`/repo/sequence/submarine.py:48-115`), `Fluvial.__init__`
(`/repo/sequence/fluvial.py:57-117`), `SedimentFlexure.__init__`
(`/repo/sequence/sediment_flexure.py:292-344`), `WaterFlexure.__init__` (129-157) and
`ShorelineFinder.__init__` (`/repo/sequence/shoreline.py:62-100`). The scratch fields of the two
flexures (`lithosphere...`) are part of the flexure state. -/
def Process.create (env : Env R C K) (p : Process K)
    (s : ProcState R C K × World R (C + 2) K) :
    Except Err (ProcState R C K × World R (C + 2) K) :=
  match p with
  | .seaLevel _ start => .ok ({ s.1 with seaTime := start }, s.2)
  | .subsidence curve =>
    match subsidenceRate curve env.x with
    | .error e => .error e
    | .ok rate => .ok ({ s.1 with rate := rate }, { s.2 with increment := addZeros s.2.increment })
  | .compaction => .ok s
  | .diffusion P =>
    match diffuserInit P.seaLevel P.plainSlope P.waveBase P.shorefaceHeight P.alpha P.shelfSlope
        P.sedimentLoad P.loadSeaLevel P.basinWidth none s.2 with
    | .error e => .error e
    | .ok (d, w) => .ok ({ s.1 with diffuser := d }, w)
  | .fluvial _ =>
    .ok (s.1, { s.2 with sand := addZeros s.2.sand, increment := addZeros s.2.increment })
  | .flexure t =>
    match flexPoolInit R (C + 2) t with
    | .error e => .error e
    | .ok pool =>
      .ok ({ s.1 with flex := { s.1.flex with
              sed := pool
              lastLoad := getProfile ((addZeros s.2.sedLoad).getD fun _ => 0) } },
        { s.2 with sedLoad := addZeros s.2.sedLoad, increment := addZeros s.2.increment })
  | .waterFlexure t =>
    match flexPoolInit R (C + 2) t with
    | .error e => .error e
    | .ok pool =>
      .ok ({ s.1 with flex := { s.1.flex with water := pool } },
        { s.2 with
          waterIncr := addZeros s.2.waterIncr
          seaIncr := some (s.2.seaIncr.getD 0)
          increment := addZeros s.2.increment })
  | .shoreline alpha =>
    match shorelineInit env.kind env.xtol env.rtol alpha env.x s.2 with
    | .error e => .error e
    | .ok w => .ok (s.1, w)

/-- The processes are created in the order of their names
(`/repo/sequence/sequence_model.py:265-267`). -/
def createAll (env : Env R C K) :
    List (Process K) → ProcState R C K × World R (C + 2) K →
      Except Err (ProcState R C K × World R (C + 2) K)
  | [], s => .ok s
  | p :: ps, s =>
    match p.create env s with
    | .error e => .error e
    | .ok s' => createAll env ps s'

/-- `run_one_step` of a process as a component of a driver. -/
def Process.component (env : Env R C K) : Process K → Component (ProcState R C K) R (C + 2) K
  | .seaLevel curve _ => seaComponent curve (·.seaTime) fun t s => { s with seaTime := t }
  | .subsidence _ => fun dt s => subsidenceComponent s.1.rate dt s
  | .compaction => fun dt s =>
    match env.compact dt s.2.layers with
    | .error e => .error e
    | .ok ev => .ok (s.1, { s.2 with layers := ev })
  | .diffusion _ =>
    diffuserComponent env.kind env.xtol env.rtol env.expf env.solve env.dx env.x (·.diffuser)
      fun d s => { s with diffuser := d }
  | .fluvial P =>
    fluvialComponent env.kind env.xtol env.rtol env.expf env.sqrtf (fun _ => P) env.dx env.x
  | .flexure _ =>
    flexComponent (sedFlexStep env.expf env.flex env.gravity env.dx) (·.flex)
      fun f s => { s with flex := f }
  | .waterFlexure _ =>
    flexComponent (waterFlexStep env.expf env.flexWater) (·.flex) fun f s => { s with flex := f }
  | .shoreline alpha => shorelineComponent env.kind env.xtol env.rtol alpha env.x

/-- The first two statements of `load_processes` (`/repo/sequence/sequence_model.py:189-192`): the
sand fraction and the shorelines are always computed. `fluvial` and `shoreline` are the processes
that the parameters describe. -/
def requiredToo (fluvial shoreline : Process K) (ps : List (Process K)) : List (Process K) :=
  let ps1 := if "fluvial" ∈ ps.map Process.name then ps else ps ++ [fluvial]
  if "shoreline" ∈ ps1.map Process.name then ps1 else ps1 ++ [shoreline]

/-- `SequenceModel.__init__` with the processes of `load_processes`: the constructors, then the
constructor of the model, which sets the time of the sea level
(`/repo/sequence/sequence_model.py:139-140`; without a sea-level process the time is not used). -/
def packageInit (env : Env R C K) (ps : List (Process K)) (start : K)
    (s : ProcState R C K × World R (C + 2) K) :
    Except Err (ModelState (ProcState R C K) R (C + 2) K) :=
  match createAll env ps s with
  | .error e => .error e
  | .ok (p, w) => modelInit start (fun t q => { q with seaTime := t }) p w

end Verif
