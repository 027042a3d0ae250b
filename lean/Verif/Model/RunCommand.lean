import Verif.Model.Cli
import Verif.Model.Live

/-!
# `sequence run` from the directory to the output file

What happens between the configuration files and the loop of `Verif.Model.Live`
(`/repo/sequence/cli.py:239-330`). Values that are used as numbers have to be numbers here when
the component is created; python stores some of them unconverted and fails later. Log messages,
citations and the progress bar are left out, but not the number of its ticks.
-/

set_option autoImplicit false

namespace Verif

variable {K : Type} [Field K] [LinearOrder K]

/-- The keyword arguments of a call. -/
abbrev Kwargs := Group PyValue

/-- The items of a dictionary. -/
def Doc.items : Doc → Kwargs
  | .nil => []
  | .leaf k v r => (k, .inl v) :: r.items
  | .sub k d r => (k, .inr d) :: r.items

/-- The sections of a configuration, each with its items. A value that is not a section is left
out; `context.get(process, {}).copy()` of one is not modelled. -/
def Doc.sections : Doc → PyDict String Kwargs
  | .nil => []
  | .leaf _ _ r => r.sections
  | .sub k d r => (k, d.items) :: r.sections

/-- Python raises `TypeError` for a keyword argument that the function does not have. -/
def checkKeywords (known : List String) (kwds : Kwargs) : Except Err Unit :=
  if ∀ k ∈ kwds.keys, k ∈ known then .ok () else .error .typeError

/-- A numerical argument with a default. -/
def floatArg (kwds : Kwargs) (name : String) (default : K) : Except Err K :=
  match kwds.get? name with
  | none => .ok default
  | some v => pyToFloat v

/-- An argument that may be `None`. -/
def optFloatArg (kwds : Kwargs) (name : String) (default : K) : Except Err (Option K) :=
  match kwds.get? name with
  | none => .ok (some default)
  | some (.inl .none) => .ok none
  | some v =>
    match pyToFloat v with
    | .error e => .error e
    | .ok a => .ok (some a)

/-- An argument that is a text, with a default or without. -/
def textArg (kwds : Kwargs) (name : String) (default : Option String) : Except Err String :=
  match kwds.get? name, default with
  | some (.inl (.str s)), _ => .ok s
  | some _, _ => .error .typeError
  | none, some s => .ok s
  | none, none => .error .typeError

/-- What lies outside: reading a file of two columns and interpolating it (`np.loadtxt`, scipy's
`interp1d` of a given kind), the sine, the keyword arguments of the classes of landlab and
`compaction` that are passed on, those classes themselves, the coordinates of a grid, and the
porosity that `Compact` has without an argument. -/
structure Externals (K : Type) where
  readCurve : String → String → Except Err (Curve K)
  sinusoidal : K → K → K → K → K → Curve K
  passedOn : String → List String
  env : (R C : ℕ) → PyDict String Kwargs → Env R C K
  geometry : GridInfo K → Geometry K
  porosityMax : K

/-- The constructors' treatment of their arguments:
`SeaLevelTimeSeries` (`/repo/sequence/sea_level.py:47-53`), `SinusoidalSeaLevel` (133-142),
`SubsidenceTimeSeries` (`/repo/sequence/subsidence.py:33-35`), `SubmarineDiffuser`
(`/repo/sequence/submarine.py:48-61`), `Fluvial` (`/repo/sequence/fluvial.py:57-67`),
`SedimentFlexure` (`/repo/sequence/sediment_flexure.py:292-300`), `WaterFlexure` (129-134),
`ShorelineFinder` (`/repo/sequence/shoreline.py:62`). -/
def Process.ofKwargs (ext : Externals K) (cls : String) (kwds : Kwargs) :
    Except Err (Process K) := do
  if cls = "SeaLevelTimeSeries" then
    checkKeywords ["filepath", "kind", "start"] kwds
    let path ← textArg kwds "filepath" none
    let kind ← textArg kwds "kind" (some "linear")
    let start ← floatArg kwds "start" 0
    let curve ← ext.readCurve path kind
    .ok (.seaLevel curve start)
  else if cls = "SinusoidalSeaLevel" then
    checkKeywords ["wave_length", "amplitude", "phase", "mean", "start", "linear"] kwds
    let waveLength ← floatArg kwds "wave_length" 1
    let amplitude ← floatArg kwds "amplitude" 1
    let phase ← floatArg kwds "phase" 0
    let mean ← floatArg kwds "mean" 0
    let start ← floatArg kwds "start" 0
    let linear ← floatArg kwds "linear" 0
    .ok (.seaLevel (ext.sinusoidal waveLength amplitude phase mean linear) start)
  else if cls = "SubsidenceTimeSeries" then
    checkKeywords ["filepath", "kind"] kwds
    let path ← textArg kwds "filepath" none
    let kind ← textArg kwds "kind" (some "linear")
    let curve ← ext.readCurve path kind
    .ok (.subsidence curve)
  else if cls = "Compact" then
    checkKeywords (ext.passedOn cls) kwds
    .ok .compaction
  else if cls = "SubmarineDiffuser" then
    checkKeywords (["sea_level", "plain_slope", "wave_base", "shoreface_height", "alpha",
      "shelf_slope", "sediment_load", "load_sealevel", "basin_width"] ++ ext.passedOn cls) kwds
    let seaLevel ← floatArg kwds "sea_level" 0
    let plainSlope ← floatArg kwds "plain_slope" (8 / 10000)
    let waveBase ← floatArg kwds "wave_base" 60
    let shorefaceHeight ← floatArg kwds "shoreface_height" 15
    let alpha ← floatArg kwds "alpha" (5 / 10000)
    let shelfSlope ← floatArg kwds "shelf_slope" (1 / 1000)
    let load ← floatArg kwds "sediment_load" 3
    let loadSeaLevel ← floatArg kwds "load_sealevel" 0
    let basinWidth ← floatArg kwds "basin_width" 500000
    .ok (.diffusion ⟨seaLevel, plainSlope, waveBase, shorefaceHeight, alpha, shelfSlope, load,
      loadSeaLevel, basinWidth⟩)
  else if cls = "Fluvial" then
    checkKeywords ["sand_frac", "wave_base", "sediment_load", "sand_density", "plain_slope",
      "hemipelagic", "sea_level"] kwds
    let sandFrac ← floatArg kwds "sand_frac" (1 / 2)
    let waveBase ← floatArg kwds "wave_base" 60
    let load ← floatArg kwds "sediment_load" 3
    let sandDensity ← floatArg kwds "sand_density" 2650
    let plainSlope ← floatArg kwds "plain_slope" (8 / 10000)
    let hemi ← floatArg kwds "hemipelagic" 0
    .ok (.fluvial ⟨sandFrac, waveBase, load, sandDensity, plainSlope, hemi⟩)
  else if cls = "SedimentFlexure" then
    checkKeywords (["sand_density", "mud_density", "isostasytime", "water_density"] ++
      ext.passedOn cls) kwds
    let water ← floatArg kwds "water_density" (1030 : K)
    let _ ← validateDensity water
    let sand ← floatArg kwds "sand_density" (2650 : K)
    let _ ← validateDensity sand
    let mud ← floatArg kwds "mud_density" (2720 : K)
    let _ ← validateDensity mud
    let t ← optFloatArg kwds "isostasytime" 7000
    .ok (.flexure t)
  else if cls = "WaterFlexure" then
    checkKeywords ("isostasytime" :: ext.passedOn cls) kwds
    let t ← optFloatArg kwds "isostasytime" 7000
    .ok (.waterFlexure t)
  else if cls = "ShorelineFinder" then
    checkKeywords ["alpha"] kwds
    let alpha ← floatArg kwds "alpha" (5 / 10000)
    .ok (.shoreline alpha)
  else .error .typeError

/-- The loop that creates the processes (`/repo/sequence/sequence_model.py:265-267`). -/
def createNamed {R C : ℕ} (ext : Externals K) (env : Env R C K) (params : PyDict String Kwargs) :
    List String → ProcState R C K × World R (C + 2) K →
      Except Err (List (String × Process K) × ProcState R C K × World R (C + 2) K)
  | [], s => .ok ([], s)
  | name :: rest, s =>
    match processClass params name with
    | none => .error (.keyError name)
    | some cls =>
      match Process.ofKwargs ext cls (groupOf params name) with
      | .error e => .error e
      | .ok p =>
        match p.create env s with
        | .error e => .error e
        | .ok s1 =>
          match createNamed ext env params rest s1 with
          | .error e => .error e
          | .ok (ps, s2) => .ok ((name, p) :: ps, s2)

/-- A number or a list of numbers (`np.atleast_1d(np.asarray(...))`). -/
def pyToNumbers : PyValue → Except Err (List ℚ)
  | .inl (.num q) => .ok [q]
  | .inl (.list xs) => numbers xs
  | .inl (.tup xs) => numbers xs
  | _ => .error .valueError
where
  numbers : List Leaf → Except Err (List ℚ)
    | [] => .ok []
    | .num q :: xs =>
      match numbers xs with
      | .error e => .error e
      | .ok qs => .ok (q :: qs)
    | _ :: _ => .error .valueError

/-- An entry of the section `grid`, if it is there. -/
def gridEntry (kwds : Kwargs) (name : String) : Except Err (Option (List ℚ)) :=
  match kwds.get? name with
  | none => .ok none
  | some v =>
    match pyToNumbers v with
    | .error e => .error e
    | .ok qs => .ok (some qs)

/-- `SequenceModelGrid.from_dict` of the section `grid` (`/repo/sequence/grid.py:135-183`). Sizes
are cut to integers (`dtype=int`); landlab does not make a grid with a negative size, nor are grids of
fewer than two columns modelled. Returns the number of active rows, the number of columns
beyond two, and the grid. -/
def loadGrid (kwds : Kwargs) : Except Err (ℕ × ℕ × GridInfo K) := do
  let shape ← gridEntry kwds "shape"
  let nCols ← gridEntry kwds "n_cols"
  let spacing ← gridEntry kwds "spacing"
  let xySpacing ← gridEntry kwds "xy_spacing"
  let size := fun q : ℚ => (Int.tdiv q.num q.den).toNat
  let toK := fun q : ℚ => (q : K)
  let info ← gridFromDict ⟨shape.map (·.map size), nCols.map (·.map size),
    spacing.map (·.map toK), xySpacing.map (·.map toK)⟩
  if info.nodeCols < 2 then .error .valueError
  else .ok (info.nodeRows - 2, info.nodeCols - 2, info)

/-- The fields of a new grid (`/repo/sequence/grid.py:80-81`); the topography is added by the
bathymetry (`/repo/sequence/bathymetry.py:67-68`). -/
def newWorld (R C : ℕ) : World R C K where
  topo := fun _ => 0
  bedrock := fun _ => 0
  deposit := fun _ => 0
  increment := none
  sand := none
  sedLoad := none
  waterLoad := none
  waterIncr := none
  seaLevel := 0
  seaIncr := none
  rowShore := none
  rowShelf := none
  gridShore := none
  gridShelf := none
  layers := EventLayers.empty

/-- The attributes before the constructors; they are read only after the constructor that sets
them. -/
def newProcState (R C : ℕ) : ProcState R C K where
  seaTime := 0
  rate := fun _ => 0
  diffuser := ⟨0, 0, 0, 0, 0, 0, 0, 0, 0, 0, 0, 0, fun _ => 0, 0⟩
  flex := ⟨⟨none, fun _ _ => 0⟩, fun _ _ => 0, ⟨none, fun _ _ => 0⟩, fun _ => 0, fun _ => 0⟩

/-- `load_grid` from the bathymetry on (`/repo/sequence/sequence_model.py:165-171`,
`/repo/sequence/bathymetry.py:36-92`). -/
def loadBathymetry {R C : ℕ} (ext : Externals K) (x : Fin C → K) (kwds : Kwargs)
    (w : World R C K) : Except Err (World R C K) := do
  checkKeywords ["filepath", "kind"] kwds
  let path ← textArg kwds "filepath" none
  let kind ← textArg kwds "kind" (some "linear")
  let curve ← ext.readCurve path kind
  let w' ← bathymetryStep curve x w
  .ok (loadBedrock w')

/-- The argument `stop`, which may be `None`. -/
def stopArg (kwds : Kwargs) : Except Err (Option K) :=
  match kwds.get? "stop" with
  | none => .ok none
  | some (.inl .none) => .ok none
  | some v => (pyToFloat v).map some

/-- `TimeStepper(**clock)` (`/repo/sequence/sequence_model.py:118`; landlab, external). -/
def loadClock (kwds : Kwargs) : Except Err (Clock K) := do
  checkKeywords ["start", "stop", "step"] kwds
  let start ← floatArg kwds "start" 0
  let stop ← stopArg kwds
  let step ← floatArg kwds "step" 1
  .ok (Clock.init start stop step)

/-- The truth of a value. -/
def pyTruth : PyValue → Bool
  | .inl .none => false
  | .inl (.num q) => q ≠ 0
  | .inl (.str s) => s ≠ ""
  | .inl (.list xs) => !xs.isEmpty
  | .inl (.tup xs) => !xs.isEmpty
  | .inr d => !d.keys.isEmpty

/-- The arguments of `OutputWriter` (`/repo/sequence/output_writer.py:19-27`). -/
structure WriterArgs (K : Type) where
  path : String
  interval : PyNumber K
  fields : List String
  clobber : Bool
  rows : Except Err (Option (List ℤ))

/-- The argument `fields` (`/repo/sequence/output_writer.py:46-47`, `123-125`). -/
def fieldsArg (kwds : Kwargs) : Except Err (List String) :=
  match kwds.get? "fields" with
  | none => .ok []
  | some (.inl .none) => .ok []
  | some v => pyToNames v

/-- The argument `rows` (`/repo/sequence/output_writer.py:56-59`). -/
def rowsArg (kwds : Kwargs) : Except Err (Option (List ℤ)) :=
  match kwds.get? "rows" with
  | none => .ok none
  | some (.inl .none) => .ok none
  | some v => (pyToNumbers v).map fun qs => some (qs.map fun q => Int.tdiv q.num q.den)

/-- The section `output` as arguments of `OutputWriter`. `rows` is converted after the file has been
dealt with (56-59); rows that are not whole numbers are cut. -/
def loadWriter (kwds : Kwargs) : Except Err (WriterArgs K) := do
  checkKeywords ["filepath", "interval", "fields", "clobber", "rows"] kwds
  let path ← textArg kwds "filepath" none
  let fields ← fieldsArg kwds
  .ok ⟨path, match kwds.get? "interval" with | none => .int 1 | some v => pyToInterval v, fields,
    match kwds.get? "clobber" with | none => false | some v => pyTruth v, rowsArg kwds⟩

/-- The names in `processes`, else `ALL_PROCESSES`
(`/repo/sequence/cli.py:270`, `/repo/sequence/sequence_model.py:38-45`). A text in place of a list
is not modelled. -/
def processNames (d : Doc) : Except Err (List String) :=
  match d.find? "processes" with
  | none => .ok ["sea_level", "subsidence", "compaction", "submarine_diffusion", "fluvial",
      "flexure"]
  | some (.inl (.list xs)) => pyToNames (.inl (.list xs))
  | some _ => .error .typeError

/-- `model_params[name]`, which has to be a section. -/
def sectionOf (d : Doc) (name : String) : Except Err Kwargs :=
  match d.find? name with
  | none => .error (.keyError name)
  | some (.inl _) => .error .typeError
  | some (.inr s) => .ok s.items

/-- A model ready to run. -/
structure Ready (K : Type) where
  R : ℕ
  C : ℕ
  env : Env R C K
  inp : Inputs K
  view : ProcState R C K → World R (C + 2) K → GridView (Option K)
  porosity : K
  clock : Clock K
  cfg : Cfg
  live : Live R C K (Option K)

/-- The kind of interpolation of a component, for later files. -/
def kindOf (params : PyDict String Kwargs) (name : String) : String :=
  match (groupOf params name).get? "kind" with
  | some (.inl (.str s)) => s
  | _ => "linear"

/-- The porosity of new layers: that of the compaction component, else 0.5
(`/repo/sequence/sequence_model.py:367-369`). -/
def porosityArg (ext : Externals K) (names : List String) (compaction : Kwargs) : Except Err K :=
  if names.contains "compaction" then floatArg compaction "porosity_max" ext.porosityMax
  else .ok (1 / 2)

@[inherit_doc Leaf.hasNull]
def pyHasNull : PyValue → Bool
  | .inl v => v.hasNull
  | .inr d => d.hasNull

/-- The log messages of `load_processes` are made, with `tomlkit.dumps`, whether or not they are
shown (`/repo/sequence/sequence_model.py:207-225, 240-248`). Toml has no `None`: tomlkit (external)
raises `ConvertError`, which is a `ValueError`. The messages about matched and mismatched values
show some of the values that are shown at the end. -/
def describeParams (params : PyDict String Kwargs) : Except Err Unit :=
  if params.any fun g => g.2.any fun kv => pyHasNull kv.2 then .error .valueError else .ok ()

/-- A model without its output writer: the arguments of the writer, the number of active rows, and
what the rest of the constructor makes of the writer. -/
structure Prepared (K : Type) where
  args : WriterArgs K
  rows : ℕ
  finish : Writer K × FileSystem K (Option K) → Except Err (Ready K)

/-- What happens before the output writer is created (`/repo/sequence/cli.py:262-280`): no file is
changed. `docs` are the contents of the configuration files in the order of `_find_config_files`.
The section `plot` is dropped (265). The arguments of `SequenceModel` are evaluated in order: the
sections `clock` and `output` have to exist before the processes are created. -/
def prepare (ext : Externals K) (times : List ℕ) (docs : List (List Doc)) :
    Except Err (Prepared K) := do
  let cfg ← Cfg.fromFiles docs (some (times.map fun t : ℕ => (t : ℚ)))
  let d ← cfg.asDict
  let d := d.erase "plot"
  let gridArgs ← sectionOf d "grid"
  let bathymetry ← sectionOf d "bathymetry"
  let (R, C, info) ← loadGrid (K := K) gridArgs
  let x : Fin (C + 2) → K := fun c => c.val * info.dx
  let w ← loadBathymetry ext x bathymetry (newWorld R (C + 2))
  let names ← processNames d
  let clockArgs ← sectionOf d "clock"
  let output ← sectionOf d "output"
  let params := matchedParams (withRequired names) d.sections
  describeParams params
  let env : Env R C K := { ext.env R C params with dx := info.dx, x := x }
  let (ps, s, w') ← createNamed ext env params (withRequired names) (newProcState R C, w)
  let clock : Clock K ← loadClock clockArgs
  let args : WriterArgs K ← loadWriter output
  let procs : PyDict String (Process K) := PyDict.ofPairs ps
  let porosity ← porosityArg ext procs.keys (groupOf params "compaction")
  let inp : Inputs K :=
    ⟨((groupOf params "sea_level").get? "filepath").isSome,
      fun path => ext.readCurve path (kindOf params "sea_level"),
      fun path => ext.readCurve path (kindOf params "subsidence")⟩
  .ok ⟨args, R, fun q =>
    match modelInit clock.start (fun t (q : ProcState R C K) => { q with seaTime := t }) s w' with
    | .error e => .error e
    | .ok m => .ok ⟨R, C, env, inp, fun _ => worldView (ext.geometry info), porosity, clock, cfg,
        ⟨List.map Prod.snd procs, ⟨(m.comps, q), m.world, m.archived⟩⟩⟩⟩

/-- Everything before the loop (`/repo/sequence/cli.py:257-280`): the files, as far as they have
been changed, and the model or an error. -/
def runSetup (ext : Externals K) (times : List ℕ) (docs : List (List Doc))
    (fs : FileSystem K (Option K)) : FileSystem K (Option K) × Except Err (Ready K) :=
  if times = [] then (fs, .error .abort)
  else
    match prepare ext times docs with
    | .error e => (fs, .error e)
    | .ok p =>
      match writerInit p.rows p.args.path p.args.interval p.args.fields p.args.clobber
          (p.args.rows.toOption.getD none) fs with
      | (fs', .error e) => (fs', .error e)
      | (fs', .ok writer) =>
        match p.args.rows with
        | .error e => (fs', .error e)
        | .ok _ => (fs', p.finish (writer, fs'))

/-- `int(model.clock.stop // model.clock.step)` (`/repo/sequence/cli.py:303`). -/
def progressTotal [FloorRing K] (c : Clock K) : Except Err ℤ :=
  match c.stop with
  | none => .error .typeError
  | some stop => if c.step = 0 then .error .zeroDivision else .ok ⌊stop / c.step⌋

/-- How a command ends. When a step of the model raises an error the state of the files is not
given here but in `Verif.Model.Failure`. -/
inductive Outcome (K : Type) where
  | running
  | finished (fs : FileSystem K (Option K))
  | failed (e : Err) (fs : Option (FileSystem K (Option K)))

/-- The loop (`/repo/sequence/cli.py:301-312`), for at most `fuel` rounds. -/
def Ready.run [FloorRing K] (m : Ready K) (fuel : ℕ) : Outcome K :=
  match progressTotal m.clock with
  | .error e => .failed e (some m.live.state.comps.2.2)
  | .ok _ =>
    match liveRun m.env m.inp m.view (fun _ => m.porosity) fuel m.clock (m.cfg, m.live) with
    | none => .running
    | some (_, .error e) => .failed e none
    | some (_, .ok (_, l)) => .finished l.state.comps.2.2

/-- `sequence run` (`/repo/sequence/cli.py:239-330`) in a directory with the given entries. -/
def runCommand [FloorRing K] (ext : Externals K) (entries : List (List Char))
    (contents : List Char → List Doc) (dryRun : Bool) (fuel : ℕ)
    (fs : FileSystem K (Option K)) : Outcome K :=
  match runSetup ext (findConfigFiles entries).1 ((findConfigFiles entries).2.map contents) fs with
  | (fs', .error e) => .failed e (some fs')
  | (fs', .ok m) => if dryRun then .finished fs' else m.run fuel

end Verif
