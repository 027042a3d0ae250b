import Verif.Model.Processes
import Verif.Model.OutputRun
import Verif.Model.Params

/-!
# Parameters that change while the package's own processes run

`SequenceModel.set_params` is `setattr` on the components; here is what `setattr` does to each
class of the package, and the loop of `sequence run` with it. Attributes of landlab's and
`compaction`'s classes and attributes whose names begin with an underscore are not modelled: they
are treated like names nobody knows.
-/

set_option autoImplicit false

namespace Verif

variable {K A : Type*} {R C : ℕ} [Field K] [LinearOrder K]

/-- A value of a configuration. -/
abbrev PyValue := Leaf ⊕ Doc

/-- `float(value)`. Texts are not read as numbers. -/
def pyToFloat : PyValue → Except Err K
  | .inl (.num q) => .ok (q : K)
  | .inl (.str _) => .error .valueError
  | _ => .error .typeError

/-- What reading the files of sea levels and of subsidence rates gives (`np.loadtxt` and scipy's
`interp1d` with the `kind` of the component, external), and whether the sea level comes from a
file (`SeaLevelTimeSeries`) or not (`SinusoidalSeaLevel`). -/
structure Inputs (K : Type*) where
  seaFromFile : Bool
  seaFile : String → Except Err (Curve K)
  subsidenceFile : String → Except Err (Curve K)

/-- `setattr` on `SeaLevelTimeSeries` and `SinusoidalSeaLevel` with the setters of `filepath` and
`time` (`/repo/sequence/sea_level.py:97-111`). `SinusoidalSeaLevel.__init__` (133-175) does not set
`_kind`, which the setter of `filepath` reads after the file; its curve holds the arguments of the
constructor. -/
def seaLevelSetattr (inp : Inputs K) (name : String) (v : PyValue) (curve : Curve K) (time : K) :
    Except Err (Curve K × K) :=
  if name = "filepath" then
    match v with
    | .inl (.str path) =>
      match inp.seaFile path with
      | .error e => .error e
      | .ok f => if inp.seaFromFile then .ok (f, time) else .error .attributeError
    | _ => .error .typeError
  else if name = "time" then
    match pyToFloat v with
    | .error e => .error e
    | .ok t => .ok (curve, t)
  else .ok (curve, time)

/-- `setattr` on `SubsidenceTimeSeries` with the setter of `filepath`
(`/repo/sequence/subsidence.py:97-104`): the rate. `subsidence_rate` and `time` (66-69, 87-90) have
no setter. -/
def subsidenceSetattr (inp : Inputs K) (x : Fin C → K) (name : String) (v : PyValue)
    (rate : Fin C → K) : Except Err (Fin C → K) :=
  if name = "filepath" then
    match v with
    | .inl (.str path) =>
      match inp.subsidenceFile path with
      | .error e => .error e
      | .ok f => subsidenceRate f x
    | _ => .error .typeError
  else if name = "subsidence_rate" ∨ name = "time" then .error .attributeError
  else .ok rate

/-- `setattr` on `SubmarineDiffuser` (`/repo/sequence/submarine.py:117-197`); the sea level is a
field of the grid. `load0`, `k_land` and `time` have no setter. The arguments `load_sealevel` and
`basin_width` of the constructor are kept under other names. A slope of 0 raises
`ZeroDivisionError` as long as the load is a python number; numpy's infinity after the first step
is not modelled. -/
def diffuserSetattr (name : String) (v : PyValue) (d : Diffuser R C K) (w : World R C K) :
    Except Err (Diffuser R C K × World R C K) :=
  if name = "load0" ∨ name = "k_land" ∨ name = "time" then .error .attributeError
  else if name ∈ ["plain_slope", "wave_base", "shoreface_height", "alpha", "shelf_slope",
      "sediment_load", "sea_level"] then
    match pyToFloat v with
    | .error e => .error e
    | .ok a =>
      if name = "plain_slope" then
        if a = 0 then .error .zeroDivision else .ok (d.setPlainSlope a, w)
      else if name = "wave_base" then .ok ({ d with waveBase := a }, w)
      else if name = "shoreface_height" then .ok ({ d with shorefaceHeight := a }, w)
      else if name = "alpha" then .ok ({ d with alpha := a }, w)
      else if name = "shelf_slope" then .ok ({ d with shelfSlope := a }, w)
      else if name = "sediment_load" then .ok (d.setSedimentLoad a, w)
      else .ok (d, { w with seaLevel := a })
  else .ok (d, w)

/-- `setattr` on `Fluvial`, whose arguments are plain attributes
(`/repo/sequence/fluvial.py:107-112`); `hemipelagic` is kept as `hemi`. The fixed parameters (94-105)
are constants of the model, so assigning them is not modelled. A value that is not a number is
accepted by python and fails in the next step; here it fails at once. -/
def fluvialSetattr (name : String) (v : PyValue) (P : FluvialParams K) :
    Except Err (FluvialParams K) :=
  if name ∈ ["sand_frac", "sediment_load", "sand_density", "plain_slope", "wave_base",
      "hemi"] then
    match pyToFloat v with
    | .error e => .error e
    | .ok a =>
      if name = "sand_frac" then .ok { P with sandFrac := a }
      else if name = "sediment_load" then .ok { P with load := a }
      else if name = "sand_density" then .ok { P with sandDensity := a }
      else if name = "plain_slope" then .ok { P with plainSlope := a }
      else if name = "wave_base" then .ok { P with waveBase := a }
      else .ok { P with hemi := a }
  else .ok P

/-- `setattr` on `SedimentFlexure` and `WaterFlexure`
(`/repo/sequence/sediment_flexure.py:71-74, 413-462`): `isostasy_time` and the bulk densities have
no setter; the setters of the densities (`sediment`) validate; no step reads the densities, so
they are not part of the state. -/
def flexureSetattr (sediment : Bool) (name : String) (v : PyValue) : Except Err Unit :=
  if name = "isostasy_time" then .error .attributeError
  else if sediment ∧ (name = "sand_bulk_density" ∨ name = "mud_bulk_density") then
    .error .attributeError
  else if sediment ∧ name ∈ ["sand_density", "mud_density", "water_density"] then
    match (pyToFloat v : Except Err K) with
    | .error e => .error e
    | .ok a =>
      match validateDensity a with
      | .error e => .error e
      | .ok _ => .ok ()
  else .ok ()

/-- `setattr` on `ShorelineFinder` (`/repo/sequence/shoreline.py:102-105`): `alpha` has no
setter. -/
def shorelineSetattr (name : String) : Except Err Unit :=
  if name = "alpha" then .error .attributeError else .ok ()

/-- The value of an interval: an integer or not. -/
def pyToInterval : PyValue → PyNumber K
  | .inl (.num q) => if q.den = 1 then .int q.num else .float (q : K)
  | _ => .other

/-- The names in a value; a text is the sequence of its characters. -/
def pyToNames : PyValue → Except Err (List String)
  | .inl (.list xs) => .ok (xs.filterMap fun | .str s => some s | _ => none)
  | .inl (.tup xs) => .ok (xs.filterMap fun | .str s => some s | _ => none)
  | .inl (.str s) => .ok (s.toList.map Char.toString)
  | .inr d => .ok d.keys
  | _ => .error .typeError

/-- `setattr` on `OutputWriter` (`/repo/sequence/output_writer.py:88-125`): the setters of
`filepath`, `interval` and `fields`. Fields that are not texts are dropped here. The arguments
`clobber` and `rows` of the constructor are kept under other names. -/
def writerSetattr (name : String) (v : PyValue) (s : Writer K × FileSystem K A) :
    Except Err (Writer K × FileSystem K A) :=
  if name = "filepath" then
    match v with
    | .inl (.str path) =>
      match setFilepath s.1.clobber (some s.1.filepath) path s.2 with
      | ((_, _), .error e) => .error e
      | ((p, fs), .ok _) => .ok ({ s.1 with filepath := p.getD s.1.filepath }, fs)
    | _ => .error .typeError
  else if name = "interval" then
    match checkInterval (pyToInterval v : PyNumber K) with
    | .error e => .error e
    | .ok n => .ok ({ s.1 with interval := n }, s.2)
  else if name = "fields" then
    match pyToNames v with
    | .error e => .error e
    | .ok names => .ok ({ s.1 with fields := names }, s.2)
  else .ok s

/-- What a model keeps of its components: the attributes of the processes, the writer and the
files. -/
abbrev LiveState (R C : ℕ) (K A : Type*) := ProcState R C K × (Writer K × FileSystem K A)

/-- A running `SequenceModel` with an output writer: its processes with the arguments they hold,
and its state. -/
structure Live (R C : ℕ) (K A : Type*) where
  procs : List (Process K)
  state : ModelState (LiveState R C K A) R (C + 2) K

/-- `setattr(c, name, value)` on a process. -/
def Process.setattr (env : Env R C K) (inp : Inputs K) (name : String) (v : PyValue)
    (p : Process K) (s : ProcState R C K × World R (C + 2) K) :
    Except Err (Process K × ProcState R C K × World R (C + 2) K) :=
  match p with
  | .seaLevel curve start =>
    match seaLevelSetattr inp name v curve s.1.seaTime with
    | .error e => .error e
    | .ok (f, t) => .ok (.seaLevel f start, { s.1 with seaTime := t }, s.2)
  | .subsidence curve =>
    match subsidenceSetattr inp env.x name v s.1.rate with
    | .error e => .error e
    | .ok rate => .ok (.subsidence curve, { s.1 with rate := rate }, s.2)
  | .compaction => .ok (.compaction, s.1, s.2)
  | .diffusion P =>
    match diffuserSetattr name v s.1.diffuser s.2 with
    | .error e => .error e
    | .ok (d, w) => .ok (.diffusion P, { s.1 with diffuser := d }, w)
  | .fluvial P =>
    match fluvialSetattr name v P with
    | .error e => .error e
    | .ok P' => .ok (.fluvial P', s.1, s.2)
  | .flexure t =>
    match flexureSetattr (K := K) true name v with
    | .error e => .error e
    | .ok _ => .ok (.flexure t, s.1, s.2)
  | .waterFlexure t =>
    match flexureSetattr (K := K) false name v with
    | .error e => .error e
    | .ok _ => .ok (.waterFlexure t, s.1, s.2)
  | .shoreline alpha =>
    match shorelineSetattr name with
    | .error e => .error e
    | .ok _ => .ok (.shoreline alpha, s.1, s.2)

/-- The same in a list of processes, for the one with the given name. -/
def setattrNamed (env : Env R C K) (inp : Inputs K) (comp name : String) (v : PyValue) :
    List (Process K) → ProcState R C K × World R (C + 2) K →
      Except Err (List (Process K) × ProcState R C K × World R (C + 2) K)
  | [], _ => .error (.keyError comp)
  | p :: ps, s =>
    if p.name = comp then
      match p.setattr env inp name v s with
      | .error e => .error e
      | .ok (p', s') => .ok (p' :: ps, s')
    else
      match setattrNamed env inp comp name v ps s with
      | .error e => .error e
      | .ok (ps', s') => .ok (p :: ps', s')

/-- `setattr(self._components[comp], name, value)`. -/
def Live.setattr (env : Env R C K) (inp : Inputs K) (comp name : String) (v : PyValue)
    (l : Live R C K A) : Except Err (Live R C K A) :=
  if comp = "output" then
    match writerSetattr name v l.state.comps.2 with
    | .error e => .error e
    | .ok q => .ok { l with state := { l.state with comps := (l.state.comps.1, q) } }
  else
    match setattrNamed env inp comp name v l.procs (l.state.comps.1, l.state.world) with
    | .error e => .error e
    | .ok (ps, s, w) =>
      .ok ⟨ps, { l.state with comps := (s, l.state.comps.2), world := w }⟩

/-- `component in self._components`. -/
def Live.has (l : Live R C K A) (comp : String) : Bool :=
  comp = "output" || (l.procs.map Process.name).contains comp

/-- The inner loop of `set_params` (`/repo/sequence/sequence_model.py:296-297`). -/
def Live.setSection (env : Env R C K) (inp : Inputs K) (comp : String) :
    Doc → Live R C K A → Except Err (Live R C K A)
  | .nil, l => .ok l
  | .leaf k v r, l =>
    match l.setattr env inp comp k (.inl v) with
    | .error e => .error e
    | .ok l' => Live.setSection env inp comp r l'
  | .sub k d r, l =>
    match l.setattr env inp comp k (.inr d) with
    | .error e => .error e
    | .ok l' => Live.setSection env inp comp r l'

/-- `set_params` (`/repo/sequence/sequence_model.py:286-297`). -/
def Live.setParams (env : Env R C K) (inp : Inputs K) :
    Doc → Live R C K A → Except Err (Live R C K A)
  | .nil, l => .ok l
  | .leaf k _ _, l => if l.has k then .error .attributeError else .error (.keyError k)
  | .sub k d r, l =>
    if l.has k then
      match l.setSection env inp k d with
      | .error e => .error e
      | .ok l' => Live.setParams env inp r l'
    else .error (.keyError k)

/-- `advance_components(dt)` with the arguments the processes now hold. -/
def Live.advance (env : Env R C K) (view : ProcState R C K → World R (C + 2) K → GridView A)
    (porosity : LiveState R C K A → K) (time dt : K) (l : Live R C K A) :
    Except Err (Live R C K A) :=
  match advanceComponents (withWriter view (l.procs.map (Process.component env))) porosity time dt
      l.state with
  | .error e => .error e
  | .ok s => .ok { l with state := s }

/-- `model.set_params(params.update(1))` (`/repo/sequence/cli.py:311`). -/
def liveRound (env : Env R C K) (inp : Inputs K) (s : Cfg × Live R C K A) :
    Except Err (Cfg × Live R C K A) :=
  match s.1.update 1 with
  | .error e => .error e
  | .ok (d, c) =>
    match s.2.setParams env inp d with
    | .error e => .error e
    | .ok l => .ok (c, l)

/-- The loop of `sequence run` (`/repo/sequence/cli.py:308-312`) on the package's own processes. -/
def liveRun (env : Env R C K) (inp : Inputs K)
    (view : ProcState R C K → World R (C + 2) K → GridView A) (porosity : LiveState R C K A → K) :
    ℕ → Clock K → Cfg × Live R C K A → Option (Clock K × Except Err (Cfg × Live R C K A)) :=
  cliLoop
    (fun time dt s =>
      match s.2.advance env view porosity time dt with
      | .error e => .error e
      | .ok l => .ok (s.1, l))
    (liveRound env inp)

end Verif
