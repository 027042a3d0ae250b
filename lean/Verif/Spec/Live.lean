import Verif.Model.Live
import Verif.Spec.Config

/-! # Parameters that change while a model runs -/

set_option autoImplicit false

namespace Verif.Spec

variable {K A : Type*} {R C : ℕ}

/-- Arguments of the constructors of the package (component, argument) whose later changes are
ignored. -/
def ignoredParameters : List (String × String) :=
  [("sea_level", "kind"), ("sea_level", "start"), ("sea_level", "wave_length"),
    ("sea_level", "amplitude"), ("sea_level", "phase"), ("sea_level", "mean"),
    ("sea_level", "linear"), ("subsidence", "kind"), ("submarine_diffusion", "load_sealevel"),
    ("submarine_diffusion", "basin_width"), ("fluvial", "hemipelagic"), ("fluvial", "sea_level"),
    ("flexure", "isostasytime"), ("water_flexure", "isostasytime"), ("output", "clobber"),
    ("output", "rows")]

/-- The arguments of a constructor, by component; `eet` and the other arguments of landlab's
flexure and diffusion are left out. -/
def constructorArguments : List (String × List String) :=
  [("sea_level", ["filepath", "kind", "start", "wave_length", "amplitude", "phase", "mean",
      "linear"]),
    ("subsidence", ["filepath", "kind"]),
    ("submarine_diffusion", ["sea_level", "plain_slope", "wave_base", "shoreface_height", "alpha",
      "shelf_slope", "sediment_load", "load_sealevel", "basin_width"]),
    ("fluvial", ["sand_frac", "wave_base", "sediment_load", "sand_density", "plain_slope",
      "hemipelagic", "sea_level"]),
    ("flexure", ["sand_density", "mud_density", "isostasytime", "water_density"]),
    ("water_flexure", ["isostasytime"]),
    ("shoreline", ["alpha"]),
    ("output", ["filepath", "interval", "fields", "clobber", "rows"])]

/-- Attributes of the components (component, attribute) that can be read only. -/
def readOnlyAttributes : List (String × String) :=
  [("subsidence", "subsidence_rate"), ("subsidence", "time"), ("submarine_diffusion", "load0"),
    ("submarine_diffusion", "k_land"), ("submarine_diffusion", "time"),
    ("flexure", "isostasy_time"), ("flexure", "sand_bulk_density"), ("flexure", "mud_bulk_density"),
    ("water_flexure", "isostasy_time"), ("shoreline", "alpha")]

/-- All changes of the configuration after time 0 are of parameters in the list. -/
def ChangesOnly (params : List (String × String)) (sections : List (Rat × Doc)) : Prop :=
  ∀ (k : ℕ) (path : List String),
    configAt sections (k + 1) path ≠ configAt sections k path →
      ∃ p ∈ params, path = [p.1, p.2]

/-- The components of a model. -/
def componentNames (l : Live R C K A) : List String := l.procs.map Process.name ++ ["output"]

/-- The arguments of `Fluvial` with one of them replaced. -/
def fluvialWith (P : FluvialParams K) : String → K → FluvialParams K
  | "sand_frac", v => ⟨v, P.waveBase, P.load, P.sandDensity, P.plainSlope, P.hemi⟩
  | "wave_base", v => ⟨P.sandFrac, v, P.load, P.sandDensity, P.plainSlope, P.hemi⟩
  | "sediment_load", v => ⟨P.sandFrac, P.waveBase, v, P.sandDensity, P.plainSlope, P.hemi⟩
  | "sand_density", v => ⟨P.sandFrac, P.waveBase, P.load, v, P.plainSlope, P.hemi⟩
  | "plain_slope", v => ⟨P.sandFrac, P.waveBase, P.load, P.sandDensity, v, P.hemi⟩
  | "hemipelagic", v => ⟨P.sandFrac, P.waveBase, P.load, P.sandDensity, P.plainSlope, v⟩
  | _, _ => P

/-- The arguments of `SubmarineDiffuser` with one of those replaced that can be set. -/
def diffuserWith (P : DiffuserParams K) : String → K → DiffuserParams K
  | "plain_slope", v => { P with plainSlope := v }
  | "wave_base", v => { P with waveBase := v }
  | "shoreface_height", v => { P with shorefaceHeight := v }
  | "alpha", v => { P with alpha := v }
  | "shelf_slope", v => { P with shelfSlope := v }
  | "sediment_load", v => { P with sedimentLoad := v }
  | _, _ => P

/-- What happens to a diffuser in the course of a run: a parameter is set, it makes a step, the other
components change the grid. -/
inductive DiffuserEvent (R C : ℕ) (K : Type*) where
  | set (name : String) (value : PyValue)
  | step (dt : K)
  | others (f : World R (C + 2) K → World R (C + 2) K)

variable [Field K] [LinearOrder K]

/-- What a diffuser does in response: parameters are set with `setattr`. -/
def diffuserSet (env : Env R C K) :
    List (DiffuserEvent R C K) → Diffuser R (C + 2) K × World R (C + 2) K →
      Except Err (Diffuser R (C + 2) K × World R (C + 2) K)
  | [], s => .ok s
  | .set name v :: es, s =>
    match diffuserSetattr name v s.1 s.2 with
    | .error e => .error e
    | .ok s' => diffuserSet env es s'
  | .step dt :: es, s =>
    match diffuserStep env.kind env.xtol env.rtol env.expf env.solve env.dx env.x dt s.1 s.2 with
    | .error e => .error e
    | .ok s' => diffuserSet env es s'
  | .others f :: es, s => diffuserSet env es (s.1, f s.2)

/-- The same if the diffuser were created anew on the grid for each change, with all the arguments
it then has; the diffusivities of the last step are a field of the grid. -/
def diffuserRecreated (env : Env R C K) :
    List (DiffuserEvent R C K) →
      DiffuserParams K × Diffuser R (C + 2) K × World R (C + 2) K →
      Except Err (DiffuserParams K × Diffuser R (C + 2) K × World R (C + 2) K)
  | [], s => .ok s
  | .set name v :: es, (P, d, w) =>
    match (pyToFloat v : Except Err K) with
    | .error e => .error e
    | .ok a =>
      let P' := diffuserWith P name a
      match diffuserInit w.seaLevel P'.plainSlope P'.waveBase P'.shorefaceHeight P'.alpha
          P'.shelfSlope P'.sedimentLoad P'.loadSeaLevel P'.basinWidth (some d.kd) w with
      | .error e => .error e
      | .ok (d', w') => diffuserRecreated env es (P', d', w')
  | .step dt :: es, (P, d, w) =>
    match diffuserStep env.kind env.xtol env.rtol env.expf env.solve env.dx env.x dt d w with
    | .error e => .error e
    | .ok (d', w') => diffuserRecreated env es (P, d', w')
  | .others f :: es, (P, d, w) => diffuserRecreated env es (P, d, f w)

end Verif.Spec
