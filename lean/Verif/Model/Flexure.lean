import Verif.Model.Driver

/-!
# Flexure

`/repo/sequence/sediment_flexure.py`. The exponential, the cosine and landlab's
`Flexure1D.calc_flexure` for one row are parameters.
-/

set_option autoImplicit false

namespace Verif

variable {K σ : Type*} {R C : ℕ} [Field K] [LinearOrder K]

/-! ## Delayed response -/

/-- A value for every node of the active rows. -/
abbrev Profile (R C : ℕ) (K : Type*) := Fin R → Fin C → K

/-- `DynamicFlexure`: `_isostasy_time` and `_subsidence_pool`. -/
structure FlexPool (R C : ℕ) (K : Type*) where
  isoTime : Option K
  pool : Profile R C K

/-- The first lines of the constructor (`/repo/sequence/sediment_flexure.py:37-40`) with
`validate_isostasy_time` (48-69). `np.isclose(t, 0.0)` is `|t| <= 1e-8`. -/
def isostasyTime (t : Option K) : Except Err (Option K) :=
  match t with
  | none => .ok none
  | some t =>
    if |t| ≤ 1 / 10 ^ 8 then .ok none
    else if t < 0 then .error .valueError
    else .ok (some t)

/-- `DynamicFlexure.__init__` (`/repo/sequence/sediment_flexure.py:20-46`). -/
def flexPoolInit (R C : ℕ) (t : Option K) : Except Err (FlexPool R C K) :=
  match isostasyTime t with
  | .error e => .error e
  | .ok t => .ok ⟨t, fun _ _ => 0⟩

/-- `calc_isostasy_fraction` (`/repo/sequence/sediment_flexure.py:76-96`). -/
def isostasyFraction (expf : K → K) (isoTime : Option K) (dt : K) : K :=
  match isoTime with
  | none => 1
  | some t => 1 - expf (-dt / t)

/-- `calc_dynamic_deflection` (`/repo/sequence/sediment_flexure.py:98-123`): the deflection and the
new pool. `grid.shape[0] - 2` is the number of active rows. -/
def dynamicDeflection (expf : K → K) (p : FlexPool R C K) (isostatic : Profile R C K) (dt : K) :
    Profile R C K × FlexPool R C K :=
  let fraction := isostasyFraction expf p.isoTime dt / (R : K)
  let pool := fun r c => p.pool r c + isostatic r c
  let deflection := fun r c => pool r c * fraction
  (deflection, { p with pool := fun r c => pool r c - deflection r c })

/-! ## Densities -/

/-- The densities of a `SedimentFlexure`. -/
structure Densities (K : Type*) where
  water : K
  sand : K
  mud : K
  rhoSand : K
  rhoMud : K
  deriving DecidableEq

/-- `validate_density` (`/repo/sequence/sediment_flexure.py:390-411`). -/
def validateDensity (d : K) : Except Err K := if d ≤ 0 then .error .valueError else .ok d

/-- The density part of `SedimentFlexure.__init__` (`/repo/sequence/sediment_flexure.py:318-327`).
`0.4` is `2/5` and `0.65` is `13/20`. -/
def densitiesInit (sand mud water : K) : Except Err (Densities K) :=
  match validateDensity water with
  | .error e => .error e
  | .ok water =>
    match validateDensity sand with
    | .error e => .error e
    | .ok sand =>
      match validateDensity mud with
      | .error e => .error e
      | .ok mud => .ok ⟨water, sand, mud, calcBulkDensity sand water (2/5),
          calcBulkDensity mud water (13/20)⟩

/-- The setters of the densities. -/
inductive DensityName where
  | sand
  | mud
  | water
  deriving DecidableEq, Repr

/-- The setters of `sand_density`, `mud_density` and `water_density`
(`/repo/sequence/sediment_flexure.py:418-462`): the new state, which is the old one if the setter
raises. -/
def setDensity (name : DensityName) (value : K) (d : Densities K) : Densities K × Option Err :=
  match validateDensity value with
  | .error e => (d, some e)
  | .ok v =>
    match name with
    | .sand =>
      let d1 := { d with sand := v }
      ({ d1 with rhoSand := calcBulkDensity d1.sand d1.water (2/5) }, none)
    | .mud =>
      let d1 := { d with mud := v }
      ({ d1 with rhoMud := calcBulkDensity d1.mud d1.water (13/20) }, none)
    | .water =>
      let d1 := { d with water := v }
      let d2 := { d1 with rhoSand := calcBulkDensity d1.sand d1.water (2/5) }
      ({ d2 with rhoMud := calcBulkDensity d2.mud d2.water (13/20) }, none)

/-! ## The two components -/

/-- What the two components keep: their pools, `_last_load`, and the two scratch fields
`lithosphere__increment_of_overlying_pressure` and `lithosphere_surface__increment_of_elevation`,
which nothing else in the package reads. `_dt` is an argument of the steps. -/
structure FlexState (R C : ℕ) (K : Type*) where
  sed : FlexPool R C K
  lastLoad : Profile R C K
  water : FlexPool R C K
  pressure : NodeField R C K
  litho : NodeField R C K

/-- `total_deflection -= deflection` on the field `bedrock_surface__increment_of_elevation`. -/
def subtractDeflection (deflection : Profile R C K) (w : World R C K) :
    Except Err (World R C K) :=
  match w.increment with
  | none => .error (.keyError "bedrock_surface__increment_of_elevation")
  | some f => .ok { w with
      increment := some (setProfile f fun r c => getProfile f r c - deflection r c) }

/-- `SedimentFlexure.update` with `_dt = dt` (`/repo/sequence/sediment_flexure.py:545-584`).
`flex` is `Flexure1D.update` (external): it replaces the deflection of every active row by that of
the row's pressure. -/
def sedFlexStep (expf : K → K) (flex : (Fin C → K) → Fin C → K) (gravity dx : K) (dt : K)
    (s : FlexState R C K) (w : World R C K) : Except Err (FlexState R C K × World R C K) :=
  match w.sedLoad with
  | none => .error (.keyError "sediment__total_of_loading")
  | some total =>
    let newLoad : Profile R C K := fun r c => getProfile total r c - s.lastLoad r c
    let pressure := setProfile s.pressure fun r c => newLoad r c * gravity * dx
    let litho := setProfile s.litho fun r => flex (getProfile pressure r)
    let d := dynamicDeflection expf s.sed (getProfile litho) dt
    match subtractDeflection d.1 w with
    | .error e => .error e
    | .ok w' => .ok ({ s with
        sed := d.2
        lastLoad := getProfile total
        pressure := pressure
        litho := litho }, w')

/-- `calc_half_plane_deflection` (`/repo/sequence/sediment_flexure.py:186-202`); `xEnd` is
`x[-1]`. -/
def halfPlaneDeflection (expf cosf : K → K) (alpha gammaMantle xEnd : K) (x : Fin C → K) (load : K)
    (c : Fin C) : K :=
  let r := (xEnd - x c) / alpha
  load / (2 * gammaMantle) * expf (-r) * cosf r

/-- `calc_flexure_due_to_water` (`/repo/sequence/sediment_flexure.py:204-226`). -/
def flexureDueToWater (expf cosf : K → K) (flex : (Fin C → K) → Fin C → K)
    (rhoWater gravity dx alpha gammaMantle xEnd : K) (x : Fin C → K) (depth : Profile R C K)
    (seaLevel : K) : Profile R C K := fun r c =>
  flex (fun c => depth r c * rhoWater * gravity * dx) c +
    halfPlaneDeflection expf cosf alpha gammaMantle xEnd x (seaLevel * rhoWater * gravity) c

/-- `WaterFlexure.update` with `_dt = dt` (`/repo/sequence/sediment_flexure.py:228-261`), for any
function `flexWater` of the changes of depth and of sea level. -/
def waterFlexStep (expf : K → K) (flexWater : Profile R C K → K → Profile R C K) (dt : K)
    (s : FlexState R C K) (w : World R C K) : Except Err (FlexState R C K × World R C K) :=
  match w.seaIncr with
  | none => .error (.keyError "sea_level__increment_of_elevation")
  | some dsl =>
    match w.waterIncr with
    | none => .error (.keyError "water__increment_of_depth")
    | some depth =>
      let d := dynamicDeflection expf s.water (flexWater (getProfile depth) dsl) dt
      match subtractDeflection d.1 w with
      | .error e => .error e
      | .ok w' => .ok ({ s with
          water := d.2
          litho := setProfile s.litho fun _ _ => 0 }, w')

/-- A step on the flexure state as a component of a driver. -/
def flexComponent (step : K → FlexState R C K → World R C K →
      Except Err (FlexState R C K × World R C K))
    (get : σ → FlexState R C K) (set : FlexState R C K → σ → σ) : Component σ R C K := fun dt p =>
  match step dt (get p.1) p.2 with
  | .error e => .error e
  | .ok (s, w) => .ok (set s p.1, w)

end Verif
