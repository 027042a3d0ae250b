import Mathlib.Analysis.SpecialFunctions.Trigonometric.Basic
import Verif.Model.Interp
import Verif.Model.Driver

/-!
# Sea level, subsidence and bathymetry

`/repo/sequence/sea_level.py`, `/repo/sequence/subsidence.py`, `/repo/sequence/bathymetry.py`.
-/

set_option autoImplicit false

namespace Verif

variable {K σ : Type*} {R C : ℕ} [Field K] [LinearOrder K]

/-! ## Sea level -/

/-- What a step of the sea-level component reads and writes: its own time and the two grid
fields. The increment does not exist before the first step. -/
@[ext] structure SeaState (K : Type*) where
  time : K
  level : K
  incr : Option K
  deriving DecidableEq

/-- `SeaLevelTimeSeries.run_one_step` (`/repo/sequence/sea_level.py:113-127`), also used by
`SinusoidalSeaLevel`. The time has already been advanced if evaluating the curve raises. -/
def seaStep (curve : Curve K) (dt : K) (s : SeaState K) : SeaState K × Option Err :=
  let time := s.time + dt
  match curve time with
  | .error e => (⟨time, s.level, s.incr⟩, some e)
  | .ok new => (⟨time, new, some (new - s.level)⟩, none)

/-- The sea-level component as a component of a driver; `get` and `set` find its time in the state
of all components. -/
def seaComponent (curve : Curve K) (get : σ → K) (set : K → σ → σ) : Component σ R C K :=
  fun dt x =>
    match seaStep curve dt ⟨get x.1, x.2.seaLevel, x.2.seaIncr⟩ with
    | (_, some e) => .error e
    | (s, none) => .ok (set s.time x.1, { x.2 with seaLevel := s.level, seaIncr := s.incr })

/-- The curve of `SinusoidalSeaLevel` (`/repo/sequence/sea_level.py:162-173`). With a wave length
of 0 Python raises `ZeroDivisionError` when the curve is evaluated. `0.3` is `3/10`. -/
noncomputable def sinusoidalCurve (waveLength amplitude phase mean linear : ℝ) : Curve ℝ :=
  fun time =>
    let w := waveLength / (2 * Real.pi)
    if w = 0 then .error .zeroDivision
    else .ok ((Real.sin ((time - phase) / w) + 3 / 10 * Real.sin ((2 * (time - phase)) / w)) *
      amplitude + mean + linear * time)

/-! ## Subsidence -/

/-- `SubsidenceTimeSeries._calc_subsidence_rate` (`/repo/sequence/subsidence.py:84-85`), called by
the constructor and by the setter of `filepath`. -/
def subsidenceRate (curve : Curve K) (x : Fin C → K) : Except Err (Fin C → K) :=
  curve.atColumns x

/-- `SubsidenceTimeSeries.run_one_step` (`/repo/sequence/subsidence.py:106-118`); the rate of a
column applies to every active row (numpy broadcasting). The constructor makes sure the field
exists (lines 49-50). The component's own `_time`, which nothing reads, is left out. -/
def subsidenceStep (rate : Fin C → K) (dt : K) (w : World R C K) : Except Err (World R C K) :=
  match w.increment with
  | none => .error (.keyError "bedrock_surface__increment_of_elevation")
  | some f => .ok { w with
      increment := some (setProfile f fun r c => getProfile f r c + rate c * dt) }

/-- The subsidence component as a component of a driver. -/
def subsidenceComponent (rate : Fin C → K) : Component σ R C K := fun dt x =>
  match subsidenceStep rate dt x.2 with
  | .error e => .error e
  | .ok w => .ok (x.1, w)

/-! ## Bathymetry -/

/-- `BathymetryReader.run_one_step` (`/repo/sequence/bathymetry.py:82-92`): every row of the grid
gets the profile. -/
def bathymetryStep (curve : Curve K) (x : Fin C → K) (w : World R C K) :
    Except Err (World R C K) :=
  match curve.atColumns x with
  | .error e => .error e
  | .ok z => .ok { w with topo := fun n => z n.2 }

/-- Where `_create_initial_profile` puts the shore (`/repo/sequence/bathymetry.py:105-106`). -/
def initialShore (x0 xEnd initShore : K) : K :=
  if xEnd < initShore then (x0 + xEnd) / 2 else initShore

/-- The elevation at one point (`/repo/sequence/bathymetry.py:110-114`). -/
noncomputable def initialElevation (slPlain hgt alpha slSh shore x : ℝ) : ℝ :=
  if x < shore then (shore - x) * slPlain
  else (shore - x) * slSh - hgt * (1 - Real.exp ((shore - x) * alpha))

/-- `_create_initial_profile` (`/repo/sequence/bathymetry.py:95-116`). The parameter `wavebase` is
not used by the code. -/
noncomputable def initialProfile (slPlain initShore hgt alpha slSh : ℝ) (x : List ℝ) :
    Except Err (List ℝ) :=
  match x.head?, x.getLast? with
  | some x0, some xEnd =>
    .ok (x.map (initialElevation slPlain hgt alpha slSh (initialShore x0 xEnd initShore)))
  | _, _ => .error .indexError

end Verif
