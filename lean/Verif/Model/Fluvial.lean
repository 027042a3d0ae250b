import Verif.Model.XNum
import Verif.Model.Shoreline

/-!
# The sand fraction of the delta plain and hemipelagic mud

`/repo/sequence/fluvial.py`. The component works on the middle row only. Python numbers raise
`ZeroDivisionError` when divided by zero, numpy numbers do not (`XNum`). The exponential and the
square root are parameters.
-/

set_option autoImplicit false

namespace Verif

open XNum

variable {K σ : Type*} {R C : ℕ} [Field K] [LinearOrder K]

/-- The parameters of `Fluvial` that its step reads (`/repo/sequence/fluvial.py:107-112`). The fixed
parameters (94-105) are written into the formulas: `sand_grain` 0.001, `alpha` 10, `beta` 0.1,
`flood_period` 10, `basin_width` 10000, `hemi_taper` 100000. -/
structure FluvialParams (K : Type*) where
  sandFrac : K
  waveBase : K
  load : K
  sandDensity : K
  plainSlope : K
  hemi : K

/-- `np.gradient(z)` (external) for at least two values. -/
def npGradient (z : Fin C → K) (i : Fin C) : K :=
  if h1 : i.val + 1 < C then
    if i.val = 0 then z ⟨i.val + 1, h1⟩ - z i
    else (z ⟨i.val + 1, h1⟩ - z ⟨i.val - 1, by omega⟩) / 2
  else if h0 : 0 < i.val then z i - z ⟨i.val - 1, by omega⟩ else 0

/-- `channel_width` (`/repo/sequence/fluvial.py:129-144`). -/
def channelWidth (sqrtf : K → K) (P : FluvialParams K) : XNum K :=
  let qs := num 10 * XNum.sqrt sqrtf (num (98/10 * (P.sandDensity / 1000 - 1))) * num (1/1000)
  num P.load / qs

/-- `channel_depth` at a node of the given slope (`/repo/sequence/fluvial.py:174-176, 271-273`). -/
def channelDepth (P : FluvialParams K) (slope : K) : XNum K :=
  num ((P.sandDensity - 1000) / 1000 * (1/1000)) / num slope

/-- Braided or meandering (`/repo/sequence/fluvial.py:179-182, 202-207`). -/
def channelEpsilon (width depth : XNum K) : XNum K :=
  if XNum.lt (num 75) (width / depth) then num (4/10) else num (1/8)

/-- The two tests that keep a fraction in [0, 1] (`/repo/sequence/fluvial.py:243-246`). -/
def clipPercent (p : XNum K) : XNum K :=
  let p1 := if XNum.lt (num 1) p then num 1 else p
  if XNum.lt p1 (num 0) then num 0 else p1

/-- The body of the loop over the nodes on land, as far as `percent_sand[i]`
(`/repo/sequence/fluvial.py:202-249`). `epsilon0` is that of the first node of the row. -/
def nodeSand (expf : K → K) (width depth conc epsilon0 : XNum K) (deposit : K) : XNum K :=
  let epsilon := channelEpsilon width depth
  let widthCb := width / epsilon
  let rcb0 := num deposit * epsilon0
  let rcb1 := if XNum.lt rcb0 (num 0) then num 0 else rcb0
  let rfp0 := num (1/10) * depth / num 10 * conc
  let rfp := if XNum.lt rcb1 rfp0 then rcb1 else rfp0
  if 0 < deposit then
    let bigN := num 10 * (rcb1 - rfp) / num deposit
    let rcb2 := if XNum.lt (num 1) bigN then rcb1 * bigN else rcb1
    let percent0 :=
      if XNum.le rcb2 (num 0) then num 1
      else
        let bigN' := num 10 * (rcb2 - rfp) / num deposit
        num 1 - XNum.exp expf (num (-1) * widthCb / num 10000 * bigN')
    clipPercent percent0
  else num 0

/-- The loop over the nodes on land (`/repo/sequence/fluvial.py:201-273`). `dz` is the bedrock
increment, `conc` and `percent` the arrays `conc_mud` and `percent_sand`. `sand_vol`, which nothing
reads after the loop has begun, is left out. -/
def fluvialLoop (expf : K → K) (P : FluvialParams K) (width epsilon0 : XNum K) (dx dt qw : K)
    (slope deposit dz : Fin C → K) :
    List (Fin C) → XNum K → (Fin C → XNum K) → (Fin C → XNum K) → Except Err (Fin C → XNum K)
  | [], _, _, percent => .ok percent
  | i :: rest, mud, conc, percent =>
    let p := nodeSand expf width (channelDepth P (slope i)) (conc i) epsilon0 (deposit i)
    if h : i.val + 1 < C then
      let mud' := if 0 < dz i then
          mud - (num 1 - p) * num dx * num (dz i + dz ⟨i.val + 1, h⟩) / num 2 / num dt
        else mud
      fluvialLoop expf P width epsilon0 dx dt qw slope deposit dz rest mud'
        (Function.update conc ⟨i.val + 1, h⟩ (mud' / num qw)) (Function.update percent i p)
    else .error .indexError

/-- The body of the loop over the nodes under water (`/repo/sequence/fluvial.py:286-300`): the new
value of `taper` and `add_mud[i]`. -/
def hemipelagicNode (P : FluvialParams K) (dt : K) (x depth : Fin C → K) (taper i : Fin C) :
    Fin C × K :=
  if P.waveBase < depth i ∧ depth i < 2 * P.waveBase then
    (i, (depth i - P.waveBase) / P.waveBase * (P.hemi * dt))
  else if 2 * P.waveBase ≤ depth i then
    let add := P.hemi * dt * (1 - (x i - x taper) / 100000)
    (taper, if add < 0 then 0 else add)
  else (taper, 0)

/-- The loop over the nodes under water (`/repo/sequence/fluvial.py:282-300`). -/
def hemipelagicLoop (P : FluvialParams K) (dt : K) (x depth : Fin C → K) :
    List (Fin C) → Fin C → (Fin C → K) → (Fin C → K)
  | [], _, mud => mud
  | i :: rest, taper, mud =>
    let n := hemipelagicNode P dt x depth taper i
    hemipelagicLoop P dt x depth rest n.1 (Function.update mud i n.2)

/-- `Fluvial.run_one_step` on the middle row (`/repo/sequence/fluvial.py:119-313`): the new
`percent_sand` and the new deposit. The last two statements (307-313) write the sand fraction of
the submerged nodes into a copy (`percent_sand[water]` with a boolean index), so they have no
effect. `shore` is the result of `find_shoreline` for the row. A row of one node makes
`np.gradient` raise. -/
def fluvialRow (expf sqrtf : K → K) (P : FluvialParams K) (dx dt : K)
    (x z deposit dz : Fin C → K) (seaLevel : K) (shore : Except Err K) :
    Except Err ((Fin C → XNum K) × (Fin C → K)) :=
  if P.sandFrac = 0 ∨ P.plainSlope = 0 then .error .zeroDivision
  else
    let mudVol := P.load * (1 - P.sandFrac) / P.sandFrac
    let qw := P.load / P.plainSlope / (61/100)
    if qw = 0 then .error .zeroDivision
    else
      match shore with
      | .error e => .error e
      | .ok shore =>
        if h : 1 < C then
          let width := channelWidth sqrtf P
          let slope : Fin C → K := fun i => npGradient z i / dx
          let land := (List.finRange C).filter fun i => x i < shore
          let water := (List.finRange C).filter fun i => shore ≤ x i
          let first : Fin C := ⟨0, by omega⟩
          let depth0 := if x first < shore then channelDepth P (slope first) else num 0
          let epsilon0 := channelEpsilon width depth0
          let conc : Fin C → XNum K := fun i => if i = first then num (mudVol / qw) else num 0
          match fluvialLoop expf P width epsilon0 dx dt qw slope deposit dz land (num mudVol) conc
              (fun _ => num 0) with
          | .error e => .error e
          | .ok percent =>
            let mud := hemipelagicLoop P dt x (fun i => seaLevel - z i) water ⟨1, h⟩ fun _ => 0
            .ok (percent, fun i => if shore ≤ x i then deposit i + mud i else deposit i)
        else .error .valueError

/-- A field with one active row replaced. -/
def setRow {α : Type*} (f : NodeField R C α) (r : Fin R) (v : Fin C → α) : NodeField R C α :=
  fun n => if n.1 = activeRow r then v n.2 else f n

/-- `Fluvial.run_one_step` (`/repo/sequence/fluvial.py:119-313`) on the grid. The grid of the model
holds no NaN: a step that would store one is an error here (`runtimeError`), which the code does
not raise; `fluvialRow` says what it stores. The fields exist since the constructor creates
them (114-117). -/
def fluvialStep (kind : InterpKind K) (xtol rtol : K) (expf sqrtf : K → K) (P : FluvialParams K)
    (dx dt : K) (x : Fin C → K) (w : World R C K) : Except Err (World R C K) :=
  match w.sand, w.increment with
  | some sand, some inc =>
    if h : R / 2 < R then
      let r : Fin R := ⟨R / 2, h⟩
      match fluvialRow expf sqrtf P dx dt x (getProfile w.topo r) (getProfile w.deposit r)
          (getProfile inc r) w.seaLevel
          (shorelineRow kind xtol rtol (List.ofFn x) (rowList w.topo r) w.seaLevel) with
      | .error e => .error e
      | .ok (percent, deposit) =>
        if ∀ c, (percent c).toNum ≠ none then
          .ok { w with
            sand := some (setRow sand r fun c => (percent c).toNum.getD 0)
            deposit := setRow w.deposit r deposit }
        else .error .runtimeError
    else .error .indexError
  | none, _ => .error (.keyError "delta_sediment_sand__volume_fraction")
  | some _, none => .error (.keyError "bedrock_surface__increment_of_elevation")

/-- The fluvial component as a component of a driver. -/
def fluvialComponent (kind : InterpKind K) (xtol rtol : K) (expf sqrtf : K → K)
    (P : σ → FluvialParams K) (dx : K) (x : Fin C → K) : Component σ R C K := fun dt p =>
  match fluvialStep kind xtol rtol expf sqrtf (P p.1) dx dt x p.2 with
  | .error e => .error e
  | .ok w => .ok (p.1, w)

end Verif
