import Verif.Model.Shoreline

/-!
# Submarine diffusion

`/repo/sequence/submarine.py`. The exponential is a parameter (`np.exp`); the theorems that need
its properties use the real exponential. landlab's diffusion solver is a parameter too.
-/

set_option autoImplicit false

namespace Verif

variable {K σ : Type*} {R C : ℕ} [Field K] [LinearOrder K]

/-- A `SubmarineDiffuser` (`/repo/sequence/submarine.py:92-115`): its parameters, its attributes
`_load`, `_ksh` and `_time`, the `_sea_level` it remembers, and the fields `kd` and
`at_grid["sediment_load"]`, which no other component uses. -/
structure Diffuser (R C : ℕ) (K : Type*) where
  plainSlope : K
  waveBase : K
  shorefaceHeight : K
  alpha : K
  shelfSlope : K
  load0 : K
  loadSl : K
  basinWidth : K
  load : K
  ksh : K
  seaLevel0 : K
  time : K
  kd : NodeField R C K
  gridLoad : K

/-- `SubmarineDiffuser.__init__` (`/repo/sequence/submarine.py:48-115`): the component and the sea
level it writes to the grid. `self._sea_level` is the array stored at that moment; setting the grid
field later makes a new array (external), so the remembered value never changes. With
`plain_slope = 0` python raises `ZeroDivisionError`. -/
def diffuserInit (seaLevel plainSlope waveBase shorefaceHeight alpha shelfSlope sedimentLoad
    loadSeaLevel basinWidth : K) (kd : Option (NodeField R C K)) (w : World R C K) :
    Except Err (Diffuser R C K × World R C K) :=
  let load := sedimentLoad * (1 + seaLevel * loadSeaLevel)
  if plainSlope = 0 then .error .zeroDivision
  else .ok (
    { plainSlope := plainSlope, waveBase := waveBase, shorefaceHeight := shorefaceHeight
      alpha := alpha, shelfSlope := shelfSlope, load0 := sedimentLoad, loadSl := loadSeaLevel
      basinWidth := basinWidth, load := load, ksh := load / plainSlope, seaLevel0 := seaLevel
      time := 0, kd := kd.getD fun _ => 0, gridLoad := load },
    { w with seaLevel := seaLevel })

/-- The setter of `sediment_load` (`/repo/sequence/submarine.py:168-173`). -/
def Diffuser.setSedimentLoad (s : Diffuser R C K) (value : K) : Diffuser R C K :=
  let load := value * (1 + s.seaLevel0 * s.loadSl)
  { s with load0 := value, load := load, ksh := load / s.plainSlope, gridLoad := load }

/-- The setter of `plain_slope` (`/repo/sequence/submarine.py:122-125`). Setting 0 is a division by
zero; the theorems exclude it. -/
def Diffuser.setPlainSlope (s : Diffuser R C K) (value : K) : Diffuser R C K :=
  { s with plainSlope := value, ksh := s.load / value }

/-- The diffusivity of a submerged node (`/repo/sequence/submarine.py:250-266`), with the load in
force when the row is reached. With a wave base of 0 numpy's exponent is minus infinity and the
factor 0. -/
def wetDiffusivity (expf : K → K) (s : Diffuser R C K) (load dx x shore depth : K) : K :=
  let b := (s.shorefaceHeight * s.alpha + s.shelfSlope) * dx
  let k := load * ((x - shore) + dx) / (depth + b)
  if s.waveBase < depth then
    if s.waveBase = 0 then 0 else k * expf (-(depth - s.waveBase) / s.waveBase)
  else k

/-- `calc_diffusion_coef` divides by no zero (`/repo/sequence/submarine.py:254-272`). -/
def Diffuser.Regular (s : Diffuser R C K) (dx : K) (w : World R C K) : Prop :=
  s.plainSlope ≠ 0 ∧ ∀ (r : Fin R) (c : Fin C), 0 < w.seaLevel - getProfile w.topo r c →
    w.seaLevel - getProfile w.topo r c + (s.shorefaceHeight * s.alpha + s.shelfSlope) * dx ≠ 0

instance (s : Diffuser R C K) (dx : K) (w : World R C K) : Decidable (s.Regular dx w) := by
  unfold Diffuser.Regular
  infer_instance

/-- The diffusivity of a node on land (`/repo/sequence/submarine.py:271-280`). -/
def landDiffusivity (s : Diffuser R C K) (ksh x : K) (channel : Bool) : K :=
  let k := if 0 < s.basinWidth then ksh * (s.basinWidth + x) / s.basinWidth else ksh
  if channel then k else k * (1 / 2)

/-- The load that goes with a sea level (`/repo/sequence/submarine.py:268`). -/
def Diffuser.newLoad (s : Diffuser R C K) (seaLevel : K) : K :=
  s.load0 * (1 + seaLevel * s.loadSl)

/-- The loop over the rows of `calc_diffusion_coef` (`/repo/sequence/submarine.py:249-280`). The
load is updated in the middle of the body: after the submerged nodes, before the land. -/
def diffusivityLoop (expf : K → K) (dx : K) (x : Fin C → K) (shore : Fin R → K)
    (w : World R C K) : List (Fin R) → Diffuser R C K → Diffuser R C K
  | [], s => s
  | r :: rs, s =>
    let load := s.newLoad w.seaLevel
    let ksh := load / s.plainSlope
    let row : Fin C → K := fun c =>
      let depth := w.seaLevel - getProfile w.topo r c
      if 0 < depth then wetDiffusivity expf s s.load dx (x c) (shore r) depth
      else landDiffusivity s ksh (x c) (decide (r.val = R / 2))
    diffusivityLoop expf dx x shore w rs { s with
      load := load
      ksh := ksh
      kd := fun n => if n.1 = activeRow r then row n.2 else s.kd n }

/-- `calc_diffusion_coef` (`/repo/sequence/submarine.py:199-304`) for one shoreline position per
row. At the end the first boundary row is copied from its neighbour; `k[-1, :] = k[-1, :]` has no
effect. -/
def calcDiffusionCoef (expf : K → K) (dx : K) (x : Fin C → K) (shore : Fin R → K)
    (w : World R C K) (s : Diffuser R C K) : Diffuser R C K :=
  let s1 := diffusivityLoop expf dx x shore w (List.finRange R) s
  { s1 with kd := fun n => if n.1 = 0 then s1.kd (1, n.2) else s1.kd n }

/-- `z[1:-1, 0] = z[1:-1, 1] + plain_slope * (x[1] - x[0])` (`/repo/sequence/submarine.py:328-330`;
line 328 writes one of the same nodes). -/
def setUpstream (slope : K) (x : Fin (C + 2) → K) (z : NodeField R (C + 2) K) :
    NodeField R (C + 2) K := fun n =>
  match activeIndex n.1 with
  | some _ => if n.2 = 0 then z (n.1, 1) + slope * (x 1 - x 0) else z n
  | none => z n

/-- `SubmarineDiffuser.run_one_step` (`/repo/sequence/submarine.py:306-341`) on a grid with at
least two columns. `solve kd dt z` is landlab's `LinearDiffuser.run_one_step`, which changes only
the topography. The field `kd` of the model holds no infinity and no NaN: a step that would store
one is an error here (`runtimeError`), which the code does not raise. -/
def diffuserStep (kind : InterpKind K) (xtol rtol : K) (expf : K → K)
    (solve : NodeField R (C + 2) K → K → NodeField R (C + 2) K →
      Except Err (NodeField R (C + 2) K))
    (dx : K) (x : Fin (C + 2) → K) (dt : K) (s : Diffuser R (C + 2) K) (w : World R (C + 2) K) :
    Except Err (Diffuser R (C + 2) K × World R (C + 2) K) :=
  match overRows (fun r => shorelineRow kind xtol rtol (List.ofFn x) (rowList w.topo r)
      w.seaLevel) with
  | .error e => .error e
  | .ok shore =>
    if s.Regular dx w then
      let s1 := calcDiffusionCoef expf dx x shore w s
      let before := setUpstream s1.plainSlope x w.topo
      match solve s1.kd dt before with
      | .error e => .error e
      | .ok after =>
        .ok ({ s1 with time := s1.time + dt },
          { w with topo := before, deposit := fun n => w.deposit n + (after n - before n) })
    else .error .runtimeError

/-- The diffuser as a component of a driver. -/
def diffuserComponent (kind : InterpKind K) (xtol rtol : K) (expf : K → K)
    (solve : NodeField R (C + 2) K → K → NodeField R (C + 2) K →
      Except Err (NodeField R (C + 2) K))
    (dx : K) (x : Fin (C + 2) → K) (get : σ → Diffuser R (C + 2) K)
    (set : Diffuser R (C + 2) K → σ → σ) : Component σ R (C + 2) K := fun dt p =>
  match diffuserStep kind xtol rtol expf solve dx x dt (get p.1) p.2 with
  | .error e => .error e
  | .ok (s, w) => .ok (set s p.1, w)

end Verif
