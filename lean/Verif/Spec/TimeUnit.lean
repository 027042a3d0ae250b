import Verif.Spec.Symmetry

/-!
# The same basin in another unit of time

Times are numbers of a unit, years for example. In a unit that is `u` times smaller all times are
`u` times larger numbers and all rates are `u` times smaller numbers; lengths are the same.
-/

set_option autoImplicit false

namespace Verif.Spec

variable {ι K : Type*} {R C : ℕ} [Field K] [LinearOrder K]

/-- The same record of layers with ages in the other unit. The last two say that the ages are
recorded. -/
structure LayersTimed (u : K) (l l' : EventLayers ι K) : Prop where
  n : l'.n = l.n
  tracking : l'.tracking = l.tracking
  dz : l'.dz = l.dz
  age : ∀ s, l'.prop "age" s = (l.prop "age" s).map (· * u)
  others : ∀ k, k ≠ "age" → l'.prop k = l.prop k
  full : ∀ s, (l.prop "age" s).length = l.n
  tracked : l.n ≠ 0 → "age" ∈ l.tracking

/-- The same grid: only the ages of the layers are other numbers. -/
structure WorldTimed (u : K) (w w' : World R C K) : Prop where
  rest : w' = { w with layers := w'.layers }
  layers : LayersTimed u w.layers w'.layers

/-- The same diffuser: sediment loads and diffusivities are rates. -/
def timedDiffuser (u : K) (d : Diffuser R C K) : Diffuser R C K :=
  { d with
    load0 := d.load0 / u, load := d.load / u, ksh := d.ksh / u, gridLoad := d.gridLoad / u
    kd := fun n => d.kd n / u, time := d.time * u }

/-- The same state of the two flexures: isostasy times are times. -/
def timedFlex (u : K) (f : FlexState R C K) : FlexState R C K :=
  { f with
    sed := { f.sed with isoTime := f.sed.isoTime.map (· * u) }
    water := { f.water with isoTime := f.water.isoTime.map (· * u) } }

/-- The same attributes of all components. -/
structure ProcTimed (u : K) (p p' : ProcState R C K) : Prop where
  seaTime : p'.seaTime = p.seaTime * u
  rate : ∀ c, p'.rate c = p.rate c / u
  diffuser : p'.diffuser = timedDiffuser u p.diffuser
  flex : p'.flex = timedFlex u p.flex

/-- The same arguments in the other unit: the times of the sea level and the isostasy times are
times; rates of subsidence, sediment loads and the hemipelagic sedimentation are rates. -/
def timedProcess (u : K) : Process K → Process K
  | .seaLevel curve start => .seaLevel (fun t => curve (t / u)) (start * u)
  | .subsidence curve => .subsidence fun x => (curve x).map (· / u)
  | .diffusion P => .diffusion { P with sedimentLoad := P.sedimentLoad / u }
  | .fluvial P => .fluvial { P with load := P.load / u, hemi := P.hemi / u }
  | .flexure t => .flexure (t.map (· * u))
  | .waterFlexure t => .waterFlexure (t.map (· * u))
  | p => p

/-- The same state. -/
def StateTimed (u : K) (s s' : ProcState R C K × World R (C + 2) K) : Prop :=
  ProcTimed u s.1 s'.1 ∧ WorldTimed u s.2 s'.2

/-- The same model. -/
structure ModelTimed (u : K) (m m' : ModelState (ProcState R C K) R (C + 2) K) : Prop where
  comps : ProcTimed u m.comps m'.comps
  world : WorldTimed u m.world m'.world
  archived : m'.archived = m.archived

/-- The same clock. -/
def timedClock (u : K) (c : Clock K) : Clock K :=
  { start := c.start * u, stop := c.stop.map (· * u), step := c.step * u, time := c.time * u }

/-- Two runs that are both still going, or have both ended, at the same time in the two units, with
results that are alike. -/
inductive SameEndTimed {W : Type*} (u : K) (r : W → W → Prop) :
    Option (Clock K × Except Err W) → Option (Clock K × Except Err W) → Prop where
  | running : SameEndTimed u r none none
  | ended (c : Clock K) {x y : Except Err W} (h : Alike r x y) :
      SameEndTimed u r (some (c, x)) (some (timedClock u c, y))

/-- What does not depend on the unit of time. Diffusion depends on the product of diffusivity and
time, and compaction does not look at ages (asked only of processes that are used). An isostasy time
that counts as zero does so in both units. The external functions are the same in both units, except
that the square root of which the river's transport capacity is made is `u` times smaller if there
is a river: the capacity is a rate. -/
structure UnitFree (u : K) (ps : List (Process K)) (env env' : Env R C K) : Prop where
  same : env' = { env with sqrtf := env'.sqrtf }
  capacity : (∃ P, Process.fluvial P ∈ ps) → ∀ v, env'.sqrtf v = env.sqrtf v / u
  solve : (∃ P, Process.diffusion P ∈ ps) → ∀ kd dt z,
    env.solve (fun n => kd n / u) (dt * u) z = env.solve kd dt z
  compact : Process.compaction ∈ ps → ∀ dt l l', LayersTimed u l l' →
    Alike (LayersTimed u) (env.compact dt l) (env.compact (dt * u) l')
  isostasy : ∀ t, Process.flexure (some t) ∈ ps ∨ Process.waterFlexure (some t) ∈ ps →
    (|t * u| ≤ 1 / 10 ^ 8 ↔ |t| ≤ 1 / 10 ^ 8)

end Verif.Spec
