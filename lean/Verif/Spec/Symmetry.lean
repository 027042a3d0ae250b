import Verif.Model.Processes

/-!
# The same basin on another datum and another calendar

Elevations are measured from a datum and times from an origin. Both are conventions: a basin whose
elevations are all raised by `h` and whose times are all shifted by `τ` is the same basin.
-/

set_option autoImplicit false

namespace Verif.Spec

variable {ι K : Type*} {R C : ℕ} [Field K] [LinearOrder K]

/-- Two results that are both values in the relation, or both the same exception. -/
inductive Alike {α β : Type*} (r : α → β → Prop) : Except Err α → Except Err β → Prop where
  | ok {a : α} {b : β} (h : r a b) : Alike r (.ok a) (.ok b)
  | error (e : Err) : Alike r (.error e) (.error e)

/-- The same record of layers with all ages shifted by `τ`. The water depths are the same too if
`depth` holds. The last two say that the ages are recorded. -/
structure LayersMoved (τ : K) (depth : Prop) (l l' : EventLayers ι K) : Prop where
  n : l'.n = l.n
  tracking : l'.tracking = l.tracking
  dz : ∀ s, l'.dz s = l.dz s
  age : ∀ s, l'.prop "age" s = (l.prop "age" s).map (· + τ)
  depths : depth → ∀ s, l'.prop "water_depth" s = l.prop "water_depth" s
  others : ∀ k, k ≠ "age" → k ≠ "water_depth" → ∀ s, l'.prop k s = l.prop k s
  full : ∀ s, (l.prop "age" s).length = l.n
  tracked : l.n ≠ 0 → "age" ∈ l.tracking

/-- Which parts of the grid are known to correspond: what was measured from sea level when the
model was created (`depth`), the increment of the sea level, the sea level, the positions of the
shore and of the shelf edge. -/
structure Known where
  depth : Prop
  incr : Prop
  level : Prop
  rows : Prop

/-- The same grid with elevations raised by `h` and times shifted by `τ`. -/
structure WorldMoved (h τ : K) (k : Known) (w w' : World R C K) : Prop where
  topo : ∀ n, w'.topo n = w.topo n + h
  bedrock : ∀ n, w'.bedrock n = w.bedrock n + h
  deposit : w'.deposit = w.deposit
  increment : w'.increment = w.increment
  sand : w'.sand = w.sand
  sedLoad : w'.sedLoad = w.sedLoad
  waterIncr : w'.waterIncr = w.waterIncr
  waterLoad : k.depth → w'.waterLoad = w.waterLoad
  seaLevel : k.level → w'.seaLevel = w.seaLevel + h
  seaIncr : k.incr → w'.seaIncr = w.seaIncr
  rowShore : k.rows → w'.rowShore = w.rowShore
  rowShelf : k.rows → w'.rowShelf = w.rowShelf
  gridShore : w'.gridShore = w.gridShore
  gridShelf : w'.gridShelf = w.gridShelf
  layers : LayersMoved τ k.depth w.layers w'.layers

/-- The same attributes: the time of the sea level is shifted by `τ`, the sea level that the
diffuser remembers is raised by `h`. If elevations are raised, the sediment load does not depend on
the elevation of the sea. -/
structure ProcMoved (h τ : K) (p p' : ProcState R C K) : Prop where
  seaTime : p'.seaTime = p.seaTime + τ
  rate : p'.rate = p.rate
  flex : p'.flex = p.flex
  diffuser : p'.diffuser = { p.diffuser with seaLevel0 := p.diffuser.seaLevel0 + h }
  load : h * p.diffuser.loadSl = 0

/-- The same process with the data of the other datum and calendar. -/
def movedProcess (h τ : K) : Process K → Process K
  | .seaLevel curve start => .seaLevel (fun t => (curve (t - τ)).map (· + h)) (start + τ)
  | .diffusion P => .diffusion { P with seaLevel := P.seaLevel + h }
  | p => p

/-- The same process with the data of the other calendar. -/
def laterProcess (τ : K) : Process K → Process K
  | .seaLevel curve start => .seaLevel (fun t => curve (t - τ)) (start + τ)
  | p => p

/-- A state and the same state elsewhere. -/
def StateMoved (h τ : K) (k : Known) (s s' : ProcState R C K × World R (C + 2) K) : Prop :=
  ProcMoved h τ s.1 s'.1 ∧ WorldMoved h τ k s.2 s'.2

/-- A model and the same model elsewhere. -/
structure ModelMoved (h τ : K) (k : Known)
    (m m' : ModelState (ProcState R C K) R (C + 2) K) : Prop where
  comps : ProcMoved h τ m.comps m'.comps
  world : WorldMoved h τ k m.world m'.world
  archived : m'.archived = m.archived

/-- The same model, later: everything is equal except the time of the sea level and the ages of the
layers, which are shifted by `τ`. -/
structure Later (τ : K) (m m' : ModelState (ProcState R C K) R (C + 2) K) : Prop where
  comps : m'.comps = { m.comps with seaTime := m.comps.seaTime + τ }
  archived : m'.archived = m.archived
  world : m'.world = { m.world with layers := m'.world.layers }
  n : m'.world.layers.n = m.world.layers.n
  tracking : m'.world.layers.tracking = m.world.layers.tracking
  dz : m'.world.layers.dz = m.world.layers.dz
  age : ∀ s, m'.world.layers.prop "age" s = (m.world.layers.prop "age" s).map (· + τ)
  others : ∀ k, k ≠ "age" → m'.world.layers.prop k = m.world.layers.prop k

/-- The same clock on another calendar. -/
def movedClock (τ : K) (c : Clock K) : Clock K :=
  { start := c.start + τ, stop := c.stop.map (· + τ), step := c.step, time := c.time + τ }

/-- Two runs that are both still going, or have both ended, at times `τ` apart, with results that
are alike. -/
inductive SameEnd {W : Type*} (τ : K) (r : W → W → Prop) :
    Option (Clock K × Except Err W) → Option (Clock K × Except Err W) → Prop where
  | running : SameEnd τ r none none
  | ended (c : Clock K) {x y : Except Err W} (h : Alike r x y) :
      SameEnd τ r (some (c, x)) (some (movedClock τ c, y))

/-- The functions of landlab and of the package `compaction` do not depend on datum and calendar:
diffusion acts on differences of elevation, compaction looks at neither ages nor water depths. Only
asked of the processes that are used. -/
structure ExternalsMove (env : Env R C K) (h τ : K) (ps : List (Process K)) : Prop where
  solve : (∃ P, Process.diffusion P ∈ ps) → ∀ kd dt z,
    env.solve kd dt (fun n => z n + h) = (env.solve kd dt z).map fun y n => y n + h
  compact : Process.compaction ∈ ps → ∀ dt depth l l', LayersMoved τ depth l l' →
    Alike (LayersMoved τ depth) (env.compact dt l) (env.compact dt l')

end Verif.Spec
