import Verif.Model.Processes

/-!
# The rows of a model

A grid of `R` rows may be looked at through a choice of rows: `f r` is the row that stands in place
`r`. Rows may be reordered, left out or repeated.
-/

set_option autoImplicit false

namespace Verif.Spec

variable {ι ι' K : Type*} {R R' C : ℕ} [Field K] [LinearOrder K]

/-- If the first computation has a result, so has the second, and the two are related. -/
def Carries {α β : Type*} (r : α → β → Prop) (x : Except Err α) (y : Except Err β) : Prop :=
  ∀ a, x = .ok a → ∃ b, y = .ok b ∧ r a b

/-- Row `r` of the second field is row `f r` of the first. -/
def FieldChosen (f : Fin R' → Fin R) (a : NodeField R C K) (b : NodeField R' C K) : Prop :=
  ∀ r c, getProfile b r c = getProfile a (f r) c

/-- The same for a value for each row. -/
def RowChosen (f : Fin R' → Fin R) (a : Fin R → Option K) (b : Fin R' → Option K) : Prop :=
  ∀ r, b r = a (f r)

/-- The cells of the rows that stand in place of others. -/
def chosenCell (f : Fin R' → Fin R) (c : Cell R' C) : Cell R C := (f c.1, c.2)

/-- The stack at `s` of the second record of layers is the one at `g s` of the first. -/
structure LayersChosen (g : ι' → ι) (l : EventLayers ι K) (l' : EventLayers ι' K) : Prop where
  n : l'.n = l.n
  tracking : l'.tracking = l.tracking
  dz : ∀ s, l'.dz s = l.dz (g s)
  prop : ∀ k s, l'.prop k s = l.prop k (g s)

/-- Everything on the second grid is that of the rows chosen from the first; what belongs to the
grid as a whole is the same. The two rows at the edge of the grid are not compared. -/
structure WorldChosen (f : Fin R' → Fin R) (w : World R C K) (w' : World R' C K) : Prop where
  topo : FieldChosen f w.topo w'.topo
  bedrock : FieldChosen f w.bedrock w'.bedrock
  deposit : FieldChosen f w.deposit w'.deposit
  increment : Option.Rel (FieldChosen f) w.increment w'.increment
  sand : Option.Rel (FieldChosen f) w.sand w'.sand
  sedLoad : Option.Rel (FieldChosen f) w.sedLoad w'.sedLoad
  waterLoad : Option.Rel (FieldChosen f) w.waterLoad w'.waterLoad
  waterIncr : Option.Rel (FieldChosen f) w.waterIncr w'.waterIncr
  seaLevel : w'.seaLevel = w.seaLevel
  seaIncr : w'.seaIncr = w.seaIncr
  rowShore : Option.Rel (RowChosen f) w.rowShore w'.rowShore
  rowShelf : Option.Rel (RowChosen f) w.rowShelf w'.rowShelf
  gridShore : w'.gridShore = w.gridShore
  gridShelf : w'.gridShelf = w.gridShelf
  layers : LayersChosen (chosenCell f) w.layers w'.layers

/-- The same for a delayed response. -/
structure PoolChosen (f : Fin R' → Fin R) (p : FlexPool R C K) (p' : FlexPool R' C K) : Prop where
  isoTime : p'.isoTime = p.isoTime
  pool : ∀ r c, p'.pool r c = p.pool (f r) c

/-- The same for the attributes of the diffuser. -/
structure DiffuserChosen (f : Fin R' → Fin R) (d : Diffuser R C K) (d' : Diffuser R' C K) :
    Prop where
  plainSlope : d'.plainSlope = d.plainSlope
  waveBase : d'.waveBase = d.waveBase
  shorefaceHeight : d'.shorefaceHeight = d.shorefaceHeight
  alpha : d'.alpha = d.alpha
  shelfSlope : d'.shelfSlope = d.shelfSlope
  load0 : d'.load0 = d.load0
  loadSl : d'.loadSl = d.loadSl
  basinWidth : d'.basinWidth = d.basinWidth
  load : d'.load = d.load
  ksh : d'.ksh = d.ksh
  seaLevel0 : d'.seaLevel0 = d.seaLevel0
  time : d'.time = d.time
  kd : FieldChosen f d.kd d'.kd
  gridLoad : d'.gridLoad = d.gridLoad

/-- The same for the attributes of all processes. -/
structure ProcChosen (f : Fin R' → Fin R) (p : ProcState R C K) (p' : ProcState R' C K) :
    Prop where
  seaTime : p'.seaTime = p.seaTime
  rate : p'.rate = p.rate
  diffuser : DiffuserChosen f p.diffuser p'.diffuser
  sed : PoolChosen f p.flex.sed p'.flex.sed
  lastLoad : ∀ r c, p'.flex.lastLoad r c = p.flex.lastLoad (f r) c
  water : PoolChosen f p.flex.water p'.flex.water
  pressure : FieldChosen f p.flex.pressure p'.flex.pressure
  litho : FieldChosen f p.flex.litho p'.flex.litho

/-- The same for processes and grid. -/
def StateChosen (f : Fin R' → Fin R) (s : ProcState R C K × World R (C + 2) K)
    (s' : ProcState R' C K × World R' (C + 2) K) : Prop :=
  ProcChosen f s.1 s'.1 ∧ WorldChosen f s.2 s'.2

/-- The same for a model. -/
structure ModelChosen (f : Fin R' → Fin R) (m : ModelState (ProcState R C K) R (C + 2) K)
    (m' : ModelState (ProcState R' C K) R' (C + 2) K) : Prop where
  comps : ProcChosen f m.comps m'.comps
  world : WorldChosen f m.world m'.world
  archived : m'.archived = m.archived

/-- The choice puts the middle row, and only it, in the middle. -/
def SameMiddle (f : Fin R' → Fin R) : Prop := ∀ r, r.val = R' / 2 ↔ (f r).val = R / 2

/-- The choice puts the first row, and only it, first. -/
def SameFirst (f : Fin R' → Fin R) : Prop := ∀ r, r.val = 0 ↔ (f r).val = 0

/-- The same external functions on the two grids. Diffusion, compaction and the response to water
must not distinguish a choice of rows from the rows themselves; only asked of the processes that are
used. -/
structure EnvChosen (f : Fin R' → Fin R) (ps : List (Process K)) (env : Env R C K)
    (env' : Env R' C K) : Prop where
  kind : env'.kind = env.kind
  xtol : env'.xtol = env.xtol
  rtol : env'.rtol = env.rtol
  expf : env'.expf = env.expf
  sqrtf : env'.sqrtf = env.sqrtf
  flex : env'.flex = env.flex
  gravity : env'.gravity = env.gravity
  dx : env'.dx = env.dx
  x : env'.x = env.x
  solve : (∃ P, Process.diffusion P ∈ ps) → ∀ kd kd' dt z z', FieldChosen f kd kd' →
    FieldChosen f z z' → Carries (FieldChosen f) (env.solve kd dt z) (env'.solve kd' dt z')
  flexWater : (∃ t, Process.waterFlexure t ∈ ps) → ∀ (d : Profile R (C + 2) K) s r c,
    env'.flexWater (fun r => d (f r)) s r c = env.flexWater d s (f r) c
  compact : Process.compaction ∈ ps → ∀ dt l l', LayersChosen (chosenCell f) l l' →
    Carries (LayersChosen (chosenCell f)) (env.compact dt l) (env'.compact dt l')

/-- A sediment load that depends on the sea level is treated differently in the first row, and the
response of the lithosphere depends on the number of rows. -/
structure RowsFree (f : Fin R' → Fin R) (ps : List (Process K)) : Prop where
  load : ∀ P, Process.diffusion P ∈ ps → P.loadSeaLevel = 0 ∨ SameFirst f
  count : ∀ t, Process.flexure t ∈ ps ∨ Process.waterFlexure t ∈ ps → R' = R

end Verif.Spec
