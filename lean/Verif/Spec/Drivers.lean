import Verif.Model.Processes

/-!
# The same result from both drivers

What a user of `Sequence` and a user of `SequenceModel` can compare.
-/

set_option autoImplicit false

namespace Verif.Spec

variable {ι K σ : Type*} {R C : ℕ}

/-- The same layers: as many, of the same thickness and age; and apart from the oldest one, with
the same initial thickness, sand fraction and porosity. Nothing is said about water depths. -/
structure LayersAgree (l l' : EventLayers ι K) : Prop where
  n : l'.n = l.n
  dz : l'.dz = l.dz
  age : l'.prop "age" = l.prop "age"
  later : ∀ k ∈ ["t0", "percent_sand", "porosity"], ∀ s, (l'.prop k s).tail = (l.prop k s).tail

/-- The same state of the basin. The positions of the shore and of the shelf edge are the same if
`shores` holds. -/
structure GridsAgree (shores : Prop) (w w' : World R C K) : Prop where
  topo : w'.topo = w.topo
  bedrock : w'.bedrock = w.bedrock
  sand : w'.sand = w.sand
  seaLevel : w'.seaLevel = w.seaLevel
  seaIncr : w'.seaIncr = w.seaIncr
  rowShore : shores → w'.rowShore = w.rowShore
  rowShelf : shores → w'.rowShelf = w.rowShelf
  layers : LayersAgree w.layers w'.layers

/-- The same model: the same attributes of the components and the same state of the basin. -/
structure DriversAgree (shores : Prop) (m : ModelState σ R C K) (s : SeqState σ R C K) : Prop where
  comps : s.comps = m.comps
  grids : GridsAgree shores m.world s.world

/-- The processes that move sediment and water, but not the bedrock, and leave the layers to the
driver. -/
def OnTheSurface : Process K → Prop
  | .seaLevel .. | .diffusion _ | .fluvial _ | .shoreline _ => True
  | .subsidence _ | .compaction | .flexure _ | .waterFlexure _ => False

/-- A grid at the start: 100 m of sediment, nothing recorded yet, the sea at 0, no load and no
movement of the bedrock. -/
structure FreshGrid [Field K] [LinearOrder K] (w : World R C K) : Prop where
  layers : w.layers = EventLayers.empty
  bedrock : ∀ n, w.bedrock n = w.topo n - 100
  seaLevel : w.seaLevel = 0
  noLoad : w.sedLoad = none
  increment : ∀ f, w.increment = some f → ∀ n, f n = 0

end Verif.Spec
