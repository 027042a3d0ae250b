import Verif.Model.Driver

/-!
# What a user expects of a component that compacts the layers
-/

set_option autoImplicit false

namespace Verif.Spec

variable {K σ ι : Type*} {R C : ℕ}

/-- Two stacks with the same record: as many layers, with the same properties apart from the
porosity. Their thicknesses may differ. -/
structure SameRecord (l l' : EventLayers ι K) : Prop where
  count : l'.n = l.n
  names : l'.tracking = l.tracking
  columns : ∀ s, (l'.dz s).length = (l.dz s).length
  values : ∀ name, name ≠ "porosity" → l'.prop name = l.prop name
  porosities : ∀ s, (l'.prop "porosity" s).length = (l.prop "porosity" s).length

/-- A component that changes of the layers at most the thicknesses and the porosities. -/
def KeepsRecord (c : Component σ R C K) : Prop :=
  ∀ dt p w p' w', c dt (p, w) = .ok (p', w') → SameRecord w.layers w'.layers

end Verif.Spec
