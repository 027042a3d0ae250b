import Verif.Model.SeaLevel

/-!
# The properties of `BathymetryReader`

`/repo/sequence/bathymetry.py`.
-/

set_option autoImplicit false

namespace Verif

variable {K : Type*} {R C : ℕ}

/-- `BathymetryReader.z` (`/repo/sequence/bathymetry.py:75-80`): the topography of the bottom row of
the nodes. `BathymetryReader.x` (70-73) is the positions of its nodes, which are those of the columns,
`x` of `bathymetryStep`. -/
def readerZ (w : World R C K) (c : Fin C) : K := w.topo (0, c)

end Verif
