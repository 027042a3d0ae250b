import Verif.Spec.PlotFile
import Verif.Model.Processes

/-!
# A record of an output file read by itself
-/

set_option autoImplicit false

namespace Verif.Spec

variable {K : Type*}

/-- Record `q` has the topography `z` in active row `r` of a grid with `C` columns: row `r + 1` of
the nodes. -/
def RecordRow {C : ℕ} (d : Dataset K (Option K)) (q r : ℕ) (z : Fin C → K) : Prop :=
  ∀ c : Fin C, fieldValueAt d "node" "topographic__elevation" q ((r + 1) * C + c.val) = some (z c)

/-- Everything that record `q` says about the shoreline of row `r`: the topography of the row, the
sea level and the position of the shoreline. -/
structure RecordShore {C : ℕ} (d : Dataset K (Option K)) (q r : ℕ) (z : Fin C → K) (sea shore : K) :
    Prop where
  topo : RecordRow d q r z
  sea : fieldValueAt d "grid" "sea_level__elevation" q 0 = some sea
  shore : fieldValueAt d "row" "x_of_shore" q r = some shore

/-- In record `q` the layers of the file, all of them, fill the space between the bedrock and the
topography at the node of stack `c` of active row `r`, on a grid with `C` columns. -/
def LayersFill [Add K] [Zero K] (C : ℕ) (d : Dataset K (Option K)) (q r c : ℕ) : Prop :=
  ∃ (top bottom : K) (thick : ℕ → K),
    fieldValueAt d "node" "topographic__elevation" q ((r + 1) * C + (c + 1)) = some top ∧
    fieldValueAt d "node" "bedrock_surface__elevation" q ((r + 1) * C + (c + 1)) = some bottom ∧
    (∀ k < d.layerDim, layerValueAt d "thickness" k (r * (C - 2) + c) = some (thick k)) ∧
    top = bottom + ((List.range d.layerDim).map thick).sum

end Verif.Spec
