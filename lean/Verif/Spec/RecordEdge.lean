import Verif.Spec.OneRecord

/-!
# The shelf edge in a record of an output file
-/

set_option autoImplicit false

namespace Verif.Spec

variable {K : Type*}

/-- Record `q` says of active row `r` of a grid with `C` columns that `dz` was deposited in the step
and that the shoreline is at `shore`. -/
structure RecordDeposit {C : ℕ} (d : Dataset K (Option K)) (q r : ℕ) (dz : Fin C → K) (shore : K) :
    Prop where
  deposit : ∀ c : Fin C,
    fieldValueAt d "node" "sediment_deposit__thickness" q ((r + 1) * C + c.val) = some (dz c)
  shore : fieldValueAt d "row" "x_of_shore" q r = some shore

/-- `edge` is the shelf edge of a row with deposits `dz`: of the nodes farther out than `limit` the
one with the thickest deposit, the first if there are several; none if there is no such node. -/
def IsEdge [LinearOrder K] {C : ℕ} (x dz : Fin C → K) (limit : K) (edge : Option K) : Prop :=
  match edge with
  | none => ∀ c, x c ≤ limit
  | some v => ∃ k, x k = v ∧ limit < x k ∧
      ∀ j, limit < x j → dz j ≤ dz k ∧ (j < k → dz j < dz k)

/-- Shorelines and shelf edges are computed after everything that changes what they depend on. -/
def EdgeLast (alpha : K) (ps : List (Process K)) : Prop :=
  ∃ pre post, ps = pre ++ .shoreline alpha :: post ∧
    ∀ p ∈ post, p.name ∉ ["sea_level", "submarine_diffusion", "fluvial", "shoreline"]

end Verif.Spec
