import Verif.Model.Processes
import Verif.Spec.Compaction

/-!
# What a user expects of a model made of the package's own processes
-/

set_option autoImplicit false

namespace Verif.Spec

variable {K : Type*} {R C : ℕ} [Field K] [LinearOrder K]

/-- The fields that the step of a process reads from the grid and that need not be there. -/
def Needs (p : Process K) (w : World R C K) : Prop :=
  match p with
  | .seaLevel .. | .compaction | .diffusion _ => True
  | .subsidence _ => w.increment.isSome
  | .fluvial _ => w.sand.isSome ∧ w.increment.isSome
  | .flexure _ => w.sedLoad.isSome ∧ w.increment.isSome
  | .waterFlexure _ => w.seaIncr.isSome ∧ w.waterIncr.isSome ∧ w.increment.isSome
  | .shoreline _ => w.rowShore.isSome ∧ w.rowShelf.isSome

/-- Not a `KeyError`. -/
def NoKeyError {α : Type*} (x : Except Err α) : Prop := ∀ s, x ≠ .error (.keyError s)

/-- The external functions raise no `KeyError`. -/
structure ExternalsFine (env : Env R C K) (ps : List (Process K)) : Prop where
  kind : ∀ t, NoKeyError (env.kind t)
  interp : ∀ t f, env.kind t = .ok f → ∀ v, NoKeyError (f v)
  solve : ∀ kd dt z, NoKeyError (env.solve kd dt z)
  compact : ∀ dt l, NoKeyError (env.compact dt l)
  curve : ∀ curve start, Process.seaLevel curve start ∈ ps → ∀ t, NoKeyError (curve t)

/-- The compaction changes of the layers at most the thicknesses and the porosities. -/
def CompactKeepsRecord (env : Env R C K) : Prop :=
  ∀ dt l l', env.compact dt l = .ok l' → SameRecord l l'

end Verif.Spec
