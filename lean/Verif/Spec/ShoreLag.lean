import Verif.Model.Processes

/-!
# The shorelines that are stored with a surface
-/

set_option autoImplicit false

namespace Verif.Spec

variable {K : Type*} {R C : ℕ} [Field K] [LinearOrder K]

/-- The stored shorelines are those of the surface `topo` under a sea at `seaLevel`. -/
def StoresShore (env : Env R C K) (w : World R (C + 2) K) (topo : NodeField R (C + 2) K)
    (seaLevel : K) : Prop :=
  ∃ a : Fin R → K, w.rowShore = some (fun r => some (a r)) ∧
    ∀ r, shorelineRow env.kind env.xtol env.rtol (List.ofFn env.x) (rowList topo r) seaLevel =
      .ok (a r)

/-- Shorelines are computed after the sea level and after the diffusion, as they are if they are
not listed among the processes. -/
def ShoreLast (ps : List (Process K)) : Prop :=
  ∃ pre alpha post, ps = pre ++ .shoreline alpha :: post ∧
    ∀ p ∈ post, p.name ≠ "sea_level" ∧ p.name ≠ "submarine_diffusion" ∧ p.name ≠ "shoreline"

end Verif.Spec
