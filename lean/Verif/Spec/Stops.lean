import Verif.Model.Processes

/-!
# What can stop a step
-/

set_option autoImplicit false

namespace Verif.Spec

variable {K : Type*} {R C : ℕ} [Field K] [LinearOrder K]

/-- A profile with water at both ends and land in between. -/
def Island (z : Fin (C + 2) → K) (sl : K) : Prop :=
  z 0 < sl ∧ z (Fin.last (C + 1)) < sl ∧ ∃ c, sl ≤ z c

/-- A node whose neighbours (at an end, the node itself and its neighbour) are equally high. -/
def FlatAt (z : Fin (C + 2) → K) (c : Fin (C + 2)) : Prop :=
  z ⟨min (c.val + 1) (C + 1), by omega⟩ = z ⟨c.val - 1, by omega⟩

/-- The profile of an active row. -/
def rowOf (w : World R (C + 2) K) (r : Fin R) : Fin (C + 2) → K :=
  fun c => w.topo ((⟨r.val + 1, by omega⟩ : Fin (R + 2)), c)

/-- A process cannot take a step: `q` and `w` are the attributes of the processes and the grid when
its turn comes. -/
def Stops (env : Env R C K) (dt : K) (q : ProcState R C K) (w : World R (C + 2) K) (e : Err) :
    Process K → Prop
  | .seaLevel curve _ => curve (q.seaTime + dt) = .error e
  | .compaction => env.compact dt w.layers = .error e
  | .diffusion _ => e = .valueError ∧ ∃ r, Island (rowOf w r) w.seaLevel
  | .fluvial P =>
    (e = .zeroDivision ∧ (P.sandFrac = 0 ∨ P.plainSlope = 0 ∨ P.load = 0)) ∨
    (e = .valueError ∧ P.sandFrac ≠ 0 ∧ P.plainSlope ≠ 0 ∧ P.load ≠ 0 ∧
      ∃ r : Fin R, r.val = R / 2 ∧ Island (rowOf w r) w.seaLevel)
  | .shoreline _ => e = .valueError ∧ ∃ r, Island (rowOf w r) w.seaLevel
  | .subsidence _ | .flexure _ | .waterFlexure _ => False

/-- Where the sand fraction of the model has no meaning: a flat node in the middle row. -/
def FlatRow (w : World R (C + 2) K) : Prop :=
  ∃ r : Fin R, r.val = R / 2 ∧ ∃ c, FlatAt (rowOf w r) c

/-- A divisor of the diffusivities is 0: the slope of the plain, or at a node under water. -/
def ZeroDivisor (env : Env R C K) (d : Diffuser R (C + 2) K) (w : World R (C + 2) K) : Prop :=
  d.plainSlope = 0 ∨ ∃ r c, rowOf w r c < w.seaLevel ∧
    w.seaLevel - rowOf w r c + (d.shorefaceHeight * d.alpha + d.shelfSlope) * env.dx = 0

/-- Where the code goes on with an infinity or NaN, which the model does not have. -/
def Undefined (env : Env R C K) (q : ProcState R C K) (w : World R (C + 2) K) : Process K → Prop
  | .fluvial _ => FlatRow w
  | .diffusion _ => ZeroDivisor env q.diffuser w
  | _ => False

/-- Parameters of a process that are as they should be. -/
def Sensible : Process K → Prop
  | .fluvial P => 1000 < P.sandDensity
  | .shoreline alpha => 0 < alpha
  | _ => True

end Verif.Spec
