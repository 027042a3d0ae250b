import Verif.Model.Driver

/-!
# What a user expects of the drivers
-/

set_option autoImplicit false

namespace Verif.Spec

variable {K σ : Type*} {R C : ℕ}

/-- At every interior node the topography is the bedrock plus the sediment on it. -/
def TopoConsistent [Add K] [Zero K] (w : World R C K) : Prop :=
  ∀ (r : Fin R) (q : Fin (R + 2)) (c : Fin (C - 2)) (d : Fin C),
    q.val = r.val + 1 → d.val = c.val + 1 →
    w.topo (q, d) = w.bedrock (q, d) + (w.layers.dz (r, c)).sum

/-- No layer has a negative thickness. -/
def NonnegLayers {ι : Type*} [Zero K] [LE K] (ev : EventLayers ι K) : Prop :=
  ∀ s, ∀ x ∈ ev.dz s, 0 ≤ x

/-- A component that leaves something alone. -/
def Keeps {α : Type*} (c : Component σ R C K) (f : World R C K → α) : Prop :=
  ∀ dt p w p' w', c dt (p, w) = .ok (p', w') → f w' = f w

/-- A component that keeps a condition on the grid. -/
def Maintains (c : Component σ R C K) (P : World R C K → Prop) : Prop :=
  ∀ dt p w p' w', P w → c dt (p, w) = .ok (p', w') → P w'

/-- What can be observed of one step of a driver: the clock after it, and the components and the
grid when the last component has run. -/
structure Observation (σ : Type*) (R C : ℕ) (K : Type*) where
  time : K
  dt : K
  comps : σ
  world : World R C K

variable [Field K] [LinearOrder K]

/-- A history of successful steps of a `SequenceModel`. -/
inductive ModelHistory (comps : List (Component σ R C K)) (porosity : σ → K) :
    ModelState σ R C K → List (Observation σ R C K) → ModelState σ R C K → Prop
  | nil (s) : ModelHistory comps porosity s [] s
  | step {s s' s'' : ModelState σ R C K} {time dt : K} {p : σ} {w : World R C K}
      {obs : List (Observation σ R C K)}
      (hc : runComponents comps dt (s.comps, clearDeposit s.world) = .ok (p, w))
      (ha : advanceComponents comps porosity time dt s = .ok s')
      (hr : ModelHistory comps porosity s' obs s'') :
      ModelHistory comps porosity s (⟨time, dt, p, w⟩ :: obs) s''

/-- A history of successful updates of a `Sequence`. -/
inductive SeqHistory (comps : List (Component σ R C K)) :
    SeqState σ R C K → List (Observation σ R C K) → SeqState σ R C K → Prop
  | nil (s) : SeqHistory comps s [] s
  | step {s s' s'' : SeqState σ R C K} {time dt : K} {p : σ} {w : World R C K}
      {obs : List (Observation σ R C K)}
      (hc : runComponents comps dt (s.comps, s.world) = .ok (p, w))
      (ha : seqUpdate comps dt time s = .ok s')
      (hr : SeqHistory comps s' obs s'') :
      SeqHistory comps s (⟨time, dt, p, w⟩ :: obs) s''

end Verif.Spec
