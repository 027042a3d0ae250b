import Mathlib.Order.Bounds.Defs
import Mathlib.Algebra.BigOperators.Group.List.Basic
import Verif.Model.Layers

/-!
# What a user expects of layer stacks

Independent of how layers are stored or archived: the surface is a running sum clipped at
bedrock, and the top of an old layer is where the surface has been lowest since.
-/

set_option autoImplicit false

namespace Verif.Spec

variable {ι K : Type*}

/-- Height of the surface above bedrock after a history of deposition and erosion. -/
def surface [Zero K] [Add K] [Max K] (history : List K) : K :=
  history.foldl (fun h d => max 0 (h + d)) 0

/-- The surfaces that existed from event `i` on (`i = 0` is before the first event). -/
def surfacesSince [Zero K] [Add K] [Max K] (history : List K) (i : ℕ) : Set K :=
  {h | ∃ k, i ≤ k ∧ k ≤ history.length ∧ h = surface (history.take k)}

/-- `merged` is `raw` with each of its first `a` groups of ten elements replaced by one element
related to the group by `R`, the rest being unchanged. -/
def IsMerge {α : Type*} (R : List α → α → Prop) (a : ℕ) (raw merged : List α) : Prop :=
  merged.length + 9 * a = raw.length ∧
  (∀ i < a, 10 * i + 10 ≤ raw.length ∧
    ∃ v, merged[i]? = some v ∧ R ((raw.drop (10 * i)).take 10) v) ∧
  (∀ i, a ≤ i → merged[i]? = raw[i + 9 * a]?)

/-- The largest element of a group. -/
def IsMaxOf [LE K] (g : List K) (v : K) : Prop := v ∈ g ∧ ∀ x ∈ g, x ≤ v

/-- The sum of a group. -/
def IsSumOf [Zero K] [Add K] (g : List K) (v : K) : Prop := v = g.sum

/-- The average of a group of ten. -/
def IsMeanOf [Zero K] [Add K] [Mul K] [NatCast K] (g : List K) (v : K) : Prop :=
  v * (g.length : K) = g.sum

/-- The value an event records for a property in one column (0 if it records none). -/
def recorded [Zero K] (name : String) (s : ι) (e : Event ι K) : K :=
  match e.kw.find? (fun p => p.1 == name) with
  | some p => p.2 s
  | none => 0

/-- The properties the drivers know how to combine. -/
def knownProperties : List String := ["age", "water_depth", "t0", "porosity", "percent_sand"]

/-- Number of archived layers after `N` events. -/
def archivedAfter (N : ℕ) : ℕ := if N < 20 then 0 else N / 10 - 1

/-- Volume of sand in a column: thickness times sand fraction, summed. -/
def sandVolume [Zero K] [Add K] [Mul K] (dz frac : List K) : K := ((dz.zip frac).map fun p => p.1 * p.2).sum

end Verif.Spec
