import Verif.Spec.Config
import Verif.Model.SetOrder

/-!
# What does not depend on the order of a set
-/

set_option autoImplicit false

namespace Verif.Spec

/-- An order in which every change comes once. -/
def Reorders (σ : SetOrder) : Prop := ∀ t f, (σ t f).Perm f

/-- A configuration of sections with parameters that are not dictionaries. -/
def TwoLevels : Doc → Prop
  | .nil => True
  | .leaf _ _ r => TwoLevels r
  | .sub _ d r => (∀ k s, d.find? k ≠ some (.inr s)) ∧ TwoLevels r

/-- Two commands that end in the same way: both are still running, or both have stopped at the same
place, with an error or without. Unless a change of parameters has failed they have left the same
and stopped with the same error. -/
def SameStop {K A : Type*} : Option (Left K A) → Option (Left K A) → Prop
  | none, none => True
  | some a, some b =>
    a.stage = b.stage ∧ (a.error = none ↔ b.error = none) ∧ a.unfinished = b.unfinished ∧
      ((a.stage = .change → a.error = none) → a.error = b.error ∧ a.files = b.files)
  | _, _ => False

/-- Reading a file of sea levels or subsidence, and looking up a value in it, does not raise
`StopIteration` (which would end a run without an error). -/
def ReadsQuietly {K : Type} (ext : Externals K) : Prop :=
  ∀ path kind, ext.readCurve path kind ≠ .error .stopIteration ∧
    ∀ f, ext.readCurve path kind = .ok f → ∀ x, f x ≠ .error .stopIteration

end Verif.Spec
