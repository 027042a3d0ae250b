import Verif.Model.Failure

/-!
# Files from before a run
-/

set_option autoImplicit false

namespace Verif.Spec

variable {K A : Type*}

/-- Two file systems that began as `fs₁` and `fs₂`: what is not the same in both has not been
changed. -/
def SameOrOld (fs₁ fs₂ g₁ g₂ : FileSystem K A) : Prop :=
  ∀ path, g₁ path = g₂ path ∨ (g₁ path = fs₁ path ∧ g₂ path = fs₂ path)

/-- A command that ends with the error for an output file that must not or can not be removed. -/
def Refused (a : Option (Left K A)) : Prop :=
  ∃ l, a = some l ∧ (l.stage = .before ∨ l.stage = .change) ∧
    (l.error = some .runtimeError ∨ l.error = some .osError)

/-- Two commands that end at the same place in the same way and, wherever they have changed
anything, leave the same. -/
def SameButOld (fs₁ fs₂ : FileSystem K A) : Option (Left K A) → Option (Left K A) → Prop
  | none, none => True
  | some a, some b => a.stage = b.stage ∧ a.error = b.error ∧ a.unfinished = b.unfinished ∧
      SameOrOld fs₁ fs₂ a.files b.files
  | _, _ => False

end Verif.Spec
