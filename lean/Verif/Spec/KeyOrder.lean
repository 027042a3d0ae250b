import Verif.Model.RunCommand

/-!
# Configurations that differ in the order of their keys
-/

set_option autoImplicit false

namespace Verif.Spec

/-- The same value, or two sections that have the same parameters with the same values. -/
def SameContents : Option (Leaf ⊕ Doc) → Option (Leaf ⊕ Doc) → Prop
  | some (.inr s), some (.inr t) => ∀ k, s.find? k = t.find? k
  | a, b => a = b

/-- The same sections with the same contents, in any order. -/
def SameSettings (d e : Doc) : Prop := ∀ k, SameContents (d.find? k) (e.find? k)

/-- The same keyword arguments in any order. -/
def SameArguments (a b : Kwargs) : Prop :=
  a.keys.Nodup ∧ b.keys.Nodup ∧ ∀ k, a.get? k = b.get? k

/-- The classes of other packages do not look at the order of their keyword arguments. -/
def OrderBlind {K : Type} (ext : Externals K) : Prop :=
  ∀ R C (p p' : PyDict String Kwargs), p.keys = p'.keys →
    (∀ name, SameArguments (groupOf p name) (groupOf p' name)) → ext.env R C p = ext.env R C p'

end Verif.Spec
