import Verif.Model.Messages

/-!
# Lines and reports

An independent description of the lines of a text and of what a report is about.
-/

set_option autoImplicit false

namespace Verif.Spec

/-- A character ends a line: line feed, carriage return, vertical tab, form feed, the separators of
files, groups and records, next line, and the separators of lines and paragraphs. -/
def EndsLine (c : Char) : Prop :=
  c.toNat ∈ [0x0a, 0x0d, 0x0b, 0x0c, 0x1c, 0x1d, 0x1e, 0x85, 0x2028, 0x2029]

/-- The end of a line before `rest`: two characters if it is a carriage return and a line feed. -/
inductive LineEnd : Text → Text → Prop
  | two (rest : Text) : LineEnd ['\r', '\n'] rest
  | one (c : Char) (rest : Text) : EndsLine c → ¬ (c = '\r' ∧ rest.head? = some '\n') →
      LineEnd [c] rest

/-- The lines of a text: each but the last is followed by the end of a line; the last is not
empty. -/
inductive IsLines : Text → List Text → Prop
  | none : IsLines [] []
  | last {l : Text} : l ≠ [] → (∀ c ∈ l, ¬ EndsLine c) → IsLines l [l]
  | more {l e rest : Text} {ls : List Text} : (∀ c ∈ l, ¬ EndsLine c) → LineEnd e rest →
      IsLines rest ls → IsLines (l ++ e ++ rest) (l :: ls)

/-- A story is about a model that is made of a configuration. -/
structure TellsOf {K : Type} (s : Story) (d : Doc) (m : Ready K) : Prop where
  components : s.components = m.components
  disabled : s.disabled.Perm m.disabled
  noProcesses : s.noProcesses = true ↔ d.find? "processes" = some (.inl (.list []))

end Verif.Spec
