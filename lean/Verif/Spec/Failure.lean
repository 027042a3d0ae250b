import Verif.Model.Failure
import Verif.Spec.RunCommand
import Verif.Spec.Output

/-! # What a failed run may leave -/

set_option autoImplicit false

namespace Verif.Spec

variable {K : Type}

/-- The same model with another end. -/
def endingAt (m : Ready K) (t : K) : Ready K := { m with clock := { m.clock with stop := some t } }

/-- What landlab gives as coordinates has the sizes of the grid. -/
structure GeometryFits (ext : Externals K) : Prop where
  node : ∀ info, ((ext.geometry info).xOf "node").length = info.nodeRows * info.nodeCols
  row : ∀ info, ((ext.geometry info).yOf "row").length = info.nodeRows
  column : ∀ info, ((ext.geometry info).xOf "column").length = info.nodeCols
  same : ∀ info, ∀ loc ∈ ["node", "link", "face", "cell"],
    ((ext.geometry info).yOf loc).length = ((ext.geometry info).xOf loc).length

/-- How a command ends and what it leaves fit together. -/
def FitsOutcome : Outcome K → Option (Left K (Option K)) → Prop
  | .running, none => True
  | .finished fs, some l => l.error = none ∧ (l.stage = .before ∨ l.stage = .clock → l.files = fs)
  | .failed e fs, some l => l.error = some e ∧ ∀ f ∈ fs, l.files = f
  | _, _ => False

/-- A file whose records are complete: a time, and every variable that is written with it. -/
def CompleteFile {A : Type*} (e : Entry K A) : Prop :=
  ∃ d ws, e = .dataset d ∧ Records d ws ∧ LayerRecords d ws

end Verif.Spec
