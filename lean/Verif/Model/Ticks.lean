import Verif.Model.Float

/-!
# The clocks of the components

The sea level and the output writer add up time steps of their own. Here only these sums are
modelled, for numbers of any kind, rounded ones in particular; whatever else a step does is a
parameter.
-/

set_option autoImplicit false

namespace Verif

variable {T X : Type*}

/-- The time of the sea level (`/repo/sequence/sea_level.py:77, 175`), that of the output writer
(`/repo/sequence/output_writer.py:61`), and everything else. -/
structure Ticks (T X : Type*) where
  sea : T
  label : T
  other : X
  deriving DecidableEq

/-- A new model: the sea level gets the time of the clock
(`/repo/sequence/sequence_model.py:139-140`), the writer starts at 0
(`/repo/sequence/output_writer.py:61`). -/
def Ticks.init [Zero T] (c : Clock T) (x : X) : Ticks T X := ⟨c.time, 0, x⟩

/-- `SequenceModel.advance_components` (`/repo/sequence/sequence_model.py:313-343`) when the clock
shows `time`: the sea level is taken from its curve at its own time, after that has been advanced
(`/repo/sequence/sea_level.py:121-123`); the writer labels what it writes with its own time, before
that is advanced (`/repo/sequence/output_writer.py:78, 85`). `body time dt sea label` is all that is
done to the rest. -/
def tick [Add T] (body : T → T → T → T → X → Except Err X) (time dt : T) (s : Ticks T X) :
    Except Err (Ticks T X) :=
  match body time dt (s.sea + dt) s.label s.other with
  | .error e => .error e
  | .ok x => .ok ⟨s.sea + dt, s.label + dt, x⟩

/-- `set_params` that sets neither of the two times. -/
def setOther (set : X → Except Err X) (s : Ticks T X) : Except Err (Ticks T X) :=
  match set s.other with
  | .error e => .error e
  | .ok x => .ok { s with other := x }

end Verif
