import Verif.Model.RunCommand

/-! # What is to come -/

set_option autoImplicit false

namespace Verif.Spec

variable {K : Type*}

/-- The same process with another sea-level curve. -/
def withCurve (g : Curve K) : Process K → Process K
  | .seaLevel _ start => .seaLevel g start
  | p => p

/-- The times at the end of steps of the given lengths that begin at `t`; a length that is not given
or 0 means `step`. -/
def timesReached [Zero K] [DecidableEq K] [Add K] (step : K) : K → List (Option K) → List K
  | _, [] => []
  | t, dt :: dts =>
    let t' := t + (match dt with | none => step | some d => if d = 0 then step else d)
    t' :: timesReached step t' dts

/-- The same configuration with further sections, for times to come. -/
def withLater (times : List ℚ) (dicts : List Flat) (c : Cfg) : Cfg :=
  { c with times := c.times ++ times, dicts := c.dicts ++ dicts }

/-- A section that can be read: if it says for which time it is, it says so with a number. -/
def Readable (d : Doc) : Prop := ∀ v, d.find? "_time" = some v → ∃ q, v = .inl (.num q)

end Verif.Spec
