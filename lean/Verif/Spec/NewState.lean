import Verif.Model.Processes

/-!
# What a new component remembers

An independent description of the attributes of the components of a model before its first step.
-/

set_option autoImplicit false

namespace Verif.Spec

variable {R C : ℕ} {K : Type*} [Field K] [LinearOrder K]

/-- The time scale of isostasy that a component keeps: a time of practically zero means that the
response is immediate. -/
def KeepsTime (given kept : Option K) : Prop :=
  match given with
  | none => kept = none
  | some t => (|t| ≤ 1 / 10 ^ 8 ∧ kept = none) ∨ (1 / 10 ^ 8 < t ∧ kept = some t)

/-- The attributes of a component of a model whose clock starts at `start`, before the first step.
`x` are the coordinates of the columns. -/
def StartsWith (start : K) (x : Fin (C + 2) → K) (s : ProcState R C K) : Process K → Prop
  | .seaLevel _ _ => s.seaTime = start
  | .subsidence curve => ∀ c, curve (x c) = .ok (s.rate c)
  | .compaction => True
  | .diffusion P =>
    P.plainSlope ≠ 0 ∧
    s.diffuser.plainSlope = P.plainSlope ∧ s.diffuser.waveBase = P.waveBase ∧
    s.diffuser.shorefaceHeight = P.shorefaceHeight ∧ s.diffuser.alpha = P.alpha ∧
    s.diffuser.shelfSlope = P.shelfSlope ∧ s.diffuser.load0 = P.sedimentLoad ∧
    s.diffuser.loadSl = P.loadSeaLevel ∧ s.diffuser.basinWidth = P.basinWidth ∧
    s.diffuser.seaLevel0 = P.seaLevel ∧ s.diffuser.time = 0 ∧
    s.diffuser.load = P.sedimentLoad * (1 + P.seaLevel * P.loadSeaLevel) ∧
    s.diffuser.gridLoad = P.sedimentLoad * (1 + P.seaLevel * P.loadSeaLevel) ∧
    s.diffuser.ksh * P.plainSlope = P.sedimentLoad * (1 + P.seaLevel * P.loadSeaLevel) ∧
    ∀ n, s.diffuser.kd n = 0
  | .fluvial _ => True
  | .flexure t =>
    KeepsTime t s.flex.sed.isoTime ∧ (∀ r c, s.flex.sed.pool r c = 0) ∧
    ∀ r c, s.flex.lastLoad r c = 0
  | .waterFlexure t =>
    KeepsTime t s.flex.water.isoTime ∧ ∀ r c, s.flex.water.pool r c = 0
  | .shoreline _ => True

end Verif.Spec
