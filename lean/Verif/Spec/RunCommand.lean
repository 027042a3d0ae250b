import Verif.Model.RunCommand
import Verif.Spec.Config
import Verif.Spec.Live

/-! # What `sequence run` may do to files -/

set_option autoImplicit false

namespace Verif.Spec

variable {K : Type} [Field K] [LinearOrder K]

/-- A path that is the value of `filepath` in a section `output` of some configuration file. -/
def NamedOutput (files : List (List Doc)) (path : String) : Prop :=
  ∃ file ∈ files, ∃ d ∈ file, valueAt d ["output", "filepath"] = some (.str path)

/-- A value that python takes for false. -/
def Falsy (v : Leaf) : Prop := v = .none ∨ v = .num 0 ∨ v = .str "" ∨ v = .list [] ∨ v = .tup []

/-- The first section does not ask for existing files to be replaced: `clobber` is not there or
false. -/
def AsksToKeep (files : List (List Doc)) : Prop :=
  ∀ d ∈ files.flatten.head?, ∀ p v, valueAt d ("output" :: "clobber" :: p) = some v →
    p = [] ∧ Falsy v

/-- The files after a command, if known. -/
def filesAfter : Outcome K → Option (FileSystem K (Option K))
  | .running => none
  | .finished fs => some fs
  | .failed _ fs => fs

/-- The processes that a configuration turns on: those it lists, else the usual six, and always the
two that are required. (A section without any value does not count.) -/
def Enabled (d : Doc) (name : String) : Prop :=
  name ∈ ["fluvial", "shoreline"] ∨
  (∃ xs, d.find? "processes" = some (.inl (.list xs)) ∧ .str name ∈ xs) ∨
  ((prune d).find? "processes" = none ∧ name ∈ ["sea_level", "subsidence", "compaction",
    "submarine_diffusion", "fluvial", "flexure"])

/-- Components whose constructors pass arguments on to classes of other packages. -/
def wrappers : List (String × String) :=
  [("compaction", "Compact"), ("submarine_diffusion", "SubmarineDiffuser"),
    ("flexure", "SedimentFlexure"), ("water_flexure", "WaterFlexure")]

/-- A parameter that a component has: an argument of its constructor in the package or of the class
that it passes arguments on to. -/
def HasParameter (passedOn : String → List String) (name key : String) : Prop :=
  (∃ q ∈ constructorArguments, q.1 = name ∧ key ∈ q.2) ∨
    ∃ q ∈ wrappers, q.1 = name ∧ key ∈ passedOn q.2

/-- The states a run goes through: after each completed step and each completed change of
parameters. -/
inductive Passes (m : Ready K) : Clock K → Cfg × Live m.R m.C K (Option K) → Prop
  | start : Passes m m.clock (m.cfg, m.live)
  | step {clock clock' : Clock K} {cfg : Cfg} {l l' : Live m.R m.C K (Option K)} :
      Passes m clock (cfg, l) →
      runOneStep (Live.advance m.env m.view fun _ => m.porosity) clock l none =
        (clock', .ok l') →
      Passes m clock' (cfg, l')
  | change {clock : Clock K} {s s' : Cfg × Live m.R m.C K (Option K)} :
      Passes m clock s → liveRound m.env m.inp s = .ok s' → Passes m clock s'

end Verif.Spec
