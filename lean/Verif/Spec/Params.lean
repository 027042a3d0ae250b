import Verif.Model.Params

/-! # Parameters shared by processes, and the order of processes -/

set_option autoImplicit false

namespace Verif.Spec

variable {ν : Type*}

/-- Both groups define the key, with different values. -/
def Conflict (d1 d2 : PyDict String ν) (key : String) : Prop :=
  ∃ v w, d1.get? key = some v ∧ d2.get? key = some w ∧ v ≠ w

/-- The parameters that the configuration gives to a process, if it is enabled. -/
def given (processes : List String) (context : PyDict String (Group ν)) (name : String) :
    Group ν :=
  if name ∈ processes then (context.get? name).getD [] else []

/-- The groups that share parameters, with the names of the shared parameters. -/
def sharedParameters : List (String × String × List String) :=
  [("fluvial", "submarine_diffusion", ["sediment_load", "plain_slope"]),
    ("shoreline", "submarine_diffusion", ["alpha"]),
    ("water_flexure", "flexure", ["isostasytime", "eet"])]

/-- Names that can be listed as processes. -/
def knownProcesses : List String :=
  ["sea_level", "subsidence", "compaction", "submarine_diffusion", "fluvial", "flexure",
    "shoreline", "water_flexure"]

/-- The listed processes and the two that always run. -/
def allProcesses (processes : List String) : List String :=
  processes ++ ["fluvial", "shoreline"]

/-- The distinct elements in order of first appearance. -/
def firstAppearances : List String → List String
  | [] => []
  | x :: xs => x :: (firstAppearances xs).filter (· ≠ x)

/-- The value of an attribute of a component. -/
def attributeOf (s : Store) (component param : String) : Option (Leaf ⊕ Doc) :=
  (s.get? component).bind fun a => a.get? param

end Verif.Spec
