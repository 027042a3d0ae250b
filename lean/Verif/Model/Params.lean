import Verif.Model.Config

/-!
# Parameters of the processes (`/repo/sequence/sequence_model.py`)
-/

set_option autoImplicit false

namespace Verif

section Match

variable {ν : Type*} [DecidableEq ν]

/-- One round of the loop of `_match_values` (`/repo/sequence/sequence_model.py:484-490`): the
matched values and the mismatched keys so far. -/
def matchStep (d1 d2 : PyDict String ν) (st : PyDict String ν × List String) (key : String) :
    PyDict String ν × List String :=
  let m1 := match d2.get? key with
    | some v => st.1.set key v
    | none => st.1
  match d1.get? key with
  | none => (m1, st.2)
  | some v =>
    let m2 := match m1.get? key with
      | some _ => m1
      | none => m1.set key v
    if m2.get? key = some v then (m2, st.2) else (m2, st.2 ++ [key])

/-- `_match_values` (`/repo/sequence/sequence_model.py:446-494`). -/
def matchValues (d1 d2 : PyDict String ν) (keys : List String) :
    Except Err (PyDict String ν) :=
  let st := keys.foldl (matchStep d1 d2) ([], [])
  if st.2 = [] then .ok st.1 else .error (.parameterMismatch st.2)

/-- A section of the configuration that is passed to a constructor. -/
abbrev Group (ν : Type*) := PyDict String ν

/-- `params[name]` of a `defaultdict(dict)` (the entry that reading creates is not needed: it is
empty and never passed to a constructor). -/
def groupOf (params : PyDict String (Group ν)) (name : String) : Group ν :=
  (params.get? name).getD []

/-- `params_to_match` (`/repo/sequence/sequence_model.py:198-203`). -/
def paramsToMatch : List (String × String × List String) :=
  [("fluvial", "submarine_diffusion", ["sediment_load", "plain_slope"]),
    ("fluvial", "sediments", ["hemipelagic"]),
    ("shoreline", "submarine_diffusion", ["alpha"]),
    ("water_flexure", "flexure", ["isostasytime", "eet"])]

/-- One round of the matching loop (`/repo/sequence/sequence_model.py:204-238`): a mismatch is
logged and the two groups stay as they are. -/
def matchPair (params : PyDict String (Group ν)) (m : String × String × List String) :
    PyDict String (Group ν) :=
  match matchValues (groupOf params m.1) (groupOf params m.2.1) m.2.2 with
  | .error _ => params
  | .ok matched =>
    let p1 := params.set m.1 ((groupOf params m.1).update matched)
    p1.set m.2.1 ((groupOf p1 m.2.1).update matched)

/-- `fluvial` and `shoreline` are always run
(`/repo/sequence/sequence_model.py:189-192`). -/
def withRequired (processes : List String) : List String :=
  let p1 := if processes.contains "fluvial" then processes else processes ++ ["fluvial"]
  if p1.contains "shoreline" then p1 else p1 ++ ["shoreline"]

/-- The parameters of the listed processes before matching
(`/repo/sequence/sequence_model.py:193-196`). Sections are dictionaries; `context.get(...)` of a
section that is a plain value is not modelled. -/
def initialParams (processes : List String) (context : PyDict String (Group ν)) :
    PyDict String (Group ν) :=
  PyDict.ofPairs (processes.map fun p => (p, groupOf context p))

/-- The parameters after matching (`/repo/sequence/sequence_model.py:193-238`). -/
def matchedParams (processes : List String) (context : PyDict String (Group ν)) :
    PyDict String (Group ν) :=
  paramsToMatch.foldl matchPair (initialParams processes context)

/-- `process_class` (`/repo/sequence/sequence_model.py:250-264`). -/
def processClass (params : PyDict String (Group ν)) (name : String) : Option String :=
  if name = "subsidence" then some "SubsidenceTimeSeries"
  else if name = "compaction" then some "Compact"
  else if name = "submarine_diffusion" then some "SubmarineDiffuser"
  else if name = "fluvial" then some "Fluvial"
  else if name = "flexure" then some "SedimentFlexure"
  else if name = "shoreline" then some "ShorelineFinder"
  else if name = "water_flexure" then some "WaterFlexure"
  else if name = "sea_level" then
    match (groupOf params "sea_level").get? "filepath" with
    | none => some "SinusoidalSeaLevel"
    | some _ => some "SeaLevelTimeSeries"
  else none

/-- The component constructed for a process: its class and the keyword arguments it is given.
What the constructors do with them is modelled separately. -/
structure Built (ν : Type*) where
  cls : String
  kwds : Group ν
  deriving Repr

/-- The list of `(name, component)` pairs (`/repo/sequence/sequence_model.py:265-267`); constructors
are taken to accept their arguments. -/
def buildAll (params : PyDict String (Group ν)) :
    List String → Except Err (List (String × Built ν))
  | [] => .ok []
  | name :: rest =>
    match processClass params name with
    | none => .error (.keyError name)
    | some cls =>
      match buildAll params rest with
      | .error e => .error e
      | .ok bs => .ok ((name, ⟨cls, groupOf params name⟩) :: bs)

/-- `load_processes` (`/repo/sequence/sequence_model.py:173-269`). Log messages are not
modelled. -/
def loadProcesses (processes : List String) (context : PyDict String (Group ν)) :
    Except Err (PyDict String (Built ν)) :=
  let ps := withRequired processes
  match buildAll (matchedParams ps context) ps with
  | .error e => .error e
  | .ok bs => .ok (PyDict.ofPairs bs)

/-- The components of a `SequenceModel` (`/repo/sequence/sequence_model.py:119-121`): `output` is
`none` when no output section is given. -/
def modelComponents {β : Type*} (processes : PyDict String β) (output : Option β) :
    PyDict String β :=
  match output with
  | none => PyDict.ofPairs processes
  | some o => (PyDict.ofPairs processes).set "output" o

end Match

/-! ### Changing parameters while the model runs -/

/-- The attributes of the components. -/
abbrev Store := PyDict String (PyDict String (Leaf ⊕ Doc))

/-- The inner loop of `set_params`: `setattr(c, param, value)`
(`/repo/sequence/sequence_model.py:296-297`). `reject` says which assignments raise (read-only
attributes, setters that validate). -/
def setAttrs (reject : String → Leaf ⊕ Doc → Option Err)
    (attrs : PyDict String (Leaf ⊕ Doc)) : Doc → Except Err (PyDict String (Leaf ⊕ Doc))
  | .nil => .ok attrs
  | .leaf k v r =>
    match reject k (.inl v) with
    | some e => .error e
    | none => setAttrs reject (attrs.set k (.inl v)) r
  | .sub k d r =>
    match reject k (.inr d) with
    | some e => .error e
    | none => setAttrs reject (attrs.set k (.inr d)) r

/-- `set_params` (`/repo/sequence/sequence_model.py:286-297`). A section that is not a dictionary
has no `items`. -/
def setParams (reject : String → String → Leaf ⊕ Doc → Option Err) (s : Store) :
    Doc → Except Err Store
  | .nil => .ok s
  | .leaf k _ _ =>
    match s.get? k with
    | none => .error (.keyError k)
    | some _ => .error .attributeError
  | .sub k d r =>
    match s.get? k with
    | none => .error (.keyError k)
    | some a =>
      match setAttrs (reject k) a d with
      | .error e => .error e
      | .ok a' => setParams reject (s.set k a') r

/-- The loop of `sequence run` (`/repo/sequence/cli.py:308-312`) for `n` rounds: a step, then
`model.set_params(params.update(1))`. Returns the attributes with which the steps were run, and
how the loop ended. -/
def cliRun (reject : String → String → Leaf ⊕ Doc → Option Err) (c : Cfg) (s : Store) :
    Nat → List Store × Except Err (Cfg × Store)
  | 0 => ([], .ok (c, s))
  | n + 1 =>
    match c.update 1 with
    | .error e => ([s], .error e)
    | .ok (d, c') =>
      match setParams reject s d with
      | .error e => ([s], .error e)
      | .ok s' =>
        let r := cliRun reject c' s' n
        (s :: r.1, r.2)

end Verif
