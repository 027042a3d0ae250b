import Mathlib.Algebra.Order.Field.Basic
import Mathlib.Algebra.BigOperators.Group.List.Basic
import Verif.Model.Err

/-!
# Layer stacks

landlab's `EventLayers` is not part of `/repo`; it is modelled here from its documented
behaviour because every driver in `/repo/sequence` stores its result in it. Arrays of shape
(number of layers, number of stacks) are stored stack by stack: `dz s` is the list of layer
thicknesses of stack `s`, bottom first.

The archiving policy on top of it is code of `/repo` (`sequence.py`, `sequence_model.py`).
-/

set_option autoImplicit false

namespace Verif

variable {ι K : Type*}

section Column
variable [Zero K] [Add K] [Sub K] [Neg K] [LT K] [DecidableLT K]

/-- The erosion loop of landlab's `EventLayers.add` (external; used at
`/repo/sequence/sequence.py:246` and `/repo/sequence/sequence_model.py:328`), for one stack.
`amount` is what has to go, `removed` what has been taken so far, the list is what remains to be
visited, top layer first. -/
def erodeLoop (amount : K) : K → List K → List K
  | _, [] => []
  | removed, l :: rest =>
    let removed' := removed + l
    if amount < removed' then (removed' - amount) :: rest
    else 0 :: erodeLoop amount removed' rest

/-- Thicken the top layer of a stack (last element). -/
def addToTop (d : K) : List K → List K
  | [] => []
  | [l] => [l + d]
  | l :: rest => l :: addToTop d rest

/-- Deposition or erosion of one stack, after a new empty layer has been put on top
(landlab `EventLayers.add`, external). -/
def depositOrErode (col : List K) (dz : K) : List K :=
  if dz < 0 then (erodeLoop (-dz) 0 col.reverse).reverse
  else addToTop dz col

/-- One call of `EventLayers.add` on one stack: a new empty layer, then deposition or erosion. -/
def addColumn (col : List K) (dz : K) : List K := depositOrErode (col ++ [0]) dz

end Column

/-- Replace the elements `start .. stop - 1` of a stack by one, computed by `f`
(landlab `EventLayers.reduce(start, stop)`, external, used at
`/repo/sequence/sequence.py:265` and `/repo/sequence/sequence_model.py:338`). -/
def reduceColumn (start stop : ℕ) (f : List K → K) (col : List K) : List K :=
  col.take start ++ [f ((col.drop start).take (stop - start))] ++ col.drop stop

/-- landlab's `EventLayers` (external): `n` layers, the names being tracked, and for each stack
the thicknesses and the tracked properties, bottom first. -/
@[ext] structure EventLayers (ι K : Type*) where
  n : ℕ
  tracking : List String
  dz : ι → List K
  prop : String → ι → List K

namespace EventLayers

/-- A fresh `EventLayers(number_of_stacks)`. -/
def empty : EventLayers ι K := ⟨0, [], fun _ => [], fun _ _ => []⟩

/-- `EventLayers.thickness`: the column sums of the layer thicknesses. -/
def thickness [Zero K] [Add K] (ev : EventLayers ι K) (s : ι) : K := (ev.dz s).sum

/-- Keyword arguments of `EventLayers.add`: names with one value per stack (scalars are
broadcast by the caller of the model). -/
abbrev Kwds (ι K : Type*) := List (String × (ι → K))

/-- The value given for `name`, if any. -/
def Kwds.get? (kw : Kwds ι K) (name : String) : Option (ι → K) :=
  (kw.find? (fun p => p.1 == name)).map (·.2)

/-- landlab `EventLayers.add(dz, **kwds)` (external): the first call fixes the tracked names; a
new layer is always appended; an untracked name raises `ValueError`; a tracked name that is not
given is 0 in the new layer. -/
def add [Zero K] [Add K] [Sub K] [Neg K] [LT K] [DecidableLT K]
    (ev : EventLayers ι K) (dz : ι → K) (kw : Kwds ι K) : Except Err (EventLayers ι K) :=
  let tracking := if ev.n = 0 then kw.map (·.1) else ev.tracking
  if kw.all (fun p => tracking.contains p.1) then
    .ok { n := ev.n + 1
          tracking := tracking
          dz := fun s => addColumn (ev.dz s) (dz s)
          prop := fun name s =>
            if tracking.contains name then
              ev.prop name s ++ [((kw.get? name).map (fun v => v s)).getD 0]
            else [] }
  else .error .valueError

/-- Reducers by property name. -/
abbrev Reducers (K : Type*) := String → Option (List K → K)

/-- landlab `EventLayers.reduce(start, stop, **reducers)` (external): thicknesses are summed, each
tracked property is reduced by its reducer; a tracked property without reducer raises
`TypeError`, an invalid range `ValueError`. -/
def reduce [Zero K] [Add K] (ev : EventLayers ι K) (start stop : ℕ) (red : Reducers K) :
    Except Err (EventLayers ι K) :=
  if ¬ (start < stop ∧ stop ≤ ev.n) then .error .valueError
  else if ev.tracking.all (fun name => (red name).isSome) then
    .ok { n := ev.n - (stop - start) + 1
          tracking := ev.tracking
          dz := fun s => reduceColumn start stop List.sum (ev.dz s)
          prop := fun name s =>
            if ev.tracking.contains name then
              reduceColumn start stop ((red name).getD fun _ => 0) (ev.prop name s)
            else [] }
  else .error .typeError

end EventLayers

/-! ## Reducers and the archiving policy -/

/-- `np.max` along the layers. `np.max` of an empty list raises in numpy; the only calls are on
ten layers. -/
def listMax [Zero K] [Max K] : List K → K
  | [] => 0
  | x :: xs => xs.foldl max x

/-- `np.mean` along the layers. -/
def listMean [Zero K] [Add K] [Div K] [NatCast K] (l : List K) : K := l.sum / (l.length : K)

/-- `layer_reducers` of both drivers (`/repo/sequence/sequence.py:197-215`,
`/repo/sequence/sequence_model.py:380-398`, the same text): `np.max` for the age, `np.sum` for
`t0`, `np.mean` otherwise, `percent_sand` only if it is tracked. -/
def layerReducers [Zero K] [Add K] [Div K] [NatCast K] [Max K] (tracking : List String) :
    EventLayers.Reducers K := fun name =>
  if name = "age" then some listMax
  else if name = "water_depth" then some listMean
  else if name = "t0" then some List.sum
  else if name = "porosity" then some listMean
  else if name = "percent_sand" ∧ tracking.contains "percent_sand" then some listMean
  else none

/-- Layers together with the driver's `_n_archived_layers`. -/
@[ext] structure Archive (ι K : Type*) where
  layers : EventLayers ι K
  archived : ℕ

/-- The test-and-archive statement that ends `Sequence.add_layer`
(`/repo/sequence/sequence.py:262-270`) and `SequenceModel.advance_components`
(`/repo/sequence/sequence_model.py:335-343`). Python's `%` on integers with a positive right-hand
side is `Int.emod`. -/
def Archive.archiveOld [Zero K] [Add K] [Div K] [NatCast K] [Max K] (st : Archive ι K) :
    Except Err (Archive ι K) :=
  if ((st.layers.n : ℤ) - (st.archived : ℤ)) % 20 = 0 then
    match st.layers.reduce st.archived (st.archived + 10) (layerReducers st.layers.tracking) with
    | .ok ev => .ok ⟨ev, st.archived + 1⟩
    | .error e => .error e
  else .ok st

/-- Add a layer, then archive if it is time: the layer part of `Sequence.add_layer`
(`/repo/sequence/sequence.py:246, 262-270`) and of `SequenceModel.advance_components`
(`/repo/sequence/sequence_model.py:328-343`). What happens between the two statements does not
touch the layers. -/
def Archive.addLayer [Zero K] [Add K] [Sub K] [Neg K] [LT K] [DecidableLT K] [Div K] [NatCast K]
    [Max K] (st : Archive ι K) (dz : ι → K) (kw : EventLayers.Kwds ι K) :
    Except Err (Archive ι K) :=
  match st.layers.add dz kw with
  | .ok ev => Archive.archiveOld ⟨ev, st.archived⟩
  | .error e => .error e

/-- One recorded event: a thickness and the keyword arguments given with it. -/
structure Event (ι K : Type*) where
  dz : ι → K
  kw : EventLayers.Kwds ι K

/-- A history of events given to the archiving driver. -/
def Archive.run [Zero K] [Add K] [Sub K] [Neg K] [LT K] [DecidableLT K] [Div K] [NatCast K]
    [Max K] (st : Archive ι K) : List (Event ι K) → Except Err (Archive ι K)
  | [] => .ok st
  | e :: es =>
    match st.addLayer e.dz e.kw with
    | .ok st' => Archive.run st' es
    | .error err => .error err

/-- The same history given to layers that are never archived. -/
def EventLayers.run [Zero K] [Add K] [Sub K] [Neg K] [LT K] [DecidableLT K]
    (ev : EventLayers ι K) : List (Event ι K) → Except Err (EventLayers ι K)
  | [] => .ok ev
  | e :: es =>
    match ev.add e.dz e.kw with
    | .ok ev' => EventLayers.run ev' es
    | .error err => .error err

end Verif
