import Verif.Spec.Output

/-!
# What a user expects of `to_netcdf`
-/

set_option autoImplicit false

namespace Verif.Spec

variable {K A : Type*}

/-- The shoreline and the shelf edge are not written at the grid. -/
def Writable (loc name : String) : Prop :=
  ¬ (loc = "grid" ∧ (name = "x_of_shore" ∨ name = "x_of_shelf_edge"))

instance (loc name : String) : Decidable (Writable loc name) := by
  unfold Writable
  infer_instance

/-- The field exists and can be written. -/
def _root_.Verif.GridView.Has (g : GridView A) (loc name : String) : Prop :=
  (g.field loc name).isSome ∧ Writable loc name

/-- The fields that `names` asks for: all, those in a list, or for each location those in a list or
all; nothing at a location that a dictionary does not mention. -/
def Asked : Names → String → String → Prop
  | .all, _, _ => True
  | .list l, _, name => name ∈ l
  | .dict d, loc, name =>
    match d.find? (fun p => p.1 == loc) with
    | none => False
    | some (_, none) => True
    | some (_, some l) => name ∈ l

/-- A value of `ids` that picks elements of arrays of length `n`. -/
def ValidIds (n : ℕ) : Ids → Prop
  | .all => True
  | .list l => ∀ i ∈ l, -(n : ℤ) ≤ i ∧ i < n

/-- The elements picked, negative numbers counting from the end. -/
def picked (ids : Ids) (v : List A) : List A :=
  match ids with
  | .all => v
  | .list l => l.filterMap fun i => v[(if i < 0 then i + (v.length : ℤ) else i).toNat]?

/-- The fields that are written for `names`: those asked for, but all of them where none of the
names in a list exists, and in a dictionary where the location is not mentioned or has no name. -/
def Effective (g : GridView A) : Names → String → String → Prop
  | .all, _, _ => True
  | .list l, loc, name => name ∈ l ∨ ∀ n ∈ l, ¬ g.Has loc n
  | .dict d, loc, name =>
    match d.find? (fun p => p.1 == loc) with
    | none => True
    | some (_, none) => True
    | some (_, some l) => name ∈ l ∨ ∀ n ∈ l, ¬ Writable loc n

/-- No name is given twice for a location. -/
def DistinctNames : Names → Prop
  | .dict d => ∀ loc l, (loc, some l) ∈ d → l.Nodup
  | _ => True

/-- A call of `to_netcdf`. -/
structure NetcdfCall (K A : Type*) where
  time : K
  view : GridView A
  names : Names
  withLayers : Bool

/-- Some calls of `to_netcdf` with the same path, locations and numbers of nodes; all but the first
append. -/
def netcdfCalls (path : String) (isNetcdf4 : Bool) (at_ : List String) (nodes : Ids) :
    Mode → List (NetcdfCall K A) → FileSystem K A → Except Err (FileSystem K A)
  | _, [], fs => .ok fs
  | mode, c :: cs, fs =>
    match toNetcdf c.view path mode isNetcdf4 c.time at_ { node := nodes } c.names c.withLayers fs with
    | .error e => .error e
    | .ok fs' => netcdfCalls path isNetcdf4 at_ nodes .a cs fs'

/-- A call on a grid of the given sizes, without layers and without the shoreline of rows. -/
structure PlainCall (z : Sizes) (isNetcdf4 : Bool) (c : NetcdfCall K A) : Prop where
  sizes : HasSizes z c.view
  layers : c.withLayers = false ∨ c.view.nLayers = 0 ∧ isNetcdf4 = true
  shore : c.view.field "row" "x_of_shore" = none
  shelf : c.view.field "row" "x_of_shelf_edge" = none
  names : DistinctNames c.names

/-- The numbers of the elements that are written at a location. -/
def idsAt (nodes : Ids) (loc : String) : Ids := if loc = "node" then nodes else .all

/-- A file with one slice for each call. -/
structure HoldsCalls (d : Dataset K A) (at_ : List String) (nodes : Ids)
    (calls : List (NetcdfCall K A)) : Prop where
  times : d.times = calls.map (·.time)
  written : ∀ i c, calls[i]? = some c → ∀ loc ∈ at_, ∀ name, c.view.Has loc name →
    Effective c.view c.names loc name →
    slice d loc name i = (c.view.field loc name).map (picked (idsAt nodes loc))
  others : ∀ i c, calls[i]? = some c → ∀ loc name,
    ¬ (loc ∈ at_ ∧ c.view.Has loc name ∧ Effective c.view c.names loc name) →
    slice d loc name i = none
  beyond : ∀ i, calls.length ≤ i → ∀ loc name, slice d loc name i = none
  layers : d.layerDim = 0

end Verif.Spec
