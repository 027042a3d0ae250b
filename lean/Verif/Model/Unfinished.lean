import Verif.Model.Output

/-!
# What a call of `to_netcdf` that fails has written

`to_netcdf` (`/repo/sequence/netcdf.py:238-353`) once more, with the dataset as it is when the call
ends, whether or not it raises. The dataset is not closed by `to_netcdf` if it raises (353); it is
taken to be closed, and so written, when it is collected, which `netCDF4` does (external). Without
an error this is `toNetcdf` (theorem `write_outcome`).
-/

set_option autoImplicit false

namespace Verif

variable {K A : Type*}

/-- A dataset and the exception that was raised, if any. -/
abbrev Written (K A : Type*) := Dataset K A × Option Err

/-- Go on unless an exception has been raised. -/
def Written.andThen (w : Written K A) (f : Dataset K A → Written K A) : Written K A :=
  match w.2 with
  | some e => (w.1, some e)
  | none => f w.1

/-- A statement that changes nothing if it raises. -/
def statement (f : Dataset K A → Except Err (Dataset K A)) (root : Dataset K A) : Written K A :=
  match f root with
  | .error e => (root, some e)
  | .ok root' => (root', none)

/-- A loop. -/
def writeEach {α : Type*} (f : α → Dataset K A → Written K A) :
    List α → Dataset K A → Written K A
  | [], root => (root, none)
  | a :: rest, root => (f a root).andThen (writeEach f rest)

/-- The body of the loop of `_create_field` (`/repo/sequence/netcdf.py:143-146`); a new variable
holds the fill value. netCDF4 raises if the dimension does not exist (external). -/
def createOneField (loc name : String) (root : Dataset K A) : Written K A :=
  match root.vars (loc, name), root.dims loc with
  | some _, _ => (root, none)
  | none, none => (root, some (.keyError loc))
  | none, some _ =>
    ({ root with vars := fun k => if k = (loc, name) then some fun _ => none else root.vars k }, none)

/-- `_set_field` (`/repo/sequence/netcdf.py:149-186`): all variables are created before the first
is assigned. `order` is the order in which python goes through the set of names. -/
def writeField (order : List String → List String) (g : GridView A) (loc : String) (ids : Ids)
    (names : List String) (root : Dataset K A) : Written K A :=
  (writeEach (createOneField loc) (order (fieldNames g loc names)) root).andThen
    (writeEach (fun name => statement (setOneField g loc ids name)) (order (fieldNames g loc names)))

/-- The body of the loop of `_create_layers`, and its end (`/repo/sequence/netcdf.py:195-206`). -/
def createOneLayer (name : String) (root : Dataset K A) : Written K A :=
  match root.layerVars name, root.dims "row", root.dims "column" with
  | some _, _, _ => (root, none)
  | none, none, _ => (root, some (.keyError "row"))
  | none, some _, none => (root, some (.keyError "column"))
  | none, some _, some _ =>
    ({ root with layerVars := fun n => if n = name then some fun _ => none else root.layerVars n },
      none)

/-- The assignment of one layer variable (`/repo/sequence/netcdf.py:227-230, 232-235`). It makes
the dimension `layer` as long as there are layers. -/
def setOneLayer (g : GridView A) (name : String) (data : List (List A)) (root : Dataset K A) :
    Except Err (Dataset K A) :=
  match root.dims "row", root.dims "column" with
  | some r, some c =>
    match setLayerVar g.rows (g.cols - 2) r c data ((root.layerVars name).getD fun _ => none) with
    | .error e => .error e
    | .ok v => .ok { root with
        layerDim := max root.layerDim g.nLayers
        layerVars := fun n => if n = name then some v else root.layerVars n }
  | none, _ => .error (.keyError "row")
  | some _, none => .error (.keyError "column")

/-- `_set_layers(root, grid, names=None, ids=slice(None))` (`/repo/sequence/netcdf.py:209-235`). -/
def writeLayers (g : GridView A) (root : Dataset K A) : Written K A :=
  ((writeEach createOneLayer (g.tracking ++ ["thickness"]) root).andThen
    (writeEach (fun name => statement (setOneLayer g name (g.layer name))) g.tracking)).andThen
      (statement (setOneLayer g "thickness" g.dz))

/-- The part of `to_netcdf` that adds a time slice (`/repo/sequence/netcdf.py:337-351`). -/
def writeSlice (order : List String → List String) (g : GridView A) (time : K)
    (at_ : List String) (ids : IdsArg) (names : Names) (withLayers : Bool) (root : Dataset K A) :
    Written K A :=
  (((writeEach (fun loc => writeField order g loc (ids.get loc) (namesDict g at_ names loc)) at_
    { root with times := root.times ++ [time] }).andThen
      (writeField order g "row" ids.row ["x_of_shore", "x_of_shelf_edge"])).andThen
        fun root' => if withLayers then writeLayers g root' else (root', none))

/-- Open the dataset, and set up a new one (`/repo/sequence/netcdf.py:324-335`); `none` if it
cannot be opened. -/
def openWritten (g : GridView A) (mode : Mode) (at_ : List String) (ids : IdsArg)
    (entry : Entry K A) : Option (Written K A) :=
  match (if entry.isFile then mode else .w), entry with
  | _, .dir => none
  | .w, _ => some (writeEach (fun loc => statement (setGridCoordinates g loc (ids.get loc)))
      ("row" :: "column" :: at_) Dataset.new)
  | .a, .dataset d => some (d, none)
  | .a, _ => none

/-- `to_netcdf` (`/repo/sequence/netcdf.py:238-353`) with the files as they are afterwards and the
exception that was raised, if any. -/
def writeNetcdf (order : List String → List String) (g : GridView A) (path : String) (mode : Mode)
    (isNetcdf4 : Bool) (time : K) (at_ : List String) (ids : IdsArg) (names : Names)
    (withLayers : Bool) (fs : FileSystem K A) : FileSystem K A × Option Err :=
  if withLayers ∧ ¬ isNetcdf4 then (fs, some .valueError)
  else
    match openWritten g mode at_ ids (fs path) with
    | none => (fs, some .osError)
    | some w =>
      let w' := w.andThen (writeSlice order g time at_ ids names withLayers)
      (Function.update fs path (.dataset w'.1), w'.2)

end Verif
