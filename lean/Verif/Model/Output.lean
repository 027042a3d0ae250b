import Mathlib.Algebra.Group.Defs
import Mathlib.Data.List.Dedup
import Mathlib.Tactic.TypeStar
import Mathlib.Logic.Function.Basic
import Verif.Model.Err

/-!
# Output files

`to_netcdf` (`/repo/sequence/netcdf.py`) and `OutputWriter` (`/repo/sequence/output_writer.py`).

The netCDF4 library is external. A dataset is modelled by what can be read back from it: a
variable with an unlimited first dimension is a function from the index along that dimension to
the slice written there, `none` standing for the fill value. Data types are not modelled, all
numbers have type `A`; the name `at_{loc}:{name}` of a variable is the pair `(loc, name)`.
-/

set_option autoImplicit false

namespace Verif

variable {K A : Type*}

/-- What `to_netcdf` looks at on a grid with `rows` active rows and `cols` columns of nodes. Fields
are flattened arrays; fields at the grid are numbers (0-d arrays). -/
structure GridView (A : Type*) where
  rows : ℕ
  cols : ℕ
  /-- `grid.xy_of_node[:, 0]` and so on for the other locations, `grid.x_of_column` -/
  xOf : String → List A
  /-- `grid.xy_of_node[:, 1]` and so on for the other locations, `grid.y_of_row` -/
  yOf : String → List A
  /-- `grid[loc]` -/
  fields : String → List (String × List A)
  /-- `grid.event_layers.tracking` -/
  tracking : List String
  /-- `grid.event_layers.number_of_layers` -/
  nLayers : ℕ
  /-- `grid.event_layers[name]`, bottom layer first -/
  layer : String → List (List A)
  /-- `grid.event_layers.dz`, bottom layer first -/
  dz : List (List A)

/-- The value of a field. -/
def GridView.field (g : GridView A) (loc name : String) : Option (List A) :=
  ((g.fields loc).find? (fun p => p.1 == name)).map (·.2)

/-- An index into one dimension: `slice(None)` or an array of integers. -/
inductive Ids where
  | all
  | list (l : List ℤ)
  deriving DecidableEq, Repr

/-- One element of `a[[i, ...]]` in numpy: negative indices count from the end. -/
def npIndex (a : List A) (i : ℤ) : Except Err A :=
  let j := if i < 0 then i + a.length else i
  if j < 0 then .error .indexError
  else match a[j.toNat]? with
    | some v => .ok v
    | none => .error .indexError

/-- `a[ids]` for a one-dimensional array. -/
def takeIds (a : List A) : Ids → Except Err (List A)
  | .all => .ok a
  | .list l => l.mapM (npIndex a)

/-- A netCDF dataset. -/
structure Dataset (K A : Type*) where
  /-- the variable `time`; the size of the unlimited dimension `time` is its length -/
  times : List K
  /-- the sizes of the dimensions other than `time` and `layer` -/
  dims : String → Option ℕ
  /-- `x_of_{loc}`; `none` if never assigned -/
  xOf : String → Option (List A)
  /-- `y_of_{loc}`; `none` if never assigned -/
  yOf : String → Option (List A)
  /-- the slices along `time` of the variable `at_{loc}:{name}`, if it exists -/
  vars : String × String → Option (ℕ → Option (List A))
  /-- the size of the unlimited dimension `layer` -/
  layerDim : ℕ
  /-- the slices along `layer` of the variable `at_layer:{name}`, if it exists -/
  layerVars : String → Option (ℕ → Option (List A))

/-- A dataset opened with mode `w`. -/
def Dataset.new : Dataset K A := ⟨[], fun _ => none, fun _ => none, fun _ => none, fun _ => none, 0, fun _ => none⟩

/-- The locations of `_create_grid_dimension` (`/repo/sequence/netcdf.py:54-65`). -/
def knownLocations : List String :=
  ["node", "link", "patch", "corner", "face", "cell", "grid", "row", "column"]

/-- `_set_grid_coordinates` with `_create_grid_coordinates` and `_create_grid_dimension`
(`/repo/sequence/netcdf.py:44-126`). netCDF4 raises `RuntimeError` when a variable is created a
second time (91-92). -/
def setGridCoordinates (g : GridView A) (loc : String) (ids : Ids) (root : Dataset K A) :
    Except Err (Dataset K A) :=
  if loc ∉ knownLocations then .error .valueError
  else if loc = "grid" then
    .ok { root with dims := fun d => if d = loc then some 1 else root.dims d }
  else if (root.dims loc).isSome then .error .runtimeError
  else if loc = "row" then
    match takeIds (g.yOf loc) ids with
    | .error e => .error e
    | .ok y => .ok { root with
        dims := fun d => if d = loc then some y.length else root.dims d
        yOf := fun d => if d = loc then some y else root.yOf d }
  else if loc = "column" then
    match takeIds (g.xOf loc) ids with
    | .error e => .error e
    | .ok x => .ok { root with
        dims := fun d => if d = loc then some x.length else root.dims d
        xOf := fun d => if d = loc then some x else root.xOf d }
  else
    match takeIds (g.xOf loc) ids, takeIds (g.yOf loc) ids with
    | .ok x, .ok y => .ok { root with
        dims := fun d => if d = loc then some x.length else root.dims d
        xOf := fun d => if d = loc then some x else root.xOf d
        yOf := fun d => if d = loc then some y else root.yOf d }
    | .error e, _ => .error e
    | .ok _, .error e => .error e

/-- netCDF4's assignment of a one-dimensional array to a slice of `n` elements (external): the
array has `n` elements or is broadcast. -/
def broadcastTo (n : ℕ) (v : List A) : Except Err (List A) :=
  if v.length = n then .ok v
  else match v with
    | [a] => .ok (List.replicate n a)
    | _ => .error .valueError

/-- The body of the loops of `_create_field` and `_set_field`
(`/repo/sequence/netcdf.py:143-146, 178-183`): create the variable if it does not exist, then
assign the last time slice. A dataset written by `to_netcdf` always has the dimension `time`. -/
def setOneField (g : GridView A) (loc : String) (ids : Ids) (name : String) (root : Dataset K A) :
    Except Err (Dataset K A) :=
  match g.field loc name with
  | none => .error (.keyError name)
  | some v =>
    match (if loc = "grid" then .ok v else takeIds v ids) with
    | .error e => .error e
    | .ok values =>
      match root.dims loc with
      | none => .error (.keyError loc)
      | some n =>
        match broadcastTo n values with
        | .error e => .error e
        | .ok slice =>
          let old := (root.vars (loc, name)).getD fun _ => none
          let i := root.times.length - 1
          .ok { root with vars := fun k =>
            if k = (loc, name) then some fun j => if j = i then some slice else old j
            else root.vars k }

/-- `for name in names: ...`. -/
def setFieldNames (g : GridView A) (loc : String) (ids : Ids) :
    List String → Dataset K A → Except Err (Dataset K A)
  | [], root => .ok root
  | name :: names, root =>
    match setOneField g loc ids name root with
    | .error e => .error e
    | .ok root' => setFieldNames g loc ids names root'

/-- The names that `_set_field` writes (`/repo/sequence/netcdf.py:157-172`): no name means every
field; missing fields are left out with a warning; `x_of_shore` and `x_of_shelf_edge` are never
written at the grid. -/
def fieldNames (g : GridView A) (loc : String) (names : List String) : List String :=
  let available := (g.fields loc).map (·.1)
  let wanted := if names = [] then available else names
  let present := wanted.filter (available.contains ·)
  if loc = "grid" then present.filter (fun n => n ≠ "x_of_shelf_edge" ∧ n ≠ "x_of_shore") else present

/-- `_set_field` (`/repo/sequence/netcdf.py:149-186`). The code first creates all variables, then
assigns them one by one; a new variable holds only fill values. -/
def setField (g : GridView A) (loc : String) (ids : Ids) (names : List String)
    (root : Dataset K A) : Except Err (Dataset K A) :=
  setFieldNames g loc ids (fieldNames g loc names) root

/-- netCDF4's assignment of one layer of an array of shape `(n, R, C)` to a slice of shape
`(n, r, c)`, in row-major order (external): reshape if the sizes agree, otherwise broadcast. -/
def broadcastLayer (R C r c : ℕ) (l : List A) : Except Err (List A) :=
  if r * c = R * C then .ok l
  else if (r = R ∨ R = 1) ∧ (c = C ∨ C = 1) then
    .ok ((List.range r).flatMap fun i => (List.range c).filterMap fun j =>
      l[(if R = 1 then 0 else i) * C + (if C = 1 then 0 else j)]?)
  else .error .valueError

/-- `root.variables[...][:n_layers, :, :] = layers` (`/repo/sequence/netcdf.py:226-235`): the
slices of the layers of the model are assigned, slices above them are left as they are. -/
def setLayerVar (R C r c : ℕ) (data : List (List A)) (old : ℕ → Option (List A)) :
    Except Err (ℕ → Option (List A)) :=
  match data.mapM (broadcastLayer R C r c) with
  | .error e => .error e
  | .ok slices => .ok fun k => if k < slices.length then slices[k]? else old k

/-- The loop over the tracked properties in `_set_layers` (`/repo/sequence/netcdf.py:226-230`). -/
def setLayerVars (g : GridView A) (r c : ℕ) :
    List String → (String → Option (ℕ → Option (List A))) →
      Except Err (String → Option (ℕ → Option (List A)))
  | [], vars => .ok vars
  | name :: names, vars =>
    match setLayerVar g.rows (g.cols - 2) r c (g.layer name) ((vars name).getD fun _ => none) with
    | .error e => .error e
    | .ok v => setLayerVars g r c names fun n => if n = name then some v else vars n

/-- `_set_layers(root, grid, names=None, ids=slice(None))` (`/repo/sequence/netcdf.py:209-235`).
All cells are written; the thickness is one more variable. -/
def setLayers (g : GridView A) (root : Dataset K A) : Except Err (Dataset K A) :=
  match root.dims "row", root.dims "column" with
  | some r, some c =>
    match setLayerVars g r c g.tracking root.layerVars with
    | .error e => .error e
    | .ok vars =>
      match setLayerVar g.rows (g.cols - 2) r c g.dz ((vars "thickness").getD fun _ => none) with
      | .error e => .error e
      | .ok v => .ok { root with
          layerDim := max root.layerDim g.nLayers
          layerVars := fun n => if n = "thickness" then some v else vars n }
  | none, _ => .error (.keyError "row")
  | some _, none => .error (.keyError "column")

/-- The `names` argument of `to_netcdf`. A string is a list of one name, in a dictionary too;
`none` in a dictionary stands for `None`. -/
inductive Names where
  | all
  | list (l : List String)
  | dict (d : List (String × Option (List String)))
  deriving DecidableEq, Repr

/-- `names_dict[loc]` (`/repo/sequence/netcdf.py:291-305`): a `defaultdict(list)`. The shoreline
and shelf edge that lines 307-310 remove from the names at the grid are never written there by
`_set_field` either; but removing them can leave no name, which stands for all. -/
def namesDict (g : GridView A) (at_ : List String) (names : Names) (loc : String) : List String :=
  let raw :=
    match names with
    | .all => if loc ∈ at_ then (g.fields loc).map (·.1) else []
    | .list l => if loc ∈ at_ then (l.filter (((g.fields loc).map (·.1)).contains ·)).dedup else []
    | .dict d =>
      match d.find? (fun p => p.1 == loc) with
      | none => []
      | some (_, none) => (g.fields loc).map (·.1)
      | some (_, some l) => l
  if loc = "grid" then (raw.erase "x_of_shore").erase "x_of_shelf_edge" else raw

/-- The `ids` argument of `to_netcdf` as a dictionary; indices of links, faces, cells, patches and
corners are not modelled (all of them are written). -/
structure IdsArg where
  node : Ids := .all
  row : Ids := .all
  column : Ids := .all

/-- `ids_dict[loc]` (`/repo/sequence/netcdf.py:313-322`). -/
def IdsArg.get (ids : IdsArg) (loc : String) : Ids :=
  if loc = "node" then ids.node else if loc = "row" then ids.row
  else if loc = "column" then ids.column else .all

/-- `for loc in at: ...` with a function that may fail. -/
def forLocs (f : String → Dataset K A → Except Err (Dataset K A)) :
    List String → Dataset K A → Except Err (Dataset K A)
  | [], root => .ok root
  | loc :: locs, root =>
    match f loc root with
    | .error e => .error e
    | .ok root' => forLocs f locs root'

/-- `at` when it is not given (`/repo/sequence/netcdf.py:280`). -/
def defaultLocations : List String := ["node", "link", "face", "cell", "grid"]

/-- The coordinates of a new file (`/repo/sequence/netcdf.py:328-335`). -/
def newDataset (g : GridView A) (at_ : List String) (ids : IdsArg) : Except Err (Dataset K A) :=
  forLocs (fun loc => setGridCoordinates g loc (ids.get loc)) ("row" :: "column" :: at_) Dataset.new

/-- The part of `to_netcdf` that adds a time slice (`/repo/sequence/netcdf.py:337-351`). -/
def appendSlice (g : GridView A) (time : K) (at_ : List String) (ids : IdsArg) (names : Names)
    (withLayers : Bool) (root : Dataset K A) : Except Err (Dataset K A) :=
  let root1 := { root with times := root.times ++ [time] }
  match forLocs (fun loc => setField g loc (ids.get loc) (namesDict g at_ names loc)) at_ root1 with
  | .error e => .error e
  | .ok root2 =>
    match setField g "row" ids.row ["x_of_shore", "x_of_shelf_edge"] root2 with
    | .error e => .error e
    | .ok root3 => if withLayers then setLayers g root3 else .ok root3

/-- What is at a path. -/
inductive Entry (K A : Type*) where
  | absent
  /-- a netCDF file -/
  | dataset (d : Dataset K A)
  /-- some other regular file -/
  | raw
  /-- a directory -/
  | dir
  /-- a symbolic link to nothing -/
  | danglingLink

/-- `os.path.isfile`. -/
def Entry.isFile : Entry K A → Bool
  | .dataset _ => true
  | .raw => true
  | _ => false

/-- A file system, by path. -/
abbrev FileSystem (K A : Type*) := String → Entry K A

/-- Whether a file is appended to or overwritten. -/
inductive Mode where
  | w
  | a
  deriving DecidableEq, Repr

/-- Open the dataset, and set up a new one (`/repo/sequence/netcdf.py:324-335`). netCDF4 raises
`OSError` for a file or directory it cannot open. -/
def openDataset (g : GridView A) (mode : Mode) (at_ : List String) (ids : IdsArg)
    (entry : Entry K A) : Except Err (Dataset K A) :=
  match (if entry.isFile then mode else .w), entry with
  | _, .dir => .error .osError
  | .w, _ => newDataset g at_ ids
  | .a, .dataset d => .ok d
  | .a, _ => .error .osError

/-- `to_netcdf` (`/repo/sequence/netcdf.py:238-353`). Returns the new file system; when an error is
raised the file may be in any state. -/
def toNetcdf (g : GridView A) (path : String) (mode : Mode) (isNetcdf4 : Bool) (time : K)
    (at_ : List String) (ids : IdsArg) (names : Names) (withLayers : Bool)
    (fs : FileSystem K A) : Except Err (FileSystem K A) :=
  if withLayers ∧ ¬ isNetcdf4 then .error .valueError
  else
    match openDataset g mode at_ ids (fs path) with
    | .error e => .error e
    | .ok root =>
      match appendSlice g time at_ ids names withLayers root with
      | .error e => .error e
      | .ok root' => .ok (Function.update fs path (.dataset root'))

/-! ## OutputWriter -/

/-- An `OutputWriter`. -/
structure Writer (K : Type*) where
  clobber : Bool
  interval : ℕ
  fields : List String
  filepath : String
  /-- `_rows` -/
  rows : List ℤ
  /-- `_time` -/
  time : K
  /-- `_step_count` -/
  count : ℕ
  deriving DecidableEq, Repr

/-- A Python value given as an interval. -/
inductive PyNumber (K : Type*) where
  | int (i : ℤ)
  | bool (b : Bool)
  | float (x : K)
  | nan
  /-- a value that cannot be compared with a number, such as a string or `None` -/
  | other
  deriving DecidableEq, Repr

/-- The `interval` setter (`/repo/sequence/output_writer.py:110-116`), returning the new interval.
A `bool` is an `int`. -/
def checkInterval [Zero K] [LT K] [DecidableLT K] : PyNumber K → Except Err ℕ
  | .int i => if i < 0 then .error .typeError else .ok i.toNat
  | .bool b => .ok b.toNat
  | .float x => if x < 0 then .error .typeError else .error .valueError
  | .nan => .error .valueError
  | .other => .error .typeError

/-- The `filepath` setter (`/repo/sequence/output_writer.py:93-103`): the new path, if it is
assigned, the new file system and the outcome. `os.remove` fails on a directory, removes a file
or a link, and does not find an absent file. -/
def setFilepath (clobber : Bool) (old : Option String) (new : String) (fs : FileSystem K A) :
    (Option String × FileSystem K A) × Except Err Unit :=
  if (fs new).isFile ∧ ¬ clobber then ((old, fs), .error .runtimeError)
  else
    match fs new with
    | .dir => ((some new, fs), .error .osError)
    | .absent => ((some new, fs), .ok ())
    | _ => ((some new, Function.update fs new .absent), .ok ())

/-- `OutputWriter.__init__` (`/repo/sequence/output_writer.py:19-62`) on a grid with `R` active
rows. Returns the file system in any case. -/
def writerInit [Zero K] [LT K] [DecidableLT K] (R : ℕ) (path : String) (interval : PyNumber K)
    (fields : List String) (clobber : Bool) (rows : Option (List ℤ)) (fs : FileSystem K A) :
    FileSystem K A × Except Err (Writer K) :=
  match checkInterval interval with
  | .error e => (fs, .error e)
  | .ok n =>
    match setFilepath clobber none path fs with
    | ((_, fs'), .error e) => (fs', .error e)
    | ((_, fs'), .ok _) =>
      let rows' := match rows with
        | some l => l.map (· - 1)
        | none => (List.range R).map Int.ofNat
      (fs', .ok ⟨clobber, n, fields, path, rows', 0, 0⟩)

/-- `OutputWriter.run_one_step` (`/repo/sequence/output_writer.py:64-86`). -/
def writerStep [Add K] [One K] (g : GridView A) (dt : Option K) (s : Writer K × FileSystem K A) :
    Except Err (Writer K × FileSystem K A) :=
  let (w, fs) := s
  let dt := dt.getD 1
  let w' := { w with time := w.time + dt, count := w.count + 1 }
  if w.interval = 0 then .error .zeroDivision
  else if w.count % w.interval = 0 then
    match toNetcdf g w.filepath .a true w.time defaultLocations
        { row := .list w.rows, column := .list ((List.range (g.cols - 2)).map Int.ofNat) }
        (.dict [("node", some w.fields)]) true fs with
    | .error e => .error e
    | .ok fs' => .ok (w', fs')
  else .ok (w', fs)

/-- What can happen to a writer after it has been created. -/
inductive WriterOp (K A : Type*) where
  | step (g : GridView A) (dt : Option K)
  | setInterval (v : PyNumber K)
  | setFields (fields : List String)

/-- One of these. -/
def writerOp [Zero K] [Add K] [One K] [LT K] [DecidableLT K] (op : WriterOp K A)
    (s : Writer K × FileSystem K A) : Except Err (Writer K × FileSystem K A) :=
  match op with
  | .step g dt => writerStep g dt s
  | .setInterval v =>
    match checkInterval v with
    | .error e => .error e
    | .ok n => .ok ({ s.1 with interval := n }, s.2)
  | .setFields fields => .ok ({ s.1 with fields := fields }, s.2)

/-- A history of them. -/
def writerRun [Zero K] [Add K] [One K] [LT K] [DecidableLT K] (s : Writer K × FileSystem K A) :
    List (WriterOp K A) → Except Err (Writer K × FileSystem K A)
  | [] => .ok s
  | op :: ops =>
    match writerOp op s with
    | .error e => .error e
    | .ok s' => writerRun s' ops

end Verif
