import Mathlib.Data.Fin.Basic
import Mathlib.Tactic.TypeStar
import Verif.Model.Err

/-!
# The grid

`SequenceModelGrid` of `/repo/sequence/grid.py`.
-/

set_option autoImplicit false

namespace Verif

variable {K : Type*}

/-- Status of a row of nodes; the side columns are not distinguished. -/
inductive RowStatus where
  | open
  | closed
  deriving DecidableEq, Repr

/-- What the constructor of `SequenceModelGrid` fixes: the shape and spacing given to landlab's
`RasterModelGrid`, the status of the rows and the size of the `row` field location. landlab's own
checks of the shape are not modelled. -/
structure GridInfo (K : Type*) where
  nodeRows : ℕ
  nodeCols : ℕ
  dx : K
  dy : K
  status : ℕ → RowStatus
  rowSize : ℕ

/-- `super().__init__((n_rows + 2, n_cols), ...)` and the rest of the constructor
(`/repo/sequence/grid.py:75-84`). -/
def GridInfo.make (nRows nCols : ℕ) (rowSpacing colSpacing : K) : GridInfo K where
  nodeRows := nRows + 2
  nodeCols := nCols
  dx := colSpacing
  dy := rowSpacing
  status := fun r => if r = 0 ∨ r = nRows + 1 then .closed else .open
  rowSize := nRows

/-- `SequenceModelGrid.__init__` (`/repo/sequence/grid.py:50-84`). Scalars are lists of length one
(`np.atleast_1d`, lines 50-51); arrays of higher dimension are not modelled. -/
def gridInit [One K] (shape : List ℕ) (spacing : List K) : Except Err (GridInfo K) :=
  if (shape.length = 1 ∧ spacing.length ≠ 1) ∨
      (shape.length ≠ 1 ∧ spacing.length ≠ shape.length) then .error .valueError
  else
    match shape, spacing with
    | [nCols], [colSpacing] => .ok (GridInfo.make 1 nCols 1 colSpacing)
    | [nRows, nCols], [rowSpacing, colSpacing] =>
      .ok (GridInfo.make nRows nCols rowSpacing colSpacing)
    | _, _ => .error .valueError

/-- The entries of the dictionary that `SequenceModelGrid.from_dict` looks at; every other entry
is ignored. -/
structure GridParams (K : Type*) where
  shape : Option (List ℕ) := none
  nCols : Option (List ℕ) := none
  spacing : Option (List K) := none
  xySpacing : Option (List K) := none

/-- `SequenceModelGrid.from_dict` (`/repo/sequence/grid.py:135-183`). -/
def gridFromDict [One K] (params : GridParams K) : Except Err (GridInfo K) :=
  match params.shape.orElse (fun _ => params.nCols) with
  | none => .error (.keyError "shape")
  | some shape =>
    match params.spacing.orElse (fun _ => params.xySpacing.map List.reverse) with
    | none => .error (.keyError "spacing")
    | some spacing => gridInit shape spacing

/-! ## Nodes, rows and cells

`R` is the number of active rows, `C` the number of columns. -/

/-- Nodes of a grid with `R` active rows. -/
abbrev Node (R C : ℕ) := Fin (R + 2) × Fin C

/-- Cells (landlab; external): one for each node that is not on the perimeter. -/
abbrev Cell (R C : ℕ) := Fin R × Fin (C - 2)

/-- A field at nodes. -/
abbrev NodeField (R C : ℕ) (K : Type*) := Node R C → K

/-- The node row of an active row: the `[1:-1]` of `/repo/sequence/grid.py:120`. -/
def activeRow {R : ℕ} (r : Fin R) : Fin (R + 2) := r.succ.castSucc

/-- landlab's `node_at_cell` (external). -/
def nodeAtCell {R C : ℕ} (c : Cell R C) : Node R C :=
  (activeRow c.1, ⟨c.2.val + 1, by have := c.2.isLt; omega⟩)

/-- `get_profile` (`/repo/sequence/grid.py:107-120`), as values. -/
def getProfile {R C : ℕ} (f : NodeField R C K) (r : Fin R) (c : Fin C) : K := f (activeRow r, c)

/-- The active row of a node row, if it is one. -/
def activeIndex {R : ℕ} (r : Fin (R + 2)) : Option (Fin R) :=
  if h : 0 < r.val ∧ r.val ≤ R then some ⟨r.val - 1, by omega⟩ else none

/-- `get_profile(name)[:] = values`: the slice is a view, so this writes into the field
(`/repo/sequence/grid.py:120`). -/
def setProfile {R C : ℕ} (f : NodeField R C K) (v : Fin R → Fin C → K) : NodeField R C K := fun n =>
  match activeIndex n.1 with
  | some r => v r n.2
  | none => f n

/-- The cell of a node, if it has one. -/
def cellOf {R C : ℕ} (n : Node R C) : Option (Cell R C) :=
  match activeIndex n.1 with
  | some r =>
    if h : 0 < n.2.val ∧ n.2.val + 1 < C then some (r, ⟨n.2.val - 1, by omega⟩) else none
  | none => none

/-- `field[node_at_cell] = values`. -/
def setCells {R C : ℕ} (f : NodeField R C K) (v : Cell R C → K) : NodeField R C K := fun n =>
  match cellOf n with
  | some c => v c
  | none => f n

end Verif
