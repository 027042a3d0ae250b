import Verif.Model.Unfinished
import Verif.Spec.Output

/-! # Records that a failing call leaves alone -/

set_option autoImplicit false

namespace Verif.Spec

open Verif

variable {K A : Type*}

/-- What was in the file is still there: the records, the coordinates and the sizes. -/
structure KeepsRecords (d d' : Dataset K A) : Prop where
  times : d.times <+: d'.times
  slices : ∀ i < d.times.length, ∀ loc name, slice d' loc name i = slice d loc name i
  xOf : d'.xOf = d.xOf
  yOf : d'.yOf = d.yOf
  dims : d'.dims = d.dims

/-- A variable of the file holds, at record `i`, what it held, or the field of the grid (or the
part of it that was asked for). -/
def OldOrNew (d d' : Dataset K A) (g : GridView A) (i : ℕ) : Prop :=
  ∀ loc name, slice d' loc name i = slice d loc name i ∨
    ∃ v ids values n, g.field loc name = some v ∧
      (if loc = "grid" then .ok v else takeIds v ids) = .ok values ∧
      broadcastTo n values = .ok ((slice d' loc name i).getD []) ∧ (slice d' loc name i).isSome

end Verif.Spec
