import Verif.Spec.Output
import Verif.Model.Driver

/-!
# What a user expects of a plot of a file
-/

set_option autoImplicit false

namespace Verif.Spec

variable {K A : Type*} {R C : ℕ}

/-- Everything a file needs in order to be plotted. -/
def Plottable (d : Dataset K A) : Prop :=
  (d.dims "row").isSome ∧ (d.dims "column").isSome ∧
  (d.layerVars "thickness").isSome ∧ (d.layerVars "age").isSome ∧
  (d.vars ("row", "x_of_shore")).isSome ∧ (d.vars ("row", "x_of_shelf_edge")).isSome ∧
  (d.vars ("node", "bedrock_surface__elevation")).isSome

/-- Rows count from 0, or from the end with negative numbers. -/
def ValidRow (n : ℕ) (r : ℤ) : Prop := -(n : ℤ) ≤ r ∧ r < n

/-- Row `i` (of `n`) is the one that `r` means. -/
def MeansRow (n : ℕ) (r : ℤ) (i : ℕ) : Prop := i < n ∧ (r = i ∨ r = (i : ℤ) - n)

/-- The row to plot: the one asked for, or the middle one. -/
def ChosenRow (n : ℕ) (row : Option ℤ) (i : ℕ) : Prop :=
  match row with
  | none => i = n / 2 ∧ i < n
  | some r => MeansRow n r i

/-- All arrays in the file fit `n` rows of `m` stacks. -/
structure FileSizes (d : Dataset K A) (n m : ℕ) : Prop where
  rows : d.dims "row" = some n
  columns : d.dims "column" = some m
  nodes : d.dims "node" = some ((n + 2) * (m + 2))
  layer : ∀ name k l, layerSlice d name k = some l → l.length = n * m
  bedrock : ∀ i l, slice d "node" "bedrock_surface__elevation" i = some l →
    l.length = (n + 2) * (m + 2)

/-- Linear interpolation of a series that may have gaps: the recorded value at a recorded time,
between two such times a straight line, nothing next to a gap. -/
def Interpolates [Field K] [LT K] (times : List K) (f : ℕ → Option K) (t : K) (v : Option K) :
    Prop :=
  (∀ j, times[j]? = some t → v = f j) ∧
  ∀ j t0 t1, times[j]? = some t0 → times[j + 1]? = some t1 → t0 < t → t < t1 →
    v = (f j).bind fun a => (f (j + 1)).map fun b => a + (b - a) * ((t - t0) / (t1 - t0))

/-- What the file says about one element of a field in a time slice; `none` is NaN. -/
def fieldValueAt (d : Dataset K (Option K)) (loc name : String) (i j : ℕ) : Option K :=
  (slice d loc name i).bind fun l => (l[j]?).join

/-- What the file says about one stack in a layer. -/
def layerValueAt (d : Dataset K (Option K)) (name : String) (k j : ℕ) : Option K :=
  (layerSlice d name k).bind fun l => (l[j]?).join

/-- The elevation of the top of layer `k` at a cell: the bedrock below it plus the layers up to
`k`. -/
def layerTop [Field K] (w : World R C K) (k : ℕ) (r : Fin R) (c : Fin (C - 2)) : K :=
  w.bedrock (⟨r.val + 1, by omega⟩, ⟨c.val + 1, by omega⟩) + ((w.layers.dz (r, c)).take (k + 1)).sum

end Verif.Spec
