import Verif.Props.Plot

/-!
# C78: parts of a plot that have no colour are not drawn
-/

set_option autoImplicit false
set_option linter.unusedSectionVars false

namespace Verif.Props

open Verif Verif.Spec

variable {K : Type*} [Field K] [LinearOrder K] [IsStrictOrderedRing K]

/-- C78. Whatever the layers are, a part without a colour has no polygons. The line of the water
surface does not depend on the colour of the water, only the area below it does. -/
theorem uncoloured_not_drawn {x : Option (List K)} {y : List (List K)}
    {shore shelf : Option (List (Option K))} {start stop num : ℤ} {cols : ℕ} {d : Drawing K}
    {colors : PlotColors} (h : plotLayers colors start stop num cols y x shore shelf = .ok d) :
    (colors.land = false → d.land = []) ∧ (colors.shoreface = false → d.shoreface = []) ∧
      (colors.shelf = false → d.shelf = []) ∧ (colors.water = false → d.waterFill = none) := by
  unfold plotLayers at h
  dsimp only at h
  split at h
  · split at h
    · cases h
    split at h
    · cases h
    · split at h
      · rename_i g1 g2 g3
        split at h
        · cases h
          refine ⟨fun e => ?_, fun e => ?_, fun e => ?_, fun e => ?_⟩
          · rw [e] at g1; cases g1; rfl
          · rw [e] at g2; cases g2; rfl
          · rw [e] at g3; cases g3; rfl
          · simp [e]
        · cases h
      · cases h
      · cases h
      · cases h
  · cases h

/-- Two layers over three stacks: with all colours each part has a polygon, without them none has. -/
def exColours (b : Bool) : Option (ℕ × ℕ × ℕ × Bool) :=
  match plotLayers (K := ℚ) ⟨b, b, b, b⟩ 0 (-1) 0 3 [[0, 0, 0], [1, 1, 1]] (some [0, 1, 2])
    (some [some 1, some 1]) (some [some 2, some 2]) with
  | .ok d => some (d.land.length, d.shoreface.length, d.shelf.length, d.waterFill.isSome)
  | .error _ => none

example : exColours true = some (1, 1, 1, true) := by decide +kernel
example : exColours false = some (0, 0, 0, false) := by decide +kernel

end Verif.Props
