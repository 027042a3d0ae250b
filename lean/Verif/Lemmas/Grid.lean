import Verif.Lemmas.Prelude
import Verif.Model.Grid

/-! # Lemmas on grids -/

set_option autoImplicit false

namespace Verif

variable {K : Type*} {R C : ℕ}

theorem activeRow_val (r : Fin R) : (activeRow r).val = r.val + 1 := rfl

theorem activeIndex_activeRow (r : Fin R) : activeIndex (activeRow r) = some r := by
  have h : 0 < (activeRow r).val ∧ (activeRow r).val ≤ R := by
    rw [activeRow_val]; have := r.isLt; omega
  unfold activeIndex
  rw [dif_pos h]
  simp [activeRow_val]

theorem activeIndex_eq_some {q : Fin (R + 2)} {r : Fin R} :
    activeIndex q = some r ↔ q = activeRow r := by
  constructor
  · intro h
    unfold activeIndex at h
    split_ifs at h with hq
    cases h
    apply Fin.ext
    rw [activeRow_val]
    simp only
    omega
  · rintro rfl; exact activeIndex_activeRow r

theorem activeIndex_eq_none {q : Fin (R + 2)} :
    activeIndex q = none ↔ q.val = 0 ∨ q.val = R + 1 := by
  unfold activeIndex
  have := q.isLt
  split_ifs with h
  · simp only [reduceCtorEq, false_iff]; omega
  · simp only [true_iff]; omega

theorem activeRow_injective : Function.Injective (activeRow : Fin R → Fin (R + 2)) := by
  intro a b h
  have := activeIndex_activeRow a
  rw [h, activeIndex_activeRow] at this
  exact (Option.some.inj this).symm

theorem cellOf_nodeAtCell (c : Cell R C) : cellOf (nodeAtCell c) = some c := by
  have h2 := c.2.isLt
  unfold cellOf nodeAtCell
  simp only [activeIndex_activeRow]
  rw [dif_pos (by omega)]
  simp

theorem cellOf_eq_some {n : Node R C} {c : Cell R C} : cellOf n = some c ↔ n = nodeAtCell c := by
  constructor
  · intro h
    unfold cellOf at h
    cases hr : activeIndex n.1 with
    | none => rw [hr] at h; cases h
    | some r =>
      rw [hr] at h
      dsimp only at h
      split_ifs at h with hc
      cases h
      rw [activeIndex_eq_some] at hr
      apply Prod.ext
      · exact hr
      · apply Fin.ext; simp [nodeAtCell]; omega
  · rintro rfl; exact cellOf_nodeAtCell c

@[simp] theorem setCells_nodeAtCell (f : NodeField R C K) (v : Cell R C → K) (c : Cell R C) :
    setCells f v (nodeAtCell c) = v c := by
  unfold setCells; rw [cellOf_nodeAtCell]

theorem setCells_other (f : NodeField R C K) (v : Cell R C → K) (n : Node R C)
    (h : ∀ c, n ≠ nodeAtCell c) : setCells f v n = f n := by
  unfold setCells
  cases hc : cellOf n with
  | none => rfl
  | some c => exact absurd (cellOf_eq_some.mp hc) (h c)

@[simp] theorem getProfile_setProfile (f : NodeField R C K) (v : Fin R → Fin C → K) :
    getProfile (setProfile f v) = v := by
  funext r c
  unfold getProfile setProfile
  simp only [activeIndex_activeRow]

theorem setProfile_other (f : NodeField R C K) (v : Fin R → Fin C → K) (n : Node R C)
    (h : n.1.val = 0 ∨ n.1.val = R + 1) : setProfile f v n = f n := by
  unfold setProfile
  rw [activeIndex_eq_none.mpr h]

end Verif
