import Mathlib.Algebra.Order.Field.Basic
import Verif.Lemmas.Prelude
import Verif.Model.XNum

/-! # Extended numbers that are numbers -/

set_option autoImplicit false

namespace Verif.XNum

variable {K : Type*} [Field K] [LinearOrder K]

theorem num_add (a b : K) : (num a + num b : XNum K) = num (a + b) := rfl

theorem num_sub (a b : K) : (num a - num b : XNum K) = num (a - b) := by
  rw [sub_eq_add_neg]; rfl

theorem num_mul (a b : K) : (num a * num b : XNum K) = num (a * b) := rfl

theorem num_div (a b : K) (h : b ≠ 0) : (num a / num b : XNum K) = num (a / b) := if_neg h

theorem num_div_zero (a : K) (h : a ≠ 0) : (num a / num 0 : XNum K) = inf (decide (a < 0)) := by
  show (if (0 : K) = 0 then _ else _) = _
  rw [if_pos rfl, if_neg h]

theorem lt_num (a b : K) : lt (num a) (num b) = decide (a < b) := rfl

theorem le_num (a b : K) : le (num a) (num b) = decide (a ≤ b) := rfl

theorem exp_num (expf : K → K) (a : K) : exp expf (num a) = num (expf a) := rfl

/-- It is a number. -/
def IsNum (x : XNum K) : Prop := ∃ a, x = num a

theorem isNum_num (a : K) : IsNum (num a) := ⟨a, rfl⟩

theorem isNum_sub {a b : XNum K} (ha : IsNum a) (hb : IsNum b) : IsNum (a - b) := by
  obtain ⟨a, rfl⟩ := ha
  obtain ⟨b, rfl⟩ := hb
  exact ⟨_, num_sub a b⟩

theorem isNum_mul {a b : XNum K} (ha : IsNum a) (hb : IsNum b) : IsNum (a * b) := by
  obtain ⟨a, rfl⟩ := ha
  obtain ⟨b, rfl⟩ := hb
  exact ⟨_, rfl⟩

theorem isNum_div {a : XNum K} (ha : IsNum a) (b : K) (hb : b ≠ 0) : IsNum (a / num b) := by
  obtain ⟨a, rfl⟩ := ha
  exact ⟨_, num_div a b hb⟩

theorem isNum_exp (expf : K → K) {a : XNum K} (ha : IsNum a) : IsNum (exp expf a) := by
  obtain ⟨a, rfl⟩ := ha
  exact ⟨_, rfl⟩

theorem isNum_ite {c : Prop} [Decidable c] {a b : XNum K} (ha : IsNum a) (hb : IsNum b) :
    IsNum (if c then a else b) := by
  split_ifs <;> assumption

end Verif.XNum
