import Verif.Model.RowText
import Mathlib.Tactic.Ring

/-!
# The text of `InvalidRowError` (C149)
-/

set_option autoImplicit false

namespace Verif.Props

open Verif

theorem digits_inj {a b : ℕ} (h : Nat.toDigits 10 a = Nat.toDigits 10 b) : a = b := by
  have := congrArg (fun l => Nat.ofDigitChars 10 l 0) h
  simpa only [Nat.ofDigitChars_toDigits (by decide : 1 < 10) (by decide : 10 ≤ 10)] using this

theorem digits_no {c : Char} (hc : c.isDigit = false) (n : ℕ) : c ∉ Nat.toDigits 10 n := by
  intro h
  have := Nat.isDigit_of_mem_toDigits (by decide) (by decide) h
  rw [hc] at this
  cases this

theorem intText_inj {y z : ℤ} (h : intText y = intText z) : y = z := by
  unfold intText at h
  split_ifs at h with hy hz hz
  · have := digits_inj (List.cons.inj h).2
    omega
  · exact absurd (by rw [← h]; simp) (digits_no (c := '-') (by decide) z.natAbs)
  · exact absurd (by rw [h]; simp) (digits_no (c := '-') (by decide) y.natAbs)
  · have := digits_inj h
    omega

theorem intText_no_space (z : ℤ) : ' ' ∉ intText z := by
  unfold intText
  split_ifs
  · simp only [List.mem_cons, not_or]
    exact ⟨by decide, digits_no (by decide) _⟩
  · exact digits_no (by decide) _

/-- Two texts without spaces, each followed by a space. -/
theorem before_space {a b s t : Text} (ha : ' ' ∉ a) (hb : ' ' ∉ b)
    (h : a ++ ' ' :: s = b ++ ' ' :: t) : a = b ∧ s = t := by
  induction a generalizing b with
  | nil =>
    cases b with
    | nil => exact ⟨rfl, (List.cons.inj h).2⟩
    | cons x b => exact absurd (List.cons.inj h).1 (fun e => hb (by rw [← e]; simp))
  | cons x a ih =>
    cases b with
    | nil => exact absurd (List.cons.inj h).1 (fun e => ha (by simp [e]))
    | cons y b =>
      obtain ⟨e, h'⟩ := List.cons.inj h
      simp only [List.mem_cons, not_or] at ha hb
      obtain ⟨h1, h2⟩ := ih ha.2 hb.2 h'
      exact ⟨by rw [e, h1], h2⟩

/-- C149: the text of an `InvalidRowError` tells the row that was asked for and how many there are. -/
theorem invalid_row_message_tells {row row' : ℤ} {rows rows' : ℕ}
    (h : invalidRowMessage row rows = invalidRowMessage row' rows') : row = row' ∧ rows = rows' := by
  unfold invalidRowMessage at h
  have e : " is out of bounds for output file with ".toList =
      ' ' :: "is out of bounds for output file with ".toList := by decide
  have e' : " rows".toList = ' ' :: "rows".toList := by decide
  simp only [e, e', List.append_assoc, List.cons_append] at h
  obtain ⟨h1, h2⟩ := before_space (intText_no_space row) (intText_no_space row')
    (List.append_cancel_left h)
  obtain ⟨h3, -⟩ := before_space (digits_no (by decide) rows) (digits_no (by decide) rows')
    (List.append_cancel_left h2)
  exact ⟨intText_inj h1, digits_inj h3⟩

/-- The row comes first, with its sign. -/
theorem invalid_row_message_text :
    invalidRowMessage (-4) 3 = "row -4 is out of bounds for output file with 3 rows".toList ∧
    invalidRowMessage 120 1 = "row 120 is out of bounds for output file with 1 rows".toList := by
  decide +kernel

end Verif.Props
