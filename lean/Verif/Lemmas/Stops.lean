import Verif.Lemmas.Prelude
import Verif.Lemmas.Shoreline

/-!
# Bisection between a right and a left end
-/

set_option autoImplicit false

namespace Verif

variable {K : Type*} [Field K] [LinearOrder K] [IsStrictOrderedRing K]

theorem scipyBisectLoop_back (f : Curve K) (xtol rtol fa lo hi : K) (hx : 0 < xtol) (hr : 0 ≤ rtol)
    (hdef : DefinedOn f lo hi) :
    ∀ (n : ℕ) (a dm : K), a ≤ hi → dm ≤ 0 → lo ≤ a + dm → -dm < xtol * 2 ^ (n + 1) →
      ∃ m, scipyBisectLoop f xtol rtol fa (n + 1) a dm = .ok m ∧ lo ≤ m ∧ m ≤ hi := by
  intro n
  induction n with
  | zero =>
    intro a dm h1 h2 h3 h4
    obtain ⟨v, hv⟩ := hdef (a + dm / 2) (by linarith) (by linarith)
    refine ⟨a + dm / 2, ?_, by linarith, by linarith⟩
    simp only [scipyBisectLoop, hv]
    have hlt : |dm / 2| < xtol + rtol * |a + dm / 2| := by
      rw [abs_of_nonpos (by linarith)]
      have := mul_nonneg hr (abs_nonneg (a + dm / 2))
      rw [zero_add, pow_one] at h4
      linarith
    rw [if_pos (.inr hlt)]
  | succ n ih =>
    intro a dm h1 h2 h3 h4
    obtain ⟨v, hv⟩ := hdef (a + dm / 2) (by linarith) (by linarith)
    rw [scipyBisectLoop]
    dsimp only
    rw [hv]
    dsimp only
    by_cases hstop : v = 0 ∨ |dm / 2| < xtol + rtol * |a + dm / 2|
    · rw [if_pos hstop]
      exact ⟨a + dm / 2, rfl, by linarith, by linarith⟩
    · rw [if_neg hstop]
      have h5 : -(dm / 2) < xtol * 2 ^ (n + 1) := by
        rw [pow_succ] at h4; linarith
      split_ifs with hs
      · exact ih (a + dm / 2) (dm / 2) (by linarith) (by linarith) (by linarith) h5
      · exact ih a (dm / 2) h1 (by linarith) (by linarith) h5

end Verif
