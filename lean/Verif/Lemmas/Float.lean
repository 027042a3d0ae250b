import Verif.Lemmas.Prelude
import Verif.Model.Float
import Mathlib.Tactic.LinearCombination

/-!
# Rounding
-/

set_option autoImplicit false

namespace Verif

theorem roundEven_near (x : ℚ) : |(roundEven x : ℚ) - x| ≤ 1/2 := by
  unfold roundEven
  have h1 := Int.floor_le x
  have h2 := Int.lt_floor_add_one x
  dsimp only
  rw [abs_le]
  split_ifs <;> push_cast <;> constructor <;> linarith

theorem roundEven_int (n : ℤ) : roundEven n = n := by
  unfold roundEven
  simp

theorem floatExponent_spec {x : ℚ} (hx : x ≠ 0) :
    (2 : ℚ) ^ floatExponent x ≤ |x| ∧ |x| < (2 : ℚ) ^ (floatExponent x + 1) := by
  have hn : x.num.natAbs ≠ 0 := by simpa using hx
  have hd : x.den ≠ 0 := x.den_nz
  have habs : |x| = (x.num.natAbs : ℚ) / x.den := by
    conv_lhs => rw [← Rat.num_div_den x]
    rw [abs_div, Nat.abs_cast]
    congr 1
    rw [← Int.cast_abs, Int.abs_eq_natAbs]
    rfl
  have n1 : ((2 : ℚ) ^ (Nat.log2 x.num.natAbs : ℤ)) ≤ x.num.natAbs := by
    rw [zpow_natCast]
    exact_mod_cast Nat.log2_self_le hn
  have n2 : (x.num.natAbs : ℚ) < 2 ^ ((Nat.log2 x.num.natAbs : ℤ) + 1) := by
    have : x.num.natAbs < 2 ^ (Nat.log2 x.num.natAbs + 1) := Nat.lt_log2_self
    exact_mod_cast this
  have d1 : ((2 : ℚ) ^ (Nat.log2 x.den : ℤ)) ≤ x.den := by
    rw [zpow_natCast]
    exact_mod_cast Nat.log2_self_le hd
  have d2 : (x.den : ℚ) < 2 ^ ((Nat.log2 x.den : ℤ) + 1) := by
    have : x.den < 2 ^ (Nat.log2 x.den + 1) := Nat.lt_log2_self
    exact_mod_cast this
  have hdpos : (0 : ℚ) < x.den := by exact_mod_cast x.den_pos
  set a : ℤ := ((Nat.log2 x.num.natAbs : ℕ) : ℤ) with ha
  set b : ℤ := ((Nat.log2 x.den : ℕ) : ℤ) with hb
  have up : |x| < (2 : ℚ) ^ (a - b + 1) := by
    rw [habs, div_lt_iff₀ hdpos]
    have e : (2 : ℚ) ^ (a + 1) = 2 ^ (a - b + 1) * 2 ^ b := by
      rw [← zpow_add₀ (by norm_num)]
      congr 1
      ring
    calc (x.num.natAbs : ℚ) < 2 ^ (a + 1) := n2
      _ = 2 ^ (a - b + 1) * 2 ^ b := e
      _ ≤ _ := by gcongr
  have low : (2 : ℚ) ^ (a - b - 1) ≤ |x| := by
    rw [habs, le_div_iff₀ hdpos]
    have e : (2 : ℚ) ^ a = 2 ^ (a - b - 1) * 2 ^ (b + 1) := by
      rw [← zpow_add₀ (by norm_num)]
      congr 1
      ring
    calc (2 : ℚ) ^ (a - b - 1) * x.den ≤ 2 ^ (a - b - 1) * 2 ^ (b + 1) := by gcongr
      _ = 2 ^ a := e.symm
      _ ≤ _ := n1
  unfold floatExponent
  dsimp only
  rw [← ha, ← hb]
  split_ifs with h
  · exact ⟨low, by rw [sub_add_cancel]; exact h⟩
  · push Not at h
    exact ⟨h, up⟩

theorem binary64_error (x : ℚ) : |binary64 x - x| ≤ |x| / 2 ^ 53 := by
  unfold binary64
  split_ifs with h
  · simp [h]
  · dsimp only
    set e := floatExponent x
    have hp : (0 : ℚ) < 2 ^ (e - 52) := by positivity
    have h1 := roundEven_near (x / 2 ^ (e - 52))
    have h2 := (floatExponent_spec h).1
    have e1 : (roundEven (x / 2 ^ (e - 52)) : ℚ) * 2 ^ (e - 52) - x =
        (roundEven (x / 2 ^ (e - 52)) - x / 2 ^ (e - 52)) * 2 ^ (e - 52) := by
      field_simp
    rw [e1, abs_mul, abs_of_pos hp]
    have e2 : (2 : ℚ) ^ e = 2 ^ (e - 52) * 2 ^ (52 : ℕ) := by
      rw [← zpow_natCast, ← zpow_add₀ (by norm_num)]
      congr 1
      push_cast
      ring
    have : |(roundEven (x / 2 ^ (e - 52)) : ℚ) - x / 2 ^ (e - 52)| * 2 ^ (e - 52) ≤
        1 / 2 * 2 ^ (e - 52) := by gcongr
    refine this.trans ?_
    rw [le_div_iff₀ (by positivity)]
    calc 1 / 2 * (2 : ℚ) ^ (e - 52) * 2 ^ 53 = 2 ^ (e - 52) * 2 ^ (52 : ℕ) := by ring
      _ = 2 ^ e := e2.symm
      _ ≤ |x| := h2

theorem binary64_exact (m k : ℤ) (hm : |m| ≤ 2 ^ 53) :
    binary64 ((m : ℚ) * 2 ^ k) = m * 2 ^ k := by
  unfold binary64
  split_ifs with h
  · exact h.symm
  · dsimp only
    set x := (m : ℚ) * 2 ^ k with hx
    set e := floatExponent x
    have h2 := (floatExponent_spec h).1
    have hp : (0 : ℚ) < 2 ^ (e - 52) := by positivity
    have hk : (0 : ℚ) < 2 ^ k := by positivity
    have habs : |x| = |m| * 2 ^ k := by
      rw [hx, abs_mul, abs_of_pos hk, Int.cast_abs]
    have hm' : ((|m| : ℤ) : ℚ) ≤ 2 ^ (53 : ℤ) := by exact_mod_cast hm
    have hle : (2 : ℚ) ^ e ≤ 2 ^ (53 + k) := by
      rw [zpow_add₀ (by norm_num)]
      refine h2.trans ?_
      rw [habs]
      gcongr
    have hek : e ≤ 53 + k := (zpow_le_zpow_iff_right₀ (by norm_num)).mp hle
    -- the quotient is an integer
    have hint : ∃ n : ℤ, x / 2 ^ (e - 52) = n := by
      have hq : x / 2 ^ (e - 52) = m * 2 ^ (k - (e - 52)) := by
        rw [hx, zpow_sub₀ (by norm_num : (2 : ℚ) ≠ 0) k, mul_div_assoc]
      by_cases hke : e - 52 ≤ k
      · obtain ⟨j, hj⟩ := Int.eq_ofNat_of_zero_le (sub_nonneg.mpr hke)
        refine ⟨m * 2 ^ j, ?_⟩
        rw [hq, hj]
        push_cast
        rw [zpow_natCast]
      · have hk53 : e = 53 + k := by omega
        have hmeq : |m| = 2 ^ 53 := by
          refine le_antisymm hm ?_
          have : (2 : ℚ) ^ (53 : ℤ) * 2 ^ k ≤ |m| * 2 ^ k := by
            rw [← zpow_add₀ (by norm_num), ← habs, ← hk53]
            exact h2
          have := le_of_mul_le_mul_right this hk
          exact_mod_cast this
        rcases abs_choice m with hs | hs
        · refine ⟨2 ^ 52, ?_⟩
          rw [hq, ← hs, hmeq, hk53]
          have : k - (53 + k - 52) = -1 := by ring
          rw [this]
          norm_num
        · refine ⟨-2 ^ 52, ?_⟩
          have : m = -2 ^ 53 := by omega
          rw [hq, this, hk53]
          have : k - (53 + k - 52) = -1 := by ring
          rw [this]
          norm_num
    obtain ⟨n, hn⟩ := hint
    rw [hn, roundEven_int, ← hn]
    field_simp

end Verif
