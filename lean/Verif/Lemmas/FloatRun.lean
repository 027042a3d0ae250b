import Verif.Lemmas.Prelude
import Verif.Lemmas.Float
import Mathlib.Data.Rat.Floor
import Mathlib.Tactic.Linarith
import Mathlib.Tactic.Positivity
import Mathlib.Tactic.NormNum

/-!
# Python's `//` and `%` of floats
-/

set_option autoImplicit false

namespace Verif

/-- The last correction of `//` gives the whole number nearby. -/
theorem nearest_int {rnd : ℚ → ℚ} {u : ℚ} (hu : u ≤ 1/12)
    (hr : ∀ x, |rnd x - x| ≤ u * |x|) {q : ℚ} {n : ℤ} (h : |q - n| ≤ 1/4) :
    (if 1/2 < rnd (q - ⌊q⌋) then ⌊q⌋ + 1 else ⌊q⌋) = n := by
  obtain ⟨h1, h2⟩ := abs_le.mp h
  by_cases hq : (n : ℚ) ≤ q
  · have hf : ⌊q⌋ = n := Int.floor_eq_iff.mpr ⟨hq, by linarith⟩
    rw [hf, if_neg]
    have := (abs_le.mp (hr (q - n))).2
    rw [abs_of_nonneg (by linarith)] at this
    nlinarith
  · push Not at hq
    have hf : ⌊q⌋ = n - 1 := Int.floor_eq_iff.mpr ⟨by push_cast; linarith, by push_cast; linarith⟩
    rw [hf, if_pos]
    · ring
    · have := (abs_le.mp (hr (q - ((n - 1 : ℤ) : ℚ)))).1
      push_cast at this ⊢
      rw [abs_of_nonneg (by linarith)] at this
      nlinarith

/-- Dividing a non-negative number by a positive one gives the floor and the exact remainder, if
the quotient is not too large. -/
theorem floatDivMod_pos {rnd : ℚ → ℚ} {u : ℚ} (hu0 : 0 ≤ u) (hu : u ≤ 1/12)
    (hr : ∀ x, |rnd x - x| ≤ u * |x|) {x y : ℚ} (hx : 0 ≤ x) (hy : 0 < y)
    (hq : 12 * u * (x / y) ≤ 1) :
    floatDivMod rnd x y = (⌊x / y⌋, x - y * ⌊x / y⌋) := by
  have hd : 0 ≤ x / y := by positivity
  have ht : truncQuotient x y = ⌊x / y⌋ := if_pos hd
  set n := ⌊x / y⌋ with hn
  have hn0 : (0 : ℚ) ≤ n := by exact_mod_cast Int.floor_nonneg.mpr hd
  have hnx : (n : ℚ) ≤ x / y := Int.floor_le _
  have hrem : 0 ≤ x - y * n := by
    have := (le_div_iff₀ hy).mp hnx
    linarith
  have e : x - (x - y * n) = y * n := by ring
  have hnear : |rnd (rnd (y * n) / y) - n| ≤ 1/4 := by
    have hyn : 0 ≤ y * n := by positivity
    have a1 := abs_le.mp (hr (y * n))
    rw [abs_of_nonneg hyn] at a1
    set z := rnd (y * n) with hz
    have hz0 : 0 ≤ z := by nlinarith [a1.1]
    have hz1 : z / y ≤ n * (1 + u) := by
      rw [div_le_iff₀ hy]; nlinarith [a1.2]
    have hz2 : n * (1 - u) ≤ z / y := by
      rw [le_div_iff₀ hy]; nlinarith [a1.1]
    have hzy : 0 ≤ z / y := by positivity
    have a2 := abs_le.mp (hr (z / y))
    rw [abs_of_nonneg hzy] at a2
    have hun : 12 * u * n ≤ 1 := le_trans (by gcongr) hq
    rw [abs_le]
    constructor
    · nlinarith [a2.1]
    · nlinarith [a2.2]
  have hyr : (y < 0 ↔ x - y * n < 0) := by
    constructor
    · intro h; linarith
    · intro h; linarith
  unfold floatDivMod
  simp only [ht, e]
  by_cases h0 : x - y * (n : ℚ) = 0
  · simp only [h0, if_true]
    rw [nearest_int hu hr hnear]
  · simp only [h0, if_false, hyr, if_true]
    rw [nearest_int hu hr hnear]

/-- Dividing a negative number by a positive one: `run` takes no step. -/
theorem floatDivMod_neg {rnd : ℚ → ℚ} {u : ℚ} (hu0 : 0 ≤ u) (hu : u ≤ 1/12)
    (hr : ∀ x, |rnd x - x| ≤ u * |x|) {x y : ℚ} (hx : x < 0) (hy : 0 < y) :
    (floatDivMod rnd x y).1 ≤ -1 := by
  have hd : x / y < 0 := div_neg_of_neg_of_pos hx hy
  have ht : truncQuotient x y = ⌈x / y⌉ := if_neg (not_le.mpr hd)
  set n := ⌈x / y⌉ with hn
  have hn0 : n ≤ 0 := Int.ceil_le.mpr (by simpa using hd.le)
  have hn0' : (n : ℚ) ≤ 0 := by exact_mod_cast hn0
  have hnx : x / y ≤ n := Int.le_ceil _
  have e : x - (x - y * n) = y * n := by ring
  -- the rounding of a number that is at most -m (m ≤ 0 or more)
  have low : ∀ z m : ℚ, 0 ≤ m → z ≤ -m → rnd z ≤ -(m * (1 - u)) := by
    intro z m hm hz
    have := (abs_le.mp (hr z)).2
    rw [abs_of_nonpos (by linarith)] at this
    nlinarith
  have fin : ∀ q : ℚ, q ≤ -(4/5) → (if 1/2 < rnd (q - ⌊q⌋) then ⌊q⌋ + 1 else ⌊q⌋) ≤ -1 := by
    intro q hq
    have hfl : ⌊q⌋ ≤ -1 := by
      have h1 := Int.floor_le q
      have : (⌊q⌋ : ℚ) < 0 := by linarith
      have : ⌊q⌋ < 0 := by exact_mod_cast this
      omega
    rcases eq_or_lt_of_le hfl with h | h
    · rw [h, if_neg]
      have := (abs_le.mp (hr (q - ((-1 : ℤ) : ℚ)))).2
      have h3 := Int.floor_le q
      rw [h] at h3
      push_cast at this h3 ⊢
      rw [abs_of_nonneg (by linarith)] at this
      nlinarith
    · split_ifs <;> omega
  have hq0 : ∀ m : ℚ, 0 ≤ m → (n : ℚ) ≤ -m → rnd (rnd (y * n) / y) ≤ -(m * (1 - u) * (1 - u)) := by
    intro m hm hnm
    have h1 := low (y * n) (y * m) (by positivity) (by nlinarith)
    have h2 : rnd (y * n) / y ≤ -(m * (1 - u)) := by
      rw [div_le_iff₀ hy]; nlinarith
    exact low _ _ (by nlinarith) h2
  have hyr : ¬ y < 0 := by linarith
  unfold floatDivMod
  simp only [ht, e]
  by_cases h0 : x - y * (n : ℚ) = 0
  · simp only [h0, if_true]
    apply fin
    have hne : n ≠ 0 := by
      rintro h
      rw [h] at h0
      simp at h0
      linarith
    have hn1 : (n : ℚ) ≤ -1 := by exact_mod_cast (by omega : n ≤ -1)
    have := hq0 1 (by norm_num) hn1
    nlinarith
  · have hneg : x - y * (n : ℚ) < 0 := by
      refine lt_of_le_of_ne ?_ h0
      have := (div_le_iff₀ hy).mp hnx
      linarith
    have hiff : ¬ (y < 0 ↔ x - y * (n : ℚ) < 0) := fun h => hyr (h.mpr hneg)
    simp only [h0, if_false, hiff]
    apply fin
    have h1 := hq0 0 le_rfl (by simpa using hn0')
    have h2 := low (rnd (rnd (y * n) / y) - 1) 1 (by norm_num) (by
      have : -((0 : ℚ) * (1 - u) * (1 - u)) = 0 := by ring
      rw [this] at h1
      linarith)
    linarith

/-- `run` in floating point takes `⌈x / dt⌉` steps, `x` the rounded difference. -/
theorem floatRun_eq {rnd : ℚ → ℚ} {u : ℚ} (hu0 : 0 ≤ u) (hu : u ≤ 1/12)
    (hr : ∀ x, |rnd x - x| ≤ u * |x|) {W : Type*}
    (update : Rounded rnd → Rounded rnd → W → Except Err W) (timeStep time : Rounded rnd) (w : W)
    (target dt : Option (Rounded rnd)) (hdt : 0 < (dt.getD timeStep).val)
    (hq : 12 * u * ((target.getD (time + timeStep) - time).val / (dt.getD timeStep).val) ≤ 1) :
    floatRun update timeStep time w target dt =
      seqLoop update (dt.getD timeStep) (target.getD (time + timeStep))
        ⌈(target.getD (time + timeStep) - time).val / (dt.getD timeStep).val⌉₊ time w := by
  unfold floatRun
  dsimp only
  set D := dt.getD timeStep
  set T := target.getD (time + timeStep)
  rw [if_neg hdt.ne']
  set x := (T - time).val
  by_cases hx : 0 ≤ x
  · rw [floatDivMod_pos hu0 hu hr hx hdt hq]
    congr 1
    have hc : (if 0 < x - D.val * ⌊x / D.val⌋ then ⌊x / D.val⌋ + 1 else ⌊x / D.val⌋) =
        ⌈x / D.val⌉ := by
      have h1 := (le_div_iff₀ hdt).mp (Int.floor_le (x / D.val))
      have h2 := (div_lt_iff₀ hdt).mp (Int.lt_floor_add_one (x / D.val))
      symm
      rw [Int.ceil_eq_iff]
      split_ifs with h
      · constructor
        · rw [lt_div_iff₀ hdt]; push_cast; linarith
        · rw [div_le_iff₀ hdt]; push_cast; linarith
      · constructor
        · rw [lt_div_iff₀ hdt]; linarith
        · rw [div_le_iff₀ hdt]; linarith
    dsimp only
    rw [hc, Int.ceil_toNat]
  · push Not at hx
    have hn := floatDivMod_neg hu0 hu hr hx hdt
    have h0 : ⌈x / D.val⌉₊ = 0 := Nat.ceil_eq_zero.mpr (div_neg_of_neg_of_pos hx hdt).le
    rw [h0]
    congr 1
    rcases hh : floatDivMod rnd x D.val with ⟨n, r⟩
    rw [hh] at hn
    dsimp only at hn ⊢
    split_ifs <;> omega

end Verif
