import Verif.Lemmas.Prelude
import Verif.Lemmas.Float

/-!
# The clock in floating point

C97: how many steps a run takes when times are rounded.
-/

set_option autoImplicit false
set_option linter.unusedSectionVars false

namespace Verif.Props

variable {W : Type*}

/-! ### C97 -/

/-- C97: for times on a grid of a power of two (for example whole years, or multiples of 1/4 year)
of at most 2^53 units, a run in floating point is the run in exact arithmetic, with every rounding
that keeps numbers of 53 bits. -/
theorem float_run_exact (rnd : ℚ → ℚ)
    (hrnd : ∀ m k : ℤ, |m| ≤ 2 ^ 53 → rnd ((m : ℚ) * 2 ^ k) = m * 2 ^ k)
    (advance : ℚ → ℚ → W → Except Err W) (setParams : W → Except Err W) (k a b c : ℤ)
    (ha : -2 ^ 53 ≤ a) (hb : 0 ≤ b) (hab : a + b ≤ 2 ^ 53) (hcb : c + b ≤ 2 ^ 53) (fuel : ℕ)
    (w : W) :
    (cliLoop (fun (t d : Rounded rnd) w => advance t.val d.val w) setParams fuel
      (Clock.init ⟨a * 2 ^ k⟩ (some ⟨c * 2 ^ k⟩) ⟨b * 2 ^ k⟩) w).map
        (fun x => (x.1.time.val, x.2)) =
      (cliLoop advance setParams fuel
        (Clock.init ((a : ℚ) * 2 ^ k) (some (c * 2 ^ k)) (b * 2 ^ k)) w).map
        (fun x => (x.1.time, x.2)) := by
  have key : ∀ (fuel : ℕ) (t : ℤ), -2 ^ 53 ≤ t → t + b ≤ 2 ^ 53 → ∀ w,
      (cliLoop (fun (t d : Rounded rnd) w => advance t.val d.val w) setParams fuel
        ⟨⟨a * 2 ^ k⟩, some ⟨c * 2 ^ k⟩, ⟨b * 2 ^ k⟩, ⟨t * 2 ^ k⟩⟩ w).map
          (fun x => (x.1.time.val, x.2)) =
        (cliLoop advance setParams fuel
          ⟨(a : ℚ) * 2 ^ k, some (c * 2 ^ k), b * 2 ^ k, t * 2 ^ k⟩ w).map
          (fun x => (x.1.time, x.2)) := by
    intro fuel
    induction fuel with
    | zero => intros; rfl
    | succ fuel ih =>
      intro t h1 h2 w
      have hsum : rnd ((t : ℚ) * 2 ^ k + b * 2 ^ k) = ((t + b : ℤ) : ℚ) * 2 ^ k := by
        rw [← hrnd (t + b) k (by rw [abs_le]; constructor <;> omega)]
        congr 1
        push_cast
        ring
      have hadd : ((⟨t * 2 ^ k⟩ + ⟨b * 2 ^ k⟩ : Rounded rnd)) = ⟨((t + b : ℤ) : ℚ) * 2 ^ k⟩ :=
        Rounded.ext hsum
      have hq : (t : ℚ) * 2 ^ k + b * 2 ^ k = ((t + b : ℤ) : ℚ) * 2 ^ k := by push_cast; ring
      simp only [cliLoop, runOneStep, Clock.advance, hadd, hq, effectiveStep]
      by_cases hlt : (c : ℚ) * 2 ^ k < ((t + b : ℤ) : ℚ) * 2 ^ k
      · have hlt' : (⟨c * 2 ^ k⟩ : Rounded rnd) < ⟨((t + b : ℤ) : ℚ) * 2 ^ k⟩ := hlt
        simp only [if_pos hlt, if_pos hlt']
        rfl
      · have hlt' : ¬ (⟨c * 2 ^ k⟩ : Rounded rnd) < ⟨((t + b : ℤ) : ℚ) * 2 ^ k⟩ := hlt
        simp only [if_neg hlt, if_neg hlt']
        cases hadv : advance (((t + b : ℤ) : ℚ) * 2 ^ k) (b * 2 ^ k) w with
        | error e => cases e <;> rfl
        | ok w1 =>
          dsimp only
          cases hset : setParams w1 with
          | error e => cases e <;> rfl
          | ok w2 =>
            dsimp only
            have hle : t + b ≤ c := by
              have hp : (0 : ℚ) < 2 ^ k := by positivity
              push Not at hlt
              have := le_of_mul_le_mul_right hlt hp
              exact_mod_cast this
            exact ih (t + b) (by omega) (by omega) w2
  exact key fuel a ha hab w

/-- C97: `model.run()` is the same loop. -/
theorem runLoop_eq_cliLoop {K : Type*} [Zero K] [DecidableEq K] [Add K] [LT K] [DecidableLT K]
    (advance : K → K → W → Except Err W) (fuel : ℕ) (c : Clock K) (w : W) :
    runLoop advance fuel c w = cliLoop advance .ok fuel c w := by
  induction fuel generalizing c w with
  | zero => rfl
  | succ fuel ih =>
    simp only [runLoop, cliLoop]
    split <;> simp_all

/-- The time after `n` steps. -/
def timeAfter (rnd : ℚ → ℚ) (start step : ℚ) : ℕ → ℚ
  | 0 => start
  | n + 1 => rnd (timeAfter rnd start step n + step)

/-- How far the accumulated time can be from `start + n * step`. -/
theorem timeAfter_bounds (rnd : ℚ → ℚ) (u : ℚ) (hu : 0 ≤ u) (hu1 : u ≤ 1)
    (hrnd : ∀ x, |rnd x - x| ≤ |x| * u) (start step : ℚ) (hs : 0 ≤ start) (hd : 0 ≤ step) (n : ℕ) :
    (start + n * step) * (1 - u) ^ n ≤ timeAfter rnd start step n ∧
      timeAfter rnd start step n ≤ (start + n * step) * (1 + u) ^ n := by
  have h1u : 0 ≤ 1 - u := by linarith
  induction n with
  | zero => simp [timeAfter]
  | succ n ih =>
    obtain ⟨h1, h2⟩ := ih
    have hnn : 0 ≤ start + n * step := by positivity
    have ht : 0 ≤ timeAfter rnd start step n := le_trans (by positivity) h1
    have hx : 0 ≤ timeAfter rnd start step n + step := by linarith
    have hr := hrnd (timeAfter rnd start step n + step)
    rw [abs_of_nonneg hx, abs_le] at hr
    have p1 : (1 - u) ^ n ≤ 1 := pow_le_one₀ h1u (by linarith)
    have p2 : 1 ≤ (1 + u) ^ n := one_le_pow₀ (by linarith)
    rw [timeAfter]
    constructor
    · calc (start + (n + 1 : ℕ) * step) * (1 - u) ^ (n + 1)
          = ((start + n * step) * (1 - u) ^ n + step * (1 - u) ^ n) * (1 - u) := by
            push_cast; ring
        _ ≤ (timeAfter rnd start step n + step) * (1 - u) := by
            gcongr
            exact mul_le_of_le_one_right hd p1
        _ ≤ _ := by linarith [hr.1]
    · calc rnd (timeAfter rnd start step n + step)
          ≤ (timeAfter rnd start step n + step) * (1 + u) := by linarith [hr.2]
        _ ≤ ((start + n * step) * (1 + u) ^ n + step * (1 + u) ^ n) * (1 + u) := by
            gcongr
            exact le_mul_of_one_le_right hd p2
        _ = _ := by push_cast; ring

/-- C97, partial: a run of components that do not fail takes exactly `n` steps if `stop` is not
within the accumulated rounding of a multiple of the step. What is missing: a `stop` that is, in
decimals, a multiple of the step (next theorem). -/
theorem float_run_steps_partial (rnd : ℚ → ℚ) (u : ℚ) (hu : 0 ≤ u) (hu1 : u ≤ 1)
    (hrnd : ∀ x, |rnd x - x| ≤ |x| * u) (start stop step : ℚ) (hs : 0 ≤ start) (hd : 0 ≤ step)
    (n : ℕ) (h1 : (start + n * step) * (1 + u) ^ n ≤ stop)
    (h2 : stop < (start + (n + 1 : ℕ) * step) * (1 - u) ^ (n + 1)) (fuel : ℕ) (hf : n < fuel)
    (f : ℚ → ℚ → W → W) (w : W) :
    (runLoop (fun (t d : Rounded rnd) w => .ok (f t.val d.val w)) fuel
      (Clock.init ⟨start⟩ (some ⟨stop⟩) ⟨step⟩) w).map (fun x => x.2) =
      some (.ok (((List.range n).map fun k => timeAfter rnd start step (k + 1)).foldl
        (fun w t => f t step w) w)) := by
  have hb := timeAfter_bounds rnd u hu hu1 hrnd start step hs hd
  have hle : ∀ k ≤ n, timeAfter rnd start step k ≤ stop := by
    intro k hk
    refine (hb k).2.trans (le_trans ?_ h1)
    have : (k : ℚ) ≤ n := by exact_mod_cast hk
    have p : (1 + u) ^ k ≤ (1 + u) ^ n := pow_le_pow_right₀ (by linarith) hk
    have : 0 ≤ start + k * step := by positivity
    gcongr
  have hlast : stop < timeAfter rnd start step (n + 1) := lt_of_lt_of_le h2 (hb (n + 1)).1
  have key : ∀ (m : ℕ) (j : ℕ), j + m = n → ∀ fuel, m < fuel → ∀ w,
      (runLoop (fun (t d : Rounded rnd) w => .ok (f t.val d.val w)) fuel
        ⟨⟨start⟩, some ⟨stop⟩, ⟨step⟩, ⟨timeAfter rnd start step j⟩⟩ w).map (fun x => x.2) =
        some (.ok (((List.range' j m).map fun k => timeAfter rnd start step (k + 1)).foldl
          (fun w t => f t step w) w)) := by
    intro m
    induction m with
    | zero =>
      intro j hj fuel hf w
      obtain ⟨fuel, rfl⟩ := Nat.exists_eq_succ_of_ne_zero (by omega : fuel ≠ 0)
      have hadd : ((⟨timeAfter rnd start step j⟩ + ⟨step⟩ : Rounded rnd)) =
        ⟨timeAfter rnd start step (j + 1)⟩ := rfl
      have hlt : (⟨stop⟩ : Rounded rnd) < ⟨timeAfter rnd start step (j + 1)⟩ := by
        have : j = n := by omega
        rw [this]
        exact hlast
      simp only [runLoop, runOneStep, Clock.advance, hadd, if_pos hlt]
      rfl
    | succ m ih =>
      intro j hj fuel hf w
      obtain ⟨fuel, rfl⟩ := Nat.exists_eq_succ_of_ne_zero (by omega : fuel ≠ 0)
      have hadd : ((⟨timeAfter rnd start step j⟩ + ⟨step⟩ : Rounded rnd)) =
        ⟨timeAfter rnd start step (j + 1)⟩ := rfl
      have hlt : ¬ (⟨stop⟩ : Rounded rnd) < ⟨timeAfter rnd start step (j + 1)⟩ :=
        not_lt.mpr (hle (j + 1) (by omega))
      simp only [runLoop, runOneStep, Clock.advance, hadd, if_neg hlt, effectiveStep]
      rw [ih (j + 1) (by omega) fuel (by omega)]
      simp [List.range'_succ]
  rw [List.range_eq_range']
  exact key n 0 (by omega) fuel hf w

/-- The rounding of python numbers meets the assumptions of both theorems. -/
theorem binary64_rounding : (∀ m k : ℤ, |m| ≤ 2 ^ 53 → binary64 ((m : ℚ) * 2 ^ k) = m * 2 ^ k) ∧
    ∀ x, |binary64 x - x| ≤ |x| * (1 / 2 ^ 53) :=
  ⟨binary64_exact, fun x => by
    have := binary64_error x
    rwa [div_eq_mul_one_div] at this⟩

/-- C97 is false in general: from 0 to 0.3 by steps of 0.1 a run takes 2 steps, and in exact
arithmetic 3. -/
theorem float_run_short :
    (runLoop (fun (_ _ : Rounded binary64) (n : ℕ) => .ok (n + 1)) 10
      (Clock.init (pyFloat 0) (some (pyFloat (3/10))) (pyFloat (1/10))) 0).map (fun x => x.2) =
      some (.ok 2) ∧
    (runLoop (fun (_ _ : ℚ) (n : ℕ) => .ok (n + 1)) 10
      (Clock.init (0 : ℚ) (some (3/10)) (1/10)) 0).map (fun x => x.2) = some (.ok 3) := by
  decide +kernel

/-- The time of the third step is past 0.3, as in python: `0.1 + 0.1 + 0.1 = 0.30000000000000004`. -/
example : timeAfter binary64 (binary64 0) (binary64 (1/10)) 3 = 1351079888211149 / 2 ^ 52 ∧
    binary64 (3/10) = 5404319552844595 / 2 ^ 54 := by
  decide +kernel

/-- The hypotheses of `float_run_steps_partial`: 0.1 year steps to 1.05 years, 10 steps. -/
example : (binary64 0 + (10 : ℕ) * binary64 (1/10)) * (1 + 1 / 2 ^ 53) ^ 10 ≤ binary64 (105/100) ∧
    binary64 (105/100) <
      (binary64 0 + (10 + 1 : ℕ) * binary64 (1/10)) * (1 - 1 / 2 ^ 53) ^ (10 + 1) := by
  decide +kernel

/-- A run of 300 years by steps of a quarter of a year, on the grid of quarters. -/
example : (runLoop (fun (_ _ : Rounded binary64) (n : ℕ) => .ok (n + 1)) 2000
    (Clock.init (pyFloat 0) (some (pyFloat 300)) (pyFloat (1/4))) 0).map (fun x => x.2) =
    some (.ok 1200) := by
  decide +kernel

end Verif.Props
