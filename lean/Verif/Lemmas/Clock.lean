import Verif.Lemmas.Prelude
import Verif.Model.Clock

/-! # Lemmas on clocks and run loops -/

set_option autoImplicit false
set_option linter.unusedSectionVars false

namespace Verif

variable {K W : Type*} [Field K] [LinearOrder K] [IsStrictOrderedRing K]

theorem runLoop_step (advance : K → K → W → Except Err W) (f : K → K → W → W)
    (hf : ∀ t d w, advance t d w = .ok (f t d w)) (fuel : ℕ) (c : Clock K) (w : W) :
    runLoop advance (fuel + 1) c w =
      if (∃ s, c.stop = some s ∧ s < c.time + c.step) then
        some ({ c with time := c.time + c.step }, .ok w)
      else runLoop advance fuel { c with time := c.time + c.step }
        (f (c.time + c.step) c.step w) := by
  cases hs : c.stop with
  | none =>
    rw [if_neg (by simp)]
    simp only [runLoop, runOneStep, Clock.advance, hs, hf, effectiveStep]
  | some s =>
    by_cases h : s < c.time + c.step
    · rw [if_pos ⟨s, rfl, h⟩]
      simp only [runLoop, runOneStep, Clock.advance, hs, if_pos h]
    · rw [if_neg (by rintro ⟨s', h1, h2⟩; cases h1; exact h h2)]
      simp only [runLoop, runOneStep, Clock.advance, hs, if_neg h, hf, effectiveStep]

theorem runLoop_from (advance : K → K → W → Except Err W) (f : K → K → W → W)
    (hf : ∀ t d w, advance t d w = .ok (f t d w)) (start stop step : K) (n : ℕ)
    (h1 : ∀ k < n, start + (k + 1 : ℕ) * step ≤ stop) (h2 : stop < start + (n + 1 : ℕ) * step)
    (m : ℕ) (hm : m ≤ n) (fuel : ℕ) (w : W) :
    runLoop advance fuel ⟨start, some stop, step, start + m * step⟩ w =
      if n - m < fuel then
        some (⟨start, some stop, step, start + (n + 1 : ℕ) * step⟩,
          .ok (((List.range' m (n - m)).map fun k => start + (k + 1 : ℕ) * step).foldl
            (fun w t => f t step w) w))
      else none := by
  induction fuel generalizing m w with
  | zero => simp [runLoop]
  | succ fuel ih =>
    rw [runLoop_step advance f hf]
    have ht : start + (m : K) * step + step = start + ((m + 1 : ℕ) : K) * step := by
      push_cast; ring
    dsimp only
    rw [ht]
    rcases Nat.lt_or_eq_of_le hm with hlt | rfl
    · have hle := h1 m hlt
      rw [if_neg (by rintro ⟨s, hs, h⟩; cases hs; exact absurd hle (not_le.mpr h)),
        ih (m + 1) hlt]
      obtain ⟨r, hr⟩ : ∃ r, n - m = r + 1 := ⟨n - m - 1, by omega⟩
      have hr' : n - (m + 1) = r := by omega
      rw [hr, hr', List.range'_succ]
      by_cases hfu : r < fuel
      · rw [if_pos hfu, if_pos (by omega)]; rfl
      · rw [if_neg hfu, if_neg (by omega)]
    · rw [if_pos ⟨stop, rfl, h2⟩, if_pos (by omega)]
      simp

theorem steps_bounds [FloorRing K] {start stop step : K} (hstep : 0 < step) :
    (∀ k < ⌊(stop - start) / step⌋₊, start + (k + 1 : ℕ) * step ≤ stop) ∧
      stop < start + (⌊(stop - start) / step⌋₊ + 1 : ℕ) * step := by
  constructor
  · intro k hk
    have h1 : ((k + 1 : ℕ) : K) ≤ (stop - start) / step := by
      have hx : 0 ≤ (stop - start) / step := by
        by_contra hneg
        rw [Nat.floor_of_nonpos (le_of_lt (not_le.mp hneg))] at hk
        omega
      exact (Nat.le_floor_iff hx).mp hk
    rw [le_div_iff₀ hstep] at h1
    linarith
  · have h1 := Nat.lt_floor_add_one ((stop - start) / step)
    rw [div_lt_iff₀ hstep] at h1
    push_cast
    linarith

/-- A component that adds up the time steps it is given. -/
def addUp (_ dt total : K) : Except Err K := .ok (total + dt)

theorem runSteps_addUp (c : Clock K) (t0 : K) (dts : List (Option K)) (c' : Clock K) (total : K)
    (h : runSteps addUp c t0 dts = (c', .ok total)) :
    c'.start = c.start ∧ c'.time = c.time + dts.length * c.step ∧
      total = t0 + (dts.map (effectiveStep c.step)).sum := by
  induction dts generalizing c t0 with
  | nil =>
    simp only [runSteps, Prod.mk.injEq, Except.ok.injEq] at h
    obtain ⟨rfl, rfl⟩ := h
    simp
  | cons dt dts ih =>
    have hadv : ∀ c' u, c.advance = (c', .ok u) → c' = { c with time := c.time + c.step } := by
      intro c' u hc
      unfold Clock.advance at hc
      cases hs : c.stop with
      | none => rw [hs] at hc; cases hc; rw [← hs]
      | some s =>
        rw [hs] at hc
        dsimp only at hc
        split_ifs at hc
        · cases hc
        · cases hc; rw [← hs]
    rcases ha : c.advance with ⟨c1, e | u⟩
    · simp only [runSteps, runOneStep, ha, Prod.mk.injEq, reduceCtorEq, and_false] at h
    · have hc1 := hadv c1 u ha
      simp only [runSteps, runOneStep, ha, addUp] at h
      obtain ⟨h1, h2, h3⟩ := ih c1 _ h
      rw [hc1] at h1 h2 h3
      refine ⟨h1, ?_, ?_⟩
      · rw [h2]; push_cast [List.length_cons]; ring
      · rw [h3, List.map_cons, List.sum_cons]; ring

theorem seqLoop_ok (update : K → K → W → Except Err W) (f : K → K → W → W)
    (hf : ∀ d t w, update d t w = .ok (f d t w)) (dt target : K) (n : ℕ) (time : K) (w : W) :
    ∃ ds : List K, ds.length = n ∧
      seqLoop update dt target n time w =
        .ok (ds.foldl (fun s d => (s.1 + d, f d (s.1 + d) s.2)) (time, w)) ∧
      (∀ i (h : i < ds.length), ds[i] = min dt (target - time - (ds.take i).sum)) := by
  induction n generalizing time w with
  | zero => exact ⟨[], rfl, rfl, fun i h => absurd h (by simp)⟩
  | succ n ih =>
    obtain ⟨ds, h1, h2, h3⟩ := ih (time + min dt (target - time))
      (f (min dt (target - time)) (time + min dt (target - time)) w)
    refine ⟨min dt (target - time) :: ds, by simp [h1], ?_, ?_⟩
    · simp only [seqLoop, hf, h2, List.foldl_cons]
    · intro i hi
      cases i with
      | zero => simp
      | succ i =>
        simp only [List.getElem_cons_succ, List.take_succ_cons, List.sum_cons]
        rw [h3 i (by simpa using hi)]
        congr 1; ring

theorem foldl_time (f : K → K → W → W) (ds : List K) (t : K) (w : W) :
    (ds.foldl (fun s d => (s.1 + d, f d (s.1 + d) s.2)) (t, w)).1 = t + ds.sum := by
  induction ds generalizing t w with
  | nil => simp
  | cons d ds ih => rw [List.foldl_cons, ih, List.sum_cons]; ring

end Verif
