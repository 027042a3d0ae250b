import Verif.Lemmas.Clock
import Mathlib.Data.Rat.Floor

/-!
# Properties of clocks and run loops (C11–C13)
-/

set_option autoImplicit false
set_option linter.unusedSectionVars false

namespace Verif.Props

variable {K W : Type*} [Field K] [LinearOrder K] [IsStrictOrderedRing K]

/-! ### C11 -/

/-- C11: a run executes exactly `⌊(stop - start) / step⌋` steps (none if `stop < start`), the
`k`-th one at clock time `start + k * step`, with components that do not fail. The loop ends in
the round after the last step, and not before. -/
theorem model_run_steps [FloorRing K] (advance : K → K → W → Except Err W) (f : K → K → W → W)
    (hf : ∀ t d w, advance t d w = .ok (f t d w)) (start stop step : K) (hstep : 0 < step) (w : W)
    (fuel : ℕ) :
    runLoop advance fuel (Clock.init start (some stop) step) w =
      if ⌊(stop - start) / step⌋₊ < fuel then
        some (⟨start, some stop, step, start + (⌊(stop - start) / step⌋₊ + 1 : ℕ) * step⟩,
          .ok (((List.range ⌊(stop - start) / step⌋₊).map fun k => start + (k + 1 : ℕ) * step).foldl
            (fun w t => f t step w) w))
      else none := by
  obtain ⟨h1, h2⟩ := steps_bounds (start := start) (stop := stop) hstep
  have := runLoop_from advance f hf start stop step _ h1 h2 0 (Nat.zero_le _) fuel w
  rw [Nat.cast_zero, zero_mul, add_zero, Nat.sub_zero] at this
  rw [List.range_eq_range']
  exact this

/-- C11: no step is executed after `stop`, nor before `start`. -/
theorem model_run_times [FloorRing K] (start stop step : K) (hstep : 0 < step) (k : ℕ)
    (hk : k < ⌊(stop - start) / step⌋₊) :
    start < start + (k + 1 : ℕ) * step ∧ start + (k + 1 : ℕ) * step ≤ stop := by
  refine ⟨?_, (steps_bounds hstep).1 k hk⟩
  have : (0 : K) < ((k + 1 : ℕ) : K) * step := by positivity
  linarith

/-- C11: if the components fail in the round after `k` successful steps, the run ends with that
error after `k` steps. -/
theorem model_run_error [FloorRing K] (advance : K → K → W → Except Err W) (f : K → K → W → W)
    (start stop step : K) (hstep : 0 < step) (w : W) (k : ℕ)
    (hk : k < ⌊(stop - start) / step⌋₊)
    (hf : ∀ j < k, ∀ w, advance (start + (j + 1 : ℕ) * step) step w =
      .ok (f (start + (j + 1 : ℕ) * step) step w))
    (e : Err) (he : e ≠ .stopIteration)
    (hfail : ∀ w, advance (start + (k + 1 : ℕ) * step) step w = .error e) (fuel : ℕ)
    (hfuel : k < fuel) :
    runLoop advance fuel (Clock.init start (some stop) step) w =
      some (⟨start, some stop, step, start + (k + 1 : ℕ) * step⟩, .error e) := by
  have key : ∀ (r m : ℕ), m + r = k → ∀ (fuel : ℕ), r < fuel → ∀ w,
      runLoop advance fuel ⟨start, some stop, step, start + m * step⟩ w =
        some (⟨start, some stop, step, start + (k + 1 : ℕ) * step⟩, .error e) := by
    intro r
    induction r with
    | zero =>
      intro m hm fuel hfuel w
      obtain ⟨fu, rfl⟩ : ∃ fu, fuel = fu + 1 := ⟨fuel - 1, by omega⟩
      have hmk : m = k := by omega
      subst hmk
      have ht : start + (m : K) * step + step = start + ((m + 1 : ℕ) : K) * step := by
        push_cast; ring
      have hle := (steps_bounds hstep).1 m hk
      simp only [runLoop, runOneStep, Clock.advance, effectiveStep, ht, if_neg (not_lt.mpr hle),
        hfail]
      all_goals (cases e <;> simp_all)
    | succ r ih =>
      intro m hm fuel hfuel w
      obtain ⟨fu, rfl⟩ : ∃ fu, fuel = fu + 1 := ⟨fuel - 1, by omega⟩
      have ht : start + (m : K) * step + step = start + ((m + 1 : ℕ) : K) * step := by
        push_cast; ring
      have hle := (steps_bounds (start := start) (stop := stop) hstep).1 m (by omega)
      simp only [runLoop, runOneStep, Clock.advance, effectiveStep, ht, if_neg (not_lt.mpr hle),
        hf m (by omega)]
      exact ih (m + 1) (by omega) fu (by omega) _
  have := key k 0 (by omega) fuel hfuel w
  simpa [Clock.init] using this

/-- C11: `sequence run` executes the same steps, with the parameters set after each. -/
theorem cli_run_steps [FloorRing K] (advance : K → K → W → Except Err W)
    (setParams : W → Except Err W) (f : K → K → W → W)
    (hf : ∀ t d w, (advance t d w).bind setParams = .ok (f t d w)) (start stop step : K)
    (hstep : 0 < step) (w : W) (fuel : ℕ) (hfuel : ⌊(stop - start) / step⌋₊ < fuel) :
    cliLoop advance setParams fuel (Clock.init start (some stop) step) w =
      some (⟨start, some stop, step, start + (⌊(stop - start) / step⌋₊ + 1 : ℕ) * step⟩,
        .ok (((List.range ⌊(stop - start) / step⌋₊).map fun k => start + (k + 1 : ℕ) * step).foldl
          (fun w t => f t step w) w)) := by
  have heq : ∀ (fuel : ℕ) (c : Clock K) (w : W), cliLoop advance setParams fuel c w =
      runLoop (fun t d w => (advance t d w).bind setParams) fuel c w := by
    intro fuel
    induction fuel with
    | zero => intro c w; rfl
    | succ fuel ih =>
      intro c w
      rw [cliLoop, runLoop]
      unfold runOneStep
      rcases c.advance with ⟨c', e | u⟩
      · cases e <;> rfl
      · dsimp only
        have h := hf c'.time (effectiveStep c.step none) w
        cases ha : advance c'.time (effectiveStep c.step none) w with
        | error e => rw [ha] at h; cases h
        | ok w' =>
          rw [ha] at h
          have h' : setParams w' = .ok (f c'.time (effectiveStep c.step none) w) := h
          simp only [h']
          rw [ih]
          have h2 : (Except.ok w').bind setParams =
            .ok (f c'.time (effectiveStep c.step none) w) := h
          simp only [h2]
  rw [heq, model_run_steps _ f hf start stop step hstep, if_pos hfuel]

/-- A run from 0 to 25 in steps of 10: two steps, at 10 and 20; the clock is left at 30. -/
example : runLoop (fun t _ w => .ok (w ++ [t])) 3 (Clock.init (0 : ℚ) (some 25) 10) [] =
    some (⟨0, some 25, 10, 30⟩, .ok [10, 20]) := by
  rw [model_run_steps _ (fun t _ w => w ++ [t]) (fun _ _ _ => rfl) 0 25 10 (by norm_num)]
  have : ⌊((25 : ℚ) - 0) / 10⌋₊ = 2 := by
    rw [Nat.floor_eq_iff (by norm_num)]; constructor <;> norm_num
  rw [this]
  decide +kernel

example : runLoop (fun t _ w => .ok (w ++ [t])) 2 (Clock.init (0 : ℚ) (some 25) 10) [] = none := by
  decide +kernel

/-! ### C12 -/

/-- C12, false: with a step other than the clock's, the components are advanced by a different
time than the clock. -/
theorem clock_not_elapsed_time :
    ∃ (c : Clock ℚ) (dts : List (Option ℚ)) (c' : Clock ℚ) (total : ℚ), c.time = c.start ∧
      runSteps addUp c 0 dts = (c', .ok total) ∧ c'.time - c'.start ≠ total :=
  ⟨⟨0, some 100, 10, 0⟩, [some 5], ⟨0, some 100, 10, 10⟩, 5, rfl, by decide +kernel,
    by norm_num⟩

/-- C12, partial: the clock advances by its own step in every call, so it shows the elapsed time
of the components if every call uses the clock's step (given as such, not given, or given as 0,
which counts as not given). Missing: other values of `dt` (previous theorem). -/
theorem clock_elapsed_time_partial (c : Clock K) (hc : c.time = c.start) (dts : List (Option K))
    (c' : Clock K) (total : K) (h : runSteps addUp c 0 dts = (c', .ok total)) :
    c'.time - c'.start = dts.length * c.step ∧
    ((∀ dt ∈ dts, dt = none ∨ dt = some 0 ∨ dt = some c.step) →
      c'.time - c'.start = total) := by
  obtain ⟨h1, h2, h3⟩ := runSteps_addUp c 0 dts c' total h
  refine ⟨by rw [h1, h2, hc]; ring, fun hall => ?_⟩
  have hsum : (dts.map (effectiveStep c.step)).sum = dts.length * c.step := by
    clear h h1 h2 h3
    induction dts with
    | nil => simp
    | cons dt dts ih =>
      have hdt : effectiveStep c.step dt = c.step := by
        rcases hall dt (by simp) with rfl | rfl | rfl
        · rfl
        · simp [effectiveStep]
        · simp [effectiveStep]
      rw [List.map_cons, List.sum_cons, hdt, ih fun x hx => hall x (by simp [hx])]
      push_cast [List.length_cons]; ring
  rw [h1, h2, h3, hsum, hc]; ring

example : runSteps addUp (Clock.init (3 : ℚ) (some 100) 10) 0 [none, some 0, some 10] =
    (⟨3, some 100, 10, 33⟩, .ok 30) := by decide +kernel

/-! ### C13 -/

/-- C13: with a positive step, `run(until, dt)` performs `⌈(until - time) / dt⌉` updates (none if
`until ≤ time`), all of size `dt` except possibly a shorter, non-empty last one, and leaves the
time at `until` if it was before. Without `until` it runs one time step of the driver. -/
theorem sequence_run [FloorRing K] (update : K → K → W → Except Err W) (f : K → K → W → W)
    (hf : ∀ d t w, update d t w = .ok (f d t w)) (timeStep time : K) (w : W)
    (target dt : Option K) (hdt : 0 < dt.getD timeStep) :
    ∃ ds : List K,
      seqRun update timeStep time w target dt =
        .ok (ds.foldl (fun s d => (s.1 + d, f d (s.1 + d) s.2)) (time, w)) ∧
      ds.length = ⌈(target.getD (time + timeStep) - time) / dt.getD timeStep⌉₊ ∧
      (∀ i (h : i < ds.length), i + 1 < ds.length → ds[i] = dt.getD timeStep) ∧
      (∀ d ∈ ds, 0 < d ∧ d ≤ dt.getD timeStep) ∧
      (ds.foldl (fun s d => (s.1 + d, f d (s.1 + d) s.2)) (time, w)).1 =
        max time (target.getD (time + timeStep)) := by
  set D := dt.getD timeStep with hD
  set T := target.getD (time + timeStep) with hT
  set x := T - time with hx
  have hfl1 : (⌊x / D⌋ : K) * D ≤ x := by
    have := Int.floor_le (x / D); rwa [le_div_iff₀ hdt] at this
  have hfl2 : x < ((⌊x / D⌋ : K) + 1) * D := by
    have := Int.lt_floor_add_one (x / D); rwa [div_lt_iff₀ hdt] at this
  set N : ℤ := if 0 < x - D * ⌊x / D⌋ then ⌊x / D⌋ + 1 else ⌊x / D⌋ with hN
  have hceil : N = ⌈x / D⌉ := by
    rw [eq_comm, Int.ceil_eq_iff]
    rw [hN]
    split_ifs with h
    · constructor
      · rw [lt_div_iff₀ hdt]; push_cast; linarith
      · rw [div_le_iff₀ hdt]; push_cast; linarith
    · have hxe : x = ⌊x / D⌋ * D := by
        apply le_antisymm _ hfl1
        push Not at h; linarith
      constructor
      · rw [lt_div_iff₀ hdt]; linarith
      · rw [div_le_iff₀ hdt]; linarith
  obtain ⟨ds, h1, h2, h3⟩ := seqLoop_ok update f hf D T N.toNat time w
  have hNn : N.toNat = ⌈x / D⌉₊ := by rw [hceil]; rfl
  have hc1 : x ≤ (N.toNat : K) * D := by
    rw [hNn]
    have := Nat.le_ceil (x / D); rwa [div_le_iff₀ hdt] at this
  have hc2 : ∀ m : ℕ, m < N.toNat → (m : K) * D < x := by
    intro m hm
    rw [hNn] at hm
    have := Nat.lt_ceil.mp hm; rwa [lt_div_iff₀ hdt] at this
  -- every update but the last is of full size
  have hlt : ∀ i (h : i < ds.length), i + 1 < ds.length →
      ((ds.take i).sum = i * D → ds[i] = D) := by
    intro i h hi hs
    rw [h3 i h, hs]
    apply min_eq_left
    have := hc2 (i + 1) (by omega)
    push_cast at this; linarith
  have hsum : ∀ i, i < ds.length → (ds.take i).sum = i * D := by
    intro i
    induction i with
    | zero => intro _; simp
    | succ i ih =>
      intro hi
      have hi' : i < ds.length := by omega
      rw [List.sum_take_succ ds i hi', ih hi', hlt i hi' hi (ih hi')]
      push_cast; ring
  have hlast : ∀ i (h : i < ds.length), i + 1 = ds.length → ds[i] = x - i * D := by
    intro i h hi
    rw [h3 i h, hsum i h]
    apply min_eq_right
    rw [← h1, ← hi] at hc1
    push_cast at hc1; linarith
  refine ⟨ds, ?_, ?_, ?_, ?_, ?_⟩
  · unfold seqRun
    dsimp only
    rw [← hD, ← hT, if_neg (ne_of_gt hdt), ← hx]
    exact h2
  · rw [h1, hNn]
  · intro i h hi
    exact hlt i h hi (hsum i h)
  · intro d hd
    obtain ⟨i, hi, rfl⟩ := List.mem_iff_getElem.mp hd
    by_cases hil : i + 1 < ds.length
    · rw [hlt i hi hil (hsum i hi)]; exact ⟨hdt, le_rfl⟩
    · rw [hlast i hi (by omega)]
      have a1 := hc2 i (by omega)
      have he : ds.length = i + 1 := by omega
      rw [← h1, he] at hc1
      push_cast at hc1
      constructor <;> linarith
  · rw [foldl_time]
    rcases Nat.eq_zero_or_pos ds.length with h0 | hpos
    · have hnil : ds = [] := List.eq_nil_of_length_eq_zero h0
      subst hnil
      have hx0 : x ≤ 0 := by rw [← h1] at hc1; simpa using hc1
      rw [max_eq_left (by linarith)]; simp
    · obtain ⟨m, hm⟩ : ∃ m, ds.length = m + 1 := ⟨ds.length - 1, by omega⟩
      have hms : m < ds.length := by omega
      have htot : ds.sum = x := by
        have := List.sum_take_succ ds m hms
        rw [← hm, List.take_length] at this
        rw [this, hsum m hms, hlast m hms hm.symm]; ring
      have hx0 : 0 < x := by have := hc2 0 (by omega); simpa using this
      rw [htot, max_eq_right (by linarith)]; linarith

/-- C13: a step of zero is an error. -/
theorem sequence_run_zero [FloorRing K] (update : K → K → W → Except Err W) (timeStep time : K)
    (w : W) (target : Option K) :
    seqRun update timeStep time w target (some 0) = .error .zeroDivision := by
  simp [seqRun]

example : seqRun (fun d _ w => .ok (w ++ [d])) (100 : ℚ) 50 [] (some 275) none =
    .ok (275, [100, 100, 25]) := by
  have h1 : ⌊((275 : ℚ) - 50) / 100⌋ = 2 := by
    rw [Int.floor_eq_iff]; norm_num
  unfold seqRun
  simp only [Option.getD_none, Option.getD_some, h1]
  decide +kernel

end Verif.Props
