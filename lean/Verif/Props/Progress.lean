import Verif.Model.Progress
import Verif.Props.Setup

/-!
# The progress bar of `sequence run` (C122)
-/

set_option autoImplicit false
set_option linter.unusedSectionVars false

namespace Verif.Props

open Verif Verif.Spec

section
variable {K : Type} [Field K] [LinearOrder K] [IsStrictOrderedRing K]

/-- The bar has no influence on the loop. -/
theorem barLoop_loop {K W : Type*} [Zero K] [DecidableEq K] [Add K] [LT K] [DecidableLT K]
    (advance : K → K → W → Except Err W)
    (setParams : W → Except Err W) (fuel : ℕ) (c : Clock K) (w : W) (k : ℕ) :
    (barLoop advance setParams fuel c (w, k)).map
      (fun r => (r.1, r.2.map Prod.fst)) = cliLoop advance setParams fuel c w := by
  induction fuel generalizing c w k with
  | zero => rfl
  | succ fuel ih =>
    unfold barLoop at ih ⊢
    rw [cliLoop, cliLoop]
    unfold runOneStep
    rcases hc : c.advance with ⟨c', e | u⟩
    · cases e <;> rfl
    · dsimp only
      cases ha : advance c'.time (effectiveStep c.step none) w with
      | error e => cases e <;> rfl
      | ok w' =>
        dsimp only
        cases hp : setParams w' with
        | error e => cases e <;> rfl
        | ok w'' => exact ih c' w'' (k + 1)

/-- The rounds that the bar has counted when the clock has stopped the run. -/
theorem barLoop_count {W : Type*} (advance : K → K → W → Except Err W)
    (setParams : W → Except Err W) (fuel : ℕ) (c c' : Clock K) (w w' : W) (k n : ℕ) (stop : K)
    (hs : c.stop = some stop)
    (h : barLoop advance setParams fuel c (w, k) = some (c', .ok (w', n)))
    (hend : stop < c'.time) :
    ∃ j, n = k + j ∧ c'.time = c.time + (j + 1) * c.step ∧
      ∀ i < j, c.time + (i + 1) * c.step ≤ stop := by
  induction fuel generalizing c w k with
  | zero => cases h
  | succ fuel ih =>
    unfold barLoop at ih h
    rw [cliLoop] at h
    unfold runOneStep Clock.advance at h
    rw [hs] at h
    dsimp only at h
    by_cases hlt : stop < c.time + c.step
    · simp only [hlt, if_true] at h
      cases h
      exact ⟨0, rfl, by push_cast; ring, by simp⟩
    · simp only [hlt, if_false] at h
      cases ha : advance (c.time + c.step) (effectiveStep c.step none) w with
      | error e =>
        rw [ha] at h
        cases e <;> cases h
        exact absurd hend hlt
      | ok w1 =>
        rw [ha] at h
        dsimp only at h
        cases hp : setParams w1 with
        | error e =>
          rw [hp] at h
          cases e <;> cases h
          exact absurd hend hlt
        | ok w2 =>
          rw [hp] at h
          dsimp only at h
          obtain ⟨j, h1, h2, h3⟩ := ih ⟨c.start, some stop, c.step, c.time + c.step⟩ w2 (k + 1) rfl h
          refine ⟨j + 1, by omega, ?_, ?_⟩
          · rw [h2]
            push_cast
            ring
          · intro i hi
            rcases i with _ | i
            · push Not at hlt
              simpa using hlt
            · have := h3 i (by omega)
              dsimp only at this
              push_cast
              linarith

theorem floor_of_count [FloorRing K] {time step stop : K} {j : ℕ} (hstep : 0 < step)
    (h1 : stop < time + (j + 1) * step) (h2 : ∀ i < j, time + ((i : K) + 1) * step ≤ stop) :
    ⌊(stop - time) / step⌋₊ = j := by
  rcases j with _ | j
  · rw [Nat.floor_eq_zero, div_lt_one hstep]
    push_cast at h1
    linarith
  · rw [Nat.floor_eq_iff' (by omega), le_div_iff₀ hstep, div_lt_iff₀ hstep]
    have := h2 j (by omega)
    push_cast at h1 ⊢
    constructor <;> linarith

/-- The loop of the command is the loop with the bar. -/
theorem finished_bar [FloorRing K] (m : Ready K) (fuel : ℕ) (fs : FileSystem K (Option K))
    (h : m.run fuel = .finished fs) :
    ∃ total c s n, progressTotal m.clock = .ok total ∧ m.barRun fuel = some (c, .ok (s, n)) ∧
      s.2.state.comps.2.2 = fs := by
  unfold Ready.run at h
  cases ht : progressTotal m.clock with
  | error e => rw [ht] at h; cases h
  | ok total =>
    rw [ht] at h
    dsimp only at h
    have hb : (m.barRun fuel).map (fun r => (r.1, r.2.map Prod.fst)) =
        liveRun m.env m.inp m.view (fun _ => m.porosity) fuel m.clock (m.cfg, m.live) := by
      unfold Ready.barRun liveRun
      rw [barLoop_loop]
      congr 1
      funext time dt s
      cases s.2.advance m.env m.view (fun _ => m.porosity) time dt <;> rfl
    rw [← hb] at h
    rcases hr : m.barRun fuel with _ | ⟨c, e | ⟨s, n⟩⟩
    · rw [hr] at h; cases h
    · rw [hr] at h; cases h
    · rw [hr] at h
      cases h
      exact ⟨total, c, s, n, rfl, rfl, rfl⟩

variable {ext : Externals K} {times : List ℕ} {files : List (List Doc)}
  {fs fs' : FileSystem K (Option K)} {d : Doc} {m : Ready K}

/-- C122, the exact numbers: when the clock has stopped a run, the bar shows the number of steps, out
of `stop` divided by `step`. -/
theorem progress_numbers [FloorRing K] (h : SetsUp ext times files fs d fs' m) (fuel : ℕ)
    (total : ℤ) (ht : progressTotal m.clock = .ok total) (c : Clock K)
    (s : Cfg × Live m.R m.C K (Option K)) (n : ℕ) (hr : m.barRun fuel = some (c, .ok (s, n)))
    (stop : K) (hstop : m.clock.stop = some stop) (hend : stop < c.time) (hstep : 0 < m.clock.step) :
    n = ⌊(stop - m.clock.start) / m.clock.step⌋₊ ∧ total = ⌊stop / m.clock.step⌋ := by
  have h0 : m.clock.time = m.clock.start := (setup_clock h).2.2.2
  obtain ⟨j, h1, h2, h3⟩ := barLoop_count _ _ fuel m.clock c _ s 0 n stop hstop hr hend
  rw [h0] at h2 h3
  constructor
  · rw [floor_of_count hstep (h2 ▸ hend) h3]
    omega
  · unfold progressTotal at ht
    rw [hstop] at ht
    dsimp only at ht
    rw [if_neg hstep.ne'] at ht
    exact (Except.ok.inj ht).symm

/-- C122, the part that holds: the bar is full at the end of a run that starts at 0. -/
theorem progress_full_partial [FloorRing K] (h : SetsUp ext times files fs d fs' m) (fuel : ℕ)
    (total : ℤ) (ht : progressTotal m.clock = .ok total) (c : Clock K)
    (s : Cfg × Live m.R m.C K (Option K)) (n : ℕ) (hr : m.barRun fuel = some (c, .ok (s, n)))
    (stop : K) (hstop : m.clock.stop = some stop) (hend : stop < c.time) (hstep : 0 < m.clock.step)
    (h0 : m.clock.start = 0) (hle : 0 ≤ stop) : (n : ℤ) = total := by
  obtain ⟨h1, h2⟩ := progress_numbers h fuel total ht c s n hr stop hstop hend hstep
  rw [h1, h2, h0, sub_zero, Int.natCast_floor_eq_floor (div_nonneg hle hstep.le)]

/-- C122, false: a run that starts at least a step after 0 never fills the bar, and one that starts
at least a step before 0 goes beyond its end. -/
theorem progress_not_full [FloorRing K] (h : SetsUp ext times files fs d fs' m) (fuel : ℕ)
    (total : ℤ) (ht : progressTotal m.clock = .ok total) (c : Clock K)
    (s : Cfg × Live m.R m.C K (Option K)) (n : ℕ) (hr : m.barRun fuel = some (c, .ok (s, n)))
    (stop : K) (hstop : m.clock.stop = some stop) (hend : stop < c.time) (hstep : 0 < m.clock.step)
    (hle : m.clock.start ≤ stop) :
    (m.clock.step ≤ m.clock.start → (n : ℤ) < total) ∧
    (m.clock.start ≤ -m.clock.step → total < n) := by
  obtain ⟨h1, h2⟩ := progress_numbers h fuel total ht c s n hr stop hstop hend hstep
  have hn : (n : ℤ) = ⌊(stop - m.clock.start) / m.clock.step⌋ := by
    rw [h1, Int.natCast_floor_eq_floor (div_nonneg (by linarith) hstep.le)]
  rw [hn, h2, sub_div]
  constructor
  · intro hs
    have : 1 ≤ m.clock.start / m.clock.step := by rwa [le_div_iff₀ hstep, one_mul]
    have h3 : ⌊stop / m.clock.step - m.clock.start / m.clock.step⌋ ≤ ⌊stop / m.clock.step - 1⌋ :=
      Int.floor_le_floor (by linarith)
    rw [Int.floor_sub_one] at h3
    omega
  · intro hs
    have : m.clock.start / m.clock.step ≤ -1 := by rw [div_le_iff₀ hstep]; linarith
    have h3 : ⌊stop / m.clock.step + 1⌋ ≤ ⌊stop / m.clock.step - m.clock.start / m.clock.step⌋ :=
      Int.floor_le_floor (by linarith)
    rw [Int.floor_add_one] at h3
    omega

end

/-! ### Two runs -/

/-- A run from `start` to 12 by 1. -/
def exBar (start : ℚ) : Doc :=
  exTimed (.leaf "start" (.num start) (.leaf "stop" (.num 12) .nil))
    (.leaf "filepath" (.str "new.nc") .nil) .nil

theorem exBar_run (start : ℚ) (n : ℕ) (hs : (start, n) ∈ [((0 : ℚ), 12), (10, 2)]) :
    ∃ fs' m c s, SetsUp exExt [0] [[exBar start]] exRunFiles (exBar start) fs' m ∧
      progressTotal m.clock = .ok 12 ∧ m.barRun 20 = some (c, .ok (s, n)) ∧
      m.clock.stop = some 12 ∧ 12 < c.time ∧ 0 < m.clock.step ∧ m.clock.start = start := by
  have h : ((runSetup exExt [0] [[exBar start]] exRunFiles).2.toOption.bind fun m =>
      (m.barRun 20).bind fun r => r.2.toOption.map fun q =>
        (q.2, (progressTotal m.clock).toOption, m.clock.stop, decide (12 < r.1.time),
          decide (0 < m.clock.step), m.clock.start)) =
      some (n, some 12, some 12, true, true, start) := by
    simp only [List.mem_cons, List.not_mem_nil, or_false, Prod.mk.injEq] at hs
    rcases hs with ⟨rfl, rfl⟩ | ⟨rfl, rfl⟩ <;> decide +kernel
  rcases hr : runSetup exExt [0] [[exBar start]] exRunFiles with ⟨fs', _ | m⟩
  · rw [hr] at h; cases h
  · have hup : SetsUp exExt [0] [[exBar start]] exRunFiles (exBar start) fs' m :=
      ⟨rfl, by simp [exBar, exTimed, DistinctKeys, Doc.keys], by simp [exBar, exTimed, NoTuples], hr⟩
    rw [hr] at h
    simp only [Except.toOption, Option.bind_some] at h
    rcases hb : m.barRun 20 with _ | ⟨c, _ | ⟨s, k⟩⟩
    · rw [hb] at h; cases h
    · rw [hb] at h; cases h
    · rw [hb] at h
      simp only [Option.bind_some, Option.map_some, Option.some.injEq, Prod.mk.injEq,
        decide_eq_true_eq] at h
      obtain ⟨rfl, h2, h3, h4, h5, h6⟩ := h
      refine ⟨fs', m, c, s, hup, ?_, hb, h3, h4, h5, h6⟩
      cases ht : progressTotal m.clock with
      | error e => rw [ht] at h2; cases h2
      | ok t => rw [ht] at h2; cases h2; rfl

/-- C122: a run that starts at 0 fills its bar. -/
example : ∃ fs' m c s, SetsUp exExt [0] [[exBar 0]] exRunFiles (exBar 0) fs' m ∧
    m.barRun 20 = some (c, .ok (s, 12)) ∧ (12 : ℤ) = 12 := by
  obtain ⟨fs', m, c, s, h, ht, hr, h1, h2, h3, h4⟩ := exBar_run 0 12 (by simp)
  exact ⟨fs', m, c, s, h, hr, progress_full_partial h 20 12 ht c s 12 hr 12 h1 h2 h3 h4 (by norm_num)⟩

/-- C122: a run from 10 to 12 ends with 2 out of 12. -/
example : ∃ fs' m c s, SetsUp exExt [0] [[exBar 10]] exRunFiles (exBar 10) fs' m ∧
    m.barRun 20 = some (c, .ok (s, 2)) ∧ progressTotal m.clock = .ok 12 := by
  obtain ⟨fs', m, c, s, h, ht, hr, h1, h2, h3, h4⟩ := exBar_run 10 2 (by simp)
  exact ⟨fs', m, c, s, h, hr, ht⟩

end Verif.Props
