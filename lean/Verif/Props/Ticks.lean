import Verif.Props.Float
import Verif.Spec.Ticks

/-! # C140: clocks in floating point -/

set_option autoImplicit false
set_option linter.unusedSectionVars false

namespace Verif.Props

open Verif Verif.Spec

section

variable {T X : Type*} [Zero T] [DecidableEq T] [Add T] [LT T] [DecidableLT T]

/-- One step. -/
theorem tick_step {body : T → T → T → T → X → Except Err X} {c c' : Clock T} {s s' : Ticks T X}
    (h : runOneStep (tick body) c s none = (c', .ok s')) :
    c' = { c with time := c.time + c.step } ∧ (∀ stop, c.stop = some stop → ¬ stop < c'.time) ∧
      s'.sea = s.sea + c.step ∧ s'.label = s.label + c.step ∧
      body c'.time c.step (s.sea + c.step) s.label s.other = .ok s'.other := by
  unfold runOneStep Clock.advance at h
  dsimp only [effectiveStep] at h
  have key : ∀ s', tick body (c.time + c.step) c.step s = .ok s' →
      s'.sea = s.sea + c.step ∧ s'.label = s.label + c.step ∧
      body (c.time + c.step) c.step (s.sea + c.step) s.label s.other = .ok s'.other := by
    intro s' h
    unfold tick at h
    cases hb : body (c.time + c.step) c.step (s.sea + c.step) s.label s.other with
    | error e => rw [hb] at h; cases h
    | ok x => rw [hb] at h; cases h; exact ⟨rfl, rfl, rfl⟩
  cases hs : c.stop with
  | none =>
    rw [hs] at h
    obtain ⟨h1, h2⟩ := Prod.mk.inj h
    subst h1
    exact ⟨rfl, fun _ h => (by cases h), key s' h2⟩
  | some stop =>
    rw [hs] at h
    dsimp only at h
    by_cases hlt : stop < c.time + c.step
    · rw [if_pos hlt] at h
      obtain ⟨-, h2⟩ := Prod.mk.inj h
      cases h2
    · rw [if_neg hlt] at h
      obtain ⟨h1, h2⟩ := Prod.mk.inj h
      subst h1
      refine ⟨rfl, fun stop' h' => ?_, key s' h2⟩
      cases h'
      exact hlt

theorem setOther_keeps {set : X → Except Err X} {s s' : Ticks T X} (h : setOther set s = .ok s') :
    s'.sea = s.sea ∧ s'.label = s.label := by
  unfold setOther at h
  cases hx : set s.other with
  | error e => rw [hx] at h; cases h
  | ok x => rw [hx] at h; cases h; exact ⟨rfl, rfl⟩

/-- C140: whatever numbers the times are and however their sums are rounded, after every round the
time of the sea level is that of the clock; and that of the writer too if the clock started at 0. -/
theorem clocks_agree (body : T → T → T → T → X → Except Err X) (set : X → Except Err X)
    (start : T) (stop : Option T) (step : T) (x : X) (n : ℕ) (c : Clock T) (s : Ticks T X)
    (h : Rounds (tick body) (setOther set) (Clock.init start stop step)
      (Ticks.init (Clock.init start stop step) x) n c s) :
    s.sea = c.time ∧ (start = 0 → s.label = c.time) ∧ c.stop = stop ∧ c.step = step := by
  induction h with
  | start => exact ⟨rfl, fun h => h.symm, rfl, rfl⟩
  | next h1 h2 h3 ih =>
    obtain ⟨i1, i2, i3, i4⟩ := ih
    obtain ⟨e1, -, e2, e3, -⟩ := tick_step h2
    obtain ⟨f1, f2⟩ := setOther_keeps h3
    subst e1
    refine ⟨?_, fun h => ?_, i3, i4⟩
    · rw [f1, e2, i1]
    · rw [f2, e3, i2 h]

/-- C140: so a run is the same if the sea level is taken from its curve at the time of the clock,
and if the curve ends at `stop`: it is never asked for anything later, however times are rounded. -/
theorem sea_level_at_clock (body : T → T → T → T → X → Except Err X) (set : X → Except Err X)
    (start stop step : T) (x : X) (fuel : ℕ) :
    cliLoop (tick body) (setOther set) fuel (Clock.init start (some stop) step)
        (Ticks.init (Clock.init start (some stop) step) x) =
      cliLoop (tick fun time dt sea label x =>
          if stop < sea then .error .valueError else body time dt time label x)
        (setOther set) fuel (Clock.init start (some stop) step)
        (Ticks.init (Clock.init start (some stop) step) x) := by
  have key : ∀ (fuel : ℕ) (c : Clock T) (s : Ticks T X), c.stop = some stop → s.sea = c.time →
      cliLoop (tick body) (setOther set) fuel c s =
      cliLoop (tick fun time dt sea label x =>
          if stop < sea then .error .valueError else body time dt time label x)
        (setOther set) fuel c s := by
    intro fuel
    induction fuel with
    | zero => intros; rfl
    | succ fuel ih =>
      intro c s hs ht
      have hone : runOneStep (tick body) c s none =
          runOneStep (tick fun time dt sea label x =>
            if stop < sea then .error .valueError else body time dt time label x) c s none := by
        unfold runOneStep Clock.advance
        rw [hs]
        dsimp only [effectiveStep]
        by_cases hlt : stop < c.time + c.step
        · rw [if_pos hlt]
        · rw [if_neg hlt]
          dsimp only
          unfold tick
          rw [ht]
          dsimp only
          rw [if_neg hlt]
      simp only [cliLoop, ← hone]
      cases h1 : runOneStep (tick body) c s none with
      | mk c' r =>
        cases r with
        | error e => cases e <;> rfl
        | ok s1 =>
          dsimp only
          obtain ⟨e1, -, e2, -, -⟩ := tick_step h1
          cases h2 : setOther set s1 with
          | error e => cases e <;> rfl
          | ok s2 =>
            dsimp only
            apply ih
            · rw [e1]; exact hs
            · rw [(setOther_keeps h2).1, e2, ht, e1]
  exact key fuel _ _ rfl rfl

end

section

variable {X : Type*} {rnd : ℚ → ℚ}

/-- The two sums. -/
theorem ticks_timeAfter (body : Rounded rnd → Rounded rnd → Rounded rnd → Rounded rnd → X →
      Except Err X) (set : X → Except Err X)
    (start : Rounded rnd) (stop : Option (Rounded rnd)) (step : Rounded rnd) (x : X) (n : ℕ)
    (c : Clock (Rounded rnd)) (s : Ticks (Rounded rnd) X)
    (h : Rounds (tick body) (setOther set) (Clock.init start stop step)
      (Ticks.init (Clock.init start stop step) x) n c s) :
    c.time.val = timeAfter rnd start.val step.val n ∧
      s.label.val = timeAfter rnd 0 step.val n ∧ c.step = step := by
  induction h with
  | start => exact ⟨rfl, rfl, rfl⟩
  | next h1 h2 h3 ih =>
    obtain ⟨i1, i2, i3⟩ := ih
    obtain ⟨e1, -, e2, e3, -⟩ := tick_step h2
    obtain ⟨f1, f2⟩ := setOther_keeps h3
    subst e1
    refine ⟨?_, ?_, i3⟩
    · rw [timeAfter, ← i1, ← i3]
      rfl
    · rw [f2, e3, timeAfter, ← i2, ← i3]
      rfl

/-- The sum on a grid of a power of two. -/
theorem timeAfter_exact
    (hrnd : ∀ m k : ℤ, |m| ≤ 2 ^ 53 → rnd ((m : ℚ) * 2 ^ k) = m * 2 ^ k) (k a b : ℤ) (hb : 0 ≤ b)
    (ha : -2 ^ 53 ≤ a) (n : ℕ) (hn : a + n * b ≤ 2 ^ 53) :
    timeAfter rnd (a * 2 ^ k) (b * 2 ^ k) n = ((a + n * b : ℤ) : ℚ) * 2 ^ k := by
  induction n with
  | zero => simp [timeAfter]
  | succ n ih =>
    have hnb : 0 ≤ (n : ℤ) * b := by positivity
    push_cast at hn
    rw [timeAfter, ih (by linarith)]
    rw [← hrnd (a + ((n + 1 : ℕ) : ℤ) * b) k (by
      rw [abs_le]; push_cast; constructor <;> nlinarith)]
    congr 1
    push_cast
    ring

/-- C140: on a grid of a power of two the times that the writer puts into the file are exactly those
of the clock, counted from the start. -/
theorem labels_exact_on_grid
    (hrnd : ∀ m k : ℤ, |m| ≤ 2 ^ 53 → rnd ((m : ℚ) * 2 ^ k) = m * 2 ^ k) (k a b : ℤ) (hb : 0 ≤ b)
    (ha : |a| ≤ 2 ^ 53)
    (body : Rounded rnd → Rounded rnd → Rounded rnd → Rounded rnd → X → Except Err X)
    (set : X → Except Err X) (stop : Option (Rounded rnd)) (x : X) (n : ℕ)
    (hn : a + n * b ≤ 2 ^ 53) (hn' : n * b ≤ 2 ^ 53)
    (c : Clock (Rounded rnd)) (s : Ticks (Rounded rnd) X)
    (h : Rounds (tick body) (setOther set) (Clock.init ⟨a * 2 ^ k⟩ stop ⟨b * 2 ^ k⟩)
      (Ticks.init (Clock.init ⟨a * 2 ^ k⟩ stop ⟨b * 2 ^ k⟩) x) n c s) :
    c.time.val = a * 2 ^ k + n * (b * 2 ^ k) ∧ s.label.val = c.time.val - a * 2 ^ k := by
  obtain ⟨h1, h2, -⟩ := ticks_timeAfter body set _ stop _ x n c s h
  have e1 := timeAfter_exact hrnd k a b hb (abs_le.1 ha).1 n hn
  have e2 := timeAfter_exact hrnd k 0 b hb (by norm_num) n (by linarith)
  rw [Int.cast_zero, zero_mul] at e2
  rw [h2, h1]
  dsimp only
  rw [e1, e2]
  push_cast
  constructor <;> ring

/-- C140, partial: in general they differ by no more than the rounding that has accumulated.
Missing: that they do not differ at all, which is false (`labels_off`). -/
theorem labels_near_partial (u : ℚ) (hu : 0 ≤ u) (hu1 : u ≤ 1)
    (hrnd : ∀ x, |rnd x - x| ≤ |x| * u) (start step : ℚ) (hs : 0 ≤ start) (hd : 0 ≤ step)
    (body : Rounded rnd → Rounded rnd → Rounded rnd → Rounded rnd → X → Except Err X)
    (set : X → Except Err X) (stop : Option (Rounded rnd)) (x : X) (n : ℕ)
    (c : Clock (Rounded rnd)) (s : Ticks (Rounded rnd) X)
    (h : Rounds (tick body) (setOther set) (Clock.init ⟨start⟩ stop ⟨step⟩)
      (Ticks.init (Clock.init ⟨start⟩ stop ⟨step⟩) x) n c s) :
    |s.label.val - (c.time.val - start)| ≤
      (start + n * step) * ((1 + u) ^ n - (1 - u) ^ n) := by
  obtain ⟨h1, h2, -⟩ := ticks_timeAfter body set _ stop _ x n c s h
  obtain ⟨a1, a2⟩ := timeAfter_bounds rnd u hu hu1 hrnd start step hs hd n
  obtain ⟨b1, b2⟩ := timeAfter_bounds rnd u hu hu1 hrnd 0 step le_rfl hd n
  rw [h1, h2]
  dsimp only
  rw [zero_add] at b1 b2
  have p1 : (1 - u) ^ n ≤ 1 := pow_le_one₀ (by linarith) (by linarith)
  have p2 : 1 ≤ (1 + u) ^ n := one_le_pow₀ (by linarith)
  have q1 := mul_nonneg hs (sub_nonneg.2 p1)
  have q2 := mul_nonneg hs (sub_nonneg.2 p2)
  rw [abs_le]
  constructor <;> nlinarith

end

/-- A run whose only work is to write down the time of the clock and the label of the output. -/
def exTicks (start step : ℚ) (n : ℕ) : Option (List (ℚ × ℚ)) :=
  match cliLoop (tick fun time _ _ label l => .ok (l ++ [(time.val, label.val)])) (setOther .ok)
      (n + 1) (Clock.init (pyFloat start) (some (pyFloat (start + n * step))) (pyFloat step))
      (Ticks.init (Clock.init (pyFloat start) none (pyFloat step)) []) with
  | some (_, .ok s) => some s.other
  | _ => none

/-- C140 is false in general: from 1 by steps of 0.1, the label of the second record is 0.1, but the
clock has advanced by 0.10000000000000009 when it is written. -/
theorem labels_off :
    ∃ t1 t2, exTicks 1 (1/10) 3 = some [(t1, 0), (t2, (pyFloat (1/10)).val)] ∧
      (pyFloat (1/10)).val ≠ t1 - 1 := by
  refine ⟨2476979795053773 / 2251799813685248, 1351079888211149 / 1125899906842624, ?_, ?_⟩
  · decide +kernel
  · decide +kernel

/-- C140: on a grid of quarters the labels are those of the clock, 1 later. -/
example : exTicks 1 (1/4) 3 = some [(5/4, 0), (3/2, 1/4), (7/4, 1/2)] := by decide +kernel

/-- The hypotheses of the theorems: two rounds. -/
example : ∃ c s, Rounds (tick fun time _ _ label l => .ok (l ++ [(time.val, label.val)]))
    (setOther .ok) (Clock.init (⟨((4 : ℤ) : ℚ) * 2 ^ (-2 : ℤ)⟩ : Rounded binary64) none
      ⟨((1 : ℤ) : ℚ) * 2 ^ (-2 : ℤ)⟩)
    (Ticks.init (Clock.init (⟨((4 : ℤ) : ℚ) * 2 ^ (-2 : ℤ)⟩ : Rounded binary64) none
      ⟨((1 : ℤ) : ℚ) * 2 ^ (-2 : ℤ)⟩) []) 2 c s :=
  ⟨_, _, .next (.next .start rfl rfl) rfl rfl⟩

end Verif.Props
