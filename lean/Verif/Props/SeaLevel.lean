import Mathlib.Analysis.SpecialFunctions.Trigonometric.Bounds
import Verif.Model.SeaLevel
import Verif.Props.Interp
import Verif.Props.DriverRun

/-!
# Properties of sea level, subsidence and bathymetry (C24, C25, C27, C28, C59, C63, C64)
-/

set_option autoImplicit false
set_option linter.unusedSectionVars false

namespace Verif.Props

open Verif Spec

variable {K σ : Type*} {R C : ℕ} [Field K] [LinearOrder K] [IsStrictOrderedRing K]

/-! ### C24 -/

/-- Successive steps of the sea-level component: the states after each of them, up to the first
one that raises. -/
inductive SeaHistory (curve : Curve K) : SeaState K → List K → List (SeaState K) → Prop
  | nil (s) : SeaHistory curve s [] []
  | step {s s' : SeaState K} {dt : K} {dts : List K} {rest : List (SeaState K)}
      (h : seaStep curve dt s = (s', none)) (hr : SeaHistory curve s' dts rest) :
      SeaHistory curve s (dt :: dts) (s' :: rest)

/-- C24: after any successful steps, every reported level is the curve at the component's time,
which is the elapsed time, and the increments reported add up to the change of level. -/
theorem sea_level_history (curve : Curve K) (s : SeaState K) (dts : List K)
    (hist : List (SeaState K)) (h : SeaHistory curve s dts hist) :
    hist.length = dts.length ∧
    (∀ (k : ℕ) (hk : k < hist.length), hist[k].time = s.time + (dts.take (k + 1)).sum ∧
      curve (hist[k].time) = .ok hist[k].level) ∧
    (hist.map fun t => t.incr.getD 0).sum = ((hist.map SeaState.level).getLast?.getD s.level) - s.level := by
  induction h with
  | nil s => exact ⟨rfl, fun k hk => absurd hk (by simp), by simp⟩
  | step h hr ih =>
    rename_i s s' dt dts rest
    unfold seaStep at h
    dsimp only at h
    cases hc : curve (s.time + dt) with
    | error e => rw [hc] at h; cases h
    | ok v =>
      rw [hc] at h
      cases h
      obtain ⟨i1, i2, i3⟩ := ih
      refine ⟨by simp [i1], ?_, ?_⟩
      · intro k hk
        cases k with
        | zero => exact ⟨by simp, hc⟩
        | succ k =>
          have := i2 k (by simpa using hk)
          refine ⟨?_, this.2⟩
          rw [List.getElem_cons_succ, this.1]
          simp only [List.take_succ_cons, List.sum_cons]
          ring
      · rw [List.map_cons, List.sum_cons, i3, List.map_cons, List.getLast?_cons]
        simp only [Option.getD_some]
        ring

/-- C24: when the curve cannot be evaluated at the new time, the step raises that error and
changes neither the level nor the increment. The component's time has advanced all the same. -/
theorem sea_level_error (curve : Curve K) (s : SeaState K) (dt : K) (e : Err)
    (h : curve (s.time + dt) = .error e) :
    seaStep curve dt s = (⟨s.time + dt, s.level, s.incr⟩, some e) := by
  simp only [seaStep, h]

/-- C24: a step beyond either end of a tabulated curve raises `ValueError`. -/
theorem sea_level_out_of_range (t : List (K × K)) (p0 pn : K × K) (h0 : t.head? = some p0)
    (hn : t.getLast? = some pn) (s : SeaState K) (dt : K)
    (hout : s.time + dt < p0.1 ∨ pn.1 < s.time + dt) :
    seaStep (interpTable t) dt s = (⟨s.time + dt, s.level, s.incr⟩, some .valueError) := by
  apply sea_level_error
  apply (interp_defined_iff t p0 pn h0 hn _).2
  rintro ⟨h1, h2⟩
  rcases hout with h | h
  · exact absurd h1 (not_le.mpr h)
  · exact absurd h2 (not_le.mpr h)

example : SeaHistory (interpTable exTable) ⟨0, 0, none⟩ [5, 5, 20]
    [⟨5, 0, some 0⟩, ⟨10, -5, some (-5)⟩, ⟨30, 15, some 20⟩] := by
  refine .step (by decide +kernel) (.step (by decide +kernel) (.step (by decide +kernel) (.nil _)))

/-! ### C25 -/

/-- C25: the sinusoidal curve can be evaluated at any time exactly if the wave length is not 0. -/
theorem sinusoidal_defined (L A φ m b t : ℝ) :
    ((∃ v, sinusoidalCurve L A φ m b t = .ok v) ↔ L ≠ 0) ∧
      (L = 0 → sinusoidalCurve L A φ m b t = .error .zeroDivision) := by
  have hpi : (2 * Real.pi) ≠ 0 := by positivity
  unfold sinusoidalCurve
  dsimp only
  by_cases hL : L = 0
  · rw [if_pos (by rw [hL, zero_div])]
    exact ⟨⟨fun ⟨v, hv⟩ => (by cases hv), fun h => absurd hL h⟩, fun _ => rfl⟩
  · rw [if_neg (div_ne_zero hL hpi)]
    exact ⟨⟨fun _ => hL, fun _ => ⟨_, rfl⟩⟩, fun h => absurd h hL⟩

/-- The value of the sinusoidal curve. -/
theorem sinusoidal_value (L A φ m b t : ℝ) (hL : L ≠ 0) :
    sinusoidalCurve L A φ m b t = .ok ((Real.sin (2 * Real.pi * (t - φ) / L) +
      3 / 10 * Real.sin (2 * (2 * Real.pi * (t - φ) / L))) * A + m + b * t) := by
  have hpi : (2 * Real.pi) ≠ 0 := by positivity
  unfold sinusoidalCurve
  dsimp only
  rw [if_neg (div_ne_zero hL hpi)]
  have e1 : (t - φ) / (L / (2 * Real.pi)) = 2 * Real.pi * (t - φ) / L := by field_simp
  have e2 : (2 * (t - φ)) / (L / (2 * Real.pi)) = 2 * (2 * Real.pi * (t - φ) / L) := by
    field_simp
  rw [e1, e2]

/-- C25: one wave length later the level is the same apart from the trend. -/
theorem sinusoidal_periodic (L A φ m b t v : ℝ)
    (h : sinusoidalCurve L A φ m b t = .ok v) :
    sinusoidalCurve L A φ m b (t + L) = .ok (v + b * L) := by
  have hL : L ≠ 0 := (sinusoidal_defined L A φ m b t).1.mp ⟨v, h⟩
  rw [sinusoidal_value _ _ _ _ _ _ hL] at h ⊢
  cases h
  have e1 : 2 * Real.pi * (t + L - φ) / L = 2 * Real.pi * (t - φ) / L + 2 * Real.pi := by
    field_simp; ring
  have e2 : Real.sin (2 * (2 * Real.pi * (t - φ) / L + 2 * Real.pi)) =
      Real.sin (2 * (2 * Real.pi * (t - φ) / L)) := by
    rw [show 2 * (2 * Real.pi * (t - φ) / L + 2 * Real.pi) =
      2 * (2 * Real.pi * (t - φ) / L) + 2 * Real.pi + 2 * Real.pi by ring,
      Real.sin_add_two_pi, Real.sin_add_two_pi]
  rw [e1, Real.sin_add_two_pi, e2]
  congr 1
  ring

/-- C25: the level stays within 1.3 amplitudes of the trend. -/
theorem sinusoidal_bounded (L A φ m b t v : ℝ) (h : sinusoidalCurve L A φ m b t = .ok v) :
    |v - (m + b * t)| ≤ 13 / 10 * |A| := by
  have hL : L ≠ 0 := (sinusoidal_defined L A φ m b t).1.mp ⟨v, h⟩
  rw [sinusoidal_value _ _ _ _ _ _ hL] at h
  cases h
  rw [show (Real.sin (2 * Real.pi * (t - φ) / L) + 3 / 10 *
      Real.sin (2 * (2 * Real.pi * (t - φ) / L))) * A + m + b * t - (m + b * t) =
    (Real.sin (2 * Real.pi * (t - φ) / L) + 3 / 10 *
      Real.sin (2 * (2 * Real.pi * (t - φ) / L))) * A by ring, abs_mul]
  apply mul_le_mul_of_nonneg_right _ (abs_nonneg A)
  have h1 := Real.abs_sin_le_one (2 * Real.pi * (t - φ) / L)
  have h2 := Real.abs_sin_le_one (2 * (2 * Real.pi * (t - φ) / L))
  rw [abs_le] at h1 h2 ⊢
  constructor <;> linarith

/-- C25: at `t = phase` the level is on the trend, and the curve is antisymmetric about that
point. -/
theorem sinusoidal_phase (L A φ m b s : ℝ) (hL : L ≠ 0) :
    sinusoidalCurve L A φ m b φ = .ok (m + b * φ) ∧
    ∃ v w, sinusoidalCurve L A φ m b (φ + s) = .ok v ∧ sinusoidalCurve L A φ m b (φ - s) = .ok w ∧
      v + w = 2 * (m + b * φ) := by
  constructor
  · rw [sinusoidal_value _ _ _ _ _ _ hL]
    simp
  · refine ⟨_, _, sinusoidal_value _ _ _ _ _ _ hL, sinusoidal_value _ _ _ _ _ _ hL, ?_⟩
    have e1 : 2 * Real.pi * (φ - s - φ) / L = -(2 * Real.pi * (φ + s - φ) / L) := by ring
    rw [e1, mul_neg, Real.sin_neg, Real.sin_neg]
    ring

/-- C25: a quarter of a wave length after the phase the level is one amplitude above the trend. -/
theorem sinusoidal_crest (L A φ m b : ℝ) (hL : L ≠ 0) :
    sinusoidalCurve L A φ m b (φ + L / 4) = .ok (A + m + b * (φ + L / 4)) := by
  rw [sinusoidal_value _ _ _ _ _ _ hL]
  have e1 : 2 * Real.pi * (φ + L / 4 - φ) / L = Real.pi / 2 := by field_simp; ring
  rw [e1, show 2 * (Real.pi / 2) = Real.pi by ring, Real.sin_pi_div_two, Real.sin_pi]
  congr 1
  ring

/-! ### C27 -/

/-- Successive steps of the subsidence component. -/
def subsidenceRun (rate : Fin C → K) : List K → World R C K → Except Err (World R C K)
  | [], w => .ok w
  | dt :: dts, w =>
    match subsidenceStep rate dt w with
    | .error e => .error e
    | .ok w' => subsidenceRun rate dts w'

/-- C27: any number of steps adds `rate * (total time)` to the increment at every node of every
active row, nothing in the two boundary rows, and changes no other field. -/
theorem subsidence_total (rate : Fin C → K) (dts : List K) (w : World R C K) (f : NodeField R C K)
    (hf : w.increment = some f) :
    ∃ g, subsidenceRun rate dts w = .ok { w with increment := some g } ∧
      (∀ r : Fin R, ∀ q : Fin (R + 2), q.val = r.val + 1 → ∀ c,
        g (q, c) = f (q, c) + rate c * dts.sum) ∧
      (∀ q : Fin (R + 2), q.val = 0 ∨ q.val = R + 1 → ∀ c, g (q, c) = f (q, c)) := by
  induction dts generalizing w f with
  | nil =>
    refine ⟨f, ?_, ?_, fun _ _ _ => rfl⟩
    · rw [subsidenceRun, ← hf]
    · intro r q hq c; simp
  | cons dt dts ih =>
    obtain ⟨g, h1, h2, h3⟩ := ih
      { w with increment := some (setProfile f fun r c => getProfile f r c + rate c * dt) } _ rfl
    refine ⟨g, ?_, ?_, ?_⟩
    · simp only [subsidenceRun, subsidenceStep, hf]
      exact h1
    · intro r q hq c
      have hq' : q = activeRow r := Fin.ext (by rw [activeRow_val, hq])
      rw [h2 r q hq c, hq']
      have e : setProfile f (fun r c => getProfile f r c + rate c * dt) (activeRow r, c) =
          f (activeRow r, c) + rate c * dt := by
        unfold setProfile
        simp only [activeIndex_activeRow]
        rfl
      rw [e, List.sum_cons]
      ring
    · intro q hq c
      rw [h3 q hq c]
      exact setProfile_other _ _ (q, c) hq

/-- C27: the way the time is split is irrelevant. -/
theorem subsidence_split (rate : Fin C → K) (dts dts' : List K) (h : dts.sum = dts'.sum)
    (w : World R C K) (hw : w.increment.isSome) :
    subsidenceRun rate dts w = subsidenceRun rate dts' w := by
  obtain ⟨f, hf⟩ := Option.isSome_iff_exists.mp hw
  obtain ⟨g, h1, h2, h3⟩ := subsidence_total rate dts w f hf
  obtain ⟨g', h1', h2', h3'⟩ := subsidence_total rate dts' w f hf
  have : g = g' := by
    funext n
    obtain ⟨q, c⟩ := n
    by_cases hq : q.val = 0 ∨ q.val = R + 1
    · rw [h3 q hq c, h3' q hq c]
    · have := q.isLt
      have hr : q.val - 1 < R := by omega
      rw [h2 ⟨q.val - 1, hr⟩ q (by simp only; omega) c, h2' ⟨q.val - 1, hr⟩ q (by simp only; omega) c, h]
  rw [h1, h1', this]

example : (subsidenceRun (fun c => (c.val : ℚ) * (-1/1000)) [100, 50] exWorld).toOption.map
    (fun w => w.increment.map fun f => (f (0, 2), f (1, 0), f (1, 2), f (2, 2))) =
    some (some (0, 0, -3/10, 0)) := by decide +kernel

/-! ### C28 -/

theorem atColumns_ok_iff (curve : Curve K) (x : Fin C → K) :
    ((∃ z, curve.atColumns x = .ok z) ↔ ∀ c, ∃ v, curve (x c) = .ok v) ∧
    (∀ z, curve.atColumns x = .ok z → ∀ c, curve (x c) = .ok (z c)) ∧
    (∀ e, curve.atColumns x = .error e → ∃ c, curve (x c) = .error e) := by
  unfold Curve.atColumns
  cases h : (List.ofFn x).findSome? (fun x => match curve x with
    | .error e => some e
    | .ok _ => none) with
  | some e =>
    rw [List.findSome?_eq_some_iff] at h
    obtain ⟨l1, a, l2, e1, e2, -⟩ := h
    have ha : a ∈ List.ofFn x := by rw [e1]; simp
    rw [List.mem_ofFn] at ha
    obtain ⟨c, rfl⟩ := ha
    have hce : curve (x c) = .error e := by
      cases hc : curve (x c) with
      | ok v => rw [hc] at e2; cases e2
      | error e' => rw [hc] at e2; cases e2; rfl
    refine ⟨⟨fun ⟨z, hz⟩ => (by cases hz), fun hall => ?_⟩, fun z hz => (by cases hz), ?_⟩
    · obtain ⟨v, hv⟩ := hall c
      rw [hce] at hv; cases hv
    · intro e' he'
      cases he'
      exact ⟨c, hce⟩
  | none =>
    rw [List.findSome?_eq_none_iff] at h
    have hall : ∀ c, ∃ v, curve (x c) = .ok v := by
      intro c
      have := h (x c) (by rw [List.mem_ofFn]; exact ⟨c, rfl⟩)
      cases hc : curve (x c) with
      | ok v => exact ⟨v, rfl⟩
      | error e => rw [hc] at this; cases this
    refine ⟨⟨fun _ => hall, fun _ => ⟨_, rfl⟩⟩, ?_, fun e he => (by cases he)⟩
    intro z hz c
    cases hz
    obtain ⟨v, hv⟩ := hall c
    simp only [hv]

/-- C28: a successful step gives every row the profile of the file, changes nothing else, and a
second one changes nothing. -/
theorem bathymetry_rows (curve : Curve K) (x : Fin C → K) (w w' : World R C K)
    (h : bathymetryStep curve x w = .ok w') :
    (∀ q c, curve (x c) = .ok (w'.topo (q, c))) ∧ { w' with topo := w.topo } = w ∧
      bathymetryStep curve x w' = .ok w' := by
  unfold bathymetryStep at h ⊢
  cases hz : curve.atColumns x with
  | error e => rw [hz] at h; cases h
  | ok z =>
    rw [hz] at h
    cases h
    exact ⟨fun q c => (atColumns_ok_iff curve x).2.1 z hz c, rfl, rfl⟩

/-- C28: for a tabulated profile the step succeeds exactly if all columns lie in the range of the
file, and raises `ValueError` otherwise. -/
theorem bathymetry_range (t : List (K × K)) (p0 pn : K × K) (h0 : t.head? = some p0)
    (hn : t.getLast? = some pn) (x : Fin C → K) (w : World R C K) :
    ((∃ w', bathymetryStep (interpTable t) x w = .ok w') ↔ ∀ c, p0.1 ≤ x c ∧ x c ≤ pn.1) ∧
    ((∃ c, x c < p0.1 ∨ pn.1 < x c) → bathymetryStep (interpTable t) x w = .error .valueError) := by
  have key := atColumns_ok_iff (interpTable t) x
  have hdef := interp_defined_iff t p0 pn h0 hn
  constructor
  · have : (∃ w', bathymetryStep (interpTable t) x w = .ok w') ↔
        ∃ z, (interpTable t).atColumns x = .ok z := by
      unfold bathymetryStep
      cases (interpTable t).atColumns x with
      | error e => exact ⟨fun ⟨_, h⟩ => (by cases h), fun ⟨_, h⟩ => (by cases h)⟩
      | ok z => exact ⟨fun _ => ⟨z, rfl⟩, fun _ => ⟨_, rfl⟩⟩
    rw [this, key.1]
    exact forall_congr' fun c => (hdef (x c)).1
  · rintro ⟨c, hc⟩
    unfold bathymetryStep
    cases hz : (interpTable t).atColumns x with
    | ok z =>
      have h1 := (hdef (x c)).1.mp ⟨_, key.2.1 z hz c⟩
      rcases hc with h | h
      · exact absurd h1.1 (not_le.mpr h)
      · exact absurd h1.2 (not_le.mpr h)
    | error e =>
      obtain ⟨d, hd⟩ := key.2.2 e hz
      by_cases hin : p0.1 ≤ x d ∧ x d ≤ pn.1
      · obtain ⟨v, hv⟩ := (hdef (x d)).1.mpr hin
        rw [hd] at hv; cases hv
      · rw [(hdef (x d)).2 hin] at hd
        cases hd
        rfl

example : (bathymetryStep (interpTable exTable) (fun c => 5 * (c.val : ℚ)) exWorld).toOption.map
    (fun w => (w.topo (0, 1), w.topo (1, 0), w.topo (2, 2))) = some (0, 5, -5) := by decide +kernel

/-! ### C59 -/

theorem initialElevation_shore (sp hgt α sh s : ℝ) : initialElevation sp hgt α sh s s = 0 := by
  simp [initialElevation]

/-- C59: the initial elevation is 0 at the shore and strictly decreasing, so it is positive
landward and negative seaward. -/
theorem initial_profile_decreasing (sp hgt α sh s : ℝ) (hsp : 0 < sp) (hsh : 0 < sh)
    (hh : 0 ≤ hgt) (hα : 0 ≤ α) :
    initialElevation sp hgt α sh s s = 0 ∧
    StrictAnti (initialElevation sp hgt α sh s) ∧
    (∀ x, x < s → 0 < initialElevation sp hgt α sh s x) ∧
    (∀ x, s < x → initialElevation sp hgt α sh s x < 0) := by
  have hanti : StrictAnti (initialElevation sp hgt α sh s) := by
    have exp_le : ∀ a b : ℝ, a ≤ b → Real.exp ((s - b) * α) ≤ Real.exp ((s - a) * α) := by
      intro a b hab
      apply Real.exp_le_exp.mpr
      exact mul_le_mul_of_nonneg_right (by linarith) hα
    intro a b hab
    unfold initialElevation
    by_cases hb : b < s
    · rw [if_pos hb, if_pos (hab.trans hb)]
      exact mul_lt_mul_of_pos_right (by linarith) hsp
    · rw [if_neg hb]
      push Not at hb
      have hb1 : Real.exp ((s - b) * α) ≤ 1 := by
        rw [← Real.exp_zero]
        apply Real.exp_le_exp.mpr
        exact mul_nonpos_of_nonpos_of_nonneg (by linarith) hα
      by_cases ha : a < s
      · rw [if_pos ha]
        have h1 : 0 < (s - a) * sp := mul_pos (by linarith) hsp
        have h2 : (s - b) * sh ≤ 0 := mul_nonpos_of_nonpos_of_nonneg (by linarith) hsh.le
        have h3 : 0 ≤ hgt * (1 - Real.exp ((s - b) * α)) := mul_nonneg hh (by linarith)
        linarith
      · rw [if_neg ha]
        have h1 : (s - b) * sh < (s - a) * sh := mul_lt_mul_of_pos_right (by linarith) hsh
        have h2 := mul_le_mul_of_nonneg_left (exp_le a b hab.le) hh
        linarith
  have h0 := initialElevation_shore sp hgt α sh s
  refine ⟨h0, hanti, fun x hx => ?_, fun x hx => ?_⟩
  · have := hanti hx; rwa [h0] at this
  · have := hanti hx; rwa [h0] at this

/-- C59: the initial elevation is a continuous function of the position. -/
theorem initial_profile_continuous (sp hgt α sh s : ℝ) :
    Continuous (initialElevation sp hgt α sh s) := by
  unfold initialElevation
  refine Continuous.if ?_ (by fun_prop) (by fun_prop)
  intro a ha
  have : a = s := by
    have h2 := frontier_lt_subset_eq (continuous_id (X := ℝ)) (continuous_const (y := s))
    exact h2 ha
  subst this
  simp

/-- C59: where the shore is. The default or given position is used if the grid reaches that far,
otherwise the middle of the grid; on a grid that starts landward of the given position the shore
is always on the grid. -/
theorem initial_shore_position (x0 xEnd init : K) :
    (init ≤ xEnd → initialShore x0 xEnd init = init) ∧
    (xEnd < init → initialShore x0 xEnd init = (x0 + xEnd) / 2) ∧
    (x0 ≤ xEnd → x0 ≤ init → x0 ≤ initialShore x0 xEnd init ∧ initialShore x0 xEnd init ≤ xEnd) := by
  unfold initialShore
  refine ⟨fun h => if_neg (not_lt.mpr h), fun h => if_pos h, fun h h' => ?_⟩
  split_ifs with hlt
  · constructor <;> linarith
  · exact ⟨h', not_lt.mp hlt⟩

/-- C59 for the whole array: as many elevations as positions, strictly decreasing if the
positions increase. The shore the elevations are about is the given one if the last position
reaches it, otherwise the middle between the first and the last. -/
theorem initial_profile_list (sp init hgt α sh : ℝ) (hsp : 0 < sp) (hsh : 0 < sh)
    (hh : 0 ≤ hgt) (hα : 0 ≤ α) (x : List ℝ) (hx : x.Pairwise (· < ·)) (hne : x ≠ []) :
    ∃ z, initialProfile sp init hgt α sh x = .ok z ∧ z.length = x.length ∧
      z.Pairwise (· > ·) ∧
      ∃ shore : ℝ, (init ≤ x.getLast hne → shore = init) ∧
        (x.getLast hne < init → shore = (x.head hne + x.getLast hne) / 2) ∧
        ∀ p ∈ x.zip z, (p.1 < shore → p.2 = (shore - p.1) * sp) ∧
          (shore ≤ p.1 →
            p.2 = (shore - p.1) * sh - hgt * (1 - Real.exp ((shore - p.1) * α))) := by
  unfold initialProfile
  rw [List.head?_eq_some_head hne, List.getLast?_eq_some_getLast hne]
  refine ⟨_, rfl, by simp, ?_, initialShore (x.head hne) (x.getLast hne) init,
    (initial_shore_position _ _ _).1, (initial_shore_position _ _ _).2.1, fun p hp => ?_⟩
  rotate_left
  · rw [List.zip_map_right, List.mem_map] at hp
    obtain ⟨⟨a, b⟩, hab, rfl⟩ := hp
    rw [List.zip_eq_zipWith, List.zipWith_self, List.mem_map] at hab
    obtain ⟨c, -, hc⟩ := hab
    obtain ⟨rfl, rfl⟩ := Prod.mk.inj hc
    exact ⟨fun h => if_pos h, fun h => if_neg (not_lt.mpr h)⟩
  rw [List.pairwise_map]
  exact hx.imp fun hab => (initial_profile_decreasing sp hgt α sh _ hsp hsh hh hα).2.1 hab

example : initialElevation (8/10000) 15 (1/2000) (1/1000) 19750 19000 = 6/10 := by
  unfold initialElevation
  rw [if_pos (by norm_num)]
  norm_num

/-! ### C63 -/

/-- A component that leaves the time of the sea-level component and the sea level alone. -/
def IgnoresSea (get : σ → K) (c : Component σ R C K) : Prop :=
  ∀ dt p w p' w', c dt (p, w) = .ok (p', w') → get p' = get p ∧ w'.seaLevel = w.seaLevel ∧
    w'.seaIncr = w.seaIncr

theorem runComponents_append (cs ds : List (Component σ R C K)) (dt : K) (x : σ × World R C K) :
    runComponents (cs ++ ds) dt x = match runComponents cs dt x with
      | .error e => .error e
      | .ok y => runComponents ds dt y := by
  induction cs generalizing x with
  | nil => rfl
  | cons c cs ih =>
    rw [List.cons_append, runComponents, runComponents]
    cases c dt x with
    | error e => rfl
    | ok y => exact ih y

theorem runComponents_ignoresSea (get : σ → K) (cs : List (Component σ R C K))
    (h : ∀ c ∈ cs, IgnoresSea get c) {dt : K} {p p' : σ} {w w' : World R C K}
    (hr : runComponents cs dt (p, w) = .ok (p', w')) :
    get p' = get p ∧ w'.seaLevel = w.seaLevel ∧ w'.seaIncr = w.seaIncr := by
  induction cs generalizing p w with
  | nil => cases hr; exact ⟨rfl, rfl, rfl⟩
  | cons c cs ih =>
    rw [runComponents] at hr
    cases hc : c dt (p, w) with
    | error e => rw [hc] at hr; cases hr
    | ok y =>
      rw [hc] at hr
      obtain ⟨y1, y2⟩ := y
      have h1 := h c (by simp) dt p w y1 y2 hc
      have h2 := ih (fun c hc => h c (by simp [hc])) hr
      exact ⟨h2.1.trans h1.1, h2.2.1.trans h1.2.1, h2.2.2.trans h1.2.2⟩

/-- One pass over components among which there is one sea-level component. -/
theorem runComponents_sea (curve : Curve K) (get : σ → K) (set : K → σ → σ)
    (hget : ∀ t p, get (set t p) = t) (pre post : List (Component σ R C K))
    (hpre : ∀ c ∈ pre, IgnoresSea get c) (hpost : ∀ c ∈ post, IgnoresSea get c)
    {dt : K} {p p' : σ} {w w' : World R C K}
    (h : runComponents (pre ++ seaComponent curve get set :: post) dt (p, w) = .ok (p', w')) :
    get p' = get p + dt ∧ curve (get p + dt) = .ok w'.seaLevel ∧
      w'.seaIncr = some (w'.seaLevel - w.seaLevel) := by
  rw [runComponents_append] at h
  cases h1 : runComponents pre dt (p, w) with
  | error e => rw [h1] at h; cases h
  | ok y =>
    obtain ⟨p1, w1⟩ := y
    rw [h1] at h
    obtain ⟨a1, a2, a3⟩ := runComponents_ignoresSea get pre hpre h1
    dsimp only at h
    rw [runComponents] at h
    unfold seaComponent seaStep at h
    dsimp only at h
    rw [a1] at h
    cases hc : curve (get p + dt) with
    | error e => rw [hc] at h; cases h
    | ok v =>
      rw [hc] at h
      dsimp only at h
      obtain ⟨b1, b2, b3⟩ := runComponents_ignoresSea get post hpost h
      rw [hget] at b1
      dsimp only at b2 b3
      exact ⟨b1, by rw [b2], by rw [b3, b2, a2]⟩

/-- C63: over any history of a `SequenceModel` with one sea-level component, wherever it is in the
list, the sea level seen after the components of step `k` have run is the curve at the initial
time of the component plus the time elapsed. -/
theorem model_sea_level (curve : Curve K) (get : σ → K) (set : K → σ → σ)
    (hget : ∀ t p, get (set t p) = t) (pre post : List (Component σ R C K))
    (hpre : ∀ c ∈ pre, IgnoresSea get c) (hpost : ∀ c ∈ post, IgnoresSea get c)
    (porosity : σ → K) (s s' : ModelState σ R C K) (obs : List (Observation σ R C K))
    (h : ModelHistory (pre ++ seaComponent curve get set :: post) porosity s obs s') :
    (∀ (k : ℕ) (hk : k < obs.length),
      curve (get s.comps + ((obs.map fun o => o.dt).take (k + 1)).sum) =
        .ok obs[k].world.seaLevel) ∧
    get s'.comps = get s.comps + (obs.map fun o => o.dt).sum ∧
    s'.world.seaLevel = (obs.map fun o => o.world.seaLevel).getLast?.getD s.world.seaLevel ∧
    (obs.map fun o => o.world.seaIncr.getD 0).sum = s'.world.seaLevel - s.world.seaLevel := by
  induction h with
  | nil s => exact ⟨fun k hk => absurd hk (by simp), by simp, by simp, by simp⟩
  | step hc ha hr ih =>
    rename_i s s1 s2 time dt p w obs
    obtain ⟨e1, e2, e3⟩ := runComponents_sea curve get set hget pre post hpre hpost hc
    obtain ⟨p', w', ev, w3, a, h1, h2, h3, h4, rfl⟩ := advanceComponents_ok ha
    rw [hc] at h1
    cases h1
    have hlev : w3.seaLevel = w.seaLevel := (updateFields_ok h3).2.2.2.2.1
    obtain ⟨i1, i2, i3, i4⟩ := ih
    dsimp only at i1 i2 i3 i4
    refine ⟨?_, ?_, ?_, ?_⟩
    · intro k hk
      cases k with
      | zero => simpa using e2
      | succ k =>
        have := i1 k (by simpa using hk)
        rw [e1] at this
        simpa [add_assoc] using this
    · rw [i2, e1]; simp [add_assoc]
    · rw [i3, List.map_cons, List.getLast?_cons, hlev]
      simp
    · rw [List.map_cons, List.sum_cons, i4, e3, hlev]
      show (some (w.seaLevel - s.world.seaLevel)).getD 0 + _ = _
      simp

/-- C63: in a model created with a clock starting at `start`, the sea level of step `k` of a
regular run is the curve at the time the clock shows. The increments add up to the change from
level 0, which is where `SequenceModel.__init__` puts the sea, not to the change from the level of
the curve at `start`. -/
theorem model_sea_level_clock (curve : Curve K) (get : σ → K) (set : K → σ → σ)
    (hget : ∀ t p, get (set t p) = t) (pre post : List (Component σ R C K))
    (hpre : ∀ c ∈ pre, IgnoresSea get c) (hpost : ∀ c ∈ post, IgnoresSea get c)
    (porosity : σ → K) (start step : K) (p : σ) (w : World R C K) (s s' : ModelState σ R C K)
    (hi : modelInit start set p w = .ok s) (obs : List (Observation σ R C K))
    (h : ModelHistory (pre ++ seaComponent curve get set :: post) porosity s obs s')
    (hdt : ∀ o ∈ obs, o.dt = step)
    (htime : (obs.map fun o => o.time) =
      (List.range obs.length).map fun k => start + (k + 1 : ℕ) * step) :
    (∀ o ∈ obs, curve o.time = .ok o.world.seaLevel) ∧
    (obs.map fun o => o.world.seaIncr.getD 0).sum = s'.world.seaLevel := by
  obtain ⟨ev, -, -, -, hcomps, -, -, hsea, -⟩ := modelInit_ok hi
  obtain ⟨h1, -, -, h4⟩ := model_sea_level curve get set hget pre post hpre hpost porosity s s' obs h
  rw [hsea, sub_zero] at h4
  refine ⟨?_, h4⟩
  intro o ho
  obtain ⟨k, hk, rfl⟩ := List.getElem_of_mem ho
  have e := h1 k hk
  rw [hcomps, hget] at e
  have hsum : ((obs.map fun o => o.dt).take (k + 1)).sum = (k + 1 : ℕ) * step := by
    have : (obs.map fun o => o.dt) = List.replicate obs.length step := by
      rw [List.eq_replicate_iff]
      refine ⟨by simp, ?_⟩
      intro b hb
      obtain ⟨o, ho, rfl⟩ := List.mem_map.mp hb
      exact hdt o ho
    rw [this, List.take_replicate, List.sum_replicate, nsmul_eq_mul, min_eq_left (by omega)]
  have ht : obs[k].time = start + (k + 1 : ℕ) * step := by
    have := congrArg (fun l => l[k]?) htime
    simpa [hk] using this
  rw [ht, ← hsum]
  exact e

/-! ### C64 -/

/-- C64: over any history of a `SequenceModel` in which only subsidence moves the bedrock, the
bedrock of every node of every active row has moved by `rate * (elapsed time)`, and the boundary
rows have not moved. -/
theorem model_subsidence (rate : Fin C → K) (pre post : List (Component σ R C K))
    (hpre : ∀ c ∈ pre, Keeps c World.increment ∧ Keeps c World.bedrock)
    (hpost : ∀ c ∈ post, Keeps c World.increment ∧ Keeps c World.bedrock)
    (porosity : σ → K) (s s' : ModelState σ R C K) (obs : List (Observation σ R C K))
    (hs : s.world.increment = some fun _ => 0)
    (h : ModelHistory (pre ++ subsidenceComponent rate :: post) porosity s obs s') :
    (∀ (r : Fin R) (q : Fin (R + 2)), q.val = r.val + 1 → ∀ c, s'.world.bedrock (q, c) =
      s.world.bedrock (q, c) + rate c * (obs.map fun o => o.dt).sum) ∧
    (∀ q : Fin (R + 2), q.val = 0 ∨ q.val = R + 1 → ∀ c,
      s'.world.bedrock (q, c) = s.world.bedrock (q, c)) := by
  have hkb : ∀ c ∈ pre ++ subsidenceComponent rate :: post, Keeps c World.bedrock := by
    intro c hc
    rcases List.mem_append.mp hc with hc | hc
    · exact (hpre c hc).2
    · rcases List.mem_cons.mp hc with rfl | hc
      · intro dt p w p' w' h
        unfold subsidenceComponent subsidenceStep at h
        cases hw : w.increment with
        | none => simp only [hw] at h; cases h
        | some f => simp only [hw] at h; cases h; rfl
      · exact (hpost c hc).2
  obtain ⟨hb, -⟩ := model_bedrock _ porosity hkb s s' obs h
  have key : (∀ (r : Fin R) (q : Fin (R + 2)), q.val = r.val + 1 → ∀ c,
        totalIncrement obs (q, c) = rate c * (obs.map fun o => o.dt).sum) ∧
      (∀ q : Fin (R + 2), q.val = 0 ∨ q.val = R + 1 → ∀ c, totalIncrement obs (q, c) = 0) := by
    clear hb
    induction h with
    | nil s => exact ⟨fun _ _ _ _ => by simp [totalIncrement], fun _ _ _ => by simp [totalIncrement]⟩
    | step hc ha hr ih =>
      rename_i s s1 s2 time dt p w obs
      have hw : ∃ g, w.increment = some g ∧
          (∀ (r : Fin R) (q : Fin (R + 2)), q.val = r.val + 1 → ∀ c, g (q, c) = rate c * dt) ∧
          (∀ q : Fin (R + 2), q.val = 0 ∨ q.val = R + 1 → ∀ c, g (q, c) = 0) := by
        rw [runComponents_append] at hc
        cases h1 : runComponents pre dt (s.comps, clearDeposit s.world) with
        | error e => rw [h1] at hc; cases hc
        | ok y =>
          obtain ⟨p1, w1⟩ := y
          rw [h1] at hc
          have e1 : w1.increment = some fun _ => 0 := by
            rw [← hs]
            exact runComponents_keeps (w := clearDeposit s.world) World.increment pre
              (fun c hc => (hpre c hc).1) h1
          obtain ⟨g, g1, g2, g3⟩ := subsidence_total rate [dt] w1 _ e1
          have g1' : subsidenceStep rate dt w1 = .ok { w1 with increment := some g } := by
            rw [subsidenceRun] at g1
            cases hx : subsidenceStep rate dt w1 with
            | error e => rw [hx] at g1; cases g1
            | ok w2 => rw [hx] at g1; exact g1
          dsimp only at hc
          rw [runComponents] at hc
          simp only [subsidenceComponent, g1'] at hc
          have e2 := runComponents_keeps World.increment post (fun c hc => (hpost c hc).1) hc
          refine ⟨g, e2, ?_, ?_⟩
          · intro r q hq c
            rw [g2 r q hq c]; simp
          · intro q hq c
            rw [g3 q hq c]
      obtain ⟨g, e, g2, g3⟩ := hw
      have hs1 : s1.world.increment = some fun _ => 0 := by
        obtain ⟨p', w', ev, w3, a, h1, h2, h3, h4, rfl⟩ := advanceComponents_ok ha
        rw [hc] at h1
        cases h1
        have := (updateFields_ok h3).2.2.2.2.2.2.1
        show w3.increment = _
        rw [this]
        show w.increment.map _ = _
        rw [e]
        rfl
      obtain ⟨i1, i2⟩ := ih hs1
      constructor
      · intro r q hq c
        have := i1 r q hq c
        unfold totalIncrement at this ⊢
        rw [List.map_cons, List.sum_cons, this]
        simp only [e, List.map_cons, List.sum_cons]
        rw [g2 r q hq c]
        ring
      · intro q hq c
        have := i2 q hq c
        unfold totalIncrement at this ⊢
        rw [List.map_cons, List.sum_cons, this]
        simp only [e]
        rw [g3 q hq c, add_zero]
  exact ⟨fun r q hq c => by rw [hb, key.1 r q hq c], fun q hq c => by rw [hb, key.2 q hq c, add_zero]⟩

/-- C63, C64 on a concrete model: sea level and subsidence together. -/
example : ((match modelInit 0 (fun t _ => t) (0 : ℚ) exWorld with
    | .ok s => advanceComponents [subsidenceComponent fun c => -(c.val : ℚ) / 100,
        seaComponent (interpTable exTable) id fun t _ => t] (fun _ => 1/2) 10 10 s
    | .error e => .error e : Except Err (ModelState ℚ 1 3 ℚ))).toOption.map (fun s : ModelState ℚ 1 3 ℚ =>
      (s.comps, s.world.seaLevel, s.world.seaIncr, s.world.bedrock (1, 1), s.world.bedrock (0, 1))) =
    some (10, -5, some (-5), -1051/10, -105) := by decide +kernel

end Verif.Props
