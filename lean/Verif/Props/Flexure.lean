import Mathlib.Analysis.SpecialFunctions.Log.Basic
import Mathlib.Tactic.FieldSimp
import Mathlib.Tactic.Ring
import Mathlib.Tactic.Linarith
import Verif.Lemmas.Prelude
import Verif.Lemmas.Grid
import Verif.Model.Flexure

/-!
# Properties of flexure (C36–C40, C58)
-/

set_option autoImplicit false
set_option linter.unusedSectionVars false

namespace Verif.Props

open Verif

variable {K σ : Type*} {R C : ℕ} [Field K] [LinearOrder K] [IsStrictOrderedRing K]

/-! ### C36 -/

/-- Successive calls of `calc_dynamic_deflection`: the deflections returned and the final pool. -/
def poolRun (expf : K → K) (p : FlexPool R C K) :
    List (Profile R C K × K) → List (Profile R C K) × FlexPool R C K
  | [] => ([], p)
  | (iso, dt) :: rest =>
    let d := dynamicDeflection expf p iso dt
    let r := poolRun expf d.2 rest
    (d.1 :: r.1, r.2)

/-- C36: over any history the deflections applied and the deflection still pending add up to the
deflection pending at first plus all isostatic deflections supplied. -/
theorem deflection_conserved (expf : K → K) (p : FlexPool R C K)
    (hist : List (Profile R C K × K)) (r : Fin R) (c : Fin C) :
    ((poolRun expf p hist).1.map fun d => d r c).sum + (poolRun expf p hist).2.pool r c =
      p.pool r c + (hist.map fun h => h.1 r c).sum := by
  induction hist generalizing p with
  | nil => simp [poolRun]
  | cons h rest ih =>
    obtain ⟨iso, dt⟩ := h
    rw [poolRun]
    simp only [List.map_cons, List.sum_cons]
    have := ih (dynamicDeflection expf p iso dt).2
    simp only [dynamicDeflection] at this ⊢
    linarith

/-- C36: a pending deflection is never overshot: with nonnegative deflections supplied and time
steps, each deflection applied is nonnegative and no more than what is pending. -/
theorem deflection_bounded (p : FlexPool R C ℝ) (hR : 0 < R) (htau : ∀ t, p.isoTime = some t → 0 < t)
    (hist : List (Profile R C ℝ × ℝ)) (r : Fin R) (c : Fin C) (hp : 0 ≤ p.pool r c)
    (hiso : ∀ h ∈ hist, 0 ≤ h.1 r c ∧ 0 ≤ h.2) :
    (∀ d ∈ (poolRun Real.exp p hist).1, 0 ≤ d r c) ∧ 0 ≤ (poolRun Real.exp p hist).2.pool r c := by
  induction hist generalizing p with
  | nil => exact ⟨fun d hd => absurd hd (by simp [poolRun]), hp⟩
  | cons h rest ih =>
    obtain ⟨iso, dt⟩ := h
    obtain ⟨h1, h2⟩ := hiso (iso, dt) (by simp)
    dsimp only at h1 h2
    have hR' : (1 : ℝ) ≤ R := by exact_mod_cast hR
    have hfr : 0 ≤ isostasyFraction Real.exp p.isoTime dt ∧
        isostasyFraction Real.exp p.isoTime dt ≤ 1 := by
      unfold isostasyFraction
      cases ht : p.isoTime with
      | none => simp
      | some t =>
        have htp := htau t ht
        have : Real.exp (-dt / t) ≤ 1 :=
          Real.exp_le_one_iff.mpr (div_nonpos_of_nonpos_of_nonneg (by linarith) htp.le)
        have := Real.exp_pos (-dt / t)
        constructor <;> dsimp only <;> linarith
    have hf0 : 0 ≤ isostasyFraction Real.exp p.isoTime dt / (R : ℝ) := div_nonneg hfr.1 (by linarith)
    have hf1 : isostasyFraction Real.exp p.isoTime dt / (R : ℝ) ≤ 1 := by
      rw [div_le_one (by linarith)]
      linarith [hfr.2]
    have hpos : 0 ≤ p.pool r c + iso r c := by linarith
    have hd : 0 ≤ (dynamicDeflection Real.exp p iso dt).1 r c := mul_nonneg hpos hf0
    have hp' : 0 ≤ (dynamicDeflection Real.exp p iso dt).2.pool r c := by
      simp only [dynamicDeflection]
      nlinarith
    obtain ⟨i1, i2⟩ := ih (dynamicDeflection Real.exp p iso dt).2 htau hp'
      (fun h hh => hiso h (by simp [hh]))
    rw [poolRun]
    refine ⟨?_, i2⟩
    intro d hd'
    rcases List.mem_cons.mp hd' with rfl | hd'
    · exact hd
    · exact i1 d hd'

/-! ### C37 -/

/-- C37, partial (one active row): without new load, what is left pending after any time steps
depends only on their sum. -/
theorem response_split_partial (p : FlexPool 1 C ℝ) (t : ℝ) (ht : p.isoTime = some t) (dts : List ℝ)
    (c : Fin C) :
    let run := poolRun Real.exp p (dts.map fun dt => (fun _ _ => 0, dt))
    run.2.pool 0 c = p.pool 0 c * Real.exp (-dts.sum / t) ∧
    (run.1.map fun d => d 0 c).sum = p.pool 0 c * (1 - Real.exp (-dts.sum / t)) := by
  intro run
  have h1 : run.2.pool 0 c = p.pool 0 c * Real.exp (-dts.sum / t) := by
    show (poolRun Real.exp p (dts.map fun dt => (fun _ _ => 0, dt))).2.pool 0 c = _
    clear run
    induction dts generalizing p with
    | nil => simp [poolRun]
    | cons dt rest ih =>
      rw [List.map_cons, poolRun]
      dsimp only
      have hih := ih (dynamicDeflection Real.exp p (fun _ _ => 0) dt).2 ht
      refine hih.trans ?_
      simp only [dynamicDeflection, isostasyFraction, ht, List.sum_cons, Nat.cast_one, div_one,
        add_zero]
      rw [show -(dt + rest.sum) / t = -dt / t + -rest.sum / t by ring, Real.exp_add]
      ring
  refine ⟨h1, ?_⟩
  have h2 := deflection_conserved Real.exp p (dts.map fun dt => (fun _ _ => (0 : ℝ), dt)) 0 c
  have h3 : ((dts.map fun dt => ((fun _ _ => (0 : ℝ), dt) : Profile 1 C ℝ × ℝ)).map
      fun h => h.1 0 c).sum = 0 := by
    rw [List.map_map]
    exact List.sum_eq_zero (by simp)
  rw [h3] at h2
  have h4 : (run.1.map fun d => d 0 c).sum = p.pool 0 c - run.2.pool 0 c := by
    show (((poolRun Real.exp p (dts.map fun dt => (fun _ _ => (0 : ℝ), dt))).1).map
      fun d => d 0 c).sum = _ - (poolRun Real.exp p (dts.map fun dt => (fun _ _ => (0 : ℝ), dt))).2.pool 0 c
    linarith
  rw [h4, h1]
  ring

/-- C37, partial (one active row): with `isostasytime=None` the full deflection is applied at
once. -/
theorem immediate_partial (expf : K → K) (p : FlexPool 1 C K) (h : p.isoTime = none)
    (iso : Profile 1 C K) (dt : K) (c : Fin C) :
    (dynamicDeflection expf p iso dt).1 0 c = p.pool 0 c + iso 0 c ∧
    (dynamicDeflection expf p iso dt).2.pool 0 c = 0 := by
  simp [dynamicDeflection, isostasyFraction, h]

/-- C37 is false for more than one row: the fraction is divided by the number of rows, so with
`isostasytime=None` only one part in `R` of the deflection is applied. -/
theorem immediate_many_rows (expf : K → K) (p : FlexPool R C K) (h : p.isoTime = none)
    (iso : Profile R C K) (dt : K) (r : Fin R) (c : Fin C) :
    (dynamicDeflection expf p iso dt).1 r c = (p.pool r c + iso r c) / R := by
  simp only [dynamicDeflection, isostasyFraction, h]
  ring

/-- C37 is false for more than one row: the response over `dt1 + dt2` is never the response over
`dt1` followed by `dt2`. -/
theorem response_split_many_rows (p : FlexPool R C ℝ) (hR : 2 ≤ R) (t : ℝ) (ht : 0 < t)
    (hpt : p.isoTime = some t) (d1 d2 : ℝ) (h1 : 0 < d1) (h2 : 0 < d2) (r : Fin R) (c : Fin C)
    (hpool : p.pool r c ≠ 0) :
    (poolRun Real.exp p [(fun _ _ => 0, d1), (fun _ _ => 0, d2)]).2.pool r c ≠
      (poolRun Real.exp p [(fun _ _ => 0, d1 + d2)]).2.pool r c := by
  have hR0 : (2 : ℝ) ≤ R := by exact_mod_cast hR
  have hRne : (R : ℝ) ≠ 0 := by linarith
  have e1 : Real.exp (-d1 / t) < 1 :=
    Real.exp_lt_one_iff.mpr (div_neg_of_neg_of_pos (by linarith) ht)
  have e2 : Real.exp (-d2 / t) < 1 :=
    Real.exp_lt_one_iff.mpr (div_neg_of_neg_of_pos (by linarith) ht)
  simp only [poolRun, dynamicDeflection, isostasyFraction, hpt, add_zero]
  rw [show -(d1 + d2) / t = -d1 / t + -d2 / t by ring, Real.exp_add]
  generalize Real.exp (-d1 / t) = a at *
  generalize Real.exp (-d2 / t) = b at *
  intro h
  have h' : p.pool r c * ((1 - (1 - a) / R) * (1 - (1 - b) / R) - (1 - (1 - a * b) / R)) = 0 := by
    linarith
  rcases mul_eq_zero.mp h' with h' | h'
  · exact hpool h'
  · have : (1 - a) * (1 - b) * (1 - (R : ℝ)) = 0 := by
      field_simp at h'
      linarith
    rcases mul_eq_zero.mp this with h'' | h''
    · rcases mul_eq_zero.mp h'' with h3 | h3 <;> linarith
    · linarith

/-- C37: the isostasy time is refused only if it is below `-1e-8`, and a time within `1e-8` of 0 is
treated like `None`. -/
theorem isostasy_time_valid (t : Option K) :
    (isostasyTime t = .error .valueError ↔ ∃ v, t = some v ∧ v < -(1 / 10 ^ 8)) ∧
    (isostasyTime t = .ok none ↔ ∀ v, t = some v → |v| ≤ 1 / 10 ^ 8) ∧
    (∀ v, isostasyTime t = .ok (some v) ↔ t = some v ∧ 1 / 10 ^ 8 < v) := by
  have htol : (0 : K) < 1 / 10 ^ 8 := by positivity
  unfold isostasyTime
  cases t with
  | none => simp
  | some u =>
    dsimp only
    split_ifs with h1 h2
    · refine ⟨⟨fun h => (by cases h), ?_⟩, ⟨fun _ v hv => (by cases hv; exact h1), fun _ => rfl⟩,
        fun v => ⟨fun h => (by cases h), ?_⟩⟩
      · rintro ⟨v, hv, hlt⟩
        cases hv
        have := (abs_le.mp h1).1
        linarith
      · rintro ⟨hv, hlt⟩
        cases hv
        have := (abs_le.mp h1).2
        linarith
    · rw [abs_of_neg h2, not_le] at h1
      refine ⟨⟨fun _ => ⟨u, rfl, by linarith⟩, fun _ => rfl⟩, ⟨fun h => (by cases h), ?_⟩,
        fun v => ⟨fun h => (by cases h), ?_⟩⟩
      · intro h
        have := h u rfl
        rw [abs_of_neg h2] at this
        linarith
      · rintro ⟨hv, hlt⟩
        cases hv
        linarith
    · rw [abs_of_nonneg (not_lt.mp h2), not_le] at h1
      refine ⟨⟨fun h => (by cases h), ?_⟩, ⟨fun h => (by cases h), ?_⟩, fun v => ⟨fun h => ?_, ?_⟩⟩
      · rintro ⟨v, hv, hlt⟩
        cases hv
        linarith
      · intro h
        have := h u rfl
        rw [abs_of_nonneg (not_lt.mp h2)] at this
        linarith
      · cases h
        exact ⟨rfl, h1⟩
      · rintro ⟨hv, -⟩
        cases hv
        rfl

/-! ### C38 -/

/-- C38: the load is the dry bulk density times the change of what is above sea level plus the wet
bulk density times the change of what is below. -/
theorem loading_parts (dz z porosity density water : K) :
    calcLoading dz z porosity density water =
      (1 - porosity) * density * (max (z + dz) 0 - max z 0) +
      ((1 - porosity) * density + porosity * water) * (min (z + dz) 0 - min z 0) := by
  unfold calcLoading calcBulkDensity
  dsimp only
  rcases le_total 0 z with hz | hz <;> rcases le_total 0 (z + dz) with hn | hn
  · -- dry
    rw [if_neg (fun h => h.1 ⟨hz, hn⟩)]
    rw [max_eq_left hn, max_eq_left hz, min_eq_right hn, min_eq_right hz]
    split_ifs with hw
    · have : dz = 0 := by have := hw.1; have := hw.2; linarith
      subst this
      ring
    · ring
  · -- erosion across sea level
    rw [max_eq_right hn, max_eq_left hz, min_eq_left hn, min_eq_right hz]
    by_cases hz0 : z = 0
    · subst hz0
      rw [if_neg (by push Not; intro _; exact ⟨le_rfl, by simpa using hn⟩),
        if_pos ⟨le_rfl, by simpa using hn⟩]
      ring
    · have hzp : 0 < z := lt_of_le_of_ne hz (Ne.symm hz0)
      have hdz : dz < 0 := by linarith
      by_cases hn0 : z + dz = 0
      · rw [if_neg (by push Not; intro h; exact absurd (h hz) (not_lt.mpr hn0.ge)),
          if_neg (by rintro ⟨h, -⟩; linarith), hn0]
        have : dz = -z := by linarith
        rw [this]
        ring
      · have hnn : z + dz < 0 := lt_of_le_of_ne hn hn0
        rw [if_pos ⟨by rintro ⟨-, h⟩; linarith, by rintro ⟨h, -⟩; linarith⟩]
        rw [max_eq_right (by linarith : z + dz ≤ z), abs_div, abs_of_pos hzp, abs_of_neg hdz]
        have : -dz ≠ 0 := by linarith
        have : dz ≠ 0 := hdz.ne
        field_simp
        ring
  · -- deposition across sea level
    rw [max_eq_left hn, max_eq_right hz, min_eq_right hn, min_eq_left hz]
    by_cases hz0 : z = 0
    · subst hz0
      rw [if_neg (by push Not; intro h; exact absurd (h le_rfl) (not_lt.mpr hn))]
      split_ifs with hw
      · have : dz = 0 := by have := hw.2; linarith
        subst this
        ring
      · ring
    · have hzn : z < 0 := lt_of_le_of_ne hz hz0
      have hdz : 0 < dz := by linarith
      by_cases hn0 : z + dz = 0
      · rw [if_neg (by push Not; intro _; exact ⟨hz, hn0.le⟩), if_pos ⟨hz, hn0.le⟩, hn0]
        have : dz = -z := by linarith
        rw [this]
        ring
      · have hnp : 0 < z + dz := lt_of_le_of_ne hn (Ne.symm hn0)
        rw [if_pos ⟨by rintro ⟨h, -⟩; linarith, by rintro ⟨-, h⟩; linarith⟩]
        rw [max_eq_left (by linarith : z ≤ z + dz), abs_div, abs_of_pos hnp, abs_of_pos hdz]
        have : dz ≠ 0 := hdz.ne'
        field_simp
        ring
  · -- wet
    rw [if_neg (by push Not; intro _; exact ⟨hz, hn⟩), if_pos ⟨hz, hn⟩]
    rw [max_eq_right hn, max_eq_right hz, min_eq_left hn, min_eq_left hz]
    ring

/-- C38: depositing `a` and then `b` loads like depositing `a + b`. -/
theorem loading_additive (a b z porosity density water : K) :
    calcLoading a z porosity density water + calcLoading b (z + a) porosity density water =
      calcLoading (a + b) z porosity density water := by
  rw [loading_parts a, loading_parts b, loading_parts (a + b), ← add_assoc]
  ring_nf

/-- C38: eroding what was deposited takes its load away. -/
theorem loading_reverses (a z porosity density water : K) :
    calcLoading (-a) (z + a) porosity density water = -calcLoading a z porosity density water := by
  have := loading_additive a (-a) z porosity density water
  rw [add_neg_cancel] at this
  have h0 : calcLoading 0 z porosity density water = 0 := by
    rw [loading_parts]; simp
  linarith

/-- C38: a deposit loads at least as much as if it were all dry, and at most as if all wet. -/
theorem loading_bounds (dz z porosity density water : K) (hdz : 0 ≤ dz) (hp : 0 ≤ porosity)
    (hw : 0 ≤ water) :
    (1 - porosity) * density * dz ≤ calcLoading dz z porosity density water ∧
    calcLoading dz z porosity density water ≤
      ((1 - porosity) * density + porosity * water) * dz := by
  rw [loading_parts]
  have hsum : (max (z + dz) 0 - max z 0) + (min (z + dz) 0 - min z 0) = dz := by
    have h1 := max_add_min (z + dz) 0
    have h2 := max_add_min z 0
    linarith
  have hmax : 0 ≤ max (z + dz) 0 - max z 0 := by
    have : max z 0 ≤ max (z + dz) 0 := max_le_max (by linarith) le_rfl
    linarith
  have hmin : 0 ≤ min (z + dz) 0 - min z 0 := by
    have : min z 0 ≤ min (z + dz) 0 := min_le_min (by linarith) le_rfl
    linarith
  have hpw : 0 ≤ porosity * water := mul_nonneg hp hw
  generalize max (z + dz) 0 - max z 0 = u at *
  generalize min (z + dz) 0 - min z 0 = v at *
  have h1 : 0 ≤ porosity * water * v := mul_nonneg hpw hmin
  have h2 : 0 ≤ porosity * water * u := mul_nonneg hpw hmax
  constructor
  · rw [← hsum]; linarith
  · rw [← hsum]; linarith

/-! ### C39 -/

/-- A history of steps of `SedimentFlexure`: before each step the total load on the grid is
anything. Each observation is the total load the step sees and the state after it. -/
inductive SedHistory (expf : K → K) (flex : (Fin C → K) → Fin C → K) (gravity dx : K) :
    FlexState R C K → World R C K → List (NodeField R C K × FlexState R C K) →
    FlexState R C K → World R C K → Prop
  | nil (s w) : SedHistory expf flex gravity dx s w [] s w
  | step {s s' s'' : FlexState R C K} {w w' w'' : World R C K} {dt : K} {total : NodeField R C K}
      {obs : List (NodeField R C K × FlexState R C K)}
      (h : sedFlexStep expf flex gravity dx dt s { w with sedLoad := some total } = .ok (s', w'))
      (hr : SedHistory expf flex gravity dx s' w' obs s'' w'') :
      SedHistory expf flex gravity dx s w ((total, s') :: obs) s'' w''

/-- What a successful step of `SedimentFlexure` does. -/
theorem sedFlexStep_ok {expf : K → K} {flex : (Fin C → K) → Fin C → K} {gravity dx dt : K}
    {s s' : FlexState R C K} {w w' : World R C K}
    (h : sedFlexStep expf flex gravity dx dt s w = .ok (s', w')) :
    ∃ total f g, w.sedLoad = some total ∧ w.increment = some f ∧ w'.increment = some g ∧
      w' = { w with increment := some g } ∧ s'.lastLoad = getProfile total ∧
      s'.water = s.water ∧ s'.sed.isoTime = s.sed.isoTime ∧
      (∀ r c, getProfile s'.pressure r c = (getProfile total r c - s.lastLoad r c) * gravity * dx) ∧
      (∀ r c, getProfile g r c - s'.sed.pool r c = getProfile f r c - s.sed.pool r c -
        flex (getProfile s'.pressure r) c) ∧
      (∀ n : Node R C, n.1.val = 0 ∨ n.1.val = R + 1 → g n = f n) ∧
      (∀ r c, s'.sed.pool r c = (s.sed.pool r c + flex (getProfile s'.pressure r) c) *
        (1 - isostasyFraction expf s.sed.isoTime dt / R)) := by
  unfold sedFlexStep subtractDeflection at h
  cases ht : w.sedLoad with
  | none => rw [ht] at h; cases h
  | some total =>
    rw [ht] at h
    dsimp only at h
    cases hi : w.increment with
    | none => rw [hi] at h; cases h
    | some f =>
      rw [hi] at h
      cases h
      refine ⟨total, f, _, rfl, rfl, rfl, rfl, rfl, rfl, rfl, ?_, ?_, ?_, ?_⟩
      · intro r c
        simp only [getProfile_setProfile]
      · intro r c
        simp only [getProfile_setProfile, dynamicDeflection]
        ring
      · intro n hn
        exact setProfile_other _ _ n hn
      · intro r c
        simp only [getProfile_setProfile, dynamicDeflection]
        ring

/-- C39: over any history of total loads, the pressures given to the flexure solver add up to that
of the final total minus the load the component started from. -/
theorem loads_counted_once (expf : K → K) (flex : (Fin C → K) → Fin C → K) (gravity dx : K)
    (s s' : FlexState R C K) (w w' : World R C K) (obs : List (NodeField R C K × FlexState R C K))
    (h : SedHistory expf flex gravity dx s w obs s' w') (r : Fin R) (c : Fin C) :
    (obs.map fun o => getProfile o.2.pressure r c).sum =
      (((obs.map fun o => getProfile o.1 r c).getLast?.getD (s.lastLoad r c)) - s.lastLoad r c) *
        gravity * dx := by
  have key : (obs.map fun o => getProfile o.2.pressure r c).sum =
      (s'.lastLoad r c - s.lastLoad r c) * gravity * dx ∧
      s'.lastLoad r c = (obs.map fun o => getProfile o.1 r c).getLast?.getD (s.lastLoad r c) := by
    induction h with
    | nil s w => simp
    | step h hr ih =>
      rename_i s s1 s2 w w1 w2 dt total obs
      obtain ⟨tot, f, g, h1, -, -, -, h5, -, -, h8, -⟩ := sedFlexStep_ok h
      cases h1
      obtain ⟨i1, i2⟩ := ih
      constructor
      · rw [List.map_cons, List.sum_cons, i1, h8, h5]
        ring
      · rw [i2, List.map_cons, List.getLast?_cons, Option.getD_some, h5]
  rw [key.1, key.2]

/-- C39: with a linear solver, the bedrock increments written, less what is still pending, are the
deflection of the total load added; each load bends the lithosphere exactly once. -/
theorem flexure_of_total_load (expf : K → K) (flex : (Fin C → K) → Fin C → K)
    (hadd : ∀ a b, flex (fun c => a c + b c) = fun c => flex a c + flex b c)
    (gravity dx : K) (s s' : FlexState R C K) (w w' : World R C K)
    (obs : List (NodeField R C K × FlexState R C K))
    (h : SedHistory expf flex gravity dx s w obs s' w') (f : NodeField R C K)
    (hf : w.increment = some f) :
    ∃ g, w'.increment = some g ∧ ∀ r c,
      getProfile g r c - s'.sed.pool r c = getProfile f r c - s.sed.pool r c -
        flex (fun c => (s'.lastLoad r c - s.lastLoad r c) * gravity * dx) c := by
  induction h generalizing f with
  | nil s w =>
    refine ⟨f, hf, fun r c => ?_⟩
    have h0 : flex (fun _ => 0) = fun _ => 0 := by
      have := hadd (fun _ => 0) (fun _ => 0)
      simp only [add_zero] at this
      funext c
      have := congrFun this c
      linarith
    simp [h0]
  | step h hr ih =>
    rename_i s s1 s2 w w1 w2 dt total obs
    obtain ⟨tot, f0, g0, h1, h2, h3, -, h5, -, -, h8, h9, -⟩ := sedFlexStep_ok h
    cases h1
    rw [show ({ w with sedLoad := some total } : World R C K).increment = w.increment from rfl, hf,
      Option.some.injEq] at h2
    subst h2
    obtain ⟨g, i1, i2⟩ := ih g0 h3
    refine ⟨g, i1, fun r c => ?_⟩
    rw [i2, h9]
    have hp : getProfile s1.pressure r = fun c => (getProfile total r c - s.lastLoad r c) * gravity * dx :=
      funext fun c => h8 r c
    have hl : s1.lastLoad r = getProfile total r := congrFun h5 r
    have := congrFun (hadd (fun c => (s1.lastLoad r c - s.lastLoad r c) * gravity * dx)
      (fun c => (s2.lastLoad r c - s1.lastLoad r c) * gravity * dx)) c
    rw [hp, ← hl, sub_sub, ← this]
    congr 2
    funext c
    ring

/-- C39: with immediate isostasy and one row nothing is pending, so the increments are the
deflection of the total load. -/
theorem flexure_of_total_load_immediate (expf : K → K) (flex : (Fin C → K) → Fin C → K)
    (hadd : ∀ a b, flex (fun c => a c + b c) = fun c => flex a c + flex b c)
    (gravity dx : K) (s s' : FlexState 1 C K) (hiso : s.sed.isoTime = none)
    (hpool : s.sed.pool = fun _ _ => 0) (w w' : World 1 C K)
    (obs : List (NodeField 1 C K × FlexState 1 C K))
    (h : SedHistory expf flex gravity dx s w obs s' w') (f : NodeField 1 C K)
    (hf : w.increment = some f) :
    ∃ g, w'.increment = some g ∧ ∀ c, getProfile g 0 c = getProfile f 0 c -
        flex (fun c => (s'.lastLoad 0 c - s.lastLoad 0 c) * gravity * dx) c := by
  obtain ⟨g, g1, g2⟩ := flexure_of_total_load expf flex hadd gravity dx s s' w w' obs h f hf
  have hzero : ∀ c, s'.sed.pool 0 c = 0 := by
    clear g1 g2 hf
    induction h with
    | nil s w => intro c; rw [hpool]
    | step h hr ih =>
      rename_i s s1 s2 w w1 w2 dt total obs
      obtain ⟨tot, f0, g0, -, -, -, -, -, -, h7, -, -, -, h11⟩ := sedFlexStep_ok h
      refine ih (h7.trans hiso) ?_
      funext r c
      rw [h11, hiso]
      simp [isostasyFraction]
  refine ⟨g, g1, fun c => ?_⟩
  have := g2 0 c
  rw [hzero, hpool, sub_zero, sub_zero] at this
  exact this

/-! ### C40 -/

/-- Calls of the density setters. -/
def setDensities (calls : List (DensityName × K)) (d : Densities K) : Densities K :=
  calls.foldl (fun d call => (setDensity call.1 call.2 d).1) d

/-- What a user expects of the densities: all positive, the bulk densities those of the present
grain and water densities at porosities 40% and 65%. -/
def DensitiesOk (d : Densities K) : Prop :=
  0 < d.water ∧ 0 < d.sand ∧ 0 < d.mud ∧
  d.rhoSand = 3/5 * d.sand + 2/5 * d.water ∧ d.rhoMud = 7/20 * d.mud + 13/20 * d.water

/-- C40: construction and setters refuse exactly the densities that are not positive, with
`ValueError`; a refused call changes nothing. -/
theorem densities_validated (sand mud water : K) (name : DensityName) (v : K) (d : Densities K) :
    ((∃ d0, densitiesInit sand mud water = .ok d0) ↔ 0 < sand ∧ 0 < mud ∧ 0 < water) ∧
    (∀ e, densitiesInit sand mud water = .error e → e = .valueError) ∧
    ((setDensity name v d).2 = if 0 < v then none else some .valueError) ∧
    (¬ 0 < v → (setDensity name v d).1 = d) := by
  refine ⟨?_, ?_, ?_, ?_⟩
  · unfold densitiesInit validateDensity
    by_cases hw : water ≤ 0
    · simp [hw]
    · by_cases hs : sand ≤ 0
      · simp [hw, hs]
      · by_cases hm : mud ≤ 0
        · simp [hw, hs, hm]
        · simp [hw, hs, hm, not_le.mp hw, not_le.mp hs, not_le.mp hm]
  · intro e
    unfold densitiesInit validateDensity
    by_cases hw : water ≤ 0
    · simp only [hw, if_true]
      intro h; cases h; rfl
    · by_cases hs : sand ≤ 0
      · simp only [hw, hs, if_true, if_false]
        intro h; cases h; rfl
      · by_cases hm : mud ≤ 0
        · simp only [hw, hs, hm, if_true, if_false]
          intro h; cases h; rfl
        · simp only [hw, hs, hm, if_false]
          intro h; cases h
  · unfold setDensity validateDensity
    by_cases hv : v ≤ 0
    · simp [hv]
    · simp only [hv, if_false]
      cases name <;> simp [not_le.mp hv]
  · intro hv
    unfold setDensity validateDensity
    simp [not_lt.mp hv]

/-- C40: after construction and any setter calls, refused or not, the densities are consistent,
and the bulk densities lie between the water and the grain density. -/
theorem densities_consistent (sand mud water : K) (d : Densities K)
    (h : densitiesInit sand mud water = .ok d) (calls : List (DensityName × K)) :
    DensitiesOk (setDensities calls d) ∧
    (∀ d', d' = setDensities calls d →
      (d'.water ≤ d'.sand → d'.water ≤ d'.rhoSand ∧ d'.rhoSand ≤ d'.sand) ∧
      (d'.water ≤ d'.mud → d'.water ≤ d'.rhoMud ∧ d'.rhoMud ≤ d'.mud)) := by
  have hpos := (densities_validated sand mud water .sand 0 d).1.mp ⟨d, h⟩
  have h0 : DensitiesOk d := by
    obtain ⟨h1, h2, h3⟩ := hpos
    unfold densitiesInit validateDensity at h
    simp only [not_le.mpr h1, not_le.mpr h2, not_le.mpr h3, if_false] at h
    cases h
    refine ⟨h3, h1, h2, ?_, ?_⟩ <;> simp only [calcBulkDensity] <;> ring
  have hset : ∀ (d : Densities K) name v, DensitiesOk d → DensitiesOk (setDensity name v d).1 := by
    intro d name v ⟨h1, h2, h3, h4, h5⟩
    unfold setDensity validateDensity
    by_cases hv : v ≤ 0
    · simp only [hv, if_true]
      exact ⟨h1, h2, h3, h4, h5⟩
    · simp only [hv, if_false]
      have hv' := not_le.mp hv
      cases name
      · refine ⟨h1, hv', h3, ?_, h5⟩
        simp only [calcBulkDensity]; ring
      · refine ⟨h1, h2, hv', h4, ?_⟩
        simp only [calcBulkDensity]; ring
      · refine ⟨hv', h2, h3, ?_, ?_⟩ <;> simp only [calcBulkDensity] <;> ring
  have hall : DensitiesOk (setDensities calls d) := by
    clear h hpos
    unfold setDensities
    induction calls generalizing d with
    | nil => exact h0
    | cons call rest ih => exact ih _ (hset d call.1 call.2 h0)
  refine ⟨hall, ?_⟩
  rintro d' rfl
  obtain ⟨-, -, -, h4, h5⟩ := hall
  refine ⟨fun hle => ?_, fun hle => ?_⟩
  · rw [h4]; constructor <;> linarith
  · rw [h5]; constructor <;> linarith

/-! ### C58 -/

/-- C58: the water load is the density times the depth below sea level, and 0 on land. -/
theorem water_loading_value (z water : K) :
    (z ≤ 0 → calcWaterLoading z water = water * -z) ∧ (0 ≤ z → calcWaterLoading z water = 0) := by
  unfold calcWaterLoading clip0
  refine ⟨fun h => ?_, fun h => ?_⟩
  · rw [max_eq_left (by linarith)]
  · rw [max_eq_right (by linarith), mul_zero]

/-- C58: the far-field deflection is proportional to the load; so it is additive over changes, and
a fall of sea level undoes an equal rise. -/
theorem half_plane_linear (expf cosf : K → K) (alpha gamma xEnd : K) (x : Fin C → K) (a b k : K)
    (c : Fin C) :
    halfPlaneDeflection expf cosf alpha gamma xEnd x (a + b) c =
      halfPlaneDeflection expf cosf alpha gamma xEnd x a c +
      halfPlaneDeflection expf cosf alpha gamma xEnd x b c ∧
    halfPlaneDeflection expf cosf alpha gamma xEnd x (k * a) c =
      k * halfPlaneDeflection expf cosf alpha gamma xEnd x a c ∧
    halfPlaneDeflection expf cosf alpha gamma xEnd x (-a) c =
      -halfPlaneDeflection expf cosf alpha gamma xEnd x a c := by
  unfold halfPlaneDeflection
  refine ⟨?_, ?_, ?_⟩ <;> ring

/-- C58: with a linear solver the deflection due to water is additive in the changes of depth and
of sea level. -/
theorem water_flexure_additive (expf cosf : K → K) (flex : (Fin C → K) → Fin C → K)
    (hadd : ∀ a b, flex (fun c => a c + b c) = fun c => flex a c + flex b c)
    (rho gravity dx alpha gamma xEnd : K) (x : Fin C → K) (d1 d2 : Profile R C K) (s1 s2 : K)
    (r : Fin R) (c : Fin C) :
    flexureDueToWater expf cosf flex rho gravity dx alpha gamma xEnd x
      (fun r c => d1 r c + d2 r c) (s1 + s2) r c =
    flexureDueToWater expf cosf flex rho gravity dx alpha gamma xEnd x d1 s1 r c +
    flexureDueToWater expf cosf flex rho gravity dx alpha gamma xEnd x d2 s2 r c := by
  unfold flexureDueToWater
  have h1 : (fun c => (d1 r c + d2 r c) * rho * gravity * dx) =
      fun c => d1 r c * rho * gravity * dx + d2 r c * rho * gravity * dx := by
    funext c; ring
  have h2 : (s1 + s2) * rho * gravity = s1 * rho * gravity + s2 * rho * gravity := by ring
  rw [h1, hadd, h2, (half_plane_linear expf cosf alpha gamma xEnd x _ _ 0 c).1]
  ring

/-- C58: in real arithmetic the far-field deflection is largest at the seaward edge, where it is
half the deflection of a uniform load. -/
theorem half_plane_edge (alpha gamma xEnd : ℝ) (x : Fin C → ℝ) (hx : ∀ c, x c ≤ xEnd)
    (ha : 0 < alpha) (load : ℝ) (c : Fin C) :
    (x c = xEnd → halfPlaneDeflection Real.exp Real.cos alpha gamma xEnd x load c =
      load / (2 * gamma)) ∧
    |halfPlaneDeflection Real.exp Real.cos alpha gamma xEnd x load c| ≤ |load / (2 * gamma)| := by
  unfold halfPlaneDeflection
  dsimp only
  constructor
  · intro h
    rw [h, sub_self, zero_div, neg_zero, Real.exp_zero, Real.cos_zero, mul_one, mul_one]
  · have hr : 0 ≤ (xEnd - x c) / alpha := div_nonneg (by linarith [hx c]) ha.le
    rw [abs_mul, abs_mul]
    have h1 : |Real.exp (-((xEnd - x c) / alpha))| ≤ 1 := by
      rw [abs_of_pos (Real.exp_pos _)]
      exact Real.exp_le_one_iff.mpr (by linarith)
    have h2 := Real.abs_cos_le_one ((xEnd - x c) / alpha)
    calc _ ≤ |load / (2 * gamma)| * 1 * 1 := by
          refine mul_le_mul (mul_le_mul_of_nonneg_left h1 (abs_nonneg _)) h2 (abs_nonneg _) ?_
          exact mul_nonneg (abs_nonneg _) zero_le_one
      _ = _ := by ring

/-! ### Examples -/

/-- Across sea level: 1 m below and 3 m above. -/
example : calcLoading 4 (-1) (1/2) 2000 (1000 : ℚ) = 3 * 1000 + 1 * 1500 := by decide +kernel

example : (poolRun (fun _ => (1/2 : ℚ)) (⟨some 1, fun _ _ => 8⟩ : FlexPool 1 1 ℚ)
    [(fun _ _ => 0, 1), (fun _ _ => 2, 1)]).2.pool 0 0 = 3 := by decide +kernel

/-- Two rows with immediate isostasy: half the deflection. -/
example : (dynamicDeflection (fun _ => (0 : ℚ)) (⟨none, fun _ _ => 0⟩ : FlexPool 2 1 ℚ)
    (fun _ _ => 8) 1).1 0 0 = 4 := by decide +kernel

/-- The hypotheses of `response_split_many_rows` hold for a concrete pool. -/
example : (poolRun Real.exp (⟨some 7000, fun _ _ => 1⟩ : FlexPool 3 1 ℝ)
      [(fun _ _ => 0, 100), (fun _ _ => 0, 100)]).2.pool 1 0 ≠
    (poolRun Real.exp (⟨some 7000, fun _ _ => 1⟩ : FlexPool 3 1 ℝ)
      [(fun _ _ => 0, 100 + 100)]).2.pool 1 0 :=
  response_split_many_rows _ (by norm_num) 7000 (by norm_num) rfl 100 100 (by norm_num)
    (by norm_num) 1 0 (by norm_num)

example : isostasyTime (some (-1 : ℚ)) = .error .valueError ∧ isostasyTime (some (0 : ℚ)) = .ok none ∧
    isostasyTime (some (7000 : ℚ)) = .ok (some 7000) := by decide +kernel

example : (densitiesInit (2650 : ℚ) 2720 1030).toOption.map
    (fun d => ((setDensity .sand (-1) d).1 = d : Bool)) = some true := by decide +kernel

example : (densitiesInit (2650 : ℚ) 2720 1030).toOption.map
    (fun d => (setDensities [(.sand, 2000), (.mud, -3), (.water, 1000)] d).rhoSand) = some 1600 := by
  decide +kernel

end Verif.Props
