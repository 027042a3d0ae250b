import Verif.Lemmas.TimeUnit
import Verif.Props.Symmetry
import Verif.Props.FluvialPlain

/-!
# The same basin in another unit of time
-/

set_option autoImplicit false
set_option linter.unusedSectionVars false

namespace Verif.Props

open Verif Verif.Spec

variable {K : Type*} {R C : ℕ} [Field K] [LinearOrder K] [IsStrictOrderedRing K]

/-! ## Clocks and loops -/

theorem advance_timedClock {u : K} (hu : 0 < u) (c : Clock K) :
    (timedClock u c).advance = (timedClock u c.advance.1, c.advance.2) := by
  obtain ⟨start, stop, step, time⟩ := c
  cases stop with
  | none => simp [timedClock, Clock.advance, add_mul]
  | some stop =>
    simp only [timedClock, Clock.advance, Option.map_some, ← add_mul, mul_lt_mul_iff_left₀ hu]
    split_ifs <;> rfl

theorem effectiveStep_timed {u : K} (hu : 0 < u) (step : K) (dt : Option K) :
    effectiveStep (step * u) (dt.map (· * u)) = effectiveStep step dt * u := by
  cases dt with
  | none => rfl
  | some dt =>
    simp only [Option.map_some, effectiveStep, mul_eq_zero, hu.ne', or_false]
    split_ifs <;> rfl

theorem runOneStep_timed {W : Type*} {advance advance' : K → K → W → Except Err W}
    {r : W → W → Prop} {u : K} (hu : 0 < u) (hstep : ∀ time dt w w', r w w' →
      Alike r (advance time dt w) (advance' (time * u) (dt * u) w'))
    (c : Clock K) {w w' : W} (hw : r w w') (dt : Option K) :
    (runOneStep advance' (timedClock u c) w' (dt.map (· * u))).1 =
      timedClock u (runOneStep advance c w dt).1 ∧
    Alike r (runOneStep advance c w dt).2
      (runOneStep advance' (timedClock u c) w' (dt.map (· * u))).2 := by
  have hs : (timedClock u c).step = c.step * u := rfl
  unfold runOneStep
  rw [advance_timedClock hu, hs, effectiveStep_timed hu]
  generalize c.advance = a
  obtain ⟨c1, res⟩ := a
  cases res with
  | error e => exact ⟨rfl, .error e⟩
  | ok v => exact ⟨rfl, hstep _ _ _ _ hw⟩

theorem runSteps_timed {W : Type*} {advance advance' : K → K → W → Except Err W}
    {r : W → W → Prop} {u : K} (hu : 0 < u) (hstep : ∀ time dt w w', r w w' →
      Alike r (advance time dt w) (advance' (time * u) (dt * u) w')) :
    ∀ (dts : List (Option K)) (c : Clock K) {w w' : W}, r w w' →
      (runSteps advance' (timedClock u c) w' (dts.map fun dt => dt.map (· * u))).1 =
        timedClock u (runSteps advance c w dts).1 ∧
      Alike r (runSteps advance c w dts).2
        (runSteps advance' (timedClock u c) w' (dts.map fun dt => dt.map (· * u))).2 := by
  intro dts
  induction dts with
  | nil => intro c w w' hw; exact ⟨rfl, .ok hw⟩
  | cons dt dts ih =>
    intro c w w' hw
    obtain ⟨h1, h2⟩ := runOneStep_timed hu hstep c hw dt
    simp only [List.map_cons, runSteps]
    generalize runOneStep advance c w dt = a at h1 h2
    generalize runOneStep advance' (timedClock u c) w' (dt.map (· * u)) = b at h1 h2
    obtain ⟨c1, x⟩ := a
    obtain ⟨c2, y⟩ := b
    dsimp only at h1 h2
    subst h1
    cases h2 with
    | error e => exact ⟨rfl, .error e⟩
    | ok h => exact ih c1 h

theorem runLoop_timed {W : Type*} {advance advance' : K → K → W → Except Err W}
    {r : W → W → Prop} {u : K} (hu : 0 < u) (hstep : ∀ time dt w w', r w w' →
      Alike r (advance time dt w) (advance' (time * u) (dt * u) w')) :
    ∀ (fuel : ℕ) (c : Clock K) {w w' : W}, r w w' →
      SameEndTimed u r (runLoop advance fuel c w) (runLoop advance' fuel (timedClock u c) w') := by
  intro fuel
  induction fuel with
  | zero => intro c w w' _; exact .running
  | succ fuel ih =>
    intro c w w' hw
    obtain ⟨h1, h2⟩ := runOneStep_timed hu hstep c hw none
    simp only [runLoop]
    simp only [Option.map_none] at h1 h2
    generalize runOneStep advance c w none = a at h1 h2
    generalize runOneStep advance' (timedClock u c) w' none = b at h1 h2
    obtain ⟨c1, x⟩ := a
    obtain ⟨c2, y⟩ := b
    dsimp only at h1 h2
    subst h1
    cases h2 with
    | error e =>
      cases e <;> first
        | exact .ended _ (.ok hw)
        | exact .ended _ (.error _)
    | ok h => exact ih c1 h

/-! ## C142 -/

theorem step_timed {u : K} (hu : 0 < u) {ps : List (Process K)} {env env' : Env R C K}
    (hfree : UnitFree u ps env env') {porosity : ProcState R C K → K}
    (hpor : ∀ p p', ProcTimed u p p' → porosity p' = porosity p) (time dt : K)
    (m m' : ModelState (ProcState R C K) R (C + 2) K) (hm : ModelTimed u m m') :
    Alike (ModelTimed u) (stepOf env ps porosity time dt m)
      (stepOf env' (ps.map (timedProcess u)) porosity (time * u) (dt * u) m') := by
  refine advance_timed hu hpor hm.archived
    (runComponents_timed hu hfree ps (fun _ h => h) ⟨hm.comps, ?_, hm.world.layers⟩)
  have := hm.world.rest
  unfold clearDeposit
  dsimp only
  rw [this]

/-- C142, as far as it is true. Express all times, rates and loads in a unit of time that is `u`
times smaller. If the transport capacity of the river is expressed in the new unit too (nothing is
asked if there is no river), then the constructor raises the same exception or makes the same model,
and every sequence of steps and every run ends at the same time with the same exception or with the
same model, all lengths included; the ages of the layers are the same times in the new unit. -/
theorem unit_partial {u : K} (hu : 0 < u) {ps : List (Process K)} {env env' : Env R C K}
    (hfree : UnitFree u ps env env') {porosity : ProcState R C K → K}
    (hpor : ∀ p p', ProcTimed u p p' → porosity p' = porosity p) {start : K}
    {s s' : ProcState R C K × World R (C + 2) K} (hs : StateTimed u s s') :
    Alike (ModelTimed u) (packageInit env ps start s)
      (packageInit env' (ps.map (timedProcess u)) (start * u) s') ∧
    ∀ m m', packageInit env ps start s = .ok m →
      packageInit env' (ps.map (timedProcess u)) (start * u) s' = .ok m' → ∀ c : Clock K,
      (∀ dts : List (Option K),
        (runSteps (stepOf env' (ps.map (timedProcess u)) porosity) (timedClock u c) m'
          (dts.map fun dt => dt.map (· * u))).1 =
            timedClock u (runSteps (stepOf env ps porosity) c m dts).1 ∧
        Alike (ModelTimed u) (runSteps (stepOf env ps porosity) c m dts).2
          (runSteps (stepOf env' (ps.map (timedProcess u)) porosity) (timedClock u c) m'
            (dts.map fun dt => dt.map (· * u))).2) ∧
      ∀ fuel : ℕ, SameEndTimed u (ModelTimed u) (runLoop (stepOf env ps porosity) fuel c m)
        (runLoop (stepOf env' (ps.map (timedProcess u)) porosity) fuel (timedClock u c) m') := by
  have hinit : Alike (ModelTimed u) (packageInit env ps start s)
      (packageInit env' (ps.map (timedProcess u)) (start * u) s') := by
    have h1 := createAll_timed hu hfree ps (fun _ h => h) hs
    unfold packageInit
    generalize createAll env ps s = a at h1
    generalize createAll env' (ps.map (timedProcess u)) s' = b at h1
    cases h1 with
    | error e => exact .error e
    | @ok a b hab => exact modelInit_timed hab.1 hab.2
  refine ⟨hinit, fun m m' hm hm' c => ?_⟩
  rw [hm, hm'] at hinit
  cases hinit with
  | ok h =>
    exact ⟨fun dts => runSteps_timed hu (step_timed hu hfree hpor) dts c h,
      fun fuel => runLoop_timed hu (step_timed hu hfree hpor) fuel c h⟩

/-- C142 is false of the river as it is. Its transport capacity, `10 * sqrt(9.8 * (rho / 1000 - 1)) *
0.001`, is a number of square metres per second, and the load is divided by it whatever the unit of the
load. On a plain of constant slope whose bedrock does not rise, the same river in a smaller unit of time
(`1 < u`: the same load is a smaller number) leaves less sand in every deposit. -/
theorem unit_changes_sand (P : FluvialParams ℝ) (hrho : 1000 < P.sandDensity) (hload : 0 < P.load)
    (hps : 0 < P.plainSlope) (hsf : 0 < P.sandFrac) (hsf1 : P.sandFrac ≤ 1) (a g dx dt u : ℝ)
    (hu : 1 < u) (hg : 0 < g) (hdx : 0 < dx) (deposit dz : Fin C → ℝ) (sl s : ℝ)
    (hdz : ∀ c : Fin C, dx * c.val < s → dz c ≤ 0) (percent percent' : Fin C → XNum ℝ)
    (out out' : Fin C → ℝ)
    (h : fluvialRow Real.exp Real.sqrt P dx dt (fun j => dx * j.val)
      (fun j => a - g * (dx * j.val)) deposit dz sl (.ok s) = .ok (percent, out))
    (h' : fluvialRow Real.exp Real.sqrt { P with load := P.load / u, hemi := P.hemi / u } dx (dt * u)
      (fun j => dx * j.val) (fun j => a - g * (dx * j.val)) deposit dz sl (.ok s) =
        .ok (percent', out'))
    (c : Fin C) (hc : dx * c.val < s) (hd : 0 < deposit c) :
    ∃ p p', percent c = .num p ∧ percent' c = .num p' ∧ p' < p := by
  have hu0 : 0 < u := by linarith
  have h1 := even_plain_sand P hrho hload hps hsf hsf1 a g dx dt hg hdx deposit dz sl s hdz percent
    out h c hc hd
  have h2 := even_plain_sand { P with load := P.load / u, hemi := P.hemi / u } hrho
    (div_pos hload hu0) hps hsf hsf1 a g dx (dt * u) hg hdx deposit dz sl s hdz percent' out' h' c hc
    hd
  refine ⟨_, _, h1, h2, ?_⟩
  have harg : 0 < 98/10 * (P.sandDensity / 1000 - 1) := by
    have : 1 < P.sandDensity / 1000 := by rw [lt_div_iff₀ (by norm_num)]; linarith
    nlinarith
  have hq : 0 < 10 * Real.sqrt (98/10 * (P.sandDensity / 1000 - 1)) / 1000 := by
    have := Real.sqrt_pos.mpr harg
    positivity
  have hX : 0 < 25/16 + 9/4 * ((P.sandDensity - 1000) / 1000000 / g *
      (61/100 * P.plainSlope * (1 - P.sandFrac) / P.sandFrac) / (10 * deposit c)) := by
    have h3 : 0 ≤ P.sandDensity - 1000 := by linarith
    have h4 : 0 ≤ 1 - P.sandFrac := by linarith
    positivity
  have hlt : P.load / u < P.load := div_lt_self hload hu
  dsimp only
  refine sub_lt_sub_left (Real.exp_lt_exp.2 (neg_lt_neg ?_)) 1
  refine mul_lt_mul_of_pos_right ?_ hX
  exact div_lt_div_of_pos_right (div_lt_div_of_pos_right hlt hq) (by norm_num)

/-! ## The data in files -/

theorem linearAt_timed {u : K} (hu : 0 < u) : ∀ (t : List (K × K)) (x : K),
    linearAt (t.map fun p => (p.1 * u, p.2)) x = linearAt t (x / u) := by
  intro t
  induction t with
  | nil => intro x; rfl
  | cons p t ih =>
    intro x
    cases t with
    | nil => rfl
    | cons q t =>
      simp only [List.map_cons, linearAt]
      have hc : (x ≤ q.1 * u ∨ (t.map fun p : K × K => (p.1 * u, p.2)) = []) ↔
          (x / u ≤ q.1 ∨ t = []) := by
        rw [List.map_eq_nil_iff, div_le_iff₀ hu]
      by_cases hx : x / u ≤ q.1 ∨ t = []
      · rw [if_pos hx, if_pos (hc.2 hx)]
        have e1 : x - p.1 * u = (x / u - p.1) * u := by field_simp
        have e2 : q.1 * u - p.1 * u = (q.1 - p.1) * u := by ring
        rw [e1, e2, div_mul_eq_mul_div, div_mul_eq_mul_div, ← mul_assoc,
          mul_div_mul_right _ _ hu.ne']
      · rw [if_neg hx, if_neg fun h => hx (hc.1 h)]
        exact ih x

/-- A file of sea levels with its times in the new unit describes the curve in the new unit. -/
theorem sea_file_timed {u : K} (hu : 0 < u) (t : List (K × K)) :
    (tableCurve t = .error .indexError ∧
      tableCurve (t.map fun p => (p.1 * u, p.2)) = .error .indexError) ∨
    ∃ f f', tableCurve t = .ok f ∧ tableCurve (t.map fun p => (p.1 * u, p.2)) = .ok f' ∧
      ∀ x, f' x = f (x / u) := by
  unfold tableCurve
  rw [List.length_map]
  by_cases ht : t.length < 2
  · rw [if_pos ht, if_pos ht]
    exact Or.inl ⟨rfl, rfl⟩
  · rw [if_neg ht, if_neg ht]
    refine Or.inr ⟨_, _, rfl, rfl, fun x => ?_⟩
    unfold interpTable
    rw [List.head?_map, List.getLast?_map, linearAt_timed hu]
    cases t.head? with
    | none => rfl
    | some p =>
      cases t.getLast? with
      | none => rfl
      | some q =>
        simp only [Option.map_some]
        have hc : (x < p.1 * u ∨ q.1 * u < x) ↔ (x / u < p.1 ∨ q.1 < x / u) := by
          rw [div_lt_iff₀ hu, lt_div_iff₀ hu]
        by_cases hx : x / u < p.1 ∨ q.1 < x / u
        · rw [if_pos hx, if_pos (hc.2 hx)]
        · rw [if_neg hx, if_neg fun h => hx (hc.1 h)]

theorem linearAt_rate (u : K) : ∀ (t : List (K × K)) (x : K),
    linearAt (t.map fun p => (p.1, p.2 / u)) x = linearAt t x / u := by
  intro t
  induction t with
  | nil => intro x; exact (zero_div u).symm
  | cons p t ih =>
    intro x
    cases t with
    | nil => rfl
    | cons q t =>
      simp only [List.map_cons, linearAt]
      have hc : (x ≤ q.1 ∨ (t.map fun p : K × K => (p.1, p.2 / u)) = []) ↔
          (x ≤ q.1 ∨ t = []) := by
        rw [List.map_eq_nil_iff]
      by_cases hx : x ≤ q.1 ∨ t = []
      · rw [if_pos hx, if_pos (hc.2 hx)]
        ring
      · rw [if_neg hx, if_neg fun h => hx (hc.1 h)]
        exact ih x

/-- A file of subsidence rates in the new unit describes the rates in the new unit. -/
theorem subsidence_file_timed (u : K) (t : List (K × K)) :
    (tableCurve t = .error .indexError ∧
      tableCurve (t.map fun p => (p.1, p.2 / u)) = .error .indexError) ∨
    ∃ f f', tableCurve t = .ok f ∧ tableCurve (t.map fun p => (p.1, p.2 / u)) = .ok f' ∧
      ∀ x, f' x = (f x).map (· / u) := by
  unfold tableCurve
  rw [List.length_map]
  by_cases ht : t.length < 2
  · rw [if_pos ht, if_pos ht]
    exact Or.inl ⟨rfl, rfl⟩
  · rw [if_neg ht, if_neg ht]
    refine Or.inr ⟨_, _, rfl, rfl, fun x => ?_⟩
    unfold interpTable
    rw [List.head?_map, List.getLast?_map, linearAt_rate]
    cases t.head? with
    | none => rfl
    | some p =>
      cases t.getLast? with
      | none => rfl
      | some q =>
        simp only [Option.map_some]
        by_cases hx : x < p.1 ∨ q.1 < x
        · rw [if_pos hx, if_pos hx]; rfl
        · rw [if_neg hx, if_neg hx]; rfl

/-- The sinusoidal sea level: wave length and phase are times, the linear trend is a rate. -/
theorem sinusoid_timed {u : ℝ} (hu : 0 < u) (wl amp phase mean linear t : ℝ) :
    sinusoidalCurve (wl * u) amp (phase * u) mean (linear / u) t =
      sinusoidalCurve wl amp phase mean linear (t / u) := by
  have hw : wl * u / (2 * Real.pi) = wl / (2 * Real.pi) * u := by ring
  unfold sinusoidalCurve
  dsimp only
  rw [hw]
  by_cases h0 : wl / (2 * Real.pi) = 0
  · rw [if_pos h0, if_pos (by rw [h0, zero_mul])]
  · rw [if_neg h0, if_neg (mul_ne_zero h0 hu.ne')]
    have e1 : t - phase * u = (t / u - phase) * u := by field_simp
    have e2 : linear / u * t = linear * (t / u) := by ring
    rw [e1, ← mul_assoc, mul_div_mul_right _ _ hu.ne', mul_div_mul_right _ _ hu.ne', e2]

/-! ## Examples -/

/-- An environment in which diffusion depends on diffusivity times time. -/
def exYears : Env 1 1 ℚ := { exEnv with
  expf := fun v => 1 / (1 - v)
  solve := fun kd dt z => .ok fun n => z n - kd n * dt / 1000000 }

/-- The same in months: the transport capacity is a rate. -/
def exMonths : Env 1 1 ℚ := { exYears with sqrtf := fun v => exYears.sqrtf v / 12 }

/-- All processes, with isostasy times of 7000 and 700 years. -/
def exTimeProcs : List (Process ℚ) :=
  [.seaLevel (fun t => .ok (1/2 - t / 1000)) 0, .subsidence fun _ => .ok (-1/100), .compaction,
    .diffusion ⟨0, 1/100, 60, 15, 1/2000, 1/1000, 3, 0, 0⟩, .fluvial exFluvial,
    .flexure (some 7000), .waterFlexure (some 700), .shoreline 1]

def exMonthsState : ProcState 1 1 ℚ where
  seaTime := exProcState.seaTime * 12
  rate := fun c => exProcState.rate c / 12
  diffuser := timedDiffuser 12 exProcState.diffuser
  flex := timedFlex 12 exProcState.flex

/-- Two steps. -/
def exTwiceOf (env : Env 1 1 ℚ) (ps : List (Process ℚ)) (start dt : ℚ)
    (s : ProcState 1 1 ℚ × World 1 3 ℚ) : Except Err (ModelState (ProcState 1 1 ℚ) 1 3 ℚ) :=
  match packageInit env ps start s with
  | .error e => .error e
  | .ok m => (runSteps (stepOf env ps fun _ => 1/2) (Clock.init start none dt) m [none, none]).2

example : UnitFree 12 exTimeProcs exYears exMonths := by
  refine ⟨rfl, fun _ _ => rfl, fun _ kd dt z => ?_, fun _ dt l l' hl => ?_, fun t ht => ?_⟩
  · show Except.ok _ = Except.ok _
    congr 1
    funext n
    ring
  · exact .ok { hl with dz := by dsimp only; rw [hl.dz] }
  · simp only [exTimeProcs, List.mem_cons, List.not_mem_nil, or_false, reduceCtorEq, false_or,
      Process.flexure.injEq, Process.waterFlexure.injEq, Option.some.injEq] at ht
    rcases ht with rfl | rfl <;> decide +kernel

example : StateTimed 12 (exProcState, exBeach) (exMonthsState, exBeach) :=
  ⟨⟨rfl, fun _ => rfl, rfl, rfl⟩, rfl, layersTimed_empty _⟩

/-- What a state shows apart from the ages of the layers. -/
def exTimelessView (m : ModelState (ProcState 1 1 ℚ) 1 3 ℚ) :
    List (ℚ × ℚ) × (ℚ × List ℚ) × List ℚ :=
  let c : Cell 1 3 := (0, ⟨0, by omega⟩)
  (List.ofFn fun i => (m.world.topo (1, i), m.world.bedrock (1, i)),
    (m.world.seaLevel, m.world.layers.dz c), m.world.layers.prop "percent_sand" c)

/-- Both models run; only the ages of the layers are other numbers. -/
example :
    (exTwiceOf exYears exTimeProcs 0 100 (exProcState, exBeach)).toOption.map
      (fun m => m.world.layers.prop "age" (0, ⟨0, by omega⟩)) = some [0, 100, 200] ∧
    (exTwiceOf exMonths (exTimeProcs.map (timedProcess 12)) 0 1200
      (exMonthsState, exBeach)).toOption.map
      (fun m => m.world.layers.prop "age" (0, ⟨0, by omega⟩)) = some [0, 1200, 2400] ∧
    (exTwiceOf exYears exTimeProcs 0 100 (exProcState, exBeach)).toOption.map exTimelessView =
      (exTwiceOf exMonths (exTimeProcs.map (timedProcess 12)) 0 1200
        (exMonthsState, exBeach)).toOption.map exTimelessView := by
  refine ⟨?_, ?_, ?_⟩ <;> decide +kernel

example : ProcTimed 12 exProcState exMonthsState → (fun _ : ProcState 1 1 ℚ => (1/2 : ℚ))
    exMonthsState = (fun _ : ProcState 1 1 ℚ => (1/2 : ℚ)) exProcState := fun _ => rfl

/-- The hypotheses of `unit_changes_sand`: years and months. -/
example : ∃ percent percent' : Fin 4 → XNum ℝ, ∃ out out' : Fin 4 → ℝ,
    fluvialRow Real.exp Real.sqrt (⟨1/2, 10, 3, 2650, 1/1000, 0⟩ : FluvialParams ℝ) 1 100
      (fun j => 1 * j.val) (fun j => 1 - 1 * (1 * j.val)) (fun _ => 1) (fun _ => 0) 0 (.ok 1) =
        .ok (percent, out) ∧
    fluvialRow Real.exp Real.sqrt (⟨1/2, 10, 3 / 12, 2650, 1/1000, 0 / 12⟩ : FluvialParams ℝ) 1
      (100 * 12) (fun j => 1 * j.val) (fun j => 1 - 1 * (1 * j.val)) (fun _ => 1) (fun _ => 0) 0
      (.ok 1) = .ok (percent', out') ∧
    ∃ p p', percent 0 = .num p ∧ percent' 0 = .num p' ∧ p' < p := by
  have hlast : ∀ c : Fin 4, c.val + 1 = 4 → (1 : ℝ) ≤ 1 * (c.val : ℝ) := by
    intro c hc
    have : c.val = 3 := by omega
    rw [this]; norm_num
  obtain ⟨⟨p, o⟩, h⟩ := fluvial_in_range Real.exp Real.sqrt
    (⟨1/2, 10, 3, 2650, 1/1000, 0⟩ : FluvialParams ℝ) 1 100
    (fun j : Fin 4 => 1 * (j.val : ℝ)) (fun j => 1 - 1 * (1 * j.val)) (fun _ => 1) (fun _ => 0) 0 1
    (by norm_num) (by norm_num) (by norm_num) (by norm_num) hlast
  obtain ⟨⟨p', o'⟩, h'⟩ := fluvial_in_range Real.exp Real.sqrt
    (⟨1/2, 10, 3 / 12, 2650, 1/1000, 0 / 12⟩ : FluvialParams ℝ) 1 (100 * 12)
    (fun j : Fin 4 => 1 * (j.val : ℝ)) (fun j => 1 - 1 * (1 * j.val)) (fun _ => 1) (fun _ => 0) 0 1
    (by norm_num) (by norm_num) (by norm_num) (by norm_num) hlast
  refine ⟨p, p', o, o', h, h', ?_⟩
  exact unit_changes_sand (⟨1/2, 10, 3, 2650, 1/1000, 0⟩ : FluvialParams ℝ) (by norm_num)
    (by norm_num) (by norm_num) (by norm_num) (by norm_num) 1 1 1 100 12 (by norm_num)
    (by norm_num) (by norm_num) (fun _ => 1) (fun _ => 0) 0 1 (fun _ _ => le_refl _) p p' o o' h h'
    0 (by norm_num) (by norm_num)

end Verif.Props
