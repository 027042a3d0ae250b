import Mathlib.Analysis.SpecialFunctions.Exp
import Verif.Lemmas.Submarine
import Verif.Props.Shoreline

/-!
# Properties of submarine diffusion (C33–C35, C66, C67)
-/

set_option autoImplicit false
set_option linter.unusedSectionVars false

namespace Verif.Props

open Verif Verif.Spec

variable {K σ : Type*} {R C : ℕ} [Field K] [LinearOrder K] [IsStrictOrderedRing K]

/-! ### C33 -/

/-- C33: what a successful step leaves in `kd`. Submerged nodes: load times distance seaward of the
shoreline (plus one column) over the depth (plus a constant), damped below wave base; land: the
load over the slope of the plain, growing downstream, halved off the channel row. The load of the
first row is the one left by the previous step. -/
theorem diffusivity_value {kind : InterpKind K} {xtol rtol : K} {expf : K → K}
    {solve : NodeField R (C + 2) K → K → NodeField R (C + 2) K →
      Except Err (NodeField R (C + 2) K)}
    {dx : K} {x : Fin (C + 2) → K} {dt : K} {s s' : Diffuser R (C + 2) K} {w w' : World R (C + 2) K}
    (h : diffuserStep kind xtol rtol expf solve dx x dt s w = .ok (s', w')) (r : Fin R)
    (c : Fin (C + 2)) :
    ∃ shore, shorelineRow kind xtol rtol (List.ofFn x) (rowList w.topo r) w.seaLevel = .ok shore ∧
    let z := w.topo (activeRow r, c)
    let load := s.load0 * (1 + w.seaLevel * s.loadSl)
    let base := (if r.val = 0 then s.load else load) * (x c - shore + dx) /
      (w.seaLevel - z + (s.shorefaceHeight * s.alpha + s.shelfSlope) * dx)
    let land := load / s.plainSlope * (if 0 < s.basinWidth then 1 + x c / s.basinWidth else 1)
    (z < w.seaLevel → w.seaLevel - z ≤ s.waveBase → s'.kd (activeRow r, c) = base) ∧
    (z < w.seaLevel → s.waveBase < w.seaLevel - z → s.waveBase ≠ 0 →
      s'.kd (activeRow r, c) = base * expf (-(w.seaLevel - z - s.waveBase) / s.waveBase)) ∧
    (z < w.seaLevel → s.waveBase = 0 → s'.kd (activeRow r, c) = 0) ∧
    (w.seaLevel ≤ z → r.val = R / 2 → s'.kd (activeRow r, c) = land) ∧
    (w.seaLevel ≤ z → r.val ≠ R / 2 → s'.kd (activeRow r, c) = land / 2) := by
  unfold diffuserStep at h
  cases hs : overRows (fun r => shorelineRow kind xtol rtol (List.ofFn x) (rowList w.topo r)
      w.seaLevel) with
  | error e => rw [hs] at h; cases h
  | ok shore =>
    rw [hs] at h
    dsimp only at h
    split_ifs at h with hreg
    set s1 := calcDiffusionCoef expf dx x shore w s with hs1
    obtain ⟨-, -, h3, -, -⟩ := calcDiffusionCoef_spec expf dx x shore w s
    cases hsol : solve s1.kd dt (setUpstream s1.plainSlope x w.topo) with
    | error e => rw [hsol] at h; cases h
    | ok after =>
      rw [hsol] at h
      cases h
      refine ⟨shore r, overRows_ok hs r, ?_⟩
      dsimp only at h3 ⊢
      rw [← hs1] at h3
      rw [h3 r c]
      unfold nodeDiffusivity wetDiffusivity landDiffusivity getProfile Diffuser.newLoad
      dsimp only
      have hland : ∀ v : K, (if 0 < s.basinWidth then v * (s.basinWidth + x c) / s.basinWidth else v) =
          v * (if 0 < s.basinWidth then 1 + x c / s.basinWidth else 1) := by
        intro v
        split_ifs with hb
        · have := hb.ne'
          field_simp
        · rw [mul_one]
      refine ⟨fun hw hd => ?_, fun hw hd h0 => ?_, fun hw h0 => ?_, fun hl hc => ?_,
        fun hl hc => ?_⟩
      · rw [if_pos (by linarith), if_neg (not_lt.mpr hd)]
      · rw [if_pos (by linarith), if_pos hd, if_neg h0]
      · rw [if_pos (by linarith), if_pos (by rw [h0]; linarith), if_pos h0]
      · rw [if_neg (by linarith), hland]
        simp [hc]
      · rw [if_neg (by linarith), hland]
        rw [decide_eq_false hc, if_neg (by simp)]
        ring

/-- C33: every active node of a row that starts on dry land, or is entirely submerged, gets a
strictly positive diffusivity. -/
theorem diffusivity_positive {kind : InterpKind K} {xtol rtol : K} {expf : K → K}
    (hexp : ∀ t, 0 < expf t)
    {solve : NodeField R (C + 2) K → K → NodeField R (C + 2) K →
      Except Err (NodeField R (C + 2) K)}
    {dx : K} (hdx : 0 < dx) {x : Fin (C + 2) → K} (hx : StrictMono x) (hx0 : 0 ≤ x 0) {dt : K}
    {s s' : Diffuser R (C + 2) K} {w w' : World R (C + 2) K}
    (hps : 0 < s.plainSlope) (hwb : s.waveBase ≠ 0) (hload : 0 < s.load)
    (hnew : 0 < s.load0 * (1 + w.seaLevel * s.loadSl))
    (hb : 0 ≤ s.shorefaceHeight * s.alpha + s.shelfSlope)
    (h : diffuserStep kind xtol rtol expf solve dx x dt s w = .ok (s', w')) (r : Fin R)
    (hrow : w.seaLevel ≤ w.topo (activeRow r, 0) ∨
      ∀ c, w.topo (activeRow r, c) < w.seaLevel) (c : Fin (C + 2)) :
    0 < s'.kd (activeRow r, c) := by
  obtain ⟨shore, hs, h1, h2, -, h3, h4⟩ := diffusivity_value h r c
  have hxs : (List.ofFn x).Pairwise (· < ·) := by
    rw [List.pairwise_ofFn]
    intro i j hij
    exact hx hij
  have hsep := (shoreline_separates kind xtol rtol (List.ofFn x) (rowList w.topo r) w.seaLevel hxs
    (by simp [rowList]) (by
      rcases hrow with h | h
      · left
        refine ⟨getProfile w.topo r 0, ?_, h⟩
        unfold rowList
        rw [List.ofFn_succ, List.head?_cons]
      · right
        intro v hv
        rw [rowList, List.mem_ofFn] at hv
        obtain ⟨c, rfl⟩ := hv
        exact h c) shore hs).1
  have hxc : 0 ≤ x c := hx0.trans (hx.monotone (Fin.zero_le c))
  rcases lt_or_ge (w.topo (activeRow r, c)) w.seaLevel with hw | hl
  · have hsc : shore ≤ x c := by
      have := hsep c.val (by rw [List.length_ofFn]; exact c.isLt) (by
        simp only [rowList, List.getElem_ofFn]
        exact hw)
      simpa only [List.getElem_ofFn] using this
    have hbase : 0 < (if r.val = 0 then s.load else s.load0 * (1 + w.seaLevel * s.loadSl)) *
        (x c - shore + dx) / (w.seaLevel - w.topo (activeRow r, c) +
          (s.shorefaceHeight * s.alpha + s.shelfSlope) * dx) := by
      refine div_pos (mul_pos (by split_ifs <;> assumption) (by linarith)) ?_
      have := mul_nonneg hb hdx.le
      linarith
    rcases le_or_gt (w.seaLevel - w.topo (activeRow r, c)) s.waveBase with hd | hd
    · rw [h1 hw hd]
      exact hbase
    · rw [h2 hw hd hwb]
      exact mul_pos hbase (hexp _)
  · have hland : 0 < s.load0 * (1 + w.seaLevel * s.loadSl) / s.plainSlope *
        (if 0 < s.basinWidth then 1 + x c / s.basinWidth else 1) := by
      refine mul_pos (div_pos hnew hps) ?_
      split_ifs with hbw
      · have := div_nonneg hxc hbw.le
        linarith
      · exact one_pos
    by_cases hc : r.val = R / 2
    · rw [h3 hl hc]
      exact hland
    · rw [h4 hl hc]
      exact half_pos hland

/-- C33: with the real exponential the hypothesis holds, and below wave base the diffusivity is
multiplied by a factor between 0 and 1. -/
theorem wave_base_factor (d wb : ℝ) (hwb : 0 < wb) (hd : wb < d) :
    0 < Real.exp (-(d - wb) / wb) ∧ Real.exp (-(d - wb) / wb) < 1 := by
  refine ⟨Real.exp_pos _, Real.exp_lt_one_iff.mpr (div_neg_of_neg_of_pos (by linarith) hwb)⟩

/-- C33: the condition on the row is needed: in a lagoon landward of the first dry node the
diffusivity is negative. -/
theorem lagoon_diffusivity_negative :
    ∃ (s s' : Diffuser 1 3 ℚ) (w w' : World 1 3 ℚ),
      (0 < s.plainSlope ∧ 0 < s.load ∧ 0 < s.load0 * (1 + w.seaLevel * s.loadSl) ∧
        0 < s.shorefaceHeight * s.alpha + s.shelfSlope) ∧
      diffuserStep linearKind (2/10^12) (1/10^15) (fun _ => 1) (fun _ _ z => .ok z) 1
        (fun c : Fin 3 => (c.val : ℚ)) 1 s w = .ok (s', w') ∧
      w.topo (activeRow 0, 0) < w.seaLevel ∧ s'.kd (activeRow 0, 0) < 0 := by
  let s : Diffuser 1 3 ℚ := ⟨1, 60, 1, 1, 1, 3, 0, 0, 3, 3, 0, 0, fun _ => 0, 3⟩
  let w : World 1 3 ℚ := { exWorld with topo := fun n => 3 * (n.2.val : ℚ) - 5, seaLevel := 0 }
  have h : ∃ p, diffuserStep linearKind (2/10^12) (1/10^15) (fun _ => 1) (fun _ _ z => .ok z) 1
        (fun c : Fin 3 => (c.val : ℚ)) 1 s w = .ok p ∧ p.1.kd (activeRow 0, 0) < 0 := by
    have hd : (diffuserStep linearKind (2/10^12) (1/10^15) (fun _ => 1) (fun _ _ z => .ok z) 1
        (fun c : Fin 3 => (c.val : ℚ)) 1 s w).toOption.map (fun p => decide (p.1.kd (activeRow 0, 0) < 0))
        = some true := by decide +kernel
    cases hp : diffuserStep linearKind (2/10^12) (1/10^15) (fun _ => 1) (fun _ _ z => .ok z) 1
        (fun c : Fin 3 => (c.val : ℚ)) 1 s w with
    | error e => rw [hp] at hd; cases hd
    | ok p =>
      rw [hp] at hd
      simp only [Except.toOption, Option.map_some, Option.some.injEq, decide_eq_true_eq] at hd
      exact ⟨p, rfl, hd⟩
  obtain ⟨p, h1, h2⟩ := h
  exact ⟨s, p.1, w, p.2, by decide +kernel, h1, by decide +kernel, h2⟩

/-- The boundary rows: the first is a copy of its neighbour, the last is never written. -/
theorem diffusivity_boundary {kind : InterpKind K} {xtol rtol : K} {expf : K → K}
    {solve : NodeField R (C + 2) K → K → NodeField R (C + 2) K →
      Except Err (NodeField R (C + 2) K)}
    {dx : K} {x : Fin (C + 2) → K} {dt : K} {s s' : Diffuser R (C + 2) K} {w w' : World R (C + 2) K}
    (hR : 0 < R) (h : diffuserStep kind xtol rtol expf solve dx x dt s w = .ok (s', w'))
    (c : Fin (C + 2)) :
    s'.kd (0, c) = s'.kd (1, c) ∧
    s'.kd (Fin.last (R + 1), c) = s.kd (Fin.last (R + 1), c) := by
  unfold diffuserStep at h
  cases hs : overRows (fun r => shorelineRow kind xtol rtol (List.ofFn x) (rowList w.topo r)
      w.seaLevel) with
  | error e => rw [hs] at h; cases h
  | ok shore =>
    rw [hs] at h
    dsimp only at h
    split_ifs at h with hreg
    set s1 := calcDiffusionCoef expf dx x shore w s with hs1
    obtain ⟨-, -, -, h4, h5⟩ := calcDiffusionCoef_spec expf dx x shore w s
    cases hsol : solve s1.kd dt (setUpstream s1.plainSlope x w.topo) with
    | error e => rw [hsol] at h; cases h
    | ok after =>
      rw [hsol] at h
      cases h
      exact ⟨h4 c, h5 hR c⟩

/-! ### C34 -/

/-- C34, partial: two rows with the same profile get the same diffusivity at their submerged nodes
if neither is the first row, or if the load has not changed since the last step. On land they
differ by the factor 2 exactly if one is the channel row. -/
theorem identical_rows_partial {kind : InterpKind K} {xtol rtol : K} {expf : K → K}
    {solve : NodeField R (C + 2) K → K → NodeField R (C + 2) K →
      Except Err (NodeField R (C + 2) K)}
    {dx : K} {x : Fin (C + 2) → K} {dt : K} {s s' : Diffuser R (C + 2) K} {w w' : World R (C + 2) K}
    (h : diffuserStep kind xtol rtol expf solve dx x dt s w = .ok (s', w')) (p q : Fin R)
    (hsame : ∀ c, w.topo (activeRow p, c) = w.topo (activeRow q, c))
    (hload : (p.val ≠ 0 ∧ q.val ≠ 0) ∨ s.load = s.load0 * (1 + w.seaLevel * s.loadSl))
    (c : Fin (C + 2)) :
    (w.topo (activeRow p, c) < w.seaLevel → s'.kd (activeRow p, c) = s'.kd (activeRow q, c)) ∧
    (w.seaLevel ≤ w.topo (activeRow p, c) →
      (p.val = R / 2 ↔ q.val = R / 2) → s'.kd (activeRow p, c) = s'.kd (activeRow q, c)) ∧
    (w.seaLevel ≤ w.topo (activeRow p, c) → p.val = R / 2 → q.val ≠ R / 2 →
      s'.kd (activeRow p, c) = 2 * s'.kd (activeRow q, c)) := by
  obtain ⟨s1, e1, p1, p2, p0, p3, p4⟩ := diffusivity_value h p c
  obtain ⟨s2, e2, q1, q2, q0, q3, q4⟩ := diffusivity_value h q c
  have hrow : rowList w.topo p = rowList w.topo q := by
    unfold rowList getProfile
    congr 1
    funext c
    exact hsame c
  rw [hrow, e2, Except.ok.injEq] at e1
  subst e1
  have hl : (if p.val = 0 then s.load else s.load0 * (1 + w.seaLevel * s.loadSl)) =
      (if q.val = 0 then s.load else s.load0 * (1 + w.seaLevel * s.loadSl)) := by
    rcases hload with ⟨h1, h2⟩ | h
    · rw [if_neg h1, if_neg h2]
    · rw [h, ite_self, ite_self]
  rw [hsame c] at p0 p1 p2 p3 p4 ⊢
  rw [hl] at p1 p2
  refine ⟨fun hw => ?_, fun hw hpq => ?_, fun hw hp hq => ?_⟩
  · rcases le_or_gt (w.seaLevel - w.topo (activeRow q, c)) s.waveBase with hd | hd
    · rw [p1 hw hd, q1 hw hd]
    · by_cases h0 : s.waveBase = 0
      · rw [p0 hw h0, q0 hw h0]
      · rw [p2 hw hd h0, q2 hw hd h0]
  · by_cases hp : p.val = R / 2
    · rw [p3 hw hp, q3 hw (hpq.mp hp)]
    · rw [p4 hw hp, q4 hw (fun h => hp (hpq.mpr h))]
  · rw [p3 hw hp, q4 hw hq]
    ring

/-- A grid with two identical rows, for the witness of C34. -/
def twinWorld : World 2 3 ℚ where
  topo := fun n => 1 - 2 * (n.2.val : ℚ)
  bedrock := fun _ => -100
  deposit := fun _ => 0
  increment := none
  sand := none
  sedLoad := none
  waterLoad := none
  waterIncr := none
  seaLevel := 0
  seaIncr := none
  rowShore := none
  rowShelf := none
  gridShore := none
  gridShelf := none
  layers := EventLayers.empty

/-- A diffuser whose load follows sea level, created at sea level 10. -/
def twinDiffuser : Diffuser 2 3 ℚ :=
  ⟨1, 60, 1, 1, 1, 3, 1/10, 0, 6, 6, 10, 0, fun _ => 0, 6⟩

/-- C34 is false in general: if the load depends on sea level and sea level has moved since the
last step, the first row still uses the old load. -/
theorem identical_rows_differ :
    ∃ (s' : Diffuser 2 3 ℚ) (w' : World 2 3 ℚ),
      diffuserStep linearKind (2/10^12) (1/10^15) (fun _ => 1) (fun _ _ z => .ok z) 1
        (fun c : Fin 3 => (c.val : ℚ)) 1 twinDiffuser twinWorld = .ok (s', w') ∧
      (∀ c, twinWorld.topo (activeRow 0, c) = twinWorld.topo (activeRow 1, c)) ∧
      twinWorld.topo (activeRow 0, 1) < twinWorld.seaLevel ∧
      s'.kd (activeRow 0, 1) ≠ s'.kd (activeRow 1, 1) := by
  have hd : (diffuserStep linearKind (2/10^12) (1/10^15) (fun _ => 1) (fun _ _ z => .ok z) 1
      (fun c : Fin 3 => (c.val : ℚ)) 1 twinDiffuser twinWorld).toOption.map
      (fun p => decide (p.1.kd (activeRow 0, 1) = p.1.kd (activeRow 1, 1))) = some false := by
    decide +kernel
  cases hp : diffuserStep linearKind (2/10^12) (1/10^15) (fun _ => 1) (fun _ _ z => .ok z) 1
      (fun c : Fin 3 => (c.val : ℚ)) 1 twinDiffuser twinWorld with
  | error e => rw [hp] at hd; cases hd
  | ok p =>
    rw [hp] at hd
    simp only [Except.toOption, Option.map_some, Option.some.injEq, decide_eq_false_iff_not] at hd
    exact ⟨p.1, p.2, rfl, fun c => rfl, by decide +kernel, hd⟩

/-! ### C35 -/

/-- C35: a step changes, of the grid, only the first column of the active rows and the deposit; the
first column is set `plain_slope * dx` above the second, and the deposit grows by exactly the change
the solver computed from that topography. -/
theorem diffusion_deposit {kind : InterpKind K} {xtol rtol : K} {expf : K → K}
    {solve : NodeField R (C + 2) K → K → NodeField R (C + 2) K →
      Except Err (NodeField R (C + 2) K)}
    {dx : K} {x : Fin (C + 2) → K} {dt : K} {s s' : Diffuser R (C + 2) K} {w w' : World R (C + 2) K}
    (h : diffuserStep kind xtol rtol expf solve dx x dt s w = .ok (s', w')) :
    (∀ r c, c ≠ 0 → w'.topo (activeRow r, c) = w.topo (activeRow r, c)) ∧
    (∀ r, w'.topo (activeRow r, 0) = w.topo (activeRow r, 1) + s.plainSlope * (x 1 - x 0)) ∧
    (∀ n : Node R (C + 2), n.1.val = 0 ∨ n.1.val = R + 1 → w'.topo n = w.topo n) ∧
    (∃ after, solve s'.kd dt w'.topo = .ok after ∧
      ∀ n, w'.deposit n = w.deposit n + (after n - w'.topo n)) ∧
    w' = { w with topo := w'.topo, deposit := w'.deposit } ∧ s'.time = s.time + dt := by
  unfold diffuserStep at h
  cases hs : overRows (fun r => shorelineRow kind xtol rtol (List.ofFn x) (rowList w.topo r)
      w.seaLevel) with
  | error e => rw [hs] at h; cases h
  | ok shore =>
    rw [hs] at h
    dsimp only at h
    split_ifs at h with hreg
    obtain ⟨⟨h1, -, -, -, -, -, -, -, -, h10, -⟩, -⟩ := calcDiffusionCoef_spec expf dx x shore w s
    set s1 := calcDiffusionCoef expf dx x shore w s with hs1
    cases hsol : solve s1.kd dt (setUpstream s1.plainSlope x w.topo) with
    | error e => rw [hsol] at h; cases h
    | ok after =>
      rw [hsol] at h
      cases h
      refine ⟨?_, ?_, ?_, ⟨after, hsol, fun n => rfl⟩, rfl, ?_⟩
      · intro r c hc
        simp only [setUpstream, activeIndex_activeRow, if_neg hc]
      · intro r
        simp only [setUpstream, activeIndex_activeRow, if_true, ← h1]
      · intro n hn
        simp only [setUpstream, activeIndex_eq_none.mpr hn]
      · simp only [← h10]

/-- C35: the step fails only if the shoreline of some row cannot be found or the solver fails, or if
it divides by zero (which python does not report). -/
theorem diffusion_error {kind : InterpKind K} {xtol rtol : K} {expf : K → K}
    {solve : NodeField R (C + 2) K → K → NodeField R (C + 2) K →
      Except Err (NodeField R (C + 2) K)}
    {dx : K} {x : Fin (C + 2) → K} {dt : K} {s : Diffuser R (C + 2) K} {w : World R (C + 2) K}
    {e : Err} (h : diffuserStep kind xtol rtol expf solve dx x dt s w = .error e) :
    (∃ r, shorelineRow kind xtol rtol (List.ofFn x) (rowList w.topo r) w.seaLevel = .error e) ∨
    (∃ kd z, solve kd dt z = .error e) ∨ ¬ s.Regular dx w ∧ e = .runtimeError := by
  unfold diffuserStep at h
  cases hs : overRows (fun r => shorelineRow kind xtol rtol (List.ofFn x) (rowList w.topo r)
      w.seaLevel) with
  | error e' =>
    rw [hs] at h
    cases h
    obtain ⟨r, hr, -⟩ := overRows_error hs
    exact .inl ⟨r, hr⟩
  | ok shore =>
    rw [hs] at h
    dsimp only at h
    split_ifs at h with hreg
    swap
    · cases h
      exact .inr (.inr ⟨hreg, rfl⟩)
    refine .inr (.inl ?_)
    cases hsol : solve (calcDiffusionCoef expf dx x shore w s).kd dt
        (setUpstream (calcDiffusionCoef expf dx x shore w s).plainSlope x w.topo) with
    | error e' =>
      rw [hsol] at h
      cases h
      exact ⟨_, _, hsol⟩
    | ok after => rw [hsol] at h; cases h

/-! ### C66 -/

/-- What can happen to a diffuser: steps and the two setters that touch the load. -/
inductive DiffuserHistory (kind : InterpKind K) (xtol rtol : K) (expf : K → K)
    (solve : NodeField R (C + 2) K → K → NodeField R (C + 2) K →
      Except Err (NodeField R (C + 2) K))
    (dx : K) (x : Fin (C + 2) → K) : Diffuser R (C + 2) K → Diffuser R (C + 2) K → Prop
  | refl (s) : DiffuserHistory kind xtol rtol expf solve dx x s s
  | step {s t u : Diffuser R (C + 2) K} {dt : K} {w w' : World R (C + 2) K}
      (hr : DiffuserHistory kind xtol rtol expf solve dx x s t)
      (h : diffuserStep kind xtol rtol expf solve dx x dt t w = .ok (u, w')) :
      DiffuserHistory kind xtol rtol expf solve dx x s u
  | setLoad {s t : Diffuser R (C + 2) K} (value : K)
      (hr : DiffuserHistory kind xtol rtol expf solve dx x s t) :
      DiffuserHistory kind xtol rtol expf solve dx x s (t.setSedimentLoad value)
  | setSlope {s t : Diffuser R (C + 2) K} (value : K)
      (hr : DiffuserHistory kind xtol rtol expf solve dx x s t) :
      DiffuserHistory kind xtol rtol expf solve dx x s (t.setPlainSlope value)

/-- What a step does to the load. -/
theorem diffuser_step_load {kind : InterpKind K} {xtol rtol : K} {expf : K → K}
    {solve : NodeField R (C + 2) K → K → NodeField R (C + 2) K →
      Except Err (NodeField R (C + 2) K)}
    {dx : K} {x : Fin (C + 2) → K} {dt : K} {s s' : Diffuser R (C + 2) K} {w w' : World R (C + 2) K}
    (hR : 0 < R) (h : diffuserStep kind xtol rtol expf solve dx x dt s w = .ok (s', w')) :
    s'.load = s.load0 * (1 + w.seaLevel * s.loadSl) ∧
    s'.ksh = s'.load / s'.plainSlope ∧
    s'.load0 = s.load0 ∧ s'.loadSl = s.loadSl ∧ s'.seaLevel0 = s.seaLevel0 ∧
    s'.gridLoad = s.gridLoad ∧ s'.plainSlope = s.plainSlope := by
  unfold diffuserStep at h
  cases hs : overRows (fun r => shorelineRow kind xtol rtol (List.ofFn x) (rowList w.topo r)
      w.seaLevel) with
  | error e => rw [hs] at h; cases h
  | ok shore =>
    rw [hs] at h
    dsimp only at h
    split_ifs at h with hreg
    obtain ⟨⟨h1, -, -, -, -, h6, h7, -, h9, -, h11⟩, hl, -⟩ :=
      calcDiffusionCoef_spec expf dx x shore w s
    set s1 := calcDiffusionCoef expf dx x shore w s with hs1
    cases hsol : solve s1.kd dt (setUpstream s1.plainSlope x w.topo) with
    | error e => rw [hsol] at h; cases h
    | ok after =>
      rw [hsol] at h
      cases h
      dsimp only
      exact ⟨(hl hR).1, by rw [(hl hR).1, (hl hR).2, h1], h6, h7, h9, h11, h1⟩

/-- C66: a new diffuser puts its sea level on the grid, and takes its load at that sea level. -/
theorem diffuser_init {seaLevel plainSlope waveBase shorefaceHeight alpha shelfSlope sedimentLoad
      loadSeaLevel basinWidth : K} {kd : Option (NodeField R C K)} {w w0 : World R C K}
    {s : Diffuser R C K}
    (hi : diffuserInit seaLevel plainSlope waveBase shorefaceHeight alpha shelfSlope sedimentLoad
      loadSeaLevel basinWidth kd w = .ok (s, w0)) :
    w0 = { w with seaLevel := seaLevel } ∧ s.load0 = sedimentLoad ∧ s.loadSl = loadSeaLevel ∧
      s.load = s.load0 * (1 + w0.seaLevel * s.loadSl) ∧ s.gridLoad = s.load ∧ s.time = 0 := by
  unfold diffuserInit at hi
  dsimp only at hi
  split_ifs at hi with h0
  cases hi
  exact ⟨rfl, rfl, rfl, rfl, rfl, rfl⟩

/-- C66: the diffusivity of the land, `k_land`, is the load over the slope of the plain at all
times, through any history of steps and setter calls. -/
theorem k_land_consistent {kind : InterpKind K} {xtol rtol : K} {expf : K → K}
    {solve : NodeField R (C + 2) K → K → NodeField R (C + 2) K →
      Except Err (NodeField R (C + 2) K)}
    {dx : K} {x : Fin (C + 2) → K} (hR : 0 < R)
    {seaLevel plainSlope waveBase shorefaceHeight alpha shelfSlope sedimentLoad
      loadSeaLevel basinWidth : K} {kd : Option (NodeField R (C + 2) K)} {w w0 : World R (C + 2) K}
    {s s' : Diffuser R (C + 2) K}
    (hi : diffuserInit seaLevel plainSlope waveBase shorefaceHeight alpha shelfSlope sedimentLoad
      loadSeaLevel basinWidth kd w = .ok (s, w0))
    (hh : DiffuserHistory kind xtol rtol expf solve dx x s s') :
    s'.ksh = s'.load / s'.plainSlope := by
  unfold diffuserInit at hi
  dsimp only at hi
  split_ifs at hi with h0
  cases hi
  induction hh with
  | refl => rfl
  | step hr h ih => exact (diffuser_step_load hR h).2.1
  | setLoad value hr ih => rfl
  | setSlope value hr ih => rfl

/-- C66 is false in general: setting `sediment_load` while running computes the load from the sea
level at construction, not from the present one. -/
theorem set_load_uses_old_sea_level :
    ∃ (s s' : Diffuser 2 3 ℚ) (w' : World 2 3 ℚ),
      diffuserStep linearKind (2/10^12) (1/10^15) (fun _ => 1) (fun _ _ z => .ok z) 1
        (fun c : Fin 3 => (c.val : ℚ)) 1 s twinWorld = .ok (s', w') ∧
      s'.load = s'.load0 * (1 + w'.seaLevel * s'.loadSl) ∧
      (s'.setSedimentLoad 5).load ≠ 5 * (1 + w'.seaLevel * s'.loadSl) := by
  have hd : (diffuserStep linearKind (2/10^12) (1/10^15) (fun _ => 1) (fun _ _ z => .ok z) 1
      (fun c : Fin 3 => (c.val : ℚ)) 1 twinDiffuser twinWorld).toOption.map
      (fun p => decide (p.1.load = p.1.load0 * (1 + p.2.seaLevel * p.1.loadSl) ∧
        (p.1.setSedimentLoad 5).load ≠ 5 * (1 + p.2.seaLevel * p.1.loadSl))) = some true := by
    decide +kernel
  cases hp : diffuserStep linearKind (2/10^12) (1/10^15) (fun _ => 1) (fun _ _ z => .ok z) 1
      (fun c : Fin 3 => (c.val : ℚ)) 1 twinDiffuser twinWorld with
  | error e => rw [hp] at hd; cases hd
  | ok p =>
    rw [hp] at hd
    simp only [Except.toOption, Option.map_some, Option.some.injEq, decide_eq_true_eq] at hd
    exact ⟨twinDiffuser, p.1, p.2, hp, hd.1, hd.2⟩

/-- C66, partial: through any history, the load after a step is the one for the sea level of that
step; and the load after the setter is the one for the sea level at construction, so the present
one if the load does not depend on sea level or sea level is back where it was. The grid value
`sediment_load` follows the setter only. -/
theorem load_follows_sea_level_partial {kind : InterpKind K} {xtol rtol : K} {expf : K → K}
    {solve : NodeField R (C + 2) K → K → NodeField R (C + 2) K →
      Except Err (NodeField R (C + 2) K)}
    {dx : K} {x : Fin (C + 2) → K} (hR : 0 < R) {s t u : Diffuser R (C + 2) K}
    (hh : DiffuserHistory kind xtol rtol expf solve dx x s t) :
    (∀ (dt : K) (w w' : World R (C + 2) K),
      diffuserStep kind xtol rtol expf solve dx x dt t w = .ok (u, w') →
      u.load = u.load0 * (1 + w'.seaLevel * s.loadSl) ∧ u.gridLoad = t.gridLoad) ∧
    (∀ (value sl : K), s.loadSl = 0 ∨ sl = s.seaLevel0 →
      (t.setSedimentLoad value).load = value * (1 + sl * s.loadSl) ∧
      (t.setSedimentLoad value).gridLoad = value * (1 + sl * s.loadSl)) := by
  have hinv : t.loadSl = s.loadSl ∧ t.seaLevel0 = s.seaLevel0 := by
    clear u
    induction hh with
    | refl => exact ⟨rfl, rfl⟩
    | step hr h ih =>
      obtain ⟨-, -, -, h4, h5, -⟩ := diffuser_step_load hR h
      exact ⟨h4.trans ih.1, h5.trans ih.2⟩
    | setLoad value hr ih => exact ih
    | setSlope value hr ih => exact ih
  constructor
  · intro dt w w' h
    obtain ⟨h1, -, h3, -, -, h6, -⟩ := diffuser_step_load hR h
    obtain ⟨-, -, -, -, hw, -⟩ := diffusion_deposit h
    refine ⟨?_, h6⟩
    rw [h1, h3, hinv.1, hw]
  · intro value sl h
    unfold Diffuser.setSedimentLoad
    dsimp only
    rw [hinv.1, hinv.2]
    rcases h with h | h
    · rw [h, mul_zero, mul_zero]; exact ⟨rfl, rfl⟩
    · rw [h]; exact ⟨rfl, rfl⟩

/-! ### C67 -/

/-- C67: at a given distance from shore, deeper water has a smaller diffusivity; across wave base
too. -/
theorem diffusivity_decreases (s : Diffuser R C ℝ) (load dx x shore d d' : ℝ) (hload : 0 < load)
    (hdx : 0 < dx) (hx : shore ≤ x) (hb : 0 ≤ s.shorefaceHeight * s.alpha + s.shelfSlope)
    (hwb : 0 < s.waveBase) (hd : 0 < d) (hdd : d < d') :
    wetDiffusivity Real.exp s load dx x shore d' < wetDiffusivity Real.exp s load dx x shore d := by
  have hbn : 0 ≤ (s.shorefaceHeight * s.alpha + s.shelfSlope) * dx := mul_nonneg hb hdx.le
  have hnum : 0 < load * ((x - shore) + dx) := mul_pos hload (by linarith)
  have hk : load * ((x - shore) + dx) / (d' + (s.shorefaceHeight * s.alpha + s.shelfSlope) * dx) <
      load * ((x - shore) + dx) / (d + (s.shorefaceHeight * s.alpha + s.shelfSlope) * dx) :=
    div_lt_div_of_pos_left hnum (by linarith) (by linarith)
  have hk' : 0 < load * ((x - shore) + dx) /
      (d' + (s.shorefaceHeight * s.alpha + s.shelfSlope) * dx) := div_pos hnum (by linarith)
  unfold wetDiffusivity
  dsimp only
  by_cases h1 : s.waveBase < d
  · rw [if_pos h1, if_pos (h1.trans hdd), if_neg hwb.ne', if_neg hwb.ne']
    refine mul_lt_mul hk (Real.exp_le_exp.mpr ?_) (Real.exp_pos _) (hk'.trans hk).le
    exact div_le_div_of_nonneg_right (by linarith) hwb.le
  · rw [if_neg h1]
    by_cases h2 : s.waveBase < d'
    · rw [if_pos h2, if_neg hwb.ne']
      have hf := (wave_base_factor d' s.waveBase hwb h2).2
      calc _ < _ * 1 := mul_lt_mul_of_pos_left hf hk'
        _ = _ := mul_one _
        _ < _ := hk
    · rw [if_neg h2]
      exact hk

/-- C67: along a profile of constant depth the diffusivity grows in proportion to the distance from
the shoreline. -/
theorem diffusivity_grows (expf : K → K) (s : Diffuser R C K) (load dx x x' shore d : K)
    (hx : x' - shore + dx ≠ 0) :
    wetDiffusivity expf s load dx x shore d =
      (x - shore + dx) / (x' - shore + dx) * wetDiffusivity expf s load dx x' shore d := by
  unfold wetDiffusivity
  dsimp only
  split_ifs
  · rw [mul_zero]
  all_goals
    rw [mul_div_assoc, mul_div_assoc]
    field_simp

/-! ### Examples -/

/-- A step that succeeds, with a profile that starts on land: the diffusivity is positive. -/
example : (diffuserStep linearKind (2/10^12) (1/10^15) (fun _ => 1) (fun _ _ z => .ok z) 1
      (fun c : Fin 3 => (c.val : ℚ)) 1 twinDiffuser twinWorld).toOption.map
    (fun p => (p.1.kd (activeRow 1, 0), p.1.kd (activeRow 1, 1), p.1.kd (activeRow 1, 2),
      p.1.load, p.2.topo (activeRow 1, 0))) = some (3, 3/2, 3/2, 3, 0) := by decide +kernel

/-- The hypotheses of `diffusivity_positive` hold for it. -/
example : ∃ s' w', diffuserStep linearKind (2/10^12) (1/10^15) (fun _ => 1) (fun _ _ z => .ok z) 1
      (fun c : Fin 3 => (c.val : ℚ)) 1 twinDiffuser twinWorld = .ok (s', w') ∧
    ∀ r c, 0 < s'.kd (activeRow r, c) := by
  obtain ⟨s', w', h, -⟩ := identical_rows_differ
  refine ⟨s', w', h, fun r c => ?_⟩
  refine diffusivity_positive (fun _ => one_pos) one_pos ?_ (le_refl _) (by decide +kernel)
    (by decide +kernel) (by decide +kernel) (by decide +kernel) (by decide +kernel) h r (.inl ?_) c
  · intro a b hab
    dsimp only
    exact_mod_cast hab
  · show (0 : ℚ) ≤ 1 - 2 * (0 : ℚ)
    norm_num

end Verif.Props
