import Verif.Lemmas.DriverRun
import Verif.Props.Driver

/-!
# Whole runs of the drivers (C15–C17, C19 for the drivers, C60, C61)
-/

set_option autoImplicit false
set_option linter.unusedSectionVars false

namespace Verif.Props

open Verif Spec

variable {K σ : Type*} {R C : ℕ} [Field K] [LinearOrder K] [IsStrictOrderedRing K]

/-- C16 for `SequenceModel`: the number of layers after `N` steps of a fresh model whose
components leave the layers alone. -/
theorem model_layer_count {start : K} {setTime : K → σ → σ} {p : σ} {w : World R C K}
    (hempty : w.layers = EventLayers.empty) {s s' : ModelState σ R C K}
    (hi : modelInit start setTime p w = .ok s) (comps : List (Component σ R C K))
    (porosity : σ → K) (hk : ∀ c ∈ comps, Keeps c World.layers)
    (obs : List (Observation σ R C K)) (h : ModelHistory comps porosity s obs s') :
    s'.world.layers.n = if obs.length < 19 then obs.length + 1
      else obs.length + 1 - 9 * ((obs.length + 1) / 10 - 1) := by
  have hr := freshHistory_archive hempty hi comps porosity hk h
  have hc := archive_count _ (freshEvents_names start w porosity obs) hr
  simp only [List.length_cons, List.length_map] at hc
  split_ifs with h1
  · exact (hc.1 (by omega)).1
  · exact (hc.2.1 (by omega)).1

/-- C15 for `SequenceModel`: the sediment at a cell is what the deposits of the steps add up to,
on top of the initial 100 m, never below bedrock. -/
theorem model_thickness {start : K} {setTime : K → σ → σ} {p : σ} {w : World R C K}
    (hempty : w.layers = EventLayers.empty) {s s' : ModelState σ R C K}
    (hi : modelInit start setTime p w = .ok s) (comps : List (Component σ R C K))
    (porosity : σ → K) (hk : ∀ c ∈ comps, Keeps c World.layers)
    (obs : List (Observation σ R C K)) (h : ModelHistory comps porosity s obs s')
    (c : Cell R C) :
    (s'.world.layers.dz c).sum =
      surface (100 :: obs.map fun o => o.world.deposit (nodeAtCell c)) := by
  have hr := freshHistory_archive hempty hi comps porosity hk h
  have ht := (archive_thickness _ (freshEvents_names start w porosity obs) hr c).1
  rw [List.map_cons, List.map_map] at ht
  exact ht

theorem recorded_age (porosity : σ → K) (o : Observation σ R C K) (c : Cell R C) :
    recorded "age" c (modelEvent porosity o) = o.time := by
  simp [recorded, modelEvent, layerProperties]

/-- C17 for `SequenceModel`: if time does not run backwards, the stored ages do not decrease
upwards, and the top layer has the time of the last step. -/
theorem model_ages {start : K} {setTime : K → σ → σ} {p : σ} {w : World R C K}
    (hempty : w.layers = EventLayers.empty) {s s' : ModelState σ R C K}
    (hi : modelInit start setTime p w = .ok s) (comps : List (Component σ R C K))
    (porosity : σ → K) (hk : ∀ c ∈ comps, Keeps c World.layers)
    (obs : List (Observation σ R C K)) (h : ModelHistory comps porosity s obs s')
    (hmono : (start :: obs.map fun o => o.time).Pairwise (· ≤ ·)) (c : Cell R C) :
    (s'.world.layers.prop "age" c).Pairwise (· ≤ ·) ∧
    (s'.world.layers.prop "age" c).getLast? = (start :: obs.map fun o => o.time).getLast? := by
  have hr := freshHistory_archive hempty hi comps porosity hk h
  have e : (initEvent start w :: obs.map (modelEvent porosity)).map (recorded "age" c) =
      start :: obs.map fun o => o.time := by
    rw [List.map_cons, List.map_map]
    exact congrArg₂ List.cons (by simp [recorded, initEvent])
      (List.map_congr_left fun o _ => recorded_age porosity o c)
  have := archive_ages_sorted _ _ (freshEvents_names start w porosity obs)
    (by simp [initEvent]) hr c (by rw [e]; exact hmono)
  rw [e] at this
  exact this

/-- C19 for `SequenceModel`: if the components keep the sand fraction of every node in `[0, 1]`,
so is the sand fraction of every layer, merged ones included. -/
theorem model_sand_range {start : K} {setTime : K → σ → σ} {p : σ} {w : World R C K}
    (hempty : w.layers = EventLayers.empty) {s s' : ModelState σ R C K}
    (hi : modelInit start setTime p w = .ok s) (comps : List (Component σ R C K))
    (porosity : σ → K) (hk : ∀ c ∈ comps, Keeps c World.layers)
    (obs : List (Observation σ R C K)) (h : ModelHistory comps porosity s obs s')
    (hsand : ∀ o ∈ obs, ∀ f, o.world.sand = some f → ∀ n, 0 ≤ f n ∧ f n ≤ 1) (c : Cell R C) :
    ∀ x ∈ s'.world.layers.prop "percent_sand" c, 0 ≤ x ∧ x ≤ 1 := by
  have hr := freshHistory_archive hempty hi comps porosity hk h
  refine archive_range _ _ (freshEvents_names start w porosity obs) hr c "percent_sand"
    (by simp) (by simp [initEvent]) ?_
  intro e he
  rcases List.mem_cons.mp he with rfl | he
  · have : recorded "percent_sand" c (initEvent start w) = 1/2 := by simp [recorded, initEvent]
    rw [this]
    constructor <;> norm_num
  · obtain ⟨o, ho, rfl⟩ := List.mem_map.mp he
    cases hs : o.world.sand with
    | none => simp [recorded, modelEvent, layerProperties, hs]
    | some f =>
      have := hsand o ho f hs (nodeAtCell c)
      simpa [recorded, modelEvent, layerProperties, hs, atCells] using this

/-- C19 for `SequenceModel`: the initial thicknesses of the layers of a cell are not negative and
add up to 10 plus everything that was ever deposited there, however much was eroded. -/
theorem model_t0 {start : K} {setTime : K → σ → σ} {p : σ} {w : World R C K}
    (hempty : w.layers = EventLayers.empty) {s s' : ModelState σ R C K}
    (hi : modelInit start setTime p w = .ok s) (comps : List (Component σ R C K))
    (porosity : σ → K) (hk : ∀ c ∈ comps, Keeps c World.layers)
    (obs : List (Observation σ R C K)) (h : ModelHistory comps porosity s obs s') (c : Cell R C) :
    (s'.world.layers.prop "t0" c).sum =
      10 + (obs.map fun o => max (o.world.deposit (nodeAtCell c)) 0).sum ∧
    ∀ x ∈ s'.world.layers.prop "t0" c, 0 ≤ x := by
  have hr := freshHistory_archive hempty hi comps porosity hk h
  obtain ⟨h1, h2⟩ := archive_t0_conserved _ _ (freshEvents_names start w porosity obs) hr c
    (by simp [initEvent])
  have e0 : recorded "t0" c (initEvent start w) = 10 := by simp [recorded, initEvent]
  have e1 : ∀ o : Observation σ R C K, recorded "t0" c (modelEvent porosity o) =
      max (o.world.deposit (nodeAtCell c)) 0 := by
    intro o
    simp [recorded, modelEvent, layerProperties, clip0, atCells]
  constructor
  · rw [List.map_cons, List.sum_cons, List.map_map, e0] at h1
    refine h1.trans ?_
    congr 2
  · refine h2 fun e he => ?_
    rcases List.mem_cons.mp he with rfl | he
    · rw [e0]; norm_num
    · obtain ⟨o, -, rfl⟩ := List.mem_map.mp he
      rw [e1]
      exact le_max_right _ _

/-! ### C61 -/

/-- What is known of a model between steps. -/
def ModelOk (s : ModelState σ R C K) : Prop :=
  (∃ es, (∀ e ∈ es, ∀ q ∈ e.kw, q.1 ∈ knownProperties) ∧
    Archive.run ⟨EventLayers.empty, 0⟩ es = .ok ⟨s.world.layers, s.archived⟩) ∧
  0 < s.world.layers.n ∧ (∀ name ∈ knownProperties, name ∈ s.world.layers.tracking) ∧
  (s.world.sedLoad = none ∨ ∃ f, s.world.sand = some f)

theorem archive_run_snoc {ι : Type*} {st st1 st2 : Archive ι K} (es : List (Event ι K))
    (e : Event ι K) (h1 : st.run es = .ok st1) (h2 : st1.addLayer e.dz e.kw = .ok st2) :
    st.run (es ++ [e]) = .ok st2 := by
  induction es generalizing st with
  | nil =>
    simp only [Archive.run, Except.ok.injEq] at h1
    subst h1
    simp only [List.nil_append, Archive.run, h2]
  | cons a es ih =>
    simp only [Archive.run] at h1
    rw [List.cons_append, Archive.run]
    cases ha : st.addLayer a.dz a.kw with
    | error err => rw [ha] at h1; cases h1
    | ok st' => rw [ha] at h1; exact ih h1

theorem modelOk_step {comps : List (Component σ R C K)} (porosity : σ → K)
    (hk : ∀ c ∈ comps, Keeps c World.layers)
    (hsand : ∀ c ∈ comps, Maintains c fun w => w.sedLoad = none ∨ ∃ f, w.sand = some f)
    {s : ModelState σ R C K} (hs : ModelOk s) (time dt : K)
    (hc : ∃ y, runComponents comps dt (s.comps, clearDeposit s.world) = .ok y) :
    ∃ s', advanceComponents comps porosity time dt s = .ok s' ∧ ModelOk s' := by
  obtain ⟨⟨p, w⟩, hc⟩ := hc
  obtain ⟨⟨es, hes, hrun⟩, hn, htr, hsd⟩ := hs
  have hwl : w.layers = s.world.layers := runComponents_keeps (w := clearDeposit s.world) World.layers comps hk hc
  have hws : w.sedLoad = none ∨ ∃ f, w.sand = some f :=
    runComponents_maintains (fun w => w.sedLoad = none ∨ ∃ f, w.sand = some f) comps hsand
      (w := clearDeposit s.world) hsd hc
  set kw := layerProperties time (porosity p) w with hkw
  have hnames : ∀ q ∈ kw, q.1 ∈ knownProperties := layerProperties_names _ _ _
  obtain ⟨ev, hadd⟩ := add_ok_of_subset (ev := w.layers) (dz := atCells w.deposit) (kw := kw)
    (.inr fun q hq => by rw [hwl]; exact htr _ (hnames q hq))
  obtain ⟨w3, hw3⟩ := updateFields_total (w := { w with layers := ev }) hws
  have harch : ∃ a, Archive.addLayer ⟨s.world.layers, s.archived⟩ (atCells w.deposit) kw = .ok a := by
    obtain ⟨ev0, h1, h2⟩ := archive_run_rel es hes hrun
    rcases h2.step ⟨atCells w.deposit, kw⟩ hnames with ⟨st', -, h3, -⟩ | ⟨-, h3⟩
    · exact ⟨st', h3⟩
    · exfalso
      have ht : s.world.layers.tracking = ev0.tracking := h2.2.tracking
      have hlast : ∀ q ∈ kw, q.1 ∈ ev0.tracking := fun q hq => by
        rw [← ht]; exact htr _ (hnames q hq)
      obtain ⟨ev1, h4⟩ := add_ok_of_subset (ev := ev0) (dz := atCells w.deposit) (kw := kw)
        (.inr hlast)
      rw [h4] at h3
      cases h3
  obtain ⟨a, ha⟩ := harch
  have haold : Archive.archiveOld ⟨ev, s.archived⟩ = .ok a := by
    unfold Archive.addLayer at ha
    rw [hwl] at hadd
    simp only [hadd] at ha
    exact ha
  have hw3' := updateFields_ok hw3
  have hsd3 : w3.sedLoad = none ∨ ∃ f, w3.sand = some f := by
    rcases hws with h | ⟨f, h⟩
    · left
      unfold updateFields updateSedLoad at hw3
      simp only [h] at hw3
      simp only [Except.ok.injEq] at hw3
      rw [← hw3]
      unfold resetTopo updateBedrock
      dsimp only
      cases w.increment <;> cases w.waterIncr <;> rfl
    · right
      exact ⟨f, by rw [hw3'.2.2.2.1]; exact h⟩
  refine ⟨⟨p, { w3 with layers := a.layers }, a.archived⟩, ?_, ?_⟩
  · unfold advanceComponents
    simp only [hc, ← hkw, hadd, hw3, hw3'.2.1, haold]
  · have hsnoc := archive_run_snoc es ⟨atCells w.deposit, kw⟩ hrun ha
    refine ⟨⟨es ++ [⟨atCells w.deposit, kw⟩], ?_, hsnoc⟩, ?_, ?_, hsd3⟩
    · intro e he
      rcases List.mem_append.mp he with he | he
      · exact hes e he
      · simp only [List.mem_singleton] at he
        subst he
        exact hnames
    · have hcount := archive_count (es ++ [⟨atCells w.deposit, kw⟩]) (by
        intro e he
        rcases List.mem_append.mp he with he | he
        · exact hes e he
        · simp only [List.mem_singleton] at he
          subst he
          exact hnames) hsnoc
      show 0 < a.layers.n
      simp only [List.length_append, List.length_singleton] at hcount
      by_cases hlt : es.length + 1 < 20
      · have := (hcount.1 hlt).1; omega
      · have := hcount.2.1 (by omega); omega
    · intro name hname
      show name ∈ a.layers.tracking
      rw [archiveOld_tracking haold, add_tracking hadd (by rw [hwl]; exact hn), hwl]
      exact htr name hname

theorem modelOk_init {start : K} {setTime : K → σ → σ} {p : σ} {w : World R C K}
    (hempty : w.layers = EventLayers.empty) {s : ModelState σ R C K}
    (hi : modelInit start setTime p w = .ok s)
    (hsand : w.sedLoad = none ∨ ∃ f, w.sand = some f) : ModelOk s := by
  have hr := freshHistory_archive hempty hi [] (fun _ => (0 : K)) (by simp) (.nil s)
  obtain ⟨ev, h1, h2, h3, -, -, -, -, h4, h5, -⟩ := modelInit_ok hi
  have hev := add_eq_ok h1
  refine ⟨⟨_, freshEvents_names start w (fun _ : σ => (0 : K)) [], hr⟩, ?_, ?_, ?_⟩
  · rw [h2, hev]; exact Nat.succ_pos _
  · intro name hname
    rw [h2, hev]
    show name ∈ trackingAfter w.layers _
    rw [hempty]
    unfold trackingAfter
    rw [if_pos (show (EventLayers.empty : EventLayers (Cell R C) K).n = 0 from rfl)]
    simp only [knownProperties, List.mem_cons, List.not_mem_nil, or_false] at hname
    simp only [initEvent, List.map_cons, List.map_nil, List.mem_cons, List.not_mem_nil, or_false]
    tauto
  · rw [h4, h5]; exact hsand

/-- C61: a complete run. On a fresh grid, with components that leave the layers alone, provide a
sand fraction wherever there is a sediment load and do not fail in states that can be reached
(those that meet some condition `I` that steps maintain), `SequenceModel.run` does not fail. It
executes `⌊(stop - start) / step⌋` steps at the expected times, and stores the number of layers
given by C16. -/
theorem model_run_completes_inv [FloorRing K] (start stop step : K) (hstep : 0 < step)
    {setTime : K → σ → σ} {p : σ} {w : World R C K}
    (hempty : w.layers = EventLayers.empty) {s : ModelState σ R C K}
    (hi : modelInit start setTime p w = .ok s)
    (hsand0 : w.sedLoad = none ∨ ∃ f, w.sand = some f)
    (comps : List (Component σ R C K)) (porosity : σ → K)
    (I : ModelState σ R C K → Prop) (hI0 : I s)
    (htotal : ∀ dt v, I v → ∃ y, runComponents comps dt (v.comps, clearDeposit v.world) = .ok y)
    (hI : ∀ time dt v v', I v → advanceComponents comps porosity time dt v = .ok v' → I v')
    (hk : ∀ c ∈ comps, Keeps c World.layers)
    (hsand : ∀ c ∈ comps, Maintains c fun w => w.sedLoad = none ∨ ∃ f, w.sand = some f)
    (fuel : ℕ) (hfuel : ⌊(stop - start) / step⌋₊ < fuel) :
    ∃ s' obs,
      runLoop (advanceComponents comps porosity) fuel (Clock.init start (some stop) step) s =
        some (⟨start, some stop, step, start + (⌊(stop - start) / step⌋₊ + 1 : ℕ) * step⟩,
          .ok s') ∧
      ModelHistory comps porosity s obs s' ∧
      (obs.map fun o => o.time) =
        (List.range ⌊(stop - start) / step⌋₊).map (fun k => start + (k + 1 : ℕ) * step) ∧
      (∀ o ∈ obs, o.dt = step) ∧
      s'.world.layers.n = (if ⌊(stop - start) / step⌋₊ < 19 then ⌊(stop - start) / step⌋₊ + 1
        else ⌊(stop - start) / step⌋₊ + 1 - 9 * ((⌊(stop - start) / step⌋₊ + 1) / 10 - 1)) ∧
      ∀ c, (s'.world.layers.prop "age" c).Pairwise (· ≤ ·) := by
  obtain ⟨h1, h2⟩ := steps_bounds (start := start) (stop := stop) hstep
  set N := ⌊(stop - start) / step⌋₊ with hN
  obtain ⟨ws, g1, g2, g3, g4, s', g5, g6⟩ := runLoop_unroll
    (fun v => ModelOk v ∧ I v) (advanceComponents comps porosity)
    (fun t d v hv => by
      obtain ⟨v', e1, e2⟩ := modelOk_step porosity hk hsand hv.1 t d (htotal _ _ hv.2)
      exact ⟨v', e1, e2, hI t d v v' hv.2 e1⟩) start stop step N h1 h2
    N 0 (by omega) fuel hfuel s ⟨modelOk_init hempty hi hsand0, hI0⟩
  obtain ⟨obs, k1, k2, k3⟩ := modelHistory_of_chain comps porosity step
    (fun k => start + (k + 1 : ℕ) * step) N ws s s' g2 g5 (by
      intro k hk'
      obtain ⟨v, v', e1, e2, e3⟩ := g4 k hk'
      rw [show 0 + k + 1 = k + 1 by omega] at e3
      exact ⟨v, v', e1, e2, e3⟩)
  have hlen : obs.length = N := by
    have := congrArg List.length k2
    simpa using this
  refine ⟨s', obs, ?_, k1, k2, k3, ?_, ?_⟩
  · rw [Nat.cast_zero, zero_mul, add_zero] at g6
    exact g6
  · have := model_layer_count hempty hi comps porosity hk obs k1
    rw [hlen] at this
    exact this
  · intro c
    refine (model_ages hempty hi comps porosity hk obs k1 ?_ c).1
    rw [k2]
    refine List.pairwise_cons.mpr ⟨?_, ?_⟩
    · intro t ht
      obtain ⟨k, -, rfl⟩ := List.mem_map.mp ht
      have : (0 : K) ≤ ((k + 1 : ℕ) : K) * step := by positivity
      linarith
    · rw [List.pairwise_map]
      refine List.Pairwise.imp ?_ List.pairwise_lt_range
      intro a b hab
      have : ((a + 1 : ℕ) : K) * step ≤ ((b + 1 : ℕ) : K) * step := by
        apply mul_le_mul_of_nonneg_right _ hstep.le
        exact_mod_cast Nat.succ_le_succ hab.le
      linarith

/-- C61: a complete run. On a fresh grid, with components that never fail, leave the layers alone
and provide a sand fraction wherever there is a sediment load, `SequenceModel.run` does not fail.
It executes `⌊(stop - start) / step⌋` steps at the expected times, and stores the number of layers
given by C16. -/
theorem model_run_completes [FloorRing K] (start stop step : K) (hstep : 0 < step)
    {setTime : K → σ → σ} {p : σ} {w : World R C K}
    (hempty : w.layers = EventLayers.empty) {s : ModelState σ R C K}
    (hi : modelInit start setTime p w = .ok s)
    (hsand0 : w.sedLoad = none ∨ ∃ f, w.sand = some f)
    (comps : List (Component σ R C K)) (porosity : σ → K)
    (htotal : ∀ dt x, ∃ y, runComponents comps dt x = .ok y)
    (hk : ∀ c ∈ comps, Keeps c World.layers)
    (hsand : ∀ c ∈ comps, Maintains c fun w => w.sedLoad = none ∨ ∃ f, w.sand = some f)
    (fuel : ℕ) (hfuel : ⌊(stop - start) / step⌋₊ < fuel) :
    ∃ s' obs,
      runLoop (advanceComponents comps porosity) fuel (Clock.init start (some stop) step) s =
        some (⟨start, some stop, step, start + (⌊(stop - start) / step⌋₊ + 1 : ℕ) * step⟩,
          .ok s') ∧
      ModelHistory comps porosity s obs s' ∧
      (obs.map fun o => o.time) =
        (List.range ⌊(stop - start) / step⌋₊).map (fun k => start + (k + 1 : ℕ) * step) ∧
      (∀ o ∈ obs, o.dt = step) ∧
      s'.world.layers.n = (if ⌊(stop - start) / step⌋₊ < 19 then ⌊(stop - start) / step⌋₊ + 1
        else ⌊(stop - start) / step⌋₊ + 1 - 9 * ((⌊(stop - start) / step⌋₊ + 1) / 10 - 1)) ∧
      ∀ c, (s'.world.layers.prop "age" c).Pairwise (· ≤ ·) :=
  model_run_completes_inv start stop step hstep hempty hi hsand0 comps porosity (fun _ => True)
    trivial (fun dt v _ => htotal dt _) (fun _ _ _ _ _ _ => trivial) hk hsand fuel hfuel

/-! ### C60 -/

theorem added_prop_last {ι : Type*} {ev : EventLayers ι K} {dz : ι → K}
    {kw : EventLayers.Kwds ι K} {name : String} (hn : 0 < ev.n) (h : name ∈ ev.tracking) (s : ι) :
    ((added ev dz kw).prop name s).getLast? =
      some (((kw.get? name).map (fun v => v s)).getD 0) := by
  have ht : (trackingAfter ev kw).contains name = true := by
    unfold trackingAfter
    rw [if_neg (by omega)]
    simpa using h
  show (if (trackingAfter ev kw).contains name = true then
    ev.prop name s ++ [((kw.get? name).map (fun v => v s)).getD 0] else []).getLast? = _
  rw [if_pos ht, List.getLast?_append]
  rfl

theorem added_prop_length {ι : Type*} {ev : EventLayers ι K} {dz : ι → K}
    {kw : EventLayers.Kwds ι K} {name : String} (hn : 0 < ev.n) (h : name ∈ ev.tracking) (s : ι) :
    ((added ev dz kw).prop name s).length = (ev.prop name s).length + 1 := by
  have ht : (trackingAfter ev kw).contains name = true := by
    unfold trackingAfter
    rw [if_neg (by omega)]
    simpa using h
  show (if (trackingAfter ev kw).contains name = true then
    ev.prop name s ++ [((kw.get? name).map (fun v => v s)).getD 0] else []).length = _
  rw [if_pos ht, List.length_append]
  rfl

/-- Archiving does not touch the top layer. -/
theorem archiveOld_last {ι : Type*} {ev : EventLayers ι K} {a : ℕ} {st : Archive ι K}
    (h : Archive.archiveOld ⟨ev, a⟩ = .ok st) {name : String} {s : ι}
    (hname : name ∈ ev.tracking) (hlen : (ev.prop name s).length = ev.n) :
    (st.layers.prop name s).getLast? = (ev.prop name s).getLast? := by
  unfold Archive.archiveOld at h
  dsimp only at h
  split_ifs at h with hif
  · unfold EventLayers.reduce at h
    split_ifs at h with h1 h2
    · have h1 := h1
      cases h
      dsimp only
      have hlt : a + 10 < (ev.prop name s).length := by
        rw [hlen]
        omega
      rw [if_pos (by simpa using hname)]
      unfold reduceColumn
      rw [List.getLast?_append]
      have hd : ((ev.prop name s).drop (a + 10)).getLast? = (ev.prop name s).getLast? := by
        rw [List.getLast?_drop, if_neg (by omega)]
      rw [hd]
      have : ev.prop name s ≠ [] := by
        intro h0; rw [h0] at hlt; simp at hlt
      rw [List.getLast?_eq_some_getLast this]
      rfl
  · cases h; rfl

/-- C60 for `Sequence`: the water depth recorded with a layer is the depth of the water above the
surface that the update leaves, as long as the erosion does not reach bedrock. -/
theorem seq_water_depth (comps : List (Component σ R C K))
    (hk : ∀ c ∈ comps, Keeps c World.layers)
    (s s' : SeqState σ R C K) (dt time : K) (p : σ) (w : World R C K)
    (hc : runComponents comps dt (s.comps, s.world) = .ok (p, w))
    (h : seqUpdate comps dt time s = .ok s') (c : Cell R C)
    (htr : "water_depth" ∈ s.world.layers.tracking) (hn : 0 < s.world.layers.n)
    (hnn : NonnegLayers s.world.layers)
    (hcons : w.topo (nodeAtCell c) = w.bedrock (nodeAtCell c) + (s.world.layers.dz c).sum)
    (hnot : 0 ≤ (s.world.layers.dz c).sum + w.deposit (nodeAtCell c))
    (hlen : (s.world.layers.prop "water_depth" c).length = s.world.layers.n) :
    (s'.world.layers.prop "water_depth" c).getLast? =
      some (s'.world.seaLevel - s'.world.topo (nodeAtCell c)) := by
  obtain ⟨p', w', ev, rl, a, h1, h2, h3, h4, rfl⟩ := seqUpdate_ok h
  rw [hc] at h1
  cases h1
  have hwl : w.layers = s.world.layers := runComponents_keeps World.layers comps hk hc
  have hev := add_eq_ok h2
  have hprop : (ev.prop "water_depth" c).getLast? = some (w.seaLevel -
      (w.topo (nodeAtCell c) + w.deposit (nodeAtCell c))) := by
    rw [hev]
    rw [added_prop_last (by rw [hwl]; exact hn) (by rw [hwl]; exact htr)]
    simp [EventLayers.Kwds.get?, layerProperties, atCells]
  have hlen' : (ev.prop "water_depth" c).length = ev.n := by
    rw [hev, added_prop_length (by rw [hwl]; exact hn) (by rw [hwl]; exact htr), hwl, hlen]
    rfl
  have hlast := archiveOld_last h4 (by rw [add_tracking h2 (by rw [hwl]; exact hn), hwl]; exact htr) hlen'
  show (a.layers.prop "water_depth" c).getLast? = some (w.seaLevel - setCells _ _ (nodeAtCell c))
  rw [hlast, hprop, setCells_nodeAtCell]
  have hsum : (ev.dz c).sum = (s.world.layers.dz c).sum + w.deposit (nodeAtCell c) := by
    rw [hev]
    show (addColumn (w.layers.dz c) (atCells w.deposit c)).sum = _
    rw [hwl, addColumn_sum (hnn c)]
    exact max_eq_right hnot
  show _ = some (w.seaLevel - (w.bedrock (nodeAtCell c) + (a.layers.dz c).sum))
  rw [archiveOld_sum h4 c, hsum, hcons]
  congr 1
  ring

/-- C60 for `SequenceModel`: the water depth recorded with a layer is the depth before the
deposit, on the topography of the previous step. -/
theorem model_water_depth (comps : List (Component σ R C K)) (porosity : σ → K)
    (hk : ∀ c ∈ comps, Keeps c World.layers)
    (s s' : ModelState σ R C K) (dt time : K) (p : σ) (w : World R C K)
    (hc : runComponents comps dt (s.comps, clearDeposit s.world) = .ok (p, w))
    (h : advanceComponents comps porosity time dt s = .ok s') (c : Cell R C)
    (htr : "water_depth" ∈ s.world.layers.tracking) (hn : 0 < s.world.layers.n)
    (hlen : (s.world.layers.prop "water_depth" c).length = s.world.layers.n) :
    (s'.world.layers.prop "water_depth" c).getLast? =
      some (w.seaLevel - w.topo (nodeAtCell c)) := by
  obtain ⟨p', w', ev, w3, a, h1, h2, h3, h4, rfl⟩ := advanceComponents_ok h
  rw [hc] at h1
  cases h1
  have hwl : w.layers = s.world.layers := runComponents_keeps (w := clearDeposit s.world) World.layers comps hk hc
  have hev := add_eq_ok h2
  have hlen' : (ev.prop "water_depth" c).length = ev.n := by
    rw [hev, added_prop_length (by rw [hwl]; exact hn) (by rw [hwl]; exact htr), hwl, hlen]
    rfl
  have hlast := archiveOld_last h4 (by rw [add_tracking h2 (by rw [hwl]; exact hn), hwl]; exact htr) hlen'
  show (a.layers.prop "water_depth" c).getLast? = _
  rw [hlast, hev]
  rw [added_prop_last (by rw [hwl]; exact hn) (by rw [hwl]; exact htr)]
  simp [EventLayers.Kwds.get?, layerProperties, atCells]

/-! ### `Sequence` -/

/-- C15 for `Sequence`, over any history: the sediment at a cell is what the deposits add up to on
top of the sediment there was, never below bedrock. -/
theorem seq_thickness (comps : List (Component σ R C K))
    (hk : ∀ c ∈ comps, Keeps c World.layers) (s s' : SeqState σ R C K)
    (hs : NonnegLayers s.world.layers) (obs : List (Observation σ R C K))
    (h : SeqHistory comps s obs s') (c : Cell R C) :
    (s'.world.layers.dz c).sum =
      (obs.map fun o => o.world.deposit (nodeAtCell c)).foldl (fun t d => max 0 (t + d))
        (s.world.layers.dz c).sum := by
  induction h with
  | nil s => rfl
  | step hc ha hr ih =>
    rename_i s s1 s2 time dt p w obs
    have hnn := seq_update_nonneg comps (fun c hc' dt p w p' w' hw h => by
      show NonnegLayers w'.layers
      rw [show w'.layers = w.layers from hk c hc' dt p w p' w' h]; exact hw) dt time s s1 hs ha
    rw [ih hnn, List.map_cons, List.foldl_cons]
    obtain ⟨p', w', ev, rl, a, h1, h2, h3, h4, rfl⟩ := seqUpdate_ok ha
    rw [hc] at h1
    cases h1
    have hwl : w.layers = s.world.layers := runComponents_keeps World.layers comps hk hc
    congr 1
    show (a.layers.dz c).sum = _
    rw [archiveOld_sum h4 c, add_eq_ok h2]
    show (addColumn (w.layers.dz c) (atCells w.deposit c)).sum = _
    rw [hwl, addColumn_sum (hs c)]
    rfl

/-- C16 for `Sequence`, started on a grid without sediment. -/
theorem seq_layer_count (comps : List (Component σ R C K))
    (hk : ∀ c ∈ comps, Keeps c World.layers) (s s' : SeqState σ R C K)
    (hempty : s.world.layers = EventLayers.empty) (ha : s.archived = 0)
    (obs : List (Observation σ R C K)) (h : SeqHistory comps s obs s') :
    s'.world.layers.n = if obs.length < 20 then obs.length
      else obs.length - 9 * (obs.length / 10 - 1) := by
  have hr := seqHistory_archive comps hk h
  rw [hempty, ha] at hr
  have hc := archive_count (obs.map seqEvent) (by
    intro e he
    obtain ⟨o, -, rfl⟩ := List.mem_map.mp he
    exact layerProperties_names _ _ _) hr
  simp only [List.length_map] at hc
  split_ifs with h1
  · exact (hc.1 h1).1
  · exact (hc.2.1 (by omega)).1

/-! ### C62 -/

/-- C62 for `SequenceModel`: the layer that exists at the beginning is recorded with the depth of
the bedrock, not of the surface. It is right exactly where there is no sediment. -/
theorem model_initial_water_depth {start : K} {setTime : K → σ → σ} {p : σ} {w : World R C K}
    (hempty : w.layers = EventLayers.empty) {s : ModelState σ R C K}
    (hi : modelInit start setTime p w = .ok s) (c : Cell R C) :
    s.world.layers.prop "water_depth" c = [-w.bedrock (nodeAtCell c)] ∧
    (s.world.layers.prop "water_depth" c = [s.world.seaLevel - s.world.topo (nodeAtCell c)] ↔
      w.topo (nodeAtCell c) = w.bedrock (nodeAtCell c)) := by
  obtain ⟨ev, h1, h2, -, -, h5, -, h7, -⟩ := modelInit_ok hi
  have e : s.world.layers.prop "water_depth" c = [-w.bedrock (nodeAtCell c)] := by
    rw [h2, add_eq_ok h1, hempty]
    simp [added, trackingAfter, EventLayers.empty, initEvent, EventLayers.Kwds.get?, atCells]
  refine ⟨e, ?_⟩
  rw [e, h5, h7]
  simp only [List.cons.injEq, and_true, zero_sub, neg_inj]
  exact eq_comm

/-- C62 for `Sequence`: the layer that exists at the beginning is recorded with the depth the
water would have if the initial sediment were there twice. It is right exactly where there is no
sediment. -/
theorem seq_initial_water_depth (p : σ) (w : World R C K)
    (hempty : w.layers = EventLayers.empty) (s : SeqState σ R C K)
    (h : seqInit p w true = .ok s) (hsome : ∃ c : Cell R C, w.bedrock (nodeAtCell c) < w.topo (nodeAtCell c))
    (c : Cell R C) (habove : w.bedrock (nodeAtCell c) ≤ w.topo (nodeAtCell c)) :
    s.world.layers.prop "water_depth" c =
      [w.seaLevel - (w.topo (nodeAtCell c) + (w.topo (nodeAtCell c) - w.bedrock (nodeAtCell c)))] ∧
    s.world.topo (nodeAtCell c) = w.topo (nodeAtCell c) ∧
    (s.world.layers.prop "water_depth" c = [s.world.seaLevel - s.world.topo (nodeAtCell c)] ↔
      w.topo (nodeAtCell c) = w.bedrock (nodeAtCell c)) := by
  unfold seqInit at h
  dsimp only at h
  rw [if_pos rfl] at h
  have hex : ∃ c : Cell R C, 0 < atCells w.topo c - atCells w.bedrock c := by
    obtain ⟨c, hc⟩ := hsome
    exact ⟨c, sub_pos.mpr hc⟩
  rw [if_pos hex] at h
  cases h2 : seqAddLayer 0 (⟨p, w, 0, [], ⟨none, []⟩⟩ : SeqState σ R C K)
      (fun c => atCells w.topo c - atCells w.bedrock c) with
  | error e => rw [h2] at h; cases h
  | ok s2 =>
    rw [h2] at h
    obtain ⟨ev, rl, a, g1, g2, g3, rfl⟩ := seqAddLayer_ok h2
    cases h
    dsimp only at g1 g3
    have hev := add_eq_ok g1
    rw [hempty] at hev
    have hn : ev.n = 1 := by rw [hev]; rfl
    have ha : a = ⟨ev, 0⟩ := by
      unfold Archive.archiveOld at g3
      rw [if_neg (by simp only [hn]; norm_num)] at g3
      exact (Except.ok.inj g3).symm
    subst ha
    have e1 : ev.prop "water_depth" c = [w.seaLevel - (w.topo (nodeAtCell c) +
        (w.topo (nodeAtCell c) - w.bedrock (nodeAtCell c)))] := by
      rw [hev]
      simp [added, trackingAfter, EventLayers.empty, layerProperties, EventLayers.Kwds.get?,
        atCells, setCells_nodeAtCell]
    have e2 : (resetTopo { w with
        topo := setCells w.topo fun c => atCells w.topo c + (atCells w.topo c - atCells w.bedrock c)
        layers := ev }).topo (nodeAtCell c) = w.topo (nodeAtCell c) := by
      unfold resetTopo
      dsimp only
      rw [setCells_nodeAtCell]
      have : (ev.dz c) = [w.topo (nodeAtCell c) - w.bedrock (nodeAtCell c)] := by
        rw [hev]
        show addColumn [] (atCells w.topo c - atCells w.bedrock c) = _
        rw [addColumn_nonneg_eq _ (by unfold atCells; linarith)]
        rfl
      unfold EventLayers.thickness
      rw [this]
      simp [atCells]
    refine ⟨e1, e2, ?_⟩
    show ev.prop "water_depth" c = [w.seaLevel - _] ↔ _
    rw [e1]
    show _ ↔ _
    have e3 := e2
    unfold clearDeposit
    dsimp only at e3 ⊢
    rw [e3]
    simp only [List.cons.injEq, and_true, sub_right_inj]
    constructor
    · intro h; linarith
    · intro h; linarith

/-! ### Concrete cases -/

/-- One active row of three nodes, 5 m of water, on which the components below can run. -/
def exWorld : World 1 3 ℚ where
  topo := fun _ => -5
  bedrock := fun _ => -105
  deposit := fun _ => 0
  increment := some fun _ => 0
  sand := some fun _ => 1/4
  sedLoad := some fun _ => 0
  waterLoad := some fun _ => 0
  waterIncr := some fun _ => 0
  seaLevel := 0
  seaIncr := none
  rowShore := some fun _ => none
  rowShelf := some fun _ => none
  gridShore := none
  gridShelf := none
  layers := EventLayers.empty

/-- A component that subsides by `dt / 200` and deposits 2 m. -/
def exComp : Component Unit 1 3 ℚ := fun dt x =>
  .ok (x.1, { x.2 with
    deposit := fun n => x.2.deposit n + 2
    increment := x.2.increment.map fun f n => f n - dt / 200 })

/-- A component that erodes 200 m, more than there is. -/
def exErode : Component Unit 1 3 ℚ := fun _ x =>
  .ok (x.1, { x.2 with deposit := fun _ => -200 })

/-- A fresh model. -/
def exModel : Except Err (ModelState Unit 1 3 ℚ) := modelInit 0 (fun _ s => s) () exWorld

/-- One step of 100 years of the fresh model. -/
def exStep (comps : List (Component Unit 1 3 ℚ)) : Except Err (ModelState Unit 1 3 ℚ) :=
  match exModel with
  | .ok s => advanceComponents comps (fun _ => 1/2) 100 100 s
  | .error e => .error e

/-- A fresh `Sequence` on the same grid. -/
def exSeq : Except Err (SeqState Unit 1 3 ℚ) := seqInit () exWorld true

/-- One update of the fresh `Sequence`. -/
def exUpdate (comps : List (Component Unit 1 3 ℚ)) : Except Err (SeqState Unit 1 3 ℚ) :=
  match exSeq with
  | .ok s => seqUpdate comps 100 100 s
  | .error e => .error e

theorem exWorld_start : ∃ s, exModel = .ok s ∧ s.world.layers.n = 1 := ⟨_, rfl, rfl⟩

/-- C18, C21: bedrock −105 − 1/2, sediment 100 + 2. -/
example : (exStep [exComp]).toOption.map (fun s => (s.world.topo (1, 1), s.world.bedrock (1, 1),
    s.world.layers.dz (0, 0), s.world.increment.map (fun f => f (1, 1)))) =
    some (-7/2, -211/2, [100, 2], some 0) := by decide +kernel

/-- C18 when more is eroded than there is: the topography stops at the bedrock. -/
example : (exStep [exErode]).toOption.map (fun s => (s.world.topo (1, 1), s.world.bedrock (1, 1),
    s.world.layers.dz (0, 0))) = some (-105, -105, [0, 0]) := by decide +kernel

/-- C19: eroding leaves the initial thickness alone and records none. -/
example : (exStep [exErode]).toOption.map (fun s => s.world.layers.prop "t0" (0, 0)) =
    some [10, 0] := by decide +kernel

/-- C62: 5 m of water, recorded as 105 m by one driver and as −95 m by the other (first entries);
C60: the two drivers record different water depths for the same components and the same
initial grid. -/
theorem water_depth_differs :
    ((exStep [exComp]).toOption.map fun s => s.world.layers.prop "water_depth" (0, 0)) =
      some [105, 5] ∧
    ((exUpdate [exComp]).toOption.map fun s => s.world.layers.prop "water_depth" (0, 0)) =
      some [-95, 3] := by
  decide +kernel

/-- C22: the same component moves the bedrock of a `SequenceModel` but not of a `Sequence`. -/
theorem seq_bedrock_differs :
    ((exStep [exComp]).toOption.map fun s => s.world.bedrock (1, 1)) = some (-211/2) ∧
    ((exUpdate [exComp]).toOption.map fun s =>
      (s.world.bedrock (1, 1), s.world.increment.map fun f => f (1, 1))) =
      some (-105, some (-1/2)) := by
  decide +kernel

/-- C61 on the concrete model: 1950 years in steps of 100, 19 steps and 11 layers. -/
example : ∃ s s' obs, exModel = .ok s ∧
    runLoop (advanceComponents [exComp] fun _ => 1/2) 100 (Clock.init 0 (some 1950) 100) s =
      some (⟨0, some 1950, 100, 2000⟩, .ok s') ∧
    ModelHistory [exComp] (fun _ => 1/2) s obs s' ∧ obs.length = 19 ∧ s'.world.layers.n = 11 := by
  have hN : ⌊((1950 : ℚ) - 0) / 100⌋₊ = 19 := by
    rw [Nat.floor_eq_iff (by norm_num)]
    norm_num
  obtain ⟨s, hs, -⟩ := exWorld_start
  obtain ⟨s', obs, h1, h2, h3, -, h5, -⟩ := model_run_completes 0 1950 100 (by norm_num)
    (w := exWorld) rfl hs (.inr ⟨_, rfl⟩) [exComp] (fun _ => 1/2) (fun dt x => ⟨_, rfl⟩)
    (by
      intro c hc dt p w p' w' h
      simp only [List.mem_singleton] at hc
      subst hc
      cases h
      rfl)
    (by
      intro c hc dt p w p' w' hw h
      simp only [List.mem_singleton] at hc
      subst hc
      cases h
      exact hw) 100 (by rw [hN]; norm_num)
  refine ⟨s, s', obs, hs, ?_, h2, ?_, ?_⟩
  · rw [h1, hN]
    norm_num
  · have := congrArg List.length h3
    rw [hN] at this
    simpa using this
  · rw [h5, hN]
    norm_num

/-- C52: three rows, the component existing from the start. -/
example : ((⟨none, []⟩ : RowLayers 3 ℚ).add 0 0 [some 1, some 2, some 3] [none, none, none]).toOption.map
    (fun rl => rl.layers.map fun l => l.shore 0) = some [[some 1, some 2, some 3]] := by
  decide +kernel

end Verif.Props
