import Verif.Lemmas.Driver
import Verif.Lemmas.History

/-! # Lemmas on whole runs of the drivers -/

set_option autoImplicit false
set_option linter.unusedSectionVars false

namespace Verif

open Spec

variable {K σ ι : Type*} {R C : ℕ} [Field K] [LinearOrder K] [IsStrictOrderedRing K]

/-- The event that a step of a `SequenceModel` adds to the layers. -/
def modelEvent (porosity : σ → K) (o : Observation σ R C K) : Event (Cell R C) K :=
  ⟨atCells o.world.deposit, layerProperties o.time (porosity o.comps) o.world⟩

/-- The event that `SequenceModel.__init__` adds to the layers. -/
def initEvent (start : K) (w : World R C K) : Event (Cell R C) K :=
  ⟨fun _ => 100, [("age", fun _ => start), ("water_depth", fun c => -atCells w.bedrock c),
    ("t0", fun _ => 10), ("percent_sand", fun _ => 1/2), ("porosity", fun _ => 1/2)]⟩

theorem modelHistory_archive (comps : List (Component σ R C K)) (porosity : σ → K)
    (hk : ∀ c ∈ comps, Keeps c World.layers) {s s' : ModelState σ R C K}
    {obs : List (Observation σ R C K)} (h : ModelHistory comps porosity s obs s') :
    Archive.run ⟨s.world.layers, s.archived⟩ (obs.map (modelEvent porosity)) =
      .ok ⟨s'.world.layers, s'.archived⟩ := by
  induction h with
  | nil s => rfl
  | step hc ha hr ih =>
    rename_i s s1 s2 time dt p w obs
    obtain ⟨p', w', ev, w3, a, h1, h2, h3, h4, rfl⟩ := advanceComponents_ok ha
    rw [hc] at h1
    cases h1
    have hwl : w.layers = (clearDeposit s.world).layers :=
      runComponents_keeps World.layers comps hk hc
    have h2' : s.world.layers.add (atCells w.deposit)
        (layerProperties time (porosity p) w) = .ok ev := by
      rw [hwl] at h2; exact h2
    have hadd := addLayer_of (st := ⟨s.world.layers, s.archived⟩) h2' h4
    rw [List.map_cons, Archive.run]
    simp only [modelEvent, hadd]
    exact ih

theorem modelInit_ok {start : K} {setTime : K → σ → σ} {p : σ} {w : World R C K}
    {s : ModelState σ R C K} (h : modelInit start setTime p w = .ok s) :
    ∃ ev, w.layers.add (initEvent start w).dz (initEvent start w).kw = .ok ev ∧
      s.world.layers = ev ∧ s.archived = 0 ∧ s.comps = setTime start p ∧ s.world.topo = w.topo ∧
      s.world.bedrock = w.bedrock ∧ s.world.seaLevel = 0 ∧ s.world.sand = w.sand ∧
      s.world.sedLoad = w.sedLoad ∧ s.world.increment = w.increment ∧
      s.world.deposit = w.deposit := by
  unfold modelInit at h
  cases h1 : w.rowShore with
  | none => rw [h1] at h; cases h
  | some a =>
    cases h2 : w.rowShelf with
    | none => rw [h1, h2] at h; cases h
    | some b =>
      rw [h1, h2] at h
      dsimp only at h
      cases h3 : w.layers.add (fun _ => 100)
          [("age", fun _ => start), ("water_depth", fun c => -atCells w.bedrock c),
          ("t0", fun _ => 10), ("percent_sand", fun _ => 1/2), ("porosity", fun _ => 1/2)] with
      | error e => rw [h3] at h; cases h
      | ok ev =>
        rw [h3] at h
        cases h
        refine ⟨ev, h3, ?_⟩
        cases w.waterLoad <;> exact ⟨rfl, rfl, rfl, rfl, rfl, rfl, rfl, rfl, rfl, rfl⟩

/-- A history from a fresh model, as a history of layers. -/
theorem freshHistory_archive {start : K} {setTime : K → σ → σ} {p : σ} {w : World R C K}
    (hempty : w.layers = EventLayers.empty) {s s' : ModelState σ R C K}
    (hi : modelInit start setTime p w = .ok s)
    (comps : List (Component σ R C K)) (porosity : σ → K)
    (hk : ∀ c ∈ comps, Keeps c World.layers)
    {obs : List (Observation σ R C K)} (h : ModelHistory comps porosity s obs s') :
    Archive.run ⟨EventLayers.empty, 0⟩ (initEvent start w :: obs.map (modelEvent porosity)) =
      .ok ⟨s'.world.layers, s'.archived⟩ := by
  obtain ⟨ev, h1, h2, h3, -⟩ := modelInit_ok hi
  have h4 := modelHistory_archive comps porosity hk h
  rw [h2, h3] at h4
  rw [hempty] at h1
  have hn : ev.n = 1 := by rw [add_eq_ok h1]; rfl
  have h5 : Archive.archiveOld (⟨ev, 0⟩ : Archive (Cell R C) K) = .ok ⟨ev, 0⟩ := by
    unfold Archive.archiveOld
    rw [if_neg (by simp only [hn]; norm_num)]
  have hadd := addLayer_of (st := ⟨EventLayers.empty, 0⟩) h1 h5
  rw [Archive.run, hadd]
  exact h4

/-- The event that an update of a `Sequence` adds to the layers. -/
def seqEvent (o : Observation σ R C K) : Event (Cell R C) K :=
  ⟨atCells o.world.deposit, layerProperties o.time (1/2)
    { o.world with
      topo := setCells o.world.topo fun c => atCells o.world.topo c + atCells o.world.deposit c }⟩

theorem seqHistory_archive (comps : List (Component σ R C K))
    (hk : ∀ c ∈ comps, Keeps c World.layers) {s s' : SeqState σ R C K}
    {obs : List (Observation σ R C K)} (h : SeqHistory comps s obs s') :
    Archive.run ⟨s.world.layers, s.archived⟩ (obs.map seqEvent) =
      .ok ⟨s'.world.layers, s'.archived⟩ := by
  induction h with
  | nil s => rfl
  | step hc ha hr ih =>
    rename_i s s1 s2 time dt p w obs
    obtain ⟨p', w', ev, rl, a, h1, h2, h3, h4, rfl⟩ := seqUpdate_ok ha
    rw [hc] at h1
    cases h1
    have hwl : w.layers = s.world.layers := runComponents_keeps World.layers comps hk hc
    have h2' : s.world.layers.add (seqEvent ⟨time, dt, p, w⟩).dz (seqEvent ⟨time, dt, p, w⟩).kw =
        .ok ev := by
      rw [← hwl]; exact h2
    have hadd := addLayer_of (st := ⟨s.world.layers, s.archived⟩) h2' h4
    rw [List.map_cons, Archive.run]
    simp only [hadd]
    exact ih

theorem layerProperties_names (time porosity : K) (w : World R C K) :
    ∀ q ∈ layerProperties time porosity w, q.1 ∈ knownProperties := by
  intro q hq
  unfold layerProperties at hq
  cases hs : w.sand <;> rw [hs] at hq <;>
    simp only [List.append_nil, List.mem_append, List.mem_cons, List.not_mem_nil, or_false] at hq
  · rcases hq with rfl | rfl | rfl | rfl <;> simp [knownProperties]
  · rcases hq with (rfl | rfl | rfl | rfl) | rfl <;> simp [knownProperties]

theorem initEvent_names (start : K) (w : World R C K) :
    ∀ q ∈ (initEvent start w).kw, q.1 ∈ knownProperties := by
  intro q hq
  simp only [initEvent, List.mem_cons, List.not_mem_nil, or_false] at hq
  rcases hq with rfl | rfl | rfl | rfl | rfl <;> simp [knownProperties]

theorem freshEvents_names (start : K) (w : World R C K) (porosity : σ → K)
    (obs : List (Observation σ R C K)) :
    ∀ e ∈ initEvent start w :: obs.map (modelEvent porosity), ∀ q ∈ e.kw,
      q.1 ∈ knownProperties := by
  intro e he
  rcases List.mem_cons.mp he with rfl | he
  · exact initEvent_names start w
  · obtain ⟨o, -, rfl⟩ := List.mem_map.mp he
    exact layerProperties_names _ _ _

theorem add_ok_of_subset {ev : EventLayers ι K} {dz : ι → K} {kw : EventLayers.Kwds ι K}
    (h : ev.n = 0 ∨ ∀ q ∈ kw, q.1 ∈ ev.tracking) : ∃ ev', ev.add dz kw = .ok ev' := by
  rw [add_def]
  rw [if_pos]
  · exact ⟨_, rfl⟩
  · rw [List.all_eq_true]
    intro q hq
    unfold trackingAfter
    rcases h with h | h
    · rw [if_pos h]; simpa using ⟨q.2, hq⟩
    · split_ifs
      · simpa using ⟨q.2, hq⟩
      · simpa using h q hq

theorem add_tracking {ev ev' : EventLayers ι K} {dz : ι → K} {kw : EventLayers.Kwds ι K}
    (h : ev.add dz kw = .ok ev') (hn : 0 < ev.n) : ev'.tracking = ev.tracking := by
  rw [add_eq_ok h]
  show trackingAfter ev kw = ev.tracking
  unfold trackingAfter
  rw [if_neg (by omega)]

theorem archiveOld_tracking {a a' : Archive ι K} (h : a.archiveOld = .ok a') :
    a'.layers.tracking = a.layers.tracking := by
  unfold Archive.archiveOld at h
  split_ifs at h with h1
  · cases hr : a.layers.reduce a.archived (a.archived + 10) (layerReducers a.layers.tracking) with
    | error e => rw [hr] at h; cases h
    | ok ev =>
      rw [hr] at h
      cases h
      unfold EventLayers.reduce at hr
      split_ifs at hr
      cases hr
      rfl
  · cases h; rfl

theorem updateFields_total {w : World R C K} (h : w.sedLoad = none ∨ ∃ f, w.sand = some f) :
    ∃ w', updateFields w = .ok w' := by
  have h1 : ∃ w1, updateSedLoad w = .ok w1 := by
    unfold updateSedLoad
    cases hs : w.sedLoad with
    | none => exact ⟨_, rfl⟩
    | some l =>
      rcases h with h | ⟨f, h⟩
      · rw [hs] at h; cases h
      · simp only [h]; exact ⟨_, rfl⟩
  obtain ⟨w1, h1⟩ := h1
  unfold updateFields
  simp only [h1]
  exact ⟨_, rfl⟩

/-- How the loop of `SequenceModel.run` unrolls, for a driver that keeps an invariant under which
it does not fail. -/
theorem runLoop_unroll {W : Type*} (P : W → Prop) (advance : K → K → W → Except Err W)
    (hP : ∀ t d w, P w → ∃ w', advance t d w = .ok w' ∧ P w') (start stop step : K) (n : ℕ)
    (h1 : ∀ k < n, start + (k + 1 : ℕ) * step ≤ stop) (h2 : stop < start + (n + 1 : ℕ) * step)
    (r m : ℕ) (hr : m + r = n) (fuel : ℕ) (hf : r < fuel) (w : W) (hw : P w) :
    ∃ ws : List W, ws.length = r + 1 ∧ ws[0]? = some w ∧ (∀ v ∈ ws, P v) ∧
      (∀ k, k < r → ∃ v v', ws[k]? = some v ∧ ws[k + 1]? = some v' ∧
        advance (start + (m + k + 1 : ℕ) * step) step v = .ok v') ∧
      ∃ w', ws[r]? = some w' ∧
        runLoop advance fuel ⟨start, some stop, step, start + m * step⟩ w =
          some (⟨start, some stop, step, start + (n + 1 : ℕ) * step⟩, .ok w') := by
  induction r generalizing m fuel w with
  | zero =>
    obtain ⟨fu, rfl⟩ : ∃ fu, fuel = fu + 1 := ⟨fuel - 1, by omega⟩
    have hm : m = n := by omega
    subst hm
    refine ⟨[w], rfl, rfl, by simpa using hw, fun k hk => absurd hk (by omega), w, rfl, ?_⟩
    have ht : start + (m : K) * step + step = start + ((m + 1 : ℕ) : K) * step := by
      push_cast; ring
    simp only [runLoop, runOneStep, Clock.advance, ht, if_pos h2]
  | succ r ih =>
    obtain ⟨fu, rfl⟩ : ∃ fu, fuel = fu + 1 := ⟨fuel - 1, by omega⟩
    have ht : start + (m : K) * step + step = start + ((m + 1 : ℕ) : K) * step := by
      push_cast; ring
    have hle := h1 m (by omega)
    obtain ⟨w1, hw1, hPw1⟩ := hP (start + ((m + 1 : ℕ) : K) * step) step w hw
    obtain ⟨ws, g1, g2, g3, g4, w', g5, g6⟩ := ih (m + 1) (by omega) fu (by omega) w1 hPw1
    refine ⟨w :: ws, by simp [g1], rfl, ?_, ?_, w', by simpa using g5, ?_⟩
    · intro v hv
      rcases List.mem_cons.mp hv with rfl | hv
      · exact hw
      · exact g3 v hv
    · intro k hk
      cases k with
      | zero =>
        refine ⟨w, w1, rfl, by simpa using g2, ?_⟩
        rw [show m + 0 + 1 = m + 1 by omega]
        exact hw1
      | succ k =>
        obtain ⟨v, v', e1, e2, e3⟩ := g4 k (by omega)
        refine ⟨v, v', by simpa using e1, by simpa using e2, ?_⟩
        rw [show m + (k + 1) + 1 = m + 1 + k + 1 by omega]
        exact e3
    · simp only [runLoop, runOneStep, Clock.advance, effectiveStep, ht, if_neg (not_lt.mpr hle), hw1]
      exact g6

/-- A chain of successful steps is a history. -/
theorem modelHistory_of_chain (comps : List (Component σ R C K)) (porosity : σ → K) (dt : K)
    (times : ℕ → K) (r : ℕ) (ws : List (ModelState σ R C K)) (s s' : ModelState σ R C K)
    (h0 : ws[0]? = some s) (hr : ws[r]? = some s')
    (hstep : ∀ k, k < r → ∃ v v', ws[k]? = some v ∧ ws[k + 1]? = some v' ∧
      advanceComponents comps porosity (times k) dt v = .ok v') :
    ∃ obs, ModelHistory comps porosity s obs s' ∧
      obs.map (fun o => o.time) = (List.range r).map times ∧ ∀ o ∈ obs, o.dt = dt := by
  induction r generalizing s ws times with
  | zero =>
    rw [h0] at hr
    cases hr
    exact ⟨[], .nil _, rfl, by simp⟩
  | succ r ih =>
    obtain ⟨v, v', e1, e2, e3⟩ := hstep 0 (by omega)
    rw [h0] at e1
    cases e1
    obtain ⟨p, w, ev, w3, a, g1, g2, g3, g4, g5⟩ := advanceComponents_ok e3
    obtain ⟨obs, k1, k2, k3⟩ := ih (fun k => times (k + 1)) ws.tail v'
      (by rw [List.getElem?_tail]; exact e2) (by rw [List.getElem?_tail]; exact hr)
      (by
        intro k hk
        obtain ⟨u, u', f1, f2, f3⟩ := hstep (k + 1) (by omega)
        exact ⟨u, u', by rw [List.getElem?_tail]; exact f1, by rw [List.getElem?_tail]; exact f2, f3⟩)
    refine ⟨⟨times 0, dt, p, w⟩ :: obs, .step g1 e3 k1, ?_, ?_⟩
    · rw [List.map_cons, k2, List.range_succ_eq_map, List.map_cons, List.map_map]
      rfl
    · intro o ho
      rcases List.mem_cons.mp ho with rfl | ho
      · rfl
      · exact k3 o ho

end Verif
