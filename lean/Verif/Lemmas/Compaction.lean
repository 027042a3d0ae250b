import Verif.Lemmas.Prelude
import Verif.Spec.Compaction
import Verif.Lemmas.DriverRun

/-!
# Layers with the same record
-/

set_option autoImplicit false
set_option linter.unusedSectionVars false

namespace Verif

open Spec

variable {K σ ι : Type*} {R C : ℕ} [Field K] [LinearOrder K] [IsStrictOrderedRing K]


theorem sameRecord_refl (l : EventLayers ι K) : SameRecord l l :=
  ⟨rfl, rfl, fun _ => rfl, fun _ _ => rfl, fun _ => rfl⟩

theorem sameRecord_trans {l m n : EventLayers ι K} (h : SameRecord l m) (g : SameRecord m n) :
    SameRecord l n :=
  ⟨g.count.trans h.count, g.names.trans h.names, fun s => (g.columns s).trans (h.columns s),
    fun name hn => (g.values name hn).trans (h.values name hn),
    fun s => (g.porosities s).trans (h.porosities s)⟩

theorem keepsRecord_of_keeps {c : Component σ R C K} (h : Keeps c World.layers) :
    KeepsRecord c := fun dt p w p' w' hc => by
  rw [h dt p w p' w' hc]
  exact sameRecord_refl _

theorem sameRecord_trackingAfter {l l' : EventLayers ι K} (h : SameRecord l l')
    (kw : EventLayers.Kwds ι K) : trackingAfter l' kw = trackingAfter l kw := by
  unfold trackingAfter
  rw [h.count, h.names]

/-- Adding the same layer to both. -/
theorem sameRecord_add {l l' : EventLayers ι K} (h : SameRecord l l') (dz : ι → K)
    (kw : EventLayers.Kwds ι K) :
    (∃ ev ev', l.add dz kw = .ok ev ∧ l'.add dz kw = .ok ev' ∧ SameRecord ev ev') ∨
    (l.add dz kw = .error .valueError ∧ l'.add dz kw = .error .valueError) := by
  rw [add_def, add_def, sameRecord_trackingAfter h]
  split_ifs with hall
  · refine .inl ⟨_, _, rfl, rfl, ?_⟩
    refine ⟨?_, ?_, ?_, ?_, ?_⟩
    · show l'.n + 1 = l.n + 1
      rw [h.count]
    · exact sameRecord_trackingAfter h kw
    · intro s
      show (addColumn (l'.dz s) (dz s)).length = (addColumn (l.dz s) (dz s)).length
      rw [addColumn_length, addColumn_length, h.columns]
    · intro name hn
      funext s
      simp only [added, sameRecord_trackingAfter h kw, h.values name hn]
    · intro s
      simp only [added, sameRecord_trackingAfter h kw]
      split_ifs
      · simp [h.porosities]
      · rfl
  · exact .inr ⟨rfl, rfl⟩

theorem reduceColumn_length_congr {a b : ℕ} {f g : List K → K} {l m : List K}
    (h : l.length = m.length) : (reduceColumn a b f l).length = (reduceColumn a b g m).length := by
  simp [reduceColumn, h]

/-- Archiving both. -/
theorem sameRecord_archive {l l' : EventLayers ι K} (h : SameRecord l l') (n : ℕ) :
    (∃ a a', Archive.archiveOld ⟨l, n⟩ = .ok a ∧ Archive.archiveOld ⟨l', n⟩ = .ok a' ∧
      a'.archived = a.archived ∧ SameRecord a.layers a'.layers) ∨
    (∃ e, Archive.archiveOld ⟨l, n⟩ = .error e ∧ Archive.archiveOld ⟨l', n⟩ = .error e) := by
  unfold Archive.archiveOld EventLayers.reduce
  dsimp only
  rw [h.count, h.names]
  by_cases h1 : ((l.n : ℤ) - (n : ℤ)) % 20 = 0
  · rw [if_pos h1, if_pos h1]
    by_cases h2 : ¬ (n < n + 10 ∧ n + 10 ≤ l.n)
    · simp only [if_pos h2]
      exact .inr ⟨_, rfl, rfl⟩
    · simp only [if_neg h2]
      by_cases h3 : l.tracking.all
          (fun name => (layerReducers (K := K) l.tracking name).isSome) = true
      · simp only [h3, if_true]
        refine .inl ⟨_, _, rfl, rfl, rfl, rfl, rfl, fun s => ?_, fun name hn => ?_, fun s => ?_⟩
        · exact reduceColumn_length_congr (h.columns s)
        · funext s
          dsimp only
          rw [h.values name hn]
        · dsimp only
          split_ifs
          · exact reduceColumn_length_congr (h.porosities s)
          · rfl
      · simp only [h3]
        exact .inr ⟨_, rfl, rfl⟩
  · rw [if_neg h1, if_neg h1]
    exact .inl ⟨_, _, rfl, rfl, rfl, h⟩

theorem runComponents_record (comps : List (Component σ R C K)) (hk : ∀ c ∈ comps, KeepsRecord c)
    {dt : K} {p p' : σ} {w w' : World R C K} (h : runComponents comps dt (p, w) = .ok (p', w')) :
    SameRecord w.layers w'.layers := by
  induction comps generalizing p w with
  | nil => cases h; exact sameRecord_refl _
  | cons c cs ih =>
    rw [runComponents] at h
    cases hc : c dt (p, w) with
    | error e => rw [hc] at h; cases h
    | ok s =>
      obtain ⟨p1, w1⟩ := s
      rw [hc] at h
      exact sameRecord_trans (hk c (by simp) _ _ _ _ _ hc) (ih (fun c' hc' => hk c' (by simp [hc'])) h)

/-- The layers of a model whose components keep the record have the record of layers to which the
same events are added and that nothing else changes. -/
theorem modelHistory_record (comps : List (Component σ R C K)) (porosity : σ → K)
    (hk : ∀ c ∈ comps, KeepsRecord c) {s s' : ModelState σ R C K}
    {obs : List (Observation σ R C K)} (h : ModelHistory comps porosity s obs s')
    (l : EventLayers (Cell R C) K) (hl : SameRecord l s.world.layers) :
    ∃ l', Archive.run ⟨l, s.archived⟩ (obs.map (modelEvent porosity)) = .ok ⟨l', s'.archived⟩ ∧
      SameRecord l' s'.world.layers := by
  induction h generalizing l with
  | nil s => exact ⟨l, rfl, hl⟩
  | step hc ha hr ih =>
    rename_i s s1 s2 time dt p w obs
    obtain ⟨p', w', ev, w3, a, h1, h2, h3, h4, rfl⟩ := advanceComponents_ok ha
    rw [hc] at h1
    cases h1
    have hw : SameRecord l w.layers :=
      sameRecord_trans hl (runComponents_record (w := clearDeposit s.world) comps hk hc)
    rcases sameRecord_add hw (atCells w.deposit) (layerProperties time (porosity p) w) with
      ⟨ev0, ev', g1, g2, g3⟩ | ⟨-, g2⟩
    swap
    · rw [g2] at h2; cases h2
    rw [g2] at h2
    cases h2
    rcases sameRecord_archive g3 s.archived with ⟨a0, a', k1, k2, k3, k4⟩ | ⟨e, -, k2⟩
    swap
    · rw [k2] at h4; cases h4
    rw [k2] at h4
    cases h4
    obtain ⟨l', r1, r2⟩ := ih a0.layers k4
    have hadd := addLayer_of (st := ⟨l, s.archived⟩) g1 k1
    refine ⟨l', ?_, r2⟩
    rw [List.map_cons, Archive.run]
    simp only [modelEvent, hadd]
    have e1 : (⟨a0.layers, a.archived⟩ : Archive (Cell R C) K) = a0 := by rw [k3]
    rw [← e1]
    exact r1

theorem freshHistory_record {start : K} {setTime : K → σ → σ} {p : σ} {w : World R C K}
    (hempty : w.layers = EventLayers.empty) {s s' : ModelState σ R C K}
    (hi : modelInit start setTime p w = .ok s)
    (comps : List (Component σ R C K)) (porosity : σ → K) (hk : ∀ c ∈ comps, KeepsRecord c)
    {obs : List (Observation σ R C K)} (h : ModelHistory comps porosity s obs s') :
    ∃ l', Archive.run ⟨EventLayers.empty, 0⟩ (initEvent start w :: obs.map (modelEvent porosity)) =
        .ok ⟨l', s'.archived⟩ ∧ SameRecord l' s'.world.layers := by
  obtain ⟨ev, h1, h2, h3, -⟩ := modelInit_ok hi
  obtain ⟨l', h4, h5⟩ := modelHistory_record comps porosity hk h s.world.layers (sameRecord_refl _)
  rw [h2, h3] at h4
  rw [hempty] at h1
  have hn : ev.n = 1 := by rw [add_eq_ok h1]; rfl
  have h6 : Archive.archiveOld (⟨ev, 0⟩ : Archive (Cell R C) K) = .ok ⟨ev, 0⟩ := by
    unfold Archive.archiveOld
    rw [if_neg (by simp only [hn]; norm_num)]
  have hadd := addLayer_of (st := ⟨EventLayers.empty, 0⟩) h1 h6
  refine ⟨l', ?_, h5⟩
  rw [Archive.run, hadd]
  exact h4

end Verif
