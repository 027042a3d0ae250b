import Verif.Lemmas.Prelude
import Verif.Lemmas.Archive
import Verif.Lemmas.Clock
import Verif.Lemmas.Grid
import Verif.Spec.Driver

/-! # Lemmas on the drivers -/

set_option autoImplicit false
set_option linter.unusedSectionVars false

namespace Verif

open Spec

variable {K σ ι : Type*} {R C : ℕ}

theorem runComponents_keeps {α : Type*} (f : World R C K → α) (comps : List (Component σ R C K))
    (hk : ∀ c ∈ comps, Keeps c f) {dt : K} {p p' : σ} {w w' : World R C K}
    (h : runComponents comps dt (p, w) = .ok (p', w')) : f w' = f w := by
  induction comps generalizing p w with
  | nil => simp only [runComponents, Except.ok.injEq, Prod.mk.injEq] at h; rw [h.2]
  | cons c cs ih =>
    simp only [runComponents] at h
    cases hc : c dt (p, w) with
    | error e => rw [hc] at h; cases h
    | ok s =>
      rw [hc] at h
      obtain ⟨p1, w1⟩ := s
      rw [ih (fun c hc => hk c (by simp [hc])) h, hk c (by simp) _ _ _ _ _ hc]

theorem runComponents_maintains (P : World R C K → Prop) (comps : List (Component σ R C K))
    (hk : ∀ c ∈ comps, Maintains c P) {dt : K} {p p' : σ} {w w' : World R C K} (hw : P w)
    (h : runComponents comps dt (p, w) = .ok (p', w')) : P w' := by
  induction comps generalizing p w with
  | nil => simp only [runComponents, Except.ok.injEq, Prod.mk.injEq] at h; rw [← h.2]; exact hw
  | cons c cs ih =>
    simp only [runComponents] at h
    cases hc : c dt (p, w) with
    | error e => rw [hc] at h; cases h
    | ok s =>
      rw [hc] at h
      obtain ⟨p1, w1⟩ := s
      exact ih (fun c hc => hk c (by simp [hc])) (hk c (by simp) _ _ _ _ _ hw hc) h

variable [Field K] [LinearOrder K] [IsStrictOrderedRing K]

theorem reduceColumn_sum (a b : ℕ) (h : a ≤ b) (l : List K) :
    (reduceColumn a b List.sum l).sum = l.sum := by
  unfold reduceColumn
  have : l = l.take a ++ (l.drop a).take (b - a) ++ l.drop b := by
    rw [← List.take_add, show a + (b - a) = b by omega, List.take_append_drop]
  conv_rhs => rw [this]
  simp

theorem reduceColumn_nonneg (a b : ℕ) (l : List K) (h : ∀ x ∈ l, 0 ≤ x) :
    ∀ x ∈ reduceColumn a b List.sum l, 0 ≤ x := by
  intro x hx
  unfold reduceColumn at hx
  simp only [List.mem_append, List.mem_singleton] at hx
  rcases hx with (hx | rfl) | hx
  · exact h x (List.mem_of_mem_take hx)
  · exact List.sum_nonneg fun y hy => h y (List.mem_of_mem_drop (List.mem_of_mem_take hy))
  · exact h x (List.mem_of_mem_drop hx)

theorem archiveOld_dz {a a' : Archive ι K} (h : a.archiveOld = .ok a') (s : ι) :
    a'.layers.dz s = a.layers.dz s ∨
      a'.layers.dz s = reduceColumn a.archived (a.archived + 10) List.sum (a.layers.dz s) := by
  unfold Archive.archiveOld at h
  split_ifs at h with h1
  · cases hr : a.layers.reduce a.archived (a.archived + 10) (layerReducers a.layers.tracking) with
    | error e => rw [hr] at h; cases h
    | ok ev =>
      rw [hr] at h
      cases h
      unfold EventLayers.reduce at hr
      split_ifs at hr
      cases hr
      exact .inr rfl
  · cases h; exact .inl rfl

theorem archiveOld_sum {a a' : Archive ι K} (h : a.archiveOld = .ok a') (s : ι) :
    (a'.layers.dz s).sum = (a.layers.dz s).sum := by
  rcases archiveOld_dz h s with e | e <;> rw [e]
  exact reduceColumn_sum _ _ (by omega) _

theorem archiveOld_nonneg {a a' : Archive ι K} (h : a.archiveOld = .ok a')
    (hn : NonnegLayers a.layers) : NonnegLayers a'.layers := by
  intro s x hx
  rcases archiveOld_dz h s with e | e <;> rw [e] at hx
  · exact hn s x hx
  · exact reduceColumn_nonneg _ _ _ (hn s) x hx

theorem add_nonneg' {ev ev' : EventLayers ι K} {dz : ι → K} {kw : EventLayers.Kwds ι K}
    (h : ev.add dz kw = .ok ev') (hn : NonnegLayers ev) : NonnegLayers ev' := by
  rw [add_eq_ok h]
  intro s
  exact addColumn_nonneg (hn s) _

/-- `TopoConsistent` in terms of the model's cells. -/
theorem topoConsistent_iff {w : World R C K} :
    TopoConsistent w ↔ ∀ c : Cell R C,
      atCells w.topo c = atCells w.bedrock c + w.layers.thickness c := by
  constructor
  · rintro h ⟨r, c⟩
    exact h r _ c ⟨c.val + 1, by have := c.isLt; omega⟩ rfl rfl
  · intro h r q c d hq hd
    have e : (q, d) = nodeAtCell (r, c) := by
      apply Prod.ext
      · exact Fin.ext hq
      · exact Fin.ext hd
    rw [e]
    exact h (r, c)

theorem resetTopo_consistent (w : World R C K) : TopoConsistent (resetTopo w) := by
  rw [topoConsistent_iff]
  intro c
  simp only [resetTopo, atCells, setCells_nodeAtCell]

theorem updateSedLoad_ok {w w' : World R C K} (h : updateSedLoad w = .ok w') :
    w'.topo = w.topo ∧ w'.bedrock = w.bedrock ∧ w'.increment = w.increment ∧
      w'.layers = w.layers ∧ w'.deposit = w.deposit ∧ w'.sand = w.sand ∧
      w'.seaLevel = w.seaLevel ∧ w'.waterIncr = w.waterIncr ∧ w'.rowShore = w.rowShore ∧
      w'.rowShelf = w.rowShelf ∧ w'.waterLoad = w.waterLoad ∧ w'.seaIncr = w.seaIncr := by
  unfold updateSedLoad at h
  cases h1 : w.sedLoad with
  | none => rw [h1] at h; cases h; simp
  | some l =>
    rw [h1] at h
    cases h2 : w.sand with
    | none => rw [h2] at h; cases h
    | some sand => rw [h2] at h; cases h; simp [h2]

/-- What `_update_fields` does to the fields of interest. -/
theorem updateFields_ok {w w' : World R C K} (h : updateFields w = .ok w') :
    TopoConsistent w' ∧ w'.layers = w.layers ∧ w'.deposit = w.deposit ∧ w'.sand = w.sand ∧
      w'.seaLevel = w.seaLevel ∧
      (∀ n, w'.bedrock n = w.bedrock n + (w.increment.map (fun f => f n)).getD 0) ∧
      (w'.increment = w.increment.map fun _ _ => 0) ∧
      (∀ n, (∀ c, n ≠ nodeAtCell c) → w'.topo n = w.topo n) := by
  unfold updateFields at h
  cases h1 : updateSedLoad w with
  | error e => rw [h1] at h; cases h
  | ok w1 =>
    rw [h1] at h
    obtain ⟨e1, e2, e3, e4, e5, e6, e7, e8, -⟩ := updateSedLoad_ok h1
    dsimp only at h
    have hb : ∀ n, (updateBedrock w1).bedrock n =
        w.bedrock n + (w.increment.map (fun f => f n)).getD 0 := by
      intro n
      unfold updateBedrock
      rw [← e3]
      cases hi : w1.increment with
      | none => simp [e2]
      | some f => simp [e2]
    have hi : (updateBedrock w1).increment = w.increment.map fun _ _ => 0 := by
      unfold updateBedrock
      rw [← e3]
      cases hi : w1.increment with
      | none => simp [hi]
      | some f => simp
    have hrest : (updateBedrock w1).layers = w.layers ∧ (updateBedrock w1).deposit = w.deposit ∧
        (updateBedrock w1).sand = w.sand ∧ (updateBedrock w1).seaLevel = w.seaLevel ∧
        (updateBedrock w1).topo = w.topo := by
      unfold updateBedrock
      cases hi : w1.increment <;> simp [e1, e4, e5, e6, e7]
    have hcons := resetTopo_consistent (updateBedrock w1)
    have hother : ∀ n, (∀ c, n ≠ nodeAtCell c) → (resetTopo (updateBedrock w1)).topo n = w.topo n := by
      intro n hn
      unfold resetTopo
      dsimp only
      rw [setCells_other _ _ _ hn, hrest.2.2.2.2]
    obtain ⟨f1, f2, f3, f4, f5⟩ := hrest
    cases hw : (resetTopo (updateBedrock w1)).waterIncr with
    | none =>
      rw [hw] at h; cases h
      exact ⟨hcons, f1, f2, f3, f4, hb, hi, hother⟩
    | some f =>
      rw [hw] at h; cases h
      exact ⟨hcons, f1, f2, f3, f4, hb, hi, hother⟩

theorem topoConsistent_congr {w w' : World R C K} (ht : w'.topo = w.topo)
    (hb : w'.bedrock = w.bedrock) (hl : ∀ s, (w'.layers.dz s).sum = (w.layers.dz s).sum)
    (h : TopoConsistent w) : TopoConsistent w' := by
  intro r q c d hq hd
  rw [ht, hb, hl]
  exact h r q c d hq hd

/-- One step of a `SequenceModel`, taken apart. -/
theorem advanceComponents_ok {comps : List (Component σ R C K)} {porosity : σ → K} {time dt : K}
    {s s' : ModelState σ R C K} (h : advanceComponents comps porosity time dt s = .ok s') :
    ∃ p w ev w3 a,
      runComponents comps dt (s.comps, clearDeposit s.world) = .ok (p, w) ∧
      w.layers.add (atCells w.deposit) (layerProperties time (porosity p) w) = .ok ev ∧
      updateFields { w with layers := ev } = .ok w3 ∧
      Archive.archiveOld ⟨ev, s.archived⟩ = .ok a ∧
      s' = ⟨p, { w3 with layers := a.layers }, a.archived⟩ := by
  unfold advanceComponents at h
  cases h1 : runComponents comps dt (s.comps, clearDeposit s.world) with
  | error e => rw [h1] at h; cases h
  | ok pw =>
    obtain ⟨p, w⟩ := pw
    rw [h1] at h
    dsimp only at h
    cases h2 : w.layers.add (atCells w.deposit) (layerProperties time (porosity p) w) with
    | error e => rw [h2] at h; cases h
    | ok ev =>
      rw [h2] at h
      dsimp only at h
      cases h3 : updateFields { w with layers := ev } with
      | error e => rw [h3] at h; cases h
      | ok w3 =>
        rw [h3] at h
        dsimp only at h
        have hl : w3.layers = ev := (updateFields_ok h3).2.1
        rw [hl] at h
        cases h4 : Archive.archiveOld ⟨ev, s.archived⟩ with
        | error e => rw [h4] at h; cases h
        | ok a =>
          rw [h4] at h
          exact ⟨p, w, ev, w3, a, rfl, h2, h3, h4, (Except.ok.inj h).symm⟩

theorem addLayer_of {st a : Archive ι K} {dz : ι → K} {kw : EventLayers.Kwds ι K}
    {ev : EventLayers ι K} (h1 : st.layers.add dz kw = .ok ev)
    (h2 : Archive.archiveOld ⟨ev, st.archived⟩ = .ok a) : st.addLayer dz kw = .ok a := by
  unfold Archive.addLayer
  rw [h1]; exact h2

theorem seqAddLayer_ok {time : K} {s s' : SeqState σ R C K} {dz : Cell R C → K}
    (h : seqAddLayer time s dz = .ok s') :
    ∃ ev rl a,
      s.world.layers.add dz (layerProperties time (1/2)
        { s.world with topo := setCells s.world.topo fun c => atCells s.world.topo c + dz c }) =
        .ok ev ∧
      s.rowLayers.add time s.world.seaLevel (rowArgument s.world.rowShore)
        (rowArgument s.world.rowShelf) = .ok rl ∧
      Archive.archiveOld ⟨ev, s.archived⟩ = .ok a ∧
      s' = ⟨s.comps, { s.world with
              topo := setCells s.world.topo fun c => atCells s.world.topo c + dz c,
              layers := a.layers }, a.archived,
            s.gridLayers ++ [⟨time, s.world.seaLevel, s.world.gridShore.getD none,
              s.world.gridShelf.getD none⟩], rl⟩ := by
  unfold seqAddLayer at h
  dsimp only at h
  cases h1 : s.world.layers.add dz (layerProperties time (1/2)
        { s.world with topo := setCells s.world.topo fun c => atCells s.world.topo c + dz c }) with
  | error e => rw [h1] at h; cases h
  | ok ev =>
    rw [h1] at h
    dsimp only at h
    cases h2 : s.rowLayers.add time s.world.seaLevel (rowArgument s.world.rowShore)
        (rowArgument s.world.rowShelf) with
    | error e => rw [h2] at h; cases h
    | ok rl =>
      rw [h2] at h
      dsimp only at h
      cases h3 : Archive.archiveOld ⟨ev, s.archived⟩ with
      | error e => rw [h3] at h; cases h
      | ok a =>
        rw [h3] at h
        exact ⟨ev, rl, a, rfl, rfl, h3, (Except.ok.inj h).symm⟩

/-- One update of a `Sequence`, taken apart. -/
theorem seqUpdate_ok {comps : List (Component σ R C K)} {dt time : K} {s s' : SeqState σ R C K}
    (h : seqUpdate comps dt time s = .ok s') :
    ∃ p w ev rl a,
      runComponents comps dt (s.comps, s.world) = .ok (p, w) ∧
      w.layers.add (atCells w.deposit) (layerProperties time (1/2)
        { w with topo := setCells w.topo fun c => atCells w.topo c + atCells w.deposit c }) =
        .ok ev ∧
      s.rowLayers.add time w.seaLevel (rowArgument w.rowShore) (rowArgument w.rowShelf) = .ok rl ∧
      Archive.archiveOld ⟨ev, s.archived⟩ = .ok a ∧
      s' = ⟨p, clearDeposit (resetTopo { w with
              topo := setCells w.topo fun c => atCells w.topo c + atCells w.deposit c,
              layers := a.layers }), a.archived,
            s.gridLayers ++ [⟨time, w.seaLevel, w.gridShore.getD none,
              w.gridShelf.getD none⟩], rl⟩ := by
  unfold seqUpdate at h
  cases h1 : runComponents comps dt (s.comps, s.world) with
  | error e => rw [h1] at h; cases h
  | ok pw =>
    obtain ⟨p, w⟩ := pw
    rw [h1] at h
    dsimp only at h
    cases h2 : seqAddLayer time { s with comps := p, world := w } (atCells w.deposit) with
    | error e => rw [h2] at h; cases h
    | ok s2 =>
      rw [h2] at h
      obtain ⟨ev, rl, a, g1, g2, g3, g4⟩ := seqAddLayer_ok h2
      subst g4
      exact ⟨p, w, ev, rl, a, rfl, g1, g2, g3, (Except.ok.inj h).symm⟩

/-! ### Invariants of run loops -/

theorem runLoop_invariant {W : Type*} (P : W → Prop) (advance : K → K → W → Except Err W)
    (hP : ∀ t d w w', P w → advance t d w = .ok w' → P w') (fuel : ℕ) (c c' : Clock K) (w w' : W)
    (hw : P w) (h : runLoop advance fuel c w = some (c', .ok w')) : P w' := by
  induction fuel generalizing c w with
  | zero => cases h
  | succ fuel ih =>
    rw [runLoop.eq_def] at h
    dsimp only at h
    rcases hs : runOneStep advance c w none with ⟨c1, e | w1⟩
    · rw [hs] at h
      cases e <;> simp at h
      rw [← h.2]; exact hw
    · rw [hs] at h
      refine ih c1 w1 ?_ h
      unfold runOneStep at hs
      rcases hadv : c.advance with ⟨c2, e | u⟩
      · rw [hadv] at hs; simp at hs
      · rw [hadv] at hs
        simp only [Prod.mk.injEq] at hs
        exact hP _ _ _ _ hw hs.2

theorem seqLoop_invariant {W : Type*} (P : W → Prop) (update : K → K → W → Except Err W)
    (hP : ∀ d t w w', P w → update d t w = .ok w' → P w') (dt target : K) (n : ℕ) (time t' : K)
    (w w' : W) (hw : P w) (h : seqLoop update dt target n time w = .ok (t', w')) : P w' := by
  induction n generalizing time w with
  | zero => simp only [seqLoop, Except.ok.injEq, Prod.mk.injEq] at h; rw [← h.2]; exact hw
  | succ n ih =>
    simp only [seqLoop] at h
    cases h1 : update (min dt (target - time)) (time + min dt (target - time)) w with
    | error e => rw [h1] at h; cases h
    | ok w1 => rw [h1] at h; exact ih _ _ (hP _ _ _ _ hw h1) h

theorem seqRun_invariant [FloorRing K] {W : Type*} (P : W → Prop)
    (update : K → K → W → Except Err W)
    (hP : ∀ d t w w', P w → update d t w = .ok w' → P w') (timeStep time : K)
    (target dt : Option K) (t' : K) (w w' : W) (hw : P w)
    (h : seqRun update timeStep time w target dt = .ok (t', w')) : P w' := by
  unfold seqRun at h
  dsimp only at h
  split_ifs at h
  · exact seqLoop_invariant P update hP _ _ _ _ _ _ _ hw h
  · exact seqLoop_invariant P update hP _ _ _ _ _ _ _ hw h

end Verif
