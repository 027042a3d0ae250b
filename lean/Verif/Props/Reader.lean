import Verif.Model.Reader
import Verif.Props.OneRecord

/-!
# C153: reading a bathymetry while a model is running
-/

set_option autoImplicit false
set_option linter.unusedSectionVars false

namespace Verif.Props

open Verif Verif.Spec

variable {K : Type*} {R C : ℕ} [Field K] [LinearOrder K] [IsStrictOrderedRing K]

/-- C153: right after the reader has run, `z` is the profile of the file and the elevation along every
row of the grid. -/
theorem reader_z_when_read {curve : Curve K} {x : Fin C → K} {w w' : World R C K}
    (h : bathymetryStep curve x w = .ok w') (c : Fin C) :
    curve (x c) = .ok (readerZ w' c) ∧ ∀ r, getProfile w'.topo r c = readerZ w' c := by
  obtain ⟨h1, -, -⟩ := bathymetry_rows curve x w w' h
  refine ⟨h1 0 c, fun r => ?_⟩
  have := (h1 (activeRow r) c).symm.trans (h1 0 c)
  injection this

/-- C153: whatever steps a model then takes, `z` stays the profile of the file. -/
theorem reader_z_of_run {curve : Curve K} {x : Fin (C + 2) → K} {env : Env R C K}
    {ps : List (Process K)} {porosity : ProcState R C K → K}
    {s s' : ModelState (ProcState R C K) R (C + 2) K}
    {obs : List (Observation (ProcState R C K) R (C + 2) K)} {w : World R (C + 2) K}
    (hread : bathymetryStep curve x w = .ok s.world)
    (h : ModelHistory (ps.map (Process.component env)) porosity s obs s') (c : Fin (C + 2)) :
    curve (x c) = .ok (readerZ s'.world c) := by
  rw [(reader_z_when_read hread c).1]
  exact congrArg _ ((package_edges h (0, c)).1 (.inl rfl)).symm

/-- After a step without compaction, from any surface: what the cells are filled with. -/
theorem step_surface {env : Env R C K} {ps : List (Process K)}
    (hps : "compaction" ∉ ps.map Process.name) {porosity : ProcState R C K → K} {time dt : K}
    {s s' : ModelState (ProcState R C K) R (C + 2) K} (hnn : NonnegLayers s.world.layers)
    (h : advanceComponents (ps.map (Process.component env)) porosity time dt s = .ok s')
    (r : Fin R) (c : Fin C) (n : Node R (C + 2)) (h1 : n.1.val = r.val + 1)
    (h2 : n.2.val = c.val + 1) :
    s'.world.topo n = s'.world.bedrock n +
      max 0 ((s.world.layers.dz (r, c)).sum + s'.world.deposit n) := by
  have ht := (model_step_topo _ _ _ _ _ _ h) r n.1 (c : Fin (C + 2 - 2)) n.2 h1 h2
  obtain ⟨p', w', ev, w3, a, g1, g2, g3, g4, rfl⟩ := advanceComponents_ok h
  obtain ⟨hl, -⟩ := components_layers hps g1
  obtain ⟨-, u1, u2, -⟩ := updateFields_ok g3
  have en : n = nodeAtCell (C := C + 2) (r, c) := Prod.ext (Fin.ext h1) (Fin.ext h2)
  rw [show n = (n.1, n.2) from rfl, ht]
  congr 1
  show (a.layers.dz (r, c)).sum = _
  rw [archiveOld_sum g4]
  show (ev.dz (r, c)).sum = _
  rw [add_eq_ok g2]
  show (addColumn (w'.layers.dz (r, c)) (atCells w'.deposit (r, c))).sum = _
  rw [addColumn_sum (fun v hv => by rw [hl] at hv; exact hnn _ v hv), hl]
  show max 0 (_ + atCells w'.deposit (r, c)) = max 0 (_ + w3.deposit n)
  rw [u2, en]
  rfl

/-- C153: a bathymetry read between two steps of a model is forgotten by the next step. At the cells
the surface follows from the one before the reading, with the movement of the bedrock and the deposit
of the step; only the nodes that are not cells keep what was read, the first column without diffusion
only. -/
theorem reread_forgotten {curve : Curve K} {x : Fin (C + 2) → K} {env : Env R C K}
    {ps : List (Process K)} (hps : "compaction" ∉ ps.map Process.name)
    {porosity : ProcState R C K → K} {time dt : K}
    {s s' : ModelState (ProcState R C K) R (C + 2) K} (hs : TopoConsistent s.world)
    (hnn : NonnegLayers s.world.layers) {read : World R (C + 2) K}
    (hread : bathymetryStep curve x s.world = .ok read)
    (h : advanceComponents (ps.map (Process.component env)) porosity time dt
      { s with world := read } = .ok s') (n : Node R (C + 2)) :
    ((0 < n.1.val ∧ n.1.val < R + 1 ∧ 0 < n.2.val ∧ n.2.val < C + 1) →
      s'.world.topo n = s'.world.bedrock n +
        max 0 (s.world.topo n - s.world.bedrock n + s'.world.deposit n)) ∧
    ((n.1.val = 0 ∨ n.1.val = R + 1 ∨ n.2.val = C + 1 ∨
        (n.2.val = 0 ∧ "submarine_diffusion" ∉ ps.map Process.name)) →
      curve (x n.2) = .ok (s'.world.topo n)) := by
  obtain ⟨hrow, hrest, -⟩ := bathymetry_rows curve x _ _ hread
  have hlay : read.layers = s.world.layers := by
    have := congrArg World.layers hrest
    exact this
  refine ⟨fun ⟨a1, a2, a3, a4⟩ => ?_, fun hn => ?_⟩
  · have e1 : n.1.val = (⟨n.1.val - 1, by omega⟩ : Fin R).val + 1 := by
      show n.1.val = n.1.val - 1 + 1
      omega
    have e2 : n.2.val = (⟨n.2.val - 1, by omega⟩ : Fin C).val + 1 := by
      show n.2.val = n.2.val - 1 + 1
      omega
    have h1 := step_surface hps (s := { s with world := read }) (by dsimp only; rw [hlay]; exact hnn) h
      _ _ n e1 e2
    have h2 := hs _ n.1 _ n.2 e1 e2
    rw [h1]
    dsimp only
    rw [hlay]
    have h3 : s.world.topo n - s.world.bedrock n =
        (s.world.layers.dz ((⟨n.1.val - 1, by omega⟩ : Fin R), (⟨n.2.val - 1, by omega⟩ : Fin C))).sum := by
      rw [show s.world.topo n = s.world.topo (n.1, n.2) from rfl, h2]
      show s.world.bedrock n + _ - s.world.bedrock n = _
      ring
    rw [h3]
  · have hr := hrow n.1 n.2
    rw [show (n.1, n.2) = n from rfl] at hr
    rw [hr]
    congr 1
    obtain ⟨p', w', ev, w3, a, g1, g2, g3, g4, rfl⟩ := advanceComponents_ok h
    obtain ⟨-, -, -, -, -, -, -, u3⟩ := updateFields_ok g3
    show read.topo n = w3.topo n
    rw [u3 n]
    · show read.topo n = w'.topo n
      obtain ⟨b1, b2, -⟩ := runComponents_boundary (w := clearDeposit read) ps g1
      rcases hn with hn | hn | hn | ⟨hn, hd⟩
      · exact ((b1 n (.inl hn)).1).symm
      · exact ((b1 n (.inr hn)).1).symm
      · exact (b2 n (fun h0 => by rw [h0] at hn; simp at hn)).symm
      · rw [(components_topo g1).2 hd]
        rfl
    · intro c hcn
      obtain ⟨e1, e2⟩ := nodeAtCell_bounds c
      rw [← hcn] at e1 e2
      have := c.1.isLt
      have := c.2.isLt
      omega

/-- C153 (partial): a bathymetry that is read before the model is made, as `load_grid` does, is what
the first step starts from: the surface of a cell is then the profile of the file with the movement of
the bedrock and the deposit. Missing: bathymetries that are read later (`reread_forgotten`). -/
theorem read_first_partial {curve : Curve K} {x : Fin (C + 2) → K} {env : Env R C K}
    {ps : List (Process K)} (hps : "compaction" ∉ ps.map Process.name) {start : K}
    {porosity : ProcState R C K → K} {time dt : K} {q : ProcState R C K}
    {w read : World R (C + 2) K} (hfresh : w.layers = EventLayers.empty)
    (hread : bathymetryStep curve x w = .ok read)
    {s s' : ModelState (ProcState R C K) R (C + 2) K}
    (hinit : packageInit env ps start (q, loadBedrock read) = .ok s)
    (h : advanceComponents (ps.map (Process.component env)) porosity time dt s = .ok s')
    (r : Fin R) (c : Fin C) (n : Node R (C + 2)) (h1 : n.1.val = r.val + 1)
    (h2 : n.2.val = c.val + 1) :
    ∃ z, curve (x n.2) = .ok z ∧ s'.world.topo n =
      z + (s'.world.bedrock n - s.world.bedrock n) + max (-100) (s'.world.deposit n) := by
  obtain ⟨hrow, hrest, -⟩ := bathymetry_rows curve x _ _ hread
  have hlay : read.layers = EventLayers.empty := by
    have := congrArg World.layers hrest
    exact this.trans hfresh
  obtain ⟨p, w1, hc, hm⟩ := packageInit_ok hinit
  obtain ⟨k1, -, k3, -⟩ := createAll_world ps hc
  obtain ⟨ev, ha, hev, -, -, -, hb, -⟩ := modelInit_ok hm
  dsimp only at k1 k3
  have hdz : ∀ i, s.world.layers.dz i = [100] := by
    intro i
    rw [hev, add_eq_ok ha]
    show addColumn (w1.layers.dz i) 100 = [100]
    rw [k1]
    show addColumn (read.layers.dz i) 100 = [100]
    rw [hlay]
    have h100 : ¬ ((100 : K) < 0) := by norm_num
    simp [EventLayers.empty, addColumn, depositOrErode, addToTop, h100]
  have hs := step_surface hps (s := s) (fun i v hv => by
    rw [hdz i] at hv
    simp only [List.mem_singleton] at hv
    rw [hv]; norm_num) h r c n h1 h2
  refine ⟨read.topo n, hrow n.1 n.2, ?_⟩
  have hbed : s.world.bedrock n = read.topo n - 100 := by
    rw [hb, k3]
    rfl
  rw [hs, hdz, hbed, List.sum_singleton]
  rcases le_total (-100) (s'.world.deposit n) with hd | hd
  · rw [max_eq_right hd, max_eq_right (by linarith)]
    ring
  · rw [max_eq_left hd, max_eq_left (by linarith)]
    ring

/-! ## Concrete cases -/

/-- The beach sinks; `reread` is whether a flat bathymetry at 7 m is read before the step. The
surface of the active row and `z` of the reader after the step. -/
def exReread (reread : Bool) : Option (List ℚ × List ℚ) :=
  match packageInit exEnv exSinking 0 (exProcState, exBeach) with
  | .error _ => none
  | .ok s =>
    match (if reread then bathymetryStep (fun _ => .ok 7) exEnv.x s.world else .ok s.world) with
    | .error _ => none
    | .ok w =>
      match advanceComponents (exSinking.map (Process.component exEnv)) (fun _ => 1/2) 100 100
          { s with world := w } with
      | .error _ => none
      | .ok s' => some (rowList s'.world.topo 0, List.ofFn (readerZ s'.world))

/-- C153, negation: the beach sinks by 1 m, whether a flat bathymetry at 7 m is read before the step or
not: the cell is at -1 m. The nodes around it stay at 7 m. And without that reading `z` of the reader
is not the elevation along the row: the cell has sunk and `z` has not. -/
theorem reread_undone :
    exReread true = some ([7, -1, 7], [7, 7, 7]) ∧ exReread false = some ([1, -1, -1], [1, 0, -1]) := by
  decide +kernel

/-- The model before the second reading is consistent. -/
example : (match packageInit exEnv exSinking 0 (exProcState, exBeach) with
    | .error _ => none
    | .ok s => some (decide (∀ (r : Fin 1) (q : Fin 3) (c : Fin 1) (d : Fin 3),
        q.val = r.val + 1 → d.val = c.val + 1 → s.world.topo (q, d) =
          s.world.bedrock (q, d) + (s.world.layers.dz (r, c)).sum),
        (s.world.layers.dz (0, ⟨0, by omega⟩)).all fun v => decide (0 ≤ v))) = some (true, true) := by
  decide +kernel

/-- `z` is the bottom row, whatever is in the others. -/
example : List.ofFn (readerZ { exBeach with topo := fun n => if n.1 = 0 then 2 else 5 }) =
    [2, 2, 2] := by decide +kernel

/-- The hypotheses are met: a beach read from a file, and a first step. -/
example : (match bathymetryStep (fun v => .ok (1 - v)) exEnv.x exBeach with
    | .error _ => none
    | .ok read =>
      match packageInit exEnv exSinking 0 (exProcState, loadBedrock read) with
      | .error _ => none
      | .ok s => (advanceComponents (exSinking.map (Process.component exEnv)) (fun _ => 1/2) 100 100
          s).toOption.map fun s' => rowList s'.world.topo 0) = some [1, -1, -1] ∧
    exBeach.layers.n = 0 ∧ "compaction" ∉ exSinking.map Process.name := by
  refine ⟨by decide +kernel, by decide +kernel, by decide +kernel⟩

end Verif.Props
