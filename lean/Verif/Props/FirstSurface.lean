import Verif.Props.DriverRun

/-!
# C155: the surface that a new model starts from
-/

set_option autoImplicit false
set_option linter.unusedSectionVars false

namespace Verif.Props

open Verif Verif.Spec

variable {K σ : Type*} {R C : ℕ} [Field K] [LinearOrder K] [IsStrictOrderedRing K]

/-- C155: what the constructor of `Sequence` makes of the surface, on any grid. The sediment between
bedrock and surface goes on top of the layers that the grid already has. -/
theorem seq_init_surface {p : σ} {w : World R C K} (hnn : NonnegLayers w.layers)
    {s : SeqState σ R C K} (h : seqInit p w true = .ok s) (n : Node R C) (r : Fin R)
    (c : Fin (C - 2)) (h1 : n.1.val = r.val + 1) (h2 : n.2.val = c.val + 1) :
    s.world.bedrock n = w.bedrock n ∧
    s.world.topo n = w.bedrock n +
      if ∃ c' : Cell R C, w.bedrock (nodeAtCell c') < w.topo (nodeAtCell c') then
        max 0 ((w.layers.dz (r, c)).sum + (w.topo n - w.bedrock n))
      else (w.layers.dz (r, c)).sum := by
  have en : n = nodeAtCell (r, c) := Prod.ext (Fin.ext h1) (Fin.ext h2)
  have hiff : (∃ c' : Cell R C, 0 < atCells w.topo c' - atCells w.bedrock c') ↔
      ∃ c' : Cell R C, w.bedrock (nodeAtCell c') < w.topo (nodeAtCell c') := by
    simp only [atCells, sub_pos]
  unfold seqInit at h
  dsimp only at h
  rw [if_pos rfl] at h
  by_cases hex : ∃ c' : Cell R C, w.bedrock (nodeAtCell c') < w.topo (nodeAtCell c')
  · rw [if_pos (hiff.mpr hex)] at h
    rw [if_pos hex]
    cases ha : seqAddLayer 0 (⟨p, w, 0, [], ⟨none, []⟩⟩ : SeqState σ R C K)
        (fun c => atCells w.topo c - atCells w.bedrock c) with
    | error e => rw [ha] at h; cases h
    | ok s2 =>
      rw [ha] at h
      obtain ⟨ev, rl, a, g1, g2, g3, rfl⟩ := seqAddLayer_ok ha
      cases h
      refine ⟨rfl, ?_⟩
      have ht := resetTopo_consistent { w with
        topo := setCells w.topo fun c => atCells w.topo c + (atCells w.topo c - atCells w.bedrock c)
        layers := a.layers } r n.1 c n.2 h1 h2
      refine ht.trans ?_
      show w.bedrock n + (a.layers.dz (r, c)).sum = _
      rw [archiveOld_sum g3, add_eq_ok g1]
      show _ + (addColumn (w.layers.dz (r, c)) (atCells w.topo (r, c) - atCells w.bedrock (r, c))).sum = _
      rw [addColumn_sum (hnn (r, c)), en]
      rfl
  · rw [if_neg (fun hh => hex (hiff.mp hh))] at h
    rw [if_neg hex]
    cases h
    exact ⟨rfl, resetTopo_consistent w r n.1 c n.2 h1 h2⟩

/-- C155: without a bedrock there are 100 m of sediment below the surface, and the surface is raised
by the layers that the grid already has. -/
theorem seq_init_no_bedrock {p : σ} {w : World R C K} (hnn : NonnegLayers w.layers)
    {s : SeqState σ R C K} (h : seqInit p w false = .ok s) (n : Node R C) (r : Fin R)
    (c : Fin (C - 2)) (h1 : n.1.val = r.val + 1) (h2 : n.2.val = c.val + 1) :
    s.world.bedrock n = w.topo n - 100 ∧
      s.world.topo n = w.topo n + (w.layers.dz (r, c)).sum := by
  have h0 : 0 ≤ (w.layers.dz (r, c)).sum := List.sum_nonneg (hnn (r, c))
  have h' : seqInit p (loadBedrock w) true = .ok s := h
  obtain ⟨hb, hs⟩ := seq_init_surface (w := loadBedrock w) hnn h' n r c h1 h2
  have hbed : ∀ m, (loadBedrock w).bedrock m = w.topo m - 100 := fun _ => rfl
  have htop : ∀ m, (loadBedrock w).topo m = w.topo m := fun _ => rfl
  have hl : (loadBedrock w).layers = w.layers := rfl
  refine ⟨hb.trans (hbed n), ?_⟩
  rw [hs, if_pos ⟨(r, c), by rw [hbed, htop]; linarith⟩, hbed, htop, hl,
    max_eq_right (by linarith)]
  ring

/-- C155 (partial): on a grid without layers the surface stays where it is above the bedrock, and is
put on the bedrock where it was below. Missing: grids that have layers (`second_sequence`). -/
theorem seq_first_partial {p : σ} {w : World R C K} (hempty : w.layers = EventLayers.empty)
    {s : SeqState σ R C K} (h : seqInit p w true = .ok s) (n : Node R C) (r : Fin R)
    (c : Fin (C - 2)) (h1 : n.1.val = r.val + 1) (h2 : n.2.val = c.val + 1) :
    s.world.topo n = max (w.topo n) (w.bedrock n) ∧
      (s.world.topo n = w.topo n ↔ w.bedrock n ≤ w.topo n) := by
  have hdz : w.layers.dz (r, c) = [] := by rw [hempty]; rfl
  have hs := (seq_init_surface (by rw [hempty]; intro c x hx; cases hx) h n r c h1 h2).2
  rw [hdz, List.sum_nil, zero_add] at hs
  have key : s.world.topo n = max (w.topo n) (w.bedrock n) := by
    rw [hs]
    split_ifs with hex
    · rcases le_total (w.bedrock n) (w.topo n) with hl | hl
      · rw [max_eq_right (sub_nonneg.mpr hl), max_eq_left hl]; ring
      · rw [max_eq_left (sub_nonpos.mpr hl), max_eq_right hl]; ring
    · have en : n = nodeAtCell (r, c) := Prod.ext (Fin.ext h1) (Fin.ext h2)
      have : w.topo n ≤ w.bedrock n := by
        rw [en]
        exact not_lt.mp fun hl => hex ⟨_, hl⟩
      rw [max_eq_right this, add_zero]
  refine ⟨key, ?_⟩
  rw [key]
  exact max_eq_left_iff

/-- C155, negation: a `Sequence` on a grid that another has been used on. The surface of every cell is
raised by the thickness of the sediment, which is then there twice. -/
theorem second_sequence {p : σ} {w : World R C K} (hnn : NonnegLayers w.layers)
    (hw : TopoConsistent w) {s : SeqState σ R C K} (h : seqInit p w true = .ok s) (n : Node R C)
    (r : Fin R) (c : Fin (C - 2)) (h1 : n.1.val = r.val + 1) (h2 : n.2.val = c.val + 1) :
    s.world.topo n = w.topo n + (w.layers.dz (r, c)).sum := by
  have ht : w.topo n = w.bedrock n + (w.layers.dz (r, c)).sum := hw r n.1 c n.2 h1 h2
  have h0 : 0 ≤ (w.layers.dz (r, c)).sum := List.sum_nonneg (hnn (r, c))
  rw [(seq_init_surface hnn h n r c h1 h2).2]
  split_ifs with hex
  · rw [ht, max_eq_right (by linarith)]
    ring
  · have en : n = nodeAtCell (r, c) := Prod.ext (Fin.ext h1) (Fin.ext h2)
    have hle : w.topo n ≤ w.bedrock n := by
      rw [en]
      exact not_lt.mp fun hl => hex ⟨_, hl⟩
    have : (w.layers.dz (r, c)).sum = 0 := by linarith
    rw [ht, this]
    ring

/-- C155: what `SequenceModel` makes of the surface, on any grid: its constructor leaves it, but it
puts 100 m on the layers that are there, and the first step puts the surface on top of the layers. -/
theorem model_first_surface {start : K} {setTime : K → σ → σ} {p : σ} {w : World R C K}
    (hnn : NonnegLayers w.layers) {s s' : ModelState σ R C K}
    (hi : modelInit start setTime p w = .ok s) {comps : List (Component σ R C K)}
    (hk : ∀ c ∈ comps, Keeps c World.layers) {porosity : σ → K} {time dt : K}
    (h : advanceComponents comps porosity time dt s = .ok s') (n : Node R C)
    (r : Fin R) (c : Fin (C - 2)) (h1 : n.1.val = r.val + 1) (h2 : n.2.val = c.val + 1) :
    s.world.topo n = w.topo n ∧
    s'.world.topo n = s'.world.bedrock n +
      max 0 ((w.layers.dz (r, c)).sum + 100 + s'.world.deposit n) := by
  obtain ⟨ev0, ha, hev, -, -, ht, -⟩ := modelInit_ok hi
  refine ⟨by rw [ht], ?_⟩
  have hdz : s.world.layers.dz (r, c) = addColumn (w.layers.dz (r, c)) 100 := by
    rw [hev, add_eq_ok ha]
    rfl
  have hnn1 : NonnegLayers s.world.layers := by
    rw [hev]
    exact add_nonneg' ha hnn
  have hsum : (s.world.layers.dz (r, c)).sum = (w.layers.dz (r, c)).sum + 100 := by
    have h0 : 0 ≤ (w.layers.dz (r, c)).sum := List.sum_nonneg (hnn (r, c))
    rw [hdz, addColumn_sum (hnn (r, c)), max_eq_right (by linarith)]
  have hc := model_step_topo _ _ _ _ _ _ h r n.1 c n.2 h1 h2
  obtain ⟨p', w', ev, w3, a, g1, g2, g3, g4, rfl⟩ := advanceComponents_ok h
  have hl : w'.layers = s.world.layers :=
    runComponents_keeps (w := clearDeposit s.world) World.layers comps hk g1
  obtain ⟨-, u1, u2, -⟩ := updateFields_ok g3
  have en : n = nodeAtCell (r, c) := Prod.ext (Fin.ext h1) (Fin.ext h2)
  rw [show n = (n.1, n.2) from rfl, hc]
  congr 1
  show (a.layers.dz (r, c)).sum = _
  rw [archiveOld_sum g4]
  show (ev.dz (r, c)).sum = _
  rw [add_eq_ok g2]
  show (addColumn (w'.layers.dz (r, c)) (atCells w'.deposit (r, c))).sum = _
  rw [addColumn_sum (fun v hv => by rw [hl] at hv; exact hnn1 _ v hv), hl, hsum]
  show max 0 (_ + atCells w'.deposit (r, c)) = max 0 (_ + w3.deposit n)
  rw [u2, en]
  rfl

/-- C155 (partial): so a first step that deposits nothing and does not move the bedrock leaves the
surface of a fresh grid exactly where it is 100 m above the bedrock. Missing: everywhere else. -/
theorem model_first_partial {start : K} {setTime : K → σ → σ} {p : σ} {w : World R C K}
    (hempty : w.layers = EventLayers.empty) {s s' : ModelState σ R C K}
    (hi : modelInit start setTime p w = .ok s) {comps : List (Component σ R C K)}
    (hk : ∀ c ∈ comps, Keeps c World.layers) {porosity : σ → K} {time dt : K}
    (h : advanceComponents comps porosity time dt s = .ok s') (n : Node R C)
    (r : Fin R) (c : Fin (C - 2)) (h1 : n.1.val = r.val + 1) (h2 : n.2.val = c.val + 1)
    (hd : s'.world.deposit n = 0) (hb : s'.world.bedrock n = w.bedrock n) :
    s'.world.topo n = w.topo n ↔ w.topo n = w.bedrock n + 100 := by
  have hs := (model_first_surface (by rw [hempty]; intro c x hx; cases hx) hi hk h n r c h1 h2).2
  have hdz : w.layers.dz (r, c) = [] := by rw [hempty]; rfl
  rw [hdz, hd, hb, List.sum_nil, zero_add, add_zero, max_eq_right (by norm_num)] at hs
  rw [hs]
  exact eq_comm

/-- C155, negation: a `SequenceModel` on a grid that another has been used on. A first step that
deposits nothing and does not move the bedrock raises the surface of every cell by 100 m. -/
theorem second_model {start : K} {setTime : K → σ → σ} {p : σ} {w : World R C K}
    (hnn : NonnegLayers w.layers) (hw : TopoConsistent w) {s s' : ModelState σ R C K}
    (hi : modelInit start setTime p w = .ok s) {comps : List (Component σ R C K)}
    (hk : ∀ c ∈ comps, Keeps c World.layers) {porosity : σ → K} {time dt : K}
    (h : advanceComponents comps porosity time dt s = .ok s') (n : Node R C)
    (r : Fin R) (c : Fin (C - 2)) (h1 : n.1.val = r.val + 1) (h2 : n.2.val = c.val + 1)
    (hd : s'.world.deposit n = 0) (hb : s'.world.bedrock n = w.bedrock n) :
    s'.world.topo n = w.topo n + 100 := by
  have ht : w.topo n = w.bedrock n + (w.layers.dz (r, c)).sum := hw r n.1 c n.2 h1 h2
  have h0 : 0 ≤ (w.layers.dz (r, c)).sum := List.sum_nonneg (hnn (r, c))
  rw [(model_first_surface hnn hi hk h n r c h1 h2).2, hd, hb, ht, add_zero,
    max_eq_right (by linarith)]
  ring

/-! ## Concrete cases -/

/-- A grid with a surface at 5 m and the bedrock at `b`. -/
def exFlatGrid (b : ℚ) : World 1 3 ℚ := { exWorld with topo := fun _ => 5, bedrock := fun _ => b }

/-- The surface of the cell after one `Sequence` and after another one on the same grid. -/
def exSequences (b : ℚ) : Option (ℚ × ℚ) :=
  match seqInit () (exFlatGrid b) true with
  | .error _ => none
  | .ok s =>
    match seqInit () s.world true with
    | .error _ => none
    | .ok s' => some (s.world.topo (1, 1), s'.world.topo (1, 1))

/-- The surface of the cell after a step of a `SequenceModel` without components and after a step of
another one on the same grid. -/
def exModels (b : ℚ) : Option (ℚ × ℚ) :=
  match modelInit 0 (fun _ x => x) () (exFlatGrid b) with
  | .error _ => none
  | .ok s =>
    match advanceComponents [] (fun _ => 1/2) 100 100 s with
    | .error _ => none
    | .ok s1 =>
      match modelInit 0 (fun _ x => x) () s1.world with
      | .error _ => none
      | .ok s2 => match advanceComponents [] (fun _ => 1/2) 100 100 s2 with
        | .error _ => none
        | .ok s3 => some (s1.world.topo (1, 1), s3.world.topo (1, 1))

/-- The bedrock is 25 m below the surface: the first `Sequence` leaves the surface, and the second one
raises it by 25 m. With the bedrock 2 m above the surface, the surface is put on the bedrock. -/
example : exSequences (-20) = some (5, 30) := by decide +kernel
example : exSequences 7 = some (7, 7) := by decide +kernel

/-- With 100 m of sediment the first `SequenceModel` leaves the surface, and the second one raises it
by 100 m. With 25 m of sediment the first one raises it by 75 m. -/
example : exModels (-95) = some (5, 105) := by decide +kernel
example : exModels (-20) = some (80, 180) := by decide +kernel

/-- The cell of the grid is the node `(1, 1)`, the grid has no layers to begin with, and no component
means that none touches the layers. -/
example : (exFlatGrid (-20)).layers.n = 0 ∧ ((1, 1) : Node 1 3).1.val = (0 : Fin 1).val + 1 ∧
    ((1, 1) : Node 1 3).2.val = (0 : Fin (3 - 2)).val + 1 ∧
    ∀ c ∈ ([] : List (Component Unit 1 3 ℚ)), Keeps c World.layers :=
  ⟨rfl, rfl, rfl, fun _ h => by cases h⟩

/-- Without a bedrock, the surface stays on the first grid. -/
example : (match seqInit () (exFlatGrid 0) false with
    | .ok s => some (s.world.topo (1, 1), s.world.bedrock (1, 1))
    | .error _ => none) = some (5, -95) := by decide +kernel

end Verif.Props
