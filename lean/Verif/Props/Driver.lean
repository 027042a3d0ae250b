import Verif.Lemmas.Driver
import Verif.Props.Layers
import Verif.Props.Clock

/-!
# Properties of the drivers (C18, C21, C22, C52, C60)

and C15–C17 for whole runs.
-/

set_option autoImplicit false
set_option linter.unusedSectionVars false

namespace Verif.Props

open Verif Spec

variable {K σ : Type*} {R C : ℕ} [Field K] [LinearOrder K] [IsStrictOrderedRing K]

/-! ### C18 -/

/-- C18: after every step of a `SequenceModel`, with any components and from any state. -/
theorem model_step_topo (comps : List (Component σ R C K)) (porosity : σ → K) (time dt : K)
    (s s' : ModelState σ R C K) (h : advanceComponents comps porosity time dt s = .ok s') :
    TopoConsistent s'.world := by
  obtain ⟨p, w, ev, w3, a, h1, h2, h3, h4, rfl⟩ := advanceComponents_ok h
  obtain ⟨hc, hl, -⟩ := updateFields_ok h3
  refine topoConsistent_congr (w := w3) rfl rfl ?_ hc
  intro c
  rw [archiveOld_sum h4 c, hl]

theorem model_step_nonneg (comps : List (Component σ R C K))
    (hm : ∀ c ∈ comps, Maintains c fun w => NonnegLayers w.layers)
    (porosity : σ → K) (time dt : K) (s s' : ModelState σ R C K)
    (hs : NonnegLayers s.world.layers)
    (h : advanceComponents comps porosity time dt s = .ok s') :
    NonnegLayers s'.world.layers := by
  obtain ⟨p, w, ev, w3, a, h1, h2, h3, h4, rfl⟩ := advanceComponents_ok h
  have hw : NonnegLayers w.layers :=
    runComponents_maintains (fun w => NonnegLayers w.layers) comps hm
      (w := clearDeposit s.world) hs h1
  exact archiveOld_nonneg h4 (add_nonneg' h2 hw)

theorem topo_above_bedrock {w : World R C K} (h : TopoConsistent w) (hn : NonnegLayers w.layers)
    (r : Fin R) (q : Fin (R + 2)) (c : Fin (C - 2)) (d : Fin C)
    (hq : q.val = r.val + 1) (hd : d.val = c.val + 1) : w.bedrock (q, d) ≤ w.topo (q, d) := by
  rw [h r q c d hq hd]
  have := List.sum_nonneg (hn (r, c))
  linarith

/-- C18: a new `SequenceModel` on a grid made by `load_grid`. -/
theorem model_init_topo (start : K) (setTime : K → σ → σ) (p : σ) (w : World R C K)
    (hempty : w.layers = EventLayers.empty) (s : ModelState σ R C K)
    (h : modelInit start setTime p (loadBedrock w) = .ok s) :
    TopoConsistent s.world ∧ NonnegLayers s.world.layers := by
  unfold modelInit at h
  cases h1 : (loadBedrock w).rowShore with
  | none => rw [h1] at h; cases h
  | some a =>
    cases h2 : (loadBedrock w).rowShelf with
    | none => rw [h1, h2] at h; cases h
    | some b =>
      rw [h1, h2] at h
      dsimp only at h
      cases h3 : (loadBedrock w).layers.add (fun _ => 100)
          [("age", fun _ => start), ("water_depth", fun c => -atCells (loadBedrock w).bedrock c),
          ("t0", fun _ => 10), ("percent_sand", fun _ => 1/2), ("porosity", fun _ => 1/2)] with
      | error e => rw [h3] at h; cases h
      | ok ev =>
        rw [h3] at h
        have hev := add_eq_ok h3
        have hdz : ∀ c, ev.dz c = [100] := by
          intro c
          rw [hev]
          show addColumn (w.layers.dz c) 100 = [100]
          rw [hempty, addColumn_nonneg_eq _ (by norm_num)]
          rfl
        have hres : ∀ w' : World R C K, w'.topo = w.topo → w'.bedrock = (loadBedrock w).bedrock →
            w'.layers = ev → TopoConsistent w' ∧ NonnegLayers w'.layers := by
          intro w' e1 e2 e3
          refine ⟨?_, ?_⟩
          · intro r q c d hq hd
            rw [e1, e2, e3, hdz]
            simp [loadBedrock]
          · intro c x hx
            rw [e3, hdz] at hx
            simp only [List.mem_singleton] at hx
            rw [hx]; norm_num
        cases h
        apply hres
        · cases (loadBedrock w).waterLoad <;> rfl
        · cases (loadBedrock w).waterLoad <;> rfl
        · cases (loadBedrock w).waterLoad <;> rfl

/-- C18 for `SequenceModel.run`: whatever the components do, provided they never make a layer
thickness negative, the topography of a finished run is bedrock plus sediment and nowhere below
bedrock. -/
theorem model_run_topo (comps : List (Component σ R C K)) (porosity : σ → K)
    (hm : ∀ c ∈ comps, Maintains c fun w => NonnegLayers w.layers)
    (fuel : ℕ) (c c' : Clock K) (s s' : ModelState σ R C K)
    (hs : TopoConsistent s.world ∧ NonnegLayers s.world.layers)
    (h : runLoop (advanceComponents comps porosity) fuel c s = some (c', .ok s')) :
    TopoConsistent s'.world ∧
      ∀ (r : Fin R) (q : Fin (R + 2)) (i : Fin (C - 2)) (d : Fin C), q.val = r.val + 1 →
        d.val = i.val + 1 → s'.world.bedrock (q, d) ≤ s'.world.topo (q, d) := by
  have key := runLoop_invariant
    (fun s : ModelState σ R C K => TopoConsistent s.world ∧ NonnegLayers s.world.layers)
    (advanceComponents comps porosity)
    (fun t d w w' hw hadv => ⟨model_step_topo comps porosity t d w w' hadv,
      model_step_nonneg comps hm porosity t d w w' hw.2 hadv⟩) fuel c c' s s' hs h
  exact ⟨key.1, fun r q i d hq hd => topo_above_bedrock key.1 key.2 r q i d hq hd⟩

/-- C18: after every update of a `Sequence`, with any components and from any state; the deposit
is cleared. -/
theorem seq_update_topo (comps : List (Component σ R C K)) (dt time : K)
    (s s' : SeqState σ R C K) (h : seqUpdate comps dt time s = .ok s') :
    TopoConsistent s'.world ∧ s'.world.deposit = fun _ => 0 := by
  obtain ⟨p, w, ev, rl, a, h1, h2, h3, h4, rfl⟩ := seqUpdate_ok h
  exact ⟨topoConsistent_congr rfl rfl (fun _ => rfl) (resetTopo_consistent _), rfl⟩

theorem seq_update_nonneg (comps : List (Component σ R C K))
    (hm : ∀ c ∈ comps, Maintains c fun w => NonnegLayers w.layers) (dt time : K)
    (s s' : SeqState σ R C K) (hs : NonnegLayers s.world.layers)
    (h : seqUpdate comps dt time s = .ok s') : NonnegLayers s'.world.layers := by
  obtain ⟨p, w, ev, rl, a, h1, h2, h3, h4, rfl⟩ := seqUpdate_ok h
  have hw : NonnegLayers w.layers :=
    runComponents_maintains (fun w => NonnegLayers w.layers) comps hm hs h1
  exact archiveOld_nonneg h4 (add_nonneg' h2 hw)

/-- C18: a new `Sequence` on any grid without layers, whatever its bedrock: where the bedrock was
above the topography, the topography has been raised to it. -/
theorem seq_init_topo (p : σ) (w : World R C K) (hempty : w.layers = EventLayers.empty)
    (hasBedrock : Bool) (s : SeqState σ R C K) (h : seqInit p w hasBedrock = .ok s) :
    TopoConsistent s.world ∧ NonnegLayers s.world.layers ∧ s.world.deposit = fun _ => 0 := by
  unfold seqInit at h
  dsimp only at h
  set w1 := if hasBedrock = true then w else loadBedrock w with hw1
  have hl1 : w1.layers = EventLayers.empty := by rw [hw1]; split_ifs <;> exact hempty
  have hn1 : NonnegLayers w1.layers := by rw [hl1]; intro c x hx; cases hx
  split_ifs at h with hex
  · cases h2 : seqAddLayer 0 (⟨p, w1, 0, [], ⟨none, []⟩⟩ : SeqState σ R C K)
      (fun c => atCells w1.topo c - atCells w1.bedrock c) with
    | error e => rw [h2] at h; cases h
    | ok s2 =>
      rw [h2] at h
      obtain ⟨ev, rl, a, g1, g2, g3, rfl⟩ := seqAddLayer_ok h2
      cases h
      exact ⟨topoConsistent_congr rfl rfl (fun _ => rfl) (resetTopo_consistent _),
        archiveOld_nonneg g3 (add_nonneg' g1 hn1), rfl⟩
  · cases h
    exact ⟨topoConsistent_congr rfl rfl (fun _ => rfl) (resetTopo_consistent _), hn1, rfl⟩

/-- C18 for `Sequence.run`. -/
theorem seq_run_topo [FloorRing K] (comps : List (Component σ R C K))
    (hm : ∀ c ∈ comps, Maintains c fun w => NonnegLayers w.layers)
    (timeStep time t' : K) (target dt : Option K) (s s' : SeqState σ R C K)
    (hs : TopoConsistent s.world ∧ NonnegLayers s.world.layers)
    (h : seqRun (seqUpdate comps) timeStep time s target dt = .ok (t', s')) :
    TopoConsistent s'.world ∧
      ∀ (r : Fin R) (q : Fin (R + 2)) (i : Fin (C - 2)) (d : Fin C), q.val = r.val + 1 →
        d.val = i.val + 1 → s'.world.bedrock (q, d) ≤ s'.world.topo (q, d) := by
  have key := seqRun_invariant
    (fun s : SeqState σ R C K => TopoConsistent s.world ∧ NonnegLayers s.world.layers)
    (seqUpdate comps)
    (fun d t w w' hw hadv => ⟨(seq_update_topo comps d t w w' hadv).1,
      seq_update_nonneg comps hm d t w w' hw.2 hadv⟩) timeStep time target dt t' s s' hs h
  exact ⟨key.1, fun r q i d hq hd => topo_above_bedrock key.1 key.2 r q i d hq hd⟩

/-! ### C21 -/

/-- The total of the increments of a node left by the components in each step. -/
def totalIncrement (obs : List (Observation σ R C K)) (n : Node R C) : K :=
  (obs.map fun o => match o.world.increment with
    | some f => f n
    | none => 0).sum

/-- C21: after any history of a `SequenceModel` whose components do not write the bedrock
themselves, the bedrock is the initial one plus the sum of all increments the components left, at
every node, and there is no increment left over. -/
theorem model_bedrock (comps : List (Component σ R C K)) (porosity : σ → K)
    (hk : ∀ c ∈ comps, Keeps c World.bedrock) (s s' : ModelState σ R C K)
    (obs : List (Observation σ R C K)) (h : ModelHistory comps porosity s obs s') :
    (∀ n, s'.world.bedrock n = s.world.bedrock n + totalIncrement obs n) ∧
      (obs ≠ [] → ∀ f, s'.world.increment = some f → ∀ n, f n = 0) := by
  induction h with
  | nil s => exact ⟨fun n => by simp [totalIncrement], fun h => absurd rfl h⟩
  | step hc ha hr ih =>
    rename_i s s1 s2 time dt p w obs
    obtain ⟨p', w', ev, w3, a, h1, h2, h3, h4, rfl⟩ := advanceComponents_ok ha
    rw [hc] at h1
    cases h1
    obtain ⟨-, -, -, -, -, hb, hi, -⟩ := updateFields_ok h3
    have hwb : w.bedrock = (clearDeposit s.world).bedrock :=
      runComponents_keeps World.bedrock comps hk hc
    refine ⟨fun n => ?_, fun _ f hf n => ?_⟩
    · rw [ih.1 n]
      show w3.bedrock n + _ = _
      rw [hb n]
      show w.bedrock n + _ + _ = _
      rw [hwb]
      show s.world.bedrock n + _ + _ = _
      unfold totalIncrement
      rw [List.map_cons, List.sum_cons]
      cases hinc : w.increment <;> simp [add_assoc]
    · cases hobs : obs with
      | nil =>
        subst hobs
        cases hr
        have hf' : w3.increment = some f := hf
        rw [hi] at hf'
        cases hinc : w.increment with
        | none => simp [hinc] at hf'
        | some g =>
          simp only [hinc, Option.map_some, Option.some.injEq] at hf'
          rw [← hf']
      | cons o os => exact ih.2 (by rw [hobs]; simp) f hf n

/-! ### C22 -/

/-- C22 is false, for every history: a `Sequence` never moves its bedrock (unless a component
writes the bedrock itself), whatever increments the components leave. -/
theorem seq_bedrock_never_moves (comps : List (Component σ R C K))
    (hk : ∀ c ∈ comps, Keeps c World.bedrock) (s s' : SeqState σ R C K)
    (obs : List (Observation σ R C K)) (h : SeqHistory comps s obs s') :
    s'.world.bedrock = s.world.bedrock := by
  induction h with
  | nil s => rfl
  | step hc ha hr ih =>
    rename_i s s1 s2 time dt p w obs
    obtain ⟨p', w', ev, rl, a, h1, h2, h3, h4, rfl⟩ := seqUpdate_ok ha
    rw [hc] at h1
    cases h1
    rw [ih]
    have hwb : w.bedrock = s.world.bedrock := runComponents_keeps World.bedrock comps hk hc
    exact hwb

/-- C22, partial: the increments are not lost; a `Sequence` leaves them in their field, where
components that add to it accumulate them. Missing: nothing ever applies them to the bedrock
(previous theorem). -/
theorem seq_increment_partial (comps : List (Component σ R C K)) (s s' : SeqState σ R C K)
    (dt time : K) (p : σ) (w : World R C K)
    (hc : runComponents comps dt (s.comps, s.world) = .ok (p, w))
    (h : seqUpdate comps dt time s = .ok s') : s'.world.increment = w.increment := by
  obtain ⟨p', w', ev, rl, a, h1, h2, h3, h4, rfl⟩ := seqUpdate_ok h
  rw [hc] at h1
  cases h1
  rfl

/-! ### C52 -/

theorem rowValues_vector (n : ℕ) (v : List (Option K)) :
    rowValues n (.vector v.length) v = .ok fun _ => v := by
  simp [rowValues]

/-- C52: if the row fields exist when the first layer is added, adding to `at_layer_row` never
fails, however many rows there are, and every stack of the new layer gets the positions of all
active rows. -/
theorem row_layers_record_every_row (rl : RowLayers R K)
    (hfirst : rl.shapes = none ∨ rl.shapes = some (.vector R, .vector R))
    (age seaLevel : K) (shore shelf : Fin R → Option K) :
    ∃ rl' l, rl.add age seaLevel (rowArgument (some shore)) (rowArgument (some shelf)) = .ok rl' ∧
      rl'.layers = rl.layers ++ [l] ∧ rl'.shapes = some (.vector R, .vector R) ∧
      l.age = age ∧ l.seaLevel = seaLevel ∧
      ∀ (q : Fin (R + 2)) (r : Fin R), (l.shore q)[r.val]? = some (shore r) ∧
        (l.shelf q)[r.val]? = some (shelf r) := by
  have hsh : rl.shapes.getD (rowShapeOf (R + 2) (List.ofFn shore).length,
      rowShapeOf (R + 2) (List.ofFn shelf).length) = (.vector R, .vector R) := by
    rcases hfirst with h | h <;> rw [h]
    · simp [rowShapeOf]
    · rfl
  have h1 : rowValues (R + 2) (.vector R) (List.ofFn shore) = .ok fun _ => List.ofFn shore := by
    have := rowValues_vector (R + 2) (List.ofFn shore)
    rwa [List.length_ofFn] at this
  have h2 : rowValues (R + 2) (.vector R) (List.ofFn shelf) = .ok fun _ => List.ofFn shelf := by
    have := rowValues_vector (R + 2) (List.ofFn shelf)
    rwa [List.length_ofFn] at this
  refine ⟨⟨some (.vector R, .vector R),
    rl.layers ++ [⟨age, seaLevel, fun _ => List.ofFn shore, fun _ => List.ofFn shelf⟩]⟩,
    ⟨age, seaLevel, fun _ => List.ofFn shore, fun _ => List.ofFn shelf⟩, ?_, rfl, rfl, rfl, rfl, ?_⟩
  · simp only [RowLayers.add, rowArgument, hsh, h1, h2]
  · intro q r
    simp

/-- C52: a layer can be added exactly if the arrays have as many elements as those of the first
layer, or one. -/
theorem row_layers_fit (rl : RowLayers R K) (m₁ m₂ : ℕ)
    (hfirst : rl.shapes = some (.vector m₁, .vector m₂)) (age seaLevel : K)
    (shore shelf : List (Option K)) :
    (∃ rl', rl.add age seaLevel shore shelf = .ok rl') ↔
      (shore.length = m₁ ∨ shore.length = 1) ∧ (shelf.length = m₂ ∨ shelf.length = 1) := by
  have key : ∀ (m : ℕ) (v : List (Option K)),
      (∃ a, rowValues (R + 2) (.vector m) v = .ok a) ↔ v.length = m ∨ v.length = 1 := by
    intro m v
    unfold rowValues
    dsimp only
    split_ifs with h1 h2
    · exact ⟨fun _ => .inl h1, fun _ => ⟨_, rfl⟩⟩
    · exact ⟨fun _ => .inr h2, fun _ => ⟨_, rfl⟩⟩
    · constructor
      · rintro ⟨_, h⟩; cases h
      · rintro (h | h)
        · exact absurd h h1
        · exact absurd h h2
  rw [← key m₁ shore, ← key m₂ shelf]
  simp only [RowLayers.add, hfirst, Option.getD_some]
  cases h1 : rowValues (R + 2) (.vector m₁) shore with
  | error e => simp
  | ok a =>
    cases h2 : rowValues (R + 2) (.vector m₂) shelf with
    | error e => simp
    | ok b => simp

/-- C52: if the row fields are created after the first layer has been added, adding a layer fails
unless there is exactly one row. -/
theorem row_layers_created_late (rl : RowLayers R K)
    (hfirst : rl.shapes = some (.scalar, .scalar)) (age seaLevel : K)
    (shore shelf : Fin R → Option K) :
    ((∃ rl', rl.add age seaLevel (rowArgument (some shore)) (rowArgument (some shelf)) = .ok rl') ↔
      R = 1) ∧
    (R ≠ 1 → rl.add age seaLevel (rowArgument (some shore)) (rowArgument (some shelf)) =
      .error .valueError) := by
  have key : ∀ v : Fin R → Option K, R ≠ 1 →
      rowValues (R + 2) .scalar (List.ofFn v) = .error .valueError := by
    intro v hR
    have hl : (List.ofFn v).length = R := List.length_ofFn
    unfold rowValues
    dsimp only
    rw [dif_neg (by rw [hl]; omega), if_neg (by rw [hl]; exact hR)]
  have hne : R ≠ 1 → rl.add age seaLevel (rowArgument (some shore)) (rowArgument (some shelf)) =
      .error .valueError := by
    intro hR
    simp only [RowLayers.add, hfirst, Option.getD_some, rowArgument, key _ hR]
  refine ⟨⟨?_, ?_⟩, hne⟩
  · rintro ⟨rl', h⟩
    by_contra hR
    rw [hne hR] at h
    cases h
  · rintro rfl
    have h1 : ∀ v : Fin 1 → Option K, ∃ a, rowValues 3 .scalar (List.ofFn v) = .ok a := by
      intro v
      refine ⟨fun _ => List.ofFn v, ?_⟩
      simp [rowValues]
    obtain ⟨a, ha⟩ := h1 shore
    obtain ⟨b, hb⟩ := h1 shelf
    refine ⟨⟨some (.scalar, .scalar), rl.layers ++ [⟨age, seaLevel, a, b⟩]⟩, ?_⟩
    simp only [RowLayers.add, hfirst, Option.getD_some, rowArgument, ha, hb]

/-- C52, the missing field: without a shoreline component NaN is stored for every row of nodes. -/
theorem row_layers_missing (rl : RowLayers R K)
    (hfirst : rl.shapes = none ∨ rl.shapes = some (.scalar, .scalar)) (age seaLevel : K) :
    ∃ rl' l, rl.add age seaLevel (rowArgument (R := R) none) (rowArgument (R := R) none) = .ok rl' ∧
      rl'.layers = rl.layers ++ [l] ∧ rl'.shapes = some (.scalar, .scalar) ∧
      ∀ q, l.shore q = [none] ∧ l.shelf q = [none] := by
  have hsh : rl.shapes.getD (rowShapeOf (R + 2) (List.replicate (R + 2) (none : Option K)).length,
      rowShapeOf (R + 2) (List.replicate (R + 2) (none : Option K)).length) =
        (.scalar, .scalar) := by
    rcases hfirst with h | h <;> rw [h]
    · simp [rowShapeOf]
    · rfl
  have h1 : rowValues (R + 2) .scalar (List.replicate (R + 2) (none : Option K)) =
      .ok fun _ => [none] := by
    unfold rowValues
    dsimp only
    rw [dif_pos (by simp)]
    simp
  refine ⟨⟨some (.scalar, .scalar),
    rl.layers ++ [⟨age, seaLevel, fun _ => [none], fun _ => [none]⟩]⟩,
    ⟨age, seaLevel, fun _ => [none], fun _ => [none]⟩, ?_, rfl, rfl, fun _ => ⟨rfl, rfl⟩⟩
  simp only [RowLayers.add, rowArgument, hsh, h1]

end Verif.Props
