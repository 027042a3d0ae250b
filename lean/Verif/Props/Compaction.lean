import Verif.Lemmas.Prelude
import Verif.Lemmas.Compaction
import Verif.Props.Layers
import Verif.Props.Driver
import Verif.Props.DriverRun

/-!
# Models that compact their layers

C88 and C89. `Compact` (of the package `compaction`, external) changes the thicknesses and the
porosities of the layers that are already there.
-/

set_option autoImplicit false
set_option linter.unusedSectionVars false

namespace Verif.Props

open Spec

variable {K σ : Type*} {R C : ℕ} [Field K] [LinearOrder K] [IsStrictOrderedRing K]

/-! ### C88 -/

/-- C88: in a model whose components change of the layers at most the thicknesses and the
porosities, everything else the layers record is what was recorded when they were deposited, merged
as usual: there are as many layers, with the same ages, initial thicknesses, water depths and sand
fractions as without those components. -/
theorem compaction_record {start : K} {setTime : K → σ → σ} {p : σ} {w : World R C K}
    (hempty : w.layers = EventLayers.empty) {s s' : ModelState σ R C K}
    (hi : modelInit start setTime p w = .ok s) (comps : List (Component σ R C K))
    (porosity : σ → K) (hk : ∀ c ∈ comps, KeepsRecord c)
    (obs : List (Observation σ R C K)) (h : ModelHistory comps porosity s obs s') (c : Cell R C) :
    let merged := if obs.length < 19 then 0 else (obs.length + 1) / 10 - 1
    s'.world.layers.n = obs.length + 1 - 9 * merged ∧
    (s'.world.layers.dz c).length = s'.world.layers.n ∧
    IsMerge IsMaxOf merged (start :: obs.map fun o => o.time) (s'.world.layers.prop "age" c) ∧
    IsMerge IsSumOf merged (10 :: obs.map fun o => max (o.world.deposit (nodeAtCell c)) 0)
      (s'.world.layers.prop "t0" c) ∧
    IsMerge IsMeanOf merged (-w.bedrock (nodeAtCell c) ::
        obs.map fun o => o.world.seaLevel - o.world.topo (nodeAtCell c))
      (s'.world.layers.prop "water_depth" c) ∧
    IsMerge IsMeanOf merged
      (1/2 :: obs.map fun o => (o.world.sand.map fun f => f (nodeAtCell c)).getD 0)
      (s'.world.layers.prop "percent_sand" c) := by
  intro merged
  obtain ⟨l, hr, hl⟩ := freshHistory_record hempty hi comps porosity hk h
  have hnames := freshEvents_names start w porosity obs
  have hc := archive_count _ hnames hr
  simp only [List.length_cons, List.length_map] at hc
  have ha : s'.archived = merged := by
    show s'.archived = if obs.length < 19 then 0 else (obs.length + 1) / 10 - 1
    split_ifs with h1
    · exact (hc.1 (by omega)).2
    · exact (hc.2.1 (by omega)).2
  have hn : l.n = obs.length + 1 - 9 * merged := by
    show l.n = obs.length + 1 - 9 * if obs.length < 19 then 0 else (obs.length + 1) / 10 - 1
    split_ifs with h1
    · have := (hc.1 (by omega)).1
      omega
    · exact (hc.2.1 (by omega)).1
  obtain ⟨h1, h2, h3⟩ := archive_properties _ _ hnames hr c
  have ht := (archive_thickness _ hnames hr c).2.1
  rw [hl.values "age" (by decide), hl.values "t0" (by decide), hl.values "water_depth" (by decide),
    hl.values "percent_sand" (by decide), hl.count, hl.columns]
  dsimp only at h1 h2 h3 ht
  rw [ha] at h1 h2 h3
  refine ⟨hn, ht, ?_, ?_, ?_, ?_⟩
  · have := h1 (by simp [initEvent])
    rw [List.map_cons, List.map_map] at this
    convert this using 2
    · simp [recorded, initEvent]
    · exact List.map_congr_left fun o _ => (recorded_age porosity o c).symm
  · have := h2 (by simp [initEvent])
    rw [List.map_cons, List.map_map] at this
    convert this using 2
    · simp [recorded, initEvent]
    · exact List.map_congr_left fun o _ => by
        simp [recorded, modelEvent, layerProperties, clip0, atCells]
  · have := h3 "water_depth" (by simp) (by simp [initEvent])
    rw [List.map_cons, List.map_map] at this
    convert this using 2
    · simp [recorded, initEvent, atCells]
    · exact List.map_congr_left fun o _ => by
        simp [recorded, modelEvent, layerProperties, atCells]
  · have := h3 "percent_sand" (by simp) (by simp [initEvent])
    rw [List.map_cons, List.map_map] at this
    convert this using 2
    · simp [recorded, initEvent]
    · refine List.map_congr_left fun o _ => ?_
      cases hs : o.world.sand <;> simp [recorded, modelEvent, layerProperties, atCells, hs]

/-- C88: the ages of such a model do not decrease upwards. -/
theorem compaction_ages {start : K} {setTime : K → σ → σ} {p : σ} {w : World R C K}
    (hempty : w.layers = EventLayers.empty) {s s' : ModelState σ R C K}
    (hi : modelInit start setTime p w = .ok s) (comps : List (Component σ R C K))
    (porosity : σ → K) (hk : ∀ c ∈ comps, KeepsRecord c)
    (obs : List (Observation σ R C K)) (h : ModelHistory comps porosity s obs s')
    (hmono : (start :: obs.map fun o => o.time).Pairwise (· ≤ ·)) (c : Cell R C) :
    (s'.world.layers.prop "age" c).Pairwise (· ≤ ·) :=
  isMerge_max_pairwise (compaction_record hempty hi comps porosity hk obs h c).2.2.1 hmono

/-! ### C89 -/

/-- A component that never thickens the sediment of a cell and leaves no layer of negative
thickness. -/
def Shrinks (c : Component σ R C K) : Prop :=
  ∀ dt p w p' w', c dt (p, w) = .ok (p', w') → NonnegLayers w.layers → NonnegLayers w'.layers ∧
    ∀ a, (w'.layers.dz a).sum ≤ (w.layers.dz a).sum

theorem shrinks_of_keeps {c : Component σ R C K} (h : Keeps c World.layers) : Shrinks c :=
  fun dt p w p' w' hc hw => by rw [h dt p w p' w' hc]; exact ⟨hw, fun _ => le_rfl⟩

theorem runComponents_shrinks (comps : List (Component σ R C K)) (hk : ∀ c ∈ comps, Shrinks c)
    {dt : K} {p p' : σ} {w w' : World R C K} (h : runComponents comps dt (p, w) = .ok (p', w'))
    (hw : NonnegLayers w.layers) :
    NonnegLayers w'.layers ∧ ∀ a, (w'.layers.dz a).sum ≤ (w.layers.dz a).sum := by
  induction comps generalizing p w with
  | nil => cases h; exact ⟨hw, fun _ => le_rfl⟩
  | cons c cs ih =>
    rw [runComponents] at h
    cases hc : c dt (p, w) with
    | error e => rw [hc] at h; cases h
    | ok s =>
      obtain ⟨p1, w1⟩ := s
      rw [hc] at h
      obtain ⟨g1, g2⟩ := hk c (by simp) _ _ _ _ _ hc hw
      obtain ⟨k1, k2⟩ := ih (fun c' hc' => hk c' (by simp [hc'])) h g1
      exact ⟨k1, fun a => (k2 a).trans (g2 a)⟩

theorem surface_mono {a b : K} (hab : a ≤ b) (l : List K) :
    l.foldl (fun h d => max 0 (h + d)) a ≤ l.foldl (fun h d => max 0 (h + d)) b := by
  induction l generalizing a b with
  | nil => exact hab
  | cons d ds ih =>
    rw [List.foldl_cons, List.foldl_cons]
    exact ih (max_le_max le_rfl (by linarith))

theorem history_thickness_le (comps : List (Component σ R C K)) (porosity : σ → K)
    (hk : ∀ c ∈ comps, Shrinks c) {s s' : ModelState σ R C K}
    {obs : List (Observation σ R C K)} (h : ModelHistory comps porosity s obs s')
    (hs : NonnegLayers s.world.layers) (c : Cell R C) :
    NonnegLayers s'.world.layers ∧ (s'.world.layers.dz c).sum ≤
      (obs.map fun o => o.world.deposit (nodeAtCell c)).foldl (fun h d => max 0 (h + d))
        (s.world.layers.dz c).sum := by
  induction h with
  | nil s => exact ⟨hs, le_rfl⟩
  | step hc ha hr ih =>
    rename_i s s1 s2 time dt p w obs
    obtain ⟨p', w', ev, w3, a, h1, h2, h3, h4, rfl⟩ := advanceComponents_ok ha
    rw [hc] at h1
    cases h1
    obtain ⟨g1, g2⟩ := runComponents_shrinks comps hk hc (w := clearDeposit s.world) hs
    have hsum : (a.layers.dz c).sum = max 0 ((w.layers.dz c).sum + w.deposit (nodeAtCell c)) := by
      rw [archiveOld_sum h4 c]
      exact (add_layer_column g1 h2 c).1
    obtain ⟨k1, k2⟩ := ih (archiveOld_nonneg h4 (add_nonneg' h2 g1))
    refine ⟨k1, k2.trans ?_⟩
    rw [List.map_cons, List.foldl_cons]
    refine surface_mono ?_ _
    show (a.layers.dz c).sum ≤ _
    rw [hsum]
    exact max_le_max le_rfl (by have := g2 c; exact add_le_add this le_rfl)

/-- C89: compaction never adds sediment. With components that only ever thin the layers, the
sediment at a cell is at no time thicker than it would be without compaction: the initial 100 m and
the deposits, never below bedrock. -/
theorem compaction_thickness {start : K} {setTime : K → σ → σ} {p : σ} {w : World R C K}
    (hempty : w.layers = EventLayers.empty) {s s' : ModelState σ R C K}
    (hi : modelInit start setTime p w = .ok s) (comps : List (Component σ R C K))
    (porosity : σ → K) (hk : ∀ c ∈ comps, Shrinks c)
    (obs : List (Observation σ R C K)) (h : ModelHistory comps porosity s obs s')
    (c : Cell R C) :
    0 ≤ (s'.world.layers.dz c).sum ∧ (s'.world.layers.dz c).sum ≤
      surface (100 :: obs.map fun o => o.world.deposit (nodeAtCell c)) := by
  obtain ⟨ev, h1, h2, -⟩ := modelInit_ok hi
  have hnn : NonnegLayers w.layers := by
    rw [hempty]
    intro a x hx
    simp [EventLayers.empty] at hx
  have h0 : NonnegLayers s.world.layers := by rw [h2]; exact add_nonneg' h1 hnn
  obtain ⟨g1, g2⟩ := history_thickness_le comps porosity hk h h0 c
  refine ⟨List.sum_nonneg (g1 c), g2.trans ?_⟩
  have e : (s.world.layers.dz c).sum = max 0 (0 + 100) := by
    rw [h2]
    have := (add_layer_column hnn h1 c).1
    rw [hempty] at this
    exact this
  unfold surface
  rw [List.foldl_cons, e]

/-! ### Example -/

/-- A component that halves the thickness and the porosity of every layer. -/
def exCompact : Component Unit 1 3 ℚ := fun _ x =>
  .ok (x.1, { x.2 with layers := { x.2.layers with
    dz := fun c => (x.2.layers.dz c).map (· / 2)
    prop := fun name c => if name = "porosity" then (x.2.layers.prop name c).map (· / 2)
      else x.2.layers.prop name c } })

example : KeepsRecord exCompact := by
  intro dt p w p' w' h
  cases h
  exact ⟨rfl, rfl, fun s => by simp, fun name hn => by funext s; simp [hn], fun s => by simp⟩

example : Shrinks exCompact := by
  intro dt p w p' w' h hw
  cases h
  have key : ∀ l : List ℚ, (∀ x ∈ l, 0 ≤ x) → (l.map (· / 2)).sum ≤ l.sum := by
    intro l hl
    induction l with
    | nil => simp
    | cons a l ih =>
      have h1 := hl a (by simp)
      have h2 := ih fun x hx => hl x (by simp [hx])
      simp only [List.map_cons, List.sum_cons]
      linarith
  refine ⟨fun a x hx => ?_, fun a => key _ (hw a)⟩
  obtain ⟨y, hy, rfl⟩ := List.mem_map.mp hx
  have := hw a y hy
  positivity

/-- Two steps of a model that compacts and deposits: the thicknesses change, the ages do not. -/
def exTwoSteps : Except Err (ModelState Unit 1 3 ℚ) :=
  match exModel with
  | .error e => .error e
  | .ok s =>
    match advanceComponents [exCompact, exComp] (fun _ => 1/2) 1 1 s with
    | .error e => .error e
    | .ok s1 => advanceComponents [exCompact, exComp] (fun _ => 1/2) 2 1 s1

example : exTwoSteps.toOption.map (fun s => (s.world.layers.dz (0, 0), s.world.layers.prop "age" (0, 0),
    s.world.layers.prop "porosity" (0, 0))) = some ([25, 1, 2], [0, 1, 2], [1/8, 1/4, 1/2]) := by
  decide +kernel

end Verif.Props
