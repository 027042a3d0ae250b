import Verif.Lemmas.Drivers
import Verif.Props.RunParts
import Verif.Props.Symmetry

/-! # C143: both drivers give the same result -/

set_option autoImplicit false
set_option linter.unusedSectionVars false

namespace Verif.Props

open Verif.Spec

variable {K : Type*} [Field K] [LinearOrder K] [IsStrictOrderedRing K] {R C : ℕ}

/-! ## Any two drivers -/

theorem loops_beside {W V : Type*} {adv : K → K → W → Except Err W} {upd : K → K → V → Except Err V}
    {r : ℕ → W → V → Prop} (hstep : ∀ k time dt w v, r k w v →
      Alike (r (k + 1)) (adv time dt w) (upd dt time v)) (start step T : K) (hs : 0 < step) :
    ∀ (n k : ℕ) (t : K) {w : W} {v : V}, r k w v → t + n * step ≤ T →
      Alike (fun a b => r (k + n) a b.2)
        (runSteps adv ⟨start, none, step, t⟩ w (List.replicate n none)).2
        (seqLoop upd step T n t v) := by
  intro n
  induction n with
  | zero => intro k t w v h _; exact .ok h
  | succ n ih =>
    intro k t w v h hT
    push_cast at hT
    have hn : (0 : K) ≤ n * step := mul_nonneg n.cast_nonneg hs.le
    have hmin : min step (T - t) = step := min_eq_left (by linarith)
    rw [List.replicate_succ]
    simp only [runSteps, runOneStep, Clock.advance, effectiveStep, seqLoop, hmin]
    have h1 := hstep k (t + step) step w v h
    generalize adv (t + step) step w = a at h1
    generalize upd step (t + step) v = b at h1
    cases h1 with
    | error e => exact .error e
    | ok h1 =>
      have := ih (k + 1) (t + step) h1 (by linarith)
      rw [show k + 1 + n = k + (n + 1) by omega] at this
      exact this

theorem runs_beside {W V : Type*} {adv : K → K → W → Except Err W} {upd : K → K → V → Except Err V}
    {r : ℕ → W → V → Prop} (hstep : ∀ k time dt w v, r k w v →
      Alike (r (k + 1)) (adv time dt w) (upd dt time v)) (start step T : K) (hs : 0 < step) :
    ∀ (n k : ℕ) (t : K) {w : W} {v v' : V} {t' : K}, r k w v → t + n * step = T →
      seqLoop upd step T n t v = .ok (t', v') → ∀ fuel, n < fuel →
      t' = T ∧ ∃ w', runLoop adv fuel ⟨start, some T, step, t⟩ w =
        some (⟨start, some T, step, T + step⟩, .ok w') ∧ r (k + n) w' v' := by
  intro n
  induction n with
  | zero =>
    intro k t w v v' t' h hT hv fuel hf
    obtain ⟨fuel, rfl⟩ : ∃ f, fuel = f + 1 := ⟨fuel - 1, by omega⟩
    cases hv
    have ht : t = T := by simpa using hT
    subst ht
    have : t < t + step := by linarith
    refine ⟨rfl, w, ?_, h⟩
    simp only [runLoop, runOneStep, Clock.advance, if_pos this]
  | succ n ih =>
    intro k t w v v' t' h hT hv fuel hf
    obtain ⟨fuel, rfl⟩ : ∃ f, fuel = f + 1 := ⟨fuel - 1, by omega⟩
    push_cast at hT
    have hn : (0 : K) ≤ n * step := mul_nonneg n.cast_nonneg hs.le
    have hmin : min step (T - t) = step := min_eq_left (by linarith)
    have hlt : ¬ T < t + step := not_lt.2 (by linarith)
    simp only [seqLoop, hmin] at hv
    simp only [runLoop, runOneStep, Clock.advance, if_neg hlt, effectiveStep]
    have h1 := hstep k (t + step) step w v h
    generalize adv (t + step) step w = a at h1
    generalize upd step (t + step) v = b at h1 hv
    cases h1 with
    | error e => cases hv
    | ok h1 =>
      have := ih (k + 1) (t + step) h1 (by linarith) hv fuel (by omega)
      rw [show k + 1 + n = k + (n + 1) by omega] at this
      exact this

/-! ## `SequenceModel` and `Sequence` -/

theorem first_beside {ι : Type*} {dz : ι → K} {kw kw' : EventLayers.Kwds ι K}
    (hn : ∀ k, k ∈ kw.map (·.1) ↔ k ∈ recordedNames)
    (hn' : ∀ k, k ∈ kw'.map (·.1) ↔ k ∈ recordedNames)
    (hage : kw'.get? "age" = kw.get? "age") :
    ∃ ev ev', EventLayers.empty.add dz kw = .ok ev ∧ EventLayers.empty.add dz kw' = .ok ev' ∧
      LayersBeside ev ev' ∧ ev'.n = 1 ∧ ∀ s, ev'.dz s = addColumn [] (dz s) := by
  have key : ∀ kw : EventLayers.Kwds ι K,
      (kw.all fun p => (kw.map (·.1)).contains p.1) = true := fun kw =>
    List.all_eq_true.2 fun p hp => List.contains_iff_mem.2 (List.mem_map_of_mem hp)
  have ht : ∀ k ∈ recordedNames, (kw.map (·.1)).contains k = true :=
    fun k hk => List.contains_iff_mem.2 ((hn k).2 hk)
  have ht' : ∀ k ∈ recordedNames, (kw'.map (·.1)).contains k = true :=
    fun k hk => List.contains_iff_mem.2 ((hn' k).2 hk)
  unfold EventLayers.add EventLayers.empty
  dsimp only
  simp only [if_true]
  rw [if_pos (key kw), if_pos (key kw')]
  refine ⟨_, _, rfl, rfl, ⟨⟨rfl, rfl, ?_, ?_⟩, Nat.one_pos, hn, hn', ?_, ?_⟩, rfl, fun _ => rfl⟩
  · funext s
    dsimp only
    rw [if_pos (ht _ (by simp [recordedNames])), if_pos (ht' _ (by simp [recordedNames])), hage]
  · intro k hk s
    have hk' : k ∈ recordedNames := by
      simp only [List.mem_cons, List.not_mem_nil, or_false, recordedNames] at hk ⊢
      tauto
    dsimp only
    rw [if_pos (ht _ hk'), if_pos (ht' _ hk')]
    rfl
  · intro k hk s
    dsimp only
    rw [if_pos (ht _ hk)]
    rfl
  · intro k hk s
    dsimp only
    rw [if_pos (ht' _ hk)]
    rfl

/-- Both drivers at the start. -/
theorem start_beside {env : Env R C K} {ps : List (Process K)}
    {q p : ProcState R C K} {w₀ w : World R (C + 2) K} (hR : 0 < R) (hC : 0 < C)
    (hf : ∃ P, Process.fluvial P ∈ ps) (hsh : ∃ a, Process.shoreline a ∈ ps)
    (hcreate : createAll env ps (q, w₀) = .ok (p, w)) (hw : FreshGrid w) (hp : p.seaTime = 0) :
    ∃ m s, packageInit env ps 0 (q, w₀) = .ok m ∧ seqInit p w true = .ok s ∧
      DriversBeside False m s := by
  obtain ⟨P, hP⟩ := hf
  obtain ⟨alpha, ha⟩ := hsh
  have hneeds := (createAll_provides ps hcreate).1
  have hsand : ∃ f, w.sand = some f := Option.isSome_iff_exists.1 (hneeds _ hP).1
  obtain ⟨a, hra⟩ : ∃ f, w.rowShore = some f := Option.isSome_iff_exists.1 (hneeds _ ha).1
  obtain ⟨b, hrb⟩ : ∃ f, w.rowShelf = some f := Option.isSome_iff_exists.1 (hneeds _ ha).2
  obtain ⟨f, hsand'⟩ := hsand
  obtain ⟨ev, ev', hev, hev', hl, hone, hdz⟩ := first_beside (ι := Cell R (C + 2)) (K := K)
    (dz := fun _ => 100)
    (kw := [("age", fun _ => 0), ("water_depth", fun c => -atCells w.bedrock c),
         ("t0", fun _ => 10), ("percent_sand", fun _ => 1/2), ("porosity", fun _ => 1/2)])
    (kw' := layerProperties 0 (1/2)
      { w with
        topo := setCells w.topo fun c => atCells w.topo c + 100, layers := EventLayers.empty })
    (by intro k; simp [recordedNames])
    (by
      intro k
      simp only [layerProperties, hsand', recordedNames, List.map_append, List.map_cons, List.map_nil,
        List.mem_append, List.mem_cons, List.not_mem_nil, or_false]
      tauto)
    (by simp [layerProperties, EventLayers.Kwds.get?])
  have hth : (fun c : Cell R (C + 2) => atCells w.topo c - atCells w.bedrock c) = fun _ => 100 := by
    funext c
    simp only [atCells, hw.bedrock]
    ring
  have hex : ∃ c : Cell R (C + 2), (0 : K) < (fun _ : Cell R (C + 2) => (100 : K)) c :=
    ⟨(⟨0, hR⟩, ⟨0, by omega⟩), by norm_num⟩
  have hm : ∃ X, packageInit env ps 0 (q, w₀) = .ok ⟨{ p with seaTime := 0 }, { w with
      rowShore := some fun _ => none, rowShelf := some fun _ => none, seaLevel := 0
      layers := ev, waterLoad := X }, 0⟩ := by
    unfold packageInit modelInit
    rw [hcreate]
    simp only [hra, hrb, hw.layers]
    rw [hev]
    cases w.waterLoad with
    | none => exact ⟨_, rfl⟩
    | some load => exact ⟨_, rfl⟩
  have hs : ∃ gl rl, seqInit p w true = .ok ⟨p, clearDeposit (resetTopo { w with
      topo := setCells w.topo fun c => atCells w.topo c + 100, layers := ev' }), 0, gl, rl⟩ ∧
      rl.shapes = some (.vector R, .vector R) := by
    have hrl : ∃ rl, RowLayers.add (⟨none, []⟩ : RowLayers R K) 0 w.seaLevel (rowArgument w.rowShore)
        (rowArgument w.rowShelf) = .ok rl ∧ rl.shapes = some (.vector R, .vector R) := by
      have hne : ¬ R = R + 2 := by omega
      unfold RowLayers.add rowShapeOf rowValues
      simp only [hra, hrb, rowArgument, Option.getD_none, List.length_ofFn, if_neg hne, if_true]
      exact ⟨_, rfl, rfl⟩
    obtain ⟨rl, hrl, hshape⟩ := hrl
    have harch : Archive.archiveOld ⟨ev', 0⟩ = .ok ⟨ev', 0⟩ := by
      unfold Archive.archiveOld
      dsimp only
      rw [hone, if_neg (by decide)]
    have hadd : seqAddLayer 0 (⟨p, w, 0, [], ⟨none, []⟩⟩ : SeqState (ProcState R C K) R (C + 2) K)
        (fun _ => 100) = .ok ⟨p, { w with
          topo := setCells w.topo fun c => atCells w.topo c + 100, layers := ev' }, 0,
          [⟨0, w.seaLevel, w.gridShore.getD none, w.gridShelf.getD none⟩], rl⟩ := by
      unfold seqAddLayer
      dsimp only
      rw [hw.layers, hev']
      dsimp only
      rw [hrl]
      dsimp only
      rw [harch]
      rfl
    unfold seqInit
    simp only [if_true, hth]
    rw [hadd, if_pos]
    · exact ⟨_, _, rfl, hshape⟩
    · obtain ⟨c, hc⟩ := hex
      exact ⟨c, by rw [show atCells w.topo c - atCells w.bedrock c = 100 from congrFun hth c]; exact hc⟩
  obtain ⟨X, hX⟩ := hm
  obtain ⟨gl, rl, hsi, hshape⟩ := hs
  refine ⟨_, _, hX, hsi, ⟨?_, rfl, ⟨?_, fun h => h.elim, fun h => h.elim,
    ⟨⟨_, rfl⟩, ⟨_, rfl⟩, ⟨_, hra⟩, ⟨_, hrb⟩⟩, hw.noLoad, hw.increment, ⟨f, hsand'⟩, hl⟩, hshape⟩⟩
  · show p = { p with seaTime := 0 }
    rw [← hp]
  · have htopo : setCells (setCells w.topo fun c => atCells w.topo c + 100)
        (fun c => atCells w.bedrock c + ev'.thickness c) = w.topo := by
      funext n
      unfold setCells
      cases hc : cellOf n with
      | none => rfl
      | some c =>
        dsimp only
        rw [cellOf_eq_some.1 hc]
        have h100 : ev'.thickness c = 100 := by
          unfold EventLayers.thickness
          rw [hdz]
          have hneg : ¬ (100 : K) < 0 := by norm_num
          simp [addColumn, depositOrErode, addToTop, hneg]
        rw [h100, atCells, hw.bedrock]
        ring
    simp only [clearDeposit, resetTopo, htopo, hw.seaLevel]

/-- C143 (partial): `SequenceModel` and `Sequence` with the same components on the same grid, both
from time 0 with the same step, agree at the start and after every number of steps: the same
surface, bedrock, sand, sea level, layers and attributes of the components, and after the first
step also the same shorelines and shelf edges; or the same exception is raised in the same step.
Missing: subsidence and flexure, which do not move the bedrock in a `Sequence`
(`seq_bedrock_differs`), compaction, whose porosity a `Sequence` does not record, the recorded
water depths (`water_depth_differs`), the record of the oldest layer and other starts. -/
theorem drivers_agree_partial {env : Env R C K} {ps : List (Process K)}
    {q p : ProcState R C K} {w₀ w : World R (C + 2) K} (hR : 0 < R) (hC : 0 < C)
    (hps : ∀ p ∈ ps, OnTheSurface p) (hf : ∃ P, Process.fluvial P ∈ ps)
    (hsh : ∃ a, Process.shoreline a ∈ ps) (hcreate : createAll env ps (q, w₀) = .ok (p, w))
    (hw : FreshGrid w) (hp : p.seaTime = 0) (step : K) (hstep : 0 < step) :
    ∃ m s, packageInit env ps 0 (q, w₀) = .ok m ∧ seqInit p w true = .ok s ∧
      DriversAgree False m s ∧
      ∀ (n : ℕ) (target : K), n * step ≤ target →
        Alike (fun m' s' => DriversAgree (0 < n) m' s'.2)
          (runSteps (stepOf env ps fun _ => 1/2) (Clock.init 0 none step) m
            (List.replicate n none)).2
          (seqLoop (seqUpdate (ps.map (Process.component env))) step target n 0 s) := by
  obtain ⟨m, s, hm, hs, hb⟩ := start_beside hR hC hf hsh hcreate hw hp
  obtain ⟨alpha, ha⟩ := hsh
  have hmem : "shoreline" ∈ ps.map Process.name := List.mem_map.2 ⟨_, ha, rfl⟩
  refine ⟨m, s, hm, hs, hb.agree, fun n target hn => ?_⟩
  have hb0 : DriversBeside (0 < 0) m s := by
    rw [show ((0 : ℕ) < 0) = False by simp]
    exact hb
  have := loops_beside (r := fun k m s => DriversBeside (0 < k) m s)
    (adv := stepOf env ps fun _ => 1/2) (upd := seqUpdate (ps.map (Process.component env)))
    (fun k time dt m s h => by
      have := step_beside (env := env) hps time dt h
      rw [show (0 < k ∨ "shoreline" ∈ ps.map Process.name) = (0 < k + 1) by simp [hmem]] at this
      exact this)
    0 step target hstep n 0 0 hb0 (by simpa using hn)
  rw [Nat.zero_add] at this
  generalize seqLoop (seqUpdate (ps.map (Process.component env))) step target n 0 s = b at this ⊢
  change Alike _ (runSteps (stepOf env ps fun _ => 1/2) ⟨0, none, step, 0⟩ m
    (List.replicate n none)).2 b
  generalize (runSteps (stepOf env ps fun _ => 1/2) ⟨0, none, step, 0⟩ m
    (List.replicate n none)).2 = a at this ⊢
  cases this with
  | error e => exact .error e
  | ok h => exact .ok h.agree

/-- C143 (partial), for `run`: if `Sequence.run(until=n * step, dt=step)` ends, then
`SequenceModel.run()` with the end at `n * step` ends as well and gives the same result. Missing:
as in `drivers_agree_partial`, and ends that are not a whole number of steps away
(`drivers_ends_differ`). -/
theorem drivers_run_partial [FloorRing K] {env : Env R C K} {ps : List (Process K)}
    {q p : ProcState R C K} {w₀ w : World R (C + 2) K} (hR : 0 < R) (hC : 0 < C)
    (hps : ∀ p ∈ ps, OnTheSurface p) (hf : ∃ P, Process.fluvial P ∈ ps)
    (hsh : ∃ a, Process.shoreline a ∈ ps) (hcreate : createAll env ps (q, w₀) = .ok (p, w))
    (hw : FreshGrid w) (hp : p.seaTime = 0) (step : K) (hstep : 0 < step)
    {m : ModelState (ProcState R C K) R (C + 2) K} {s : SeqState (ProcState R C K) R (C + 2) K}
    (hm : packageInit env ps 0 (q, w₀) = .ok m) (hs : seqInit p w true = .ok s) (n : ℕ)
    (timeStep : K) {t : K} {s' : SeqState (ProcState R C K) R (C + 2) K}
    (hrun : seqRun (seqUpdate (ps.map (Process.component env))) timeStep 0 s (some (n * step))
      (some step) = .ok (t, s')) (fuel : ℕ) (hfuel : n < fuel) :
    t = n * step ∧ ∃ m', runLoop (stepOf env ps fun _ => 1/2) fuel
        (Clock.init 0 (some (n * step)) step) m =
          some (⟨0, some (n * step), step, n * step + step⟩, .ok m') ∧
      DriversAgree (0 < n) m' s' := by
  obtain ⟨m₁, s₁, hm₁, hs₁, hb⟩ := start_beside hR hC hf hsh hcreate hw hp
  obtain rfl : m₁ = m := Except.ok.inj (hm₁.symm.trans hm)
  obtain rfl : s₁ = s := Except.ok.inj (hs₁.symm.trans hs)
  obtain ⟨alpha, ha⟩ := hsh
  have hmem : "shoreline" ∈ ps.map Process.name := List.mem_map.2 ⟨_, ha, rfl⟩
  have hb0 : DriversBeside (0 < 0) m₁ s₁ := by
    rw [show ((0 : ℕ) < 0) = False by simp]
    exact hb
  rw [seqRun_loop _ _ _ _ _ _ hstep] at hrun
  have hceil : ⌈((n * step - 0) / (some step).getD timeStep : K)⌉₊ = n := by
    rw [Option.getD_some, sub_zero, mul_div_cancel_right₀ _ hstep.ne', Nat.ceil_natCast]
  rw [hceil] at hrun
  obtain ⟨ht, m', h1, h2⟩ := runs_beside (r := fun k m s => DriversBeside (0 < k) m s)
    (adv := stepOf env ps fun _ => 1/2) (upd := seqUpdate (ps.map (Process.component env)))
    (fun k time dt m s h => by
      have := step_beside (env := env) hps time dt h
      rw [show (0 < k ∨ "shoreline" ∈ ps.map Process.name) = (0 < k + 1) by simp [hmem]] at this
      exact this)
    0 step (n * step) hstep n 0 0 hb0 (by simp) hrun fuel hfuel
  rw [Nat.zero_add] at h2
  exact ⟨ht, m', h1, h2.agree⟩

/-! ## Where the drivers differ -/

/-- A falling sea, a solver that moves sediment, sand and shorelines. -/
def exSurfaceProcs : List (Process ℚ) :=
  [.seaLevel (fun t => .ok (1/2 - t / 1000)) 0,
    .diffusion ⟨0, 1/100, 60, 15, 1/2000, 1/1000, 3, 0, 0⟩, .fluvial exFluvial, .shoreline 1]

/-- `exEnv` with a solver that moves sediment. -/
def exSurfaceEnv : Env 1 1 ℚ := { exEnv with
  solve := fun kd dt z => .ok fun n => z n - kd n * dt / 1000000 + 1 / 10 }

/-- `exBeach` without flexure. -/
def exPlainBeach : World 1 3 ℚ := { exBeach with sedLoad := none }

/-- The surface and the layers. -/
def exDriverView (w : World 1 3 ℚ) : List ℚ × List ℚ :=
  (List.ofFn fun i => w.topo (1, i), w.layers.dz (0, ⟨0, by omega⟩))

/-- A `SequenceModel` of `exPlainBeach` in steps of 100 years up to `stop`. -/
def exModelRun (ps : List (Process ℚ)) (stop : ℚ) : Option (World 1 3 ℚ) :=
  match packageInit exSurfaceEnv ps 0 (exProcState, exPlainBeach) with
  | .error _ => none
  | .ok m =>
    match runLoop (stepOf exSurfaceEnv ps fun _ => 1/2) 10 (Clock.init 0 (some stop) 100) m with
    | some (_, .ok m') => some m'.world
    | _ => none

/-- A `Sequence` of the same components and grid. -/
def exSeqRun (ps : List (Process ℚ)) (stop : ℚ) : Option (World 1 3 ℚ) :=
  match createAll exSurfaceEnv ps (exProcState, exPlainBeach) with
  | .error _ => none
  | .ok (p, w) =>
    match seqInit p w true with
    | .error _ => none
    | .ok s =>
      match seqRun (seqUpdate (ps.map (Process.component exSurfaceEnv))) 100 0 s (some stop)
          (some 100) with
      | .ok (_, s') => some s'.world
      | .error _ => none

/-- C143, negation: an end that is not a whole number of steps away. After 150 years `Sequence`
has taken a whole and a half step, `SequenceModel` one step. -/
theorem drivers_ends_differ :
    ((exModelRun exSurfaceProcs 150).map fun w => w.layers.prop "age" (0, ⟨0, by omega⟩)) =
      some [0, 100] ∧
    ((exSeqRun exSurfaceProcs 150).map fun w => w.layers.prop "age" (0, ⟨0, by omega⟩)) =
      some [0, 100, 150] := by
  constructor <;> decide +kernel

/-- C143, negation: a grid on which the sea is not at 0, without a sea-level process. `Sequence`
keeps the sea level that `SubmarineDiffuser` is given, `SequenceModel` sets it to 0. -/
theorem drivers_sea_levels_differ :
    let ps : List (Process ℚ) := [.diffusion ⟨1/2, 1/100, 60, 15, 1/2000, 1/1000, 3, 0, 0⟩,
      .fluvial exFluvial, .shoreline 1]
    (exModelRun ps 100).map (·.seaLevel) = some 0 ∧
    (exSeqRun ps 100).map (·.seaLevel) = some (1/2) := by
  constructor <;> decide +kernel

/-! ### Concrete cases -/

/-- The hypotheses of `drivers_agree_partial` and `drivers_run_partial`. -/
example : ∃ p w, createAll exSurfaceEnv exSurfaceProcs (exProcState, exPlainBeach) = .ok (p, w) ∧
    FreshGrid w ∧ p.seaTime = 0 ∧ (∀ p ∈ exSurfaceProcs, OnTheSurface p) ∧
    (∃ P, Process.fluvial P ∈ exSurfaceProcs) ∧ ∃ a, Process.shoreline a ∈ exSurfaceProcs := by
  have hc : (createAll exSurfaceEnv exSurfaceProcs (exProcState, exPlainBeach)).toOption.map
      (fun s => (s.1.seaTime, s.2.seaLevel, s.2.sedLoad.isNone,
        s.2.increment.map fun f => List.ofFn fun i : Fin 3 => List.ofFn fun j : Fin 3 => f (i, j))) =
      some (0, 0, true, some [[0, 0, 0], [0, 0, 0], [0, 0, 0]]) := by decide +kernel
  cases h : createAll exSurfaceEnv exSurfaceProcs (exProcState, exPlainBeach) with
  | error e => rw [h] at hc; cases hc
  | ok s =>
    obtain ⟨p, w⟩ := s
    obtain ⟨h1, h2, h3, -⟩ := createAll_world _ h
    rw [h] at hc
    simp only [Except.toOption, Option.map_some, Option.some.injEq, Prod.mk.injEq] at hc
    obtain ⟨c1, c2, c3, c4⟩ := hc
    refine ⟨p, w, rfl, ⟨h1, fun n => ?_, c2, Option.isNone_iff_eq_none.1 c3, fun f hf n => ?_⟩, c1, ?_,
      ⟨_, List.mem_cons_of_mem _ (List.mem_cons_of_mem _ List.mem_cons_self)⟩,
      ⟨1, by simp [exSurfaceProcs]⟩⟩
    · rw [show w.bedrock = exPlainBeach.bedrock from h3, show w.topo = exPlainBeach.topo from h2]
      simp only [exPlainBeach, exBeach]
      ring
    · rw [hf] at c4
      simp only [Option.map_some, Option.some.injEq] at c4
      obtain ⟨i, j⟩ := n
      have e := congrArg (fun l => (l[i.val]?).bind fun r => r[j.val]?) c4
      fin_cases i <;> fin_cases j <;> simpa using e
    · intro p hp
      simp only [exSurfaceProcs, List.mem_cons, List.not_mem_nil, or_false] at hp
      rcases hp with rfl | rfl | rfl | rfl <;> trivial

/-- Both run, deposit and agree. -/
example : (exModelRun exSurfaceProcs 300).map exDriverView =
      (exSeqRun exSurfaceProcs 300).map exDriverView ∧
    (exModelRun exSurfaceProcs 300).map (fun w => w.rowShore.map List.ofFn) =
      (exSeqRun exSurfaceProcs 300).map (fun w => w.rowShore.map List.ofFn) ∧
    ((exSeqRun exSurfaceProcs 300).map fun w =>
      (w.layers.dz (0, ⟨0, by omega⟩)).map fun d => decide (0 < d)) =
      some [true, true, true, true] := by
  refine ⟨?_, ?_, ?_⟩ <;> decide +kernel

end Verif.Props
