import Verif.Lemmas.Prelude
import Verif.Lemmas.Package
import Verif.Props.Compaction
import Verif.Props.SeaLevel
import Verif.Props.SedLoad
import Verif.Props.Fluvial
import Verif.Props.Submarine

/-!
# Models made of the package's own processes

C90 to C95: what holds of every run of `SequenceModel` with any of the processes that
`load_processes` can create, in any order, with any parameters.
-/

set_option autoImplicit false
set_option linter.unusedSectionVars false

namespace Verif.Props

open Spec

variable {K σ : Type*} {R C : ℕ} [Field K] [LinearOrder K] [IsStrictOrderedRing K]

/-! ### C90 -/

/-- What is known between steps of a model whose components may compact the layers. -/
def RecordOk (s : ModelState σ R C K) : Prop :=
  ∃ l, ModelOk ⟨s.comps, { s.world with layers := l }, s.archived⟩ ∧ SameRecord l s.world.layers

theorem recordOk_step {comps : List (Component σ R C K)} (porosity : σ → K)
    (hk : ∀ c ∈ comps, KeepsRecord c)
    (hsand : ∀ c ∈ comps, Maintains c fun w => w.sedLoad = none ∨ ∃ f, w.sand = some f)
    {s : ModelState σ R C K} (hs : RecordOk s) (time dt : K)
    (hc : ∃ y, runComponents comps dt (s.comps, clearDeposit s.world) = .ok y) :
    ∃ s', advanceComponents comps porosity time dt s = .ok s' ∧ RecordOk s' := by
  obtain ⟨⟨p, w⟩, hc⟩ := hc
  obtain ⟨l, hok, hl⟩ := hs
  have hws : w.sedLoad = none ∨ ∃ f, w.sand = some f :=
    runComponents_maintains (fun w => w.sedLoad = none ∨ ∃ f, w.sand = some f) comps hsand
      (w := clearDeposit s.world) hok.2.2.2 hc
  -- the same step on the layers without compaction
  obtain ⟨s1, h1, h2⟩ := modelOk_step
    (comps := [fun _ x => .ok (p, { w with layers := x.2.layers })]) porosity
    (fun c hc dt p w p' w' h => by
      rw [List.mem_singleton] at hc; subst hc; cases h; rfl)
    (fun c hc dt p w p' w' _ h => by
      rw [List.mem_singleton] at hc; subst hc; cases h; exact hws)
    hok time dt ⟨_, rfl⟩
  obtain ⟨p', w', ev, w3, a, g1, g2, g3, g4, rfl⟩ := advanceComponents_ok h1
  cases g1
  have hw : SameRecord l w.layers :=
    sameRecord_trans hl (runComponents_record (w := clearDeposit s.world) comps hk hc)
  rcases sameRecord_add hw (atCells w.deposit) (layerProperties time (porosity p) w) with
    ⟨ev0, ev', k1, k2, k3⟩ | ⟨k1, -⟩
  swap
  · have : l.add (atCells w.deposit) (layerProperties time (porosity p) w) = .ok ev := g2
    rw [k1] at this; cases this
  have : l.add (atCells w.deposit) (layerProperties time (porosity p) w) = .ok ev := g2
  rw [k1] at this
  cases this
  obtain ⟨v3, hv3⟩ := updateFields_total (w := { w with layers := ev' }) hws
  rcases sameRecord_archive k3 s.archived with ⟨a0, a', m1, m2, m3, m4⟩ | ⟨e, m1, -⟩
  swap
  · have g4' : Archive.archiveOld ⟨ev, s.archived⟩ = .ok a := g4
    rw [m1] at g4'; cases g4'
  have g4' : Archive.archiveOld ⟨ev, s.archived⟩ = .ok a := g4
  rw [m1] at g4'
  cases g4'
  have hv := updateFields_ok hv3
  refine ⟨⟨p, { v3 with layers := a'.layers }, a'.archived⟩, ?_, a.layers, ?_, m4⟩
  · unfold advanceComponents
    simp only [hc, k2, hv3, hv.2.1, m2]
  · obtain ⟨⟨es, n1, n2⟩, n3, n4, -⟩ := h2
    refine ⟨⟨es, n1, ?_⟩, n3, n4, ?_⟩
    · rw [m3]; exact n2
    · show v3.sedLoad = none ∨ ∃ f, v3.sand = some f
      rcases hws with h | ⟨f, h⟩
      · left
        have := (updateFields_fields hv3).2.1
        rw [h] at this
        exact Option.not_isSome_iff_eq_none.mp (by rw [this]; simp)
      · right
        exact ⟨f, hv.2.2.2.1.trans h⟩

theorem recordOk_init {start : K} {setTime : K → σ → σ} {p : σ} {w : World R C K}
    (hempty : w.layers = EventLayers.empty) {s : ModelState σ R C K}
    (hi : modelInit start setTime p w = .ok s)
    (hsand : w.sedLoad = none ∨ ∃ f, w.sand = some f) : RecordOk s :=
  ⟨s.world.layers, modelOk_init hempty hi hsand, sameRecord_refl _⟩

theorem recordOk_history {comps : List (Component σ R C K)} {porosity : σ → K}
    (hk : ∀ c ∈ comps, KeepsRecord c)
    (hsand : ∀ c ∈ comps, Maintains c fun w => w.sedLoad = none ∨ ∃ f, w.sand = some f)
    {s s' : ModelState σ R C K} {obs : List (Observation σ R C K)}
    (h : ModelHistory comps porosity s obs s') (hs : RecordOk s) : RecordOk s' := by
  induction h with
  | nil s => exact hs
  | step hc ha hr ih =>
    rename_i s s1 s2 time dt p w obs
    obtain ⟨s1', h1, h2⟩ := recordOk_step porosity hk hsand hs time dt ⟨_, hc⟩
    rw [ha] at h1
    cases h1
    exact ih h2

/-- C90: in a model that started from a fresh grid, a step raises exactly what its components
raise: adding the layer, updating the fields and archiving never fail. The components may change
everything but, of the layers, only thicknesses and porosities, and provide a sand fraction
wherever there is a sediment load. -/
theorem step_fails_in_components {start : K} {setTime : K → σ → σ} {p : σ} {w : World R C K}
    (hempty : w.layers = EventLayers.empty) {s s' : ModelState σ R C K}
    (hi : modelInit start setTime p w = .ok s)
    (hsand0 : w.sedLoad = none ∨ ∃ f, w.sand = some f)
    (comps : List (Component σ R C K)) (porosity : σ → K) (hk : ∀ c ∈ comps, KeepsRecord c)
    (hsand : ∀ c ∈ comps, Maintains c fun w => w.sedLoad = none ∨ ∃ f, w.sand = some f)
    (obs : List (Observation σ R C K)) (h : ModelHistory comps porosity s obs s') (time dt : K)
    (e : Err) :
    advanceComponents comps porosity time dt s' = .error e ↔
      runComponents comps dt (s'.comps, clearDeposit s'.world) = .error e := by
  have hok := recordOk_history hk hsand h (recordOk_init hempty hi hsand0)
  cases hc : runComponents comps dt (s'.comps, clearDeposit s'.world) with
  | error e' =>
    unfold advanceComponents
    rw [hc]
    exact ⟨fun h => by cases h; rfl, fun h => by cases h; rfl⟩
  | ok y =>
    obtain ⟨s2, h2, -⟩ := recordOk_step porosity hk hsand hok time dt ⟨y, hc⟩
    rw [h2]
    exact ⟨fun h => (by cases h), fun h => (by cases h)⟩

/-! ### C91 -/

theorem mem_requiredToo (fl sh : Process K) (ps : List (Process K)) (hfl : fl.name = "fluvial")
    (hsh : sh.name = "shoreline") :
    (∃ P, Process.fluvial P ∈ requiredToo fl sh ps) ∧
    (∃ alpha, Process.shoreline alpha ∈ requiredToo fl sh ps) ∧
    ∀ p ∈ ps, p ∈ requiredToo fl sh ps := by
  have named : ∀ (n : String) (l : List (Process K)), n ∈ l.map Process.name →
      ∃ p ∈ l, p.name = n := fun n l h => by simpa using h
  have isF : ∀ p : Process K, p.name = "fluvial" → ∃ P, p = .fluvial P := by
    intro p hp; cases p <;> first | exact ⟨_, rfl⟩ | (simp [Process.name] at hp)
  have isS : ∀ p : Process K, p.name = "shoreline" → ∃ a, p = .shoreline a := by
    intro p hp; cases p <;> first | exact ⟨_, rfl⟩ | (simp [Process.name] at hp)
  set ps1 := if "fluvial" ∈ ps.map Process.name then ps else ps ++ [fl] with hps1
  have h1 : "fluvial" ∈ ps1.map Process.name := by
    rw [hps1]
    split_ifs with h
    · exact h
    · simp [hfl]
  have h2 : ∀ p ∈ ps, p ∈ ps1 := by
    intro p hp
    rw [hps1]
    split_ifs
    · exact hp
    · simp [hp]
  set ps2 := requiredToo fl sh ps with hps2
  have e2 : ps2 = if "shoreline" ∈ ps1.map Process.name then ps1 else ps1 ++ [sh] := rfl
  have h3 : "shoreline" ∈ ps2.map Process.name := by
    rw [e2]
    split_ifs with h
    · exact h
    · simp [hsh]
  have h4 : ∀ p ∈ ps1, p ∈ ps2 := by
    intro p hp
    rw [e2]
    split_ifs
    · exact hp
    · simp [hp]
  obtain ⟨p, hp, hn⟩ := named _ _ h1
  obtain ⟨P, rfl⟩ := isF p hn
  obtain ⟨q, hq, hm⟩ := named _ _ h3
  obtain ⟨a, rfl⟩ := isS q hm
  exact ⟨⟨P, h4 _ hp⟩, ⟨a, hq⟩, fun p hp => h4 _ (h2 p hp)⟩

theorem component_keepsRecord {env : Env R C K} (hc : CompactKeepsRecord env) (p : Process K) :
    KeepsRecord (p.component env) := by
  intro dt q w q' w' h
  by_cases hp : p.name = "compaction"
  · cases p <;> simp [Process.name] at hp
    simp only [Process.component] at h
    split at h
    · cases h
    · rename_i l hl
      cases h
      exact hc _ _ _ hl
  · rw [(component_frame h).layers hp]
    exact sameRecord_refl _

theorem component_hasSand {env : Env R C K} (p : Process K) :
    Maintains (p.component env) fun w => w.sedLoad = none ∨ ∃ f, w.sand = some f := by
  intro dt q w q' w' hw h
  have hf := component_frame h
  rcases hw with hw | ⟨f, hw⟩
  · exact .inl (hf.sedLoad.trans hw)
  · right
    apply Option.isSome_iff_exists.mp
    rw [hf.hasSand, hw]
    rfl

/-- A model of the package's processes and any history of it. -/
structure PackageRun (env : Env R C K) (ps : List (Process K)) (start : K)
    (porosity : ProcState R C K → K) (q : ProcState R C K) (w : World R (C + 2) K)
    (s : ModelState (ProcState R C K) R (C + 2) K)
    (obs : List (Observation (ProcState R C K) R (C + 2) K))
    (s' : ModelState (ProcState R C K) R (C + 2) K) : Prop where
  fresh : w.layers = EventLayers.empty
  init : packageInit env ps start (q, w) = .ok s
  run : ModelHistory (ps.map (Process.component env)) porosity s obs s'

theorem packageInit_ok {env : Env R C K} {ps : List (Process K)} {start : K}
    {x : ProcState R C K × World R (C + 2) K} {s : ModelState (ProcState R C K) R (C + 2) K}
    (h : packageInit env ps start x = .ok s) :
    ∃ p w, createAll env ps x = .ok (p, w) ∧
      modelInit start (fun t (q : ProcState R C K) => { q with seaTime := t }) p w = .ok s := by
  unfold packageInit at h
  cases hc : createAll env ps x with
  | error e => rw [hc] at h; cases h
  | ok y =>
    obtain ⟨p, w⟩ := y
    rw [hc] at h
    exact ⟨p, w, rfl, h⟩

/-- C91: with the processes that `load_processes` adds, a model can be constructed whenever its
processes can; every process finds the fields it needs in every step of every run; a step raises
exactly what one of its processes raises, and that is never a `KeyError`. -/
theorem package_fields (env : Env R C K) (ps : List (Process K)) (fl sh : Process K)
    (hfl : fl.name = "fluvial") (hsh : sh.name = "shoreline")
    (henv : ExternalsFine env (requiredToo fl sh ps)) (hcomp : CompactKeepsRecord env) (start : K)
    (q : ProcState R C K) (w : World R (C + 2) K) (hempty : w.layers = EventLayers.empty) :
    (∀ y, createAll env (requiredToo fl sh ps) (q, w) = .ok y →
      ∃ s, packageInit env (requiredToo fl sh ps) start (q, w) = .ok s) ∧
    ∀ porosity s obs s', PackageRun env (requiredToo fl sh ps) start porosity q w s obs s' →
      (∀ p ∈ ps, Needs p s'.world) ∧ ∀ time dt,
        NoKeyError (advanceComponents ((requiredToo fl sh ps).map (Process.component env)) porosity
          time dt s') ∧
        ∀ e, advanceComponents ((requiredToo fl sh ps).map (Process.component env)) porosity time dt
            s' = .error e ↔
          runComponents ((requiredToo fl sh ps).map (Process.component env)) dt
            (s'.comps, clearDeposit s'.world) = .error e := by
  obtain ⟨⟨P, hP⟩, ⟨alpha, ha⟩, hall⟩ := mem_requiredToo fl sh ps hfl hsh
  constructor
  · rintro ⟨p, w1⟩ hc
    obtain ⟨h1, h2⟩ := createAll_provides _ hc
    have hl := (createAll_world _ hc).1
    obtain ⟨a, hsh1⟩ := Option.isSome_iff_exists.mp (h1 _ ha).1
    obtain ⟨b, hsh2⟩ := Option.isSome_iff_exists.mp (h1 _ ha).2
    obtain ⟨ev, hev⟩ := add_ok_of_subset (ev := w1.layers) (dz := (initEvent start w1).dz)
      (kw := (initEvent start w1).kw) (.inl (by rw [hl]; show w.layers.n = 0; rw [hempty]; rfl))
    simp only [initEvent] at hev
    unfold packageInit
    rw [hc]
    dsimp only
    unfold modelInit
    dsimp only at hsh1 hsh2
    simp only [hsh1, hsh2, hev]
    exact ⟨_, rfl⟩
  · intro porosity s obs s' hrun
    obtain ⟨p, w1, hc, hm⟩ := packageInit_ok hrun.init
    obtain ⟨h1, h2⟩ := createAll_provides _ hc
    have hl := (createAll_world _ hc).1
    have hprov := provides_trans (modelInit_provides hm) (history_provides hrun.run)
    have hneeds : ∀ p ∈ requiredToo fl sh ps, Needs p s'.world :=
      fun p hp => needs_mono hprov (h1 p hp)
    have herr := fun time dt => step_fails_in_components (hl.trans hempty) hm
      (.inr (Option.isSome_iff_exists.mp (h1 _ hP).1)) _ porosity
      (fun c hc => by
        obtain ⟨p, -, rfl⟩ := List.mem_map.mp hc
        exact component_keepsRecord hcomp p)
      (fun c hc => by
        obtain ⟨p, -, rfl⟩ := List.mem_map.mp hc
        exact component_hasSand p) obs hrun.run time dt
    refine ⟨fun p hp => hneeds p (hall p hp), fun time dt => ⟨fun k hk => ?_, herr time dt⟩⟩
    rw [herr] at hk
    exact runComponents_noKeyError henv _ (fun p hp => hp) dt _ (clearDeposit s'.world)
      (fun p hp => needs_mono (w := s'.world) ⟨id, id, id, id, id, id, id⟩ (hneeds p hp)) k hk

/-! ### C92 -/

/-- The increment of the bedrock in the boundary rows. -/
theorem component_boundary {env : Env R C K} {p : Process K} {dt : K} {q q' : ProcState R C K}
    {w w' : World R (C + 2) K} (h : p.component env dt (q, w) = .ok (q', w'))
    (n : Node R (C + 2)) (hn : n.1.val = 0 ∨ n.1.val = R + 1) :
    w'.topo n = w.topo n ∧ (w'.increment.map fun f => f n) = w.increment.map fun f => f n := by
  constructor
  · by_cases hp : p.name = "submarine_diffusion"
    · cases p <;> simp [Process.name] at hp
      simp only [Process.component, diffuserComponent] at h
      split at h
      · cases h
      · rename_i s1 w1 hs
        cases h
        exact (diffusion_deposit hs).2.2.1 n hn
    · rw [(component_frame h).noDiffusion hp]
  · have sub : ∀ {d : Profile R (C + 2) K} {v v' : World R (C + 2) K},
        subtractDeflection d v = .ok v' →
        (v'.increment.map fun f => f n) = v.increment.map fun f => f n := by
      intro d v v' h
      unfold subtractDeflection at h
      cases hi : v.increment with
      | none => rw [hi] at h; cases h
      | some f =>
        rw [hi] at h
        cases h
        simp only [Option.map_some, Option.some.injEq]
        exact setProfile_other _ _ n hn
    by_cases h3 : p.name ≠ "subsidence" ∧ p.name ≠ "flexure" ∧ p.name ≠ "water_flexure"
    · rw [(component_frame h).noSubsidence h3.1 h3.2.1 h3.2.2]
    · cases p <;> simp [Process.name] at h3
      · simp only [Process.component, subsidenceComponent, subsidenceStep] at h
        cases hi : w.increment with
        | none => simp only [hi] at h; cases h
        | some f =>
          simp only [hi] at h
          cases h
          simp only [Option.map_some, Option.some.injEq]
          exact setProfile_other _ _ n hn
      · simp only [Process.component, flexComponent, sedFlexStep] at h
        split at h
        · cases h
        · rename_i s1 w1 hs
          cases h
          split at hs
          · cases hs
          · split at hs
            · cases hs
            · rename_i hsub
              cases hs
              exact sub hsub
      · simp only [Process.component, flexComponent, waterFlexStep] at h
        split at h
        · cases h
        · rename_i s1 w1 hs
          cases h
          split at hs
          · cases hs
          · split at hs
            · cases hs
            · split at hs
              · cases hs
              · rename_i hsub
                cases hs
                exact sub hsub

theorem runComponents_boundary {env : Env R C K} (ps : List (Process K)) {dt : K}
    {q q' : ProcState R C K} {w w' : World R (C + 2) K}
    (h : runComponents (ps.map (Process.component env)) dt (q, w) = .ok (q', w')) :
    (∀ n : Node R (C + 2), n.1.val = 0 ∨ n.1.val = R + 1 → w'.topo n = w.topo n ∧
      (w'.increment.map fun f => f n) = w.increment.map fun f => f n) ∧
    (∀ n : Node R (C + 2), n.2 ≠ 0 → w'.topo n = w.topo n) ∧ w'.bedrock = w.bedrock := by
  induction ps generalizing q w with
  | nil => cases h; exact ⟨fun _ _ => ⟨rfl, rfl⟩, fun _ _ => rfl, rfl⟩
  | cons p ps ih =>
    rw [List.map_cons, runComponents] at h
    cases hc : p.component env dt (q, w) with
    | error e => rw [hc] at h; cases h
    | ok x =>
      obtain ⟨q1, w1⟩ := x
      rw [hc] at h
      obtain ⟨i1, i2, i3⟩ := ih h
      refine ⟨fun n hn => ?_, fun n hn => ?_, ?_⟩
      · have := component_boundary hc n hn
        exact ⟨(i1 n hn).1.trans this.1, (i1 n hn).2.trans this.2⟩
      · exact (i2 n hn).trans ((component_frame hc).topo n hn)
      · exact i3.trans (component_frame hc).bedrock

theorem nodeAtCell_bounds (c : Cell R C) :
    (nodeAtCell c).1.val = c.1.val + 1 ∧ (nodeAtCell c).2.val = c.2.val + 1 := ⟨rfl, rfl⟩

/-- C92: in every run of the package's processes the topography of the two boundary rows and of the
last column never changes, and neither does the bedrock of the boundary rows. -/
theorem package_edges {env : Env R C K} {ps : List (Process K)} {porosity : ProcState R C K → K}
    {s s' : ModelState (ProcState R C K) R (C + 2) K}
    {obs : List (Observation (ProcState R C K) R (C + 2) K)}
    (h : ModelHistory (ps.map (Process.component env)) porosity s obs s') (n : Node R (C + 2)) :
    ((n.1.val = 0 ∨ n.1.val = R + 1 ∨ n.2.val = C + 1) → s'.world.topo n = s.world.topo n) ∧
    ((n.1.val = 0 ∨ n.1.val = R + 1) → (∀ f, s.world.increment = some f → f n = 0) →
      s'.world.bedrock n = s.world.bedrock n) := by
  induction h with
  | nil s => exact ⟨fun _ => rfl, fun _ _ => rfl⟩
  | step hc ha hr ih =>
    rename_i s s1 s2 time dt p w obs
    obtain ⟨p', w', ev, w3, a, h1, h2, h3, h4, rfl⟩ := advanceComponents_ok ha
    rw [hc] at h1
    cases h1
    obtain ⟨b1, b2, b3⟩ := runComponents_boundary (w := clearDeposit s.world) ps hc
    obtain ⟨-, -, -, -, -, u1, u2, u3⟩ := updateFields_ok h3
    dsimp only at u1 u2 u3
    refine ⟨fun hn => ?_, fun hn hz => ?_⟩
    · rw [ih.1 hn]
      show w3.topo n = s.world.topo n
      rw [u3 n]
      · rcases hn with hn | hn | hn
        · exact (b1 n (.inl hn)).1
        · exact (b1 n (.inr hn)).1
        · exact b2 n (fun h0 => by rw [h0] at hn; simp at hn)
      · intro c hcn
        obtain ⟨e1, e2⟩ := nodeAtCell_bounds c
        rw [← hcn] at e1 e2
        have := c.1.isLt
        have := c.2.isLt
        omega
    · rw [ih.2 hn]
      · show w3.bedrock n = s.world.bedrock n
        rw [u1 n, b3, (b1 n hn).2]
        show s.world.bedrock n + (s.world.increment.map fun f => f n).getD 0 = s.world.bedrock n
        cases hi : s.world.increment with
        | none => simp
        | some f => simp [hz f hi]
      · intro f hf
        have : w3.increment = some f := hf
        rw [u2] at this
        cases hi : w.increment with
        | none => rw [hi] at this; cases this
        | some g => rw [hi] at this; cases this; rfl

/-! ### C93 -/

/-- C93, the part that holds: at the cells. Over any history in which no component changes the
layers and nothing is deposited or eroded at a cell, the surface there moves exactly as the
bedrock does. What is missing: nodes that are not cells, where `package_edges` says that it may
not. -/
theorem surface_follows_bedrock_partial (comps : List (Component σ R C K)) (porosity : σ → K)
    (hk : ∀ c ∈ comps, Keeps c World.layers) (s s' : ModelState σ R C K)
    (obs : List (Observation σ R C K)) (h : ModelHistory comps porosity s obs s')
    (htopo : TopoConsistent s.world) (hnn : NonnegLayers s.world.layers) (r : Fin R)
    (c : Fin (C - 2)) (n : Node R C) (h1 : n.1.val = r.val + 1) (h2 : n.2.val = c.val + 1)
    (hzero : ∀ o ∈ obs, o.world.deposit n = 0) :
    s'.world.topo n - s.world.topo n = s'.world.bedrock n - s.world.bedrock n := by
  have en : n = nodeAtCell (r, c) := Prod.ext (Fin.ext h1) (Fin.ext h2)
  have key : TopoConsistent s'.world ∧
      (s'.world.layers.dz (r, c)).sum = (s.world.layers.dz (r, c)).sum := by
    clear h1 h2
    induction h with
    | nil s => exact ⟨htopo, rfl⟩
    | step hc ha hr ih =>
      rename_i s s1 s2 time dt p w obs
      have hz := hzero _ (List.mem_cons_self ..)
      dsimp only at hz
      have ht1 := model_step_topo comps porosity time dt s s1 ha
      obtain ⟨p', w', ev, w3, a, g1, g2, g3, g4, rfl⟩ := advanceComponents_ok ha
      rw [hc] at g1
      cases g1
      have hwl : w.layers = s.world.layers :=
        runComponents_keeps (w := clearDeposit s.world) World.layers comps hk hc
      have hev := add_eq_ok g2
      have hn1 : NonnegLayers a.layers :=
        archiveOld_nonneg g4 (add_nonneg' g2 (by rw [hwl]; exact hnn))
      have hsum : (a.layers.dz (r, c)).sum = (s.world.layers.dz (r, c)).sum := by
        rw [archiveOld_sum g4]
        show (ev.dz (r, c)).sum = _
        rw [hev]
        show (addColumn (w.layers.dz (r, c)) (atCells w.deposit (r, c))).sum = _
        rw [addColumn_sum (fun x hx => by rw [hwl] at hx; exact hnn _ x hx), hwl]
        have : atCells w.deposit (r, c) = 0 := by
          unfold atCells
          rw [← en]
          exact hz
        rw [this, add_zero]
        exact max_eq_right (List.sum_nonneg (hnn (r, c)))
      obtain ⟨i1, i2⟩ := ih ht1 hn1 (fun o ho => hzero o (List.mem_cons_of_mem _ ho))
      exact ⟨i1, i2.trans hsum⟩
  have a1 := htopo r n.1 c n.2 h1 h2
  have a2 := key.1 r n.1 c n.2 h1 h2
  rw [show s'.world.topo n = s'.world.topo (n.1, n.2) from rfl,
    show s.world.topo n = s.world.topo (n.1, n.2) from rfl, a1, a2, key.2]
  show s'.world.bedrock n + _ - (s.world.bedrock n + _) = _
  ring

/-! ### C94 -/

/-- Sand fractions are fractions. -/
def SandFractions (w : World R C K) : Prop := ∀ f, w.sand = some f → ∀ n, 0 ≤ f n ∧ f n ≤ 1

theorem create_sand {env : Env R C K} {p : Process K} {s s' : ProcState R C K × World R (C + 2) K}
    (h : p.create env s = .ok s') (hs : SandFractions s.2) : SandFractions s'.2 := by
  cases p with
  | seaLevel curve start => cases h; exact hs
  | compaction => cases h; exact hs
  | subsidence curve =>
    simp only [Process.create] at h
    split at h
    · cases h
    · cases h; exact hs
  | diffusion P =>
    simp only [Process.create, diffuserInit] at h
    split_ifs at h
    · cases h; exact hs
  | fluvial P =>
    cases h
    intro f hf n
    dsimp only at hf
    cases hw : s.2.sand with
    | none =>
      rw [hw] at hf
      cases hf
      exact ⟨le_rfl, zero_le_one⟩
    | some g =>
      rw [hw] at hf
      cases hf
      exact hs _ hw n
  | flexure t =>
    simp only [Process.create] at h
    split at h
    · cases h
    · cases h; exact hs
  | waterFlexure t =>
    simp only [Process.create] at h
    split at h
    · cases h
    · cases h; exact hs
  | shoreline alpha =>
    simp only [Process.create] at h
    split at h
    · cases h
    · rename_i w hw
      cases h
      obtain ⟨a, b, a', b', -, -, rfl⟩ := shorelineUpdate_world hw
      exact hs

theorem createAll_sand {env : Env R C K} (ps : List (Process K))
    {s s' : ProcState R C K × World R (C + 2) K} (h : createAll env ps s = .ok s')
    (hs : SandFractions s.2) : SandFractions s'.2 := by
  induction ps generalizing s with
  | nil => cases h; exact hs
  | cons p ps ih =>
    rw [createAll] at h
    cases hc : p.create env s with
    | error e => rw [hc] at h; cases h
    | ok s1 => rw [hc] at h; exact ih h (create_sand hc hs)

theorem component_sand {env : Env R C K} (p : Process K) :
    Maintains (p.component env) SandFractions := by
  intro dt q w q' w' hw h
  by_cases hp : p.name = "fluvial"
  · cases p <;> simp [Process.name] at hp
    rename_i P
    exact fluvial_keeps_fractions env.kind env.xtol env.rtol env.expf env.sqrtf (fun _ => P) env.dx
      env.x dt q w q' w' hw h
  · intro f hf
    rw [(component_frame h).sand hp] at hf
    exact hw f hf

theorem history_maintains (P : World R C K → Prop) {comps : List (Component σ R C K)}
    {porosity : σ → K} (hk : ∀ c ∈ comps, Maintains c P)
    (hclear : ∀ w, P w → P (clearDeposit w)) (hlayers : ∀ w l, P w → P { w with layers := l })
    (hupdate : ∀ w w', P w → updateFields w = .ok w' → P w') {s s' : ModelState σ R C K}
    {obs : List (Observation σ R C K)} (h : ModelHistory comps porosity s obs s')
    (hs : P s.world) : P s'.world ∧ ∀ o ∈ obs, P o.world := by
  induction h with
  | nil s => exact ⟨hs, by simp⟩
  | step hc ha hr ih =>
    rename_i s s1 s2 time dt p w obs
    obtain ⟨p', w', ev, w3, a, h1, h2, h3, h4, rfl⟩ := advanceComponents_ok ha
    rw [hc] at h1
    cases h1
    have hw : P w := runComponents_maintains P comps hk (hclear _ hs) hc
    obtain ⟨i1, i2⟩ := ih (hlayers _ _ (hupdate _ _ (hlayers _ _ hw) h3))
    refine ⟨i1, fun o ho => ?_⟩
    rcases List.mem_cons.mp ho with rfl | ho
    · exact hw
    · exact i2 o ho

/-- C94: in every run of the package's processes the sand fraction is a fraction at every node
after every step, and so is the sand fraction recorded in every layer. (Runs in which the fluvial
component stores a NaN are not runs of this model, see C41.) -/
theorem package_sand {env : Env R C K} {ps : List (Process K)} {start : K}
    {porosity : ProcState R C K → K} {q : ProcState R C K} {w : World R (C + 2) K}
    {s s' : ModelState (ProcState R C K) R (C + 2) K}
    {obs : List (Observation (ProcState R C K) R (C + 2) K)}
    (h : PackageRun env ps start porosity q w s obs s') (hcomp : CompactKeepsRecord env)
    (hw : ∀ f, w.sand = some f → ∀ n, 0 ≤ f n ∧ f n ≤ 1) :
    (∀ f, s'.world.sand = some f → ∀ n, 0 ≤ f n ∧ f n ≤ 1) ∧
    ∀ c, ∀ x ∈ s'.world.layers.prop "percent_sand" c, 0 ≤ x ∧ x ≤ 1 := by
  obtain ⟨p, w1, hc, hm⟩ := packageInit_ok h.init
  have h0 : SandFractions s.world := by
    intro f hf
    rw [(modelInit_ok hm).choose_spec.2.2.2.2.2.2.2.1] at hf
    exact createAll_sand _ hc hw f hf
  obtain ⟨h1, h2⟩ := history_maintains SandFractions
    (fun c hc => by
      obtain ⟨p, -, rfl⟩ := List.mem_map.mp hc
      exact component_sand p)
    (fun w hw => hw) (fun w l hw => hw)
    (fun w w' hw hu f hf => hw f (by rw [← (updateFields_ok hu).2.2.2.1]; exact hf)) h.run h0
  refine ⟨h1, fun c => ?_⟩
  have hl := (createAll_world _ hc).1
  obtain ⟨l, hr, hl'⟩ := freshHistory_record (hl.trans h.fresh) hm _ porosity
    (fun c hc => by
      obtain ⟨p, -, rfl⟩ := List.mem_map.mp hc
      exact component_keepsRecord hcomp p) h.run
  rw [hl'.values "percent_sand" (by decide)]
  refine archive_range _ _ (freshEvents_names start w1 porosity obs) hr c "percent_sand"
    (by simp) (by simp [initEvent]) ?_
  intro e he
  rcases List.mem_cons.mp he with rfl | he
  · have : recorded "percent_sand" c (initEvent start w1) = 1/2 := by simp [recorded, initEvent]
    rw [this]
    constructor <;> norm_num
  · obtain ⟨o, ho, rfl⟩ := List.mem_map.mp he
    have := h2 o ho
    cases hs : o.world.sand with
    | none => simp [recorded, modelEvent, layerProperties, hs]
    | some f =>
      have hf := this f hs (nodeAtCell c)
      simpa [recorded, modelEvent, layerProperties, hs, atCells] using hf

/-! ### C95 -/

theorem component_ignoresSea {env : Env R C K} (p : Process K) (hp : p.name ≠ "sea_level") :
    IgnoresSea (fun q : ProcState R C K => q.seaTime) (p.component env) := by
  intro dt q w q' w' h
  refine ⟨?_, (component_frame h).seaLevel hp, ?_⟩
  all_goals
    cases p with
    | seaLevel curve start => exact absurd rfl hp
    | subsidence curve =>
      simp only [Process.component, subsidenceComponent, subsidenceStep] at h
      cases hi : w.increment with
      | none => simp only [hi] at h; cases h
      | some f => simp only [hi] at h; cases h; rfl
    | compaction =>
      simp only [Process.component] at h
      split at h
      · cases h
      · cases h; rfl
    | diffusion P =>
      simp only [Process.component, diffuserComponent] at h
      split at h
      · cases h
      · rename_i s1 w1 hs
        cases h
        obtain ⟨t, d, rfl, ht⟩ := diffuserStep_world hs
        rfl
    | fluvial P =>
      simp only [Process.component, fluvialComponent] at h
      split at h
      · cases h
      · rename_i w1 hs
        cases h
        obtain ⟨f, i, f', d', h1, h2, rfl⟩ := fluvialStep_world hs
        rfl
    | flexure t =>
      simp only [Process.component, flexComponent] at h
      split at h
      · cases h
      · rename_i s1 w1 hs
        cases h
        obtain ⟨f, f', h1, rfl⟩ := sedFlexStep_world hs
        rfl
    | waterFlexure t =>
      simp only [Process.component, flexComponent] at h
      split at h
      · cases h
      · rename_i s1 w1 hs
        cases h
        obtain ⟨f, f', h1, rfl⟩ := waterFlexStep_world hs
        rfl
    | shoreline alpha =>
      simp only [Process.component, shorelineComponent] at h
      split at h
      · cases h
      · rename_i w1 hs
        cases h
        obtain ⟨a, b, a', b', h1, h2, rfl⟩ := shorelineUpdate_world hs
        rfl

/-- C95: the budgets of every run of the package's processes. The bedrock has moved by the
increments that the processes left, and by nothing else; if there was a load, it has changed by the
weight of the deposits; and if one of the processes is the sea level (wherever it is in the list)
and the clock is regular, the sea stands after the processes of every step where the curve says for
the time of the clock, and the recorded increments add up to the sea level. -/
theorem package_budgets {env : Env R C K} {ps : List (Process K)} {start : K}
    {porosity : ProcState R C K → K} {q : ProcState R C K} {w : World R (C + 2) K}
    {s s' : ModelState (ProcState R C K) R (C + 2) K}
    {obs : List (Observation (ProcState R C K) R (C + 2) K)}
    (h : PackageRun env ps start porosity q w s obs s') :
    (∀ n, s'.world.bedrock n = w.bedrock n + totalIncrement obs n) ∧
    (∀ load, s.world.sedLoad = some load → ∃ load', s'.world.sedLoad = some load' ∧
      ∀ (r : Fin R) (c : Fin (C + 2)),
        load' (⟨r.val + 1, by omega⟩, c) = load (⟨r.val + 1, by omega⟩, c) +
          (obs.map fun o => (o.world.sand.map fun f => stepWeight o.world f r c).getD 0).sum) ∧
    (∀ curve t0 pre post step, ps = pre ++ .seaLevel curve t0 :: post →
      (ps.map Process.name).Nodup → (∀ o ∈ obs, o.dt = step) →
      (obs.map fun o => o.time) =
        (List.range obs.length).map (fun k => start + (k + 1 : ℕ) * step) →
      (∀ o ∈ obs, curve o.time = .ok o.world.seaLevel) ∧
      (obs.map fun o => o.world.seaIncr.getD 0).sum = s'.world.seaLevel) := by
  obtain ⟨p, w1, hc, hm⟩ := packageInit_ok h.init
  refine ⟨fun n => ?_, fun load hload => ?_, ?_⟩
  · have := (model_bedrock _ porosity (fun c hc => by
      obtain ⟨p, -, rfl⟩ := List.mem_map.mp hc
      exact fun dt p w p' w' h => (component_frame h).bedrock) s s' obs h.run).1 n
    rw [this, (modelInit_ok hm).choose_spec.2.2.2.2.2.1, (createAll_world _ hc).2.2.1]
  · obtain ⟨load', g1, -, g2, -⟩ := sediment_load_sum _ porosity (fun c hc => by
      obtain ⟨p, -, rfl⟩ := List.mem_map.mp hc
      exact fun dt p w p' w' h => (component_frame h).sedLoad) s s' obs h.run load hload
    exact ⟨load', g1, g2⟩
  · rintro curve t0 pre post step rfl hnodup hdt htime
    rw [List.map_append, List.map_cons] at hnodup
    obtain ⟨-, n2, n3⟩ := List.nodup_append.mp hnodup
    obtain ⟨n4, -⟩ := List.nodup_cons.mp n2
    have hrun := h.run
    rw [List.map_append, List.map_cons] at hrun
    refine model_sea_level_clock curve (fun q : ProcState R C K => q.seaTime)
      (fun t q => { q with seaTime := t }) (fun _ _ => rfl) (pre.map (Process.component env)) (post.map (Process.component env)) ?_ ?_
      porosity start step p w1 s s' hm obs hrun hdt htime
    · intro c hc
      obtain ⟨p, hp, rfl⟩ := List.mem_map.mp hc
      exact component_ignoresSea p (n3 _ (List.mem_map_of_mem hp) _ (List.mem_cons_self ..))
    · intro c hc
      obtain ⟨p, hp, rfl⟩ := List.mem_map.mp hc
      refine component_ignoresSea p (fun he => n4 ?_)
      rw [show (Process.seaLevel curve t0).name = p.name from he.symm]
      exact List.mem_map_of_mem hp

/-! ### Concrete cases -/

/-- The outer world of a model of one row of three nodes 1 m apart. -/
def exEnv : Env 1 1 ℚ where
  kind := linearKind
  xtol := 2/10^12
  rtol := 1/10^15
  expf := fun _ => 1/2
  sqrtf := fun _ => 4
  solve := fun _ _ z => .ok z
  flex := fun load c => load c / 1000000
  flexWater := fun load _ r c => load r c / 1000000
  compact := fun _ l => .ok { l with dz := fun c => (l.dz c).map (· / 2) }
  gravity := 10
  dx := 1
  x := fun c => c.val

/-- A row that starts on land. -/
def exBeach : World 1 3 ℚ := { exWorld with
  topo := fun n => 1 - (n.2.val : ℚ)
  bedrock := fun n => -99 - (n.2.val : ℚ)
  seaLevel := 1/2 }

/-- Attributes before the constructors. -/
def exProcState : ProcState 1 1 ℚ where
  seaTime := 0
  rate := fun _ => 0
  diffuser := ⟨0, 0, 0, 0, 0, 0, 0, 0, 0, 0, 0, 0, fun _ => 0, 0⟩
  flex := ⟨⟨none, fun _ _ => 0⟩, fun _ _ => 0, ⟨none, fun _ _ => 0⟩, fun _ => 0, fun _ => 0⟩

/-- Subsidence and a falling sea. -/
def exProcs : List (Process ℚ) :=
  requiredToo (.fluvial exFluvial) (.shoreline 1)
    [.seaLevel (fun t => .ok (1/2 - t / 1000)) 0, .subsidence fun _ => .ok (-1/100), .flexure none]

/-- One step of 100 years of the model. -/
def exPackageStep (ps : List (Process ℚ)) :
    Except Err (ModelState (ProcState 1 1 ℚ) 1 3 ℚ) :=
  match packageInit exEnv ps 0 (exProcState, exBeach) with
  | .error e => .error e
  | .ok s => advanceComponents (ps.map (Process.component exEnv)) (fun _ => 1/2) 100 100 s

/-- What the example shows of a state: per node of the row topography, bedrock, sand fraction and
load. -/
def exPackageView (s : ModelState (ProcState 1 1 ℚ) 1 3 ℚ) : List (ℚ × ℚ × Option ℚ × Option ℚ) :=
  List.ofFn fun i => (s.world.topo (1, i), s.world.bedrock (1, i),
    s.world.sand.map fun f => f (1, i), s.world.sedLoad.map fun f => f (1, i))

/-- A step of the model: the cell subsides with its bedrock, the last node does not. -/
example : (exPackageStep exProcs).toOption.map exPackageView =
    some [(1, -100, some 0, some 0), (-1, -101, some 0, some 0), (-1, -102, some 0, some 0)] := by
  decide +kernel

/-- The same with layers that are halved: the cell loses 50 m more. -/
example : (exPackageStep (.compaction :: exProcs)).toOption.map exPackageView =
    some [(1, -100, some 0, some 0), (-51, -101, some 0, some 0), (-1, -102, some 0, some 0)] := by
  decide +kernel

example : (exPackageStep (.compaction :: exProcs)).toOption.map
    (fun s => s.world.layers.prop "percent_sand" (0, ⟨0, by omega⟩)) = some [1/2, 0] := by
  decide +kernel

/-- There is such a run, with a step. -/
theorem exPackage_run (ps : List (Process ℚ)) (hps : (exPackageStep ps).toOption.isSome) :
    ∃ s p w s', PackageRun exEnv ps 0 (fun _ => 1/2) exProcState exBeach s
      [⟨100, 100, p, w⟩] s' ∧ exPackageStep ps = .ok s' ∧
      packageInit exEnv ps 0 (exProcState, exBeach) = .ok s := by
  unfold exPackageStep at hps ⊢
  cases hi : packageInit exEnv ps 0 (exProcState, exBeach) with
  | error e => rw [hi] at hps; cases hps
  | ok s =>
    rw [hi] at hps
    dsimp only at hps ⊢
    cases ha : advanceComponents (ps.map (Process.component exEnv)) (fun _ => 1/2) 100 100 s with
    | error e => rw [ha] at hps; cases hps
    | ok s' =>
      obtain ⟨p, w, ev, w3, a, h1, -⟩ := advanceComponents_ok ha
      exact ⟨s, p, w, s', ⟨rfl, hi, .step h1 ha (.nil s')⟩, rfl, rfl⟩

example : (exPackageStep exProcs).toOption.isSome ∧
    (exPackageStep (.compaction :: exProcs)).toOption.isSome := by decide +kernel

/-- The assumptions on the external functions hold. -/
example : CompactKeepsRecord exEnv := by
  intro dt l l' h
  cases h
  exact ⟨rfl, rfl, fun c => by simp, fun k hk => rfl, fun _ => rfl⟩

example : ExternalsFine exEnv exProcs where
  kind := fun t s h => by cases h
  interp := fun t f hf v s h => by
    cases hf
    unfold interpTable at h
    split at h
    · split_ifs at h
      cases h
    · cases h
  solve := fun _ _ _ s h => by cases h
  compact := fun _ _ s h => by cases h
  curve := fun curve start hp t s h => by
    simp [exProcs, requiredToo, Process.name] at hp
    rw [hp.1] at h
    cases h

/-- C93 is false of the last column: nothing is deposited there, the bedrock goes down by 1 m and
the surface stays. -/
theorem edge_does_not_subside : ∃ s p w s', PackageRun exEnv exProcs 0 (fun _ => 1/2) exProcState
    exBeach s [⟨100, 100, p, w⟩] s' ∧ w.deposit (1, 2) = 0 ∧
    s'.world.bedrock (1, 2) - s.world.bedrock (1, 2) = -1 ∧
    s'.world.topo (1, 2) = s.world.topo (1, 2) := by
  obtain ⟨s, p, w, s', h, h1, h2⟩ := exPackage_run exProcs (by decide +kernel)
  refine ⟨s, p, w, s', h, ?_, ?_, ?_⟩
  · have hr := h.run
    cases hr with
    | step hc ha hr =>
      have : (match packageInit exEnv exProcs 0 (exProcState, exBeach) with
          | .ok s => (runComponents (exProcs.map (Process.component exEnv)) 100
              (s.comps, clearDeposit s.world)).toOption.map fun x => x.2.deposit (1, 2)
          | .error e => none) = some 0 := by decide +kernel
      rw [h2] at this
      dsimp only at this
      rw [hc] at this
      exact Option.some.inj this
  · have a : (exPackageStep exProcs).toOption.map (fun s => s.world.bedrock (1, 2)) = some (-102) := by
      decide +kernel
    have b : (packageInit exEnv exProcs 0 (exProcState, exBeach)).toOption.map
        (fun s => s.world.bedrock (1, 2)) = some (-101) := by decide +kernel
    rw [h1] at a
    rw [h2] at b
    have a' : s'.world.bedrock (1, 2) = -102 := Option.some.inj a
    have b' : s.world.bedrock (1, 2) = -101 := Option.some.inj b
    rw [a', b']
    norm_num
  · exact (package_edges h.run (1, 2)).1 (.inr (.inr rfl))

/-- C91: without the processes that `load_processes` adds, the model cannot be constructed on a
grid without shorelines. -/
theorem bare_model_fails : packageInit exEnv [.subsidence fun _ => .ok (-1/100)] 0
    (exProcState, { exBeach with rowShore := none }) = .error (.keyError "x_of_shore") := by
  rfl

end Verif.Props
