import Verif.Props.Idle
import Verif.Spec.IdleSea

/-!
# A sea level that stays at zero (C131)
-/

set_option autoImplicit false
set_option linter.unusedSectionVars false

namespace Verif.Props

open Spec

variable {K : Type*} {R C : ℕ} [Field K] [LinearOrder K] [IsStrictOrderedRing K]

/-- The same with another time of the sea level and another increment. -/
def seaSet (t : K) (i : Option K) (s : Whole R C K) : Whole R C K :=
  ({ s.1 with seaTime := t }, { s.2 with seaIncr := i })

/-- The same model with another time of the sea level and another increment. -/
def modelSet (t : K) (i : Option K) (s : ModelState (ProcState R C K) R (C + 2) K) :
    ModelState (ProcState R C K) R (C + 2) K :=
  ⟨{ s.comps with seaTime := t }, { s.world with seaIncr := i }, s.archived⟩

theorem diffuserStep_seaIncr (kind : InterpKind K) (xtol rtol : K) (expf : K → K)
    (solve : NodeField R (C + 2) K → K → NodeField R (C + 2) K →
      Except Err (NodeField R (C + 2) K))
    (dx : K) (x : Fin (C + 2) → K) (dt : K) (s : Diffuser R (C + 2) K) (w : World R (C + 2) K)
    (i : Option K) :
    diffuserStep kind xtol rtol expf solve dx x dt s { w with seaIncr := i } =
      (diffuserStep kind xtol rtol expf solve dx x dt s w).map
        fun r => (r.1, { r.2 with seaIncr := i }) := by
  unfold diffuserStep
  dsimp only
  cases overRows (fun r => shorelineRow kind xtol rtol (List.ofFn x) (rowList w.topo r)
      w.seaLevel) with
  | error e => rfl
  | ok shore =>
    dsimp only
    by_cases hr : s.Regular dx w
    · have hr' : s.Regular dx { w with seaIncr := i } := hr
      rw [if_pos hr, if_pos hr']
      have hc : calcDiffusionCoef expf dx x shore { w with seaIncr := i } s =
        calcDiffusionCoef expf dx x shore w s :=
        calcDiffusionCoef_congr expf dx x shore w { w with seaIncr := i } rfl rfl s
      rw [hc]
      cases solve (calcDiffusionCoef expf dx x shore w s).kd dt
        (setUpstream (calcDiffusionCoef expf dx x shore w s).plainSlope x w.topo) <;> rfl
    · have hr' : ¬ s.Regular dx { w with seaIncr := i } := hr
      rw [if_neg hr, if_neg hr']
      rfl

theorem component_seaSet {env : Env R C K} {p : Process K} (hp : p.name ≠ "sea_level") {dt t : K}
    {i : Option K} {s : Whole R C K} (hi : p.name = "water_flexure" → s.2.seaIncr = i) :
    p.component env dt (seaSet t i s) = (p.component env dt s).map (seaSet t i) := by
  obtain ⟨q, w⟩ := s
  cases p with
  | seaLevel curve start => exact absurd rfl hp
  | subsidence curve =>
    simp only [Process.component, subsidenceComponent, subsidenceStep, seaSet]
    cases w.increment <;> rfl
  | compaction =>
    simp only [Process.component, seaSet]
    cases env.compact dt w.layers <;> rfl
  | diffusion P =>
    simp only [Process.component, diffuserComponent, seaSet]
    rw [diffuserStep_seaIncr]
    cases diffuserStep env.kind env.xtol env.rtol env.expf env.solve env.dx env.x dt q.diffuser w <;>
      rfl
  | fluvial P =>
    simp only [Process.component, fluvialComponent, fluvialStep, seaSet]
    cases w.sand with
    | none => rfl
    | some sand =>
      cases w.increment with
      | none => rfl
      | some inc =>
        dsimp only
        by_cases hR : R / 2 < R
        · rw [dif_pos hR, dif_pos hR]
          cases fluvialRow env.expf env.sqrtf P env.dx dt env.x (getProfile w.topo ⟨R / 2, hR⟩)
              (getProfile w.deposit ⟨R / 2, hR⟩) (getProfile inc ⟨R / 2, hR⟩) w.seaLevel
              (shorelineRow env.kind env.xtol env.rtol (List.ofFn env.x)
                (rowList w.topo ⟨R / 2, hR⟩) w.seaLevel) with
          | error e => rfl
          | ok res =>
            dsimp only
            split_ifs <;> rfl
        · rw [dif_neg hR, dif_neg hR]
          rfl
  | flexure a =>
    simp only [Process.component, flexComponent, sedFlexStep, subtractDeflection, seaSet]
    cases w.sedLoad with
    | none => rfl
    | some total => cases w.increment <;> rfl
  | waterFlexure a =>
    have hi' : w.seaIncr = i := hi rfl
    have hw : ({ w with seaIncr := i } : World R (C + 2) K) = w := by rw [← hi']
    simp only [Process.component, flexComponent, waterFlexStep, subtractDeflection, seaSet]
    rw [hi']
    cases i with
    | none => rfl
    | some dsl =>
      cases w.waterIncr with
      | none => rfl
      | some depth => cases w.increment <;> rfl
  | shoreline alpha =>
    simp only [Process.component, shorelineComponent, shorelineUpdate, seaSet]
    cases overRows (fun r => shorelineFinderRow env.kind env.xtol env.rtol alpha true
      (List.ofFn env.x) (rowList w.topo r) (rowList w.deposit r) w.seaLevel) with
    | error e => rfl
    | ok res =>
      cases w.rowShore with
      | none => rfl
      | some a => cases w.rowShelf <;> rfl

/-- What the water flexure needs to see: nothing but an increment of zero. -/
def FitsWater (ps : List (Process K)) (i j : Option K) : Prop :=
  "water_flexure" ∈ ps.map Process.name → i = some 0 ∧ j = some 0

theorem runComponents_seaSet {env : Env R C K} {ps : List (Process K)}
    (hps : "sea_level" ∉ ps.map Process.name) {dt t : K} {i : Option K} {s : Whole R C K}
    (hi : FitsWater ps i s.2.seaIncr) :
    runComponents (ps.map (Process.component env)) dt (seaSet t i s) =
      (runComponents (ps.map (Process.component env)) dt s).map (seaSet t i) := by
  induction ps generalizing s with
  | nil => rfl
  | cons p ps ih =>
    rw [List.map_cons, List.mem_cons, not_or] at hps
    have hp : p.name ≠ "sea_level" := fun h => hps.1 h.symm
    simp only [List.map_cons, runComponents]
    rw [component_seaSet hp (fun h => by
      obtain ⟨h1, h2⟩ := hi (by simp [h])
      rw [h1, h2])]
    cases hc : p.component env dt s with
    | error e => rfl
    | ok s1 =>
      have hk := component_ignoresSea p hp dt s.1 s.2 s1.1 s1.2 hc
      exact ih hps.2 (fun h => by rw [hk.2.2]; exact hi (by simp at h ⊢; exact .inr h))

theorem runProcesses_ignoreSea {env : Env R C K} {ps : List (Process K)}
    (hps : "sea_level" ∉ ps.map Process.name) {dt : K} {s s' : Whole R C K}
    (h : runComponents (ps.map (Process.component env)) dt s = .ok s') :
    s'.1.seaTime = s.1.seaTime ∧ s'.2.seaLevel = s.2.seaLevel ∧ s'.2.seaIncr = s.2.seaIncr := by
  induction ps generalizing s with
  | nil => cases h; exact ⟨rfl, rfl, rfl⟩
  | cons p ps ih =>
    rw [List.map_cons, List.mem_cons, not_or] at hps
    rw [List.map_cons, runComponents] at h
    cases hc : p.component env dt s with
    | error e => rw [hc] at h; cases h
    | ok s1 =>
      rw [hc] at h
      have hk := component_ignoresSea p (fun h => hps.1 h.symm) dt s.1 s.2 s1.1 s1.2 hc
      have := ih hps.2 h
      exact ⟨this.1.trans hk.1, this.2.1.trans hk.2.1, this.2.2.trans hk.2.2⟩

/-- The processes of a step with a sea level that stays at zero, and without. -/
theorem runComponents_idleSea {env : Env R C K} {pre post : List (Process K)} {curve : Curve K}
    {first : K} (hcurve : ∀ t, curve t = .ok 0)
    (hone : "sea_level" ∉ (pre ++ post).map Process.name) {dt t : K} {i : Option K} {s : Whole R C K}
    (hs : s.2.seaLevel = 0) (hi : FitsWater (pre ++ post) i s.2.seaIncr) :
    runComponents ((pre ++ .seaLevel curve first :: post).map (Process.component env)) dt
        (seaSet t i s) =
      (runComponents ((pre ++ post).map (Process.component env)) dt s).map
        (seaSet (t + dt) (some 0)) := by
  rw [List.map_append, List.mem_append, not_or] at hone
  rw [List.map_append, List.map_append, List.map_cons, runComponents_append, runComponents_append,
    runComponents_seaSet hone.1 (fun h => hi (by simp at h ⊢; exact .inl h))]
  cases hpre : runComponents (pre.map (Process.component env)) dt s with
  | error e => rfl
  | ok s1 =>
    obtain ⟨k1, k2, k3⟩ := runProcesses_ignoreSea hone.1 hpre
    have hsea : (Process.seaLevel curve first).component env dt (seaSet t i s1) =
        .ok (seaSet (t + dt) (some 0) s1) := by
      simp only [Process.component, seaComponent, seaStep, seaSet, hcurve, k2, hs, sub_zero]
    show runComponents ((Process.seaLevel curve first).component env :: _) dt (seaSet t i s1) = _
    rw [runComponents, hsea]
    exact runComponents_seaSet hone.2 (fun h => by
      rw [k3]
      exact ⟨rfl, (hi (by simp at h ⊢; exact .inr h)).2⟩)

/-! ### Steps and runs -/

theorem advance_idleSea {env : Env R C K} {pre post : List (Process K)} {curve : Curve K}
    {first : K} (hcurve : ∀ t, curve t = .ok 0)
    (hone : "sea_level" ∉ (pre ++ post).map Process.name) {porosity : ProcState R C K → K}
    (hpor : ∀ q t, porosity { q with seaTime := t } = porosity q) {time dt t : K} {i : Option K}
    {s : ModelState (ProcState R C K) R (C + 2) K} (hs : s.world.seaLevel = 0)
    (hi : FitsWater (pre ++ post) i s.world.seaIncr) :
    advanceComponents ((pre ++ .seaLevel curve first :: post).map (Process.component env)) porosity
        time dt (modelSet t i s) =
      (advanceComponents ((pre ++ post).map (Process.component env)) porosity time dt s).map
        (modelSet (t + dt) (some 0)) := by
  have hrun := runComponents_idleSea (env := env) (first := first) hcurve hone (dt := dt) (t := t)
    (i := i) (s := (s.comps, clearDeposit s.world)) hs hi
  unfold advanceComponents
  rw [show ((modelSet t i s).comps, clearDeposit (modelSet t i s).world) =
    seaSet t i (s.comps, clearDeposit s.world) from rfl, hrun]
  cases runComponents ((pre ++ post).map (Process.component env)) dt
      (s.comps, clearDeposit s.world) with
  | error e => rfl
  | ok r =>
    obtain ⟨p, w⟩ := r
    simp only [Except.map, seaSet, hpor]
    rw [show layerProperties time (porosity p) { w with seaIncr := some 0 } =
      layerProperties time (porosity p) w from rfl]
    cases w.layers.add (atCells w.deposit) (layerProperties time (porosity p) w) with
    | error e => rfl
    | ok ev =>
      dsimp only
      have hu : ∀ v : World R (C + 2) K, updateFields { v with seaIncr := some 0 } =
          (updateFields v).map fun v => { v with seaIncr := some 0 } := by
        intro v
        obtain ⟨topo, bedrock, deposit, increment, sand, sedLoad, waterLoad, waterIncr, seaLevel,
          seaIncr, rowShore, rowShelf, gridShore, gridShelf, layers⟩ := v
        unfold updateFields updateSedLoad
        cases sedLoad with
        | none => cases increment <;> cases waterIncr <;> rfl
        | some load =>
          cases sand with
          | none => rfl
          | some sand => cases increment <;> cases waterIncr <;> rfl
      have := hu { w with layers := ev }
      dsimp only at this
      rw [this]
      cases updateFields { w with layers := ev } with
      | error e => rfl
      | ok w3 =>
        simp only [Except.map, modelSet]
        cases Archive.archiveOld ⟨w3.layers, s.archived⟩ <;> rfl

theorem seaSet_same (t : K) (i : Option K) (q : ProcState R C K) (w : World R (C + 2) K) :
    SameButSea q (seaSet t i (q, w)).1 w (seaSet t i (q, w)).2 := ⟨rfl, rfl⟩

theorem advance_seaLevel {env : Env R C K} {ps : List (Process K)}
    (hps : "sea_level" ∉ ps.map Process.name) {porosity : ProcState R C K → K} {time dt : K}
    {s s' : ModelState (ProcState R C K) R (C + 2) K}
    (h : advanceComponents (ps.map (Process.component env)) porosity time dt s = .ok s') :
    s'.world.seaLevel = s.world.seaLevel ∧ s'.world.seaIncr = s.world.seaIncr := by
  obtain ⟨p, w, ev, w3, a, h1, h2, h3, h4, rfl⟩ := advanceComponents_ok h
  obtain ⟨-, k2, k3⟩ := runProcesses_ignoreSea hps h1
  have hf : w3.seaLevel = w.seaLevel ∧ w3.seaIncr = w.seaIncr := by
    obtain ⟨topo, bedrock, deposit, increment, sand, sedLoad, waterLoad, waterIncr, seaLevel,
      seaIncr, rowShore, rowShelf, gridShore, gridShelf, layers⟩ := w
    unfold updateFields updateSedLoad at h3
    cases sedLoad with
    | none => cases increment <;> cases waterIncr <;> cases h3 <;> exact ⟨rfl, rfl⟩
    | some load =>
      cases sand with
      | none => cases h3
      | some sand => cases increment <;> cases waterIncr <;> cases h3 <;> exact ⟨rfl, rfl⟩
  exact ⟨hf.1.trans k2, hf.2.trans k3⟩

/-- Histories with and without. -/
theorem history_idleSea {env : Env R C K} {pre post : List (Process K)} {curve : Curve K}
    {first : K} (hcurve : ∀ t, curve t = .ok 0)
    (hone : "sea_level" ∉ (pre ++ post).map Process.name) {porosity : ProcState R C K → K}
    (hpor : ∀ q t, porosity { q with seaTime := t } = porosity q)
    {s s' : ModelState (ProcState R C K) R (C + 2) K}
    {obs : List (Observation (ProcState R C K) R (C + 2) K)}
    (h : ModelHistory ((pre ++ post).map (Process.component env)) porosity s obs s') :
    ∀ (t : K) (i : Option K), s.world.seaLevel = 0 →
    FitsWater (pre ++ post) i s.world.seaIncr →
    ∃ obs' t' i', List.Forall₂ SameStep obs obs' ∧
      ModelHistory ((pre ++ .seaLevel curve first :: post).map (Process.component env)) porosity
        (modelSet t i s) obs' (modelSet t' i' s') := by
  induction h with
  | nil s => exact fun t i _ _ => ⟨[], t, i, .nil, .nil _⟩
  | @step s1 s2 _ time dt p w _ hc ha hr ih =>
    intro t i hs hi
    have e1 := runComponents_idleSea (env := env) (first := first) hcurve hone (dt := dt) (t := t)
      (i := i) (s := (s1.comps, clearDeposit s1.world)) hs hi
    rw [hc] at e1
    have e2 := advance_idleSea (env := env) (first := first) hcurve hone hpor (time := time)
      (dt := dt) (t := t) hs hi
    rw [ha] at e2
    obtain ⟨k1, k2⟩ := advance_seaLevel hone ha
    obtain ⟨obs', t', i', g1, g2⟩ := ih (t + dt) (some 0) (k1.trans hs)
      (fun h => ⟨rfl, k2.trans (hi h).2⟩)
    exact ⟨⟨time, dt, (seaSet (t + dt) (some 0) (p, w)).1, (seaSet (t + dt) (some 0) (p, w)).2⟩ :: obs',
      t', i', .cons ⟨rfl, rfl, seaSet_same (t + dt) (some 0) p w⟩ g1, .step e1 e2 g2⟩

/-- And back. -/
theorem history_idleSea_back {env : Env R C K} {pre post : List (Process K)} {curve : Curve K}
    {first : K} (hcurve : ∀ t, curve t = .ok 0)
    (hone : "sea_level" ∉ (pre ++ post).map Process.name) {porosity : ProcState R C K → K}
    (hpor : ∀ q t, porosity { q with seaTime := t } = porosity q)
    {v v' : ModelState (ProcState R C K) R (C + 2) K}
    {obs' : List (Observation (ProcState R C K) R (C + 2) K)}
    (h : ModelHistory ((pre ++ .seaLevel curve first :: post).map (Process.component env)) porosity
      v obs' v') :
    ∀ (t : K) (i : Option K) (s : ModelState (ProcState R C K) R (C + 2) K), v = modelSet t i s →
    s.world.seaLevel = 0 → FitsWater (pre ++ post) i s.world.seaIncr →
    ∃ obs s', List.Forall₂ SameStep obs obs' ∧ SameModel s' v' ∧
      ModelHistory ((pre ++ post).map (Process.component env)) porosity s obs s' := by
  induction h with
  | nil v =>
    rintro t i s rfl _ _
    exact ⟨[], s, .nil, ⟨rfl, ⟨rfl, rfl⟩⟩, .nil _⟩
  | @step v1 v2 _ time dt p w _ hc ha hr ih =>
    rintro t i s rfl hs hi
    have e1 := runComponents_idleSea (env := env) (first := first) hcurve hone (dt := dt) (t := t)
      (i := i) (s := (s.comps, clearDeposit s.world)) hs hi
    have e2 := advance_idleSea (env := env) (first := first) hcurve hone hpor (time := time)
      (dt := dt) (t := t) hs hi
    rw [ha] at e2
    have e1' := hc.symm.trans e1
    cases h1 : runComponents ((pre ++ post).map (Process.component env)) dt
        (s.comps, clearDeposit s.world) with
    | error e => rw [h1] at e1'; cases e1'
    | ok r =>
      cases h2 : advanceComponents ((pre ++ post).map (Process.component env)) porosity time dt s with
      | error e => rw [h2] at e2; cases e2
      | ok s2 =>
        rw [h1] at e1'
        rw [h2] at e2
        injection e1' with e1'
        injection e2 with e2
        obtain ⟨k1, k2⟩ := advance_seaLevel hone h2
        obtain ⟨obs, s', g1, g2, g3⟩ := ih (t + dt) (some 0) s2 e2 (k1.trans hs)
          (fun h => ⟨rfl, k2.trans (hi h).2⟩)
        refine ⟨⟨time, dt, r.1, r.2⟩ :: obs, s', .cons ⟨rfl, rfl, ?_⟩ g1, g2, .step h1 h2 g3⟩
        have := seaSet_same (t + dt) (some 0) r.1 r.2
        have ew : (p, w) = seaSet (t + dt) (some 0) (r.1, r.2) := e1'
        rw [← ew] at this
        exact this

theorem create_seaSet {env : Env R C K} {p : Process K} (hp : p.name ≠ "sea_level") (t : K)
    (s : Whole R C K) :
    p.create env (seaSet t s.2.seaIncr s) =
      (p.create env s).map fun s' => seaSet t s'.2.seaIncr s' := by
  obtain ⟨q, w⟩ := s
  cases p with
  | seaLevel curve start => exact absurd rfl hp
  | subsidence curve =>
    simp only [Process.create, seaSet]
    cases subsidenceRate curve env.x <;> rfl
  | compaction => rfl
  | diffusion P =>
    simp only [Process.create, diffuserInit, seaSet]
    by_cases h : P.plainSlope = 0
    · simp only [if_pos h]; rfl
    · simp only [if_neg h]; rfl
  | fluvial P => rfl
  | flexure a =>
    simp only [Process.create, seaSet]
    cases flexPoolInit R (C + 2) a <;> rfl
  | waterFlexure a =>
    simp only [Process.create, seaSet]
    cases flexPoolInit R (C + 2) a <;> rfl
  | shoreline alpha =>
    simp only [Process.create, shorelineInit, shorelineUpdate, seaSet]
    cases overRows (fun r => shorelineFinderRow env.kind env.xtol env.rtol alpha false
      (List.ofFn env.x) (rowList w.topo r) (rowList w.deposit r) w.seaLevel) <;> rfl

theorem createAll_seaSet {env : Env R C K} {ps : List (Process K)}
    (hps : "sea_level" ∉ ps.map Process.name) (t : K) (s : Whole R C K) :
    createAll env ps (seaSet t s.2.seaIncr s) =
      (createAll env ps s).map fun s' => seaSet t s'.2.seaIncr s' := by
  induction ps generalizing s with
  | nil => rfl
  | cons p ps ih =>
    rw [List.map_cons, List.mem_cons, not_or] at hps
    simp only [createAll, create_seaSet (fun h => hps.1 h.symm)]
    cases p.create env s with
    | error e => rfl
    | ok s' => exact ih hps.2 s'

/-- The constructors leave no increment of the sea level but zero. -/
theorem createAll_seaIncr {env : Env R C K} {ps : List (Process K)} {s s' : Whole R C K}
    (hs : s.2.seaIncr = none ∨ s.2.seaIncr = some 0) (h : createAll env ps s = .ok s') :
    s'.2.seaIncr = none ∨ s'.2.seaIncr = some 0 := by
  induction ps generalizing s with
  | nil => cases h; exact hs
  | cons p ps ih =>
    rw [createAll] at h
    cases hc : p.create env s with
    | error e => rw [hc] at h; cases h
    | ok s1 =>
      rw [hc] at h
      refine ih ?_ h
      cases p with
      | seaLevel curve start => cases hc; exact hs
      | subsidence curve =>
        simp only [Process.create] at hc
        split at hc
        · cases hc
        · cases hc; exact hs
      | compaction => cases hc; exact hs
      | diffusion P =>
        simp only [Process.create, diffuserInit] at hc
        by_cases h0 : P.plainSlope = 0
        · simp only [if_pos h0] at hc; cases hc
        · simp only [if_neg h0] at hc; cases hc; exact hs
      | fluvial P => cases hc; exact hs
      | flexure a =>
        simp only [Process.create] at hc
        split at hc
        · cases hc
        · cases hc; exact hs
      | waterFlexure a =>
        simp only [Process.create] at hc
        split at hc
        · cases hc
        · cases hc
          rcases hs with hs | hs <;> simp [hs]
      | shoreline alpha =>
        simp only [Process.create, shorelineInit] at hc
        split at hc
        · cases hc
        · rename_i w1 hs1
          cases hc
          obtain ⟨a, b, a', b', h1, h2, rfl⟩ := shorelineUpdate_world hs1
          exact hs

theorem modelInit_seaSet (start t : K) (q : ProcState R C K) (w : World R (C + 2) K) :
    modelInit start (fun t (q : ProcState R C K) => { q with seaTime := t })
        ({ q with seaTime := t }) w =
      modelInit start (fun t (q : ProcState R C K) => { q with seaTime := t }) q w := rfl

/-- C131: a sea level that stays at zero can be left out of a simulation, wherever it stands in the
list: the same runs are possible, with the same layers, attributes and fields after every step, apart
from the time that the sea level keeps and the increment that it records. -/
theorem idle_sea_level (env : Env R C K) (pre post : List (Process K)) (curve : Curve K) (first : K)
    (hcurve : ∀ t, curve t = .ok 0) (hone : "sea_level" ∉ (pre ++ post).map Process.name) (start : K)
    (porosity : ProcState R C K → K) (hpor : ∀ q t, porosity { q with seaTime := t } = porosity q)
    (q : ProcState R C K) (w : World R (C + 2) K) (hw : w.seaIncr = none)
    (s : ModelState (ProcState R C K) R (C + 2) K) :
    (∀ obs s', PackageRun env (pre ++ post) start porosity q w s obs s' →
      ∃ obs' v', List.Forall₂ SameStep obs obs' ∧ SameModel s' v' ∧
        PackageRun env (pre ++ .seaLevel curve first :: post) start porosity q w s obs' v') ∧
    ∀ obs' v', PackageRun env (pre ++ .seaLevel curve first :: post) start porosity q w s obs' v' →
      ∃ obs s', List.Forall₂ SameStep obs obs' ∧ SameModel s' v' ∧
        PackageRun env (pre ++ post) start porosity q w s obs s' := by
  have hone' := hone
  rw [List.map_append, List.mem_append, not_or] at hone'
  have hinit : packageInit env (pre ++ .seaLevel curve first :: post) start (q, w) =
      packageInit env (pre ++ post) start (q, w) := by
    unfold packageInit
    rw [create_all_append, create_all_append]
    cases createAll env pre (q, w) with
    | error e => rfl
    | ok z =>
      have : createAll env (.seaLevel curve first :: post) z =
          (createAll env post z).map fun s' => seaSet first s'.2.seaIncr s' := by
        rw [← createAll_seaSet hone'.2]
        rfl
      simp only [this]
      cases createAll env post z <;> rfl
  have hstart : packageInit env (pre ++ post) start (q, w) = .ok s →
      s.world.seaLevel = 0 ∧ FitsWater (pre ++ post) s.world.seaIncr s.world.seaIncr := by
    intro hi
    obtain ⟨p1, w1, hc, hm⟩ := packageInit_ok hi
    have h0 := createAll_seaIncr (.inl hw) hc
    have hpr := (createAll_provides _ hc).1
    have hk : s.world.seaLevel = 0 ∧ s.world.seaIncr = w1.seaIncr := by
      unfold modelInit at hm
      split at hm
      · dsimp only at hm
        split at hm
        · cases hm
        · cases hm
          cases w1.waterLoad <;> exact ⟨rfl, rfl⟩
      · cases hm
      · cases hm
    refine ⟨hk.1, fun h => ?_⟩
    rw [hk.2]
    obtain ⟨p, hp, hn⟩ := List.mem_map.mp h
    have := hpr p hp
    cases p <;> simp [Process.name] at hn
    have hsome : w1.seaIncr.isSome := this.1
    rcases h0 with h0 | h0
    · rw [h0] at hsome; cases hsome
    · exact ⟨h0, h0⟩
  have hself : modelSet s.comps.seaTime s.world.seaIncr s = s := rfl
  constructor
  · rintro obs s' ⟨h1, h2, h3⟩
    obtain ⟨g1, g2⟩ := hstart h2
    obtain ⟨obs', t', i', k1, k2⟩ := history_idleSea (first := first) hcurve hone hpor h3
      s.comps.seaTime s.world.seaIncr g1 g2
    rw [hself] at k2
    exact ⟨obs', modelSet t' i' s', k1, ⟨rfl, ⟨rfl, rfl⟩⟩, h1, hinit.trans h2, k2⟩
  · rintro obs' v' ⟨h1, h2, h3⟩
    rw [hinit] at h2
    obtain ⟨g1, g2⟩ := hstart h2
    obtain ⟨obs, s', k1, k2, k3⟩ := history_idleSea_back hcurve hone hpor h3 s.comps.seaTime
      s.world.seaIncr s hself.symm g1 g2
    exact ⟨obs, s', k1, k2, h1, h2, k3⟩

/-! ### Examples -/

/-- A run with a sea level that stays at zero, and so one without. -/
example : ∃ s obs s', obs.length = 1 ∧ PackageRun exEnv ([.subsidence fun _ => .ok (-1/100),
    .waterFlexure none, .fluvial exFluvial, .shoreline 1] : List (Process ℚ)) 0 (fun _ => 1/2)
    exProcState exBeach s obs s' := by
  obtain ⟨s, p, w, s', h, -⟩ := exPackage_run
    [.subsidence fun _ => .ok (-1/100), .seaLevel (fun _ => .ok 0) 0, .waterFlexure none,
      .fluvial exFluvial, .shoreline 1] (by decide +kernel)
  obtain ⟨obs, v, h1, -, h3⟩ := (idle_sea_level exEnv [.subsidence fun _ => .ok (-1/100)]
    [.waterFlexure none, .fluvial exFluvial, .shoreline 1] (fun _ => .ok 0) 0 (fun _ => rfl)
    (by simp [Process.name]) 0 (fun _ => 1/2) (fun _ _ => rfl) exProcState exBeach rfl s).2 _ _ h
  exact ⟨s, obs, v, h1.length_eq.trans rfl, h3⟩

/-- A sea level that stays at one makes a difference: the model starts with 0. -/
example : ((exPackageStep [.seaLevel (fun _ => .ok 1) 0, .fluvial exFluvial,
      .shoreline 1]).toOption.map fun s => s.world.seaLevel) = some 1 ∧
    ((exPackageStep [.fluvial exFluvial, .shoreline 1]).toOption.map fun s => s.world.seaLevel) =
      some 0 := by
  decide +kernel

end Verif.Props
