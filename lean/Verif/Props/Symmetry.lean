import Verif.Lemmas.Symmetry
import Verif.Props.Package

/-!
# The same basin on another datum and another calendar
-/

set_option autoImplicit false
set_option linter.unusedSectionVars false

namespace Verif.Props

open Verif Verif.Spec

variable {K : Type*} {R C : ℕ} [Field K] [LinearOrder K] [IsStrictOrderedRing K]

/-- What is known to correspond after `n` steps: the constructor measures from 0, so water depths
recorded then correspond only if the datum is the same; from the first step on the sea level does,
from the second step on its increment does. -/
def knownAfter (h : K) (n : ℕ) : Known where
  depth := h = 0
  incr := h = 0 ∨ n ≠ 1
  level := h = 0 ∨ n ≠ 0
  rows := True

/-- Where a raised model behaves the same: always if it is not raised; otherwise if the sea level is
a process and the first one, there is no water flexure, and the load does not depend on the
elevation of the sea. -/
def DatumFree (h : K) (ps : List (Process K)) : Prop :=
  h = 0 ∨ ((∃ curve start rest, ps = .seaLevel curve start :: rest) ∧
    (∀ t, Process.waterFlexure t ∉ ps) ∧ ∀ P, Process.diffusion P ∈ ps → P.loadSeaLevel = 0)

/-- The constructor of the model on two grids that correspond, apart from the sea level. -/
theorem modelInit_moved {h τ : K} {l r : Prop} {start : K} {p p' : ProcState R C K}
    {w w' : World R (C + 2) K} (hp : ProcMoved h τ p p')
    (hw : WorldMoved h τ ⟨h = 0, True, l, r⟩ w w')
    (h1 : w'.rowShore.isSome = w.rowShore.isSome) (h2 : w'.rowShelf.isSome = w.rowShelf.isSome) :
    Alike (ModelMoved h τ (knownAfter h 0))
      (modelInit start (fun (t : K) (q : ProcState R C K) => { q with seaTime := t }) p w)
      (modelInit (start + τ) (fun (t : K) (q : ProcState R C K) => { q with seaTime := t }) p' w') := by
  unfold modelInit
  cases e1 : w.rowShore with
  | none =>
    rw [e1] at h1
    have e1' : w'.rowShore = none := by simpa using h1
    rw [e1']
    exact .error _
  | some a =>
    rw [e1] at h1
    obtain ⟨a', e1'⟩ := Option.isSome_iff_exists.1 h1
    rw [e1']
    cases e2 : w.rowShelf with
    | none =>
      rw [e2] at h2
      have e2' : w'.rowShelf = none := by simpa using h2
      rw [e2']
      exact .error _
    | some b =>
      rw [e2] at h2
      obtain ⟨b', e2'⟩ := Option.isSome_iff_exists.1 h2
      rw [e2']
      dsimp only
      have hkw : KwdsMoved τ (h = 0)
          [("age", fun _ : Cell R (C + 2) => start),
            ("water_depth", fun c => -atCells w.bedrock c),
            ("t0", fun _ => 10), ("percent_sand", fun _ => 1/2), ("porosity", fun _ => 1/2)]
          [("age", fun _ => start + τ), ("water_depth", fun c => -atCells w'.bedrock c),
            ("t0", fun _ => 10), ("percent_sand", fun _ => 1/2),
            ("porosity", fun _ => 1/2)] := by
        refine ⟨rfl, ⟨_, rfl, rfl⟩, fun h0 => ?_, fun k hk1 hk2 => ?_⟩
        · have : (fun c => -atCells w'.bedrock c) = fun c => -atCells w.bedrock c := by
            funext c
            rw [atCells_raise hw.bedrock, h0, add_zero]
          rw [this]
          rfl
        · have e1 : ("age" == k) = false := by simpa using fun h => hk1 h.symm
          have e2 : ("water_depth" == k) = false := by simpa using fun h => hk2 h.symm
          simp only [EventLayers.Kwds.get?, List.find?_cons, e1, e2]
      have hadd := add_moved hw.layers (dz := fun _ => 100) hkw
      generalize w.layers.add _ _ = x at hadd
      generalize w'.layers.add _ _ = x' at hadd
      cases hadd with
      | error e => exact .error e
      | @ok ev ev' hl =>
        dsimp only
        refine .ok ⟨⟨rfl, hp.rate, hp.flex, hp.diffuser, hp.load⟩, ?_, rfl⟩
        have hbase : WorldMoved h τ (knownAfter h 0)
            { w with rowShore := some fun _ => none, rowShelf := some fun _ => none,
                     seaLevel := 0, layers := ev }
            { w' with rowShore := some fun _ => none, rowShelf := some fun _ => none,
                      seaLevel := 0, layers := ev' } :=
          { hw with
            seaLevel := fun h0 => by
              have : h = 0 := h0.resolve_right fun h => h rfl
              rw [this, add_zero]
            seaIncr := fun _ => hw.seaIncr trivial
            rowShore := fun _ => rfl
            rowShelf := fun _ => rfl
            layers := hl }
        cases h3 : w.waterLoad with
        | none =>
          cases h3' : w'.waterLoad with
          | none => exact { hbase with waterLoad := fun _ => rfl }
          | some f' =>
            refine { hbase with waterLoad := fun h0 => ?_ }
            have := hw.waterLoad h0
            rw [h3, h3'] at this
            cases this
        | some f =>
          cases h3' : w'.waterLoad with
          | none =>
            refine { hbase with waterLoad := fun h0 => ?_ }
            have := hw.waterLoad h0
            rw [h3, h3'] at this
            cases this
          | some f' =>
            refine { hbase with waterLoad := fun h0 => ?_ }
            have h4 := hw.waterLoad h0
            rw [h3, h3'] at h4
            cases h4
            have h5 : w'.topo = w.topo := by
              funext n
              have h00 : h = 0 := h0
              rw [hw.topo, h00, add_zero]
            dsimp only
            rw [h5]

theorem datumFree_load {h : K} {ps : List (Process K)} (hfree : DatumFree h ps) :
    ∀ P, Process.diffusion P ∈ ps → h * P.loadSeaLevel = 0 := by
  intro P hP
  rcases hfree with h0 | ⟨-, -, hl⟩
  · rw [h0, zero_mul]
  · rw [hl P hP, mul_zero]

theorem modelInit_rows {start : K} {p : ProcState R C K} {w : World R (C + 2) K}
    {m : ModelState (ProcState R C K) R (C + 2) K}
    (hm : modelInit start (fun (t : K) (q : ProcState R C K) => { q with seaTime := t }) p w = .ok m) :
    w.rowShore.isSome = true ∧ w.rowShelf.isSome = true := by
  unfold modelInit at hm
  cases h1 : w.rowShore with
  | none => rw [h1] at hm; cases hm
  | some a =>
    cases h2 : w.rowShelf with
    | none => rw [h1, h2] at hm; cases hm
    | some b => exact ⟨rfl, rfl⟩

/-- What the constructor makes of two initial states that correspond. -/
theorem init_moved {env : Env R C K} {h τ : K} {ps : List (Process K)}
    (hfree : DatumFree h ps) {start : K} {s s' : ProcState R C K × World R (C + 2) K}
    (hs : StateMoved h τ ⟨h = 0, True, False, False⟩ s s')
    {m m' : ModelState (ProcState R C K) R (C + 2) K}
    (hm : packageInit env ps start s = .ok m)
    (hm' : packageInit env (ps.map (movedProcess h τ)) (start + τ) s' = .ok m') :
    ModelMoved h τ (knownAfter h 0) m m' := by
  unfold packageInit at hm hm'
  cases hc : createAll env ps s with
  | error e => rw [hc] at hm; cases hm
  | ok t =>
    cases hc' : createAll env (ps.map (movedProcess h τ)) s' with
    | error e => rw [hc'] at hm'; cases hm'
    | ok t' =>
      rw [hc] at hm
      rw [hc'] at hm'
      obtain ⟨hp, hw⟩ := createAll_moved ps (datumFree_load hfree) hs hc hc'
      dsimp only at hm hm'
      have r := modelInit_rows hm
      have r' := modelInit_rows hm'
      have := modelInit_moved (start := start) hp hw (by rw [r.1, r'.1]) (by rw [r.2, r'.2])
      rw [hm, hm'] at this
      cases this with
      | ok h => exact h

/-- On the same datum the constructor raises the same exception or makes models that correspond. -/
theorem init_alike {env : Env R C K} {τ : K} {ps : List (Process K)} {start : K}
    {s s' : ProcState R C K × World R (C + 2) K}
    (hs : StateMoved 0 τ ⟨True, True, True, True⟩ s s') :
    Alike (ModelMoved 0 τ (knownAfter (0 : K) 0)) (packageInit env ps start s)
      (packageInit env (ps.map (movedProcess 0 τ)) (start + τ) s') := by
  have h1 := createAll_alike (env := env) (h := 0) trivial ps (fun P _ => by rw [zero_mul]) hs
  unfold packageInit
  generalize createAll env ps s = a at h1
  generalize createAll env (ps.map (movedProcess 0 τ)) s' = b at h1
  cases h1 with
  | error e => exact .error e
  | @ok a b hab =>
    obtain ⟨hp, hw⟩ := hab
    dsimp only
    exact modelInit_moved hp (worldMoved_mono hw (fun _ => trivial) id id id)
      (by rw [hw.rowShore trivial]) (by rw [hw.rowShelf trivial])

/-- The function that a run of the model repeats. -/
def stepOf (env : Env R C K) (ps : List (Process K)) (porosity : ProcState R C K → K) :
    K → K → ModelState (ProcState R C K) R (C + 2) K →
      Except Err (ModelState (ProcState R C K) R (C + 2) K) :=
  fun time dt => advanceComponents (ps.map (Process.component env)) porosity time dt

/-- One step on the other datum and calendar. -/
theorem step_moved {env : Env R C K} {h τ : K} {ps : List (Process K)}
    (hfree : DatumFree h ps) (hext : ExternalsMove env h τ ps) {porosity : ProcState R C K → K}
    (hpor : ∀ p p', ProcMoved h τ p p' → porosity p' = porosity p) (time dt : K) (n : ℕ)
    {m m' : ModelState (ProcState R C K) R (C + 2) K} (hm : ModelMoved h τ (knownAfter h n) m m') :
    Alike (ModelMoved h τ (knownAfter h (n + 1))) (stepOf env ps porosity time dt m)
      (stepOf env (ps.map (movedProcess h τ)) porosity (time + τ) dt m') := by
  have hstart : StateMoved h τ (knownAfter h n) (m.comps, clearDeposit m.world)
      (m'.comps, clearDeposit m'.world) := ⟨hm.comps, clearDeposit_moved hm.world⟩
  refine advance_moved (Or.inr n.succ_ne_zero) hpor hm.archived ?_
  rcases hfree with h0 | ⟨⟨curve, start, rest, rfl⟩, hwater, -⟩
  · refine alike_mono (runComponents_moved hext (k := knownAfter h n) (Or.inl h0) trivial ps
      (fun _ h => h) (Or.inl (Or.inl h0)) hstart) fun a b hab => ⟨hab.1, ?_⟩
    exact worldMoved_mono hab.2 id (fun _ => Or.inl h0) (fun _ => Or.inl h0) id
  · simp only [List.map_cons, runComponents]
    have h1 := sea_moved (env := env) (curve := curve) (start := start) (dt := dt) hstart
    generalize (Process.seaLevel curve start).component env dt _ = a at h1
    generalize (movedProcess h τ (.seaLevel curve start)).component env dt _ = b at h1
    cases h1 with
    | error e => exact .error e
    | ok hab =>
      refine runComponents_moved hext (Or.inr n.succ_ne_zero) trivial rest
        (fun _ h => List.mem_cons_of_mem _ h)
        (Or.inr fun t ht => hwater t (List.mem_cons_of_mem _ ht)) ⟨hab.1, ?_⟩
      refine worldMoved_mono hab.2 id (fun hi => ?_) (fun _ => trivial) id
      rcases hi with h0 | hn
      · exact Or.inl h0
      · exact Or.inr fun hn0 => hn (by rw [hn0])

theorem advance_movedClock (τ : K) (c : Clock K) :
    (movedClock τ c).advance = (movedClock τ c.advance.1, c.advance.2) := by
  have ht : c.time + τ + c.step = c.time + c.step + τ := by ring
  obtain ⟨start, stop, step, time⟩ := c
  cases stop with
  | none => simp [movedClock, Clock.advance, add_right_comm]
  | some stop =>
    dsimp only at ht
    simp only [movedClock, Clock.advance, Option.map_some, ht, add_lt_add_iff_right]
    split_ifs <;> rfl

theorem runOneStep_moved {W : Type*} {advance advance' : K → K → W → Except Err W} {r r' : W → W → Prop}
    {τ : K} (hstep : ∀ time dt w w', r w w' →
      Alike r' (advance time dt w) (advance' (time + τ) dt w'))
    (c : Clock K) {w w' : W} (hw : r w w') (dt : Option K) :
    (runOneStep advance' (movedClock τ c) w' dt).1 =
      movedClock τ (runOneStep advance c w dt).1 ∧
    Alike r' (runOneStep advance c w dt).2 (runOneStep advance' (movedClock τ c) w' dt).2 := by
  unfold runOneStep
  rw [advance_movedClock]
  generalize c.advance = a
  obtain ⟨c1, res⟩ := a
  cases res with
  | error e => exact ⟨rfl, .error e⟩
  | ok u => exact ⟨rfl, hstep _ _ _ _ hw⟩

theorem runSteps_moved {W : Type*} {advance advance' : K → K → W → Except Err W}
    {r : ℕ → W → W → Prop} {τ : K} (hstep : ∀ n time dt w w', r n w w' →
      Alike (r (n + 1)) (advance time dt w) (advance' (time + τ) dt w')) :
    ∀ (dts : List (Option K)) (n : ℕ) (c : Clock K) {w w' : W}, r n w w' →
      (runSteps advance' (movedClock τ c) w' dts).1 = movedClock τ (runSteps advance c w dts).1 ∧
      Alike (r (n + dts.length)) (runSteps advance c w dts).2
        (runSteps advance' (movedClock τ c) w' dts).2 := by
  intro dts
  induction dts with
  | nil => intro n c w w' hw; exact ⟨rfl, .ok hw⟩
  | cons dt dts ih =>
    intro n c w w' hw
    obtain ⟨h1, h2⟩ := runOneStep_moved (hstep n) c hw dt
    simp only [runSteps]
    generalize runOneStep advance c w dt = a at h1 h2
    generalize runOneStep advance' (movedClock τ c) w' dt = b at h1 h2
    obtain ⟨c1, x⟩ := a
    obtain ⟨c2, y⟩ := b
    dsimp only at h1 h2
    subst h1
    cases h2 with
    | error e => exact ⟨rfl, .error e⟩
    | ok h =>
      have := ih (n + 1) c1 h
      rw [List.length_cons, Nat.add_comm dts.length 1, ← Nat.add_assoc]
      exact this

theorem runLoop_moved {W : Type*} {advance advance' : K → K → W → Except Err W}
    {r : ℕ → W → W → Prop} {τ : K} (hstep : ∀ n time dt w w', r n w w' →
      Alike (r (n + 1)) (advance time dt w) (advance' (time + τ) dt w')) :
    ∀ (fuel n : ℕ) (c : Clock K) {w w' : W}, r n w w' →
      SameEnd τ (fun a b => ∃ k, r k a b) (runLoop advance fuel c w)
        (runLoop advance' fuel (movedClock τ c) w') := by
  intro fuel
  induction fuel with
  | zero => intro n c w w' _; exact .running
  | succ fuel ih =>
    intro n c w w' hw
    obtain ⟨h1, h2⟩ := runOneStep_moved (hstep n) c hw none
    simp only [runLoop]
    generalize runOneStep advance c w none = a at h1 h2
    generalize runOneStep advance' (movedClock τ c) w' none = b at h1 h2
    obtain ⟨c1, x⟩ := a
    obtain ⟨c2, y⟩ := b
    dsimp only at h1 h2
    subst h1
    cases h2 with
    | error e =>
      cases e <;> first
        | exact .ended _ (.ok ⟨n, hw⟩)
        | exact .ended _ (.error _)
    | ok h => exact ih (n + 1) c1 h

/-! ## C111: the datum -/

/-- C111, as far as it is true. Raise the topography, the bedrock, the sea-level curve and the
diffuser's sea level by `h`, and shift the clock and the sea-level curve by `τ`. If the sea level is
the first process, there is no water flexure and the load does not depend on the elevation of the sea
(nothing of this is needed for `h = 0`), then every sequence of steps ends the same way: with the
same exception, or with elevations raised by `h`, ages shifted by `τ` and everything else the same.
Excepted is what the constructor measured from 0: the water depth of the first layer and, in the
first step, the increment of the sea level. -/
theorem datum_partial {env : Env R C K} {h τ : K} {ps : List (Process K)} (hfree : DatumFree h ps)
    (hext : ExternalsMove env h τ ps) {porosity : ProcState R C K → K}
    (hpor : ∀ p p', ProcMoved h τ p p' → porosity p' = porosity p) {start : K}
    {s s' : ProcState R C K × World R (C + 2) K}
    (hs : StateMoved h τ ⟨h = 0, True, False, False⟩ s s')
    {m m' : ModelState (ProcState R C K) R (C + 2) K}
    (hm : packageInit env ps start s = .ok m)
    (hm' : packageInit env (ps.map (movedProcess h τ)) (start + τ) s' = .ok m')
    (c : Clock K) (dts : List (Option K)) :
    (runSteps (stepOf env (ps.map (movedProcess h τ)) porosity) (movedClock τ c) m' dts).1 =
      movedClock τ (runSteps (stepOf env ps porosity) c m dts).1 ∧
    Alike (ModelMoved h τ (knownAfter h dts.length))
      (runSteps (stepOf env ps porosity) c m dts).2
      (runSteps (stepOf env (ps.map (movedProcess h τ)) porosity) (movedClock τ c) m' dts).2 := by
  have := runSteps_moved (r := fun n => ModelMoved h τ (knownAfter h n))
    (fun n time dt w w' hw => step_moved hfree hext hpor time dt n hw) dts 0 c
    (init_moved hfree hs hm hm')
  rwa [Nat.zero_add] at this

/-- The same of `SequenceModel.run`: both are still running or both have ended. -/
theorem datum_run_partial {env : Env R C K} {h τ : K} {ps : List (Process K)}
    (hfree : DatumFree h ps) (hext : ExternalsMove env h τ ps) {porosity : ProcState R C K → K}
    (hpor : ∀ p p', ProcMoved h τ p p' → porosity p' = porosity p) {start : K}
    {s s' : ProcState R C K × World R (C + 2) K}
    (hs : StateMoved h τ ⟨h = 0, True, False, False⟩ s s')
    {m m' : ModelState (ProcState R C K) R (C + 2) K}
    (hm : packageInit env ps start s = .ok m)
    (hm' : packageInit env (ps.map (movedProcess h τ)) (start + τ) s' = .ok m')
    (c : Clock K) (fuel : ℕ) :
    SameEnd τ (fun a b => ∃ n, ModelMoved h τ (knownAfter h n) a b)
      (runLoop (stepOf env ps porosity) fuel c m)
      (runLoop (stepOf env (ps.map (movedProcess h τ)) porosity) fuel (movedClock τ c) m') :=
  runLoop_moved (r := fun n => ModelMoved h τ (knownAfter h n))
    (fun n time dt w w' hw => step_moved hfree hext hpor time dt n hw) fuel 0 c
    (init_moved hfree hs hm hm')

/-! ## C112: the calendar -/

theorem movedProcess_zero (τ : K) : movedProcess (0 : K) τ = laterProcess τ := by
  funext p
  cases p with
  | seaLevel curve start =>
    have : (fun t => (curve (t - τ)).map (· + (0 : K))) = fun t => curve (t - τ) := by
      funext t
      cases curve (t - τ) with
      | error e => rfl
      | ok v => simp [Except.map]
    simp only [movedProcess, laterProcess, this]
  | diffusion P => simp only [movedProcess, laterProcess, add_zero]
  | _ => rfl

theorem procMoved_eq {τ : K} {p p' : ProcState R C K} (hp : ProcMoved 0 τ p p') :
    p' = { p with seaTime := p.seaTime + τ } := by
  have h1 := hp.seaTime
  have h2 := hp.rate
  have h3 := hp.flex
  have h4 := hp.diffuser
  obtain ⟨t, r, d, f⟩ := p
  obtain ⟨t', r', d', f'⟩ := p'
  dsimp only at h1 h2 h3 h4
  rw [add_zero] at h4
  subst h1 h2 h3 h4
  rfl

theorem later_of_moved {τ : K} {n : ℕ} {m m' : ModelState (ProcState R C K) R (C + 2) K}
    (h : ModelMoved 0 τ (knownAfter (0 : K) n) m m') : Later τ m m' := by
  obtain ⟨hp, hw, ha⟩ := h
  refine ⟨?_, ha, ?_, hw.layers.n, hw.layers.tracking, funext hw.layers.dz, hw.layers.age,
    fun k hk => ?_⟩
  · exact procMoved_eq hp
  · refine World.ext ?_ ?_ hw.deposit hw.increment hw.sand hw.sedLoad (hw.waterLoad rfl)
      hw.waterIncr ?_ (hw.seaIncr (Or.inl rfl)) (hw.rowShore trivial) (hw.rowShelf trivial)
      hw.gridShore hw.gridShelf rfl
    · funext n; rw [hw.topo, add_zero]
    · funext n; rw [hw.bedrock, add_zero]
    · rw [hw.seaLevel (Or.inl rfl), add_zero]
  · funext s
    by_cases hd : k = "water_depth"
    · subst hd
      exact hw.layers.depths rfl s
    · exact hw.layers.others k hk hd s

/-- C112. Start the clock `τ` later and shift the sea-level curve by `τ`. The constructor raises the
same exception or makes the same model, and every sequence of steps and every run ends with the same exception or
the same model, but for the ages of the layers and the time of the sea level, which are shifted by
`τ`. -/
theorem calendar {env : Env R C K} {τ : K} {ps : List (Process K)}
    (hcompact : Process.compaction ∈ ps → ∀ dt depth l l', LayersMoved τ depth l l' →
      Alike (LayersMoved τ depth) (env.compact dt l) (env.compact dt l'))
    {porosity : ProcState R C K → K}
    (hpor : ∀ p t, porosity { p with seaTime := t } = porosity p) {start : K}
    {p : ProcState R C K} {w : World R (C + 2) K} (hw : w.layers = EventLayers.empty) :
    Alike (Later τ) (packageInit env ps start (p, w))
      (packageInit env (ps.map (laterProcess τ)) (start + τ)
        ({ p with seaTime := p.seaTime + τ }, w)) ∧
    ∀ m m', packageInit env ps start (p, w) = .ok m →
      packageInit env (ps.map (laterProcess τ)) (start + τ)
        ({ p with seaTime := p.seaTime + τ }, w) = .ok m' →
      ∀ c : Clock K,
        (∀ dts : List (Option K),
          (runSteps (stepOf env (ps.map (laterProcess τ)) porosity) (movedClock τ c) m' dts).1 =
            movedClock τ (runSteps (stepOf env ps porosity) c m dts).1 ∧
          Alike (Later τ) (runSteps (stepOf env ps porosity) c m dts).2
            (runSteps (stepOf env (ps.map (laterProcess τ)) porosity) (movedClock τ c) m' dts).2) ∧
        ∀ fuel : ℕ, SameEnd τ (Later τ) (runLoop (stepOf env ps porosity) fuel c m)
          (runLoop (stepOf env (ps.map (laterProcess τ)) porosity) fuel (movedClock τ c) m') := by
  have hs : StateMoved (0 : K) τ ⟨True, True, True, True⟩ (p, w)
      ({ p with seaTime := p.seaTime + τ }, w) := by
    refine ⟨⟨rfl, rfl, rfl, ?_, zero_mul _⟩, ⟨fun n => (add_zero _).symm, fun n => (add_zero _).symm,
      rfl, rfl, rfl, rfl, rfl, fun _ => rfl, fun _ => (add_zero _).symm, fun _ => rfl,
      fun _ => rfl, fun _ => rfl, rfl, rfl, ?_⟩⟩
    · dsimp only
      rw [add_zero]
    · dsimp only
      rw [hw]
      exact layersMoved_empty _ _
  have hext : ExternalsMove env (0 : K) τ ps := by
    refine ⟨fun _ kd dt z => ?_, hcompact⟩
    simp only [add_zero]
    cases env.solve kd dt z <;> rfl
  rw [← movedProcess_zero]
  refine ⟨alike_mono (init_alike hs) fun a b hab => later_of_moved hab, fun m m' hm hm' c => ?_⟩
  have hpor' : ∀ q q', ProcMoved 0 τ q q' → porosity q' = porosity q := by
    intro q q' hq
    rw [procMoved_eq hq, hpor]
  have hs' : StateMoved (0 : K) τ ⟨(0 : K) = 0, True, False, False⟩ (p, w)
      ({ p with seaTime := p.seaTime + τ }, w) :=
    ⟨hs.1, worldMoved_mono hs.2 (fun _ => trivial) id False.elim False.elim⟩
  refine ⟨fun dts => ?_, fun fuel => ?_⟩
  · have := datum_partial (Or.inl rfl) hext hpor' hs' hm hm' c dts
    exact ⟨this.1, alike_mono this.2 fun a b hab => later_of_moved hab⟩
  · have := datum_run_partial (Or.inl rfl) hext hpor' hs' hm hm' c fuel
    generalize runLoop (stepOf env ps porosity) fuel c m = a at this ⊢
    generalize runLoop (stepOf env (ps.map (movedProcess 0 τ)) porosity) fuel (movedClock τ c) m' = b
      at this ⊢
    cases this with
    | running => exact .running
    | ended c1 h => exact .ended c1 (alike_mono h fun a b ⟨n, hab⟩ => later_of_moved hab)

/-! ## The data in files -/

theorem linearAt_moved (τ h : K) : ∀ (t : List (K × K)), t ≠ [] → ∀ x,
    linearAt (t.map fun p => (p.1 + τ, p.2 + h)) x = linearAt t (x - τ) + h := by
  intro t
  induction t with
  | nil => intro ht; exact absurd rfl ht
  | cons p t ih =>
    intro _ x
    cases t with
    | nil => rfl
    | cons q t =>
      simp only [List.map_cons, linearAt]
      have hc : (x ≤ q.1 + τ ∨ (t.map fun p : K × K => (p.1 + τ, p.2 + h)) = []) ↔
          (x - τ ≤ q.1 ∨ t = []) := by
        rw [List.map_eq_nil_iff, sub_le_iff_le_add]
      by_cases hx : x - τ ≤ q.1 ∨ t = []
      · rw [if_pos hx, if_pos (hc.2 hx)]
        have e1 : q.2 + h - (p.2 + h) = q.2 - p.2 := by ring
        have e2 : q.1 + τ - (p.1 + τ) = q.1 - p.1 := by ring
        rw [e1, e2]
        ring
      · rw [if_neg hx, if_neg fun h => hx (hc.1 h)]
        exact ih (by simp) x

/-- A file of sea levels, of subsidence rates or of elevations with `τ` added to the first column and
`h` to the second describes the curve shifted by `τ` and raised by `h`. -/
theorem file_moved (τ h : K) (t : List (K × K)) :
    (tableCurve t = .error .indexError ∧
      tableCurve (t.map fun p => (p.1 + τ, p.2 + h)) = .error .indexError) ∨
    ∃ f f', tableCurve t = .ok f ∧ tableCurve (t.map fun p => (p.1 + τ, p.2 + h)) = .ok f' ∧
      ∀ x, f' x = (f (x - τ)).map (· + h) := by
  unfold tableCurve
  rw [List.length_map]
  by_cases ht : t.length < 2
  · rw [if_pos ht, if_pos ht]
    exact Or.inl ⟨rfl, rfl⟩
  · rw [if_neg ht, if_neg ht]
    refine Or.inr ⟨_, _, rfl, rfl, fun x => ?_⟩
    have hne : t ≠ [] := by rintro rfl; exact ht (by simp)
    unfold interpTable
    rw [List.head?_map, List.getLast?_map, linearAt_moved τ h t hne]
    cases t.head? with
    | none => rfl
    | some p =>
      cases t.getLast? with
      | none => rfl
      | some q =>
        simp only [Option.map_some]
        have hc : (x < p.1 + τ ∨ q.1 + τ < x) ↔ (x - τ < p.1 ∨ q.1 < x - τ) := by
          rw [sub_lt_iff_lt_add, lt_sub_iff_add_lt]
        by_cases hx : x - τ < p.1 ∨ q.1 < x - τ
        · rw [if_pos hx, if_pos (hc.2 hx)]; rfl
        · rw [if_neg hx, if_neg fun h => hx (hc.1 h)]; rfl

/-- The sinusoidal sea level: later by `τ` and higher by `h` is another phase and another mean. -/
theorem sinusoid_moved (wl amp phase mean linear τ h t : ℝ) :
    sinusoidalCurve wl amp (phase + τ) (mean + h - linear * τ) linear t =
      (sinusoidalCurve wl amp phase mean linear (t - τ)).map (· + h) := by
  unfold sinusoidalCurve
  dsimp only
  by_cases hw : wl / (2 * Real.pi) = 0
  · rw [if_pos hw, if_pos hw]; rfl
  · rw [if_neg hw, if_neg hw]
    simp only [Except.map, Except.ok.injEq]
    have : t - (phase + τ) = t - τ - phase := by ring
    rw [this]
    ring

/-- A file of elevations raised by `h` raises the topography by `h`, and with it the bedrock. -/
theorem bathymetry_moved {curve curve' : Curve K} {h : K}
    (hc : ∀ x, curve' x = (curve x).map (· + h)) (x : Fin C → K) (w : World R C K) :
    Alike (fun w1 w2 : World R C K => (∀ n, w2.topo n = w1.topo n + h) ∧
        (∀ n, (loadBedrock w2).bedrock n = (loadBedrock w1).bedrock n + h) ∧
        w2 = { w1 with topo := w2.topo })
      (bathymetryStep curve x w) (bathymetryStep curve' x w) := by
  have hf : ∀ l : List K, l.findSome? (fun x => match curve' x with
      | .error e => some e
      | .ok _ => none) = l.findSome? (fun x => match curve x with
      | .error e => some e
      | .ok _ => none) := by
    intro l
    congr 1
    funext v
    rw [hc]
    cases curve v <;> rfl
  have hf' := hf (List.ofFn x)
  unfold bathymetryStep Curve.atColumns
  cases hr' : (List.ofFn x).findSome? (fun x => match curve' x with
      | .error e => some e
      | .ok _ => none) with
  | some e =>
    rw [hr'] at hf'
    cases hr : (List.ofFn x).findSome? (fun x => match curve x with
        | .error e => some e
        | .ok _ => none) with
    | none => rw [hr] at hf'; cases hf'
    | some e' => rw [hr] at hf'; cases hf'; exact .error e
  | none =>
    rw [hr'] at hf'
    have hr := hf'.symm
    cases hr2 : (List.ofFn x).findSome? (fun x => match curve x with
        | .error e => some e
        | .ok _ => none) with
    | some e => rw [hr] at hr2; cases hr2
    | none =>
      have hok : ∀ i, ∃ v, curve (x i) = .ok v := by
        intro i
        cases hi : curve (x i) with
        | ok v => exact ⟨v, rfl⟩
        | error e =>
          have := List.findSome?_eq_none_iff.1 hr (x i) (List.mem_ofFn.2 ⟨i, rfl⟩)
          rw [hi] at this
          cases this
      have htop : ∀ i, (match curve' (x i) with | .ok v => v | .error _ => 0) =
          (match curve (x i) with | .ok v => v | .error _ => 0) + h := by
        intro i
        obtain ⟨v, hv⟩ := hok i
        rw [hc, hv]
        rfl
      refine .ok ⟨fun n => htop n.2, fun n => ?_, rfl⟩
      exact (congrArg (· - 100) (htop n.2)).trans (sub_add_eq_add_sub _ _ _).symm

/-! ## Examples -/

/-- A model with all processes but water flexure. -/
def exAllProcs : List (Process ℚ) :=
  .seaLevel (fun t => .ok (1/2 - t / 1000)) 0 :: .compaction ::
    .diffusion ⟨0, 1/100, 60, 15, 1/2000, 1/1000, 3, 0, 0⟩ :: exProcs.drop 1

/-- The beach of `exBeach`, 7 m higher. -/
def exHighBeach : World 1 3 ℚ := { exBeach with
  topo := fun n => exBeach.topo n + 7
  bedrock := fun n => exBeach.bedrock n + 7 }

def exHighState : ProcState 1 1 ℚ := { exProcState with
  seaTime := exProcState.seaTime + 1000
  diffuser := { exProcState.diffuser with seaLevel0 := exProcState.diffuser.seaLevel0 + 7 } }

/-- Two steps, of 100 years each. -/
def exTwice (env : Env 1 1 ℚ) (ps : List (Process ℚ)) (start : ℚ)
    (s : ProcState 1 1 ℚ × World 1 3 ℚ) : Except Err (ModelState (ProcState 1 1 ℚ) 1 3 ℚ) :=
  match packageInit env ps start s with
  | .error e => .error e
  | .ok m => (runSteps (stepOf env ps fun _ => 1/2) (Clock.init start none 100) m [none, none]).2

example : DatumFree 7 exAllProcs := by
  refine Or.inr ⟨⟨_, _, _, rfl⟩, fun t => ?_, fun P hP => ?_⟩
  · simp [exAllProcs, exProcs, requiredToo, Process.name]
  · simp [exAllProcs, exProcs, requiredToo, Process.name] at hP
    rw [hP]

theorem exEnv_moves (h τ : ℚ) (ps : List (Process ℚ)) : ExternalsMove exEnv h τ ps := by
  refine ⟨fun _ kd dt z => rfl, fun _ dt depth l l' hl => .ok { hl with dz := fun s => ?_ }⟩
  dsimp only
  rw [hl.dz]

example : StateMoved 7 1000 ⟨(7 : ℚ) = 0, True, False, False⟩ (exProcState, exBeach)
    (exHighState, exHighBeach) :=
  ⟨⟨rfl, rfl, rfl, rfl, by decide +kernel⟩, ⟨fun _ => rfl, fun _ => rfl, rfl, rfl, rfl, rfl, rfl,
    fun _ => rfl, False.elim, fun _ => rfl, False.elim, False.elim, rfl, rfl,
    layersMoved_empty _ _⟩⟩

/-- What a state shows: topography and bedrock of the row, sea level, thicknesses, ages and water
depths of the layers. -/
def exMovedView (m : ModelState (ProcState 1 1 ℚ) 1 3 ℚ) :
    List (ℚ × ℚ) × ℚ × List ℚ × List ℚ × List ℚ :=
  let c : Cell 1 3 := (0, ⟨0, by omega⟩)
  (List.ofFn fun i => (m.world.topo (1, i), m.world.bedrock (1, i)), m.world.seaLevel,
    m.world.layers.dz c, m.world.layers.prop "age" c, m.world.layers.prop "water_depth" c)

/-- Both models run; all but the water depth of the first layer corresponds. -/
example :
    (exTwice exEnv exAllProcs 0 (exProcState, exBeach)).toOption.map exMovedView =
      some ([(-5099/100, -101), (-76, -102), (-1, -103)], 3/10, [25, 0, 1], [0, 100, 200],
        [100, 2/5, 513/10]) ∧
    (exTwice exEnv (exAllProcs.map (movedProcess 7 1000)) 1000
        (exHighState, exHighBeach)).toOption.map exMovedView =
      some ([(-5099/100 + 7, -94), (-69, -95), (6, -96)], 73/10, [25, 0, 1], [1000, 1100, 1200],
        [93, 2/5, 513/10]) :=
  ⟨by decide +kernel, by decide +kernel⟩

/-- The same on another calendar only: the ages are shifted, nothing else. -/
example :
    (exTwice exEnv (exAllProcs.map (laterProcess 1000)) 1000
        ({ exProcState with seaTime := exProcState.seaTime + 1000 }, exBeach)).toOption.map
          exMovedView =
      some ([(-5099/100, -101), (-76, -102), (-1, -103)], 3/10, [25, 0, 1], [1000, 1100, 1200],
        [100, 2/5, 513/10]) := by
  decide +kernel

example : Process.compaction ∈ exAllProcs → ∀ dt depth l l', LayersMoved (1000 : ℚ) depth l l' →
    Alike (LayersMoved 1000 depth) (exEnv.compact dt l) (exEnv.compact dt l') :=
  (exEnv_moves 0 1000 exAllProcs).compact

/-! ## Where the datum matters -/

/-- An environment in which the bedrock moves with the change of the sea level. -/
def exWaterEnv : Env 1 1 ℚ := { exEnv with flexWater := fun _ dsl _ _ => dsl / 10 }

/-- A constant sea at 1/2 m and water flexure. -/
def exWaterProcs : List (Process ℚ) :=
  [.seaLevel (fun _ => .ok (1/2)) 0, .waterFlexure none, .fluvial exFluvial, .shoreline 1]

/-- One step of 100 years. -/
def exOnce (env : Env 1 1 ℚ) (ps : List (Process ℚ)) (start : ℚ)
    (s : ProcState 1 1 ℚ × World 1 3 ℚ) : Except Err (ModelState (ProcState 1 1 ℚ) 1 3 ℚ) :=
  match packageInit env ps start s with
  | .error e => .error e
  | .ok m => stepOf env ps (fun _ => 1/2) (start + 100) 100 m

/-- C111 is false with water flexure: the first increment of the sea level is measured from 0, so
that a basin raised by 7 m with its sea is loaded with 7 m of water in its first step. Here the sea
is constant, and the bedrock subsides by 1/20 m or by 3/4 m. -/
theorem datum_waterFlexure_fails :
    ∃ (env : Env 1 1 ℚ) (ps : List (Process ℚ)) (s s' : ProcState 1 1 ℚ × World 1 3 ℚ)
      (m m' : ModelState (ProcState 1 1 ℚ) 1 3 ℚ),
      (∃ curve start rest, ps = .seaLevel curve start :: rest) ∧ ExternalsMove env 7 0 ps ∧
      StateMoved 7 0 ⟨(7 : ℚ) = 0, True, False, False⟩ s s' ∧
      exOnce env ps 0 s = .ok m ∧ exOnce env (ps.map (movedProcess 7 0)) 0 s' = .ok m' ∧
      m.world.bedrock (1, 1) = exBeach.bedrock (1, 1) - 1/20 ∧
      m'.world.bedrock (1, 1) = exBeach.bedrock (1, 1) + 7 - 3/4 := by
  have h1 : (exOnce exWaterEnv exWaterProcs 0 (exProcState, exBeach)).toOption.map
      (fun m => m.world.bedrock (1, 1)) = some (exBeach.bedrock (1, 1) - 1/20) := by decide +kernel
  have h2 : (exOnce exWaterEnv (exWaterProcs.map (movedProcess 7 0)) 0
      ({ exHighState with seaTime := 0 }, exHighBeach)).toOption.map
      (fun m => m.world.bedrock (1, 1)) = some (exBeach.bedrock (1, 1) + 7 - 3/4) := by
    decide +kernel
  cases e1 : exOnce exWaterEnv exWaterProcs 0 (exProcState, exBeach) with
  | error e => rw [e1] at h1; cases h1
  | ok m =>
    cases e2 : exOnce exWaterEnv (exWaterProcs.map (movedProcess 7 0)) 0
        ({ exHighState with seaTime := 0 }, exHighBeach) with
    | error e => rw [e2] at h2; cases h2
    | ok m' =>
      rw [e1] at h1
      rw [e2] at h2
      refine ⟨exWaterEnv, exWaterProcs, _, _, m, m', ⟨_, _, _, rfl⟩,
        ⟨fun _ kd dt z => rfl, fun h => ?_⟩, ?_, e1, e2, Option.some.inj h1, Option.some.inj h2⟩
      · simp [exWaterProcs] at h
      · exact ⟨⟨by decide +kernel, rfl, rfl, rfl, by decide +kernel⟩, ⟨fun _ => rfl, fun _ => rfl,
          rfl, rfl, rfl, rfl, rfl, fun _ => rfl, False.elim, fun _ => rfl, False.elim, False.elim,
          rfl, rfl, layersMoved_empty _ _⟩⟩

end Verif.Props
