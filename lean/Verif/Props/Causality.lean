import Verif.Props.Unused
import Verif.Props.StartFile
import Verif.Props.Cli
import Verif.Props.Symmetry
import Verif.Spec.Causality

/-! # C113: the future has no effect

What the sea-level curve and the configuration say about times that have not been reached makes no
difference. -/

set_option autoImplicit false
set_option linter.unusedSectionVars false

namespace Verif.Props

open Spec

section

variable {K : Type*} [Field K] [LinearOrder K] [IsStrictOrderedRing K] {R C : ℕ}

/-! ### The sea-level curve -/

theorem withCurve_name (g : Curve K) (p : Process K) : (withCurve g p).name = p.name := by
  cases p <;> rfl

theorem withCurve_noSea {g : Curve K} {ps : List (Process K)}
    (h : "sea_level" ∉ ps.map Process.name) : ps.map (withCurve g) = ps := by
  conv_rhs => rw [← List.map_id ps]
  refine List.map_congr_left fun p hp => ?_
  cases p with
  | seaLevel curve start => exact absurd (List.mem_map_of_mem hp) h
  | _ => rfl

theorem create_withCurve (env : Env R C K) (g : Curve K) (p : Process K)
    (s : ProcState R C K × World R (C + 2) K) : (withCurve g p).create env s = p.create env s := by
  cases p <;> rfl

theorem createAll_withCurve (env : Env R C K) (g : Curve K) (ps : List (Process K))
    (s : ProcState R C K × World R (C + 2) K) :
    createAll env (ps.map (withCurve g)) s = createAll env ps s := by
  induction ps generalizing s with
  | nil => rfl
  | cons p ps ih =>
    simp only [List.map_cons, createAll, create_withCurve, ih]

theorem seaComponent_time {curve : Curve K} {dt : K} {p p' : ProcState R C K}
    {w w' : World R (C + 2) K}
    (h : seaComponent curve (·.seaTime) (fun t (s : ProcState R C K) => { s with seaTime := t }) dt
      (p, w) = .ok (p', w')) : p'.seaTime = p.seaTime + dt := by
  unfold seaComponent seaStep at h
  dsimp only at h
  cases hc : curve (p.seaTime + dt) with
  | error e => rw [hc] at h; cases h
  | ok v => rw [hc] at h; cases h; rfl

/-- One pass over the processes. -/
theorem runComponents_withCurve (env : Env R C K) (g : Curve K) {ps : List (Process K)}
    (hn : (ps.map Process.name).Nodup) {dt : K} {p : ProcState R C K} {w : World R (C + 2) K}
    (hg : ∀ curve start, .seaLevel curve start ∈ ps → g (p.seaTime + dt) = curve (p.seaTime + dt)) :
    runComponents ((ps.map (withCurve g)).map (Process.component env)) dt (p, w) =
      runComponents (ps.map (Process.component env)) dt (p, w) ∧
    ∀ p' w', runComponents (ps.map (Process.component env)) dt (p, w) = .ok (p', w') →
      "sea_level" ∈ ps.map Process.name → p'.seaTime = p.seaTime + dt := by
  induction ps generalizing p w with
  | nil => exact ⟨rfl, fun _ _ _ h => by cases h⟩
  | cons q ps ih =>
    rw [List.map_cons, List.nodup_cons] at hn
    simp only [List.map_cons, runComponents]
    by_cases hq : q.name = "sea_level"
    · have hno : "sea_level" ∉ ps.map Process.name := hq ▸ hn.1
      rw [withCurve_noSea hno]
      cases q with
      | seaLevel curve start =>
        have hc : (withCurve g (.seaLevel curve start)).component env dt (p, w) =
            (Process.seaLevel curve start).component env dt (p, w) := by
          simp only [withCurve, Process.component, seaComponent, seaStep,
            hg curve start (List.mem_cons_self ..)]
        rw [hc]
        refine ⟨rfl, fun p' w' h _ => ?_⟩
        cases h1 : (Process.seaLevel curve start).component env dt (p, w) with
        | error e => rw [h1] at h; cases h
        | ok y =>
          obtain ⟨p1, w1⟩ := y
          rw [h1] at h
          dsimp only at h
          have h2 := (runComponents_ignoresSea (fun q : ProcState R C K => q.seaTime)
            (ps.map (Process.component env)) (fun c hc => by
              obtain ⟨r, hr, rfl⟩ := List.mem_map.mp hc
              exact component_ignoresSea r fun he => hno (he ▸ List.mem_map_of_mem hr)) h).1
          rw [h2]
          exact seaComponent_time h1
      | _ => exact absurd hq (by simp only [Process.name]; decide)
    · have hw : withCurve g q = q := by
        cases q with
        | seaLevel curve start => exact absurd rfl hq
        | _ => rfl
      rw [hw]
      cases h1 : q.component env dt (p, w) with
      | error e => exact ⟨rfl, fun p' w' h => by cases h⟩
      | ok y =>
        obtain ⟨p1, w1⟩ := y
        dsimp only
        have ht : p1.seaTime = p.seaTime := (component_ignoresSea q hq dt p w p1 w1 h1).1
        obtain ⟨k1, k2⟩ := ih hn.2 (p := p1) (w := w1) fun curve start hm => by
          rw [ht]; exact hg curve start (List.mem_cons_of_mem _ hm)
        refine ⟨k1, fun p' w' h hm => ?_⟩
        rw [k2 p' w' h ((List.mem_cons.mp hm).resolve_left fun he => hq he.symm), ht]

/-- One step of the model. -/
theorem step_withCurve (env : Env R C K) (g : Curve K) {ps : List (Process K)}
    (hn : (ps.map Process.name).Nodup) (porosity : ProcState R C K → K) {time dt : K}
    {m : ModelState (ProcState R C K) R (C + 2) K}
    (hg : ∀ curve start, .seaLevel curve start ∈ ps →
      g (m.comps.seaTime + dt) = curve (m.comps.seaTime + dt)) :
    stepOf env (ps.map (withCurve g)) porosity time dt m = stepOf env ps porosity time dt m ∧
    ∀ m', stepOf env ps porosity time dt m = .ok m' → "sea_level" ∈ ps.map Process.name →
      m'.comps.seaTime = m.comps.seaTime + dt := by
  obtain ⟨k1, k2⟩ := runComponents_withCurve env g hn (dt := dt) (p := m.comps)
    (w := clearDeposit m.world) hg
  unfold stepOf advanceComponents
  rw [k1]
  refine ⟨rfl, fun m' h hs => ?_⟩
  split at h
  · cases h
  rename_i p w1 hr
  split at h
  · cases h
  split at h
  · cases h
  split at h
  · cases h
  cases h
  exact k2 _ _ hr hs

theorem timesReached_cons (step t : K) (dt : Option K) (dts : List (Option K)) :
    timesReached step t (dt :: dts) =
      (t + effectiveStep step dt) :: timesReached step (t + effectiveStep step dt) dts := by
  cases dt <;> rfl

theorem advance_kept {ck ck' : Clock K} {u : Unit} (h : ck.advance = (ck', .ok u)) :
    ck'.time = ck.time + ck.step ∧ ck'.step = ck.step ∧ ck'.stop = ck.stop := by
  unfold Clock.advance at h
  dsimp only at h
  split at h
  · cases h; exact ⟨rfl, rfl, rfl⟩
  · split_ifs at h
    · cases h
    · cases h; exact ⟨rfl, rfl, rfl⟩

/-- C113, the sea level: models whose sea-level curves agree at the times that are reached are the
same. The constructors give the same model, and the steps give the same model or the same exception,
whatever the curves say about other times. -/
theorem sea_level_to_come (env : Env R C K) (g : Curve K) (ps : List (Process K))
    (hn : (ps.map Process.name).Nodup) (porosity : ProcState R C K → K) (start : K)
    (s : ProcState R C K × World R (C + 2) K) :
    packageInit env (ps.map (withCurve g)) start s = packageInit env ps start s ∧
    ∀ m, packageInit env ps start s = .ok m → ∀ (c : Clock K) (dts : List (Option K)),
      (∀ curve t0, .seaLevel curve t0 ∈ ps → ∀ t ∈ timesReached c.step start dts, g t = curve t) →
      runSteps (stepOf env (ps.map (withCurve g)) porosity) c m dts =
        runSteps (stepOf env ps porosity) c m dts := by
  constructor
  · unfold packageInit
    rw [createAll_withCurve]
  intro m hm c dts hg
  by_cases hsea : "sea_level" ∈ ps.map Process.name
  swap
  · rw [withCurve_noSea hsea]
  have hstart : m.comps.seaTime = start := by
    obtain ⟨p, w1, -, hi⟩ := packageInit_ok hm
    unfold modelInit at hi
    split at hi
    · dsimp only at hi
      split at hi
      · cases hi
      · cases hi; rfl
    · cases hi
    · cases hi
  rw [← hstart] at hg
  clear hm hstart
  induction dts generalizing c m with
  | nil => rfl
  | cons dt dts ih =>
    rw [runSteps, runSteps]
    simp only [timesReached_cons, List.forall_mem_cons] at hg
    unfold runOneStep
    rcases ha : c.advance with ⟨c1, e | u⟩
    · rfl
    · dsimp only
      obtain ⟨k1, k2⟩ := step_withCurve env g hn porosity (time := c1.time)
        (dt := effectiveStep c.step dt) (m := m) fun curve t0 hm => (hg curve t0 hm).1
      rw [k1]
      cases hs : stepOf env ps porosity c1.time (effectiveStep c.step dt) m with
      | error e => rfl
      | ok m1 =>
        dsimp only
        refine ih m1 c1 fun curve t0 hm => ?_
        rw [k2 m1 hs hsea, (advance_kept ha).2.1]
        exact (hg curve t0 hm).2

/-- C113 for `SequenceModel.run`: the curve matters from the start to the stop of the clock only. -/
theorem sea_level_after_stop (env : Env R C K) (g : Curve K) (ps : List (Process K))
    (hn : (ps.map Process.name).Nodup) (porosity : ProcState R C K → K) (start : K)
    (stop : Option K) (step : K) (hstep : 0 < step) (s : ProcState R C K × World R (C + 2) K)
    (hg : ∀ curve t0, .seaLevel curve t0 ∈ ps → ∀ t, start < t → (∀ T, stop = some T → t ≤ T) →
      g t = curve t)
    (m : ModelState (ProcState R C K) R (C + 2) K) (hm : packageInit env ps start s = .ok m)
    (fuel : ℕ) :
    runLoop (stepOf env (ps.map (withCurve g)) porosity) fuel (Clock.init start stop step) m =
      runLoop (stepOf env ps porosity) fuel (Clock.init start stop step) m := by
  by_cases hsea : "sea_level" ∈ ps.map Process.name
  swap
  · rw [withCurve_noSea hsea]
  have hstart : m.comps.seaTime = (Clock.init start stop step).time := by
    obtain ⟨p, w1, -, hi⟩ := packageInit_ok hm
    unfold modelInit at hi
    split at hi
    · dsimp only at hi
      split at hi
      · cases hi
      · cases hi; rfl
    · cases hi
    · cases hi
  have h0 : start ≤ (Clock.init start stop step).time := le_rfl
  have h1 : (Clock.init start stop step).step = step := rfl
  have h2 : (Clock.init start stop step).stop = stop := rfl
  clear hm
  generalize Clock.init start stop step = c at *
  induction fuel generalizing c m with
  | zero => rfl
  | succ fuel ih =>
    rw [runLoop, runLoop]
    unfold runOneStep
    rcases ha : c.advance with ⟨c1, e | u⟩
    · cases e <;> rfl
    · dsimp only
      obtain ⟨a1, a2, a3⟩ := advance_kept ha
      have hle : ∀ T, stop = some T → m.comps.seaTime + effectiveStep c.step none ≤ T := by
        intro T hT
        unfold Clock.advance at ha
        rw [h2, hT] at ha
        dsimp only at ha
        split_ifs at ha with hlt
        · cases ha
        · rw [hstart]; exact not_lt.mp hlt
      obtain ⟨k1, k2⟩ := step_withCurve env g hn porosity (time := c1.time)
        (dt := effectiveStep c.step none) (m := m) fun curve t0 hm =>
          hg curve t0 hm _ (by rw [hstart]; simp only [effectiveStep]; linarith) hle
      rw [k1]
      cases hs : stepOf env ps porosity c1.time (effectiveStep c.step none) m with
      | error e => cases e <;> rfl
      | ok m1 =>
        dsimp only
        refine ih m1 c1 ?_ ?_ (a2.trans h1) (a3.trans h2)
        · rw [k2 m1 hs hsea, hstart, a1]; rfl
        · rw [a1, h1]; linarith

end

/-! ### Later sections -/

theorem bisectRight_later {xs ys : List ℚ} (hs : (xs ++ ys).Pairwise (· ≤ ·)) {v : ℚ}
    (hv : ∀ y ∈ ys, v < y) : bisectRight (xs ++ ys) v = bisectRight xs v := by
  have hx : xs.Pairwise (· ≤ ·) := (List.pairwise_append.mp hs).1
  obtain ⟨b1, -, -⟩ := bisectRight_spec (xs ++ ys) v hs
  obtain ⟨a1, -, -⟩ := bisectRight_spec xs v hx
  rw [List.length_append] at b1
  refine le_antisymm ?_ ?_
  · by_contra hlt
    push Not at hlt
    have hi : bisectRight xs v < (xs ++ ys).length := by rw [List.length_append]; omega
    have h1 := (bisectRight_lt_iff (xs ++ ys) v hs _ hi).mp hlt
    by_cases hi' : bisectRight xs v < xs.length
    · rw [List.getElem_append_left hi'] at h1
      exact lt_irrefl _ ((bisectRight_lt_iff xs v hx _ hi').mpr h1)
    · rw [List.getElem_append_right (not_lt.mp hi')] at h1
      exact absurd (hv _ (List.getElem_mem _)) (not_lt.mpr h1)
  · by_contra hlt
    push Not at hlt
    have hi' : bisectRight (xs ++ ys) v < xs.length := by omega
    have hi : bisectRight (xs ++ ys) v < (xs ++ ys).length := by rw [List.length_append]; omega
    have h1 := (bisectRight_lt_iff xs v hx _ hi').mp hlt
    have h2 := (bisectRight_lt_iff (xs ++ ys) v hs _ hi).mpr
      (by rw [List.getElem_append_left hi']; exact h1)
    exact lt_irrefl _ h2

/-- What a configuration has to satisfy for later sections to be possible. -/
structure TimesFit (lt : List ℚ) (c : Cfg) : Prop where
  sorted : (c.times ++ lt).Pairwise (· ≤ ·)
  length : c.times.length ≤ c.dicts.length

theorem call_later {lt : List ℚ} {ld : List Flat} {c : Cfg} (hc : TimesFit lt c) {t : ℚ}
    (ht : ∀ y ∈ lt, t < y) : (withLater lt ld c).call t = c.call t := by
  unfold Cfg.call Cfg.bisectTimes withLater
  dsimp only
  rw [bisectRight_later hc.sorted ht, List.take_append_of_le_length]
  exact (bisectRight_spec c.times t (List.pairwise_append.mp hc.sorted).1).1.trans hc.length

theorem update_later {lt : List ℚ} {ld : List Flat} {c : Cfg} (hc : TimesFit lt c) {inc : ℚ}
    (hi : 0 ≤ inc) (ht : ∀ y ∈ lt, c.time + inc < y) :
    (withLater lt ld c).update inc = (c.update inc).map fun r => (r.1, withLater lt ld r.2) := by
  have ht0 : ∀ y ∈ lt, c.time < y := fun y hy => lt_of_le_of_lt (by linarith) (ht y hy)
  have hb : ∀ t, (∀ y ∈ lt, t < y) → (withLater lt ld c).bisectTimes t = c.bisectTimes t :=
    fun t h => bisectRight_later hc.sorted h
  have htime : (withLater lt ld c).time = c.time := rfl
  unfold Cfg.update
  dsimp only
  rw [htime, hb _ ht, hb _ ht0]
  split_ifs
  · unfold Cfg.diff
    dsimp only
    rw [call_later hc ht, call_later hc ht0]
    split_ifs
    · dsimp only
      cases Doc.expand _ <;> rfl
    · rfl
  · rfl

theorem update_keeps {c c' : Cfg} {inc : ℚ} {d : Doc} (h : c.update inc = .ok (d, c')) :
    c'.times = c.times ∧ c'.dicts = c.dicts ∧ c'.time = c.time + inc := by
  unfold Cfg.update at h
  dsimp only at h
  split_ifs at h
  · split at h
    · cases h
    · split at h
      · cases h
      · cases h; exact ⟨rfl, rfl, rfl⟩
  · cases h; exact ⟨rfl, rfl, rfl⟩

theorem liveRound_later {K : Type*} [Field K] [LinearOrder K] {R C : ℕ} {A : Type*}
    {env : Env R C K} {inp : Inputs K} {lt : List ℚ} {ld : List Flat} {c : Cfg} {l : Live R C K A}
    (hc : TimesFit lt c) (ht : ∀ y ∈ lt, c.time + 1 < y) :
    liveRound env inp (withLater lt ld c, l) =
      (liveRound env inp (c, l)).map fun s => (withLater lt ld s.1, s.2) := by
  unfold liveRound
  dsimp only
  rw [update_later hc (by norm_num) ht]
  cases c.update 1 with
  | error e => rfl
  | ok r =>
    obtain ⟨d, c'⟩ := r
    simp only [Except.map]
    cases l.setParams env inp d <;> rfl

theorem liveRound_cfg {K : Type*} [Field K] [LinearOrder K] {R C : ℕ} {A : Type*}
    {env : Env R C K} {inp : Inputs K} {s s' : Cfg × Live R C K A}
    (h : liveRound env inp s = .ok s') :
    s'.1.times = s.1.times ∧ s'.1.dicts = s.1.dicts ∧ s'.1.time = s.1.time + 1 := by
  unfold liveRound at h
  split at h
  · cases h
  rename_i d c' hu
  split at h
  · cases h
  cases h
  exact update_keeps hu

section

variable {K : Type} [Field K] [LinearOrder K] [IsStrictOrderedRing K]

/-- The loop, if the clock stops before the later sections. -/
theorem liveRun_later {R C : ℕ} {A : Type*} (env : Env R C K) (inp : Inputs K)
    (view : ProcState R C K → World R (C + 2) K → GridView A) (porosity : LiveState R C K A → K)
    {lt : List ℕ} {ld : List Flat} {start stop step : K} (hstep : 0 < step)
    (hlate : ∀ n ∈ lt, stop < start + n * step) (fuel : ℕ) (ck : Clock K) (c : Cfg)
    (l : Live R C K A) (hc : TimesFit (lt.map fun n : ℕ => (n : ℚ)) c) (j : ℕ) (hj : c.time = j)
    (h1 : ck.time = start + j * step) (h2 : ck.step = step) (h3 : ck.stop = some stop) :
    liveRun env inp view porosity fuel ck (withLater (lt.map fun n : ℕ => (n : ℚ)) ld c, l) =
      (liveRun env inp view porosity fuel ck (c, l)).map fun r =>
        (r.1, r.2.map fun s => (withLater (lt.map fun n : ℕ => (n : ℚ)) ld s.1, s.2)) := by
  induction fuel generalizing ck c l j with
  | zero => rfl
  | succ fuel ih =>
    rw [liveRun, cliLoop, cliLoop]
    unfold runOneStep
    rcases ha : ck.advance with ⟨ck1, e | u⟩
    · cases e <;> rfl
    · dsimp only
      obtain ⟨a1, a2, a3⟩ := advance_clock ha
      have hle : start + (j + 1 : ℕ) * step ≤ stop := by
        unfold Clock.advance at ha
        rw [h3] at ha
        dsimp only at ha
        split_ifs at ha with hlt
        · cases ha
        · rw [h1, h2] at hlt
          push_cast
          linarith
      cases hl : l.advance env view porosity ck1.time (effectiveStep ck.step none) with
      | error e => cases e <;> rfl
      | ok l1 =>
        dsimp only
        have ht : ∀ y ∈ lt.map (fun n : ℕ => (n : ℚ)), c.time + 1 < y := by
          intro y hy
          obtain ⟨n, hn, rfl⟩ := List.mem_map.mp hy
          have := hlate n hn
          have h5 : ((j + 1 : ℕ) : K) < n := by
            by_contra hcon
            have := mul_le_mul_of_nonneg_right (not_lt.mp hcon) hstep.le
            linarith
          rw [hj]
          have : j + 1 < n := by exact_mod_cast h5
          exact_mod_cast this
        rw [liveRound_later hc ht]
        cases hr : liveRound env inp (c, l1) with
        | error e => cases e <;> rfl
        | ok s =>
          obtain ⟨c2, l2⟩ := s
          obtain ⟨q1, q2, q3⟩ := liveRound_cfg hr
          dsimp only at q1 q2 q3
          simp only [Except.map]
          exact ih ck1 c2 l2 ⟨by rw [q1]; exact hc.sorted, by rw [q1, q2]; exact hc.length⟩ (j + 1)
            (by rw [q3, hj]; push_cast; rfl) (by rw [a1, h1, h2]; push_cast; ring)
            (a2.trans h2) (a3.trans h3)

/-! ### The setup -/

theorem load_readable {ds : List Doc} (h : ∀ d ∈ ds, Readable d) (i : ℕ) :
    ∃ r, Cfg.load i ds = .ok r ∧ r.length = ds.length := by
  induction ds generalizing i with
  | nil => exact ⟨[], rfl, rfl⟩
  | cons d ds ih =>
    obtain ⟨r, hr, hl⟩ := ih (fun d hd => h d (List.mem_cons_of_mem _ hd)) (i + 1)
    rw [Cfg.load, hr]
    dsimp only
    rcases hf : d.find? "_time" with _ | v
    · exact ⟨_, rfl, by simp [hl]⟩
    · obtain ⟨q, rfl⟩ := h d (List.mem_cons_self ..) v hf
      exact ⟨_, rfl, by simp [hl]⟩

theorem load_length {ds : List Doc} {i : ℕ} {r : List (ℚ × Doc)} (h : Cfg.load i ds = .ok r) :
    r.length = ds.length := by
  induction ds generalizing i r with
  | nil => cases h; rfl
  | cons d ds ih =>
    rw [Cfg.load] at h
    split at h
    · cases h
    · rename_i rest hrest
      split at h
      · cases h; simp [ih hrest]
      · cases h; simp [ih hrest]
      · cases h

theorem loadFiles_readable {files : List (List Doc)} (h : ∀ f ∈ files, ∀ d ∈ f, Readable d) :
    ∃ docs, Cfg.loadFiles files = .ok docs := by
  induction files with
  | nil => exact ⟨[], rfl⟩
  | cons f files ih =>
    obtain ⟨r, hr, -⟩ := load_readable (h f (List.mem_cons_self ..)) 0
    obtain ⟨docs, hd⟩ := ih fun g hg => h g (List.mem_cons_of_mem _ hg)
    exact ⟨_, by rw [Cfg.loadFiles, hr, hd]⟩

theorem loadFiles_append (f1 : List (List Doc)) {f2 : List (List Doc)} {d2 : List Doc}
    (h2 : Cfg.loadFiles f2 = .ok d2) :
    Cfg.loadFiles (f1 ++ f2) = (Cfg.loadFiles f1).map (· ++ d2) := by
  induction f1 with
  | nil => rw [List.nil_append, h2]; rfl
  | cons f fs ih =>
    rw [List.cons_append, Cfg.loadFiles, Cfg.loadFiles, ih]
    cases Cfg.load 0 f with
    | error e => rfl
    | ok r =>
      cases Cfg.loadFiles fs with
      | error e => rfl
      | ok ds => simp [Except.map]

theorem loadFiles_length {files : List (List Doc)} {docs : List Doc}
    (h : Cfg.loadFiles files = .ok docs) (hne : ∀ f ∈ files, f ≠ []) :
    files.length ≤ docs.length := by
  induction files generalizing docs with
  | nil => exact Nat.zero_le _
  | cons f files ih =>
    rw [Cfg.loadFiles] at h
    split at h
    · cases h
    rename_i r hr
    split at h
    · cases h
    rename_i rest hrest
    cases h
    have h1 := load_length hr
    have h2 := ih hrest fun g hg => hne g (List.mem_cons_of_mem _ hg)
    have h3 := List.length_pos_iff.mpr (hne f (List.mem_cons_self ..))
    simp only [List.length_cons, List.length_append, List.length_map]
    omega

/-- Reading the configuration. -/
theorem fromFiles_later {ts late : List ℕ} {files more : List (List Doc)}
    (hs : (ts ++ late).Pairwise (· ≤ ·)) (hne : ts ≠ []) (hlen : ts.length = files.length)
    (hfull : ∀ f ∈ files, f ≠ []) (hread : ∀ f ∈ more, ∀ d ∈ f, Readable d) :
    (∃ err, Cfg.fromFiles files (some (ts.map fun n : ℕ => (n : ℚ))) = .error err ∧
      Cfg.fromFiles (files ++ more) (some ((ts ++ late).map fun n : ℕ => (n : ℚ))) =
        .error err) ∨
    ∃ c ld, Cfg.fromFiles files (some (ts.map fun n : ℕ => (n : ℚ))) = .ok c ∧
      Cfg.fromFiles (files ++ more) (some ((ts ++ late).map fun n : ℕ => (n : ℚ))) =
        .ok (withLater (late.map fun n : ℕ => (n : ℚ)) ld c) ∧
      TimesFit (late.map fun n : ℕ => (n : ℚ)) c ∧ c.time = 0 := by
  obtain ⟨d2, hd2⟩ := loadFiles_readable hread
  have hsq : ((ts.map fun n : ℕ => (n : ℚ)) ++ late.map fun n : ℕ => (n : ℚ)).Pairwise (· ≤ ·) := by
    rw [← List.map_append, List.pairwise_map]
    exact hs.imp fun h => by exact_mod_cast h
  unfold Cfg.fromFiles
  rw [loadFiles_append files hd2]
  cases hd1 : Cfg.loadFiles files with
  | error e => exact .inl ⟨e, rfl, rfl⟩
  | ok d1 =>
    have hl := loadFiles_length hd1 hfull
    cases d1 with
    | nil =>
      have := List.length_pos_iff.mpr hne
      simp only [List.length_nil] at hl
      omega
    | cons a d1 =>
      refine .inr ⟨⟨ts.map fun n : ℕ => (n : ℚ), freezeFlat a.flatten ::
        d1.map fun d => freezeFlat d.flatten, 0, freezeFlat a.flatten⟩,
        d2.map fun d => freezeFlat d.flatten, rfl, ?_, ⟨hsq, ?_⟩, rfl⟩
      · simp only [Except.map, Cfg.init, List.cons_append, List.map_cons, List.map_append, withLater]
      · simp only [List.length_map, List.length_cons] at hl ⊢
        omega

/-- The setup with later files gives the same error or the same model with a longer
configuration. -/
theorem setup_later (ext : Externals K) {ts late : List ℕ} {files more : List (List Doc)}
    (hs : (ts ++ late).Pairwise (· ≤ ·)) (hne : ts ≠ []) (hlen : ts.length = files.length)
    (hfull : ∀ f ∈ files, f ≠ []) (hread : ∀ f ∈ more, ∀ d ∈ f, Readable d)
    (fs : FileSystem K (Option K)) :
    (∃ fs' err, runSetup ext ts files fs = (fs', .error err) ∧
      runSetup ext (ts ++ late) (files ++ more) fs = (fs', .error err)) ∨
    ∃ fs' m ld, runSetup ext ts files fs = (fs', .ok m) ∧
      runSetup ext (ts ++ late) (files ++ more) fs = (fs', .ok { m with
        cfg := withLater (late.map fun n : ℕ => (n : ℚ)) ld m.cfg }) ∧
      TimesFit (late.map fun n : ℕ => (n : ℚ)) m.cfg ∧ m.cfg.time = 0 := by
  unfold runSetup
  rw [if_neg hne, if_neg (by simp [hne])]
  have hprep : (∃ err, prepare ext ts files = .error err ∧
        prepare ext (ts ++ late) (files ++ more) = .error err) ∨
      ∃ c ld d', prepare ext ts files = prepareFrom ext c d' ∧
        prepare ext (ts ++ late) (files ++ more) = (prepareFrom ext c d').map
          (Prepared.withCfg (withLater (late.map fun n : ℕ => (n : ℚ)) ld c)) ∧
        TimesFit (late.map fun n : ℕ => (n : ℚ)) c ∧ c.time = 0 := by
    rw [prepare_eq, prepare_eq]
    rcases fromFiles_later hs hne hlen hfull hread with ⟨err, h1, h2⟩ | ⟨c, ld, h1, h2, hfit, hz⟩
    · rw [h1, h2]
      exact .inl ⟨err, rfl, rfl⟩
    · rw [h1, h2]
      simp only [bind, Except.bind]
      have hd : (withLater (late.map fun n : ℕ => (n : ℚ)) ld c).asDict = c.asDict := rfl
      rw [hd]
      cases he : c.asDict with
      | error e => exact .inl ⟨e, rfl, rfl⟩
      | ok d' =>
        have hdis := Doc.distinct_erase (Doc.expand_from he).1 "plot"
        refine .inr ⟨c, ld, d'.erase "plot", rfl, ?_, hfit, hz⟩
        exact prepareFrom_congr ext _ _ hdis hdis rfl rfl rfl rfl rfl fun _ _ _ _ => rfl
  rcases hprep with ⟨err, h1, h2⟩ | ⟨c, ld, d', h1, h2, hfit, hz⟩
  · rw [h1, h2]
    exact .inl ⟨fs, err, rfl, rfl⟩
  · rw [h1, h2]
    cases hp : prepareFrom ext c d' with
    | error err => exact .inl ⟨fs, err, rfl, rfl⟩
    | ok p =>
      have hcfg : ∀ q m, p.finish q = .ok m → m.cfg = c := by
        unfold prepareFrom at hp
        simp only [bind, Except.bind] at hp
        iterate 12 (split at hp; · cases hp)
        cases hp
        intro q m hm
        dsimp only at hm
        split at hm
        · cases hm
        · cases hm; rfl
      simp only [Except.map, Prepared.withCfg]
      split
      · exact .inl ⟨_, _, rfl, rfl⟩
      · split
        · exact .inl ⟨_, _, rfl, rfl⟩
        · rename_i fs' writer _ _ rows _
          cases hf : p.finish (writer, fs') with
          | error err => exact .inl ⟨fs', err, rfl, rfl⟩
          | ok m =>
            have hm := hcfg _ _ hf
            refine .inr ⟨fs', m, ld, rfl, ?_, ?_, ?_⟩
            · rw [hm]
            · rw [hm]; exact hfit
            · rw [hm, hz]

theorem withLater_inj {lt : List ℚ} {ld : List Flat} {c c' : Cfg}
    (h : withLater lt ld c = withLater lt ld c') : c = c' := by
  cases c
  cases c'
  simp only [withLater, Cfg.mk.injEq, List.append_cancel_right_eq] at h
  obtain ⟨rfl, rfl, rfl, rfl⟩ := h
  rfl

theorem passes_later {m : Ready K} {lt : List ℚ} {ld : List Flat} {n : ℚ}
    (hfit : TimesFit lt m.cfg) (hn : ∀ y ∈ lt, n < y) {ck : Clock K}
    {s : Cfg × Live m.R m.C K (Option K)} (h : Passes m ck s) (hs : s.1.time ≤ n) :
    TimesFit lt s.1 ∧ Passes { m with cfg := withLater lt ld m.cfg } ck (withLater lt ld s.1, s.2) := by
  induction h with
  | start => exact ⟨hfit, .start⟩
  | step h1 h2 ih =>
    obtain ⟨k1, k2⟩ := ih hs
    exact ⟨k1, .step k2 h2⟩
  | @change ck s s' h1 h2 ih =>
    obtain ⟨q1, q2, q3⟩ := liveRound_cfg h2
    obtain ⟨k1, k2⟩ := ih (by rw [q3] at hs; linarith)
    refine ⟨⟨by rw [q1]; exact k1.sorted, by rw [q1, q2]; exact k1.length⟩, .change k2 ?_⟩
    have := liveRound_later (env := m.env) (inp := m.inp) (ld := ld) (l := s.2) k1 fun y hy => by
      rw [← q3]; exact lt_of_le_of_lt hs (hn y hy)
    rw [h2] at this
    exact this

theorem passes_earlier {m : Ready K} {lt : List ℚ} {ld : List Flat} {n : ℚ}
    (hfit : TimesFit lt m.cfg) (hn : ∀ y ∈ lt, n < y) {ck : Clock K}
    {s : Cfg × Live ({ m with cfg := withLater lt ld m.cfg } : Ready K).R
      ({ m with cfg := withLater lt ld m.cfg } : Ready K).C K (Option K)}
    (h : Passes { m with cfg := withLater lt ld m.cfg } ck s) (hs : s.1.time ≤ n) :
    ∃ c, s.1 = withLater lt ld c ∧ TimesFit lt c ∧ Passes m ck (c, s.2) := by
  induction h with
  | start => exact ⟨m.cfg, rfl, hfit, .start⟩
  | step h1 h2 ih =>
    obtain ⟨c, k1, k2, k3⟩ := ih hs
    exact ⟨c, k1, k2, .step k3 h2⟩
  | @change ck s s' h1 h2 ih =>
    obtain ⟨q1, q2, q3⟩ := liveRound_cfg h2
    obtain ⟨c, k1, k2, k3⟩ := ih (by rw [q3] at hs; linarith)
    obtain ⟨c0, l⟩ := s
    dsimp only at k1
    subst k1
    have ht : c.time + 1 = s'.1.time := q3.symm
    have hr := liveRound_later (env := m.env) (inp := m.inp) (ld := ld) (l := l) k2 fun y hy => by
      rw [ht]; exact lt_of_le_of_lt hs (hn y hy)
    have h2' : liveRound m.env m.inp (withLater lt ld c, l) = .ok s' := h2
    rw [hr] at h2'
    cases h3 : liveRound m.env m.inp (c, l) with
    | error e => rw [h3] at h2'; cases h2'
    | ok s1 =>
      rw [h3] at h2'
      cases h2'
      obtain ⟨p1, p2, p3⟩ := liveRound_cfg h3
      exact ⟨s1.1, rfl, ⟨by rw [p1]; exact k2.sorted, by rw [p1, p2]; exact k2.length⟩,
        .change k3 h3⟩

theorem runSetup_clock {ext : Externals K} {times : List ℕ} {files : List (List Doc)}
    {fs fs' : FileSystem K (Option K)} {m : Ready K}
    (h : runSetup ext times files fs = (fs', .ok m)) : m.clock.time = m.clock.start := by
  obtain ⟨docs, c, e, -, -, -, hm⟩ := runSetup_made h
  cases hm with
  | mk hgrid hbathy hinfo hw hnames hclock houtput hdx hx hcreate htime hargs hpor hrows hwriter
      hms =>
    dsimp only
    unfold loadClock at htime
    simp only [bind, Except.bind] at htime
    iterate 4 (split at htime; · cases htime)
    cases htime
    rfl

/-! ### C113 -/

/-- C113, the configuration: files for later times make no difference to what `sequence run` goes
through before. With them the setup fails with the same error or makes the same model (`ld` is what
the files say); up to round `n` the run goes through the same states if all of the further files are
for later times. -/
theorem sections_to_come (ext : Externals K) (ts late : List ℕ) (files more : List (List Doc))
    (hs : (ts ++ late).Pairwise (· ≤ ·)) (hne : ts ≠ []) (hlen : ts.length = files.length)
    (hfull : ∀ f ∈ files, f ≠ []) (hread : ∀ f ∈ more, ∀ d ∈ f, Readable d)
    (fs : FileSystem K (Option K)) :
    (∃ fs' err, runSetup ext ts files fs = (fs', .error err) ∧
      runSetup ext (ts ++ late) (files ++ more) fs = (fs', .error err)) ∨
    ∃ fs' m ld, runSetup ext ts files fs = (fs', .ok m) ∧
      runSetup ext (ts ++ late) (files ++ more) fs = (fs', .ok { m with
        cfg := withLater (late.map fun n : ℕ => (n : ℚ)) ld m.cfg }) ∧
      ∀ (n : ℕ), (∀ t ∈ late, n < t) → ∀ ck (c : Cfg) l, c.time ≤ n →
        (Passes m ck (c, l) ↔
          Passes { m with cfg := withLater (late.map fun n : ℕ => (n : ℚ)) ld m.cfg } ck
            (withLater (late.map fun n : ℕ => (n : ℚ)) ld c, l)) := by
  rcases setup_later ext hs hne hlen hfull hread fs with h | ⟨fs', m, ld, h1, h2, hfit, hz⟩
  · exact .inl h
  refine .inr ⟨fs', m, ld, h1, h2, fun n hn ck c l hc => ?_⟩
  have hlate : ∀ y ∈ late.map (fun n : ℕ => (n : ℚ)), (n : ℚ) < y := by
    intro y hy
    obtain ⟨t, ht, rfl⟩ := List.mem_map.mp hy
    exact_mod_cast hn t ht
  exact ⟨fun h => (passes_later hfit hlate h hc).2, fun h => by
    obtain ⟨c', h1, -, h2⟩ := passes_earlier hfit hlate h hc
    rw [withLater_inj h1]
    exact h2⟩

/-- C113: files for times after the end of the run make no difference to `sequence run` at all. -/
theorem files_after_stop [FloorRing K] (ext : Externals K) (entries entries' : List (List Char))
    (contents : List Char → List Doc) (hn : entries.Nodup) (hn' : entries'.Nodup) {ts late : List ℕ}
    {names lateNames : List (List Char)} (h : findConfigFiles entries = (ts, names))
    (h' : findConfigFiles entries' = (ts ++ late, names ++ lateNames)) (hne : names ≠ [])
    (hfull : ∀ n ∈ names, contents n ≠ [])
    (hread : ∀ n ∈ lateNames, ∀ d ∈ contents n, Readable d) (fs : FileSystem K (Option K))
    (hend : ∀ fs' m, runSetup ext ts (names.map contents) fs = (fs', .ok m) → 0 < m.clock.step ∧
      ∃ stop, m.clock.stop = some stop ∧ ∀ t ∈ late, stop < m.clock.start + t * m.clock.step)
    (dryRun : Bool) (fuel : ℕ) :
    runCommand ext entries' contents dryRun fuel fs =
      runCommand ext entries contents dryRun fuel fs := by
  have hs : (ts ++ late).Pairwise (· ≤ ·) := by
    have := (config_files_found entries' hn').2.2.2.1
    rwa [h'] at this
  have hlen : ts.length = names.length := by
    have := (config_files_found entries hn).2.2.1
    rwa [h] at this
  unfold runCommand
  rw [h, h']
  dsimp only
  rw [List.map_append]
  rcases setup_later ext (files := names.map contents) (more := lateNames.map contents) hs
      (by rintro rfl; exact hne (List.length_eq_zero_iff.mp hlen.symm))
      (by rw [List.length_map, hlen])
      (fun f hf => by obtain ⟨n, hn, rfl⟩ := List.mem_map.mp hf; exact hfull n hn)
      (fun f hf => by obtain ⟨n, hn, rfl⟩ := List.mem_map.mp hf; exact hread n hn) fs with
    ⟨fs', err, h1, h2⟩ | ⟨fs', m, ld, h1, h2, hfit, hz⟩
  · rw [h1, h2]
  · rw [h1, h2]
    dsimp only
    cases dryRun
    swap
    · rfl
    simp only [Bool.false_eq_true, if_false]
    obtain ⟨hstep, stop, hstop, hlate⟩ := hend fs' m h1
    have hclock : m.clock.time = m.clock.start := runSetup_clock h1
    have hrun := liveRun_later m.env m.inp m.view (fun _ => m.porosity) (ld := ld) hstep hlate fuel
      m.clock m.cfg m.live hfit 0 (by rw [hz]; rfl) (by rw [hclock]; simp) rfl hstop
    unfold Ready.run
    dsimp only
    rw [hrun]
    cases progressTotal m.clock with
    | error err => rfl
    | ok n =>
      dsimp only
      rcases liveRun m.env m.inp m.view (fun _ => m.porosity) fuel m.clock (m.cfg, m.live) with
        _ | ⟨ck, e | ⟨c1, l1⟩⟩ <;> rfl

end

/-! ### Concrete cases -/

/-- A sea that falls faster after the first two steps. -/
def exTurn : Curve ℚ := fun t => .ok (if t ≤ 200 then 1/2 - t / 1000 else 1/2 - t / 100)

/-- The processes of C95 with distinct names. -/
theorem exProcs_nodup : (exProcs.map Process.name).Nodup := by decide +kernel

/-- C113: two steps of 100 years are the same with both curves, the third is not. -/
example : (∃ m, packageInit exEnv exProcs 0 (exProcState, exBeach) = .ok m ∧
    runSteps (stepOf exEnv (exProcs.map (withCurve exTurn)) fun _ => 1/2) (Clock.init 0 none 100) m
      [none, none] =
    runSteps (stepOf exEnv exProcs fun _ => 1/2) (Clock.init 0 none 100) m [none, none]) ∧
    exTurn 300 ≠ .ok (1/2 - 300 / 1000) := by
  refine ⟨?_, by decide +kernel⟩
  have h : (packageInit exEnv exProcs 0 (exProcState, exBeach)).toOption.isSome = true := by
    decide +kernel
  cases hm : packageInit exEnv exProcs 0 (exProcState, exBeach) with
  | error e => rw [hm] at h; cases h
  | ok m =>
    refine ⟨m, rfl, (sea_level_to_come exEnv exTurn exProcs exProcs_nodup (fun _ => 1/2) 0
      (exProcState, exBeach)).2 m hm _ _ ?_⟩
    intro curve t0 hmem t ht
    have hc : curve = fun t => .ok (1/2 - t / 1000) := by
      simp [exProcs, requiredToo, Process.name] at hmem
      simpa using hmem.1
    subst hc
    simp [timesReached, Clock.init] at ht
    rcases ht with rfl | rfl <;> simp [exTurn] <;> norm_num

/-- C113: a file for round 7 that changes the grid, which no run survives, has no effect on a run of two
rounds. -/
example : runCommand exExt ["sequence0.toml".toList, "sequence7.toml".toList]
      (exContents (exConfig (exOutSection "out.nc" false) .nil)
        [.sub "grid" (.leaf "n_cols" (.num 5) .nil) .nil]) false 5 exRunFiles =
    runCommand exExt ["sequence0.toml".toList]
      (exContents (exConfig (exOutSection "out.nc" false) .nil)
        [.sub "grid" (.leaf "n_cols" (.num 5) .nil) .nil]) false 5 exRunFiles := by
  refine files_after_stop exExt _ _ _ (by decide) (by decide) (ts := [0]) (late := [7])
    (names := ["sequence0.toml".toList]) (lateNames := ["sequence7.toml".toList])
    (by decide +kernel) (by decide +kernel) (by simp) ?_ ?_ exRunFiles ?_ false 5
  · intro n hn
    rw [List.mem_singleton] at hn
    subst hn
    simp [exContents]
  · intro n hn d hd
    rw [List.mem_singleton] at hn
    subst hn
    simp [exContents] at hd
    subst hd
    intro v hv
    simp [Doc.find?] at hv
  · intro fs' m hm
    have h : ((runSetup exExt [0] [[exConfig (exOutSection "out.nc" false) .nil]] exRunFiles).2.map
        fun m => m.clock).toOption = some (Clock.init 0 (some 200) 100) := by decide +kernel
    simp only [List.map_cons, List.map_nil, exContents, if_true] at hm
    rw [hm] at h
    have hc : m.clock = Clock.init 0 (some 200) 100 := by
      simpa [Except.map, Except.toOption] using h
    rw [hc]
    refine ⟨by norm_num [Clock.init], 200, rfl, ?_⟩
    intro t ht
    rw [List.mem_singleton] at ht
    subst ht
    norm_num [Clock.init]

end Verif.Props
