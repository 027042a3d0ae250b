import Verif.Props.Order

/-!
# Processes that have nothing to do (C131)

A simulation with a subsidence file of zeros, or with a compaction that finds nothing to compact,
is the simulation without the process.
-/

set_option autoImplicit false
set_option linter.unusedSectionVars false

namespace Verif.Props

open Spec

variable {K : Type*} {R C : ℕ} [Field K] [LinearOrder K] [IsStrictOrderedRing K]

/-- The field of increments of the bedrock is there. -/
def withIncrement (s : Whole R C K) : Whole R C K :=
  (s.1, { s.2 with increment := addZeros s.2.increment })

theorem addZeros_twice {C : ℕ} (f : Option (NodeField R C K)) : addZeros (addZeros f) = addZeros f := by
  cases f <;> rfl

theorem withIncrement_of_some {s : Whole R C K} (h : s.2.increment.isSome) : withIncrement s = s := by
  obtain ⟨q, w⟩ := s
  obtain ⟨f, hf⟩ := Option.isSome_iff_exists.mp h
  unfold withIncrement
  dsimp only at hf ⊢
  rw [hf]
  show (q, { w with increment := some f }) = _
  rw [← hf]

theorem create_withIncrement (env : Env R C K) (p : Process K) (s : Whole R C K) :
    p.create env (withIncrement s) = (p.create env s).map withIncrement := by
  obtain ⟨q, w⟩ := s
  cases p with
  | seaLevel curve start => rfl
  | subsidence curve =>
    simp only [Process.create]
    cases subsidenceRate curve env.x <;> rfl
  | compaction => rfl
  | diffusion P =>
    simp only [Process.create, diffuserInit]
    by_cases h : P.plainSlope = 0
    · simp only [if_pos h]; rfl
    · simp only [if_neg h]; rfl
  | fluvial P => rfl
  | flexure t =>
    simp only [Process.create]
    cases flexPoolInit R (C + 2) t <;> rfl
  | waterFlexure t =>
    simp only [Process.create]
    cases flexPoolInit R (C + 2) t <;> rfl
  | shoreline alpha =>
    simp only [Process.create, shorelineInit, shorelineUpdate, withIncrement]
    cases overRows (fun r => shorelineFinderRow env.kind env.xtol env.rtol alpha false
      (List.ofFn env.x) (rowList w.topo r) (rowList w.deposit r) w.seaLevel) <;> rfl

theorem createAll_withIncrement (env : Env R C K) (ps : List (Process K)) (s : Whole R C K) :
    createAll env ps (withIncrement s) = (createAll env ps s).map withIncrement := by
  induction ps generalizing s with
  | nil => rfl
  | cons p ps ih =>
    simp only [createAll, create_withIncrement]
    cases p.create env s with
    | error e => rfl
    | ok s' => exact ih s'

/-- Only the subsidence has a rate. -/
theorem create_rate {env : Env R C K} {p : Process K} (hp : p.name ≠ "subsidence")
    {s s' : Whole R C K} (h : p.create env s = .ok s') : s'.1.rate = s.1.rate := by
  cases p with
  | seaLevel curve start => cases h; rfl
  | subsidence curve => exact absurd rfl hp
  | compaction => cases h; rfl
  | diffusion P =>
    simp only [Process.create] at h
    split at h
    · cases h
    · cases h; rfl
  | fluvial P => cases h; rfl
  | flexure t =>
    simp only [Process.create] at h
    split at h
    · cases h
    · cases h; rfl
  | waterFlexure t =>
    simp only [Process.create] at h
    split at h
    · cases h
    · cases h; rfl
  | shoreline alpha =>
    simp only [Process.create] at h
    split at h
    · cases h
    · cases h; rfl

theorem createAll_rate {env : Env R C K} {ps : List (Process K)}
    (hp : "subsidence" ∉ ps.map Process.name) {s s' : Whole R C K}
    (h : createAll env ps s = .ok s') : s'.1.rate = s.1.rate := by
  induction ps generalizing s with
  | nil => cases h; rfl
  | cons p ps ih =>
    rw [List.map_cons, List.mem_cons, not_or] at hp
    rw [createAll] at h
    cases hc : p.create env s with
    | error e => rw [hc] at h; cases h
    | ok s1 =>
      rw [hc] at h
      rw [ih hp.2 h, create_rate (fun e => hp.1 e.symm) hc]

theorem component_rate {env : Env R C K} {p : Process K} {dt : K} {s s' : Whole R C K}
    (h : p.component env dt s = .ok s') : s'.1.rate = s.1.rate := by
  cases p with
  | seaLevel curve start =>
    simp only [Process.component, seaComponent] at h
    split at h
    · cases h
    · cases h; rfl
  | subsidence curve =>
    simp only [Process.component, subsidenceComponent] at h
    split at h
    · cases h
    · cases h; rfl
  | compaction =>
    simp only [Process.component] at h
    split at h
    · cases h
    · cases h; rfl
  | diffusion P =>
    simp only [Process.component, diffuserComponent] at h
    split at h
    · cases h
    · cases h; rfl
  | fluvial P =>
    simp only [Process.component, fluvialComponent] at h
    split at h
    · cases h
    · cases h; rfl
  | flexure t =>
    simp only [Process.component, flexComponent] at h
    split at h
    · cases h
    · cases h; rfl
  | waterFlexure t =>
    simp only [Process.component, flexComponent] at h
    split at h
    · cases h
    · cases h; rfl
  | shoreline alpha =>
    simp only [Process.component, shorelineComponent] at h
    split at h
    · cases h
    · cases h; rfl

theorem runComponents_rate {env : Env R C K} {ps : List (Process K)} {dt : K} {s s' : Whole R C K}
    (h : runComponents (ps.map (Process.component env)) dt s = .ok s') : s'.1.rate = s.1.rate := by
  induction ps generalizing s with
  | nil => cases h; rfl
  | cons p ps ih =>
    rw [List.map_cons, runComponents] at h
    cases hc : p.component env dt s with
    | error e => rw [hc] at h; cases h
    | ok s1 =>
      rw [hc] at h
      rw [ih h, component_rate hc]

/-- What makes a subsidence without rates idle. -/
def Still (s : Whole R C K) : Prop := s.2.increment.isSome ∧ s.1.rate = fun _ => 0

theorem still_component {env : Env R C K} {p : Process K} {dt : K} {s s' : Whole R C K}
    (hs : Still s) (h : p.component env dt s = .ok s') : Still s' :=
  ⟨(frame_provides (component_frame (q := s.1) (w := s.2) (q' := s'.1) (w' := s'.2) h)).increment hs.1,
    (component_rate h).trans hs.2⟩

theorem still_idle {env : Env R C K} {curve : Curve K} {dt : K} {s : Whole R C K} (hs : Still s) :
    (Process.subsidence curve).component env dt s = .ok s := by
  obtain ⟨q, w⟩ := s
  obtain ⟨f, hf⟩ := Option.isSome_iff_exists.mp hs.1
  have hr : q.rate = fun _ => 0 := hs.2
  dsimp only at hf
  simp only [Process.component, subsidenceComponent, subsidenceStep, hf, hr]
  have : (setProfile f fun r c => getProfile f r c + 0 * dt) = f := by
    funext n
    unfold setProfile
    cases ha : activeIndex n.1 with
    | none => rfl
    | some r =>
      dsimp only
      rw [zero_mul, add_zero]
      unfold getProfile
      congr 1
      obtain ⟨a, b⟩ := n
      unfold activeIndex at ha
      dsimp only at ha ⊢
      split at ha
      · rename_i h
        cases ha
        refine Prod.ext (Fin.ext ?_) rfl
        show a.val - 1 + 1 = a.val
        omega
      · cases ha
  rw [this]
  show Except.ok (q, { w with increment := some f }) = _
  rw [← hf]

/-- Leaving out an idle process of a list. -/
theorem runComponents_skip {σ : Type*} {R C : ℕ} {comps comps' : List (Component σ R C K)}
    {c : Component σ R C K} {dt : K} {P : σ × World R C K → Prop} (hc : ∀ s, P s → c dt s = .ok s)
    (hP : ∀ d ∈ comps, ∀ s s', P s → d dt s = .ok s' → P s') {s : σ × World R C K} (hs : P s) :
    runComponents (comps ++ c :: comps') dt s = runComponents (comps ++ comps') dt s := by
  induction comps generalizing s with
  | nil => simp only [List.nil_append, runComponents, hc s hs]
  | cons d comps ih =>
    simp only [List.cons_append, runComponents]
    cases hd : d dt s with
    | error e => rfl
    | ok s' => exact ih (fun d' hd' => hP d' (by simp [hd'])) (hP d (by simp) s s' hs hd)

theorem advance_still {env : Env R C K} {ps : List (Process K)} {porosity : ProcState R C K → K}
    {time dt : K} {s s' : ModelState (ProcState R C K) R (C + 2) K} (hs : Still (s.comps, s.world))
    (h : advanceComponents (ps.map (Process.component env)) porosity time dt s = .ok s') :
    Still (s'.comps, s'.world) := by
  refine ⟨(advance_provides h).increment hs.1, ?_⟩
  obtain ⟨p, w, ev, w3, a, h1, h2, h3, h4, rfl⟩ := advanceComponents_ok h
  exact (runComponents_rate h1).trans hs.2

/-- The constructor of the model leaves what the processes remember. -/
theorem modelInit_still {start : K} {p : ProcState R C K} {w : World R (C + 2) K}
    {s : ModelState (ProcState R C K) R (C + 2) K}
    (h : modelInit start (fun t (q : ProcState R C K) => { q with seaTime := t }) p w = .ok s)
    (hs : Still (p, w)) : Still (s.comps, s.world) := by
  refine ⟨(modelInit_provides h).increment hs.1, ?_⟩
  have : s.comps = { p with seaTime := start } := by
    unfold modelInit at h
    split at h
    · dsimp only at h
      split at h
      · cases h
      · cases h; rfl
    · cases h
    · cases h
  rw [this]
  exact hs.2

theorem create_all_append (env : Env R C K) (pre post : List (Process K)) (s : Whole R C K) :
    createAll env (pre ++ post) s =
      match createAll env pre s with
      | .error e => .error e
      | .ok s' => createAll env post s' := by
  induction pre generalizing s with
  | nil => rfl
  | cons p pre ih =>
    simp only [List.cons_append, createAll]
    cases p.create env s with
    | error e => rfl
    | ok s' => exact ih s'

/-- C131: a subsidence whose rate is zero everywhere can be left out of a simulation, wherever it
stands in the list: exactly the same runs are possible, with the same grid, the same layers and the
same attributes of all processes after every step. (The fluvial process is always there.) -/
theorem idle_subsidence (env : Env R C K) (pre post : List (Process K)) (curve : Curve K)
    (hcurve : subsidenceRate curve env.x = .ok fun _ => 0)
    (hone : "subsidence" ∉ (pre ++ post).map Process.name)
    (hfl : "fluvial" ∈ (pre ++ post).map Process.name) (start : K)
    (porosity : ProcState R C K → K) (q : ProcState R C K) (hq : q.rate = fun _ => 0)
    (w : World R (C + 2) K) (s : ModelState (ProcState R C K) R (C + 2) K)
    (obs : List (Observation (ProcState R C K) R (C + 2) K))
    (s' : ModelState (ProcState R C K) R (C + 2) K) :
    PackageRun env (pre ++ .subsidence curve :: post) start porosity q w s obs s' ↔
      PackageRun env (pre ++ post) start porosity q w s obs s' := by
  have hfl' : ∀ z, createAll env (pre ++ post) (q, w) = .ok z → z.2.increment.isSome := by
    intro z hz
    obtain ⟨p, hp, hn⟩ := List.mem_map.mp hfl
    have := (createAll_provides _ hz).1 p hp
    cases p <;> simp [Process.name] at hn
    exact this.2
  have hcreate : createAll env (pre ++ .subsidence curve :: post) (q, w) =
      createAll env (pre ++ post) (q, w) := by
    have hmap : createAll env (pre ++ post) (q, w) =
        (createAll env (pre ++ post) (q, w)).map withIncrement := by
      cases hz : createAll env (pre ++ post) (q, w) with
      | error e => rfl
      | ok z =>
        show Except.ok z = Except.ok (withIncrement z)
        rw [withIncrement_of_some (hfl' z hz)]
    rw [hmap, create_all_append, create_all_append]
    cases hpre : createAll env pre (q, w) with
    | error e => rfl
    | ok z =>
      dsimp only
      rw [← createAll_withIncrement, createAll]
      have : (Process.subsidence curve).create env z = .ok (withIncrement z) := by
        simp only [Process.create, hcurve]
        have hr : z.1.rate = fun _ => 0 := (createAll_rate (by
          rw [List.map_append, List.mem_append, not_or] at hone
          exact hone.1) hpre).trans hq
        unfold withIncrement
        rw [← hr]
      rw [this]
  have hinit : packageInit env (pre ++ .subsidence curve :: post) start (q, w) =
      packageInit env (pre ++ post) start (q, w) := by
    unfold packageInit
    rw [hcreate]
  have hrun : ∀ (dt : K) (x : Whole R C K), Still x →
      runComponents ((pre ++ .subsidence curve :: post).map (Process.component env)) dt x =
      runComponents ((pre ++ post).map (Process.component env)) dt x := by
    intro dt x hx
    rw [List.map_append, List.map_cons, List.map_append]
    refine runComponents_skip (P := Still) (fun s hs => still_idle hs) ?_ hx
    intro d hd s s' hs h
    obtain ⟨p, -, rfl⟩ := List.mem_map.mp hd
    exact still_component hs h
  have hstill : packageInit env (pre ++ post) start (q, w) = .ok s → Still (s.comps, s.world) := by
    intro hi
    obtain ⟨p1, w1, hc, hm⟩ := packageInit_ok hi
    exact modelInit_still hm ⟨hfl' _ hc, (createAll_rate hone hc).trans hq⟩
  have hist : ∀ {l l' : List (Process K)}, (∀ (dt : K) (x : Whole R C K), Still x →
      runComponents (l.map (Process.component env)) dt x =
      runComponents (l'.map (Process.component env)) dt x) →
      ∀ {s obs s'}, ModelHistory (l.map (Process.component env)) porosity s obs s' →
      Still (s.comps, s.world) →
      ModelHistory (l'.map (Process.component env)) porosity s obs s' := by
    intro l l' hll s obs s' hr
    induction hr with
    | nil s => intro _; exact .nil s
    | @step s1 _ _ _ dt _ _ _ hc ha hr ih =>
      intro hs
      have h0 : Still (s1.comps, clearDeposit s1.world) := hs
      refine .step ((hll dt _ h0).symm.trans hc) ?_ (ih (advance_still hs ha))
      exact advanceComponents_congr (fun z hz => (hll dt _ h0).symm.trans hz) ha
  constructor
  · rintro ⟨h1, h2, h3⟩
    rw [hinit] at h2
    exact ⟨h1, h2, hist hrun h3 (hstill h2)⟩
  · rintro ⟨h1, h2, h3⟩
    exact ⟨h1, hinit.trans h2, hist (fun dt x hx => (hrun dt x hx).symm) h3 (hstill h2)⟩

/-- C131: a compaction that changes nothing can be left out. (The porosity that new layers get is
that of the list with the compaction in both runs.) -/
theorem idle_compaction (env : Env R C K) (pre post : List (Process K))
    (hidle : ∀ dt l, env.compact dt l = .ok l) (start : K)
    (porosity : ProcState R C K → K) (q : ProcState R C K) (w : World R (C + 2) K)
    (s : ModelState (ProcState R C K) R (C + 2) K)
    (obs : List (Observation (ProcState R C K) R (C + 2) K))
    (s' : ModelState (ProcState R C K) R (C + 2) K) :
    PackageRun env (pre ++ .compaction :: post) start porosity q w s obs s' ↔
      PackageRun env (pre ++ post) start porosity q w s obs s' := by
  have hinit : packageInit env (pre ++ .compaction :: post) start (q, w) =
      packageInit env (pre ++ post) start (q, w) := by
    unfold packageInit
    rw [create_all_append, create_all_append]
    rfl
  have hrun : ∀ (dt : K) (x : Whole R C K),
      runComponents ((pre ++ .compaction :: post).map (Process.component env)) dt x =
      runComponents ((pre ++ post).map (Process.component env)) dt x := by
    intro dt x
    rw [List.map_append, List.map_cons, List.map_append]
    refine runComponents_skip (P := fun _ => True) (fun s _ => ?_) (fun _ _ _ _ _ _ => trivial) trivial
    simp only [Process.component, hidle]
  have hist : ∀ {l l' : List (Process K)}, (∀ (dt : K) (x : Whole R C K),
      runComponents (l.map (Process.component env)) dt x =
      runComponents (l'.map (Process.component env)) dt x) →
      ∀ {s obs s'}, ModelHistory (l.map (Process.component env)) porosity s obs s' →
      ModelHistory (l'.map (Process.component env)) porosity s obs s' := by
    intro l l' hll s obs s' hr
    induction hr with
    | nil s => exact .nil s
    | @step s1 _ _ _ dt _ _ _ hc ha hr ih =>
      exact .step ((hll dt _).symm.trans hc)
        (advanceComponents_congr (fun z hz => (hll dt _).symm.trans hz) ha) ih
  constructor
  · rintro ⟨h1, h2, h3⟩
    exact ⟨h1, hinit.symm.trans h2, hist hrun h3⟩
  · rintro ⟨h1, h2, h3⟩
    exact ⟨h1, hinit.trans h2, hist (fun dt x => (hrun dt x).symm) h3⟩

/-! ### Examples -/

/-- A run with a subsidence of zero, which is therefore a run without. -/
example : ∃ s p w s', PackageRun exEnv
      ([.seaLevel (fun t => .ok (1/2 - t / 1000)) 0, .flexure none, .fluvial exFluvial, .shoreline 1] :
        List (Process ℚ)) 0 (fun _ => 1/2) exProcState exBeach s [⟨100, 100, p, w⟩] s' := by
  obtain ⟨s, p, w, s', h, -⟩ := exPackage_run
    [.seaLevel (fun t => .ok (1/2 - t / 1000)) 0, .flexure none, .subsidence fun _ => .ok 0,
      .fluvial exFluvial, .shoreline 1] (by decide +kernel)
  refine ⟨s, p, w, s', (idle_subsidence exEnv [.seaLevel (fun t => .ok (1/2 - t / 1000)) 0,
    .flexure none] [.fluvial exFluvial, .shoreline 1] (fun _ => .ok 0) ?_ ?_ ?_ 0 _ exProcState rfl
    exBeach s _ s').mp h⟩
  · rfl
  · simp [Process.name]
  · simp [Process.name]

/-- A subsidence that is not zero makes a difference. -/
example : (exPackageStep [.subsidence fun _ => .ok (-1/100), .fluvial exFluvial,
      .shoreline 1]).toOption.map exPackageView ≠
    (exPackageStep [.fluvial exFluvial, .shoreline 1]).toOption.map exPackageView := by
  decide +kernel

/-- The example's compaction halves the layers: another one does nothing. -/
example : ∀ dt l, ({ exEnv with compact := fun _ l => .ok l } : Env 1 1 ℚ).compact dt l = .ok l :=
  fun _ _ => rfl

end Verif.Props
