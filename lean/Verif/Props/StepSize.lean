import Verif.Props.Idle
import Verif.Props.ShoreLag

/-!
# The time step and the state at a time (C147)

Two simulations with other time steps that have come to the same time.
-/

set_option autoImplicit false
set_option linter.unusedSectionVars false

namespace Verif.Props

open Spec

variable {K : Type*} {R C : ℕ} [Field K] [LinearOrder K] [IsStrictOrderedRing K]

/-- The increment of the bedrock at a node. -/
def incAt (w : World R (C + 2) K) (n : Node R (C + 2)) : K := (w.increment.map fun f => f n).getD 0

/-- How much the processes move a node per year. -/
def movesPerYear (rate : Fin (C + 2) → K) (ps : List (Process K)) (n : Node R (C + 2)) : K :=
  (ps.map fun p => if p.name = "subsidence" then
    (match activeIndex n.1 with | some _ => rate n.2 | none => 0) else 0).sum

theorem component_incAt {env : Env R C K} {p : Process K} (hf : p.name ≠ "flexure")
    (hw : p.name ≠ "water_flexure") {dt : K} {q q' : ProcState R C K} {w w' : World R (C + 2) K}
    (h : p.component env dt (q, w) = .ok (q', w')) (n : Node R (C + 2)) :
    incAt w' n = incAt w n + movesPerYear q.rate [p] n * dt := by
  by_cases hp : p.name = "subsidence"
  · cases p with
    | subsidence curve =>
      simp only [Process.component, subsidenceComponent, subsidenceStep] at h
      cases hi : w.increment with
      | none => simp only [hi] at h; cases h
      | some f =>
        simp only [hi] at h
        cases h
        unfold incAt movesPerYear
        rw [hi]
        simp only [Option.map_some, Option.getD_some, List.map_cons, List.map_nil, List.sum_cons,
          List.sum_nil, add_zero, Process.name, if_true]
        unfold setProfile getProfile
        cases ha : activeIndex n.1 with
        | none => simp
        | some r =>
          have : activeRow r = n.1 := by
            unfold activeIndex at ha
            split_ifs at ha with h1
            cases ha
            unfold activeRow
            ext
            simp
            omega
          dsimp only
          rw [this]
    | _ => simp [Process.name] at hp
  · have hfr := (component_frame h).noSubsidence hp hf hw
    unfold incAt movesPerYear
    rw [hfr]
    simp [hp]

theorem components_incAt {env : Env R C K} {ps : List (Process K)}
    (hps : "flexure" ∉ ps.map Process.name ∧ "water_flexure" ∉ ps.map Process.name) {dt : K}
    {q q' : ProcState R C K} {w w' : World R (C + 2) K}
    (h : runComponents (ps.map (Process.component env)) dt (q, w) = .ok (q', w'))
    (n : Node R (C + 2)) : incAt w' n = incAt w n + movesPerYear q.rate ps n * dt := by
  induction ps generalizing q w with
  | nil => cases h; simp [movesPerYear]
  | cons p ps ih =>
    simp only [List.map_cons, List.mem_cons, not_or] at hps
    rw [List.map_cons, runComponents] at h
    cases h1 : p.component env dt (q, w) with
    | error e => rw [h1] at h; cases h
    | ok s =>
      obtain ⟨q1, w1⟩ := s
      rw [h1] at h
      rw [ih ⟨hps.1.2, hps.2.2⟩ h, component_incAt (Ne.symm hps.1.1) (Ne.symm hps.2.1) h1 n]
      have hr : q1.rate = q.rate := component_rate h1
      rw [hr]
      unfold movesPerYear
      simp only [List.map_cons, List.map_nil, List.sum_cons, List.sum_nil]
      ring

/-- The bedrock of a run in which only subsidence moves it. -/
theorem history_bedrock {env : Env R C K} {ps : List (Process K)}
    (hps : "flexure" ∉ ps.map Process.name ∧ "water_flexure" ∉ ps.map Process.name)
    {porosity : ProcState R C K → K} {s s' : ModelState (ProcState R C K) R (C + 2) K}
    {obs : List (Observation (ProcState R C K) R (C + 2) K)}
    (h : ModelHistory (ps.map (Process.component env)) porosity s obs s')
    (hs : ∀ n, incAt s.world n = 0) (n : Node R (C + 2)) :
    s'.world.bedrock n = s.world.bedrock n +
      movesPerYear s.comps.rate ps n * (obs.map fun o => o.dt).sum := by
  induction h with
  | nil s => simp
  | step hc ha hr ih =>
    rename_i s s1 s2 time dt p w obs
    obtain ⟨p', w', ev, w3, a, h1, h2, h3, h4, rfl⟩ := advanceComponents_ok ha
    rw [hc] at h1
    cases h1
    obtain ⟨-, -, -, -, -, hb, hi, -⟩ := updateFields_ok h3
    have hz : ∀ n, incAt ({ w3 with layers := a.layers } : World R (C + 2) K) n = 0 := by
      intro n
      show (w3.increment.map fun f => f n).getD 0 = 0
      rw [hi]
      show ((w.increment.map fun _ _ => (0 : K)).map fun f => f n).getD 0 = 0
      cases w.increment <;> rfl
    have hrate : p.rate = s.comps.rate := runComponents_rate hc
    have hinc : incAt w n = movesPerYear s.comps.rate ps n * dt := by
      rw [components_incAt hps hc n]
      have : incAt (clearDeposit s.world) n = incAt s.world n := rfl
      rw [this, hs n, zero_add]
    have hbed : w.bedrock = s.world.bedrock := by
      have := runComponents_keeps (w := clearDeposit s.world) World.bedrock
        (ps.map (Process.component env)) (fun c hc => by
          obtain ⟨p, -, rfl⟩ := List.mem_map.mp hc
          exact fun dt p w p' w' h => (component_frame h).bedrock) hc
      exact this
    have := ih hz
    dsimp only at this
    rw [this]
    have hb' := hb n
    have hb'' : w3.bedrock n = s.world.bedrock n + incAt w n := by
      rw [hb']
      show w.bedrock n + _ = _
      rw [hbed]
      rfl
    rw [hb'', hinc, hrate]
    simp only [List.map_cons, List.sum_cons]
    ring

theorem create_incAt {env : Env R C K} {p : Process K} {s s' : Whole R C K}
    (h : p.create env s = .ok s') (n : Node R (C + 2)) : incAt s'.2 n = incAt s.2 n := by
  have hz : ∀ f : Option (NodeField R (C + 2) K),
      ((addZeros f).map fun f => f n).getD 0 = (f.map fun f => f n).getD 0 := by
    intro f
    cases f <;> rfl
  cases p with
  | seaLevel curve start => cases h; rfl
  | subsidence curve =>
    simp only [Process.create] at h
    split at h
    · cases h
    · cases h; exact hz _
  | compaction => cases h; rfl
  | diffusion P =>
    simp only [Process.create] at h
    split at h
    · cases h
    · rename_i d w hd
      cases h
      unfold diffuserInit at hd
      split at hd
      · cases hd
      · cases hd; rfl
  | fluvial P => cases h; exact hz _
  | flexure t =>
    simp only [Process.create] at h
    split at h
    · cases h
    · cases h; exact hz _
  | waterFlexure t =>
    simp only [Process.create] at h
    split at h
    · cases h
    · cases h; exact hz _
  | shoreline alpha =>
    simp only [Process.create] at h
    split at h
    · cases h
    · rename_i w hd
      cases h
      unfold shorelineInit at hd
      obtain ⟨a, b, a', b', h1, h2, rfl⟩ := shorelineUpdate_world hd
      rfl

theorem createAll_incAt {env : Env R C K} {ps : List (Process K)} {s s' : Whole R C K}
    (h : createAll env ps s = .ok s') (n : Node R (C + 2)) : incAt s'.2 n = incAt s.2 n := by
  induction ps generalizing s with
  | nil => cases h; rfl
  | cons p ps ih =>
    rw [createAll] at h
    cases hc : p.create env s with
    | error e => rw [hc] at h; cases h
    | ok s1 =>
      rw [hc] at h
      rw [ih h, create_incAt hc]

/-- C147 (partial): two simulations of the same grid with the same processes that have come to the
same time, by whatever steps, have the same bedrock, if nothing but subsidence moves it. Missing:
flexure, and the surface, which follows the deposits. -/
theorem step_size_bedrock_partial {env : Env R C K} {ps : List (Process K)}
    (hps : "flexure" ∉ ps.map Process.name ∧ "water_flexure" ∉ ps.map Process.name) {start : K}
    {porosity porosity' : ProcState R C K → K} {q : ProcState R C K} {w : World R (C + 2) K}
    (hw : ∀ f, w.increment = some f → ∀ n, f n = 0)
    {s s' v v' : ModelState (ProcState R C K) R (C + 2) K}
    {obs obs' : List (Observation (ProcState R C K) R (C + 2) K)}
    (h : PackageRun env ps start porosity q w s obs s')
    (h' : PackageRun env ps start porosity' q w v obs' v')
    (ht : (obs.map fun o => o.dt).sum = (obs'.map fun o => o.dt).sum) :
    s'.world.bedrock = v'.world.bedrock := by
  have hsv : s = v := by
    have := h.init.symm.trans h'.init
    cases this
    rfl
  subst hsv
  have hz : ∀ n, incAt s.world n = 0 := by
    intro n
    obtain ⟨p, w1, hc, hm⟩ := packageInit_ok h.init
    have hi := (modelInit_ok hm).choose_spec.2.2.2.2.2.2.2.2.2.1
    have : incAt s.world n = incAt w1 n := by unfold incAt; rw [hi]
    rw [this, createAll_incAt hc]
    unfold incAt
    cases hwi : w.increment with
    | none => rfl
    | some f => exact hw f hwi n
  funext n
  rw [history_bedrock hps h.run hz n, history_bedrock hps h'.run hz n, ht]

/-- C147: and the sea level is the same, whatever moves the bedrock. -/
theorem step_size_sea_level {env : Env R C K} {curve : Curve K} {t0 : K} {pre post : List (Process K)}
    (hnodup : ((pre ++ .seaLevel curve t0 :: post).map Process.name).Nodup) {start : K}
    {porosity porosity' : ProcState R C K → K} {q : ProcState R C K} {w : World R (C + 2) K}
    {s s' v v' : ModelState (ProcState R C K) R (C + 2) K}
    {obs obs' : List (Observation (ProcState R C K) R (C + 2) K)}
    (h : PackageRun env (pre ++ .seaLevel curve t0 :: post) start porosity q w s obs s')
    (h' : PackageRun env (pre ++ .seaLevel curve t0 :: post) start porosity' q w v obs' v')
    (hobs : obs ≠ []) (hobs' : obs' ≠ [])
    (ht : (obs.map fun o => o.dt).sum = (obs'.map fun o => o.dt).sum) :
    s'.world.seaLevel = v'.world.seaLevel ∧
      curve (start + (obs.map fun o => o.dt).sum) = .ok s'.world.seaLevel := by
  have key : ∀ {porosity : ProcState R C K → K}
      {s s' : ModelState (ProcState R C K) R (C + 2) K}
      {obs : List (Observation (ProcState R C K) R (C + 2) K)},
      PackageRun env (pre ++ .seaLevel curve t0 :: post) start porosity q w s obs s' → obs ≠ [] →
      curve (start + (obs.map fun o => o.dt).sum) = .ok s'.world.seaLevel := by
    clear ht h h' hobs hobs'
    intro porosity s s' obs h hobs
    obtain ⟨p, w1, hc, hm⟩ := packageInit_ok h.init
    obtain ⟨ev, -, -, -, hcomps, -⟩ := modelInit_ok hm
    rw [List.map_append, List.map_cons] at hnodup
    obtain ⟨-, n2, n3⟩ := List.nodup_append.mp hnodup
    obtain ⟨n4, -⟩ := List.nodup_cons.mp n2
    have hrun := h.run
    rw [List.map_append, List.map_cons] at hrun
    obtain ⟨h1, -, h3, -⟩ := model_sea_level curve (fun q : ProcState R C K => q.seaTime)
      (fun t q => { q with seaTime := t }) (fun _ _ => rfl) (pre.map (Process.component env))
      (post.map (Process.component env)) (fun c hc => by
        obtain ⟨p, hp, rfl⟩ := List.mem_map.mp hc
        exact component_ignoresSea p (n3 _ (List.mem_map_of_mem hp) _ (List.mem_cons_self ..)))
      (fun c hc => by
        obtain ⟨p, hp, rfl⟩ := List.mem_map.mp hc
        refine component_ignoresSea p (fun he => n4 ?_)
        rw [show (Process.seaLevel curve t0).name = p.name from he.symm]
        exact List.mem_map_of_mem hp) porosity s s' obs hrun
    have hpos : 0 < obs.length := List.length_pos_of_ne_nil hobs
    have hlast := h1 (obs.length - 1) (by omega)
    have htake : (obs.map fun o => o.dt).take (obs.length - 1 + 1) = obs.map fun o => o.dt := by
      rw [List.take_of_length_le]
      simp
      omega
    rw [htake, hcomps] at hlast
    rw [h3, List.getLast?_map, List.getLast?_eq_getElem?, List.getElem?_eq_getElem (by omega)]
    exact hlast
  have e := key h hobs
  have e' := key h' hobs'
  rw [ht, e'] at e
  refine ⟨?_, ?_⟩
  · injection e with hq
    exact hq.symm
  · rw [ht, e', e]

/-! ### Where the property fails -/

/-- The sinking coast after two steps of half the length. -/
def exSunkTwice : Except Err (ModelState (ProcState 1 1 ℚ) 1 3 ℚ) :=
  match packageInit exEnv exSinking 0 (exProcState, exBeach) with
  | .error e => .error e
  | .ok s =>
    match advanceComponents (exSinking.map (Process.component exEnv)) (fun _ => 1/2) 50 50 s with
    | .error e => .error e
    | .ok s1 =>
      advanceComponents (exSinking.map (Process.component exEnv)) (fun _ => 1/2) 100 50 s1

/-- C147, negation: after 100 years the shoreline is at 1 with one step and landward of 7/10 with two, on
the same surface and with the same bedrock. -/
theorem step_size_shoreline :
    exSunk.toOption.map (fun s => (exStoredAndTrue s).1) = some (some 1) ∧
    exSunkTwice.toOption.map (fun s => (exStoredAndTrue s).1.map fun x => decide (x < 7/10)) =
      some (some true) ∧
    exSunk.toOption.map (fun s => (rowList s.world.topo 0, rowList s.world.bedrock 0)) =
      exSunkTwice.toOption.map (fun s => (rowList s.world.topo 0, rowList s.world.bedrock 0)) := by
  refine ⟨by decide +kernel, by decide +kernel, by decide +kernel⟩

/-! ### The hypotheses are met -/

/-- One step of 100 years and two of 50, with the same bedrock afterwards. -/
example : ∃ (s : ModelState (ProcState 1 1 ℚ) 1 3 ℚ)
    (obs : List (Observation (ProcState 1 1 ℚ) 1 3 ℚ)) (s' v : ModelState (ProcState 1 1 ℚ) 1 3 ℚ)
    (obs' : List (Observation (ProcState 1 1 ℚ) 1 3 ℚ)) (v' : ModelState (ProcState 1 1 ℚ) 1 3 ℚ),
    obs.length = 1 ∧ obs'.length = 2 ∧
    PackageRun exEnv exSinking 0 (fun _ => 1/2) exProcState exBeach s obs s' ∧
    PackageRun exEnv exSinking 0 (fun _ => 1/2) exProcState exBeach v obs' v' ∧
    (obs.map fun o => o.dt).sum = (obs'.map fun o => o.dt).sum ∧
    s'.world.bedrock = v'.world.bedrock := by
  have run : ∀ (s : ModelState (ProcState 1 1 ℚ) 1 3 ℚ) (time dt : ℚ) s',
      advanceComponents (exSinking.map (Process.component exEnv)) (fun _ => 1/2) time dt s = .ok s' →
      ∃ p w, runComponents (exSinking.map (Process.component exEnv)) dt
        (s.comps, clearDeposit s.world) = .ok (p, w) := by
    intro s time dt s' h
    obtain ⟨p, w, ev, w3, a, h1, -⟩ := advanceComponents_ok h
    exact ⟨p, w, h1⟩
  have h1 : exSunk.toOption.isSome = true := by decide +kernel
  have h2 : exSunkTwice.toOption.isSome = true := by decide +kernel
  unfold exSunk at h1
  unfold exSunkTwice at h2
  cases hi : packageInit exEnv exSinking 0 (exProcState, exBeach) with
  | error e => rw [hi] at h1; cases h1
  | ok s =>
    rw [hi] at h1 h2
    dsimp only at h1 h2
    cases ha : advanceComponents (exSinking.map (Process.component exEnv)) (fun _ => 1/2) 100 100 s with
    | error e => rw [ha] at h1; cases h1
    | ok s1 =>
      cases hb : advanceComponents (exSinking.map (Process.component exEnv)) (fun _ => 1/2) 50 50 s with
      | error e => rw [hb] at h2; cases h2
      | ok v1 =>
        rw [hb] at h2
        dsimp only at h2
        cases hc : advanceComponents (exSinking.map (Process.component exEnv)) (fun _ => 1/2) 100 50
            v1 with
        | error e => rw [hc] at h2; cases h2
        | ok v2 =>
          obtain ⟨p, w, e1⟩ := run _ _ _ _ ha
          obtain ⟨p2, w2, e2⟩ := run _ _ _ _ hb
          obtain ⟨p3, w3, e3⟩ := run _ _ _ _ hc
          have r1 : PackageRun exEnv exSinking 0 (fun _ => 1/2) exProcState exBeach s
              [⟨100, 100, p, w⟩] s1 := ⟨rfl, hi, .step e1 ha (.nil _)⟩
          have r2 : PackageRun exEnv exSinking 0 (fun _ => 1/2) exProcState exBeach s
              [⟨50, 50, p2, w2⟩, ⟨100, 50, p3, w3⟩] v2 :=
            ⟨rfl, hi, .step e2 hb (.step e3 hc (.nil _))⟩
          have ht : (([⟨100, 100, p, w⟩] : List (Observation (ProcState 1 1 ℚ) 1 3 ℚ)).map
              fun o => o.dt).sum = (([⟨50, 50, p2, w2⟩, ⟨100, 50, p3, w3⟩] :
                List (Observation (ProcState 1 1 ℚ) 1 3 ℚ)).map fun o => o.dt).sum := by
            norm_num
          refine ⟨s, _, s1, s, _, v2, rfl, rfl, r1, r2, ht, ?_⟩
          refine step_size_bedrock_partial ?_ ?_ r1 r2 ht
          · simp [exSinking, Process.name]
          · intro f hf n
            have h : exBeach.increment = some (fun _ => (0 : ℚ)) := rfl
            rw [h] at hf
            injection hf with hq
            rw [← hq]

/-- The hypotheses of `transgression_partial`: two steps with a sea that stays and a surface that
sinks. -/
example : (match packageInit exEnv exSinking 0 (exProcState, exBeach) with
    | .error _ => none
    | .ok s =>
      match advanceComponents (exSinking.map (Process.component exEnv)) (fun _ => 1/2) 50 50 s with
      | .error _ => none
      | .ok s1 =>
        (advanceComponents (exSinking.map (Process.component exEnv)) (fun _ => 1/2) 100 50 s1).toOption.map
          fun s2 => (rowList s.world.topo 0, rowList s1.world.topo 0, s1.world.seaLevel,
            s2.world.seaLevel)) = some ([1, 0, -1], [1, -1/2, -1], 0, 0) := by
  decide +kernel

/-- Names that differ, with a sea level among them. -/
example : (([.subsidence fun _ => .ok (-1/100)] ++ .seaLevel (fun t => .ok (-t / 200)) 0 ::
    [.fluvial exFluvial, .shoreline 1] : List (Process ℚ)).map Process.name).Nodup := by
  decide +kernel

end Verif.Props
