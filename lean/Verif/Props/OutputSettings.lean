import Verif.Lemmas.OutputSettings
import Verif.Props.OldFiles
import Verif.Props.Unused

/-!
# Output settings only select what is written (C128)
-/

set_option autoImplicit false
set_option linter.unusedSectionVars false

namespace Verif.Props

open Spec

variable {K : Type} [Field K] [LinearOrder K] [IsStrictOrderedRing K]

/-- Two models that have been set up with configurations that differ in their output. -/
theorem prepareFrom_without (ext : Externals K) (c1 c2 : Cfg) {d1 d2 : Doc}
    (hd : withoutOutput d1 = withoutOutput d2) {p1 p2 : Prepared K}
    (h1 : prepareFrom ext c1 d1 = .ok p1) (h2 : prepareFrom ext c2 d2 = .ok p2)
    (q1 q2 : Writer K × FileSystem K (Option K)) (m1 : Ready K) (hm : p1.finish q1 = .ok m1) :
    p2.finish q2 = .ok { m1.withOutput q2 with cfg := c2 } ∧ m1.cfg = c1 ∧ p1.rows = p2.rows := by
  have hf : ∀ k, k ≠ "output" → d2.find? k = d1.find? k := fun k hk => by
    rw [← find?_without hk d2, ← find?_without hk d1, hd]
  have hs : ∀ k, k ≠ "output" → sectionOf d2 k = sectionOf d1 k := fun k hk => by
    unfold sectionOf
    rw [hf k hk]
  have hp : processNames d2 = processNames d1 := by
    unfold processNames
    rw [hf _ (by decide)]
  have hmp : ∀ names : List String, "output" ∉ names →
      matchedParams names d2.sections = matchedParams names d1.sections := by
    intro names hn
    unfold matchedParams
    rw [initialParams_congr fun p hp => ?_]
    have hne : p ≠ "output" := by rintro rfl; exact hn hp
    rw [← sections_without hne d2, ← sections_without hne d1, hd]
  unfold prepareFrom at h1 h2
  rw [hs _ (by decide), hs "bathymetry" (by decide), hs "clock" (by decide), hp] at h2
  simp only [bind, Except.bind] at h1 h2
  cases hX1 : sectionOf d1 "grid" with
  | error e => rw [hX1] at h1; cases h1
  | ok gridArgs =>
  rw [hX1] at h1 h2
  dsimp only at h1 h2
  cases hX2 : sectionOf d1 "bathymetry" with
  | error e => rw [hX2] at h1; cases h1
  | ok bathymetry =>
  rw [hX2] at h1 h2
  dsimp only at h1 h2
  cases hX3 : loadGrid (K := K) gridArgs with
  | error e => rw [hX3] at h1; cases h1
  | ok g =>
  rw [hX3] at h1 h2
  obtain ⟨R, C, info⟩ := g
  dsimp only at h1 h2
  cases hX4 : loadBathymetry ext (fun c : Fin (C + 2) => (c.val : K) * info.dx) bathymetry
      (newWorld R (C + 2)) with
  | error e => rw [hX4] at h1; cases h1
  | ok w =>
  rw [hX4] at h1 h2
  dsimp only at h1 h2
  cases hX5 : processNames d1 with
  | error e => rw [hX5] at h1; cases h1
  | ok names =>
  rw [hX5] at h1 h2
  dsimp only at h1 h2
  cases hX6 : sectionOf d1 "clock" with
  | error e => rw [hX6] at h1; cases h1
  | ok clockArgs =>
  rw [hX6] at h1 h2
  dsimp only at h1 h2
  cases hX7 : sectionOf d1 "output" with
  | error e => rw [hX7] at h1; cases h1
  | ok output1 =>
  cases hX8 : sectionOf d2 "output" with
  | error e => rw [hX8] at h2; cases h2
  | ok output2 =>
  rw [hX7] at h1
  rw [hX8] at h2
  dsimp only at h1 h2
  -- there is no process of the name `output`
  have hno : "output" ∉ withRequired names := by
    intro hmem
    split at h1
    · cases h1
    split at h1
    · cases h1
    rename_i hc
    obtain ⟨cls, hcls, -⟩ := createNamed_mem hc "output" hmem
    simp [processClass] at hcls
  rw [hmp _ hno] at h2
  split at h1
  · cases h1
  rename_i hdesc
  rw [hdesc] at h2
  dsimp only at h2
  split at h1
  · cases h1
  rename_i r hr
  rw [hr] at h2
  obtain ⟨ps, s, w'⟩ := r
  dsimp only at h1 h2
  split at h1
  · cases h1
  rename_i clock hclock
  rw [hclock] at h2
  dsimp only at h2
  split at h1
  · cases h1
  split at h2
  · cases h2
  split at h1
  · cases h1
  rename_i por hpor
  rw [hpor] at h2
  cases h1
  cases h2
  dsimp only at hm ⊢
  split at hm
  · cases hm
  · rename_i m hmi
    cases hm
    exact ⟨rfl, rfl, rfl⟩

/-- What `runSetup` needs for a model. -/
theorem runSetup_parts {ext : Externals K} {times : List ℕ} {files : List (List Doc)}
    {fs fs' : FileSystem K (Option K)} {m : Ready K}
    (h : runSetup ext times files fs = (fs', .ok m)) :
    ∃ c d p q, Cfg.fromFiles files (some (times.map fun t : ℕ => (t : ℚ))) = .ok c ∧
      c.asDict = .ok d ∧ prepareFrom ext c (d.erase "plot") = .ok p ∧ p.finish q = .ok m := by
  unfold runSetup at h
  split_ifs at h
  · cases h
  split at h
  · cases h
  · rename_i p hp
    rw [prepare_eq] at hp
    simp only [bind, Except.bind] at hp
    split at hp
    · cases hp
    · rename_i c hc
      split at hp
      · cases hp
      · rename_i d hd
        split at h
        · cases h
        · split at h
          · cases h
          · exact ⟨c, d, p, _, hc, hd, hp, (Prod.mk.inj h).2⟩

section
variable {R C : ℕ} {env : Env R C K} {inp : Inputs K}
  {view : ProcState R C K → World R (C + 2) K → GridView (Option K)} {porosity : K}

/-- A step that succeeds is one of the processes. -/
theorem advance_runs {time dt : K} {l l' : Live R C K (Option K)}
    (h : l.advance env view (fun _ => porosity) time dt = .ok l') :
    ∃ p w, runComponents (l.procs.map (Process.component env)) dt
      (l.state.comps.1, clearDeposit l.state.world) = .ok (p, w) := by
  unfold Live.advance advanceComponents at h
  rw [withWriter_run] at h
  dsimp only at h
  rcases hr : runComponents (l.procs.map (Process.component env)) dt
    (l.state.comps.1, clearDeposit l.state.world) with e | ⟨p, w⟩
  · rw [hr] at h; cases h
  · exact ⟨p, w, rfl⟩

/-- A step of two models that differ in their output only. -/
theorem advance_same {time dt : K} {l₁ l₂ l₁' l₂' : Live R C K (Option K)}
    (hs : SameSimulation l₁ l₂) (st₁ : l₁.advance env view (fun _ => porosity) time dt = .ok l₁')
    (t₂ : l₂.advance env view (fun _ => porosity) time dt = .ok l₂') : SameSimulation l₁' l₂' := by
  obtain ⟨f1, f2, f3, f4⟩ := hs
  obtain ⟨p₁, w₁, r₁⟩ := advance_runs st₁
  unfold Live.advance advanceComponents at st₁ t₂
  rw [withWriter_run] at st₁ t₂
  dsimp only at st₁ t₂
  rw [r₁] at st₁
  rw [← f1, ← f2, ← f3, r₁] at t₂
  dsimp only at st₁ t₂
  rcases hx₁ : writerStep (view p₁ w₁) (some dt) l₁.state.comps.2 with e | x₁
  · rw [hx₁] at st₁; cases st₁
  rcases hx₂ : writerStep (view p₁ w₁) (some dt) l₂.state.comps.2 with e | x₂
  · rw [hx₂] at t₂; cases t₂
  rw [hx₁] at st₁
  rw [hx₂] at t₂
  dsimp only at st₁ t₂
  rcases hev : w₁.layers.add (atCells w₁.deposit) (layerProperties time porosity w₁) with e | ev
  · rw [hev] at st₁; cases st₁
  rw [hev] at st₁ t₂
  dsimp only at st₁ t₂
  rcases hw₃ : updateFields { w₁ with layers := ev } with e | w₃
  · rw [hw₃] at st₁; cases st₁
  rw [hw₃] at st₁ t₂
  dsimp only at st₁ t₂
  rw [← f4] at t₂
  rcases ha : Archive.archiveOld ⟨w₃.layers, l₁.state.archived⟩ with e | a
  · rw [ha] at st₁; cases st₁
  · rw [ha] at st₁ t₂
    cases st₁
    cases t₂
    exact ⟨rfl, rfl, rfl, rfl⟩

/-- A change of parameters of two models that differ in their output only. -/
theorem liveRound_same {c₁ c₂ : Cfg} {l₁ l₂ : Live R C K (Option K)}
    {s₁ s₂ : Cfg × Live R C K (Option K)} (hc : c₁.without = c₂.without)
    (hs : SameSimulation l₁ l₂) (h₁ : liveRound env inp (c₁, l₁) = .ok s₁)
    (h₂ : liveRound env inp (c₂, l₂) = .ok s₂) :
    s₁.1.without = s₂.1.without ∧ SameSimulation s₁.2 s₂.2 := by
  obtain ⟨c₁', l₁'⟩ := s₁
  obtain ⟨c₂', l₂'⟩ := s₂
  have u₁ := liveRound_withOutput h₁ l₁.state.comps.2
  have u₂ := liveRound_withOutput h₂ l₁.state.comps.2
  have hl : l₁.withOutput l₁.state.comps.2 = l₂.withOutput l₁.state.comps.2 := by
    obtain ⟨g1, g2, g3, g4⟩ := hs
    unfold Live.withOutput
    rw [g1, g2, g3, g4]
  rw [hc, hl, u₂] at u₁
  obtain ⟨v1, v2⟩ := Prod.mk.inj (Except.ok.inj u₁)
  refine ⟨v1.symm, ?_⟩
  have v3 := v2.symm
  simp only [Live.withOutput, Live.mk.injEq, ModelState.mk.injEq, Prod.mk.injEq] at v3
  exact ⟨v3.1, v3.2.1.1, v3.2.2.1, v3.2.2.2⟩

/-- The rounds of two models that differ in their output only. -/
theorem rounds_same {clock : Clock K} {c c' : Cfg} {l l' : Live R C K (Option K)}
    (hc : c.without = c'.without)
    (hl : SameSimulation l l') {n : ℕ} {k₁ k₂ : Clock K}
    {s₁ s₂ : Cfg × Live R C K (Option K)} {o₁ o₂ : List (GridView (Option K))}
    (h₁ : RoundsFrom env inp view porosity clock (c, l) n k₁ s₁ o₁)
    (h₂ : RoundsFrom env inp view porosity clock (c', l') n k₂ s₂ o₂) :
    k₁ = k₂ ∧ o₁ = o₂ ∧ s₁.1.without = s₂.1.without ∧ SameSimulation s₁.2 s₂.2 := by
  induction n generalizing k₁ k₂ s₁ s₂ o₁ o₂ with
  | zero =>
    cases h₁
    cases h₂
    exact ⟨rfl, rfl, hc, hl⟩
  | succ n ih =>
    rcases h₁ with _ | ⟨a₁, r₁, st₁, ch₁⟩
    rcases h₂ with _ | ⟨a₂, r₂, st₂, ch₂⟩
    rename_i ck₁ c₁ l₁ l₁' sh₁ p₁ w₁ ck₂ c₂ l₂ l₂' sh₂ p₂ w₂
    obtain ⟨rfl, rfl, e3, e4⟩ := ih a₁ a₂
    have hr := r₂
    rw [← e4.procs, ← e4.state, ← e4.world, r₁] at hr
    cases hr
    -- the step
    unfold runOneStep at st₁ st₂
    rcases hadv : ck₁.advance with ⟨ck', e | u⟩
    · rw [hadv] at st₁; simp at st₁
    · rw [hadv] at st₁ st₂
      dsimp only at st₁ st₂
      obtain ⟨rfl, t₁⟩ := Prod.mk.inj st₁
      obtain ⟨rfl, t₂⟩ := Prod.mk.inj st₂
      exact ⟨rfl, rfl, liveRound_same e3 (advance_same e4 t₁ t₂) ch₁ ch₂⟩

/-- What the writer does in a step depends on its own state and on what it is shown in that step. -/
theorem shown_is_written {clock clock' : Clock K} {l l' : Live R C K (Option K)}
    {p : ProcState R C K} {w : World R (C + 2) K}
    (hr : runComponents (l.procs.map (Process.component env)) clock.step
      (l.state.comps.1, clearDeposit l.state.world) = .ok (p, w))
    (hst : runOneStep (Live.advance env view fun _ => porosity) clock l none = (clock', .ok l')) :
    writerStep (view p w) (some clock.step) l.state.comps.2 = .ok l'.state.comps.2 := by
  unfold runOneStep at hst
  rcases hadv : clock.advance with ⟨ck', e | u⟩
  · rw [hadv] at hst; simp at hst
  · rw [hadv] at hst
    dsimp only at hst
    obtain ⟨rfl, h⟩ := Prod.mk.inj hst
    unfold Live.advance advanceComponents at h
    rw [withWriter_run] at h
    dsimp only [effectiveStep] at h
    rw [hr] at h
    dsimp only at h
    rcases hx : writerStep (view p w) (some clock.step) l.state.comps.2 with e | x
    · rw [hx] at h; cases h
    rw [hx] at h
    dsimp only at h
    rcases hev : w.layers.add (atCells w.deposit) (layerProperties ck'.time porosity w) with e | ev
    · rw [hev] at h; cases h
    rw [hev] at h
    dsimp only at h
    rcases hw₃ : updateFields { w with layers := ev } with e | w₃
    · rw [hw₃] at h; cases h
    rw [hw₃] at h
    dsimp only at h
    rcases ha : Archive.archiveOld ⟨w₃.layers, l.state.archived⟩ with e | a
    · rw [ha] at h; cases h
    · rw [ha] at h
      cases h
      rfl

/-- A loop that has not ended after `fuel` rounds has made `fuel` rounds. -/
theorem rounds_running {clock₀ clock : Clock K} {s₀ s : Cfg × Live R C K (Option K)} {n fuel : ℕ}
    {o : List (GridView (Option K))}
    (h : RoundsFrom env inp view porosity clock₀ s₀ n clock s o)
    (hrun : liveRun env inp view (fun _ => porosity) fuel clock s = none) :
    ∃ k s' o', RoundsFrom env inp view porosity clock₀ s₀ (n + fuel) k s' o' := by
  induction fuel generalizing n clock s o with
  | zero => exact ⟨_, _, _, h⟩
  | succ fuel ih =>
    rw [liveRun, cliLoop] at hrun
    generalize hst : runOneStep _ clock s none = r at hrun
    obtain ⟨clock', e | s1⟩ := r
    · cases e <;> cases hrun
    · dsimp only at hrun
      rcases hr : liveRound env inp s1 with e | s2
      · rw [hr] at hrun
        cases e <;> cases hrun
      · rw [hr] at hrun
        dsimp only at hrun
        obtain ⟨c, l⟩ := s
        unfold runOneStep at hst
        rcases hadv : clock.advance with ⟨ck', e | u⟩
        · rw [hadv] at hst; simp at hst
        · rw [hadv] at hst
          simp only [Prod.mk.injEq] at hst
          obtain ⟨rfl, hst⟩ := hst
          split at hst
          · cases hst
          · rename_i l1 hl1
            cases hst
            obtain ⟨p, w, hpw⟩ := advance_runs hl1
            have hstep : runOneStep (Live.advance env view fun _ => porosity) clock l none =
                (ck', .ok l1) := by
              unfold runOneStep
              rw [hadv]
              dsimp only
              rw [hl1]
            have := ih (h.round hpw hstep hr) hrun
            rwa [show n + 1 + fuel = n + (fuel + 1) by omega] at this

end

/-- C128: two configurations that differ in their sections `output` only, also at later times, give
models that differ only in their writers and files (and in the configuration that they hold), and
go through the same simulation: after each round that both complete, the clock, the processes with
their parameters, the grid and the layers are the same, and the writers have been shown the same. -/
theorem output_settings_only_select (ext : Externals K) (times : List ℕ)
    (files₁ files₂ : List (List Doc)) (hsame : SameButOutput files₁ files₂)
    (fs₁ fs₂ fs₁' fs₂' : FileSystem K (Option K)) (m₁ m₂ : Ready K)
    (h₁ : runSetup ext times files₁ fs₁ = (fs₁', .ok m₁))
    (h₂ : runSetup ext times files₂ fs₂ = (fs₂', .ok m₂)) :
    ∃ c q, m₂ = { m₁.withOutput q with cfg := c } ∧
      ∀ n k₁ k₂ s₁ s₂ o₁ o₂, AfterRounds m₁ n k₁ s₁ o₁ →
        AfterRounds ({ m₁.withOutput q with cfg := c } : Ready K) n k₂ s₂ o₂ →
        k₁ = k₂ ∧ SameSimulation s₁.2 s₂.2 ∧ o₁ = o₂ := by
  obtain ⟨c₁, d₁, p₁, q₁, a1, a2, a3, a4⟩ := runSetup_parts h₁
  obtain ⟨c₂, d₂, p₂, q₂, b1, b2, b3, b4⟩ := runSetup_parts h₂
  have hcfg : c₁.without = c₂.without := by
    have e1 := Cfg.fromFiles_without a1
    have e2 := Cfg.fromFiles_without b1
    rw [hsame, e2] at e1
    exact (Except.ok.inj e1).symm
  have hdoc : withoutOutput (d₁.erase "plot") = withoutOutput (d₂.erase "plot") := by
    have e1 := Cfg.asDict_without a2
    have e2 := Cfg.asDict_without b2
    rw [hcfg, e2] at e1
    rw [without_erase (by decide), without_erase (by decide), Except.ok.inj e1]
  obtain ⟨k1, k2, -⟩ := prepareFrom_without ext c₁ c₂ hdoc a3 b3 q₁ q₂ m₁ a4
  rw [k1] at b4
  cases b4
  refine ⟨c₂, q₂, rfl, fun n k₁ k₂ s₁ s₂ o₁ o₂ r₁ r₂ => ?_⟩
  obtain ⟨x1, x2, -, x4⟩ := rounds_same (env := m₁.env) (inp := m₁.inp) (view := m₁.view)
    (porosity := m₁.porosity) (clock := m₁.clock) (c := m₁.cfg) (l := m₁.live) (c' := c₂)
    (l' := m₁.live.withOutput q₂) (by rw [k2]; exact hcfg) ⟨rfl, rfl, rfl, rfl⟩ r₁ r₂
  exact ⟨x1, x4, x2⟩

/-- C128: the rounds of the theorem are those of the loop. -/
theorem running_rounds [FloorRing K] (m : Ready K) (fuel : ℕ) (h : m.run fuel = .running) :
    ∃ k s o, AfterRounds m fuel k s o := by
  unfold Ready.run at h
  split at h
  · cases h
  · split at h
    · rename_i hrun
      obtain ⟨k, s, o, hr⟩ := rounds_running (n := 0)
        (RoundsFrom.start (env := m.env) (inp := m.inp) (view := m.view) (porosity := m.porosity)
          (clock₀ := m.clock) (s₀ := (m.cfg, m.live))) hrun
      rw [Nat.zero_add] at hr
      exact ⟨k, s, o, hr⟩
    · cases h
    · cases h

/-! ### Concrete cases -/

/-- Two configurations with different output, also in the second file. -/
def exOutFiles (path : String) (interval : ℕ) (later : Doc) : List (List Doc) :=
  [[exConfig (.leaf "filepath" (.str path) (.leaf "interval" (.num interval) .nil)) .nil], [later]]

example : SameButOutput
    (exOutFiles "a.nc" 1 (.sub "sea_level" (.leaf "filepath" (.str "sea_level.csv") .nil) .nil))
    (exOutFiles "b.nc" 3 (.sub "output" (.leaf "interval" (.num 2) .nil)
      (.sub "sea_level" (.leaf "filepath" (.str "sea_level.csv") .nil) .nil))) := by
  unfold SameButOutput
  decide +kernel

/-- Whether a set-up gives a model that is still running after two rounds. -/
def exTwoRounds (r : FileSystem ℚ (Option ℚ) × Except Err (Ready ℚ)) : Bool :=
  match r.2 with
  | .error _ => false
  | .ok m => match m.run 2 with
    | .running => true
    | _ => false

/-- Both can be set up and make the two rounds of the run. -/
theorem exOut_runs :
    exTwoRounds (runSetup exExt [0, 1]
      (exOutFiles "a.nc" 1 (.sub "sea_level" (.leaf "filepath" (.str "sea_level.csv") .nil) .nil))
      exRunFiles) = true ∧
    exTwoRounds (runSetup exExt [0, 1]
      (exOutFiles "b.nc" 3 (.sub "output" (.leaf "interval" (.num 2) .nil)
        (.sub "sea_level" (.leaf "filepath" (.str "sea_level.csv") .nil) .nil)))
      exRunFiles) = true := by
  decide +kernel

example : ∃ m : Ready ℚ, ∃ k s o, AfterRounds m 2 k s o ∧ o.length = 2 := by
  have h := exOut_runs.1
  unfold exTwoRounds at h
  split at h
  · cases h
  · rename_i m hm
    obtain ⟨k, s, o, hr⟩ := running_rounds m 2 (by
      revert h
      cases m.run 2 <;> simp)
    refine ⟨m, k, s, o, hr, ?_⟩
    rcases hr with _ | ⟨h1, -⟩
    rcases h1 with _ | ⟨h2, -⟩
    cases h2
    rfl

end Verif.Props
