import Verif.Lemmas.Failure
import Verif.Props.RunCommand

/-!
# A simulation that fails (C124)
-/

set_option autoImplicit false
set_option linter.unusedSectionVars false

namespace Verif.Props

open Verif Spec

section
variable {K : Type} [Field K] [LinearOrder K]

/-- The loop that says what is left ends like the loop of the command. -/
theorem leftLoop_fits {m : Ready K} (fuel : ℕ) (c : Clock K) (s : Cfg × Live m.R m.C K (Option K)) :
    FitsOutcome
      (match liveRun m.env m.inp m.view (fun _ => m.porosity) fuel c s with
        | none => .running
        | some (_, .error e) => .failed e none
        | some (_, .ok (_, l)) => .finished l.state.comps.2.2)
      (leftLoop m.env m.inp m.view (fun _ => m.porosity) fuel c s) := by
  induction fuel generalizing c s with
  | zero => trivial
  | succ fuel ih =>
    rw [liveRun, cliLoop, leftLoop]
    unfold runOneStep
    rcases hc : c.advance with ⟨c', e | u⟩
    · dsimp only
      have he : e = .stopIteration := by
        unfold Clock.advance at hc
        dsimp only at hc
        split at hc
        · cases hc
        · split_ifs at hc <;> cases hc
          rfl
      subst he
      exact ⟨rfl, fun _ => rfl⟩
    · dsimp only [effectiveStep]
      cases ha : s.2.advance m.env m.view (fun _ => m.porosity) c'.time c.step with
      | error e =>
        dsimp only
        by_cases he : e = .stopIteration
        · subst he
          exact ⟨rfl, fun h => by rcases h with h | h <;> cases h⟩
        · have : suppressStop e = some e := by simp [suppressStop, he]
          rw [this]
          cases e <;> first | exact absurd rfl he | exact ⟨rfl, by rintro _ ⟨⟩⟩
      | ok l =>
        dsimp only
        cases hl : liveRound m.env m.inp (s.1, l) with
        | error e =>
          dsimp only
          by_cases he : e = .stopIteration
          · subst he
            exact ⟨rfl, fun h => by rcases h with h | h <;> cases h⟩
          · have : suppressStop e = some e := by simp [suppressStop, he]
            rw [this]
            cases e <;> first | exact absurd rfl he | exact ⟨rfl, by rintro _ ⟨⟩⟩
        | ok s' => exact ih c' s'

/-- C124: what is left is what the command leaves as far as `runCommand` says it, with the same
error. -/
theorem left_fits [FloorRing K] (ext : Externals K) (entries : List (List Char))
    (contents : List Char → List Doc) (dryRun : Bool) (fuel : ℕ) (fs : FileSystem K (Option K)) :
    FitsOutcome (runCommand ext entries contents dryRun fuel fs)
      (leftByRun ext entries contents dryRun fuel fs) := by
  unfold runCommand leftByRun
  rcases runSetup ext (findConfigFiles entries).1 ((findConfigFiles entries).2.map contents) fs with
    ⟨fs', e | m⟩
  · exact ⟨rfl, fun f h => by cases h; rfl⟩
  · dsimp only
    split_ifs
    · exact ⟨rfl, fun _ => rfl⟩
    · unfold Ready.run Ready.left
      cases progressTotal m.clock with
      | error e => exact ⟨rfl, fun f h => by cases h; rfl⟩
      | ok n => exact leftLoop_fits _ _ _

/-- How a loop ends. -/
inductive EndsIn (m : Ready K) (clock : Clock K) (s : Cfg × Live m.R m.C K (Option K)) :
    Left K (Option K) → Prop
  | clock : EndsIn m clock s ⟨.clock, none, s.2.files, none⟩
  | step {clock' : Clock K} {e : Err} (hc : clock.advance = (clock', .ok ()))
      (h : s.2.advance m.env m.view (fun _ => m.porosity) clock'.time clock.step = .error e) :
      EndsIn m clock s ⟨.step, suppressStop e, (s.2.advanceFiles m.env m.view clock.step).1,
        (s.2.advanceFiles m.env m.view clock.step).2⟩
  | change {clock' : Clock K} {l : Live m.R m.C K (Option K)} {e : Err}
      (hc : clock.advance = (clock', .ok ()))
      (h : s.2.advance m.env m.view (fun _ => m.porosity) clock'.time clock.step = .ok l)
      (hr : liveRound m.env m.inp (s.1, l) = .error e) :
      EndsIn m clock s ⟨.change, suppressStop e, roundFiles m.env m.inp (s.1, l), none⟩

theorem passes_advance {m : Ready K} {c c' : Clock K} {cfg : Cfg}
    {l l' : Live m.R m.C K (Option K)} (hp : Passes m c (cfg, l)) (hc : c.advance = (c', .ok ()))
    (ha : l.advance m.env m.view (fun _ => m.porosity) c'.time c.step = .ok l') :
    Passes m c' (cfg, l') := by
  refine Passes.step (l := l) hp ?_
  unfold runOneStep
  rw [hc]
  exact congrArg (Prod.mk c') ha

theorem leftLoop_ends {m : Ready K} (fuel : ℕ) (c : Clock K)
    (s : Cfg × Live m.R m.C K (Option K)) {left : Left K (Option K)} (hp : Passes m c s)
    (h : leftLoop m.env m.inp m.view (fun _ => m.porosity) fuel c s = some left) :
    ∃ c' s', Passes m c' s' ∧ EndsIn m c' s' left := by
  induction fuel generalizing c s with
  | zero => cases h
  | succ fuel ih =>
    rw [leftLoop] at h
    split at h
    · rename_i c' e hc
      have he : e = .stopIteration := by
        unfold Clock.advance at hc
        dsimp only at hc
        split at hc
        · cases hc
        · split_ifs at hc <;> cases hc
          rfl
      subst he
      cases h
      exact ⟨c, s, hp, .clock⟩
    · rename_i c' u hc
      split at h
      · rename_i e ha
        cases h
        exact ⟨c, s, hp, .step hc ha⟩
      · rename_i l ha
        split at h
        · rename_i e hr
          cases h
          exact ⟨c, s, hp, .change hc ha hr⟩
        · rename_i s' hr
          exact ih c' s' (.change (passes_advance hp hc ha) hr) h

theorem left_ends [FloorRing K] {m : Ready K} {fuel : ℕ} {left : Left K (Option K)}
    (h : m.left fuel = some left) :
    (∃ e, left = ⟨.before, some e, m.live.files, none⟩) ∨
      ∃ c s, Passes m c s ∧ EndsIn m c s left := by
  unfold Ready.left at h
  split at h
  · cases h
    exact .inl ⟨_, rfl⟩
  · exact .inr (leftLoop_ends fuel _ _ .start h)

end

section
variable {K : Type} [Field K] [LinearOrder K] [IsStrictOrderedRing K]

/-- Whatever is true of the writer and the files throughout is true at the end. -/
theorem endsIn_maintains {m : Ready K} {c : Clock K} {s : Cfg × Live m.R m.C K (Option K)}
    {left : Left K (Option K)} (h : EndsIn m c s left)
    {P : Writer K × FileSystem K (Option K) → Prop} (hs : P s.2.state.comps.2)
    (hstep : ∀ p w q q', P q → writerStep (m.view p w) (some c.step) q = .ok q' → P q')
    (hround : ∀ l : Live m.R m.C K (Option K), P l.state.comps.2 →
      ∃ l1 : Live m.R m.C K (Option K), P l1.state.comps.2 ∧
        roundFiles m.env m.inp (s.1, l) = l1.files) :
    (∃ w, P (w, left.files)) ∧
      (left.unfinished = none ∨ left.unfinished = some s.2.state.comps.2.1.filepath) := by
  cases h with
  | clock => exact ⟨⟨_, hs⟩, .inl rfl⟩
  | step hc h =>
    unfold Live.advanceFiles
    split
    · exact ⟨⟨_, hs⟩, .inl rfl⟩
    · split
      · refine ⟨⟨_, hs⟩, ?_⟩
        dsimp only
        split_ifs
        · exact .inl rfl
        · exact .inr rfl
      · rename_i q hq
        exact ⟨⟨_, hstep _ _ _ _ hs hq⟩, .inl rfl⟩
  | change hc h hr =>
    rename_i l e
    have hl : P l.state.comps.2 := by
      unfold Live.advance at h
      split at h
      · cases h
      · rename_i s' hs'
        cases h
        obtain ⟨p, w, ev, w3, a, g1, g2, g3, g4, rfl⟩ := advanceComponents_ok hs'
        obtain ⟨p1, q1⟩ := p
        exact hstep _ _ _ _ hs (withWriter_run_ok _ _ g1).2
    obtain ⟨l1, h1, h2⟩ := hround l hl
    exact ⟨⟨l1.state.comps.2.1, by rw [h2]; exact h1⟩, .inl rfl⟩

theorem roundFiles_safe {m : Ready K} {P : String → Prop} {clobber : Bool}
    {fs0 : FileSystem K (Option K)} {docs : List Doc} (hd : ∀ d ∈ docs, DistinctKeys d)
    (hP : ∀ d ∈ docs, ∀ p, valueAt d ["output", "filepath"] = some (.str p) → P p)
    {s : Cfg × Live m.R m.C K (Option K)} (hc : s.1.dicts = docs.map stored)
    (hq : WriterSafe P clobber fs0 s.2.state.comps.2) :
    ∃ l1 : Live m.R m.C K (Option K), WriterSafe P clobber fs0 l1.state.comps.2 ∧
      roundFiles m.env m.inp s = l1.files := by
  unfold roundFiles
  split
  · exact ⟨s.2, hq, rfl⟩
  · rename_i e c' hu
    obtain ⟨h1, h2, h3⟩ := Cfg.update_from hc hd hu
    refine (setParams_maintains (P := fun l : Live m.R m.C K (Option K) =>
        WriterSafe P clobber fs0 l.state.comps.2)
      (Q := fun comp k v => ∀ p, comp = "output" → k = "filepath" → v = .inl (.str p) → P p)
      ?_ h2 ?_ hq).1
    · intro comp k v l l' hQ hl hs
      obtain ⟨-, -, h | ⟨h4, h5⟩⟩ := setattr_world hs
      · rw [h]; exact hl
      · exact writerSetattr_safe (fun p hk hv => hQ p h4 hk hv) hl h5
    · rintro comp sec k v hf hg p rfl rfl rfl
      have hv : valueAt e ["output", "filepath"] = some (.str p) := by
        rw [valueAt_cons, hf]
        dsimp only
        rw [valueAt_single, hg]
      obtain ⟨d, hm, w, hw, hf⟩ := h3 _ _ hv
      apply hP d hm p
      rw [hw]
      cases w <;> simp [Leaf.freeze, Leaf.thaw] at hf ⊢
      exact hf.symm

/-- What is known of the files at the end of a command. -/
theorem left_safe [FloorRing K] {ext : Externals K} {entries : List (List Char)}
    {contents : List Char → List Doc}
    (hd : ∀ n ∈ (findConfigFiles entries).2, ∀ d ∈ contents n, DistinctKeys d) {dryRun : Bool}
    {fuel : ℕ} {fs : FileSystem K (Option K)} {left : Left K (Option K)}
    (h : leftByRun ext entries contents dryRun fuel fs = some left) :
    ∃ clobber, (AsksToKeep ((findConfigFiles entries).2.map contents) → clobber = false) ∧
      (∀ path, ¬ NamedOutput ((findConfigFiles entries).2.map contents) path →
        left.files path = fs path ∧ left.unfinished ≠ some path) ∧
      ∀ path, Kept clobber (fs path) → left.files path = fs path ∧ left.unfinished ≠ some path := by
  have hd' : ∀ f ∈ (findConfigFiles entries).2.map contents, ∀ d ∈ f, DistinctKeys d := by
    intro f hf
    obtain ⟨n, hn, rfl⟩ := List.mem_map.mp hf
    exact hd n hn
  unfold leftByRun at h
  split at h
  · rename_i fs' e hs
    cases h
    obtain ⟨h1, clobber, h2, h3, -⟩ := setup_safe hd' hs
    exact ⟨clobber, h2, fun path hn => ⟨by by_contra hne; exact hn (h1 path hne).1, by simp⟩,
      fun path hk => ⟨h3 path hk, by simp⟩⟩
  · rename_i fs' m hs
    obtain ⟨h1, clobber, h2, h3, h4⟩ := setup_safe hd' hs
    obtain ⟨k1, k2, docs, k3, k4, k5⟩ := h4 m rfl
    refine ⟨clobber, h2, ?_⟩
    split_ifs at h
    · cases h
      exact ⟨fun path hn => ⟨by by_contra hne; exact hn (h1 path hne).1, by simp⟩,
        fun path hk => ⟨h3 path hk, by simp⟩⟩
    · rcases left_ends h with ⟨e, rfl⟩ | ⟨c, s, hp, he⟩
      · exact ⟨fun path hn => ⟨k2.others path hn, by simp⟩, fun path hk => ⟨k2.kept path hk, by simp⟩⟩
      · obtain ⟨q1, q2⟩ := passes_safe k3 k4 k5 k2 hp
        obtain ⟨⟨w, g1⟩, g2⟩ := endsIn_maintains he (P := WriterSafe _ clobber fs) q2
          (fun p w q q' hq hw => writerStep_safe hq hw)
          (fun l hl => roundFiles_safe (s := (s.1, l)) k3 k4 q1 hl)
        constructor
        · intro path hn
          refine ⟨g1.others path hn, ?_⟩
          rcases g2 with g2 | g2 <;> rw [g2]
          · simp
          · intro hpath
            cases hpath
            exact hn q2.named
        · intro path hk
          refine ⟨g1.kept path hk, ?_⟩
          rcases g2 with g2 | g2 <;> rw [g2]
          · simp
          · intro hpath
            cases hpath
            exact q2.free hk

/-- C124: whatever the end of a run, only files that some section names as `output.filepath` have
been changed or are not finished. -/
theorem left_touches_only_outputs [FloorRing K] (ext : Externals K) (entries : List (List Char))
    (contents : List Char → List Doc)
    (hd : ∀ n ∈ (findConfigFiles entries).2, ∀ d ∈ contents n, DistinctKeys d) (dryRun : Bool)
    (fuel : ℕ) (fs : FileSystem K (Option K)) (left : Left K (Option K))
    (h : leftByRun ext entries contents dryRun fuel fs = some left) (path : String)
    (hne : left.files path ≠ fs path ∨ left.unfinished = some path) :
    NamedOutput ((findConfigFiles entries).2.map contents) path := by
  obtain ⟨clobber, -, h1, -⟩ := left_safe hd h
  by_contra hn
  obtain ⟨h2, h3⟩ := h1 path hn
  rcases hne with hne | hne
  · exact hne h2
  · exact h3 hne

/-- C124: whatever the end of a run, if the first section does not set `clobber`, no file that
existed before has been changed, and none is left unfinished. -/
theorem left_keeps_existing [FloorRing K] (ext : Externals K) (entries : List (List Char))
    (contents : List Char → List Doc)
    (hd : ∀ n ∈ (findConfigFiles entries).2, ∀ d ∈ contents n, DistinctKeys d)
    (hk : AsksToKeep ((findConfigFiles entries).2.map contents)) (dryRun : Bool)
    (fuel : ℕ) (fs : FileSystem K (Option K)) (left : Left K (Option K))
    (h : leftByRun ext entries contents dryRun fuel fs = some left) (path : String)
    (hf : (fs path).isFile = true ∨ fs path = .dir) :
    left.files path = fs path ∧ left.unfinished ≠ some path := by
  obtain ⟨clobber, h1, -, h2⟩ := left_safe hd h
  exact h2 path (hf.elim (fun e => .inr ⟨h1 hk, e⟩) .inl)

/-! ### Records -/

/-- At every moment of a run the layers are in order. -/
theorem passes_record {ext : Externals K} {times : List ℕ} {files : List (List Doc)}
    {fs fs' : FileSystem K (Option K)} {m : Ready K}
    (h : runSetup ext times files fs = (fs', .ok m)) (hc : CompactKeepsRecord m.env)
    (hd : ∀ f ∈ files, ∀ d ∈ f, DistinctKeys d)
    {clock : Clock K} {s : Cfg × Live m.R m.C K (Option K)} (hp : Passes m clock s) :
    RecordOk s.2.state := by
  obtain ⟨h1, clobber, h2, h3, h4⟩ := setup_safe hd h
  obtain ⟨k1, k2, docs, k3, k4, k5⟩ := h4 m rfl
  induction hp with
  | start => exact setup_record h
  | step _ hs ih =>
    unfold runOneStep at hs
    split at hs
    · cases hs
    · simp only [Prod.mk.injEq] at hs
      exact (advance_record hc ih).1 _ hs.2
  | @change c s s' hp hr ih =>
    obtain ⟨q1, -⟩ := passes_safe k3 k4 k5 k2 hp
    unfold liveRound at hr
    split at hr
    · cases hr
    · rename_i e c' hu
      obtain ⟨-, g2, -⟩ := Cfg.update_from q1 k3 hu
      split at hr
      · cases hr
      · rename_i l hl
        cases hr
        exact (setParams_maintains (P := fun l : Live m.R m.C K (Option K) => RecordOk l.state)
          (Q := fun _ _ _ => True) (fun comp k v l l' _ hl hs => recordOk_setattr hs hl) g2
          (fun _ _ _ _ _ _ => trivial) ih).2 _ hl

/-- A run up to the step that fails. -/
theorem leftLoop_shorter {m : Ready K} (hstep : 0 < m.clock.step) (fuel : ℕ) (c : Clock K)
    (hcs : c.step = m.clock.step) (s : Cfg × Live m.R m.C K (Option K)) {left : Left K (Option K)}
    (hrec : ∀ c' s' e, Passes m c' s' → ∀ t, s'.2.advance m.env m.view (fun _ => m.porosity) t
      c'.step = .error e → (s'.2.advanceFiles m.env m.view c'.step).1 = s'.2.files)
    (hp : Passes m c s)
    (h : leftLoop m.env m.inp m.view (fun _ => m.porosity) fuel c s = some left)
    (hstage : left.stage = .step) :
    ∃ n k : ℕ, (∀ stop, c.stop = some stop → c.time + (n + 1 : ℕ) * c.step ≤ stop) ∧
      leftLoop m.env m.inp m.view (fun _ => m.porosity) k
        { c with stop := some (c.time + n * c.step) } s = some ⟨.clock, none, left.files, none⟩ := by
  have stays : ∀ {c c' : Clock K}, c.advance = (c', .ok ()) →
      c' = { c with time := c.time + c.step } ∧ ∀ stop, c.stop = some stop → c.time + c.step ≤ stop := by
    intro c c' hc
    unfold Clock.advance at hc
    dsimp only at hc
    split at hc
    · rename_i hn
      simp only [Prod.mk.injEq] at hc
      exact ⟨hc.1.symm, fun stop hs => by rw [hn] at hs; cases hs⟩
    · rename_i stop hn
      split_ifs at hc with hlt
      · cases hc
      · simp only [Prod.mk.injEq] at hc
        exact ⟨hc.1.symm, fun stop hs => by rw [hn] at hs; cases hs; exact not_lt.mp hlt⟩
  induction fuel generalizing c s with
  | zero => cases h
  | succ fuel ih =>
    rw [leftLoop] at h
    split at h
    · cases h
      cases hstage
    · rename_i c' u hc
      obtain ⟨rfl, hle⟩ := stays hc
      split at h
      · rename_i e ha
        cases h
        refine ⟨0, 1, fun stop hs => by simpa using hle stop hs, ?_⟩
        have hadv : ({ c with stop := some (c.time + (0 : ℕ) * c.step) } : Clock K).advance =
            ({ c with stop := some (c.time + (0 : ℕ) * c.step), time := c.time + c.step },
              .error .stopIteration) := by
          unfold Clock.advance
          dsimp only
          rw [if_pos (by rw [hcs]; simpa using hstep)]
        rw [leftLoop, hadv]
        dsimp only
        rw [hrec c s e hp _ ha]
        rfl
      · rename_i l ha
        split at h
        · cases h
          cases hstage
        · rename_i s' hr
          have hp' : Passes m { c with time := c.time + c.step } s' :=
            .change (passes_advance (cfg := s.1) hp hc ha) hr
          obtain ⟨n, k, h1, h2⟩ := ih { c with time := c.time + c.step } hcs s' hp' h
          have heq : c.time + (n + 1 : ℕ) * c.step = c.time + c.step + n * c.step := by
            push_cast; ring
          refine ⟨n + 1, k + 1, fun stop hs => ?_, ?_⟩
          · have := h1 stop hs
            dsimp only at this
            push_cast at this ⊢
            linarith
          · have hadv : ({ c with stop := some (c.time + (n + 1 : ℕ) * c.step) } : Clock K).advance =
                ({ c with stop := some (c.time + (n + 1 : ℕ) * c.step), time := c.time + c.step },
                  .ok ()) := by
              unfold Clock.advance
              dsimp only
              rw [if_neg]
              rw [heq, not_lt]
              have : (0 : K) ≤ n * c.step := by rw [hcs]; positivity
              linarith
            rw [leftLoop, hadv]
            dsimp only
            rw [ha]
            dsimp only
            rw [hr]
            dsimp only
            rw [heq]
            exact h2

/-- C124: a run that fails in a step leaves exactly the files of the same run ended before that
step (`Left.unfinished` says whether the output file is in the middle of being written). -/
theorem failed_step_keeps [FloorRing K] (ext : Externals K) (times : List ℕ)
    (files : List (List Doc)) (hd : ∀ f ∈ files, ∀ d ∈ f, DistinctKeys d)
    (fs fs' : FileSystem K (Option K)) (m : Ready K)
    (h : runSetup ext times files fs = (fs', .ok m)) (hc : CompactKeepsRecord m.env)
    (hstep : 0 < m.clock.step) (fuel : ℕ) (left : Left K (Option K))
    (hl : m.left fuel = some left) (hs : left.stage = .step) :
    ∃ n k : ℕ, (∀ stop, m.clock.stop = some stop →
        m.clock.time + (n + 1 : ℕ) * m.clock.step ≤ stop) ∧
      (endingAt m (m.clock.time + n * m.clock.step)).run k = .finished left.files := by
  unfold Ready.left at hl
  split at hl
  · cases hl; cases hs
  · obtain ⟨n, k, h1, h2⟩ := leftLoop_shorter hstep fuel m.clock rfl (m.cfg, m.live)
      (fun c' s' e hp t ha =>
        (advanceFiles_error ((advance_record hc (passes_record h hc hd hp)).2 e ha)).1)
      .start hl hs
    refine ⟨n, k, h1, ?_⟩
    have hfit := leftLoop_fits (m := endingAt m (m.clock.time + n * m.clock.step)) k
      { m.clock with stop := some (m.clock.time + n * m.clock.step) } (m.cfg, m.live)
    have h2' : leftLoop (endingAt m (m.clock.time + n * m.clock.step)).env
        (endingAt m (m.clock.time + n * m.clock.step)).inp
        (endingAt m (m.clock.time + n * m.clock.step)).view
        (fun _ => (endingAt m (m.clock.time + n * m.clock.step)).porosity) k
        { m.clock with stop := some (m.clock.time + n * m.clock.step) } (m.cfg, m.live) =
        some ⟨.clock, none, left.files, none⟩ := h2
    rw [h2'] at hfit
    have htot : progressTotal (endingAt m (m.clock.time + n * m.clock.step)).clock =
        .ok ⌊(m.clock.time + n * m.clock.step) / m.clock.step⌋ := by
      unfold progressTotal endingAt
      dsimp only
      rw [if_neg hstep.ne']
    unfold Ready.run
    rw [htot]
    dsimp only
    revert hfit
    generalize hr : liveRun (endingAt m (m.clock.time + n * m.clock.step)).env
        (endingAt m (m.clock.time + n * m.clock.step)).inp
        (endingAt m (m.clock.time + n * m.clock.step)).view
        (fun _ => (endingAt m (m.clock.time + n * m.clock.step)).porosity) k
        { m.clock with stop := some (m.clock.time + n * m.clock.step) } (m.cfg, m.live) = r
    intro hfit
    have hr' : liveRun (endingAt m (m.clock.time + n * m.clock.step)).env
        (endingAt m (m.clock.time + n * m.clock.step)).inp
        (endingAt m (m.clock.time + n * m.clock.step)).view
        (fun _ => (endingAt m (m.clock.time + n * m.clock.step)).porosity) k
        (endingAt m (m.clock.time + n * m.clock.step)).clock
        ((endingAt m (m.clock.time + n * m.clock.step)).cfg,
          (endingAt m (m.clock.time + n * m.clock.step)).live) = r := hr
    rw [hr']
    rcases r with _ | ⟨c', e | ⟨cfg', l'⟩⟩
    · exact hfit.elim
    · cases hfit.1
    · rw [hfit.2 (.inr rfl)]

/-- C124: a run that fails when parameters are changed has finished the step before. Its files are
those after that step, except that a file may have been deleted to be replaced. -/
theorem failed_change_keeps [FloorRing K] (ext : Externals K) (times : List ℕ)
    (files : List (List Doc)) (hd : ∀ f ∈ files, ∀ d ∈ f, DistinctKeys d)
    (fs fs' : FileSystem K (Option K)) (m : Ready K)
    (h : runSetup ext times files fs = (fs', .ok m)) (fuel : ℕ) (left : Left K (Option K))
    (hl : m.left fuel = some left) (hs : left.stage = .change) :
    ∃ clock clock' cfg l l' e, Passes m clock (cfg, l) ∧
      runOneStep (Live.advance m.env m.view fun _ => m.porosity) clock l none = (clock', .ok l') ∧
      liveRound m.env m.inp (cfg, l') = .error e ∧ left.error = suppressStop e ∧
      left.unfinished = none ∧ ∀ path, left.files path = l'.files path ∨
        (left.files path = .absent ∧ NamedOutput files path) := by
  rcases left_ends hl with ⟨e, rfl⟩ | ⟨c, s, hp, he⟩
  · cases hs
  cases he with
  | clock => cases hs
  | step hc h => cases hs
  | @change clock' l e hc ha hr =>
    have hrun : runOneStep (Live.advance m.env m.view fun _ => m.porosity) c s.2 none =
        (clock', .ok l) := by
      unfold runOneStep
      rw [hc]
      exact congrArg (Prod.mk clock') ha
    refine ⟨c, clock', s.1, s.2, l, e, hp, hrun, hr, rfl, rfl, ?_⟩
    obtain ⟨h1, clobber, h2, h3, h4⟩ := setup_safe hd h
    obtain ⟨k1, k2, docs, k3, k4, k5⟩ := h4 m rfl
    obtain ⟨q1, q2⟩ := passes_safe k3 k4 k5 k2 (Passes.step (cfg := s.1) (l := s.2) hp hrun)
    dsimp only
    unfold roundFiles
    dsimp only
    cases hu : s.1.update 1 with
    | error e => exact fun path => .inl rfl
    | ok y =>
      obtain ⟨e, c'⟩ := y
      obtain ⟨-, g2, g3⟩ := Cfg.update_from q1 k3 hu
      obtain ⟨⟨l1, j1, j2⟩, -⟩ := setParams_maintains
        (P := fun l1 : Live m.R m.C K (Option K) => ∀ path, l1.files path = l.files path ∨
          (l1.files path = .absent ∧ NamedOutput files path))
        (Q := fun comp k v => ∀ p, comp = "output" → k = "filepath" → v = .inl (.str p) →
          NamedOutput files p) (env := m.env) (inp := m.inp) (d := e) (l := l)
        (by
          intro comp k v l2 l3 hQ hl2 hset path
          obtain ⟨-, -, hsame | ⟨hcomp, hwr⟩⟩ := setattr_world hset
          · have : l3.files = l2.files := by unfold Live.files; rw [hsame]
            rw [this]
            exact hl2 path
          · by_cases hk : k = "filepath"
            · subst hk
              unfold writerSetattr at hwr
              rw [if_pos rfl] at hwr
              split at hwr
              · rename_i new
                split at hwr
                · cases hwr
                · rename_i pnew fsnew u hset'
                  have hok : (setFilepath l2.state.comps.2.1.clobber
                      (some l2.state.comps.2.1.filepath) new l2.state.comps.2.2).2 = .ok () := by
                    rw [hset']
                  have hfp := filepath_ok _ _ _ _ hok
                  rw [hset'] at hfp
                  cases hfp
                  have hfiles : l3.files = Function.update l2.files new .absent := by
                    unfold Live.files
                    rw [← (Except.ok.inj hwr)]
                  by_cases hpath : path = new
                  · subst hpath
                    refine .inr ⟨?_, hQ _ hcomp rfl rfl⟩
                    rw [hfiles]
                    exact Function.update_self ..
                  · rw [hfiles, Function.update_of_ne hpath]
                    exact hl2 path
              · cases hwr
            · have : l3.files = l2.files := by
                unfold writerSetattr at hwr
                rw [if_neg hk] at hwr
                unfold Live.files
                split_ifs at hwr
                · split at hwr
                  · cases hwr
                  · rw [← (Except.ok.inj hwr)]
                · split at hwr
                  · cases hwr
                  · rw [← (Except.ok.inj hwr)]
                · rw [← (Except.ok.inj hwr)]
              rw [this]
              exact hl2 path)
        g2
        (by
          rintro comp sec k v hf hg p rfl rfl rfl
          have hv : valueAt e ["output", "filepath"] = some (.str p) := by
            rw [valueAt_cons, hf]
            dsimp only
            rw [valueAt_single, hg]
          obtain ⟨d, hm, w, hw, hf⟩ := g3 _ _ hv
          apply k4 d hm p
          rw [hw]
          cases w <;> simp [Leaf.freeze, Leaf.thaw] at hf ⊢
          exact hf.symm)
        (fun path => .inl rfl)
      dsimp only
      rw [j2]
      exact j1

/-! ### Complete records -/

theorem setup_fits {ext : Externals K} (hg : GeometryFits ext) {times : List ℕ}
    {files : List (List Doc)} {fs fs' : FileSystem K (Option K)} {d : Doc} {m : Ready K}
    (h : SetsUp ext times files fs d fs' m)
    (hrows : entry d "output" "rows" = none ∨ entry d "output" "rows" = some (.inl .none)) :
    ∃ z, (∀ p w, HasSizes z (m.view p w)) ∧ WriterFits z fs m.live.state.comps.2 := by
  obtain ⟨-, -, -, -, hall, -, -, -, hfiles, -⟩ := setup_output h
  have hall := hall hrows
  have hview : ∃ z : Sizes, z.rows = m.R ∧ ∀ p w, HasSizes z (m.view p w) := by
    obtain ⟨c, e, hm, -, -⟩ := setsUp_made h
    cases hm with
    | @mk _ _ _ _ R C info _ _ _ _ _ _ _ _ _ _ _ _ hgrid hbathy hinfo hw hnames hclock houtput hdx
        hx hcreate htime hargs hpor hrows hwriter hms =>
      have hsize : info.nodeRows = R + 2 ∧ info.nodeCols = C + 2 := by
        unfold loadGrid at hinfo
        simp only [bind_eq_ok] at hinfo
        obtain ⟨shape, e1, nCols, e2, spacing, e3, xy, e4, info', e5, h⟩ := hinfo
        have hmake : 2 ≤ info'.nodeRows := by
          unfold gridFromDict at e5
          split at e5
          · cases e5
          · split at e5
            · cases e5
            · unfold gridInit at e5
              split_ifs at e5
              split at e5
              · cases e5; exact Nat.le_add_left 2 _
              · cases e5; exact Nat.le_add_left 2 _
              · cases e5
        split_ifs at h with hlt
        cases h
        exact ⟨by omega, by omega⟩
      refine ⟨⟨R, C + 2, fun loc => ((ext.geometry info).xOf loc).length⟩, rfl, fun _ w => ?_⟩
      exact worldView_sizes _ (hg.same info) (by rw [hg.node, hsize.1, hsize.2])
        (by rw [hg.row, hsize.1]) (by rw [hg.column, hsize.2]) w
  obtain ⟨z, hz, hview⟩ := hview
  refine ⟨z, hview, ⟨?_, .inl ?_, fun p => ?_⟩⟩
  · rw [hall, hz]
    rfl
  · rw [hfiles]
    exact Function.update_self ..
  · by_cases hp : p = m.live.state.comps.2.1.filepath
    · exact .inr (.inl (by rw [hfiles, hp]; exact Function.update_self ..))
    · exact .inl (by rw [hfiles]; exact Function.update_of_ne hp _ _)

theorem writerFits_of_step {z : Sizes} {fs0 : FileSystem K (Option K)}
    {q q' : Writer K × FileSystem K (Option K)} (hq : WriterFits z fs0 q) {g : GridView (Option K)}
    (hg : HasSizes z g) {dt : K} (h : writerStep g (some dt) q = .ok q') : WriterFits z fs0 q' := by
  by_cases hi : q.1.interval = 0
  · unfold writerStep at h
    dsimp only at h
    rw [if_pos hi] at h
    cases h
  · obtain ⟨q1, h1, h2⟩ := writerFits_step hq hi hg dt
    rw [h] at h1
    cases h1
    exact h2

theorem passes_fits {m : Ready K} {z : Sizes} {fs : FileSystem K (Option K)}
    (hview : ∀ p w, HasSizes z (m.view p w)) (h0 : WriterFits z fs m.live.state.comps.2)
    {docs : List Doc} (hd : ∀ d ∈ docs, DistinctKeys d) (hc : m.cfg.dicts = docs.map stored)
    {clock : Clock K} {s : Cfg × Live m.R m.C K (Option K)} (hp : Passes m clock s) :
    s.1.dicts = docs.map stored ∧ WriterFits z fs s.2.state.comps.2 := by
  induction hp with
  | start => exact ⟨hc, h0⟩
  | step _ hs ih =>
    refine ⟨ih.1, ?_⟩
    unfold runOneStep at hs
    split at hs
    · cases hs
    · simp only [Prod.mk.injEq] at hs
      have ha := hs.2
      unfold Live.advance at ha
      split at ha
      · cases ha
      · rename_i s' hs'
        cases ha
        obtain ⟨p, w, ev, w3, a, g1, g2, g3, g4, rfl⟩ := advanceComponents_ok hs'
        obtain ⟨p1, q1⟩ := p
        exact writerFits_of_step ih.2 (hview _ _) (withWriter_run_ok _ _ g1).2
  | change _ hr ih =>
    unfold liveRound at hr
    split at hr
    · cases hr
    · rename_i e c' hu
      obtain ⟨g1, g2, -⟩ := Cfg.update_from ih.1 hd hu
      split at hr
      · cases hr
      · rename_i l hl
        cases hr
        refine ⟨g1.trans ih.1, ?_⟩
        exact (setParams_maintains (P := fun l : Live m.R m.C K (Option K) =>
            WriterFits z fs l.state.comps.2) (Q := fun _ _ _ => True)
          (fun comp k v l l' _ hl hs => by
            obtain ⟨-, -, h | ⟨-, h5⟩⟩ := setattr_world hs
            · rw [h]; exact hl
            · exact writerFits_setattr hl h5) g2 (fun _ _ _ _ _ _ => trivial) ih.2).2 _ hl

/-- C124: if `output.rows` is not set, then whatever the end of a run, no file is left unfinished:
each is as it was, gone, or holds complete records. -/
theorem left_complete [FloorRing K] (ext : Externals K) (hg : GeometryFits ext)
    (entries : List (List Char)) (contents : List Char → List Doc)
    (hd : ∀ n ∈ (findConfigFiles entries).2, ∀ d ∈ contents n, DistinctKeys d) (d : Doc)
    (hfirst : ((findConfigFiles entries).2.map contents).flatten.head? = some d)
    (hn : NoTuples d)
    (hrows : entry d "output" "rows" = none ∨ entry d "output" "rows" = some (.inl .none))
    (dryRun : Bool) (fuel : ℕ) (fs : FileSystem K (Option K)) (left : Left K (Option K))
    (h : leftByRun ext entries contents dryRun fuel fs = some left) :
    left.unfinished = none ∧ ∀ path,
      left.files path = fs path ∨ left.files path = .absent ∨ CompleteFile (left.files path) := by
  have hd' : ∀ f ∈ (findConfigFiles entries).2.map contents, ∀ d ∈ f, DistinctKeys d := by
    intro f hf
    obtain ⟨n, hn, rfl⟩ := List.mem_map.mp hf
    exact hd n hn
  have hdd : DistinctKeys d := by
    obtain ⟨f, hf, hdf⟩ := List.mem_flatten.mp (List.mem_of_mem_head? hfirst)
    exact hd' f hf d hdf
  have hcomplete : ∀ {z : Sizes} {e : Entry K (Option K)}, Complete z e →
      e = .absent ∨ CompleteFile e := by
    rintro z e (h | ⟨d, ws, h1, h2⟩)
    · exact .inl h
    · exact .inr ⟨d, ws, h1, h2.records, h2.layers⟩
  unfold leftByRun at h
  split at h
  · rename_i fs' e hs
    cases h
    refine ⟨rfl, fun path => ?_⟩
    by_cases hp : fs' path = fs path
    · exact .inl hp
    · exact .inr (.inl ((setup_safe hd' hs).1 path hp).2)
  · rename_i fs' m hs
    split_ifs at h
    · cases h
      refine ⟨rfl, fun path => ?_⟩
      by_cases hp : fs' path = fs path
      · exact .inl hp
      · exact .inr (.inl ((setup_safe hd' hs).1 path hp).2)
    · obtain ⟨z, hview, h0⟩ := setup_fits hg ⟨hfirst, hdd, hn, hs⟩ hrows
      obtain ⟨-, clobber, -, -, h4⟩ := setup_safe hd' hs
      obtain ⟨-, -, docs, k3, -, k5⟩ := h4 m rfl
      rcases left_ends h with ⟨e, rfl⟩ | ⟨c, s, hp, he⟩
      · exact ⟨rfl, fun path => (h0.all path).imp_right hcomplete⟩
      · obtain ⟨q1, q2⟩ := passes_fits hview h0 k3 k5 hp
        obtain ⟨⟨w, g1⟩, -⟩ := endsIn_maintains he (P := WriterFits z fs) q2
          (fun p w q q' hq hw => writerFits_of_step hq (hview _ _) hw)
          (fun l hl => by
            unfold roundFiles
            dsimp only
            split
            · exact ⟨l, hl, rfl⟩
            · rename_i e c' hu
              obtain ⟨-, g2, -⟩ := Cfg.update_from q1 k3 hu
              exact (setParams_maintains (P := fun l : Live m.R m.C K (Option K) =>
                  WriterFits z fs l.state.comps.2) (Q := fun _ _ _ => True)
                (fun comp k v l l' _ hl hs => by
                  obtain ⟨-, -, h | ⟨-, h5⟩⟩ := setattr_world hs
                  · rw [h]; exact hl
                  · exact writerFits_setattr hl h5) g2 (fun _ _ _ _ _ _ => trivial) hl).1)
        refine ⟨?_, fun path => (g1.all path).imp_right hcomplete⟩
        cases he with
        | clock => rfl
        | change hc h hr => rfl
        | step hc h =>
          dsimp only
          unfold Live.advanceFiles
          split
          · rfl
          · rename_i p w hr
            split
            · rename_i e' hw
              dsimp only
              split_ifs with hi
              · rfl
              · obtain ⟨q', h1, -⟩ := writerFits_step q2 hi (hview p w) c.step
                rw [hw] at h1
                cases h1
            · rfl

end

/-! ### Examples -/

/-- The same as `exExt`, with a file of sea levels that ends at 100 and with coordinates. -/
def exShortExt : Externals ℚ := { exExt with
  readCurve := fun path _ =>
    if path = "bathymetry.csv" then .ok fun x => .ok (1 - x)
    else if path = "sea_level.csv" then
      .ok fun t => if t ≤ 100 then .ok (1/2 - t / 1000) else .error .valueError
    else .error .osError
  geometry := fun info =>
    { xOf := fun loc =>
        if loc = "node" then List.replicate (info.nodeRows * info.nodeCols) 0
        else if loc = "column" then List.replicate info.nodeCols 0 else []
      yOf := fun loc =>
        if loc = "node" then List.replicate (info.nodeRows * info.nodeCols) 0
        else if loc = "row" then List.replicate info.nodeRows 0 else [] } }

example : GeometryFits exShortExt :=
  ⟨fun _ => by simp [exShortExt], fun _ => by simp [exShortExt], fun _ => by simp [exShortExt],
    fun _ loc h => by
      simp only [List.mem_cons, List.not_mem_nil, or_false] at h
      rcases h with rfl | rfl | rfl | rfl <;> simp [exShortExt]⟩

/-- The compaction of these models keeps the record of the layers. -/
example (R C : ℕ) (ps : PyDict String Kwargs) (dx : ℚ) (x : Fin (C + 2) → ℚ) :
    CompactKeepsRecord ({ exShortExt.env R C ps with dx := dx, x := x } : Env R C ℚ) := by
  intro dt l l' h
  cases h
  exact ⟨rfl, rfl, fun c => by simp, fun k hk => rfl, fun _ => rfl⟩

def exLeftTimes : Entry ℚ (Option ℚ) → Option (List ℚ)
  | .dataset d => some d.times
  | _ => none

/-- What a command leaves. -/
def exLeft (d : Doc) (more : List Doc) (path : String) :
    Option ((Stage × Option Err) × Option (List ℚ) × Option String) :=
  (leftByRun exShortExt (exEntries.take (1 + more.length)) (exContents d more) false 5
    exRunFiles).map fun l =>
    ((l.stage, l.error), exLeftTimes (l.files path), l.unfinished)

/-- C124: the sea level ends before the simulation. The second step fails, the record of the first
is there. -/
example : exLeft (exConfig (exOutSection "out.nc" false) .nil) [] "out.nc" =
    some ((.step, some .valueError), some [0], none) := by
  decide +kernel

/-- C124: a change of parameters fails after the first step. -/
example : exLeft (exConfig (exOutSection "out.nc" false) .nil)
      [.sub "output" (.leaf "interval" (.num (-1)) .nil) .nil] "out.nc" =
    some ((.change, some .typeError), some [0], none) := by
  decide +kernel

/-- C124: with rows that are not there the first step fails while the file is written. -/
theorem rows_leave_unfinished :
    exLeft (exConfig (.leaf "filepath" (.str "out.nc") (.leaf "rows" (.list [.num 7]) .nil)) .nil) []
      "out.nc" = some ((.step, some .indexError), none, some "out.nc") := by
  decide +kernel

end Verif.Props
