import Verif.Lemmas.RunCommand
import Verif.Props.Live
import Verif.Lemmas.PlotCommand

/-!
# Properties of `sequence run`, its files and its end (C103–C107)
-/

set_option autoImplicit false
set_option linter.unusedSectionVars false

namespace Verif.Props

open Verif Spec

variable {K : Type} [Field K] [LinearOrder K] [IsStrictOrderedRing K]

/-! ### Where the writer of a run comes from -/

theorem loadFiles_head {files : List (List Doc)} {d : Doc} {docs : List Doc}
    (h : Cfg.loadFiles files = .ok (d :: docs)) :
    ∃ d0, files.flatten.head? = some d0 ∧ (d = d0 ∨ d = d0.erase "_time") := by
  induction files with
  | nil => cases h
  | cons f files ih =>
    rw [Cfg.loadFiles] at h
    cases hl : Cfg.load 0 f with
    | error e => rw [hl] at h; cases h
    | ok tds =>
      rw [hl] at h
      dsimp only at h
      cases hr : Cfg.loadFiles files with
      | error e => rw [hr] at h; cases h
      | ok rest =>
        rw [hr] at h
        simp only [Except.ok.injEq] at h
        cases f with
        | nil =>
          cases hl
          simp only [List.map_nil, List.nil_append] at h
          subst h
          simpa using ih hr
        | cons d0 f =>
          refine ⟨d0, by simp, ?_⟩
          rw [Cfg.load] at hl
          split at hl
          · cases hl
          · split at hl
            · cases hl
              simp only [List.map_cons, List.cons_append, List.cons.injEq] at h
              exact .inl h.1.symm
            · cases hl
              simp only [List.map_cons, List.cons_append, List.cons.injEq] at h
              exact .inr h.1.symm
            · cases hl

/-- A false value stays false when it is stored and returned. -/
theorem falsy_thaw {v : Leaf} (h : Falsy v) : pyTruth (.inl v.freeze.thaw) = false := by
  rcases h with rfl | rfl | rfl | rfl | rfl <;> decide

theorem prepare_writer {ext : Externals K} {times : List ℕ} {files : List (List Doc)}
    {p : Prepared K} (hd : ∀ f ∈ files, ∀ d ∈ f, DistinctKeys d)
    (h : prepare ext times files = .ok p) :
    NamedOutput files p.args.path ∧ (AsksToKeep files → p.args.clobber = false) ∧
      ∃ docs : List Doc, (∀ d ∈ docs, DistinctKeys d) ∧
        (∀ d ∈ docs, ∀ q, valueAt d ["output", "filepath"] = some (.str q) → NamedOutput files q) ∧
        ∀ q m, p.finish q = .ok m → m.cfg.dicts = docs.map stored ∧ m.live.state.comps.2 = q := by
  obtain ⟨docs, c, e, out, h1, h2, h3, h4, h5, h6⟩ := prepare_ok h
  have hfrom := Cfg.loadFiles_from h1 hd
  have hnamed : ∀ d ∈ docs, ∀ q, valueAt d ["output", "filepath"] = some (.str q) →
      NamedOutput files q := by
    intro d hm q hq
    obtain ⟨_, f, hf, d', hd', hv⟩ := hfrom d hm
    exact ⟨f, hf, d', hd', hv _ _ hq⟩
  have hsec := (Cfg.asDict_from h2 (fun d hm => (hfrom d hm).1) h3).erase "plot"
  obtain ⟨g1, g2⟩ := loadWriter_ok h5
  refine ⟨?_, ?_, docs, fun d hm => (hfrom d hm).1, hnamed, ?_⟩
  · have hv : valueAt (e.erase "plot") ["output", "filepath"] = some (.str p.args.path) := by
      rw [valueAt_cons, h4]
      dsimp only
      rw [valueAt_single, g1]
    obtain ⟨d, hm, w, hw, hf⟩ := hsec.2 _ _ hv
    apply hnamed d hm
    rw [hw]
    cases w <;> simp [Leaf.freeze, Leaf.thaw] at hf ⊢
    exact hf.symm
  · intro hk
    rw [g2]
    -- the value of `clobber` in the first section
    obtain ⟨_, _, _, d0, ds, rfl, hcur⟩ := Cfg.init_ok h2
    have hd0 := (hfrom d0 (by simp)).1
    have hfirst : ∀ r v, valueAt (e.erase "plot") ("output" :: "clobber" :: r) = some v →
        r = [] ∧ ∃ w, Falsy w ∧ v = w.freeze.thaw := by
      intro r v hv
      have hv' : valueAt e ("output" :: "clobber" :: r) = some v := by
        rw [← hv]
        refine (valueAt_congr ?_ _).symm
        have hde : DistinctKeys e := (Doc.expand_from h3).1
        rw [Doc.find?_erase hde, if_neg (by decide)]
      unfold Cfg.asDict at h3
      rw [hcur] at h3
      obtain ⟨u, hu, rfl⟩ := (Doc.expand_from h3).2 _ _ hv'
      have hg := PyDict.get?_of_mem (nodup_stored d0) hu
      rw [get?_stored hd0, Option.map_eq_some_iff] at hg
      obtain ⟨w, hw, rfl⟩ := hg
      obtain ⟨d', hd', hdd⟩ := loadFiles_head h1
      have hw' : valueAt d' ("output" :: "clobber" :: r) = some w := by
        rcases hdd with rfl | rfl
        · exact hw
        · rw [← hw]
          refine (valueAt_congr ?_ _).symm
          have hdis : DistinctKeys d' := by
            have := List.mem_of_mem_head? hd'
            obtain ⟨f, hf, hm⟩ := List.mem_flatten.mp this
            exact hd f hf d' hm
          rw [Doc.find?_erase hdis, if_neg (by decide)]
      obtain ⟨hr, hf⟩ := hk d' hd' r w hw'
      exact ⟨hr, w, hf, rfl⟩
    have hne : NoEmptySub e := Doc.noEmpty_addItems _ .nil e trivial h3
    cases hcl : out.find? "clobber" with
    | none => rfl
    | some v =>
      dsimp only
      cases v with
      | inl v =>
        obtain ⟨_, w, hw, rfl⟩ := hfirst [] v (by
          rw [valueAt_cons, h4]
          dsimp only
          rw [valueAt_single, hcl])
        exact falsy_thaw hw
      | inr s =>
        exfalso
        have he : e.find? "output" = some (.inr out) := by
          rw [← h4, Doc.find?_erase (Doc.expand_from h3).1, if_neg (by decide)]
        obtain ⟨k1, _⟩ := Doc.noEmpty_find? hne he
        obtain ⟨k3, k4⟩ := Doc.noEmpty_find? k1 hcl
        obtain ⟨q, hq⟩ := Doc.exists_value k3 k4
        obtain ⟨v, hv⟩ := Option.ne_none_iff_exists'.mp hq
        cases q with
        | nil => rw [valueAt_nil] at hv; cases hv
        | cons a q =>
          obtain ⟨hr, _⟩ := hfirst (a :: q) v (by
            rw [valueAt_cons, h4]
            dsimp only
            rw [valueAt_cons, hcl]
            exact hv)
          cases hr
  · intro q m hm
    obtain ⟨k1, k2⟩ := h6 q m hm
    exact ⟨by rw [k1]; exact (Cfg.init_ok h2).2.1, k2⟩

/-- What is known after the set-up. -/
theorem setup_safe {ext : Externals K} {times : List ℕ} {files : List (List Doc)}
    {fs fs' : FileSystem K (Option K)} (hd : ∀ f ∈ files, ∀ d ∈ f, DistinctKeys d)
    {r : Except Err (Ready K)} (h : runSetup ext times files fs = (fs', r)) :
    (∀ path, fs' path ≠ fs path → NamedOutput files path ∧ fs' path = .absent) ∧
    ∃ clobber, (AsksToKeep files → clobber = false) ∧
      (∀ path, Kept clobber (fs path) → fs' path = fs path) ∧
      ∀ m, r = .ok m → m.live.state.comps.2.2 = fs' ∧
        WriterSafe (NamedOutput files) clobber fs m.live.state.comps.2 ∧
        ∃ docs : List Doc, (∀ d ∈ docs, DistinctKeys d) ∧
          (∀ d ∈ docs, ∀ q, valueAt d ["output", "filepath"] = some (.str q) →
            NamedOutput files q) ∧ m.cfg.dicts = docs.map stored := by
  unfold runSetup at h
  split_ifs at h
  · cases h
    exact ⟨fun p hp => absurd rfl hp, false, fun _ => rfl, fun _ _ => rfl, fun m hm => by cases hm⟩
  · split at h
    · cases h
      exact ⟨fun p hp => absurd rfl hp, false, fun _ => rfl, fun _ _ => rfl,
        fun m hm => by cases hm⟩
    · rename_i p hp
      obtain ⟨g1, g2, docs, g3, g4, g5⟩ := prepare_writer hd hp
      split at h
      · rename_i fs1 e hw
        cases h
        have := writerInit_error_files hw
        subst this
        exact ⟨fun p hp => absurd rfl hp, p.args.clobber, g2, fun _ _ => rfl,
          fun m hm => by cases hm⟩
      · rename_i fs1 w hw
        have hsafe := writerInit_safe g1 hw
        have hupd := (writerInit_ok hw).1
        have hfiles : ∀ path, fs1 path ≠ fs path → NamedOutput files path ∧ fs1 path = .absent := by
          intro path hne
          by_cases hpath : path = p.args.path
          · subst hpath
            exact ⟨g1, by rw [hupd]; exact Function.update_self ..⟩
          · exact absurd (by rw [hupd]; exact Function.update_of_ne hpath _ _) hne
        split at h
        · cases h
          exact ⟨hfiles, p.args.clobber, g2, hsafe.kept, fun m hm => by cases hm⟩
        · cases h
          refine ⟨hfiles, p.args.clobber, g2, hsafe.kept, ?_⟩
          intro m hm
          obtain ⟨k1, k2⟩ := g5 _ _ hm
          exact ⟨by rw [k2], by rw [k2]; exact hsafe, docs, g3, g4, k1⟩

/-- What is known at every moment of a run. -/
theorem passes_safe {m : Ready K} {P : String → Prop} {clobber : Bool}
    {fs : FileSystem K (Option K)} {docs : List Doc} (hd : ∀ d ∈ docs, DistinctKeys d)
    (hP : ∀ d ∈ docs, ∀ q, valueAt d ["output", "filepath"] = some (.str q) → P q)
    (hc : m.cfg.dicts = docs.map stored) (h0 : WriterSafe P clobber fs m.live.state.comps.2)
    {clock : Clock K} {s : Cfg × Live m.R m.C K (Option K)} (h : Passes m clock s) :
    s.1.dicts = docs.map stored ∧ WriterSafe P clobber fs s.2.state.comps.2 := by
  induction h with
  | start => exact ⟨hc, h0⟩
  | step _ hs ih =>
    refine ⟨ih.1, ?_⟩
    unfold runOneStep at hs
    split at hs
    · cases hs
    · simp only [Prod.mk.injEq] at hs
      exact Live.advance_safe ih.2 hs.2
  | change _ hr ih => exact liveRound_safe hd hP ih.1 ih.2 hr

/-- A run that ends without an error ends in one of the states it goes through. -/
theorem run_passes {m : Ready K} (fuel : ℕ) (clock clock' : Clock K)
    (s s' : Cfg × Live m.R m.C K (Option K)) (hp : Passes m clock s)
    (h : liveRun m.env m.inp m.view (fun _ => m.porosity) fuel clock s = some (clock', .ok s')) :
    ∃ k, Passes m k s' := by
  induction fuel generalizing clock s with
  | zero => cases h
  | succ fuel ih =>
    rw [liveRun, cliLoop] at h
    split at h
    · cases h
      exact ⟨clock, hp⟩
    · cases h
    · rename_i c1 s1 hr
      have hp1 : Passes m c1 s1 := by
        unfold runOneStep at hr
        split at hr
        · cases hr
        · rename_i c2 u hc2
          simp only [Prod.mk.injEq] at hr
          obtain ⟨rfl, hr⟩ := hr
          split at hr
          · cases hr
          · rename_i l hl
            cases hr
            refine Passes.step (l := s.2) hp ?_
            unfold runOneStep
            rw [hc2]
            dsimp only
            rw [hl]
      split at h
      · cases h
        exact ⟨_, hp1⟩
      · cases h
      · rename_i s2 hs2
        exact ih c1 s2 (.change hp1 hs2) h

/-! ### C104 -/

/-- C104: at every moment of a run, and in whatever way it ends, the only files changed are those
that some section names as `output.filepath`. -/
theorem run_touches_only_outputs (ext : Externals K) (times : List ℕ) (files : List (List Doc))
    (hd : ∀ f ∈ files, ∀ d ∈ f, DistinctKeys d) (fs fs' : FileSystem K (Option K)) (m : Ready K)
    (h : runSetup ext times files fs = (fs', .ok m)) (clock : Clock K)
    (s : Cfg × Live m.R m.C K (Option K)) (hp : Passes m clock s) (path : String)
    (hne : s.2.state.comps.2.2 path ≠ fs path) : NamedOutput files path := by
  obtain ⟨_, clobber, _, _, h3⟩ := setup_safe hd h
  obtain ⟨_, h4, docs, h5, h6, h7⟩ := h3 m rfl
  by_contra hn
  exact hne ((passes_safe h5 h6 h7 h4 hp).2.others path hn)

theorem files_after [FloorRing K] {ext : Externals K} {entries : List (List Char)}
    {contents : List Char → List Doc} {dryRun : Bool} {fuel : ℕ} {fs fs' : FileSystem K (Option K)}
    (h : filesAfter (runCommand ext entries contents dryRun fuel fs) = some fs') :
    ∃ r, runSetup ext (findConfigFiles entries).1 ((findConfigFiles entries).2.map contents) fs =
        (fs', r) ∨
      ∃ fs1 m k s, runSetup ext (findConfigFiles entries).1
          ((findConfigFiles entries).2.map contents) fs = (fs1, .ok m) ∧ Passes m k s ∧
        s.2.state.comps.2.2 = fs' := by
  unfold runCommand at h
  split at h
  · rename_i fs1 e hs
    simp only [filesAfter, Option.some.injEq] at h
    subst h
    exact ⟨_, .inl hs⟩
  · rename_i fs1 m hs
    split_ifs at h
    · simp only [filesAfter, Option.some.injEq] at h
      subst h
      exact ⟨_, .inl hs⟩
    · unfold Ready.run at h
      split at h
      · simp only [filesAfter, Option.some.injEq] at h
        exact ⟨.ok m, .inr ⟨fs1, m, m.clock, (m.cfg, m.live), hs, .start, h⟩⟩
      · split at h
        · cases h
        · cases h
        · rename_i hr
          simp only [filesAfter, Option.some.injEq] at h
          obtain ⟨k, hk⟩ := run_passes fuel _ _ _ _ .start hr
          exact ⟨.ok m, .inr ⟨fs1, m, k, _, hs, hk, h⟩⟩

/-- C104, for the command as a whole. -/
theorem run_command_touches_only_outputs [FloorRing K] (ext : Externals K)
    (entries : List (List Char)) (contents : List Char → List Doc)
    (hd : ∀ n ∈ (findConfigFiles entries).2, ∀ d ∈ contents n, DistinctKeys d) (dryRun : Bool)
    (fuel : ℕ) (fs fs' : FileSystem K (Option K))
    (h : filesAfter (runCommand ext entries contents dryRun fuel fs) = some fs') (path : String)
    (hne : fs' path ≠ fs path) :
    NamedOutput ((findConfigFiles entries).2.map contents) path := by
  have hd' : ∀ f ∈ (findConfigFiles entries).2.map contents, ∀ d ∈ f, DistinctKeys d := by
    intro f hf
    obtain ⟨n, hn, rfl⟩ := List.mem_map.mp hf
    exact hd n hn
  obtain ⟨r, hs | ⟨fs1, m, k, s, hs, hp, rfl⟩⟩ := files_after h
  · exact ((setup_safe hd' hs).1 path hne).1
  · exact run_touches_only_outputs ext _ _ hd' fs fs1 m hs k s hp path hne

/-! ### C105 -/

/-- C105: if the first section does not set `clobber`, no existing file and no directory is changed
at any moment of a run, whatever later sections say. -/
theorem existing_files_kept (ext : Externals K) (times : List ℕ) (files : List (List Doc))
    (hd : ∀ f ∈ files, ∀ d ∈ f, DistinctKeys d) (hk : AsksToKeep files)
    (fs fs' : FileSystem K (Option K)) (m : Ready K)
    (h : runSetup ext times files fs = (fs', .ok m)) (clock : Clock K)
    (s : Cfg × Live m.R m.C K (Option K)) (hp : Passes m clock s) (path : String)
    (hf : (fs path).isFile = true ∨ fs path = .dir) :
    s.2.state.comps.2.2 path = fs path := by
  obtain ⟨_, clobber, h1, _, h3⟩ := setup_safe hd h
  obtain ⟨_, h4, docs, h5, h6, h7⟩ := h3 m rfl
  exact (passes_safe h5 h6 h7 h4 hp).2.kept path (hf.elim (fun e => .inr ⟨h1 hk, e⟩) .inl)

/-- C105, for the command as a whole. -/
theorem run_command_keeps_existing [FloorRing K] (ext : Externals K)
    (entries : List (List Char)) (contents : List Char → List Doc)
    (hd : ∀ n ∈ (findConfigFiles entries).2, ∀ d ∈ contents n, DistinctKeys d)
    (hk : AsksToKeep ((findConfigFiles entries).2.map contents)) (dryRun : Bool)
    (fuel : ℕ) (fs fs' : FileSystem K (Option K))
    (h : filesAfter (runCommand ext entries contents dryRun fuel fs) = some fs') (path : String)
    (hf : (fs path).isFile = true ∨ fs path = .dir) : fs' path = fs path := by
  have hd' : ∀ f ∈ (findConfigFiles entries).2.map contents, ∀ d ∈ f, DistinctKeys d := by
    intro f hf
    obtain ⟨n, hn, rfl⟩ := List.mem_map.mp hf
    exact hd n hn
  obtain ⟨r, hs | ⟨fs1, m, k, s, hs, hp, rfl⟩⟩ := files_after h
  · obtain ⟨_, clobber, h1, h2, _⟩ := setup_safe hd' hs
    exact h2 path (hf.elim (fun e => .inr ⟨h1 hk, e⟩) .inl)
  · exact existing_files_kept ext _ _ hd' hk fs fs1 m hs k s hp path hf

/-! ### C103 -/

/-- C103, partial: a dry run always ends; it leaves every file as it is if the configuration does
not set `clobber` or the output file is not there yet, and no output path is a link to nothing.
Missing: with `clobber` an existing output file is deleted (next theorem). -/
theorem dry_run_partial [FloorRing K] (ext : Externals K)
    (entries : List (List Char)) (contents : List Char → List Doc)
    (hd : ∀ n ∈ (findConfigFiles entries).2, ∀ d ∈ contents n, DistinctKeys d)
    (fuel : ℕ) (fs : FileSystem K (Option K))
    (hlink : ∀ path, NamedOutput ((findConfigFiles entries).2.map contents) path →
      fs path ≠ .danglingLink)
    (hk : AsksToKeep ((findConfigFiles entries).2.map contents) ∨
      ∀ path, NamedOutput ((findConfigFiles entries).2.map contents) path →
        (fs path).isFile = false) :
    filesAfter (runCommand ext entries contents true fuel fs) = some fs := by
  have hd' : ∀ f ∈ (findConfigFiles entries).2.map contents, ∀ d ∈ f, DistinctKeys d := by
    intro f hf
    obtain ⟨n, hn, rfl⟩ := List.mem_map.mp hf
    exact hd n hn
  rcases hs : runSetup ext (findConfigFiles entries).1
    ((findConfigFiles entries).2.map contents) fs with ⟨fs', r⟩
  have hfs : fs' = fs := by
    obtain ⟨h1, clobber, h2, h3, _⟩ := setup_safe hd' hs
    funext path
    by_contra hne
    obtain ⟨h4, h5⟩ := h1 path hne
    cases hp : fs path with
    | absent => exact hne (by rw [h5, hp])
    | dir => exact hne (h3 path (.inl hp))
    | danglingLink => exact hlink path h4 hp
    | raw =>
      rcases hk with hk | hk
      · exact hne (h3 path (.inr ⟨h2 hk, by rw [hp]; rfl⟩))
      · have := hk path h4
        rw [hp] at this
        cases this
    | dataset d =>
      rcases hk with hk | hk
      · exact hne (h3 path (.inr ⟨h2 hk, by rw [hp]; rfl⟩))
      · have := hk path h4
        rw [hp] at this
        cases this
  subst hfs
  unfold runCommand
  rw [hs]
  cases r <;> rfl

/-! ### C107 -/

/-- C107: without `stop` or with a step of 0 the command fails before the first step, because of
its progress bar; the files are as the set-up left them. -/
theorem run_needs_stop_and_step [FloorRing K] (m : Ready K) (fuel : ℕ) :
    (m.clock.stop = none → m.run fuel = .failed .typeError (some m.live.state.comps.2.2)) ∧
      (∀ stop, m.clock.stop = some stop → m.clock.step = 0 →
        m.run fuel = .failed .zeroDivision (some m.live.state.comps.2.2)) := by
  constructor
  · intro h
    unfold Ready.run progressTotal
    rw [h]
  · intro stop h h0
    unfold Ready.run progressTotal
    rw [h]
    simp [h0]

theorem cliLoop_none {W : Type*} (advance : K → K → W → Except Err W)
    (setParams : W → Except Err W) (fuel : ℕ) (c : Clock K) (w : W) (stop : K)
    (hs : c.stop = some stop) (hfuel : 0 < fuel) (hstep : 0 < c.step)
    (h : cliLoop advance setParams fuel c w = none) : c.time + fuel * c.step ≤ stop := by
  induction fuel generalizing c w with
  | zero => omega
  | succ fuel ih =>
    rw [cliLoop] at h
    unfold runOneStep Clock.advance at h
    rw [hs] at h
    dsimp only at h
    by_cases hlt : stop < c.time + c.step
    · simp [hlt] at h
    · simp only [hlt, if_false] at h
      split at h
      · cases h
      · cases h
      · rename_i c' w' hr
        simp only [Prod.mk.injEq] at hr
        obtain ⟨rfl, _⟩ := hr
        split at h
        · cases h
        · cases h
        · rename_i w'' _
          by_cases hf : fuel = 0
          · subst hf
            simpa using not_lt.mp hlt
          · have := ih ⟨c.start, some stop, c.step, c.time + c.step⟩ w'' rfl (by omega) hstep h
            push_cast
            linarith

theorem cliLoop_backwards {W : Type*} (advance : K → K → W → Except Err W)
    (setParams : W → Except Err W) (ha : ∀ t d w, advance t d w ≠ .error .stopIteration)
    (hp : ∀ w, setParams w ≠ .error .stopIteration) (fuel : ℕ) (c c' : Clock K) (w w' : W) (stop : K)
    (hs : c.stop = some stop) (hstep : c.step ≤ 0) (hle : c.time + c.step ≤ stop) :
    cliLoop advance setParams fuel c w ≠ some (c', .ok w') := by
  induction fuel generalizing c w with
  | zero => simp [cliLoop]
  | succ fuel ih =>
    intro h
    rw [cliLoop] at h
    unfold runOneStep Clock.advance at h
    rw [hs] at h
    simp only [not_lt.mpr hle, if_false] at h
    split at h
    · rename_i hr
      simp only [Prod.mk.injEq] at hr
      exact ha _ _ _ hr.2
    · cases h
    · rename_i c1 w1 hr
      simp only [Prod.mk.injEq] at hr
      obtain ⟨rfl, _⟩ := hr
      split at h
      · rename_i hr
        exact hp _ hr
      · cases h
      · rename_i w2 _
        exact ih ⟨c.start, some stop, c.step, c.time + c.step⟩ w2 rfl hstep
          (by dsimp only; linarith) h

/-- C107: with a positive step every run comes to an end. -/
theorem run_ends [FloorRing K] (m : Ready K) (h : 0 < m.clock.step) :
    ∃ n, ∀ fuel, n ≤ fuel → m.run fuel ≠ .running := by
  cases hs : m.clock.stop with
  | none =>
    refine ⟨0, fun fuel _ => ?_⟩
    rw [(run_needs_stop_and_step m fuel).1 hs]
    simp
  | some stop =>
    refine ⟨⌊(stop - m.clock.time) / m.clock.step⌋₊ + 1, fun fuel hf hrun => ?_⟩
    have hn : liveRun m.env m.inp m.view (fun _ => m.porosity) fuel m.clock (m.cfg, m.live) =
        none := by
      unfold Ready.run at hrun
      split at hrun
      · cases hrun
      · split at hrun
        · assumption
        · cases hrun
        · cases hrun
    have := cliLoop_none _ _ fuel m.clock _ stop hs (by omega) h hn
    have h1 : (fuel : K) ≤ (stop - m.clock.time) / m.clock.step := by
      rw [le_div_iff₀ h]
      linarith
    have h2 := Nat.le_floor h1
    omega

/-- C107: with a negative step the clock does not reach `stop`: whatever the run does, the clock
goes on. Such a run ends only with an error of a component. -/
theorem backwards_never_stops (m : Ready K) (stop : K) (hs : m.clock.stop = some stop)
    (hneg : m.clock.step ≤ 0) (hle : m.clock.time + m.clock.step ≤ stop) (clock : Clock K)
    (s : Cfg × Live m.R m.C K (Option K)) (hp : Passes m clock s) :
    ∃ clock', clock.advance = (clock', .ok ()) := by
  have key : clock.stop = some stop ∧ clock.step = m.clock.step ∧ clock.time + clock.step ≤ stop := by
    induction hp with
    | start => exact ⟨hs, rfl, hle⟩
    | step _ hr ih =>
      obtain ⟨h1, h2, h3⟩ := ih
      unfold runOneStep Clock.advance at hr
      rw [h1] at hr
      simp only [not_lt.mpr h3, if_false, Prod.mk.injEq] at hr
      obtain ⟨rfl, _⟩ := hr
      exact ⟨rfl, h2, by dsimp only; rw [h2] at h3 ⊢; linarith⟩
    | change _ _ ih => exact ih
  obtain ⟨h1, h2, h3⟩ := key
  unfold Clock.advance
  rw [h1]
  simp only [not_lt.mpr h3, if_false]
  exact ⟨_, rfl⟩

/-- C107: a run that has not come to an end after `fuel` rounds has made `fuel` steps. -/
theorem running_means_steps [FloorRing K] (m : Ready K) (fuel : ℕ) (hf : 0 < fuel)
    (h : m.run fuel = .running) : ∃ stop, m.clock.stop = some stop ∧ m.clock.step ≠ 0 ∧
      (0 < m.clock.step → m.clock.time + fuel * m.clock.step ≤ stop) := by
  cases hs : m.clock.stop with
  | none =>
    rw [(run_needs_stop_and_step m fuel).1 hs] at h
    cases h
  | some stop =>
    refine ⟨stop, rfl, fun h0 => ?_, fun hpos => ?_⟩
    · rw [(run_needs_stop_and_step m fuel).2 stop hs h0] at h
      cases h
    · have hn : liveRun m.env m.inp m.view (fun _ => m.porosity) fuel m.clock (m.cfg, m.live) =
          none := by
        unfold Ready.run at h
        split at h
        · cases h
        · split at h
          · assumption
          · cases h
          · cases h
      exact cliLoop_none _ _ fuel m.clock _ stop hs hf hpos hn

/-! ### C106 -/

theorem noTuples_erase {d : Doc} (h : NoTuples d) (k : String) : NoTuples (d.erase k) := by
  induction d with
  | nil => trivial
  | leaf a v r ih =>
    simp only [Doc.erase]
    split_ifs
    · exact h.2
    · exact ⟨h.1, ih h.2⟩
  | sub a s r _ ih =>
    simp only [Doc.erase]
    split_ifs
    · exact h.2
    · exact ⟨h.1, ih h.2⟩

/-- C106, partial: `sequence run` does not start if the first section has a parameter, for a process
that is turned on, that its component does not have. Missing: sections of other names and later
sections (next theorems). -/
theorem unknown_parameters_partial (ext : Externals K) (times : List ℕ) (files : List (List Doc))
    (d : Doc) (hfirst : files.flatten.head? = some d) (hd : DistinctKeys d) (ht : NoTuples d)
    (fs fs' : FileSystem K (Option K)) (m : Ready K)
    (h : runSetup ext times files fs = (fs', .ok m)) (name key : String) (hname : Enabled d name)
    (path : List String) (v : Leaf) (hv : valueAt d (name :: key :: path) = some v) :
    HasParameter ext.passedOn name key := by
  unfold runSetup at h
  split_ifs at h
  · cases h
  split at h
  · cases h
  rename_i p hp
  obtain ⟨docs, c, e, names, h1, h2, h3, h4, R, C, env, s0, r, h5⟩ := prepare_created hp
  obtain ⟨_, _, _, d1, ds, rfl, hcur⟩ := Cfg.init_ok h2
  obtain ⟨d', hd', hdd⟩ := loadFiles_head h1
  rw [hfirst] at hd'
  cases hd'
  have hall : DistinctKeys d1 ∧ NoTuples d1 ∧ ∀ k, k ≠ "_time" → d1.find? k = d.find? k := by
    rcases hdd with rfl | rfl
    · exact ⟨hd, ht, fun _ _ => rfl⟩
    · exact ⟨Doc.distinct_erase hd _, noTuples_erase ht _, fun k hk => by
        rw [Doc.find?_erase hd, if_neg (by rintro rfl; exact hk rfl)]⟩
  obtain ⟨hd1, ht1, hf1⟩ := hall
  have he : e = prune d1 := by
    have : c.asDict = .ok (prune d1) := by
      unfold Cfg.asDict Doc.expand
      rw [hcur, stored, Doc.flatten_eq hd1]
      exact Doc.addItems_walk d1 .nil hd1 ht1 (by simp [Doc.keys])
    rw [this] at h3
    exact (Except.ok.inj h3).symm
  have hde : DistinctKeys e := (Doc.expand_from h3).1
  have hfe : ∀ k, k ≠ "_time" → k ≠ "plot" → (e.erase "plot").find? k = match d.find? k with
      | none => none
      | some (.inl v) => some (.inl v)
      | some (.inr s) => if prune s = .nil then none else some (.inr (prune s)) := by
    intro k h1 h2
    rw [Doc.find?_erase hde, if_neg (by rintro rfl; exact h2 rfl), he, Doc.find?_prune hd1,
      hf1 k h1]
    rfl
  have hmem : name ∈ withRequired names := by
    rw [withRequired_mem, allProcesses, List.mem_append]
    rcases hname with hname | ⟨xs, hx, hname⟩ | ⟨hx, hname⟩
    · exact .inr (by simpa using hname)
    · left
      unfold processNames at h4
      rw [hfe _ (by decide) (by decide), hx] at h4
      cases h4
      exact List.mem_filterMap.mpr ⟨_, hname, rfl⟩
    · left
      have hx' := (hfe "processes" (by decide) (by decide)).trans
        ((Doc.find?_prune hd "processes").symm.trans hx)
      unfold processNames at h4
      rw [hx'] at h4
      cases h4
      exact hname
  obtain ⟨cls, hcls, q, hq⟩ := createNamed_mem h5 name hmem
  have hnt : name ≠ "_time" ∧ name ≠ "plot" := by
    constructor <;> (rintro rfl; simp [processClass] at hcls)
  rw [valueAt_cons] at hv
  cases hs : d.find? name with
  | none => rw [hs] at hv; cases hv
  | some x =>
    rw [hs] at hv
    cases x with
    | inl u => cases hv
    | inr s =>
      dsimp only at hv
      have hss := hfe name hnt.1 hnt.2
      rw [hs] at hss
      dsimp only at hss
      have hdist : DistinctKeys s := Doc.distinct_find? hd hs
      have hkey : (prune s).find? key ≠ none := by
        rw [Doc.find?_prune hdist]
        cases path with
        | nil =>
          rw [valueAt_single] at hv
          cases hk : s.find? key with
          | none => rw [hk] at hv; cases hv
          | some y =>
            rw [hk] at hv
            cases y with
            | inl u => simp
            | inr s' => cases hv
        | cons a path =>
          rw [valueAt_cons] at hv
          cases hk : s.find? key with
          | none => rw [hk] at hv; cases hv
          | some y =>
            rw [hk] at hv
            cases y with
            | inl u => cases hv
            | inr s' =>
              dsimp only at hv
              dsimp only
              rw [if_neg]
              · simp
              · intro hn
                rw [Doc.prune_eq_nil_iff] at hn
                have := Doc.get?_walk (Doc.distinct_find? hdist hk) (a :: path)
                rw [hn, hv] at this
                cases this
      have hne : prune s ≠ .nil := by
        intro hn
        rw [hn] at hkey
        exact hkey rfl
      rw [if_neg hne] at hss
      refine ofKwargs_known hcls hq ?_
      exact matchedParams_keeps hmem (Doc.get?_sections hss) (by rw [Doc.get?_items]; exact hkey)

/-! ### A concrete run -/

/-- The outer world: files of elevations, sea levels and subsidence, and a model with one row of
three nodes. -/
def exExt : Externals ℚ where
  readCurve := fun path _ =>
    if path = "bathymetry.csv" then .ok fun x => .ok (1 - x)
    else if path = "sea_level.csv" then .ok fun t => .ok (1/2 - t / 1000)
    else .error .osError
  sinusoidal := fun _ _ _ mean _ _ => .ok mean
  passedOn := fun _ => []
  env := fun _ _ _ =>
    { kind := linearKind, xtol := 2/10^12, rtol := 1/10^15, expf := fun _ => 1/2,
      sqrtf := fun _ => 4, solve := fun _ _ z => .ok z, flex := fun load c => load c / 1000000,
      flexWater := fun load _ r c => load r c / 1000000,
      compact := fun _ l => .ok { l with dz := fun c => (l.dz c).map (· / 2) },
      gravity := 10, dx := 1, x := fun c => c.val }
  geometry := fun _ => exGeo
  porosityMax := 1/2

/-- A configuration with the given clock, output section and further sections. -/
def exTimed (clock output more : Doc) : Doc :=
  .sub "grid" (.leaf "n_cols" (.num 3) (.leaf "spacing" (.num 1) .nil)) <|
  .sub "bathymetry" (.leaf "filepath" (.str "bathymetry.csv") .nil) <|
  .sub "clock" clock <|
  .leaf "processes" (.list [.str "sea_level"]) <|
  .sub "sea_level" (.leaf "filepath" (.str "sea_level.csv") .nil) <|
  .sub "shoreline" (.leaf "alpha" (.num 1) .nil) <|
  .sub "output" output more

/-- The same with two steps of 100 years. -/
def exConfig (output more : Doc) : Doc :=
  exTimed (.leaf "start" (.num 0) (.leaf "stop" (.num 200) (.leaf "step" (.num 100) .nil))) output
    more

/-- The kind of an entry: absent 0, directory 1, link to nothing 2, other file 3, dataset 4. -/
def entryKind : Entry ℚ (Option ℚ) → ℕ
  | .absent => 0
  | .dir => 1
  | .danglingLink => 2
  | .raw => 3
  | .dataset _ => 4

/-- How a command ended and what became of a path. -/
def exOutcome (path : String) : Outcome ℚ → ℕ × Option ℕ × Option Err
  | .running => (0, none, none)
  | .finished fs => (1, some (entryKind (fs path)), none)
  | .failed e fs => (2, fs.map fun fs => entryKind (fs path), some e)

def exRunFiles : FileSystem ℚ (Option ℚ) := fun p =>
  if p = "old.nc" then .raw else .absent

def exContents (d : Doc) (more : List Doc) (name : List Char) : List Doc :=
  if name = "sequence0.toml".toList then [d] else more

/-- Names of configuration files. -/
def exEntries : List (List Char) := ["sequence0.toml".toList, "sequence1.toml".toList]

/-- An output section. -/
def exOutSection (path : String) (clobber : Bool) : Doc :=
  .leaf "filepath" (.str path) <|
    if clobber then .leaf "clobber" (.num 1) .nil else .nil

/-- The command with one file per given section. -/
def exCommand (dryRun : Bool) (d : Doc) (more : List Doc) : Outcome ℚ :=
  runCommand exExt (exEntries.take (1 + more.length)) (exContents d more) dryRun 5 exRunFiles

theorem exConfig_distinct (output more : Doc) (h1 : DistinctKeys output) (h2 : DistinctKeys more)
    (h3 : ∀ k ∈ more.keys, k ∉ ["grid", "bathymetry", "clock", "processes", "sea_level",
      "shoreline", "output"]) : DistinctKeys (exConfig output more) := by
  have hk : ∀ k ∈ ["grid", "bathymetry", "clock", "processes", "sea_level", "shoreline",
      "output"], k ∉ more.keys := fun k hk hm => h3 k hm hk
  simp only [List.mem_cons, List.not_mem_nil, or_false, forall_eq_or_imp, forall_eq] at hk
  obtain ⟨k1, k2, k3, k4, k5, k6, k7⟩ := hk
  simp [exConfig, exTimed, DistinctKeys, Doc.keys, h1, h2, k1, k2, k3, k4, k5, k6, k7]

theorem exOutSection_distinct (path : String) (clobber : Bool) :
    DistinctKeys (exOutSection path clobber) := by
  cases clobber <;> simp [exOutSection, DistinctKeys, Doc.keys]

/-- A run of two steps that writes a file. -/
theorem exCommand_writes :
    exOutcome "out.nc" (exCommand false (exConfig (exOutSection "out.nc" false) .nil) []) =
      (1, some 4, none) := by
  decide +kernel

/-- C104: the file written is the one named; the other file is as before. -/
example : ∃ fs', filesAfter (exCommand false (exConfig (exOutSection "out.nc" false) .nil) []) =
    some fs' ∧ fs' "out.nc" ≠ exRunFiles "out.nc" ∧ ∀ path, fs' path ≠ exRunFiles path →
      NamedOutput [[exConfig (exOutSection "out.nc" false) .nil]] path := by
  have h := exCommand_writes
  cases ho : exCommand false (exConfig (exOutSection "out.nc" false) .nil) [] with
  | running => rw [ho] at h; cases h
  | failed e fs => rw [ho] at h; simp [exOutcome] at h
  | finished fs' =>
    rw [ho] at h
    refine ⟨fs', rfl, ?_, ?_⟩
    · intro he
      simp [exOutcome, he, exRunFiles, entryKind] at h
    · intro path hne
      have hn : (findConfigFiles (exEntries.take 1)).2 = ["sequence0.toml".toList] := by
        decide +kernel
      have := run_command_touches_only_outputs exExt (exEntries.take 1)
        (exContents (exConfig (exOutSection "out.nc" false) .nil) []) (by
          intro n hm d hd
          rw [hn, List.mem_singleton] at hm
          subst hm
          simp only [exContents, if_true, List.mem_singleton] at hd
          subst hd
          exact exConfig_distinct _ _ (exOutSection_distinct ..) trivial (by simp [Doc.keys]))
        false 5 exRunFiles fs' (by
          unfold exCommand at ho
          simp only [List.length_nil, Nat.add_zero] at ho
          rw [ho]
          rfl) path hne
      rw [hn] at this
      simpa [exContents] using this

/-- C105: without `clobber` the run is refused and the file stays. -/
example : exOutcome "old.nc" (exCommand false (exConfig (exOutSection "old.nc" false) .nil) []) =
    (2, some 3, some .runtimeError) := by
  decide +kernel

/-- The first section of that run does not ask to replace files. -/
example : AsksToKeep [[exConfig (exOutSection "old.nc" false) .nil]] := by
  intro d hd p v hv
  simp only [List.flatten_cons, List.flatten_nil, List.append_nil, List.head?_cons,
    Option.mem_def, Option.some.injEq] at hd
  subst hd
  cases p <;> simp [exConfig, exTimed, exOutSection, valueAt, Doc.find?] at hv

/-- C103, false: with `clobber` a dry run deletes the output file of an earlier run. -/
theorem dry_run_deletes : ∃ (d : Doc) (fs : FileSystem ℚ (Option ℚ)),
    DistinctKeys d ∧ exRunFiles "old.nc" = .raw ∧
      exCommand true d [] = .finished fs ∧ fs "old.nc" = .absent := by
  have h : exOutcome "old.nc" (exCommand true (exConfig (exOutSection "old.nc" true) .nil) []) =
      (1, some 0, none) := by decide +kernel
  cases ho : exCommand true (exConfig (exOutSection "old.nc" true) .nil) [] with
  | running => rw [ho] at h; cases h
  | failed e fs => rw [ho] at h; simp [exOutcome] at h
  | finished fs =>
    rw [ho] at h
    refine ⟨exConfig (exOutSection "old.nc" true) .nil, fs, exConfig_distinct _ _ (exOutSection_distinct ..) trivial (by simp [Doc.keys]), rfl,
      ho, ?_⟩
    cases hf : fs "old.nc" <;> simp [exOutcome, hf, entryKind] at h ⊢

/-- C103: a dry run that changes nothing. -/
example : exOutcome "out.nc" (exCommand true (exConfig (exOutSection "out.nc" false) .nil) []) =
    (1, some 0, none) := by
  decide +kernel

/-- C106: a misspelled parameter in the first section stops the program. -/
example : exOutcome "out.nc" (exCommand false (exConfig (exOutSection "out.nc" false)
      (.sub "fluvial" (.leaf "sandfrac" (.num (1/5)) .nil) .nil)) []) =
    (2, some 0, some .typeError) := by
  decide +kernel

theorem sandfrac_unknown : ¬ HasParameter exExt.passedOn "fluvial" "sandfrac" := by
  rintro (⟨q, hq, h1, h2⟩ | ⟨q, hq, h1, h2⟩)
  · revert h1 h2
    revert q
    decide
  · cases h2

/-- C106, false of later sections: the misspelled parameter is ignored. -/
theorem unknown_parameter_later_ignored :
    ¬ HasParameter exExt.passedOn "fluvial" "sandfrac" ∧
      ∃ fs, exCommand false (exConfig (exOutSection "out.nc" false) .nil)
        [.sub "fluvial" (.leaf "sandfrac" (.num (1/5)) .nil) .nil] = .finished fs := by
  refine ⟨sandfrac_unknown, ?_⟩
  have h : exOutcome "out.nc" (exCommand false (exConfig (exOutSection "out.nc" false) .nil)
      [.sub "fluvial" (.leaf "sandfrac" (.num (1/5)) .nil) .nil]) = (1, some 4, none) := by
    decide +kernel
  cases ho : exCommand false (exConfig (exOutSection "out.nc" false) .nil)
      [.sub "fluvial" (.leaf "sandfrac" (.num (1/5)) .nil) .nil] with
  | running => rw [ho] at h; cases h
  | failed e fs => rw [ho] at h; simp [exOutcome] at h
  | finished fs => exact ⟨fs, rfl⟩

/-- C106, false of misspelled sections: the first section may have any others. -/
theorem unknown_section_ignored :
    ∃ fs, exCommand false (exConfig (exOutSection "out.nc" false)
      (.sub "fluvail" (.leaf "sand_frac" (.num (1/5)) .nil) .nil)) [] = .finished fs := by
  have h : exOutcome "out.nc" (exCommand false (exConfig (exOutSection "out.nc" false)
      (.sub "fluvail" (.leaf "sand_frac" (.num (1/5)) .nil) .nil)) []) = (1, some 4, none) := by
    decide +kernel
  cases ho : exCommand false (exConfig (exOutSection "out.nc" false)
      (.sub "fluvail" (.leaf "sand_frac" (.num (1/5)) .nil) .nil)) [] with
  | running => rw [ho] at h; cases h
  | failed e fs => rw [ho] at h; simp [exOutcome] at h
  | finished fs => exact ⟨fs, rfl⟩

/-- C107: there is a model ready to run with a positive step, and it runs. -/
example : ∃ m fs', runSetup exExt [0] [[exConfig (exOutSection "out.nc" false) .nil]] exRunFiles =
    (fs', .ok m) ∧ 0 < m.clock.step ∧ ∃ n, ∀ fuel, n ≤ fuel → m.run fuel ≠ .running := by
  have h : ((runSetup exExt [0] [[exConfig (exOutSection "out.nc" false) .nil]] exRunFiles).2.map
      fun m => m.clock.step).toOption = some 100 := by decide +kernel
  rcases hs : runSetup exExt [0] [[exConfig (exOutSection "out.nc" false) .nil]] exRunFiles with
    ⟨fs', r⟩
  rw [hs] at h
  cases r with
  | error e => cases h
  | ok m =>
    have h1 : m.clock.step = 100 := by simpa [Except.map, Except.toOption] using h
    exact ⟨m, fs', rfl, by rw [h1]; norm_num, run_ends m (by rw [h1]; norm_num)⟩

/-- C107: a clock without `stop`, a clock with step 0, a clock that runs backwards. -/
example : exOutcome "out.nc" (exCommand false (exTimed (.leaf "step" (.num 100) .nil)
      (exOutSection "out.nc" false) .nil) []) = (2, some 0, some .typeError) ∧
    exOutcome "out.nc" (exCommand false (exTimed
      (.leaf "stop" (.num 200) (.leaf "step" (.num 0) .nil)) (exOutSection "out.nc" false) .nil) []) =
      (2, some 0, some .zeroDivision) ∧
    exOutcome "out.nc" (exCommand false (exTimed
      (.leaf "stop" (.num 200) (.leaf "step" (.num (-100)) .nil)) (exOutSection "out.nc" false) .nil)
      []) = (0, none, none) := by
  refine ⟨?_, ?_, ?_⟩ <;> decide +kernel

end Verif.Props
