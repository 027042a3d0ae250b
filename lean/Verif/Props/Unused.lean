import Verif.Props.Setup
import Verif.Props.Live

/-!
# C109: sections that are not used have no effect
-/

set_option autoImplicit false
set_option linter.unusedSectionVars false

namespace Verif.Props

open Spec

variable {K : Type} [Field K] [LinearOrder K] [IsStrictOrderedRing K]

/-! ### A configuration with one section, in force from the start -/

theorem bisect_single {t : ℚ} (ht : 0 ≤ t) : bisectRight [(0 : ℚ)] t = 1 := by
  simp [bisectRight, bisectLoop, not_lt.mpr ht]

/-- Without further sections the parameters do not change. -/
theorem liveRun_single {R C : ℕ} {A : Type*} (env : Env R C K) (inp : Inputs K)
    (view : ProcState R C K → World R (C + 2) K → GridView A) (porosity : LiveState R C K A → K)
    (fuel : ℕ) (clock : Clock K) (c : Cfg) (hc : c.times = [0]) (ht : 0 ≤ c.time)
    (l : Live R C K A) :
    (liveRun env inp view porosity fuel clock (c, l)).map (fun r => (r.1, r.2.map Prod.snd)) =
      runLoop (Live.advance env view porosity) fuel clock l := by
  induction fuel generalizing clock c l with
  | zero => rfl
  | succ fuel ih =>
    rw [liveRun, cliLoop, runLoop]
    unfold runOneStep
    rcases hck : clock.advance with ⟨ck', e | u⟩
    · cases e <;> rfl
    · dsimp only
      cases ha : l.advance env view porosity ck'.time (effectiveStep clock.step none) with
      | error e => cases e <;> rfl
      | ok l1 =>
        dsimp only
        have hup : c.update 1 = .ok (.nil, { c with time := c.time + 1 }) := by
          unfold Cfg.update Cfg.bisectTimes
          dsimp only
          rw [hc, bisect_single ht, bisect_single (by linarith)]
          simp
        have hr : liveRound env inp (c, l1) = .ok ({ c with time := c.time + 1 }, l1) := by
          unfold liveRound
          rw [hup]
          rfl
        rw [hr]
        dsimp only
        exact ih ck' { c with time := c.time + 1 } hc (by dsimp only; linarith) l1

/-! ### The setup -/

/-- The part of the setup that uses the configuration. -/
def prepareFrom (ext : Externals K) (cfg : Cfg) (d : Doc) : Except Err (Prepared K) := do
  let gridArgs ← sectionOf d "grid"
  let bathymetry ← sectionOf d "bathymetry"
  let (R, C, info) ← loadGrid (K := K) gridArgs
  let x : Fin (C + 2) → K := fun c => c.val * info.dx
  let w ← loadBathymetry ext x bathymetry (newWorld R (C + 2))
  let names ← processNames d
  let clockArgs ← sectionOf d "clock"
  let output ← sectionOf d "output"
  let params := matchedParams (withRequired names) d.sections
  describeParams params
  let env : Env R C K := { ext.env R C params with dx := info.dx, x := x }
  let (ps, s, w') ← createNamed ext env params (withRequired names) (newProcState R C, w)
  let clock : Clock K ← loadClock clockArgs
  let args : WriterArgs K ← loadWriter output
  let procs : PyDict String (Process K) := PyDict.ofPairs ps
  let porosity ← porosityArg ext procs.keys (groupOf params "compaction")
  let inp : Inputs K :=
    ⟨((groupOf params "sea_level").get? "filepath").isSome,
      fun path => ext.readCurve path (kindOf params "sea_level"),
      fun path => ext.readCurve path (kindOf params "subsidence")⟩
  .ok ⟨args, R, fun q =>
    match modelInit clock.start (fun t (q : ProcState R C K) => { q with seaTime := t }) s w' with
    | .error e => .error e
    | .ok m => .ok ⟨R, C, env, inp, fun _ => worldView (ext.geometry info), porosity, clock, cfg,
        ⟨List.map Prod.snd procs, ⟨(m.comps, q), m.world, m.archived⟩⟩⟩⟩

theorem prepare_eq (ext : Externals K) (times : List ℕ) (files : List (List Doc)) :
    prepare ext times files =
      (Cfg.fromFiles files (some (times.map fun t : ℕ => (t : ℚ)))) >>= fun cfg =>
        cfg.asDict >>= fun d => prepareFrom ext cfg (d.erase "plot") := rfl

/-- A prepared model with another configuration object. -/
def Prepared.withCfg (c : Cfg) (p : Prepared K) : Prepared K :=
  { p with finish := fun q => (p.finish q).map fun m => { m with cfg := c } }

theorem initialParams_congr {ps : List String} {c1 c2 : PyDict String Kwargs}
    (h : ∀ p ∈ ps, c1.get? p = c2.get? p) : initialParams ps c1 = initialParams ps c2 := by
  unfold initialParams
  congr 1
  refine List.map_congr_left fun p hp => ?_
  unfold groupOf
  rw [h p hp]

theorem sections_congr {d e : Doc} (hd : DistinctKeys d) (he : DistinctKeys e) {k : String}
    (h : d.find? k = e.find? k) : PyDict.get? d.sections k = PyDict.get? e.sections k := by
  rcases hk : d.find? k with _ | v | s
  · rw [get?_sections_none hd (by rw [hk]; simp), get?_sections_none he (by rw [← h, hk]; simp)]
  · rw [get?_sections_none hd (by rw [hk]; simp), get?_sections_none he (by rw [← h, hk]; simp)]
  · rw [Doc.get?_sections hk, Doc.get?_sections (h ▸ hk)]

/-- What the clock and the output writer make of a configuration. -/
def clockOf (K : Type) [Field K] [LinearOrder K] (d : Doc) : Except Err (Except Err (Clock K)) :=
  (sectionOf d "clock").map loadClock

@[inherit_doc clockOf]
def outputOf (K : Type) [Field K] [LinearOrder K] (d : Doc) :
    Except Err (Except Err (WriterArgs K)) :=
  (sectionOf d "output").map loadWriter

/-- The setup depends only on the sections that it uses. -/
theorem prepareFrom_congr (ext : Externals K) (c1 c2 : Cfg) {d e : Doc} (hd : DistinctKeys d)
    (he : DistinctKeys e) (h1 : e.find? "grid" = d.find? "grid")
    (h2 : e.find? "bathymetry" = d.find? "bathymetry") (h3 : clockOf K e = clockOf K d)
    (h4 : outputOf K e = outputOf K d) (h5 : e.find? "processes" = d.find? "processes")
    (h6 : ∀ names, processNames d = .ok names → ∀ n ∈ withRequired names,
      e.find? n = d.find? n) :
    prepareFrom ext c2 e = (prepareFrom ext c1 d).map (Prepared.withCfg c2) := by
  have hs : ∀ k, e.find? k = d.find? k → sectionOf e k = sectionOf d k := by
    intro k hk
    unfold sectionOf
    rw [hk]
  have hp : processNames e = processNames d := by
    unfold processNames
    rw [h5]
  have hm : ∀ names, processNames d = .ok names →
      matchedParams (withRequired names) e.sections =
        matchedParams (withRequired names) d.sections := by
    intro names hn
    unfold matchedParams
    rw [initialParams_congr fun p hp => sections_congr he hd (h6 names hn p hp)]
  unfold prepareFrom
  rw [hs _ h1, hs _ h2, hp]
  simp only [bind, Except.bind]
  split
  · rfl
  split
  · rfl
  split
  · rfl
  split
  · rfl
  split
  · rfl
  rename_i names hn
  rw [hm names hn]
  unfold clockOf at h3
  unfold outputOf at h4
  cases hc1 : sectionOf d "clock" with
  | error x =>
    cases hc2 : sectionOf e "clock" with
    | error y => rw [hc1, hc2] at h3; cases h3; rfl
    | ok y => rw [hc1, hc2] at h3; cases h3
  | ok clock1 =>
  cases hc2 : sectionOf e "clock" with
  | error y => rw [hc1, hc2] at h3; cases h3
  | ok clock2 =>
  rw [hc1, hc2] at h3
  replace h3 := Except.ok.inj h3
  cases ho1 : sectionOf d "output" with
  | error x =>
    cases ho2 : sectionOf e "output" with
    | error y => rw [ho1, ho2] at h4; cases h4; rfl
    | ok y => rw [ho1, ho2] at h4; cases h4
  | ok output1 =>
  cases ho2 : sectionOf e "output" with
  | error y => rw [ho1, ho2] at h4; cases h4
  | ok output2 =>
  rw [ho1, ho2] at h4
  replace h4 := Except.ok.inj h4
  dsimp only
  rw [h3, h4]
  split
  · rfl
  split
  · rfl
  split
  · rfl
  split
  · rfl
  split
  · rfl
  simp only [Except.map, Prepared.withCfg]
  congr 2
  funext q
  split <;> rfl

/-- A configuration of one section. -/
theorem fromFiles_single (t : ℚ) (d : Doc) (hd : DistinctKeys d) (ht : NoTuples d) :
    (Cfg.fromFiles [[d]] (some [t]) = .error .typeError ∧
      ∃ v, d.find? "_time" = some v ∧ ∀ q, v ≠ .inl (.num q)) ∨
    ∃ c e, Cfg.fromFiles [[d]] (some [t]) = .ok c ∧ c.times = [t] ∧ c.time = 0 ∧
      c.asDict = .ok e ∧ DistinctKeys e ∧
      (∀ k, e.find? k = if k = "_time" then none else (prune d).find? k) ∧
      (∀ v, d.find? "_time" = some v → ∃ q, v = .inl (.num q)) := by
  have hdict : ∀ d : Doc, DistinctKeys d → NoTuples d →
      Doc.expand (stored d) = .ok (prune d) := by
    intro d hd ht
    unfold Doc.expand
    rw [stored, Doc.flatten_eq hd]
    exact Doc.addItems_walk d .nil hd ht (by simp [Doc.keys])
  unfold Cfg.fromFiles
  simp only [Cfg.loadFiles, Cfg.load]
  rcases hv : d.find? "_time" with _ | v | s
  · right
    refine ⟨⟨[t], [stored d], 0, stored d⟩, prune d, rfl, rfl, rfl, hdict d hd ht, ?_, ?_, by simp⟩
    · exact (Doc.expand_from (hdict d hd ht)).1
    · intro k
      split_ifs with hk
      · rw [hk, Doc.find?_prune hd, hv]
      · rfl
  · cases v with
    | num q =>
      right
      have hd' := Doc.distinct_erase hd "_time"
      have ht' := noTuples_erase ht "_time"
      refine ⟨⟨[t], [stored (d.erase "_time")], 0, stored (d.erase "_time")⟩,
        prune (d.erase "_time"), rfl, rfl, rfl, hdict _ hd' ht', ?_, ?_, by simp⟩
      · exact (Doc.expand_from (hdict _ hd' ht')).1
      · intro k
        rw [Doc.find?_prune hd', Doc.find?_erase hd]
        by_cases hk : k = "_time"
        · simp [hk]
        · rw [if_neg hk, if_neg (by rintro rfl; exact hk rfl), Doc.find?_prune hd]
    | _ => exact .inl ⟨rfl, _, rfl, by simp⟩
  · exact .inl ⟨rfl, _, rfl, by simp⟩

/-- What the setup does with two configurations is what it does with the two dictionaries. -/
theorem setup_same_of (ext : Externals K) (d e : Doc) (hd : DistinctKeys d) (he : DistinctKeys e)
    (htd : NoTuples d) (hte : NoTuples e) (hT : e.find? "_time" = d.find? "_time")
    (hcongr : ∀ (c1 c2 : Cfg) (d' e' : Doc), DistinctKeys d' → DistinctKeys e' →
      (∀ k, d'.find? k = if k = "_time" then none else (prune d).find? k) →
      (∀ k, e'.find? k = if k = "_time" then none else (prune e).find? k) →
      prepareFrom ext c2 (e'.erase "plot") =
        (prepareFrom ext c1 (d'.erase "plot")).map (Prepared.withCfg c2))
    (fs : FileSystem K (Option K)) :
    (∃ err, (runSetup ext [0] [[d]] fs).2 = .error err ∧
      runSetup ext [0] [[e]] fs = runSetup ext [0] [[d]] fs) ∨
    ∃ fs' m c, runSetup ext [0] [[d]] fs = (fs', .ok m) ∧
      runSetup ext [0] [[e]] fs = (fs', .ok { m with cfg := c }) ∧
      m.cfg.times = [0] ∧ m.cfg.time = 0 ∧ c.times = [0] ∧ c.time = 0 := by
  have hprep : (∃ err, prepare ext [0] [[d]] = .error err ∧ prepare ext [0] [[e]] = .error err) ∨
      ∃ c1 c2 d', prepare ext [0] [[d]] = prepareFrom ext c1 d' ∧
        prepare ext [0] [[e]] = (prepareFrom ext c1 d').map (Prepared.withCfg c2) ∧
        c1.times = [0] ∧ c1.time = 0 ∧ c2.times = [0] ∧ c2.time = 0 := by
    have htimes : ([0] : List ℕ).map (fun t : ℕ => (t : ℚ)) = [0] := by simp
    rw [prepare_eq, prepare_eq, htimes]
    rcases fromFiles_single 0 d hd htd with ⟨h1, v, hv, hbad⟩ | ⟨c1, d', h1, ht1, hz1, hd', hdd',
        hfd, hgood⟩
    · left
      rcases fromFiles_single 0 e he hte with ⟨h2, -⟩ | ⟨c2, e', h2, -, -, -, -, -, hgood⟩
      · rw [h1, h2]
        exact ⟨_, rfl, rfl⟩
      · obtain ⟨q, hq⟩ := hgood v (hT.trans hv)
        exact absurd hq (hbad q)
    · right
      rcases fromFiles_single 0 e he hte with ⟨-, v, hv, hbad⟩ | ⟨c2, e', h2, ht2, hz2, he', hde',
          hfe, -⟩
      · obtain ⟨q, hq⟩ := hgood v (hT.symm.trans hv)
        exact absurd hq (hbad q)
      · refine ⟨c1, c2, d'.erase "plot", ?_, ?_, ht1, hz1, ht2, hz2⟩
        · rw [h1]
          simp only [bind, Except.bind, hd']
        · rw [h2]
          simp only [bind, Except.bind, he']
          exact hcongr c1 c2 d' e' hdd' hde' hfd hfe
  unfold runSetup
  rw [if_neg (by decide), if_neg (by decide)]
  rcases hprep with ⟨err, h1, h2⟩ | ⟨c1, c2, d', h1, h2, ht1, hz1, ht2, hz2⟩
  · left
    rw [h1, h2]
    exact ⟨err, rfl, rfl⟩
  · rw [h1, h2]
    cases hp : prepareFrom ext c1 d' with
    | error err => exact .inl ⟨err, rfl, rfl⟩
    | ok p =>
      have hcfg : ∀ q m, p.finish q = .ok m → m.cfg = c1 := by
        unfold prepareFrom at hp
        simp only [bind, Except.bind] at hp
        iterate 12 (split at hp; · cases hp)
        cases hp
        intro q m hm
        dsimp only at hm
        split at hm
        · cases hm
        · cases hm; rfl
      simp only [Except.map, Prepared.withCfg]
      split
      · exact .inl ⟨_, rfl, rfl⟩
      · split
        · exact .inl ⟨_, rfl, rfl⟩
        · rename_i fs' writer _ _ rows _
          cases hf : p.finish (writer, fs') with
          | error err => exact .inl ⟨err, rfl, rfl⟩
          | ok m =>
            refine .inr ⟨fs', m, c2, rfl, rfl, ?_, ?_, ht2, hz2⟩
            · rw [hcfg _ _ hf, ht1]
            · rw [hcfg _ _ hf, hz1]

/-- How the setup of two configurations compares that have the same clock and the same output and
agree otherwise where they are used. -/
theorem setup_same (ext : Externals K) (d e : Doc) (hd : DistinctKeys d) (he : DistinctKeys e)
    (htd : NoTuples d) (hte : NoTuples e)
    (hsame : ∀ k, k ∈ ["_time", "grid", "bathymetry", "processes"] ∨ Enabled d k →
      e.find? k = d.find? k)
    (hclock : clockOf K (prune e) = clockOf K (prune d))
    (houtput : outputOf K (prune e) = outputOf K (prune d))
    (fs : FileSystem K (Option K)) :
    (∃ err, (runSetup ext [0] [[d]] fs).2 = .error err ∧
      runSetup ext [0] [[e]] fs = runSetup ext [0] [[d]] fs) ∨
    ∃ fs' m c, runSetup ext [0] [[d]] fs = (fs', .ok m) ∧
      runSetup ext [0] [[e]] fs = (fs', .ok { m with cfg := c }) ∧
      m.cfg.times = [0] ∧ m.cfg.time = 0 ∧ c.times = [0] ∧ c.time = 0 := by
  refine setup_same_of ext d e hd he htd hte (hsame "_time" (.inl (by decide))) ?_ fs
  intro c1 c2 d' e' hdd' hde' hfd hfe
  have hagree : ∀ k, k ∈ ["_time", "grid", "bathymetry", "processes"] ∨ Enabled d k →
      (e'.erase "plot").find? k = (d'.erase "plot").find? k := by
    intro k hk
    rw [Doc.find?_erase hde', Doc.find?_erase hdd', hfe, hfd, Doc.find?_prune he,
      Doc.find?_prune hd, hsame k hk]
  refine prepareFrom_congr ext c1 c2 (Doc.distinct_erase hdd' _) (Doc.distinct_erase hde' _)
    (hagree _ (.inl (by decide))) (hagree _ (.inl (by decide))) ?_ ?_
    (hagree _ (.inl (by decide))) ?_
  · have hx : ∀ sec, sec ≠ "_time" → sec ≠ "plot" →
        sectionOf (e'.erase "plot") sec = sectionOf (prune e) sec := fun sec h1 h2 => by
      unfold sectionOf
      rw [Doc.find?_erase hde', if_neg (Ne.symm h2), hfe, if_neg h1]
    have hy : ∀ sec, sec ≠ "_time" → sec ≠ "plot" →
        sectionOf (d'.erase "plot") sec = sectionOf (prune d) sec := fun sec h1 h2 => by
      unfold sectionOf
      rw [Doc.find?_erase hdd', if_neg (Ne.symm h2), hfd, if_neg h1]
    unfold clockOf
    rw [hx _ (by decide) (by decide), hy _ (by decide) (by decide)]
    exact hclock
  · have hx : ∀ sec, sec ≠ "_time" → sec ≠ "plot" →
        sectionOf (e'.erase "plot") sec = sectionOf (prune e) sec := fun sec h1 h2 => by
      unfold sectionOf
      rw [Doc.find?_erase hde', if_neg (Ne.symm h2), hfe, if_neg h1]
    have hy : ∀ sec, sec ≠ "_time" → sec ≠ "plot" →
        sectionOf (d'.erase "plot") sec = sectionOf (prune d) sec := fun sec h1 h2 => by
      unfold sectionOf
      rw [Doc.find?_erase hdd', if_neg (Ne.symm h2), hfd, if_neg h1]
    unfold outputOf
    rw [hx _ (by decide) (by decide), hy _ (by decide) (by decide)]
    exact houtput
  intro names hn n hmem
  refine hagree n (.inr ((processNames_enabled hd ?_ hn n).mp hmem))
  rw [Doc.find?_erase hdd', if_neg (by decide), hfd, if_neg (by decide)]

/-- The end of the loop is the same whatever else is in the only section. -/
theorem run_single [FloorRing K] (m : Ready K) (c : Cfg) (h1 : m.cfg.times = [0])
    (h2 : m.cfg.time = 0) (h3 : c.times = [0]) (h4 : c.time = 0) (fuel : ℕ) :
    Ready.run { m with cfg := c } fuel = m.run fuel := by
  have ha := liveRun_single m.env m.inp m.view (fun _ => m.porosity) fuel m.clock m.cfg h1
    h2.ge m.live
  have hb := liveRun_single m.env m.inp m.view (fun _ => m.porosity) fuel m.clock c h3 h4.ge m.live
  rw [← hb] at ha
  unfold Ready.run
  dsimp only
  cases progressTotal m.clock with
  | error err => rfl
  | ok n =>
    dsimp only at ha ⊢
    generalize liveRun m.env m.inp m.view (fun _ => m.porosity) fuel m.clock (m.cfg, m.live) = r1
      at ha ⊢
    generalize liveRun m.env m.inp m.view (fun _ => m.porosity) fuel m.clock (c, m.live) = r2
      at ha ⊢
    rcases r1 with _ | ⟨ck, e1 | ⟨c1, l1⟩⟩ <;> rcases r2 with _ | ⟨ck', e2 | ⟨c2, l2⟩⟩ <;>
      simp [Except.map] at ha <;> simp [ha]

/-- `sequence run` with one of two configurations of which the setup makes the same. -/
theorem run_same_of [FloorRing K] (ext : Externals K) (d e : Doc) (fs : FileSystem K (Option K))
    (hsetup : (∃ err, (runSetup ext [0] [[d]] fs).2 = .error err ∧
        runSetup ext [0] [[e]] fs = runSetup ext [0] [[d]] fs) ∨
      ∃ fs' m c, runSetup ext [0] [[d]] fs = (fs', .ok m) ∧
        runSetup ext [0] [[e]] fs = (fs', .ok { m with cfg := c }) ∧
        m.cfg.times = [0] ∧ m.cfg.time = 0 ∧ c.times = [0] ∧ c.time = 0)
    (entries : List (List Char)) (name : List Char)
    (hfiles : findConfigFiles entries = ([0], [name])) (before after : List Char → List Doc)
    (h1 : before name = [d]) (h2 : after name = [e]) (dryRun : Bool) (fuel : ℕ) :
    runCommand ext entries after dryRun fuel fs = runCommand ext entries before dryRun fuel fs := by
  unfold runCommand
  rw [hfiles]
  simp only [List.map_cons, List.map_nil, h1, h2]
  rcases hsetup with ⟨err, -, heq⟩ |
      ⟨fs', m, c, hm, hm', t1, z1, t2, z2⟩
  · rw [heq]
  · rw [hm, hm']
    dsimp only
    cases dryRun
    · exact run_single m c t1 z1 t2 z2 fuel
    · rfl

/-- `sequence run` with one of two configurations that have the same clock and the same output and
agree otherwise where they are used. -/
theorem run_same [FloorRing K] (ext : Externals K) (d e : Doc)
    (hd : DistinctKeys d) (he : DistinctKeys e) (htd : NoTuples d) (hte : NoTuples e)
    (hsame : ∀ k, k ∈ ["_time", "grid", "bathymetry", "processes"] ∨ Enabled d k →
      e.find? k = d.find? k)
    (hclock : clockOf K (prune e) = clockOf K (prune d))
    (houtput : outputOf K (prune e) = outputOf K (prune d))
    (entries : List (List Char)) (name : List Char)
    (hfiles : findConfigFiles entries = ([0], [name])) (before after : List Char → List Doc)
    (h1 : before name = [d]) (h2 : after name = [e]) (dryRun : Bool) (fuel : ℕ)
    (fs : FileSystem K (Option K)) :
    runCommand ext entries after dryRun fuel fs = runCommand ext entries before dryRun fuel fs := 
  run_same_of ext d e fs (setup_same ext d e hd he htd hte hsame hclock houtput fs) entries name
    hfiles before after h1 h2 dryRun fuel

/-- C109: what a section contains that is not used - by its name or because its process is not turned
on - makes no difference to `sequence run` (without further sections), nor does the section `plot`. -/
theorem unused_sections [FloorRing K] (ext : Externals K) (d e : Doc)
    (hd : DistinctKeys d) (he : DistinctKeys e) (htd : NoTuples d) (hte : NoTuples e)
    (hsame : ∀ k, k ∈ usedSections ∨ Enabled d k → e.find? k = d.find? k)
    (entries : List (List Char)) (name : List Char)
    (hfiles : findConfigFiles entries = ([0], [name])) (before after : List Char → List Doc)
    (h1 : before name = [d]) (h2 : after name = [e]) (dryRun : Bool) (fuel : ℕ)
    (fs : FileSystem K (Option K)) :
    runCommand ext entries after dryRun fuel fs = runCommand ext entries before dryRun fuel fs := by
  have hs : ∀ k ∈ usedSections, sectionOf (prune e) k = sectionOf (prune d) k := by
    intro k hk
    unfold sectionOf
    rw [Doc.find?_prune he, Doc.find?_prune hd, hsame k (.inl hk)]
  refine run_same ext d e hd he htd hte ?_ ?_ ?_ entries name hfiles before after h1 h2 dryRun fuel fs
  · rintro k (hk | hk)
    · refine hsame k (.inl ?_)
      simp only [usedSections, List.mem_cons, List.not_mem_nil, or_false] at hk ⊢
      tauto
    · exact hsame k (.inr hk)
  · unfold clockOf
    rw [hs _ (by decide)]
  · unfold outputOf
    rw [hs _ (by decide)]

/-! ### Concrete cases -/

/-- C109: a sand fraction in a section `sediments` and the parameters of a process that is not turned on
have no effect. -/
example : exCommand false (exConfig (exOutSection "out.nc" false)
      (.sub "sediments" (.leaf "sand_frac" (.num (1/5)) .nil)
        (.sub "flexure" (.leaf "isostasytime" (.num 0) .nil) .nil))) [] =
    exCommand false (exConfig (exOutSection "out.nc" false) .nil) [] := by
  refine unused_sections exExt (exConfig (exOutSection "out.nc" false) .nil)
    (exConfig (exOutSection "out.nc" false) (.sub "sediments" (.leaf "sand_frac" (.num (1/5)) .nil)
      (.sub "flexure" (.leaf "isostasytime" (.num 0) .nil) .nil)))
    (exConfig_distinct _ _ (exOutSection_distinct ..) trivial (by simp [Doc.keys]))
    (exConfig_distinct _ _ (exOutSection_distinct ..) (by simp [DistinctKeys, Doc.keys])
      (by simp [Doc.keys])) ?_ ?_ ?_ (exEntries.take 1) "sequence0.toml".toList (by decide +kernel)
    _ _ (by simp [exContents]) (by simp [exContents]) false 5 exRunFiles
  · simp [exConfig, exTimed, exOutSection, NoTuples]
  · simp [exConfig, exTimed, exOutSection, NoTuples]
  · have key : ∀ k, k ≠ "sediments" → k ≠ "flexure" → ∀ out,
        (exConfig out (.sub "sediments" (.leaf "sand_frac" (.num (1/5)) .nil)
          (.sub "flexure" (.leaf "isostasytime" (.num 0) .nil) .nil))).find? k =
        (exConfig out .nil).find? k := by
      intro k h1 h2 out
      simp [exConfig, exTimed, Doc.find?, Ne.symm h1, Ne.symm h2]
    rintro k (hk | hk | ⟨xs, hx, hk⟩ | ⟨hx, hk⟩)
    · refine key k ?_ ?_ _ <;> (rintro rfl; simp [usedSections] at hk)
    · refine key k ?_ ?_ _ <;> (rintro rfl; simp at hk)
    · simp only [exConfig, exTimed, Doc.find?, String.reduceEq, if_false, if_true,
        Option.some.injEq, Sum.inl.injEq, Leaf.list.injEq] at hx
      subst hx
      refine key k ?_ ?_ _ <;> (rintro rfl; simp at hk)
    · simp [exConfig, exTimed, exOutSection, prune, Doc.find?] at hx

end Verif.Props
