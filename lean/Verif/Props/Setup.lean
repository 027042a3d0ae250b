import Verif.Lemmas.Setup

/-!
# C108: the configuration reaches the model

What `sequence run` makes of the first section of a configuration.
-/

set_option autoImplicit false
set_option linter.unusedSectionVars false

namespace Verif.Props

open Spec

section

variable {K : Type} [Field K] [LinearOrder K] [IsStrictOrderedRing K]
  {ext : Externals K} {times : List ℕ} {files : List (List Doc)}
  {fs fs' : FileSystem K (Option K)} {d : Doc} {m : Ready K}

/-- C108: the clock starts at `start`, ends at `stop` and goes by `step`; without them it starts at
0, does not end and goes by 1. -/
theorem setup_clock (h : SetsUp ext times files fs d fs' m) :
    IsNumber (entry d "clock" "start") 0 m.clock.start ∧
    IsOptNumber (entry d "clock" "stop") none m.clock.stop ∧
    IsNumber (entry d "clock" "step") 1 m.clock.step ∧ m.clock.time = m.clock.start := by
  obtain ⟨c, e, hm, hde, hfe⟩ := setsUp_made h
  cases hm with
  | mk hgrid hbathy hinfo hw hnames hclock houtput hdx hx hcreate htime hargs hpor hrows hwriter
      hms =>
    have hget := sectionOf_get? h.distinct (hfe _ (by decide) (by decide)) hclock
    unfold loadClock at htime
    simp only [bind_eq_ok] at htime
    obtain ⟨_, -, start, h1, stop, h2, step, h3, h4⟩ := htime
    cases h4
    have h1 := floatArg_ok h1
    have h2 := stopArg_ok h2
    have h3 := floatArg_ok h3
    rw [hget] at h1 h2 h3
    exact ⟨h1, h2, h3, rfl⟩

/-- The components of a model that is set up. -/
theorem setup_components (h : SetsUp ext times files fs d fs' m) :
    (∃ names, (∀ xs : List String,
        d.find? "processes" = some (.inl (.list (xs.map Leaf.str))) → names = xs) ∧
      ((prune d).find? "processes" = none → names = ["sea_level", "subsidence", "compaction",
        "submarine_diffusion", "fluvial", "flexure"]) ∧
      m.live.procs.map Process.name = firstAppearances (names ++ ["fluvial", "shoreline"])) ∧
    (∀ p ∈ m.live.procs, ∃ cls, ∃ params : PyDict String Kwargs,
      (∀ key, IsSetting d p.name key ((groupOf params p.name).get? key)) ∧
      processClass params p.name = some cls ∧
      Process.ofKwargs ext cls (groupOf params p.name) = .ok p) := by
  obtain ⟨c, e, hm, hde, hfe⟩ := setsUp_made h
  cases hm with
  | @mk _ _ _ _ _ _ _ _ _ names _ ps _ _ _ _ _ _ _ hgrid hbathy hinfo hw hnames hclock houtput hdx
      hx hcreate htime hargs hpor hrows hwriter hms =>
    obtain ⟨h1, h2, -⟩ := createNamed_ok hcreate
    have hen := processNames_enabled h.distinct (hfe _ (by decide) (by decide)) hnames
    have hcls : ∀ q ∈ ps, ∃ cls,
        processClass (matchedParams (withRequired names) e.sections) q.1 = some cls ∧
        Process.ofKwargs ext cls
          (groupOf (matchedParams (withRequired names) e.sections) q.1) = .ok q.2 ∧
        q.2.name = q.1 := by
      intro q hq
      obtain ⟨cls, hc, hk⟩ := h2 q hq
      exact ⟨cls, hc, hk, (ofKwargs_ok hc hk).1⟩
    have hkeys : List.map Process.name (List.map Prod.snd
        (PyDict.ofPairs ps : PyDict String (Process K))) =
        PyDict.keys (PyDict.ofPairs ps : PyDict String (Process K)) := by
      unfold PyDict.keys
      rw [List.map_map]
      refine List.map_congr_left fun q hq => ?_
      obtain ⟨_, _, _, hn⟩ := hcls q (mem_ofPairs hq)
      exact hn
    have hbad : ∀ n ∈ withRequired names,
        processClass (matchedParams (withRequired names) e.sections) n ≠ none := by
      intro n hn
      rw [← h1] at hn
      obtain ⟨q, hq, rfl⟩ := List.mem_map.mp hn
      obtain ⟨cls, hc, -⟩ := h2 q hq
      rw [hc]
      simp
    refine ⟨⟨names, ?_, ?_, ?_⟩, ?_⟩
    · intro xs hxs
      unfold processNames at hnames
      rw [hfe _ (by decide) (by decide), Doc.find?_prune h.distinct, hxs] at hnames
      cases hnames
      clear * -
      induction xs with
      | nil => rfl
      | cons x xs ih => simp only [List.map_cons, List.filterMap_cons, ih]
    · intro hn
      unfold processNames at hnames
      rw [hfe _ (by decide) (by decide), hn] at hnames
      cases hnames
      rfl
    · rw [hkeys, keys_ofPairs, h1]
      exact firstAppearances_withRequired names
    · intro p hp
      obtain ⟨q, hq, rfl⟩ := List.mem_map.mp hp
      obtain ⟨cls, hc, hk, hn⟩ := hcls q (mem_ofPairs hq)
      have hmem : q.1 ∈ withRequired names := by
        rw [← h1]
        exact List.mem_map.mpr ⟨q, mem_ofPairs hq, rfl⟩
      refine ⟨cls, matchedParams (withRequired names) e.sections, ?_, by rwa [hn], by rwa [hn]⟩
      intro key
      rw [hn]
      exact matched_setting h.distinct hde hfe hen (fun hs => hbad _ hs (by simp [processClass]))
        hmem (by rintro hq'; exact hbad _ hmem (by simp [hq', processClass]))
        (by rintro hq'; exact hbad _ hmem (by simp [hq', processClass])) key

/-- C108: the processes are those of the list `processes`, else the usual six, each once, in order of
first appearance, followed by `fluvial` and `shoreline` unless listed. -/
theorem setup_processes (h : SetsUp ext times files fs d fs' m) :
    (∀ names : List String, d.find? "processes" = some (.inl (.list (names.map Leaf.str))) →
      m.live.procs.map Process.name = firstAppearances (names ++ ["fluvial", "shoreline"])) ∧
    ((prune d).find? "processes" = none → m.live.procs.map Process.name =
      ["sea_level", "subsidence", "compaction", "submarine_diffusion", "fluvial", "flexure",
        "shoreline"]) := by
  obtain ⟨⟨names, h1, h2, h3⟩, -⟩ := setup_components h
  constructor
  · intro xs hxs
    rw [h3, h1 xs hxs]
  · intro hn
    rw [h3, h2 hn]
    decide

/-- C108: the numerical parameters of the components are those of their sections, else those of a
section that shares the parameter, else the defaults. -/
theorem setup_parameters (h : SetsUp ext times files fs d fs' m) (p : Process K)
    (hp : p ∈ m.live.procs) (key : String) (x : K) (hx : (key, x) ∈ numericParameters p) :
    ∃ v default, IsSetting d p.name key v ∧ (p.name, key, default) ∈ numericDefaults ∧
      IsNumber v (default : K) x := by
  obtain ⟨-, hc⟩ := setup_components h
  obtain ⟨cls, params, hs, hcls, hk⟩ := hc p hp
  obtain ⟨-, hnum, -⟩ := ofKwargs_ok hcls hk
  obtain ⟨default, hd, hn⟩ := hnum _ hx
  exact ⟨_, default, hs key, hd, hn⟩

/-- C108: the time scale of isostasy of the two flexure components; `None` is passed on. -/
theorem setup_isostasy (h : SetsUp ext times files fs d fs' m) (p : Process K)
    (hp : p ∈ m.live.procs) (t : Option K) (ht : isostasyTimeOf p = some t) :
    ∃ v, IsSetting d p.name "isostasytime" v ∧ IsOptNumber v (some 7000) t := by
  obtain ⟨-, hc⟩ := setup_components h
  obtain ⟨cls, params, hs, hcls, hk⟩ := hc p hp
  exact ⟨_, hs _, (ofKwargs_ok hcls hk).2.2.1 t ht⟩

/-- A process that shares no parameters only looks at its own section. -/
theorem isSetting_own {sec key : String} {v : Option PyValue} (h : IsSetting d sec key v)
    (hs : ∀ q ∈ sharing, q.1 ≠ sec) : v = entry d sec key := by
  rcases h with ⟨-, h⟩ | ⟨-, other, ⟨keys, hq, -⟩, -⟩ | ⟨h1, -, h2⟩
  · exact h
  · exact absurd rfl (hs _ hq)
  · rw [h1, h2]

/-- C108: the sea level follows the file, if there is one, else a sine; the rates of subsidence
follow their file. -/
theorem setup_curves (h : SetsUp ext times files fs d fs' m) :
    (∀ curve start, .seaLevel curve start ∈ m.live.procs →
      ReadFrom ext d "sea_level" curve ∨
      (entry d "sea_level" "filepath" = none ∧ ∃ waveLength amplitude phase mean linear,
        IsNumber (entry d "sea_level" "wave_length") 1 waveLength ∧
        IsNumber (entry d "sea_level" "amplitude") 1 amplitude ∧
        IsNumber (entry d "sea_level" "phase") 0 phase ∧
        IsNumber (entry d "sea_level" "mean") 0 mean ∧
        IsNumber (entry d "sea_level" "linear") 0 linear ∧
        curve = ext.sinusoidal waveLength amplitude phase mean linear)) ∧
    (∀ curve, .subsidence curve ∈ m.live.procs → ReadFrom ext d "subsidence" curve) := by
  obtain ⟨-, hc⟩ := setup_components h
  constructor
  · intro curve start hp
    obtain ⟨cls, params, hs, hcls, hk⟩ := hc _ hp
    have := (ofKwargs_ok hcls hk).2.2.2.1 _ _ rfl
    have hown := fun key => isSetting_own (hs key) (by simp only [Process.name]; decide)
    simp only [hown] at this
    exact this
  · intro curve hp
    obtain ⟨cls, params, hs, hcls, hk⟩ := hc _ hp
    have := (ofKwargs_ok hcls hk).2.2.2.2 _ rfl
    have hown := fun key => isSetting_own (hs key) (by simp only [Process.name]; decide)
    simp only [hown] at this
    exact this

/-- C108: the size of the grid. `shape` comes before `n_cols`, `spacing` before `xy_spacing`; the
columns are `dx` apart, starting at 0. -/
theorem setup_grid (h : SetsUp ext times files fs d fs' m) :
    (∃ sizes gaps,
      (IsNumbers (entry d "grid" "shape") sizes ∨
        (entry d "grid" "shape" = none ∧ IsNumbers (entry d "grid" "n_cols") sizes)) ∧
      (IsNumbers (entry d "grid" "spacing") gaps ∨
        (entry d "grid" "spacing" = none ∧
          IsNumbers (entry d "grid" "xy_spacing") gaps.reverse)) ∧
      IsGrid sizes gaps m.R (m.C + 2) m.env.dx) ∧
    ∀ c, m.env.x c = c.val * m.env.dx := by
  obtain ⟨c, e, hm, hde, hfe⟩ := setsUp_made h
  cases hm with
  | mk hgrid hbathy hinfo hw hnames hclock houtput hdx hx hcreate htime hargs hpor hrows hwriter
      hms =>
    have hget := sectionOf_get? h.distinct (hfe _ (by decide) (by decide)) hgrid
    have := loadGrid_ok hinfo
    simp only [hget] at this
    refine ⟨by rw [hdx]; exact this, fun c => ?_⟩
    rw [hx, hdx]

/-- C108: the initial surface is the curve of the section `bathymetry`; bedrock is 100 below it, the
sea level is 0, nothing is deposited, and there is one layer, of the age of the start. -/
theorem setup_surface (h : SetsUp ext times files fs d fs' m) :
    (∃ curve, ReadFrom ext d "bathymetry" curve ∧
      ∀ n, curve (m.env.x n.2) = .ok (m.live.state.world.topo n)) ∧
    (∀ n, m.live.state.world.bedrock n = m.live.state.world.topo n - 100) ∧
    m.live.state.world.seaLevel = 0 ∧ (∀ n, m.live.state.world.deposit n = 0) ∧
    EventLayers.empty.add (fun _ => 100)
      [("age", fun _ => m.clock.start),
        ("water_depth", fun c => -m.live.state.world.bedrock (nodeAtCell c)),
        ("t0", fun _ => 10), ("percent_sand", fun _ => 1/2), ("porosity", fun _ => 1/2)] =
      .ok m.live.state.world.layers ∧
    m.live.state.archived = 0 ∧ m.live.state.comps.1.seaTime = m.clock.start := by
  obtain ⟨c, e, hm, hde, hfe⟩ := setsUp_made h
  cases hm with
  | mk hgrid hbathy hinfo hw hnames hclock houtput hdx hx hcreate htime hargs hpor hrows hwriter
      hms =>
    have hget := sectionOf_get? h.distinct (hfe _ (by decide) (by decide)) hbathy
    obtain ⟨-, -, g1, g2, g3, g4⟩ := createNamed_ok hcreate
    obtain ⟨ev, k1, k2, k3, k4, k5, k6, k7, -, -, -, k8⟩ := modelInit_ok hms
    unfold loadBathymetry at hw
    simp only [bind_eq_ok] at hw
    obtain ⟨_, -, path, e1, kind, e2, curve, e3, w1, e4, e5⟩ := hw
    cases e5
    unfold bathymetryStep at e4
    split at e4
    · cases e4
    rename_i z hz
    cases e4
    have e1 := textArg_none e1
    have e2 := textArg_some e2
    rw [hget] at e1 e2
    dsimp only
    refine ⟨⟨curve, ⟨path, kind, e1, e2, e3⟩, fun n => ?_⟩, fun n => ?_, k7, fun n => ?_, ?_, k3, ?_⟩
    · rw [k5, g2, hx]
      exact (atColumns_ok_iff curve _).2.1 z hz n.2
    · rw [k5, k6, g2, g3]
      rfl
    · rw [k8, g4]
      rfl
    · rw [k2, k6, ← k1, g1]
      rfl
    · rw [k4]

/-- C108: the output file, the interval, the fields and the rows of the section `output`. -/
theorem setup_output (h : SetsUp ext times files fs d fs' m) :
    entry d "output" "filepath" = some (.inl (.str m.live.state.comps.2.1.filepath)) ∧
    ((entry d "output" "interval" = none ∧ m.live.state.comps.2.1.interval = 1) ∨
      entry d "output" "interval" = some (.inl (.num m.live.state.comps.2.1.interval))) ∧
    (∀ names : List String, entry d "output" "fields" = some (.inl (.list (names.map Leaf.str))) →
      m.live.state.comps.2.1.fields = names) ∧
    ((entry d "output" "fields" = none ∨ entry d "output" "fields" = some (.inl .none)) →
      m.live.state.comps.2.1.fields = []) ∧
    ((entry d "output" "rows" = none ∨ entry d "output" "rows" = some (.inl .none)) →
      m.live.state.comps.2.1.rows = (List.range m.R).map Int.ofNat) ∧
    (∀ rows : List ℤ, IsNumbers (entry d "output" "rows") (rows.map fun r : ℤ => (r : ℚ)) →
      m.live.state.comps.2.1.rows = rows.map fun r => r - 1) ∧
    m.live.state.comps.2.1.time = 0 ∧ m.live.state.comps.2.1.count = 0 ∧
    m.live.state.comps.2.2 = Function.update fs m.live.state.comps.2.1.filepath .absent ∧
    fs' = m.live.state.comps.2.2 := by
  obtain ⟨c, e, hm, hde, hfe⟩ := setsUp_made h
  cases hm with
  | @mk _ _ _ _ _ _ _ _ _ _ _ _ _ _ _ _ rows _ _ hgrid hbathy hinfo hw hnames hclock houtput hdx hx
      hcreate htime hargs hpor hrows hwriter hms =>
    have hget := sectionOf_get? h.distinct (hfe _ (by decide) (by decide)) houtput
    obtain ⟨o1, o2, o3, o4, o5, o6, o7, o8, -⟩ := writerInit_ok hwriter
    unfold loadWriter at hargs
    simp only [bind_eq_ok] at hargs
    obtain ⟨_, -, path, e1, fields, e2, e3⟩ := hargs
    cases e3
    have e1 := textArg_none e1
    rw [hget] at e1
    unfold fieldsArg at e2
    rw [hget] at e2
    dsimp only at hrows o2 o5 o6 o7 o8 ⊢
    unfold rowsArg at hrows
    rw [hget] at hrows
    refine ⟨by rw [e1, o2], ?_, ?_, ?_, ?_, ?_, o3, o4, by rw [o1, o2], rfl⟩
    · rw [hget] at o6
      cases hv : entry d "output" "interval" with
      | none =>
        rw [hv] at o6
        exact .inl ⟨rfl, (Except.ok.inj o6).symm⟩
      | some v =>
        rw [hv] at o6
        right
        dsimp only at o6
        unfold pyToInterval at o6
        split at o6
        · rename_i q
          split_ifs at o6 with hden
          · unfold checkInterval at o6
            dsimp only at o6
            split_ifs at o6 with hneg
            have ho := Except.ok.inj o6
            rw [← ho]
            have : q = ((q.num.toNat : ℕ) : ℚ) := by
              have h1 : ((q.num.toNat : ℕ) : ℤ) = q.num := Int.toNat_of_nonneg (by omega)
              have h2 : ((q.num.toNat : ℕ) : ℚ) = ((q.num.toNat : ℕ) : ℤ) := by push_cast; rfl
              rw [h2, h1]
              exact (Rat.den_eq_one_iff q).mp hden |>.symm
            rw [← this]
          · unfold checkInterval at o6
            dsimp only at o6
            split_ifs at o6
        · cases o6
    · intro names hn
      rw [o5]
      rw [hn] at e2
      cases e2
      clear * -
      induction names with
      | nil => rfl
      | cons x xs ih => simp only [List.map_cons, List.filterMap_cons, ih]
    · intro hn
      rw [o5]
      rcases hn with hn | hn <;> rw [hn] at e2 <;> cases e2 <;> rfl
    · intro hn
      refine o7 ?_
      rcases hn with hn | hn <;> rw [hn] at hrows <;> cases hrows <;> rfl
    · intro rows' hn
      refine o8 _ ?_
      cases hv : entry d "output" "rows" with
      | none => rw [hv] at hn; rcases hn with ⟨_, h1, -⟩ | h1 | h1 <;> cases h1
      | some v =>
        rw [hv] at hn hrows
        have hq := pyToNumbers_of hn
        have : Except.ok rows = (Except.map (fun qs : List ℚ => some (qs.map fun q =>
            Int.tdiv q.num q.den)) (pyToNumbers v) : Except Err (Option (List ℤ))) := by
          rw [← hrows]
          rcases v with v | v
          · cases v <;> first | rfl | (rcases hn with ⟨_, h1, -⟩ | h1 | h1 <;> cases h1)
          · rfl
        rw [hq] at this
        rw [Except.ok.inj this]
        dsimp only
        rw [List.map_map]
        conv_rhs => rw [← List.map_id rows']
        exact congrArg some (List.map_congr_left fun r _ => by simp)

/-- C108: the porosity of new layers is that of the compaction component, if it is turned on. -/
theorem setup_porosity (h : SetsUp ext times files fs d fs' m) :
    (Enabled d "compaction" →
      IsNumber (entry d "compaction" "porosity_max") ext.porosityMax m.porosity) ∧
    (¬ Enabled d "compaction" → m.porosity = 1 / 2) := by
  obtain ⟨c, e, hm, hde, hfe⟩ := setsUp_made h
  cases hm with
  | @mk _ _ _ _ _ _ _ _ _ names _ ps _ _ _ _ _ _ _ hgrid hbathy hinfo hw hnames hclock houtput hdx
      hx hcreate htime hargs hpor hrows hwriter hms =>
    obtain ⟨h1, h2, -⟩ := createNamed_ok hcreate
    have hen := processNames_enabled h.distinct (hfe _ (by decide) (by decide)) hnames
    have hkey : "compaction" ∈ PyDict.keys (PyDict.ofPairs ps : PyDict String (Process K)) ↔
        Enabled d "compaction" := by
      rw [keys_ofPairs, h1, mem_firstAppearances]
      exact hen _
    unfold porosityArg at hpor
    constructor
    · intro hon
      rw [if_pos (by simpa using hkey.mpr hon)] at hpor
      have := floatArg_ok hpor
      have hset := matched_setting h.distinct hde hfe hen (fun hs => ?_) ((hen _).mpr hon)
        (by decide) (by decide) "porosity_max"
      · rw [isSetting_own hset (by decide)] at this
        exact this
      · rw [← h1] at hs
        obtain ⟨q, hq, hq'⟩ := List.mem_map.mp hs
        obtain ⟨cls, hc, -⟩ := h2 q hq
        rw [hq'] at hc
        simp [processClass] at hc
    · intro hoff
      rw [if_neg (by simpa using fun hk => hoff (hkey.mp hk))] at hpor
      exact (Except.ok.inj hpor).symm

/-- C108: files of sea levels and rates that are named later are read with the kind of interpolation
of the first section; a new file of sea levels is only possible if the sea level came from a file. -/
theorem setup_later_files (h : SetsUp ext times files fs d fs' m) :
    (Enabled d "sea_level" →
      (m.inp.seaFromFile = true ↔ entry d "sea_level" "filepath" ≠ none) ∧
      (entry d "sea_level" "filepath" ≠ none → ∃ kind,
        IsText (entry d "sea_level" "kind") "linear" kind ∧
        ∀ path, m.inp.seaFile path = ext.readCurve path kind)) ∧
    (Enabled d "subsidence" → ∃ kind, IsText (entry d "subsidence" "kind") "linear" kind ∧
      ∀ path, m.inp.subsidenceFile path = ext.readCurve path kind) := by
  obtain ⟨-, hcomp⟩ := setup_components h
  obtain ⟨c, e, hm, hde, hfe⟩ := setsUp_made h
  cases hm with
  | @mk _ _ _ _ _ _ _ _ _ names _ ps _ _ _ _ _ _ _ hgrid hbathy hinfo hw hnames hclock houtput hdx
      hx hcreate htime hargs hpor hrows hwriter hms =>
    obtain ⟨h1, h2, -⟩ := createNamed_ok hcreate
    have hen := processNames_enabled h.distinct (hfe _ (by decide) (by decide)) hnames
    have hsed : "sediments" ∉ withRequired names := by
      intro hs
      rw [← h1] at hs
      obtain ⟨q, hq, hq'⟩ := List.mem_map.mp hs
      obtain ⟨cls, hc, -⟩ := h2 q hq
      rw [hq'] at hc
      simp [processClass] at hc
    have hown : ∀ n, n ≠ "_time" → n ≠ "plot" → (∀ q ∈ sharing, q.1 ≠ n) → Enabled d n → ∀ key,
        (groupOf (matchedParams (withRequired names) e.sections) n).get? key = entry d n key :=
      fun n hn1 hn2 hs hon key => isSetting_own
        (matched_setting h.distinct hde hfe hen hsed ((hen _).mpr hon) hn1 hn2 key) hs
    have hkind : ∀ n, n ≠ "_time" → n ≠ "plot" → (∀ q ∈ sharing, q.1 ≠ n) → Enabled d n →
        (∃ s, IsText (entry d n "kind") "linear" s) →
        IsText (entry d n "kind") "linear"
          (kindOf (matchedParams (withRequired names) e.sections) n) := by
      intro n hn1 hn2 hs hon ⟨s, hk⟩
      unfold kindOf
      rw [hown n hn1 hn2 hs hon]
      rcases hk with ⟨h1, rfl⟩ | h1
      · rw [h1]; exact .inl ⟨rfl, rfl⟩
      · rw [h1]; exact .inr rfl
    have hof : ∀ n, Enabled d n → ∃ p cls,
        processClass (matchedParams (withRequired names) e.sections) n = some cls ∧
        Process.ofKwargs ext cls
          (groupOf (matchedParams (withRequired names) e.sections) n) = .ok p := by
      intro n hon
      have hmem := (hen n).mpr hon
      rw [← h1] at hmem
      obtain ⟨q, hq, rfl⟩ := List.mem_map.mp hmem
      obtain ⟨cls, hc, hk⟩ := h2 q hq
      exact ⟨q.2, cls, hc, hk⟩
    constructor
    · intro hon
      have hf := hown "sea_level" (by decide) (by decide) (by decide) hon
      refine ⟨?_, fun hfile => ⟨_, hkind "sea_level" (by decide) (by decide) (by decide) hon ?_,
        fun path => rfl⟩⟩
      · dsimp only
        rw [hf, Option.isSome_iff_ne_none]
      · obtain ⟨p, cls, hc, hk⟩ := hof _ hon
        have hok := ofKwargs_ok hc hk
        cases p with
        | seaLevel curve start =>
          rcases hok.2.2.2.1 _ _ rfl with ⟨path, kind, -, hkd, -⟩ | ⟨hn, -⟩
          · rw [hf] at hkd
            exact ⟨kind, hkd⟩
          · rw [hf] at hn
            exact absurd hn hfile
        | _ => exact absurd hok.1 (by simp [Process.name])
    · intro hon
      have hf := hown "subsidence" (by decide) (by decide) (by decide) hon
      refine ⟨_, hkind "subsidence" (by decide) (by decide) (by decide) hon ?_, fun path => rfl⟩
      obtain ⟨p, cls, hc, hk⟩ := hof _ hon
      have hok := ofKwargs_ok hc hk
      cases p with
      | subsidence curve =>
        obtain ⟨path, kind, -, hkd, -⟩ := hok.2.2.2.2 _ rfl
        rw [hf] at hkd
        exact ⟨kind, hkd⟩
      | _ => exact absurd hok.1 (by simp [Process.name])

/-- C108: `clobber` does what it says for every true value: setting up succeeds with any file in
place of the output file, and removes it. -/
theorem setup_clobber (h : SetsUp ext times files fs d fs' m) (v : PyValue)
    (hv : entry d "output" "clobber" = some v) (ht : Truthy v) (fs2 : FileSystem K (Option K))
    (hdir : fs2 m.live.state.comps.2.1.filepath ≠ .dir) :
    ∃ m2, runSetup ext times files fs2 =
      (Function.update fs2 m.live.state.comps.2.1.filepath .absent, .ok m2) := by
  have hok := h.ok
  unfold runSetup at hok ⊢
  split_ifs at hok with h0
  · cases hok
  rw [if_neg h0]
  split at hok
  · cases hok
  rename_i p hp
  obtain ⟨docs, c, e, out, h1, h2, h3, h4, h5, h6⟩ := prepare_ok hp
  obtain ⟨hde, hfe⟩ := first_section h1 h2 h3 h.first h.distinct h.noTuples
  have hcl : p.args.clobber = true := by
    rw [(loadWriter_ok h5).2]
    have hget := sectionOf_get? h.distinct (hfe "output" (by decide) (by decide))
      (g := out.items) (by unfold sectionOf; rw [h4]) "clobber"
    rw [Doc.get?_items, hv] at hget
    rw [hget]
    exact pyTruth_iff.mpr ht
  split at hok
  · cases hok
  rename_i fs1 writer hwr
  split at hok
  · cases hok
  rename_i rows hrows
  simp only [Prod.mk.injEq] at hok
  obtain ⟨rfl, hfin⟩ := hok
  obtain ⟨-, hq⟩ := h6 _ _ hfin
  obtain ⟨-, o2, -⟩ := writerInit_ok hwr
  rw [hq] at hdir ⊢
  dsimp only at hdir ⊢
  have hset : ∀ path, fs2 path ≠ .dir → setFilepath true none path fs2 =
      ((some path, Function.update fs2 path .absent), .ok ()) := by
    intro path hd
    unfold setFilepath
    rw [if_neg (by simp)]
    split
    · rename_i h; exact absurd h hd
    · rename_i h; rw [← h, Function.update_eq_self]
    · rfl
  rw [o2] at hdir ⊢
  have hw2 : ∃ w2, writerInit p.rows p.args.path p.args.interval p.args.fields p.args.clobber
      (p.args.rows.toOption.getD none) fs2 =
      (Function.update fs2 p.args.path .absent, .ok w2) := by
    rw [hcl] at hwr ⊢
    unfold writerInit at hwr ⊢
    split at hwr
    · cases hwr
    rename_i n hn
    rw [hset _ hdir]
    exact ⟨_, rfl⟩
  obtain ⟨w2, hw2⟩ := hw2
  obtain ⟨m2, hm2⟩ := prepare_finish hp hfin (w2, Function.update fs2 p.args.path .absent)
  refine ⟨m2, ?_⟩
  rw [hw2]
  dsimp only
  rw [hm2]

end

/-! ### A configuration in which `fluvial` borrows a parameter -/

/-- A configuration with all kinds of sections; `fluvial` gives no load. -/
def exShared : Doc :=
  .sub "grid" (.leaf "shape" (.list [.num 1, .num 3]) (.leaf "xy_spacing" (.list [.num 2, .num 10])
    .nil)) <|
  .sub "bathymetry" (.leaf "filepath" (.str "bathymetry.csv") .nil) <|
  .sub "clock" (.leaf "start" (.num 0) (.leaf "stop" (.num 200) .nil)) <|
  .leaf "processes" (.list [.str "submarine_diffusion", .str "sea_level"]) <|
  .sub "sea_level" (.leaf "filepath" (.str "sea_level.csv") .nil) <|
  .sub "submarine_diffusion" (.leaf "sediment_load" (.num 5) (.leaf "plain_slope" (.num 1) .nil)) <|
  .sub "fluvial" (.leaf "plain_slope" (.num 1) .nil) <|
  .sub "shoreline" (.leaf "alpha" (.num 1) .nil) <|
  .sub "output" (.leaf "filepath" (.str "old.nc") (.leaf "clobber" (.num (-1))
    (.leaf "interval" (.num 10) .nil))) .nil

theorem exShared_setsUp : ∃ fs' m, SetsUp exExt [0] [[exShared]] exRunFiles exShared fs' m := by
  have h : (runSetup exExt [0] [[exShared]] exRunFiles).2.toOption.isSome = true := by
    decide +kernel
  rcases hr : runSetup exExt [0] [[exShared]] exRunFiles with ⟨fs', _ | m⟩
  · rw [hr] at h; cases h
  · exact ⟨fs', m, rfl, by simp [exShared, DistinctKeys, Doc.keys],
      by simp [exShared, NoTuples], hr⟩

/-- C108: `fluvial` takes the load of `submarine_diffusion`, and its other parameters are those
given or the defaults. -/
example : ∃ fs' m, SetsUp exExt [0] [[exShared]] exRunFiles exShared fs' m ∧
    m.clock.stop = some 200 ∧ m.clock.step = 1 ∧
    m.live.procs.map Process.name = ["submarine_diffusion", "sea_level", "fluvial", "shoreline"] ∧
    ∀ P, Process.fluvial P ∈ m.live.procs → P.load = 5 ∧ P.sandFrac = 1 / 2 := by
  obtain ⟨fs', m, h⟩ := exShared_setsUp
  have hc := setup_clock h
  have hload : entry exShared "fluvial" "sediment_load" = none := by decide +kernel
  have hsub : entry exShared "submarine_diffusion" "sediment_load" = some (.inl (.num 5)) := by
    decide +kernel
  have hsand : entry exShared "fluvial" "sand_frac" = none := by decide +kernel
  have hag : Agree exShared "fluvial" "submarine_diffusion" ["sediment_load", "plain_slope"] := by
    intro k hk v w hv hw
    simp only [List.mem_cons, List.not_mem_nil, or_false] at hk
    rcases hk with rfl | rfl
    · rw [hload] at hv; cases hv
    · rw [show entry exShared "fluvial" "plain_slope" = some (.inl (.num 1)) by decide +kernel] at hv
      rw [show entry exShared "submarine_diffusion" "plain_slope" = some (.inl (.num 1)) by
        decide +kernel] at hw
      cases hv; cases hw; rfl
  have hbor : Borrows exShared "fluvial" "sediment_load" "submarine_diffusion" :=
    ⟨["sediment_load", "plain_slope"], by decide, by decide, .inr (.inl ⟨_, rfl, by decide⟩), hag⟩
  have huniq : ∀ other, Borrows exShared "fluvial" "sediment_load" other →
      other = "submarine_diffusion" := by
    rintro other ⟨keys, hin, hk, -⟩
    simp [sharing, sharedParameters] at hin
    exact hin.1
  refine ⟨fs', m, h, ?_, ?_, ?_, ?_⟩
  · rw [show entry exShared "clock" "stop" = some (.inl (.num 200)) by decide +kernel] at hc
    rcases hc.2.1 with ⟨h1, -⟩ | ⟨h1, -⟩ | ⟨q, h1, h2⟩
    · cases h1
    · cases h1
    · cases h1; rw [h2]; norm_num
  · rw [show entry exShared "clock" "step" = none by decide +kernel] at hc
    rcases hc.2.2.1 with ⟨-, h1⟩ | ⟨q, h1, -⟩
    · exact h1
    · cases h1
  · rw [(setup_processes h).1 ["submarine_diffusion", "sea_level"] rfl]
    decide
  · intro P hP
    constructor
    · obtain ⟨v, x, hv, hx, hn⟩ := setup_parameters h _ hP "sediment_load" P.load
        (by simp [numericParameters])
      simp only [Process.name] at hv
      rcases hv with ⟨h1, -⟩ | ⟨-, other, ho, hv⟩ | ⟨-, h1, -⟩
      · exact absurd hload h1
      · rw [huniq other ho, hsub] at hv
        rw [hv] at hn
        rcases hn with ⟨h1, -⟩ | ⟨q, h1, h2⟩
        · cases h1
        · cases h1; rw [h2]; norm_num
      · exact absurd ⟨_, hbor⟩ h1
    · obtain ⟨v, x, hv, hx, hn⟩ := setup_parameters h _ hP "sand_frac" P.sandFrac
        (by simp [numericParameters])
      simp only [Process.name] at hv hx
      have hv' : v = none := by
        rcases hv with ⟨h1, -⟩ | ⟨-, other, ⟨keys, hin, hk, -⟩, -⟩ | ⟨-, -, h1⟩
        · exact absurd hsand h1
        · simp [sharing, sharedParameters] at hin
          rw [hin.2] at hk
          simp at hk
        · exact h1
      rw [hv'] at hn
      rcases hn with ⟨-, h1⟩ | ⟨q, h1, -⟩
      · simp [numericDefaults] at hx
        rw [h1, hx]
        norm_num
      · cases h1

/-- C108: the file of an earlier run is replaced, since -1 is true. -/
example : ∃ m, runSetup exExt [0] [[exShared]] exRunFiles =
    (Function.update exRunFiles "old.nc" .absent, .ok m) := by
  obtain ⟨fs', m, h⟩ := exShared_setsUp
  have hp : m.live.state.comps.2.1.filepath = "old.nc" := by
    have := (setup_output h).1
    rw [show entry exShared "output" "filepath" = some (.inl (.str "old.nc")) by
      decide +kernel] at this
    simpa using this.symm
  have := setup_clobber h (.inl (.num (-1))) (by decide +kernel) (by simp [Truthy, Falsy]) exRunFiles
    (by rw [hp]; simp [exRunFiles])
  rwa [hp] at this

end Verif.Props
