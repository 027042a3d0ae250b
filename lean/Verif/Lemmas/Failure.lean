import Verif.Lemmas.Prelude
import Verif.Props.Setup
import Verif.Props.Package
import Verif.Spec.Failure

/-! # Lemmas about runs that fail -/

set_option autoImplicit false
set_option linter.unusedSectionVars false

namespace Verif.Props

open Verif Spec

section
variable {K A : Type*} [Field K] [LinearOrder K] {R C : ℕ}

/-! ### Changes of parameters -/

/-- Whatever setting one attribute keeps holds throughout `set_params`, also if it fails. -/
theorem setSection_maintains {P : Live R C K A → Prop} {env : Env R C K} {inp : Inputs K}
    {comp : String} {Q : String → PyValue → Prop}
    (hP : ∀ k v l l', Q k v → P l → l.setattr env inp comp k v = .ok l' → P l') {d : Doc}
    (hd : DistinctKeys d) (hQ : ∀ k v, d.find? k = some v → Q k v) {l : Live R C K A} (hl : P l) :
    (∃ l1, P l1 ∧ l.setSectionFiles env inp comp d = l1.files) ∧
      ∀ l', l.setSection env inp comp d = .ok l' → P l' := by
  induction d generalizing l with
  | nil => exact ⟨⟨l, hl, rfl⟩, fun l' h => by cases h; exact hl⟩
  | leaf k v r ih =>
    have hr : ∀ k v, r.find? k = some v → Q k v := by
      intro k' v' hf
      apply hQ
      have hne : k ≠ k' := by
        rintro rfl
        rw [(Doc.find?_eq_none_iff _ _).mpr hd.1] at hf; cases hf
      simp [Doc.find?, hne, hf]
    simp only [Live.setSectionFiles, Live.setSection]
    cases hs : l.setattr env inp comp k (.inl v) with
    | error e => exact ⟨⟨l, hl, rfl⟩, fun l' h => by cases h⟩
    | ok l1 => exact ih hd.2 hr (hP k _ l l1 (hQ _ _ (by simp [Doc.find?])) hl hs)
  | sub k s r _ ih =>
    have hr : ∀ k v, r.find? k = some v → Q k v := by
      intro k' v' hf
      apply hQ
      have hne : k ≠ k' := by
        rintro rfl
        rw [(Doc.find?_eq_none_iff _ _).mpr hd.1] at hf; cases hf
      simp [Doc.find?, hne, hf]
    simp only [Live.setSectionFiles, Live.setSection]
    cases hs : l.setattr env inp comp k (.inr s) with
    | error e => exact ⟨⟨l, hl, rfl⟩, fun l' h => by cases h⟩
    | ok l1 => exact ih hd.2.2 hr (hP k _ l l1 (hQ _ _ (by simp [Doc.find?])) hl hs)

theorem setParams_maintains {P : Live R C K A → Prop} {env : Env R C K} {inp : Inputs K}
    {Q : String → String → PyValue → Prop}
    (hP : ∀ comp k v l l', Q comp k v → P l → l.setattr env inp comp k v = .ok l' → P l') {d : Doc}
    (hd : DistinctKeys d)
    (hQ : ∀ comp s k v, d.find? comp = some (.inr s) → s.find? k = some v → Q comp k v)
    {l : Live R C K A} (hl : P l) :
    (∃ l1, P l1 ∧ l.setParamsFiles env inp d = l1.files) ∧
      ∀ l', l.setParams env inp d = .ok l' → P l' := by
  induction d generalizing l with
  | nil => exact ⟨⟨l, hl, rfl⟩, fun l' h => by cases h; exact hl⟩
  | leaf k v r ih =>
    refine ⟨⟨l, hl, rfl⟩, fun l' h => ?_⟩
    simp only [Live.setParams] at h
    split_ifs at h
  | sub k s r _ ih =>
    have hr : ∀ comp s k v, r.find? comp = some (.inr s) → s.find? k = some v → Q comp k v := by
      intro comp s' k' v' hf
      apply hQ
      have hne : k ≠ comp := by
        rintro rfl
        rw [(Doc.find?_eq_none_iff _ _).mpr hd.1] at hf; cases hf
      simp [Doc.find?, hne, hf]
    obtain ⟨h1, h2⟩ := setSection_maintains (P := P) (Q := Q k) (hP k) hd.2.1
      (fun k' v' hf => hQ k s k' v' (by simp [Doc.find?]) hf) hl
    simp only [Live.setParamsFiles, Live.setParams]
    split_ifs with hh
    · cases hs : l.setSection env inp k s with
      | error e => exact ⟨h1, fun l' h => by cases h⟩
      | ok l1 => exact ih hd.2.2 hr (h2 l1 hs)
    · exact ⟨⟨l, hl, rfl⟩, fun l' h => by cases h⟩

/-- Setting an attribute leaves the layers and the fields that a step needs. -/
theorem setattrNamed_world {env : Env R C K} {inp : Inputs K} {comp name : String} {v : PyValue}
    {ps ps' : List (Process K)} {s s' : ProcState R C K} {w w' : World R (C + 2) K}
    (h : setattrNamed env inp comp name v ps (s, w) = .ok (ps', s', w')) :
    ∃ q, w' = { w with seaLevel := q } := by
  induction ps generalizing ps' with
  | nil => cases h
  | cons p ps ih =>
    rw [setattrNamed] at h
    split_ifs at h
    · split at h
      · cases h
      · rename_i p1 s1 hs
        cases h
        cases p <;> simp only [Process.setattr] at hs
        case diffusion P =>
          split at hs
          · cases hs
          · rename_i d1 w1 hd
            cases hs
            unfold diffuserSetattr at hd
            by_cases h1 : name = "load0" ∨ name = "k_land" ∨ name = "time"
            · rw [if_pos h1] at hd; cases hd
            rw [if_neg h1] at hd
            by_cases h2 : name ∈ ["plain_slope", "wave_base", "shoreface_height", "alpha",
              "shelf_slope", "sediment_load", "sea_level"]
            · rw [if_pos h2] at hd
              split at hd
              · cases hd
              · split_ifs at hd <;> cases hd <;> exact ⟨_, rfl⟩
            · rw [if_neg h2] at hd
              cases hd
              exact ⟨_, rfl⟩
        all_goals first
          | (cases hs; exact ⟨_, rfl⟩)
          | (split at hs
             · cases hs
             · cases hs; exact ⟨_, rfl⟩)
    · split at h
      · cases h
      · rename_i ps1 s1 hs
        cases h
        exact ih hs

theorem setattr_world {env : Env R C K} {inp : Inputs K} {comp name : String} {v : PyValue}
    {l l' : Live R C K A} (h : l.setattr env inp comp name v = .ok l') :
    (∃ q, l'.state.world = { l.state.world with seaLevel := q }) ∧
      l'.state.archived = l.state.archived ∧
      (l'.state.comps.2 = l.state.comps.2 ∨
        comp = "output" ∧ writerSetattr name v l.state.comps.2 = .ok l'.state.comps.2) := by
  unfold Live.setattr at h
  split_ifs at h with hc
  · split at h
    · cases h
    · rename_i q hq
      cases h
      exact ⟨⟨_, rfl⟩, rfl, .inr ⟨hc, hq⟩⟩
  · split at h
    · cases h
    · rename_i ps s w hs
      cases h
      exact ⟨setattrNamed_world hs, rfl, .inl rfl⟩

/-- What the setters of the writer do to the files. -/
theorem writerSetattr_files {name : String} {v : PyValue} {q q' : Writer K × FileSystem K A}
    (h : writerSetattr name v q = .ok q') :
    q'.1.rows = q.1.rows ∧ (q'.2 = q.2 ∧ q'.1.filepath = q.1.filepath ∨
      q'.2 = Function.update q.2 q'.1.filepath .absent) := by
  unfold writerSetattr at h
  split_ifs at h with h1 h2 h3
  · split at h
    · rename_i path
      split at h
      · cases h
      · rename_i p fs u hs
        cases h
        have hok : (setFilepath q.1.clobber (some q.1.filepath) path q.2).2 = .ok () := by rw [hs]
        have hset := filepath_ok _ _ _ _ hok
        rw [hs] at hset
        cases hset
        exact ⟨rfl, .inr rfl⟩
    · cases h
  · split at h
    · cases h
    · cases h
      exact ⟨rfl, .inl ⟨rfl, rfl⟩⟩
  · split at h
    · cases h
    · cases h
      exact ⟨rfl, .inl ⟨rfl, rfl⟩⟩
  · cases h
    exact ⟨rfl, .inl ⟨rfl, rfl⟩⟩

end

/-! ### Steps -/

section
variable {K A : Type*} [Field K] [LinearOrder K] [IsStrictOrderedRing K] {R C : ℕ}

theorem recordOk_congr {σ τ : Type*} {R C : ℕ} {s : ModelState σ R C K} {s' : ModelState τ R C K}
    (h1 : s'.world.layers = s.world.layers) (h2 : s'.archived = s.archived)
    (h3 : s'.world.sand = s.world.sand) (h4 : s'.world.sedLoad = s.world.sedLoad)
    (h : RecordOk s) : RecordOk s' := by
  obtain ⟨l, ⟨a, b, c, d⟩, e⟩ := h
  refine ⟨l, ⟨?_, b, c, ?_⟩, by rw [h1]; exact e⟩
  · rw [h2]; exact a
  · show s'.world.sedLoad = none ∨ ∃ f, s'.world.sand = some f
    rw [h3, h4]
    exact d

theorem recordOk_setattr {env : Env R C K} {inp : Inputs K} {comp name : String} {v : PyValue}
    {l l' : Live R C K A} (h : l.setattr env inp comp name v = .ok l') (hl : RecordOk l.state) :
    RecordOk l'.state := by
  obtain ⟨⟨q, h1⟩, h2, -⟩ := setattr_world h
  exact recordOk_congr (by rw [h1]) h2 (by rw [h1]) (by rw [h1]) hl

theorem withWriter_record {σ : Type*} {C : ℕ} (view : σ → World R C K → GridView A)
    (comps : List (Component σ R C K)) (hk : ∀ c ∈ comps, KeepsRecord c) :
    ∀ c ∈ withWriter (A := A) view comps, KeepsRecord c := by
  intro c hc
  rcases List.mem_append.mp hc with hc | hc
  · obtain ⟨c, hm, rfl⟩ := List.mem_map.mp hc
    rintro dt ⟨p, q⟩ w ⟨p', q'⟩ w' h
    unfold besideWriter at h
    dsimp only at h
    cases hr : c dt (p, w) with
    | error e => rw [hr] at h; cases h
    | ok y =>
      rw [hr] at h
      cases h
      exact hk c hm _ _ _ _ _ hr
  · simp only [List.mem_singleton] at hc
    subst hc
    rintro dt ⟨p, q⟩ w ⟨p', q'⟩ w' h
    unfold writerComponent at h
    dsimp only at h
    cases hr : writerStep (view p w) (some dt) q with
    | error e => rw [hr] at h; cases h
    | ok y => rw [hr] at h; cases h; exact sameRecord_refl _

/-- A step keeps what is known of the layers. -/
theorem advance_record {env : Env R C K} (hc : CompactKeepsRecord env)
    {view : ProcState R C K → World R (C + 2) K → GridView A} {porosity : LiveState R C K A → K}
    {time dt : K} {l : Live R C K A} (hl : RecordOk l.state) :
    (∀ l', l.advance env view porosity time dt = .ok l' → RecordOk l'.state) ∧
    ∀ e, l.advance env view porosity time dt = .error e →
      runComponents (withWriter view (l.procs.map (Process.component env))) dt
        (l.state.comps, clearDeposit l.state.world) = .error e := by
  have hk : ∀ c ∈ withWriter (A := A) view (l.procs.map (Process.component env)),
      KeepsRecord c := by
    apply withWriter_record
    intro c hm
    obtain ⟨p, -, rfl⟩ := List.mem_map.mp hm
    exact component_keepsRecord hc p
  have hsand : ∀ c ∈ withWriter (A := A) view (l.procs.map (Process.component env)),
      Maintains c fun w => w.sedLoad = none ∨ ∃ f, w.sand = some f := by
    apply withWriter_maintains
    intro c hm
    obtain ⟨p, -, rfl⟩ := List.mem_map.mp hm
    exact component_hasSand p
  unfold Live.advance
  cases hr : runComponents (withWriter view (l.procs.map (Process.component env))) dt
      (l.state.comps, clearDeposit l.state.world) with
  | error e =>
    unfold advanceComponents
    rw [hr]
    exact ⟨fun l' h => (by cases h), fun e' h => (by cases h; rfl)⟩
  | ok y =>
    obtain ⟨s', h1, h2⟩ := recordOk_step porosity hk hsand hl time dt ⟨y, hr⟩
    rw [h1]
    exact ⟨fun l' h => (by cases h; exact h2), fun e h => (by cases h)⟩

/-- A step that fails leaves the files as they are, but for the one that is not finished. -/
theorem advanceFiles_error {env : Env R C K}
    {view : ProcState R C K → World R (C + 2) K → GridView A} {dt : K} {l : Live R C K A} {e : Err}
    (h : runComponents (withWriter view (l.procs.map (Process.component env))) dt
        (l.state.comps, clearDeposit l.state.world) = .error e) :
    (l.advanceFiles env view dt).1 = l.files ∧
      ((l.advanceFiles env view dt).2 = none ∨
        (l.advanceFiles env view dt).2 = some l.state.comps.2.1.filepath) := by
  unfold Live.advanceFiles
  split
  · exact ⟨rfl, .inl rfl⟩
  · rename_i p w hr
    split
    · refine ⟨rfl, ?_⟩
      dsimp only
      split_ifs
      · exact .inl rfl
      · exact .inr rfl
    · rename_i q hq
      have := withWriter_run_of (A := A) view _ (q := l.state.comps.2) hr hq
      rw [show (l.state.comps.1, l.state.comps.2) = l.state.comps from rfl, h] at this
      cases this

/-! ### Writers that do not fail -/

/-- Nothing, or a file of the right sizes with complete records. -/
def Complete (z : Sizes) (e : Entry K A) : Prop :=
  e = .absent ∨ ∃ d ws, e = .dataset d ∧ Holds z d ws

/-- A writer that writes all rows, and files that are as they were or complete. -/
structure WriterFits (z : Sizes) (fs0 : FileSystem K A) (q : Writer K × FileSystem K A) : Prop where
  rows : q.1.rows = allRows z.rows
  file : Complete z (q.2 q.1.filepath)
  all : ∀ p, q.2 p = fs0 p ∨ Complete z (q.2 p)

theorem writerFits_setattr {z : Sizes} {fs0 : FileSystem K A} {name : String} {v : PyValue}
    {q q' : Writer K × FileSystem K A} (hq : WriterFits z fs0 q)
    (h : writerSetattr name v q = .ok q') : WriterFits z fs0 q' := by
  obtain ⟨h1, h2 | h2⟩ := writerSetattr_files h
  · exact ⟨h1.trans hq.rows, by rw [h2.1, h2.2]; exact hq.file, by rw [h2.1]; exact hq.all⟩
  · have hself : q'.2 q'.1.filepath = .absent := by
      rw [h2]
      exact Function.update_self ..
    refine ⟨h1.trans hq.rows, .inl hself, fun p => ?_⟩
    by_cases hp : p = q'.1.filepath
    · exact .inr (.inl (by rw [hp]; exact hself))
    · have : q'.2 p = q.2 p := by
        rw [h2]
        exact Function.update_of_ne hp _ _
      rw [this]
      exact hq.all p

theorem writerFits_step {z : Sizes} {fs0 : FileSystem K A} {q : Writer K × FileSystem K A}
    (hq : WriterFits z fs0 q) (hi : q.1.interval ≠ 0) {g : GridView A} (hg : HasSizes z g) (dt : K) :
    ∃ q', writerStep g (some dt) q = .ok q' ∧ WriterFits z fs0 q' := by
  obtain ⟨w, fs⟩ := q
  obtain ⟨h1, h2, h3⟩ := hq
  dsimp only at h1 h2 h3 hi
  by_cases hm : w.count % w.interval = 0
  swap
  · refine ⟨({ w with time := w.time + dt, count := w.count + 1 }, fs), ?_, h1, h2, h3⟩
    unfold writerStep
    simp only [hi, if_false, hm]
    rfl
  have hopen : ∃ d ws, openDataset g .a defaultLocations (writerIds (allRows z.rows) g.cols)
      (fs w.filepath) = .ok d ∧ Holds z (d : Dataset K A) ws := by
    rcases h2 with h2 | ⟨d, ws, h2, h3⟩
    · obtain ⟨d, e1, e2, e3, e4, e5, e6, -⟩ := newDataset_ok (K := K) hg
      refine ⟨d, [], ?_, holds_new e2 e3 e4 e5 e6⟩
      rw [h2]
      exact e1
    · refine ⟨d, ws, ?_, h3⟩
      rw [h2]
      rfl
  obtain ⟨d, ws, hd, hh⟩ := hopen
  obtain ⟨d', e1, -, -, e4⟩ := holds_append hh (w := ⟨w.time, w.fields, g⟩) hg
  have hself : (Function.update fs w.filepath (.dataset d')) w.filepath = .dataset d' :=
    Function.update_self ..
  refine ⟨({ w with time := w.time + dt, count := w.count + 1 },
    Function.update fs w.filepath (.dataset d')), ?_, h1, .inr ⟨d', _, hself, e4⟩, fun p => ?_⟩
  · unfold writerStep toNetcdf
    simp only [hi, if_false, hm, if_true]
    unfold writerIds at hd
    rw [if_neg (by simp), h1, hd]
    dsimp only
    dsimp only at e1
    unfold writerIds writerNames at e1
    rw [e1]
    rfl
  · by_cases hp : p = w.filepath
    · subst hp
      exact .inr (.inr ⟨d', _, hself, e4⟩)
    · dsimp only
      rw [Function.update_of_ne hp]
      exact h3 p

end

/-! ### The model when it is set up -/

section
variable {K : Type} [Field K] [LinearOrder K] [IsStrictOrderedRing K]

theorem createNamed_createAll {R C : ℕ} {ext : Externals K} {env : Env R C K}
    {params : PyDict String Kwargs} {names : List String} {s : ProcState R C K × World R (C + 2) K}
    {ps : List (String × Process K)} {s' : ProcState R C K × World R (C + 2) K}
    (h : createNamed ext env params names s = .ok (ps, s')) :
    createAll env (ps.map (·.2)) s = .ok s' := by
  induction names generalizing s ps with
  | nil => cases h; rfl
  | cons n names ih =>
    rw [createNamed] at h
    split at h
    · cases h
    split at h
    · cases h
    rename_i p hp
    split at h
    · cases h
    rename_i s1 hs1
    split at h
    · cases h
    rename_i ps1 s2 hr
    cases h
    rw [List.map_cons, createAll, hs1]
    exact ih hr

/-- A model that has been set up is ready for its first step. -/
theorem setup_record {ext : Externals K} {times : List ℕ} {files : List (List Doc)}
    {fs fs' : FileSystem K (Option K)} {m : Ready K}
    (h : runSetup ext times files fs = (fs', .ok m)) : RecordOk m.live.state := by
  obtain ⟨docs, c, e, -, -, -, hm⟩ := runSetup_made h
  cases hm with
  | @mk _ _ _ _ _ _ _ w w' names _ ps _ _ _ _ _ _ _ hgrid hbathy hinfo hw hnames hclock houtput hdx
      hx hcreate htime hargs hpor hrows hwriter hms =>
    obtain ⟨h1, h2, h3, -⟩ := createNamed_ok hcreate
    have hempty : w.layers = EventLayers.empty := by
      unfold loadBathymetry at hw
      simp only [bind_eq_ok] at hw
      obtain ⟨_, -, path, e1, kind, e2, curve, e3, w1, e4, e5⟩ := hw
      cases e5
      unfold bathymetryStep at e4
      split at e4
      · cases e4
      cases e4
      rfl
    have hsand : ∃ f, w'.sand = some f := by
      have hmem : "fluvial" ∈ ps.map (·.1) := by
        rw [h1, withRequired_mem, allProcesses]
        simp
      obtain ⟨q, hq, hn⟩ := List.mem_map.mp hmem
      obtain ⟨cls, k1, k2⟩ := h2 q hq
      have hname := (ofKwargs_ok k1 k2).1
      have := (createAll_provides _ (createNamed_createAll hcreate)).1 q.2
        (List.mem_map.mpr ⟨q, hq, rfl⟩)
      rw [hn] at hname
      cases hp : q.2 with
      | fluvial P =>
        rw [hp] at this
        exact Option.isSome_iff_exists.mp this.1
      | _ => rw [hp] at hname; revert hname; simp [Process.name]
    have hok := recordOk_init (h3.trans hempty) hms (.inr hsand)
    exact recordOk_congr (by rfl) (by rfl) (by rfl) (by rfl) hok

end

end Verif.Props
