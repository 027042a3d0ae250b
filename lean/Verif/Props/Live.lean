import Verif.Lemmas.Live
import Verif.Props.Params
import Verif.Props.Package
import Verif.Props.Submarine
import Mathlib.Tactic.LinearCombination

/-!
# Properties of parameters that change during a run (C101, C102)
-/

set_option autoImplicit false
set_option linter.unusedSectionVars false
set_option linter.unusedSimpArgs false

namespace Verif.Props

open Spec

variable {K A : Type*} {R C : ℕ} [Field K] [LinearOrder K]

/-! ### C101 -/

/-- C101, false: later changes of some arguments of the constructors are ignored, whatever the
value. -/
theorem ignored_parameters (env : Env R C K) (inp : Inputs K) (l : Live R C K A)
    (comp name : String) (v : PyValue) (h : (comp, name) ∈ ignoredParameters)
    (hc : comp ∈ componentNames l) : l.setattr env inp comp name v = .ok l :=
  l.setattr_ignored env inp comp name v h hc

/-- The ignored parameters are arguments of the constructors. -/
theorem ignored_are_arguments :
    ∀ p ∈ ignoredParameters, ∃ q ∈ constructorArguments, q.1 = p.1 ∧ p.2 ∈ q.2 := by
  decide

/-- C101, false: the `alpha` of the shorelines cannot be changed. -/
theorem shoreline_alpha_refused (env : Env R C K) (inp : Inputs K) (l : Live R C K A) (v : PyValue)
    (hc : "shoreline" ∈ componentNames l) :
    l.setattr env inp "shoreline" "alpha" v = .error .attributeError := by
  have key : ∀ (ps : List (Process K)) s, "shoreline" ∈ ps.map Process.name →
      setattrNamed env inp "shoreline" "alpha" v ps s = .error .attributeError := by
    intro ps s
    induction ps with
    | nil => simp
    | cons p ps ih =>
      intro hm
      simp only [setattrNamed]
      split_ifs with hp
      · cases p <;> simp [Process.name] at hp
        simp [Process.setattr, shorelineSetattr]
      · rw [ih (by simpa [Ne.symm hp] using hm)]
  unfold Live.setattr
  rw [if_neg (by decide), key l.procs _ (by simpa [componentNames] using hc)]

/-- C101: a section of the configuration that sets an attribute that can be read only ends the run,
whatever the value. -/
theorem read_only_refused (env : Env R C K) (inp : Inputs K) (l : Live R C K A)
    (comp name : String) (v : PyValue) (h : (comp, name) ∈ readOnlyAttributes)
    (hc : comp ∈ componentNames l) :
    l.setattr env inp comp name v = .error .attributeError := by
  have hout : comp ≠ "output" := by
    rintro rfl
    revert h
    simp [readOnlyAttributes]
  have key : ∀ (ps : List (Process K)) s, comp ∈ ps.map Process.name →
      setattrNamed env inp comp name v ps s = .error .attributeError := by
    intro ps s
    induction ps with
    | nil => simp
    | cons p ps ih =>
      intro hm
      simp only [setattrNamed]
      split_ifs with hp
      · subst hp
        cases p <;> simp [Process.name, readOnlyAttributes] at h
        · rcases h with rfl | rfl <;> simp [Process.setattr, subsidenceSetattr]
        · rcases h with rfl | rfl | rfl <;> simp [Process.setattr, diffuserSetattr]
        · rcases h with rfl | rfl | rfl <;> simp [Process.setattr, flexureSetattr]
        · subst h; simp [Process.setattr, flexureSetattr]
        · subst h; simp [Process.setattr, shorelineSetattr]
      · rw [ih (by simpa [Ne.symm hp] using hm)]
  unfold Live.setattr
  rw [if_neg hout, key l.procs _ (by simpa [componentNames, hout] using hc)]

/-- C101: a new density of the flexure is accepted exactly if the constructor accepts it, that is if
it is a positive number; the model goes on unchanged. -/
theorem density_change_checked (env : Env R C K) (inp : Inputs K) (l : Live R C K A)
    (name : String) (q : ℚ) (hn : name ∈ ["sand_density", "mud_density", "water_density"])
    (hc : "flexure" ∈ componentNames l) :
    l.setattr env inp "flexure" name (.inl (.num q)) =
      if (0 : K) < q then .ok l else .error .valueError := by
  have key : ∀ (ps : List (Process K)) s, "flexure" ∈ ps.map Process.name →
      setattrNamed env inp "flexure" name (.inl (.num q)) ps s =
        if (0 : K) < q then .ok (ps, s) else .error .valueError := by
    intro ps s
    induction ps with
    | nil => simp
    | cons p ps ih =>
      intro hm
      simp only [setattrNamed]
      split_ifs with hp
      · cases p <;> simp [Process.name] at hp
        rename_i hq t
        have : flexureSetattr (K := K) true name (.inl (.num q)) = .ok () := by
          simp only [List.mem_cons, List.not_mem_nil, or_false] at hn
          rcases hn with rfl | rfl | rfl <;>
            simp [flexureSetattr, pyToFloat, validateDensity, not_le.mpr hq]
        simp [Process.setattr, this]
      · cases p <;> simp [Process.name] at hp
        rename_i hq t
        have : flexureSetattr (K := K) true name (.inl (.num q)) = .error .valueError := by
          simp only [List.mem_cons, List.not_mem_nil, or_false] at hn
          rcases hn with rfl | rfl | rfl <;>
            simp [flexureSetattr, pyToFloat, validateDensity, not_lt.mp hq]
        simp [Process.setattr, this]
      · rename_i hq
        rw [ih (by simpa [Ne.symm hp] using hm), if_pos hq]
      · rename_i hq
        rw [ih (by simpa [Ne.symm hp] using hm), if_neg hq]
  unfold Live.setattr
  rw [if_neg (by decide), key l.procs _ (by simpa [componentNames] using hc)]
  split_ifs <;> rfl

/-- C101: a new interval of the output is used from then on if it is a whole number that is not
negative, and ends the run with an error otherwise. -/
theorem interval_change (env : Env R C K) (inp : Inputs K) (l : Live R C K A) (q : ℚ) :
    (∀ n : ℕ, q = n → l.setattr env inp "output" "interval" (.inl (.num q)) =
      .ok ⟨l.procs, { l.state with comps := (l.state.comps.1,
        { l.state.comps.2.1 with interval := n }, l.state.comps.2.2) }⟩) ∧
    ((∀ n : ℕ, q ≠ n) → ∃ e ∈ [Err.typeError, .valueError],
      l.setattr env inp "output" "interval" (.inl (.num q)) = .error e) := by
  constructor
  · rintro n rfl
    have : checkInterval (pyToInterval (.inl (.num (n : ℚ))) : PyNumber K) = .ok n := by
      simp [pyToInterval, checkInterval]
    simp [Live.setattr, writerSetattr, this]
  · intro hq
    have : ∃ e ∈ [Err.typeError, .valueError],
        checkInterval (pyToInterval (.inl (.num q)) : PyNumber K) = .error e := by
      unfold pyToInterval
      dsimp only
      split_ifs with hden
      · have hneg : q.num < 0 := by
          by_contra hge
          apply hq q.num.toNat
          rw [← (Rat.den_eq_one_iff q).mp hden]
          have h2 : ((q.num.toNat : ℤ) : ℚ) = (q.num : ℚ) := by
            rw [Int.toNat_of_nonneg (not_lt.mp hge)]
          rw [← Int.cast_natCast]
          exact h2.symm
        exact ⟨.typeError, by simp, by simp [checkInterval, hneg]⟩
      · by_cases hx : ((q : ℚ) : K) < 0
        · exact ⟨.typeError, by simp, by simp [checkInterval, hx]⟩
        · exact ⟨.valueError, by simp, by simp [checkInterval, hx]⟩
    obtain ⟨e, he, h⟩ := this
    exact ⟨e, he, by simp [Live.setattr, writerSetattr, h]⟩

/-- C101: a new list of output fields is used from then on. -/
theorem fields_change (env : Env R C K) (inp : Inputs K) (l : Live R C K A) (names : List String) :
    l.setattr env inp "output" "fields" (.inl (.list (names.map Leaf.str))) =
      .ok ⟨l.procs, { l.state with comps := (l.state.comps.1,
        { l.state.comps.2.1 with fields := names }, l.state.comps.2.2) }⟩ := by
  have : pyToNames (.inl (.list (names.map Leaf.str))) = .ok names := by
    simp only [pyToNames, List.filterMap_map, Function.comp_def, List.filterMap_some]
  simp [Live.setattr, writerSetattr, this]

/-- C101: a new output file is used from then on if there is none yet or `clobber` is set, and is
removed if it is there. -/
theorem filepath_change (env : Env R C K) (inp : Inputs K) (l : Live R C K A) (path : String)
    (hd : l.state.comps.2.2 path ≠ .dir)
    (hf : (l.state.comps.2.2 path).isFile = true → l.state.comps.2.1.clobber = true) :
    l.setattr env inp "output" "filepath" (.inl (.str path)) =
      .ok ⟨l.procs, { l.state with comps := (l.state.comps.1,
        { l.state.comps.2.1 with filepath := path },
        Function.update l.state.comps.2.2 path .absent) }⟩ := by
  have : setFilepath l.state.comps.2.1.clobber (some l.state.comps.2.1.filepath) path
      l.state.comps.2.2 = ((some path, Function.update l.state.comps.2.2 path .absent), .ok ()) := by
    unfold setFilepath
    rw [if_neg (by rintro ⟨h1, h2⟩; exact h2 (hf h1))]
    rcases hg : l.state.comps.2.2 path with _ | d | _ | _ | _ <;> dsimp only
    · rw [← hg, Function.update_eq_self]
    · exact absurd hg hd
  simp [Live.setattr, writerSetattr, this]

/-- C101: changing a parameter of one component changes no other component, and the grid only if
it is the diffuser's. In particular parameters that two components share at the start are no longer
shared after one of them changes. -/
theorem change_is_local (env : Env R C K) (inp : Inputs K) (l l' : Live R C K A)
    (comp name : String) (v : PyValue) (h : l.setattr env inp comp name v = .ok l') :
    l'.procs.filter (·.name ≠ comp) = l.procs.filter (·.name ≠ comp) ∧
    l'.procs.map Process.name = l.procs.map Process.name ∧
    (comp ≠ "sea_level" → l'.state.comps.1.seaTime = l.state.comps.1.seaTime) ∧
    (comp ≠ "subsidence" → l'.state.comps.1.rate = l.state.comps.1.rate) ∧
    (comp ≠ "submarine_diffusion" → l'.state.comps.1.diffuser = l.state.comps.1.diffuser ∧
      l'.state.world = l.state.world) ∧
    (comp ≠ "output" → l'.state.comps.2 = l.state.comps.2) ∧
    l'.state.comps.1.flex = l.state.comps.1.flex ∧ l'.state.archived = l.state.archived := by
  have key : ∀ (ps ps' : List (Process K)) (s s' : ProcState R C K × World R (C + 2) K),
      setattrNamed env inp comp name v ps s = .ok (ps', s') →
      ps'.filter (·.name ≠ comp) = ps.filter (·.name ≠ comp) ∧
      ps'.map Process.name = ps.map Process.name ∧
      (comp ≠ "sea_level" → s'.1.seaTime = s.1.seaTime) ∧
      (comp ≠ "subsidence" → s'.1.rate = s.1.rate) ∧
      (comp ≠ "submarine_diffusion" → s'.1.diffuser = s.1.diffuser ∧ s'.2 = s.2) ∧
      s'.1.flex = s.1.flex := by
    intro ps
    induction ps with
    | nil => intro ps' s s' h; simp [setattrNamed] at h
    | cons p ps ih =>
      intro ps' s s' h
      simp only [setattrNamed] at h
      split_ifs at h with hp
      · cases hs : p.setattr env inp name v s with
        | error e => rw [hs] at h; cases h
        | ok q =>
          obtain ⟨p', s1⟩ := q
          rw [hs] at h
          cases h
          have hn := Process.setattr_name hs
          refine ⟨?_, by rw [List.map_cons, List.map_cons, hn], ?_⟩
          · rw [List.filter_cons_of_neg (by simp [hn, hp]), List.filter_cons_of_neg (by simp [hp])]
          · subst hp
            cases p <;> simp only [Process.setattr] at hs <;> first
              | (cases hs; simp [Process.name])
              | (split at hs
                 · cases hs
                 · cases hs; simp [Process.name])
      · cases hs : setattrNamed env inp comp name v ps s with
        | error e => rw [hs] at h; cases h
        | ok q =>
          obtain ⟨ps1, s1⟩ := q
          rw [hs] at h
          cases h
          obtain ⟨h1, h2, h3⟩ := ih _ _ _ hs
          refine ⟨?_, by rw [List.map_cons, List.map_cons, h2], h3⟩
          rw [List.filter_cons_of_pos (by simp [hp]), List.filter_cons_of_pos (by simp [hp]), h1]
  unfold Live.setattr at h
  split_ifs at h with ho
  · split at h
    · cases h
    · cases h
      simp [ho]
  · split at h
    · cases h
    · rename_i ps s w hs
      cases h
      obtain ⟨h1, h2, h3, h4, h5, h6⟩ := key _ _ _ _ hs
      exact ⟨h1, h2, h3, h4, h5, fun _ => rfl, h6, rfl⟩

theorem setattrNamed_at (env : Env R C K) (inp : Inputs K) (name : String) (v : PyValue)
    (pre : List (Process K)) (p p' : Process K) (post : List (Process K))
    (hpre : ∀ q ∈ pre, q.name ≠ p.name) (s s' : ProcState R C K × World R (C + 2) K)
    (h : p.setattr env inp name v s = .ok (p', s')) :
    setattrNamed env inp p.name name v (pre ++ p :: post) s = .ok (pre ++ p' :: post, s') := by
  induction pre with
  | nil => simp [setattrNamed, h]
  | cons q pre ih =>
    simp only [List.cons_append, setattrNamed]
    rw [if_neg (hpre q (by simp)), ih fun r hr => hpre r (by simp [hr])]

/-- C101, partial: a later value of an argument of `Fluvial` other than `hemipelagic` is used from
then on exactly like one given to the constructor. Missing: the other arguments (see the theorems
above). -/
theorem fluvial_change_partial (env : Env R C K) (inp : Inputs K) (l : Live R C K A)
    (pre post : List (Process K)) (P : FluvialParams K)
    (hl : l.procs = pre ++ .fluvial P :: post) (hpre : ∀ q ∈ pre, q.name ≠ "fluvial")
    (name : String) (q : ℚ)
    (hn : name ∈ ["sand_frac", "wave_base", "sediment_load", "sand_density", "plain_slope"]) :
    l.setattr env inp "fluvial" name (.inl (.num q)) =
      .ok ⟨pre ++ .fluvial (fluvialWith P name (q : K)) :: post, l.state⟩ := by
  unfold Live.setattr
  rw [if_neg (by decide), hl]
  have := setattrNamed_at env inp name (.inl (.num q)) pre (.fluvial P)
    (.fluvial (fluvialWith P name (q : K))) post hpre (l.state.comps.1, l.state.world) (l.state.comps.1, l.state.world) (by
      simp only [List.mem_cons, List.not_mem_nil, or_false] at hn
      rcases hn with rfl | rfl | rfl | rfl | rfl <;>
        simp [Process.setattr, fluvialSetattr, pyToFloat, fluvialWith])
  rw [show (Process.fluvial P).name = "fluvial" from rfl] at this
  rw [this]

/-- C101, partial: a new file of sea levels is used from then on, at the time the component has. -/
theorem sea_level_file_change_partial (env : Env R C K) (inp : Inputs K) (l : Live R C K A)
    (pre post : List (Process K)) (f f' : Curve K) (start : K)
    (hl : l.procs = pre ++ .seaLevel f start :: post) (hpre : ∀ q ∈ pre, q.name ≠ "sea_level")
    (path : String) (hf : inp.seaFile path = .ok f') :
    l.setattr env inp "sea_level" "filepath" (.inl (.str path)) =
      if inp.seaFromFile then .ok ⟨pre ++ .seaLevel f' start :: post, l.state⟩
      else .error .attributeError := by
  unfold Live.setattr
  rw [if_neg (by decide), hl]
  split_ifs with hi
  · have := setattrNamed_at env inp "filepath" (.inl (.str path)) pre (.seaLevel f start)
      (.seaLevel f' start) post hpre (l.state.comps.1, l.state.world)
      (l.state.comps.1, l.state.world) (by simp [Process.setattr, seaLevelSetattr, hf, hi])
    rw [show (Process.seaLevel f start).name = "sea_level" from rfl] at this
    rw [this]
  · have key : ∀ pre : List (Process K), (∀ q ∈ pre, q.name ≠ "sea_level") →
        setattrNamed env inp "sea_level" "filepath" (.inl (.str path))
          (pre ++ .seaLevel f start :: post) (l.state.comps.1, l.state.world) =
            .error .attributeError := by
      intro pre hpre
      induction pre with
      | nil => simp [setattrNamed, Process.name, Process.setattr, seaLevelSetattr, hf, hi]
      | cons q pre ih =>
        simp only [List.cons_append, setattrNamed]
        rw [if_neg (hpre q (by simp)), ih fun r hr => hpre r (by simp [hr])]
    rw [key pre hpre]

/-- C101: a new time of the sea level is used from then on; the curve stays. -/
theorem sea_level_time_change (env : Env R C K) (inp : Inputs K) (l : Live R C K A)
    (pre post : List (Process K)) (f : Curve K) (start : K)
    (hl : l.procs = pre ++ .seaLevel f start :: post) (hpre : ∀ q ∈ pre, q.name ≠ "sea_level")
    (t : ℚ) :
    l.setattr env inp "sea_level" "time" (.inl (.num t)) =
      .ok ⟨l.procs, { l.state with
        comps := ({ l.state.comps.1 with seaTime := (t : K) }, l.state.comps.2) }⟩ := by
  unfold Live.setattr
  rw [if_neg (by decide), hl]
  have := setattrNamed_at env inp "time" (.inl (.num t)) pre (.seaLevel f start)
    (.seaLevel f start) post hpre (l.state.comps.1, l.state.world)
    ({ l.state.comps.1 with seaTime := (t : K) }, l.state.world)
    (by simp [Process.setattr, seaLevelSetattr, pyToFloat])
  rw [show (Process.seaLevel f start).name = "sea_level" from rfl] at this
  rw [this]

/-- C101, partial: a new file of subsidence rates gives the rates a component created with it has;
nothing else changes. -/
theorem subsidence_file_change_partial (env : Env R C K) (inp : Inputs K) (l : Live R C K A)
    (pre post : List (Process K)) (f f' : Curve K)
    (hl : l.procs = pre ++ .subsidence f :: post) (hpre : ∀ q ∈ pre, q.name ≠ "subsidence")
    (path : String) (hf : inp.subsidenceFile path = .ok f')
    (s : ProcState R C K × World R (C + 2) K)
    (hs : (Process.subsidence f').create env (l.state.comps.1, l.state.world) = .ok s) :
    ∃ l', l.setattr env inp "subsidence" "filepath" (.inl (.str path)) = .ok l' ∧
      l'.procs = l.procs ∧ l'.state.comps.1 = s.1 ∧ l'.state.world = l.state.world ∧
      l'.state.comps.2 = l.state.comps.2 := by
  simp only [Process.create] at hs
  cases hr : subsidenceRate f' env.x with
  | error e => rw [hr] at hs; cases hs
  | ok rate =>
    rw [hr] at hs
    cases hs
    unfold Live.setattr
    rw [if_neg (by decide), hl]
    have := setattrNamed_at env inp "filepath" (.inl (.str path)) pre (.subsidence f)
      (.subsidence f) post hpre (l.state.comps.1, l.state.world)
      ({ l.state.comps.1 with rate := rate }, l.state.world)
      (by simp [Process.setattr, subsidenceSetattr, hf, hr])
    rw [show (Process.subsidence f).name = "subsidence" from rfl] at this
    rw [this]
    exact ⟨_, rfl, rfl, rfl, rfl, rfl⟩

/-- C101, partial: whatever happens in the course of a run, a diffuser whose parameters are set
does the same to the grid as one that is created anew for each change, if its load does not depend
on sea level. Missing: `load_sealevel`, `basin_width` (ignored, see above), and loads that depend on
sea level (next theorem). -/
theorem diffuser_change_partial (env : Env R C K) (es : List (DiffuserEvent R C K))
    (hes : ∀ name v, DiffuserEvent.set name v ∈ es → name ∈ ["plain_slope", "wave_base",
      "shoreface_height", "alpha", "shelf_slope", "sediment_load"])
    (P : DiffuserParams K) (hP : P.loadSeaLevel = 0) (kd : Option (NodeField R (C + 2) K))
    (w0 w : World R (C + 2) K) (d : Diffuser R (C + 2) K)
    (hd : diffuserInit P.seaLevel P.plainSlope P.waveBase P.shorefaceHeight P.alpha P.shelfSlope
      P.sedimentLoad P.loadSeaLevel P.basinWidth kd w0 = .ok (d, w)) :
    (diffuserSet env es (d, w)).map Prod.snd =
      (diffuserRecreated env es (P, d, w)).map fun s => s.2.2 := by
  have key : ∀ (es : List (DiffuserEvent R C K)),
      (∀ name v, DiffuserEvent.set name v ∈ es → name ∈ ["plain_slope", "wave_base",
        "shoreface_height", "alpha", "shelf_slope", "sediment_load"]) →
      ∀ (P : DiffuserParams K) (d d' : Diffuser R (C + 2) K) (w : World R (C + 2) K),
        P.plainSlope ≠ 0 → InUse P d → InUse P d' → d.kd = d'.kd →
        (diffuserSet env es (d, w)).map Prod.snd =
          (diffuserRecreated env es (P, d', w)).map fun s => s.2.2 := by
    intro es
    induction es with
    | nil => intros; rfl
    | cons e es ih =>
      intro hes P d d' w h0 hu hu' hk
      have hes' := fun name v hm => hes name v (List.mem_cons_of_mem _ hm)
      cases e with
      | others f =>
        simp only [diffuserSet, diffuserRecreated]
        exact ih hes' P d d' (f w) h0 hu hu' hk
      | step dt =>
        simp only [diffuserSet, diffuserRecreated]
        rcases diffuserStep_inUse env dt hu hu' hk w with ⟨e, h1, h2⟩ | ⟨e, e', we, h1, h2, h3⟩
        · rw [h1, h2]; rfl
        · rw [h1, h2]
          exact ih hes' P e e' we h0 h3.1 h3.2.1 h3.2.2
      | set name v =>
        simp only [diffuserSet, diffuserRecreated]
        have hn := hes name v (List.mem_cons_self ..)
        cases hv : (pyToFloat v : Except Err K) with
        | error e =>
          simp only [List.mem_cons, List.not_mem_nil, or_false] at hn
          rcases hn with rfl | rfl | rfl | rfl | rfl | rfl <;> simp [diffuserSetattr, hv] <;> rfl
        | ok a =>
          simp only [List.mem_cons, List.not_mem_nil, or_false] at hn
          rcases hn with rfl | rfl | rfl | rfl | rfl | rfl <;>
            simp only [diffuserSetattr, hv, diffuserWith, diffuserInit]
          · by_cases ha : a = 0
            · simp [ha]; rfl
            · simp only [ha]
              refine ih hes' _ _ _ w ha ?_ ?_ hk
              · constructor <;> simp [Diffuser.setPlainSlope, hu.waveBase, hu.shorefaceHeight,
                  hu.alpha, hu.shelfSlope, hu.load0, hu.loadSl, hu.loadSl', hu.basinWidth, hu.load]
              · constructor <;> simp [hu.loadSl']
          · simp only [h0]
            refine ih hes' _ _ _ w h0 ?_ ?_ hk
            · constructor <;> simp [hu.plainSlope, hu.waveBase, hu.shorefaceHeight,
                hu.alpha, hu.shelfSlope, hu.load0, hu.loadSl, hu.loadSl', hu.basinWidth, hu.load]
            · constructor <;> simp [hu.loadSl']
          · simp only [h0]
            refine ih hes' _ _ _ w h0 ?_ ?_ hk
            · constructor <;> simp [hu.plainSlope, hu.waveBase, hu.shorefaceHeight,
                hu.alpha, hu.shelfSlope, hu.load0, hu.loadSl, hu.loadSl', hu.basinWidth, hu.load]
            · constructor <;> simp [hu.loadSl']
          · simp only [h0]
            refine ih hes' _ _ _ w h0 ?_ ?_ hk
            · constructor <;> simp [hu.plainSlope, hu.waveBase, hu.shorefaceHeight,
                hu.alpha, hu.shelfSlope, hu.load0, hu.loadSl, hu.loadSl', hu.basinWidth, hu.load]
            · constructor <;> simp [hu.loadSl']
          · simp only [h0]
            refine ih hes' _ _ _ w h0 ?_ ?_ hk
            · constructor <;> simp [hu.plainSlope, hu.waveBase, hu.shorefaceHeight,
                hu.alpha, hu.shelfSlope, hu.load0, hu.loadSl, hu.loadSl', hu.basinWidth, hu.load]
            · constructor <;> simp [hu.loadSl']
          · simp only [h0]
            refine ih hes' _ _ _ w h0 ?_ ?_ hk
            · constructor <;> simp [Diffuser.setSedimentLoad, hu.plainSlope, hu.waveBase,
                hu.shorefaceHeight, hu.alpha, hu.shelfSlope, hu.loadSl, hu.loadSl', hu.basinWidth]
            · constructor <;> simp [hu.loadSl']
  unfold diffuserInit at hd
  dsimp only at hd
  split_ifs at hd with h0
  cases hd
  refine key es hes P _ _ _ h0 ?_ ?_ rfl <;> constructor <;> simp [hP]

/-! ### A change that ends the run -/

/-- C101, false: in a run that ends without an error, the `alpha` of the shorelines was never
changed: a configuration in which it changes ends the run with an error in that round. -/
theorem shoreline_alpha_never_changed (env : Env R C K) (inp : Inputs K)
    (view : ProcState R C K → World R (C + 2) K → GridView A) (porosity : LiveState R C K A → K)
    (times : List ℚ) (docs : List Doc) (c : Cfg) (hinit : Cfg.init times docs = .ok c)
    (hs : times.Pairwise (· ≤ ·)) (hd : ∀ d ∈ docs, DistinctKeys d)
    (ht : ∀ d ∈ docs, NoTuples d) (hcons : Consistent docs) (hh : Hashable docs)
    (l l' : Live R C K A) (fuel : ℕ) (start stop step : K) (clock : Clock K) (c' : Cfg)
    (hrun : liveRun env inp view porosity fuel (Clock.init start (some stop) step) (c, l) =
      some (clock, .ok (c', l'))) :
    ∃ rounds : ℕ, clock.time = start + (rounds + 1) * step ∧
      ∀ k < rounds, ∀ v, configAt (times.zip docs) (k + 1) ["shoreline", "alpha"] = some v →
        configAt (times.zip docs) k ["shoreline", "alpha"] = some v := by
  obtain ⟨hT, hD, hz, _⟩ := Cfg.init_ok hinit
  have hcall : ∀ c : Cfg, c.times = times → c.dicts = docs.map stored → ∀ t p,
      ((c.call t).get? p).map Leaf.thaw = configAt (times.zip docs) t p := by
    intro c hT hD t p
    rw [Cfg.call_eq_configAt (by rw [hT]; exact hs) hD hd, hT, configAt_thaw ht]
  have hrefuse : ∀ (v : PyValue) (l : Live R C K A),
      ∃ err, l.setattr env inp "shoreline" "alpha" v = .error err := by
    intro v l
    by_cases hc : "shoreline" ∈ componentNames l
    · exact ⟨_, shoreline_alpha_refused env inp l v hc⟩
    · unfold Live.setattr
      rw [if_neg (by decide)]
      have : ∀ (ps : List (Process K)) s, "shoreline" ∉ ps.map Process.name →
          ∃ e, setattrNamed env inp "shoreline" "alpha" v ps s = .error e := by
        intro ps s
        induction ps with
        | nil => intro _; exact ⟨_, rfl⟩
        | cons p ps ih =>
          intro hm
          simp only [List.map_cons, List.mem_cons, not_or] at hm
          obtain ⟨e, he⟩ := ih hm.2
          refine ⟨e, ?_⟩
          simp only [setattrNamed]
          rw [if_neg (Ne.symm hm.1), he]
      obtain ⟨e, he⟩ := this l.procs (l.state.comps.1, l.state.world) (fun h => hc (by
        simp only [componentNames, List.mem_append]; exact .inl h))
      rw [he]
      exact ⟨e, rfl⟩
  have key : ∀ (fuel : ℕ) (ck : Clock K) (c : Cfg) (l : Live R C K A) (j : ℕ),
      ck.step = step → c.times = times → c.dicts = docs.map stored → c.time = j →
      liveRun env inp view porosity fuel ck (c, l) = some (clock, .ok (c', l')) →
      ∃ rounds : ℕ, clock.time = ck.time + (rounds + 1) * step ∧
        ∀ k, j ≤ k → k < j + rounds → ∀ v,
          configAt (times.zip docs) (k + 1) ["shoreline", "alpha"] = some v →
          configAt (times.zip docs) k ["shoreline", "alpha"] = some v := by
    intro fuel
    induction fuel with
    | zero => intro ck c l j _ _ _ _ h; cases h
    | succ fuel ih =>
      intro ck c l j hst hT hD hj h
      have hadv : ∀ x : Clock K × Except Err Unit, ck.advance = x →
          x.1.time = ck.time + step ∧ x.1.step = step := by
        rintro x rfl
        unfold Clock.advance
        dsimp only
        split
        · exact ⟨by rw [hst], hst⟩
        · split_ifs <;> exact ⟨by rw [hst], hst⟩
      have hend : ∀ ck', clock = ck' → ck'.time = ck.time + step → ∃ rounds : ℕ,
          clock.time = ck.time + (rounds + 1) * step ∧
          ∀ k, j ≤ k → k < j + rounds → ∀ v,
            configAt (times.zip docs) (k + 1) ["shoreline", "alpha"] = some v →
            configAt (times.zip docs) k ["shoreline", "alpha"] = some v := by
        rintro ck' rfl hc
        exact ⟨0, by rw [hc]; simp, fun k h1 h2 => by omega⟩
      rw [liveRun, cliLoop] at h
      unfold runOneStep at h
      rcases hck : ck.advance with ⟨ck', e | u⟩
      · obtain ⟨h1, h2⟩ := hadv _ hck
        rw [hck] at h
        cases e <;> first
          | (simp only [Option.some.injEq, Prod.mk.injEq] at h; exact hend ck' h.1.symm h1)
          | (simp at h)
      · obtain ⟨h1, h2⟩ := hadv _ hck
        rw [hck] at h
        dsimp only at h
        cases ha : l.advance env view porosity ck'.time (effectiveStep ck.step none) with
        | error e =>
          rw [ha] at h
          cases e <;> first
            | (simp only [Option.some.injEq, Prod.mk.injEq] at h; exact hend ck' h.1.symm h1)
            | (simp at h)
        | ok l1 =>
          rw [ha] at h
          dsimp only at h
          cases hr : liveRound env inp (c, l1) with
          | error e =>
            rw [hr] at h
            cases e <;> first
              | (simp only [Option.some.injEq, Prod.mk.injEq] at h; exact hend ck' h.1.symm h1)
              | (simp at h)
          | ok s =>
            obtain ⟨c1, l2⟩ := s
            rw [hr] at h
            dsimp only at h
            obtain ⟨d, c2, hu, hu1, hu2, hu3, _, hu5⟩ := Cfg.update_spec (inc := 1)
              (by rw [hT]; exact hs) hD hd hcons hh (by norm_num)
            unfold liveRound at hr
            dsimp only at hr
            rw [hu] at hr
            dsimp only at hr
            cases hp : l1.setParams env inp d with
            | error e => rw [hp] at hr; cases hr
            | ok l3 =>
              rw [hp] at hr
              cases hr
              obtain ⟨n, hn1, hn2⟩ := ih ck' c1 l2 (j + 1) h2 (hu1.trans hT) (hu2.trans hD)
                (by rw [hu3, hj]; push_cast; ring) h
              refine ⟨n + 1, by rw [hn1, h1]; push_cast; ring, ?_⟩
              intro k hk1 hk2 v hv
              rcases hk1.eq_or_lt with rfl | hk1
              · have h5 := hu5 ["shoreline", "alpha"]
                rw [hcall c hT hD, hcall c hT hD, hj, hv] at h5
                cases hva : valueAt d ["shoreline", "alpha"] with
                | none => rw [hva] at h5; simpa using h5
                | some x =>
                  obtain ⟨e, he⟩ := Live.setParams_error env inp hrefuse d hva l1
                  rw [he] at hp; cases hp
              · exact hn2 k hk1 (by omega) v hv
  obtain ⟨n, h1, h2⟩ := key fuel _ c l 0 rfl hT hD (by rw [hz]; simp) hrun
  exact ⟨n, h1, fun k hk v hv => h2 k (by omega) (by omega) v hv⟩

/-! ### C102 -/

/-- `run` of a model with its processes is `run` of the list of components. -/
theorem runLoop_live (env : Env R C K) (view : ProcState R C K → World R (C + 2) K → GridView A)
    (porosity : LiveState R C K A → K) (fuel : ℕ) (clock : Clock K) (l : Live R C K A) :
    runLoop (Live.advance env view porosity) fuel clock l =
      (runLoop (advanceComponents (withWriter view (l.procs.map (Process.component env))) porosity)
        fuel clock l.state).map fun r => (r.1, r.2.map fun s => ⟨l.procs, s⟩) := by
  induction fuel generalizing clock l with
  | zero => rfl
  | succ fuel ih =>
    rw [runLoop, runLoop]
    unfold runOneStep
    rcases hck : clock.advance with ⟨ck', e | u⟩
    · cases e <;> rfl
    · dsimp only
      unfold Live.advance
      cases ha : advanceComponents (withWriter view (l.procs.map (Process.component env))) porosity
          ck'.time (effectiveStep clock.step none) l.state with
      | error e => cases e <;> rfl
      | ok s =>
        dsimp only
        exact ih ck' ⟨l.procs, s⟩

theorem run_without_changes_live (env : Env R C K) (inp : Inputs K)
    (view : ProcState R C K → World R (C + 2) K → GridView A) (porosity : LiveState R C K A → K)
    (times : List ℚ) (docs : List Doc) (c : Cfg) (hinit : Cfg.init times docs = .ok c)
    (hs : times.Pairwise (· ≤ ·)) (hd : ∀ d ∈ docs, DistinctKeys d) (hcons : Consistent docs)
    (hh : Hashable docs) (l : Live R C K A) (params : List (String × String))
    (hparams : ∀ p ∈ params, p ∈ ignoredParameters ∧ p.1 ∈ componentNames l)
    (hch : ChangesOnly params (times.zip docs)) (fuel : ℕ) (clock : Clock K) :
    (liveRun env inp view porosity fuel clock (c, l)).map (fun r => (r.1, r.2.map Prod.snd)) =
      runLoop (Live.advance env view porosity) fuel clock l := by
  obtain ⟨hT, hD, hz, _⟩ := Cfg.init_ok hinit
  have key : ∀ (fuel : ℕ) (ck : Clock K) (c : Cfg) (l' : Live R C K A) (j : ℕ),
      l'.procs = l.procs → c.times = times → c.dicts = docs.map stored → c.time = j →
      (liveRun env inp view porosity fuel ck (c, l')).map (fun r => (r.1, r.2.map Prod.snd)) =
        runLoop (Live.advance env view porosity) fuel ck l' := by
    intro fuel
    induction fuel with
    | zero => intros; rfl
    | succ fuel ih =>
      intro ck c l' j hps hT hD hj
      rw [liveRun, cliLoop, runLoop]
      unfold runOneStep
      rcases hck : ck.advance with ⟨ck', e | u⟩
      · cases e <;> rfl
      · dsimp only
        cases ha : l'.advance env view porosity ck'.time (effectiveStep ck.step none) with
        | error e => cases e <;> rfl
        | ok l1 =>
          dsimp only
          have hp1 : l1.procs = l.procs := (Live.advance_procs ha).trans hps
          obtain ⟨c1, h1, h2, h3, h4⟩ := liveRound_ignored env inp (c := c) (by rw [hT]; exact hs)
            hD hd hcons hh l1 (by
              intro path hne
              rw [hT, hj] at hne
              obtain ⟨p, hp, hpath⟩ := hch j path hne
              refine ⟨p, (hparams p hp).1, ?_, hpath⟩
              have := (hparams p hp).2
              unfold componentNames at this ⊢
              rw [hp1]; exact this)
          rw [h1]
          dsimp only
          exact ih ck' c1 l1 (j + 1) hp1 (h2.trans hT) (h3.trans hD)
            (by rw [h4, hj]; push_cast; ring)
  exact key fuel clock c l 0 rfl hT hD (by rw [hz]; simp)

/-- C102: if the configuration does not change after the start, or only in ignored parameters of
enabled components, `sequence run` does exactly what `SequenceModel.run` does with the components of
the start: the same clock, the same error or the same grid, files and state of the components, and
the arguments of the components are those of the start. -/
theorem run_without_changes (env : Env R C K) (inp : Inputs K)
    (view : ProcState R C K → World R (C + 2) K → GridView A) (porosity : LiveState R C K A → K)
    (times : List ℚ) (docs : List Doc) (c : Cfg) (hinit : Cfg.init times docs = .ok c)
    (hs : times.Pairwise (· ≤ ·)) (hd : ∀ d ∈ docs, DistinctKeys d) (hcons : Consistent docs)
    (hh : Hashable docs) (l : Live R C K A) (params : List (String × String))
    (hparams : ∀ p ∈ params, p ∈ ignoredParameters ∧ p.1 ∈ componentNames l)
    (hch : ChangesOnly params (times.zip docs)) (fuel : ℕ) (clock : Clock K) :
    (liveRun env inp view porosity fuel clock (c, l)).map (fun r => (r.1, r.2.map Prod.snd)) =
      (runLoop (advanceComponents (withWriter view (l.procs.map (Process.component env))) porosity)
        fuel clock l.state).map fun r => (r.1, r.2.map fun s => ⟨l.procs, s⟩) := by
  rw [run_without_changes_live env inp view porosity times docs c hinit hs hd hcons hh l params
    hparams hch fuel clock, runLoop_live]

/-! ### Concrete cases -/

/-- A section with one value. -/
def oneDoc (comp name : String) (q : ℚ) : Doc := .sub comp (.leaf name (.num q) .nil) .nil

theorem oneDoc_value {comp name : String} {q : ℚ} {p : List String} {v : Leaf}
    (h : valueAt (oneDoc comp name q) p = some v) : p = [comp, name] ∧ v = .num q := by
  cases p with
  | nil => rw [valueAt_nil] at h; cases h
  | cons k p =>
    cases p with
    | nil =>
      rw [valueAt_single] at h
      by_cases hk : comp = k <;> simp [oneDoc, Doc.find?, hk] at h
    | cons n p =>
      rw [valueAt_cons] at h
      by_cases hk : comp = k
      · simp only [oneDoc, Doc.find?, hk, if_true] at h
        cases p with
        | nil =>
          rw [valueAt_single] at h
          by_cases hn : name = n
          · simp [Doc.find?, hn] at h; exact ⟨by rw [hk, hn], h.symm⟩
          · simp [Doc.find?, hn] at h
        | cons m p =>
          rw [valueAt_cons] at h
          by_cases hn : name = n <;> simp [Doc.find?, hn] at h
      · simp [oneDoc, Doc.find?, hk] at h

/-- One value that changes at time 2. -/
def liveDocs (comp name : String) (a b : ℚ) : List Doc := [oneDoc comp name a, oneDoc comp name b]

def liveCfg (comp name : String) (a b : ℚ) : Cfg :=
  ⟨[0, 2], (liveDocs comp name a b).map stored, 0, stored (oneDoc comp name a)⟩

theorem liveDocs_value {comp name : String} {a b : ℚ} {d : Doc} (hd : d ∈ liveDocs comp name a b)
    {p : List String} {v : Leaf} (h : valueAt d p = some v) :
    p = [comp, name] ∧ (v = .num a ∨ v = .num b) := by
  simp only [liveDocs, List.mem_cons, List.not_mem_nil, or_false] at hd
  rcases hd with rfl | rfl
  · exact ⟨(oneDoc_value h).1, .inl (oneDoc_value h).2⟩
  · exact ⟨(oneDoc_value h).1, .inr (oneDoc_value h).2⟩

theorem liveDocs_distinct (comp name : String) (a b : ℚ) :
    ∀ d ∈ liveDocs comp name a b, DistinctKeys d := by
  simp [liveDocs, oneDoc, DistinctKeys, Doc.keys]

theorem liveDocs_consistent (comp name : String) (a b : ℚ) :
    Consistent (liveDocs comp name a b) := by
  intro d hd d' hd' p q hp hq _
  obtain ⟨v, hv⟩ := Option.ne_none_iff_exists'.mp hp
  obtain ⟨w, hw⟩ := Option.ne_none_iff_exists'.mp hq
  rw [(liveDocs_value hd hv).1, (liveDocs_value hd' hw).1]

theorem liveDocs_hashable (comp name : String) (a b : ℚ) : Hashable (liveDocs comp name a b) := by
  intro d hd p v hv
  rcases (liveDocs_value hd hv).2 with rfl | rfl <;> rintro ⟨⟩

/-- A model whose sea is 30 m deep, with a writer that does not write in the first steps. -/
def exLive (ps : List (Process ℚ)) : Live 1 1 ℚ (Option ℚ) where
  procs := ps
  state := ⟨(exProcState, ⟨false, 100, [], "out.nc", [0], 0, 1⟩, fun _ => .absent),
    { exBeach with topo := fun n => 1 - 31 * (n.2.val : ℚ) }, 0⟩

def exLiveView : ProcState 1 1 ℚ → World 1 3 ℚ → GridView (Option ℚ) :=
  fun _ => worldView ⟨fun _ => [], fun _ => []⟩

def exInputs : Inputs ℚ where
  seaFromFile := true
  seaFile := fun _ => .ok fun _ => .ok 3
  subsidenceFile := fun _ => .ok fun _ => .ok (-1)

/-- The processes of the examples with some hemipelagic mud. -/
def exLiveProcs (hemi : ℚ) : List (Process ℚ) :=
  [.seaLevel (fun t => .ok (1/2 - t / 1000)) 0, .fluvial { exFluvial with hemi := hemi },
    .shoreline 1]

/-- C101, false: a different `hemipelagic` given at the start makes a different deposit, given
later it makes none. -/
theorem hemipelagic_change_ignored :
    (exLive (exLiveProcs 0)).setattr exEnv exInputs "fluvial" "hemipelagic" (.inl (.num 1)) =
      .ok (exLive (exLiveProcs 0)) ∧
    ((exLive (exLiveProcs 0)).advance exEnv exLiveView (fun _ => 1/2) 1 1).toOption.map
      (fun l => l.state.world.deposit (1, 1)) = some 0 ∧
    ((exLive (exLiveProcs 1)).advance exEnv exLiveView (fun _ => 1/2) 1 1).toOption.map
      (fun l => l.state.world.deposit (1, 1)) = some 1 := by
  refine ⟨ignored_parameters _ _ _ _ _ _ (by simp [ignoredParameters]) ?_, ?_, ?_⟩
  · simp [componentNames, exLive, exLiveProcs, Process.name]
  · decide +kernel
  · decide +kernel

/-- A change of the shoreline parameter ends a run with an error; the same run without it ends
after three steps. -/
example :
    ((liveRun exEnv exInputs exLiveView (fun _ => 1/2) 10 (Clock.init 0 (some 3) 1)
      (liveCfg "shoreline" "alpha" 1 2, exLive (exLiveProcs 0))).map
        fun r => (r.1.time, match r.2 with | .ok _ => none | .error e => some e)) =
      some (2, some .attributeError) ∧
    ((liveRun exEnv exInputs exLiveView (fun _ => 1/2) 10 (Clock.init 0 (some 3) 1)
      (liveCfg "shoreline" "alpha" 1 1, exLive (exLiveProcs 0))).map
        fun r => (r.1.time, match r.2 with | .ok _ => none | .error e => some e)) =
      some (4, none) := by
  constructor <;> decide +kernel

/-- So the theorem about such runs says something: with alpha unchanged there is a run. -/
example : ∃ (clock : Clock ℚ) (c' : Cfg) (l' : Live 1 1 ℚ (Option ℚ)),
    liveRun exEnv exInputs exLiveView (fun _ => 1/2) 10 (Clock.init 0 (some 3) 1)
      (liveCfg "shoreline" "alpha" 1 1, exLive (exLiveProcs 0)) = some (clock, .ok (c', l')) ∧
    ∃ rounds : ℕ, clock.time = 0 + (rounds + 1) * 1 ∧
      ∀ k < rounds, ∀ v, configAt ([0, 2].zip (liveDocs "shoreline" "alpha" 1 1)) (k + 1)
        ["shoreline", "alpha"] = some v →
        configAt ([0, 2].zip (liveDocs "shoreline" "alpha" 1 1)) k ["shoreline", "alpha"] =
          some v := by
  have hok : ((liveRun exEnv exInputs exLiveView (fun _ => 1/2) 10 (Clock.init 0 (some 3) 1)
      (liveCfg "shoreline" "alpha" 1 1, exLive (exLiveProcs 0))).map
        fun r => match r.2 with | .ok _ => true | .error _ => false) = some true := by
    decide +kernel
  cases h : liveRun exEnv exInputs exLiveView (fun _ => 1/2) 10 (Clock.init 0 (some 3) 1)
      (liveCfg "shoreline" "alpha" 1 1, exLive (exLiveProcs 0)) with
  | none => rw [h] at hok; cases hok
  | some r =>
    obtain ⟨clock, e | ⟨c', l'⟩⟩ := r
    · rw [h] at hok; cases hok
    · exact ⟨clock, c', l', rfl, shoreline_alpha_never_changed exEnv exInputs exLiveView
        (fun _ => 1/2) [0, 2] (liveDocs "shoreline" "alpha" 1 1)
        (liveCfg "shoreline" "alpha" 1 1) rfl (by simp) (liveDocs_distinct _ _ _ _)
        (by simp [liveDocs, oneDoc, NoTuples]) (liveDocs_consistent _ _ _ _)
        (liveDocs_hashable _ _ _ _) _ l' 10 0 3 1 clock c' h⟩

/-- C102: a run in which the hemipelagic deposition changes at time 2. -/
example :
    (liveRun exEnv exInputs exLiveView (fun _ => 1/2) 10 (Clock.init 0 (some 3) 1)
      (liveCfg "fluvial" "hemipelagic" 0 1, exLive (exLiveProcs 0))).map
        (fun r => (r.1, r.2.map Prod.snd)) =
      (runLoop (advanceComponents (withWriter exLiveView
        ((exLiveProcs 0).map (Process.component exEnv))) fun _ => 1/2) 10 (Clock.init 0 (some 3) 1)
        (exLive (exLiveProcs 0)).state).map fun r =>
          (r.1, r.2.map fun s => ⟨exLiveProcs 0, s⟩) := by
  refine run_without_changes exEnv exInputs exLiveView (fun _ => 1/2) [0, 2]
    (liveDocs "fluvial" "hemipelagic" 0 1) (liveCfg "fluvial" "hemipelagic" 0 1) rfl (by simp)
    (liveDocs_distinct _ _ _ _) (liveDocs_consistent _ _ _ _) (liveDocs_hashable _ _ _ _) _
    [("fluvial", "hemipelagic")] ?_ ?_ 10 _
  · simp [ignoredParameters, componentNames, exLive, exLiveProcs, Process.name]
  · intro k path hne
    refine ⟨_, List.mem_singleton.mpr rfl, ?_⟩
    by_contra hp
    apply hne
    have : ∀ t, configAt ([0, 2].zip (liveDocs "fluvial" "hemipelagic" 0 1)) t path = none := by
      intro t
      by_contra hc
      obtain ⟨v, hv⟩ := Option.ne_none_iff_exists'.mp hc
      unfold configAt at hv
      obtain ⟨x, hx, hv⟩ := List.exists_of_findSome?_eq_some hv
      have hx' := (List.mem_filter.mp (List.mem_reverse.mp hx)).1
      exact hp (liveDocs_value (List.of_mem_zip hx').2 hv).1
    rw [this, this]

/-- C101: the fluvial parameter is used after the change. -/
example : (exLive (exLiveProcs 0)).setattr exEnv exInputs "fluvial" "wave_base" (.inl (.num 20)) =
    .ok (exLive [.seaLevel (fun t => .ok (1/2 - t / 1000)) 0,
      .fluvial { exFluvial with hemi := 0, waveBase := 20 }, .shoreline 1]) :=
  fluvial_change_partial exEnv exInputs (exLive (exLiveProcs 0))
    [.seaLevel (fun t => .ok (1/2 - t / 1000)) 0] [.shoreline 1] { exFluvial with hemi := 0 } rfl
    (by simp [Process.name]) "wave_base" 20 (by simp)

example : (exLive (exLiveProcs 0)).setattr exEnv exInputs "sea_level" "filepath"
    (.inl (.str "sea.csv")) = .ok (exLive [.seaLevel (fun _ => .ok 3) 0,
      .fluvial { exFluvial with hemi := 0 }, .shoreline 1]) :=
  sea_level_file_change_partial exEnv exInputs (exLive (exLiveProcs 0)) [] _ _ _ 0 rfl (by simp)
    "sea.csv" rfl

example : ∃ l', (exLive [.subsidence fun _ => .ok (-2)]).setattr exEnv exInputs "subsidence"
    "filepath" (.inl (.str "rates.csv")) = .ok l' ∧ l'.state.comps.1.rate 1 = -1 := by
  obtain ⟨l', h1, _, h2, _⟩ := subsidence_file_change_partial exEnv exInputs
    (exLive [.subsidence fun _ => .ok (-2)]) [] [] _ (fun _ => .ok (-1)) rfl (by simp) "rates.csv"
    rfl ({ exProcState with rate := fun _ => -1 }, (exLive []).state.world) rfl
  exact ⟨l', h1, by rw [h2]⟩

/-- The time of the subsidence can not be set. -/
example : (exLive [.subsidence fun _ => .ok (-2)]).setattr exEnv exInputs "subsidence" "time"
    (.inl (.num 3)) = .error .attributeError :=
  read_only_refused _ _ _ _ _ _ (by decide) (by decide)

/-- A density can be set if it is positive. -/
example : (exLive [.flexure (some 7000)]).setattr exEnv exInputs "flexure" "mud_density"
      (.inl (.num 2650)) = .ok (exLive [.flexure (some 7000)]) ∧
    (exLive [.flexure (some 7000)]).setattr exEnv exInputs "flexure" "mud_density" (.inl (.num (-1))) =
      .error .valueError := by
  refine ⟨?_, ?_⟩
  · rw [density_change_checked _ _ _ _ _ (by decide) (by decide), if_pos (by norm_num)]
  · rw [density_change_checked _ _ _ _ _ (by decide) (by decide), if_neg (by norm_num)]

/-- The time of the sea level. -/
example : ∃ l', (exLive (exLiveProcs 0)).setattr exEnv exInputs "sea_level" "time" (.inl (.num 7)) =
    .ok l' ∧ l'.state.comps.1.seaTime = 7 :=
  ⟨_, sea_level_time_change _ _ _ [] _ _ 0 rfl (by simp) 7, by simp⟩

/-- An interval is a whole number. -/
example : (∃ l', (exLive []).setattr exEnv exInputs "output" "interval" (.inl (.num 3)) = .ok l' ∧
      l'.state.comps.2.1.interval = 3) ∧
    ∃ e, (exLive []).setattr exEnv exInputs "output" "interval" (.inl (.num (1/2))) = .error e := by
  refine ⟨⟨_, (interval_change _ _ _ 3).1 3 (by norm_num), rfl⟩, ?_⟩
  obtain ⟨e, -, h⟩ := (interval_change exEnv exInputs (exLive []) (1/2)).2 (by
    intro n h
    have h2 : (1 : ℚ) = ((2 * n : ℕ) : ℚ) := by push_cast; linarith
    have h3 : 1 = 2 * n := by exact_mod_cast h2
    omega)
  exact ⟨e, h⟩

/-- Fields and a file. -/
example : (∃ l', (exLive []).setattr exEnv exInputs "output" "fields"
      (.inl (.list [.str "bedrock_surface__elevation"])) = .ok l' ∧
      l'.state.comps.2.1.fields = ["bedrock_surface__elevation"]) ∧
    ∃ l', (exLive []).setattr exEnv exInputs "output" "filepath" (.inl (.str "new.nc")) = .ok l' ∧
      l'.state.comps.2.1.filepath = "new.nc" :=
  ⟨⟨_, fields_change _ _ _ ["bedrock_surface__elevation"], rfl⟩,
    ⟨_, filepath_change _ _ _ "new.nc" (by simp [exLive]) (by simp [exLive, Entry.isFile]), rfl⟩⟩

/-- A solver that adds the diffusivities, so that these can be seen. -/
def exLiveEnv : Env 1 1 ℚ := { exEnv with solve := fun kd _ z => .ok fun n => z n + kd n }

def exDiffusion (loadSeaLevel : ℚ) : DiffuserParams ℚ :=
  ⟨0, 1/1000, 60, 15, 1/2000, 1/1000, 3, loadSeaLevel, 500000⟩

/-- A step, a rise of the sea, a change of the load and a step. -/
def exEvents : List (DiffuserEvent 1 1 ℚ) :=
  [.step 1, .others fun w => { w with seaLevel := 1/2 }, .set "sediment_load" (.inl (.num 1)),
    .step 1]

/-- The diffuser after its constructor. -/
def exDiffuser (P : DiffuserParams ℚ) : Except Err (Diffuser 1 3 ℚ × World 1 3 ℚ) :=
  diffuserInit P.seaLevel P.plainSlope P.waveBase P.shorefaceHeight P.alpha P.shelfSlope
    P.sedimentLoad P.loadSeaLevel P.basinWidth none exBeach

/-- C101, false: if the load depends on sea level, a new load is first used with the sea level of
the start; the deposit is not that of a diffuser created with the new load. -/
theorem load_change_uses_old_sea_level :
    ((exDiffuser (exDiffusion 1)).bind fun s =>
      diffuserSet exLiveEnv exEvents s).toOption.map (fun s => s.2.deposit (1, 2)) ≠
    ((exDiffuser (exDiffusion 1)).bind fun s =>
      diffuserRecreated exLiveEnv exEvents (exDiffusion 1, s)).toOption.map
        (fun s => s.2.2.deposit (1, 2)) := by
  decide +kernel

/-- Otherwise it is. -/
example : ((exDiffuser (exDiffusion 0)).bind fun s =>
      (diffuserSet exLiveEnv exEvents s).map Prod.snd).toOption.map
        (fun w => decide (0 < w.deposit (1, 2))) = some true ∧
    ∀ s, exDiffuser (exDiffusion 0) = .ok s →
      (diffuserSet exLiveEnv exEvents s).map Prod.snd =
        (diffuserRecreated exLiveEnv exEvents (exDiffusion 0, s)).map fun s => s.2.2 := by
  refine ⟨by decide +kernel, fun s hs => ?_⟩
  exact diffuser_change_partial exLiveEnv exEvents (by simp [exEvents]) (exDiffusion 0) rfl none
    exBeach s.2 s.1 hs

/-- C101: what the two components share at the start they no longer share after a change. -/
example : ∃ l', (exLive [.diffusion (exDiffusion 0), .fluvial exFluvial]).setattr exEnv exInputs
    "submarine_diffusion" "sediment_load" (.inl (.num 1)) = .ok l' ∧
    l'.state.comps.1.diffuser.load0 = 1 ∧
    l'.procs.filter (·.name ≠ "submarine_diffusion") = [.fluvial exFluvial] := by
  refine ⟨_, rfl, by decide +kernel, ?_⟩
  exact (change_is_local exEnv exInputs (exLive [.diffusion (exDiffusion 0), .fluvial exFluvial]) _
    "submarine_diffusion" "sediment_load" (.inl (.num 1)) rfl).1.trans rfl

end Verif.Props
