import Verif.Lemmas.Prelude
import Verif.Lemmas.SetOrder
import Verif.Props.Failure

/-!
# C125: changes of parameters in any order
-/

set_option autoImplicit false
set_option linter.unusedSectionVars false

namespace Verif.Props

open Verif Spec

/-! ### `StopIteration` -/

section

variable {K A : Type*} {R C : ℕ} [Field K] [LinearOrder K]

/-- `ReadsQuietly` for the files of a model. -/
def QuietInputs (inp : Inputs K) : Prop :=
  (∀ path, inp.seaFile path ≠ .error .stopIteration) ∧
    ∀ path, inp.subsidenceFile path ≠ .error .stopIteration ∧
      ∀ f, inp.subsidenceFile path = .ok f → ∀ x, f x ≠ .error .stopIteration

theorem pyToFloat_quiet (v : PyValue) : (pyToFloat v : Except Err K) ≠ .error .stopIteration := by
  unfold pyToFloat
  split <;> simp

theorem atColumns_quiet {f : Curve K} (hf : ∀ x, f x ≠ .error .stopIteration) {x : Fin C → K} :
    f.atColumns x ≠ .error .stopIteration := by
  unfold Curve.atColumns
  split
  · rename_i e he
    intro h
    cases h
    obtain ⟨a, -, ha⟩ := List.exists_of_findSome?_eq_some he
    split at ha
    · rename_i e' he'
      cases ha
      exact hf a he'
    · cases ha
  · simp

theorem setattr_quiet {env : Env R C K} {inp : Inputs K} (hi : QuietInputs inp) (name : String)
    (v : PyValue) (p : Process K) (s : ProcState R C K × World R (C + 2) K) :
    p.setattr env inp name v s ≠ .error .stopIteration := by
  cases p <;> simp only [Process.setattr]
  case seaLevel f t0 =>
    have : seaLevelSetattr inp name v f s.1.seaTime ≠ .error .stopIteration := by
      by_cases a : name = "filepath"
      · simp only [seaLevelSetattr, if_pos a]
        rcases v with (_ | _ | q | _ | _) | d <;> try simp
        have := hi.1 q
        rcases hq : inp.seaFile q with e | g
        · rw [hq] at this; simpa using this
        · cases inp.seaFromFile <;> simp
      · by_cases b : name = "time"
        · simp only [seaLevelSetattr, if_neg a, if_pos b]
          have := pyToFloat_quiet (K := K) v
          rcases hx : pyToFloat (K := K) v with e | x
          · rw [hx] at this; simpa using this
          · simp
        · simp only [seaLevelSetattr, if_neg a, if_neg b]; simp
    split
    · rename_i e he
      exact fun h => this (by rw [he]; simpa using h)
    · simp
  case subsidence f =>
    have : subsidenceSetattr inp env.x name v s.1.rate ≠ .error .stopIteration := by
      by_cases a : name = "filepath"
      · simp only [subsidenceSetattr, if_pos a]
        rcases v with (_ | _ | q | _ | _) | d <;> try simp
        have := (hi.2 q).1
        rcases hq : inp.subsidenceFile q with e | g
        · rw [hq] at this; simpa using this
        · exact atColumns_quiet ((hi.2 q).2 g hq)
      · simp only [subsidenceSetattr, if_neg a]
        split_ifs <;> simp
    split
    · rename_i e he
      exact fun h => this (by rw [he]; simpa using h)
    · simp
  case compaction => simp
  case diffusion P =>
    have : diffuserSetattr name v s.1.diffuser s.2 ≠ .error .stopIteration := by
      by_cases a0 : name = "load0" ∨ name = "k_land" ∨ name = "time"
      · simp only [diffuserSetattr, if_pos a0]; simp
      by_cases a : name ∈ ["plain_slope", "wave_base", "shoreface_height", "alpha", "shelf_slope",
          "sediment_load", "sea_level"]
      · simp only [diffuserSetattr, if_neg a0, if_pos a]
        rcases hx : pyToFloat (K := K) v with e | x
        · exact fun h => pyToFloat_quiet (K := K) v (by rw [hx]; simpa using h)
        · dsimp only
          split_ifs <;> simp
      · simp only [diffuserSetattr, if_neg a0, if_neg a]; simp
    split
    · rename_i e he
      exact fun h => this (by rw [he]; simpa using h)
    · simp
  case fluvial P =>
    have : fluvialSetattr name v P ≠ .error .stopIteration := by
      by_cases a : name ∈ ["sand_frac", "sediment_load", "sand_density", "plain_slope",
          "wave_base", "hemi"]
      · simp only [fluvialSetattr, if_pos a]
        have := pyToFloat_quiet (K := K) v
        rcases hx : pyToFloat (K := K) v with e | x
        · rw [hx] at this; simpa using this
        · dsimp only
          split_ifs <;> simp
      · simp only [fluvialSetattr, if_neg a]; simp
    split
    · rename_i e he
      exact fun h => this (by rw [he]; simpa using h)
    · simp
  case shoreline a =>
    unfold shorelineSetattr
    split
    · rename_i e he
      split_ifs at he
      cases he
      simp
    · simp
  all_goals
    unfold flexureSetattr
    rcases hx : pyToFloat (K := K) v with e | x
    · have := pyToFloat_quiet (K := K) v
      rw [hx] at this
      dsimp only
      intro h
      split at h
      · rename_i e' he
        split_ifs at he <;> cases he <;> first | (cases h; done) | exact this (by simpa using h)
      · cases h
    · dsimp only
      unfold validateDensity
      intro h
      split at h
      · rename_i e' he
        split_ifs at he <;> cases he <;> cases h
      · cases h

theorem setattrNamed_quiet {env : Env R C K} {inp : Inputs K} (hi : QuietInputs inp)
    (comp name : String) (v : PyValue) (ps : List (Process K))
    (s : ProcState R C K × World R (C + 2) K) :
    setattrNamed env inp comp name v ps s ≠ .error .stopIteration := by
  induction ps with
  | nil => simp [setattrNamed]
  | cons p ps ih =>
    simp only [setattrNamed]
    by_cases hp : p.name = comp
    · simp only [if_pos hp]
      have := setattr_quiet (env := env) hi name v p s
      rcases h1 : p.setattr env inp name v s with e | q
      · rw [h1] at this; simpa using this
      · simp
    · simp only [if_neg hp]
      rcases h1 : setattrNamed env inp comp name v ps s with e | q
      · rw [h1] at ih; simpa using ih
      · simp

theorem writerSetattr_quiet (name : String) (v : PyValue) (s : Writer K × FileSystem K A) :
    writerSetattr name v s ≠ .error .stopIteration := by
  by_cases a : name = "filepath"
  · simp only [writerSetattr, if_pos a]
    rcases v with (_ | _ | q | _ | _) | d <;> try simp
    unfold setFilepath
    split_ifs
    · simp
    · cases s.2 q <;> simp
  · simp only [writerSetattr, if_neg a]
    by_cases b : name = "interval"
    · simp only [if_pos b]
      rcases h1 : checkInterval (pyToInterval v : PyNumber K) with e | n
      · have : e ≠ .stopIteration := by
          intro h
          rw [h] at h1
          unfold checkInterval at h1
          split at h1 <;> first | (cases h1; done) | (split_ifs at h1 <;> cases h1)
        simpa using this
      · simp
    · simp only [if_neg b]
      by_cases c : name = "fields"
      · simp only [if_pos c]
        rcases h1 : pyToNames v with e | n
        · have : e ≠ .stopIteration := by
            intro h
            rw [h] at h1
            unfold pyToNames at h1
            split at h1 <;> cases h1
          simpa using this
        · simp
      · simp only [if_neg c]; simp

theorem live_setattr_quiet {env : Env R C K} {inp : Inputs K} (hi : QuietInputs inp)
    (comp name : String) (v : PyValue) (l : Live R C K A) :
    l.setattr env inp comp name v ≠ .error .stopIteration := by
  by_cases a : comp = "output"
  · simp only [Live.setattr, if_pos a]
    have := writerSetattr_quiet name v l.state.comps.2
    rcases h1 : writerSetattr name v l.state.comps.2 with e | q
    · rw [h1] at this; simpa using this
    · simp
  · simp only [Live.setattr, if_neg a]
    have := setattrNamed_quiet (env := env) hi comp name v l.procs (l.state.comps.1, l.state.world)
    rcases h1 : setattrNamed env inp comp name v l.procs (l.state.comps.1, l.state.world) with
      e | ⟨ps, s, w⟩
    · rw [h1] at this; simpa using this
    · simp

theorem setSection_quiet {env : Env R C K} {inp : Inputs K} (hi : QuietInputs inp)
    (comp : String) (d : Doc) (l : Live R C K A) :
    l.setSection env inp comp d ≠ .error .stopIteration := by
  induction d generalizing l with
  | nil => simp [Live.setSection]
  | leaf k v r ih =>
    simp only [Live.setSection]
    have := live_setattr_quiet (env := env) hi comp k (.inl v) l
    rcases h1 : l.setattr env inp comp k (.inl v) with e | l'
    · rw [h1] at this; simpa using this
    · exact ih l'
  | sub k v r _ ih =>
    simp only [Live.setSection]
    have := live_setattr_quiet (env := env) hi comp k (.inr v) l
    rcases h1 : l.setattr env inp comp k (.inr v) with e | l'
    · rw [h1] at this; simpa using this
    · exact ih l'

theorem setParams_quiet {env : Env R C K} {inp : Inputs K} (hi : QuietInputs inp) (d : Doc)
    (l : Live R C K A) : l.setParams env inp d ≠ .error .stopIteration := by
  induction d generalizing l with
  | nil => simp [Live.setParams]
  | leaf k v r _ =>
    simp only [Live.setParams]
    split_ifs <;> simp
  | sub k v r _ ih =>
    simp only [Live.setParams]
    split_ifs
    · have := setSection_quiet (env := env) hi k v l
      rcases h1 : l.setSection env inp k v with e | l'
      · rw [h1] at this; simpa using this
      · exact ih l'
    · simp

theorem inSub_quiet {k : String} {f : Doc → Except Err Doc}
    (hf : ∀ d, f d ≠ .error .stopIteration) (d : Doc) :
    d.inSub k f ≠ .error .stopIteration := by
  induction d with
  | nil =>
    simp only [Doc.inSub]
    have := hf .nil
    rcases h1 : f .nil with e | d'
    · rw [h1] at this; simpa using this
    · simp
  | leaf a v r ih =>
    simp only [Doc.inSub]
    split_ifs
    · simp
    · rcases h1 : r.inSub k f with e | d'
      · rw [h1] at ih; simpa using ih
      · simp
  | sub a s r _ ih =>
    simp only [Doc.inSub]
    split_ifs
    · have := hf s
      rcases h1 : f s with e | d'
      · rw [h1] at this; simpa using this
      · simp
    · rcases h1 : r.inSub k f with e | d'
      · rw [h1] at ih; simpa using ih
      · simp

theorem addItem_quiet (p : List String) (v : Leaf) (d : Doc) :
    Doc.addItem p v d ≠ .error .stopIteration := by
  induction p generalizing d with
  | nil => simp [Doc.addItem]
  | cons k p ih =>
    cases p with
    | nil => simp [Doc.addItem]
    | cons n p =>
      simp only [Doc.addItem]
      exact inSub_quiet (fun d => ih d) d

theorem addItems_quiet (f : Flat) (d : Doc) : Doc.addItems f d ≠ .error .stopIteration := by
  induction f generalizing d with
  | nil => simp [Doc.addItems]
  | cons i f ih =>
    obtain ⟨p, v⟩ := i
    simp only [Doc.addItems]
    have := addItem_quiet p v d
    rcases h1 : Doc.addItem p v d with e | d'
    · rw [h1] at this; simpa using this
    · exact ih d'

theorem liveRoundIn_quiet (σ : SetOrder) {env : Env R C K} {inp : Inputs K} (hi : QuietInputs inp)
    (s : Cfg × Live R C K A) : liveRoundIn σ env inp s ≠ .error .stopIteration := by
  unfold liveRoundIn
  rcases h1 : s.1.updateIn σ 1 with e | ⟨d, c⟩
  · have : e ≠ .stopIteration := by
      rintro rfl
      unfold Cfg.updateIn at h1
      dsimp only at h1
      split_ifs at h1
      split at h1
      · rename_i e he
        cases h1
        unfold Cfg.diff at he
        dsimp only at he
        split_ifs at he
        cases he
      · split at h1
        · rename_i e he
          cases h1
          exact addItems_quiet _ _ he
        · cases h1
    simpa using this
  · dsimp only
    have := setParams_quiet (env := env) hi d s.2
    rcases h2 : s.2.setParams env inp d with e | l
    · rw [h2] at this; simpa using this
    · simp

/-! ### One round -/

theorem valueAt_length {d : Doc} (h : TwoLevels d) {p : List String} {v : Leaf}
    (hv : valueAt d p = some v) : p.length ≤ 2 := by
  have key : ∀ {d : Doc} {k : String} {s : Doc}, TwoLevels d → d.find? k = some (.inr s) →
      ∀ k' s', s.find? k' ≠ some (.inr s') := by
    intro d
    induction d with
    | nil => intro k s _ h; cases h
    | leaf a u r ih =>
      intro k s h1 h2
      simp only [Doc.find?] at h2
      split_ifs at h2
      · cases h2
      · exact ih h1 h2
    | sub a u r _ ih =>
      intro k s h1 h2
      simp only [Doc.find?] at h2
      split_ifs at h2
      · cases h2; exact h1.1
      · exact ih h1.2 h2
  rcases p with _ | ⟨a, _ | ⟨b, _ | ⟨c, p⟩⟩⟩
  iterate 3 simp
  exfalso
  rw [valueAt_cons] at hv
  rcases hf : d.find? a with _ | u | s
  · rw [hf] at hv; cases hv
  · rw [hf] at hv; cases hv
  · rw [hf] at hv
    dsimp only at hv
    rw [valueAt_cons] at hv
    rcases hg : s.find? b with _ | u | s'
    · rw [hg] at hv; cases hv
    · rw [hg] at hv; cases hv
    · exact key h hf b s' hg

/-- The sections of a model that has been set up. -/
structure PlainSections (c : Cfg) (docs : List Doc) : Prop where
  stored : c.dicts = docs.map stored
  distinct : ∀ d ∈ docs, DistinctKeys d
  short : ∀ d ∈ docs, ∀ p v, valueAt d p = some v → p.length ≤ 2

theorem updateIn_perm {σ τ : SetOrder} (hσ : Reorders σ) (hτ : Reorders τ) {c : Cfg}
    {docs : List Doc} (hc : PlainSections c docs) (env : Env R C K) (inp : Inputs K)
    (l : Live R C K A) :
    (liveRoundIn σ env inp (c, l)).toOption = (liveRoundIn τ env inp (c, l)).toOption := by
  unfold liveRoundIn Cfg.updateIn
  dsimp only
  split_ifs
  · rcases hf : c.diff c.time (c.time + 1) with e | f
    · rfl
    · dsimp only
      have hn := (Cfg.diff_keys hf).1
      have h2 : ∀ p ∈ f.keys, p.length ≤ 2 := by
        intro p hp
        obtain ⟨⟨q, v⟩, hm, rfl⟩ := List.mem_map.mp hp
        have hg := PyDict.get?_of_mem hn hm
        obtain ⟨d, hd, w, hw, -⟩ := Cfg.mem_of_call hc.stored hc.distinct ((Cfg.diff_ok hf q v).mp hg).1
        exact hc.short d hd q w hw
      have hp : (σ (c.time + 1) f).Perm (τ (c.time + 1) f) :=
        (hσ (c.time + 1) f).trans (hτ (c.time + 1) f).symm
      have hk : (σ (c.time + 1) f).keys.Perm f.keys := (hσ (c.time + 1) f).map _
      have := setParams_expand_perm env inp hp (hk.nodup_iff.mpr hn)
        (fun p hp => h2 p (hk.mem_iff.mp hp)) l
      rcases h1 : Doc.expand (σ (c.time + 1) f) with e | d <;>
        rcases h2 : Doc.expand (τ (c.time + 1) f) with e' | d' <;>
        simp only [h1, h2, Except.toOption, Option.bind_none, Option.bind_some] at this ⊢
      · rcases h3 : l.setParams env inp d' with e | l'
        · rfl
        · rw [h3] at this; cases this
      · rcases h3 : l.setParams env inp d with e | l'
        · rfl
        · rw [h3] at this; cases this
      · rcases h3 : l.setParams env inp d with e | l1 <;>
          rcases h4 : l.setParams env inp d' with e' | l2 <;> simp only [h3, h4] at this ⊢
        all_goals cases this
        rfl
  · rfl

theorem liveRoundIn_plain {σ : SetOrder} {c : Cfg} {docs : List Doc} (hc : PlainSections c docs)
    {env : Env R C K} {inp : Inputs K} {l : Live R C K A} {s : Cfg × Live R C K A}
    (h : liveRoundIn σ env inp (c, l) = .ok s) : PlainSections s.1 docs := by
  unfold liveRoundIn Cfg.updateIn at h
  dsimp only at h
  split_ifs at h
  · split at h
    · cases h
    · rename_i d c' hu
      split at hu
      · cases hu
      · split at hu
        · cases hu
        · cases hu
          split at h
          · cases h
          · cases h
            exact ⟨hc.stored, hc.distinct, hc.short⟩
  · dsimp only at h
    split at h
    · cases h
    · cases h
      exact ⟨hc.stored, hc.distinct, hc.short⟩

/-! ### All rounds -/

theorem sameStop_refl (a : Option (Left K A)) : SameStop a a := by
  cases a with
  | none => trivial
  | some a => exact ⟨rfl, .rfl, rfl, fun _ => ⟨rfl, rfl⟩⟩

theorem leftLoopIn_order {σ τ : SetOrder} (hσ : Reorders σ) (hτ : Reorders τ) (env : Env R C K)
    {inp : Inputs K} (hi : QuietInputs inp)
    (view : ProcState R C K → World R (C + 2) K → GridView A) (porosity : LiveState R C K A → K)
    (fuel : ℕ) (k : Clock K) {c : Cfg} {docs : List Doc} (hc : PlainSections c docs)
    (l : Live R C K A) :
    SameStop (leftLoopIn σ env inp view porosity fuel k (c, l))
      (leftLoopIn τ env inp view porosity fuel k (c, l)) := by
  induction fuel generalizing k c l with
  | zero => trivial
  | succ fuel ih =>
    simp only [leftLoopIn]
    rcases k.advance with ⟨k', e | u⟩
    · exact sameStop_refl _
    · dsimp only
      rcases l.advance env view porosity k'.time k.step with e | l'
      · exact sameStop_refl _
      · dsimp only
        have h1 := updateIn_perm hσ hτ hc env inp l'
        have hqσ := liveRoundIn_quiet σ (env := env) hi (c, l')
        have hqτ := liveRoundIn_quiet τ (env := env) hi (c, l')
        rcases h2 : liveRoundIn σ env inp (c, l') with e | s <;>
          rcases h3 : liveRoundIn τ env inp (c, l') with e' | s' <;>
          simp only [h2, h3, Except.toOption] at h1 hqσ hqτ ⊢
        · have e1 : suppressStop e = some e := by
            unfold suppressStop; rw [if_neg (fun h => hqσ (by rw [h]))]
          have e2 : suppressStop e' = some e' := by
            unfold suppressStop; rw [if_neg (fun h => hqτ (by rw [h]))]
          refine ⟨rfl, by simp [e1, e2], rfl, fun h => ?_⟩
          have := h rfl
          rw [e1] at this
          cases this
        · cases h1
        · cases h1
        · cases h1
          exact ih k' (liveRoundIn_plain hc h2) s.2

end

/-! ### The command -/

section

variable {K : Type} [Field K] [LinearOrder K] [FloorRing K]

theorem plain_of_setup {ext : Externals K} {times : List ℕ} {files : List (List Doc)}
    {fs fs' : FileSystem K (Option K)} {m : Ready K}
    (hd : ∀ f ∈ files, ∀ d ∈ f, DistinctKeys d) (h2 : ∀ f ∈ files, ∀ d ∈ f, TwoLevels d)
    (h : runSetup ext times files fs = (fs', .ok m)) : ∃ docs, PlainSections m.cfg docs := by
  obtain ⟨docs, c, e, hl, hinit, hasdict, hm⟩ := runSetup_made h
  have hfrom := Cfg.loadFiles_from hl hd
  refine ⟨docs, ?_, fun d hm => (hfrom d hm).1, ?_⟩
  · cases hm
    dsimp only
    exact (Cfg.init_ok hinit).2.1
  · intro d hm p v hv
    obtain ⟨-, f, hf, d', hd', hsub⟩ := hfrom d hm
    exact valueAt_length (h2 f hf d' hd') (hsub p v hv)

theorem quiet_of_setup {ext : Externals K} (hq : ReadsQuietly ext) {times : List ℕ}
    {files : List (List Doc)} {fs fs' : FileSystem K (Option K)} {m : Ready K}
    (h : runSetup ext times files fs = (fs', .ok m)) : QuietInputs m.inp := by
  obtain ⟨docs, c, e, -, -, -, hm⟩ := runSetup_made h
  cases hm
  exact ⟨fun path => (hq path _).1, fun path => hq path _⟩

/-- C125: in whatever order python goes through the parameters that change at a time, a run of
configurations that have sections of plain parameters stops at the same place, with an error or
without, and leaves the same files; only if a change of parameters fails, the error and the files
may differ (`order_of_error`, `order_of_files`). Configurations with deeper dictionaries are the
missing case (`order_of_success`). -/
theorem change_order_free_partial (ext : Externals K) (hq : ReadsQuietly ext)
    (entries : List (List Char)) (contents : List Char → List Doc)
    (hd : ∀ f ∈ (findConfigFiles entries).2, ∀ d ∈ contents f, DistinctKeys d)
    (h2 : ∀ f ∈ (findConfigFiles entries).2, ∀ d ∈ contents f, TwoLevels d)
    (σ τ : SetOrder) (hσ : Reorders σ) (hτ : Reorders τ) (dryRun : Bool) (fuel : ℕ)
    (fs : FileSystem K (Option K)) :
    SameStop (leftByRunIn σ ext entries contents dryRun fuel fs)
      (leftByRunIn τ ext entries contents dryRun fuel fs) := by
  unfold leftByRunIn
  rcases h : runSetup ext (findConfigFiles entries).1 ((findConfigFiles entries).2.map contents) fs
    with ⟨fs', e | m⟩
  · exact sameStop_refl _
  · dsimp only
    split_ifs
    · exact sameStop_refl _
    · unfold Ready.leftIn
      split
      · exact sameStop_refl _
      · obtain ⟨docs, hp⟩ := plain_of_setup (by simpa using hd) (by simpa using h2) h
        exact leftLoopIn_order hσ hτ m.env (quiet_of_setup hq h) m.view _ fuel m.clock hp m.live

/-- With the order of the later configuration this is the command of `Verif.Model.Failure`. -/
theorem leftLoopIn_model {A : Type*} {R C : ℕ} (env : Env R C K) (inp : Inputs K)
    (view : ProcState R C K → World R (C + 2) K → GridView A) (porosity : LiveState R C K A → K)
    (fuel : ℕ) (k : Clock K) (s : Cfg × Live R C K A) :
    leftLoopIn (fun _ f => f) env inp view porosity fuel k s =
      leftLoop env inp view porosity fuel k s := by
  induction fuel generalizing k s with
  | zero => rfl
  | succ fuel ih =>
    simp only [leftLoopIn, leftLoop]
    rcases k.advance with ⟨k', e | u⟩
    · rfl
    · dsimp only
      rcases s.2.advance env view porosity k'.time k.step with e | l
      · rfl
      · dsimp only
        have h1 : liveRoundIn (fun _ f => f) env inp (s.1, l) = liveRound env inp (s.1, l) := rfl
        rw [h1]
        rcases liveRound env inp (s.1, l) with e | s'
        · rfl
        · exact ih k' s'

theorem leftByRunIn_model (ext : Externals K) (entries : List (List Char))
    (contents : List Char → List Doc) (dryRun : Bool) (fuel : ℕ) (fs : FileSystem K (Option K)) :
    leftByRunIn (fun _ f => f) ext entries contents dryRun fuel fs =
      leftByRun ext entries contents dryRun fuel fs := by
  unfold leftByRunIn leftByRun
  split
  · simp_all
  · rename_i fs' m h
    rw [h]
    dsimp only
    unfold Ready.leftIn Ready.left
    rw [leftLoopIn_model]
    rfl

/-- C125: so what is proved of the command with the order of the later configuration holds with
every order. -/
theorem finishes_in_any_order_partial (ext : Externals K) (hq : ReadsQuietly ext)
    (entries : List (List Char)) (contents : List Char → List Doc)
    (hd : ∀ f ∈ (findConfigFiles entries).2, ∀ d ∈ contents f, DistinctKeys d)
    (h2 : ∀ f ∈ (findConfigFiles entries).2, ∀ d ∈ contents f, TwoLevels d)
    (σ : SetOrder) (hσ : Reorders σ) (dryRun : Bool) (fuel : ℕ)
    (fs : FileSystem K (Option K)) (a : Left K (Option K))
    (h : leftByRun ext entries contents dryRun fuel fs = some a) (he : a.error = none) :
    leftByRunIn σ ext entries contents dryRun fuel fs = some a := by
  have := change_order_free_partial ext hq entries contents hd h2 (fun _ f => f) σ
    (fun _ f => .refl f) hσ dryRun fuel fs
  rw [leftByRunIn_model, h] at this
  rcases hb : leftByRunIn σ ext entries contents dryRun fuel fs with _ | b
  · rw [hb] at this; exact this.elim
  · rw [hb] at this
    obtain ⟨h1, -, h3, h4⟩ := this
    obtain ⟨h5, h6⟩ := h4 fun _ => he
    cases a
    cases b
    simp_all

end

/-! ### Concrete cases -/

/-- The files that an example reads never end a run quietly. -/
example : ReadsQuietly exShortExt := by
  intro path kind
  simp only [exShortExt]
  split_ifs
  · exact ⟨by simp, fun f h => by cases h; simp⟩
  · refine ⟨by simp, fun f h => ?_⟩
    cases h
    intro x
    dsimp only
    split_ifs <;> simp
  · exact ⟨by simp, fun f h => by cases h⟩

/-- An order and its reverse. -/
example : Reorders (fun _ f => f) ∧ Reorders (fun _ f => f.reverse) :=
  ⟨fun _ f => .refl f, fun _ f => f.reverse_perm⟩

/-- Two parameters that change, neither of which can be set. -/
def exBothWrong : Doc :=
  .sub "output" (.leaf "interval" (.num (-1)) .nil) (.sub "nowhere" (.leaf "x" (.num 1) .nil) .nil)

example : TwoLevels (exConfig (exOutSection "out.nc" false) .nil) ∧ TwoLevels exBothWrong := by
  simp only [exConfig, exTimed, exOutSection, exBothWrong, TwoLevels, and_true]
  refine ⟨⟨?_, ?_, ?_, ?_, ?_, ?_⟩, ?_, ?_⟩ <;> intro k s <;>
    simp only [Doc.find?, Bool.false_eq_true, if_false] <;> split_ifs <;> simp

/-- What a command leaves of a path. -/
def exLeftIn (σ : SetOrder) (d : Doc) (more : List Doc) (path : String) :
    Option ((Stage × Option Err) × Option (List ℚ) × ℕ) :=
  (leftByRunIn σ exShortExt exEntries (exContents d more) false 5 exRunFiles).map fun l =>
    ((l.stage, l.error), exLeftTimes (l.files path), entryKind (l.files path))

/-- C125: two parameters change and neither can be set: which error is raised depends on the
order. -/
theorem order_of_error :
    exLeftIn (fun _ f => f) (exConfig (exOutSection "out.nc" false) .nil) [exBothWrong] "out.nc" =
        some ((.change, some .typeError), some [0], 4) ∧
      exLeftIn (fun _ f => f.reverse) (exConfig (exOutSection "out.nc" false) .nil) [exBothWrong]
        "out.nc" = some ((.change, some (.keyError "nowhere")), some [0], 4) := by
  decide +kernel

/-- C125: one parameter is the name of an output file that is there, the other can not be set:
whether the file is removed depends on the order. -/
theorem order_of_files :
    exLeftIn (fun _ f => f) (exConfig (exOutSection "out.nc" true) .nil)
        [.sub "output" (.leaf "filepath" (.str "old.nc") (.leaf "interval" (.num (-1)) .nil)) .nil]
        "old.nc" = some ((.change, some .typeError), none, 0) ∧
      exLeftIn (fun _ f => f.reverse) (exConfig (exOutSection "out.nc" true) .nil)
        [.sub "output" (.leaf "filepath" (.str "old.nc") (.leaf "interval" (.num (-1)) .nil)) .nil]
        "old.nc" = some ((.change, some .typeError), none, 3) := by
  decide +kernel

/-- The contents of three files. -/
def exThreeFiles (d e f : Doc) (name : List Char) : List Doc :=
  if name = "sequence0.toml".toList then [d]
  else if name = "sequence01.toml".toList then [e] else [f]

/-- How a run ends in which two files for the same time give a parameter as a number and as a
dictionary. -/
def exGivenTwice (σ : SetOrder) : Option (Stage × Option Err) :=
  (leftByRunIn σ exExt
    ["sequence0.toml".toList, "sequence01.toml".toList, "sequence1.toml".toList]
    (exThreeFiles (exConfig (exOutSection "out.nc" false) .nil)
      (.sub "output" (.leaf "x" (.num 1) .nil) .nil)
      (.sub "output" (.sub "x" (.leaf "y" (.num 2) .nil) .nil) .nil)) false 5 exRunFiles).map
    fun l => (l.stage, l.error)

/-- C125: whether this run succeeds depends on the order. -/
theorem order_of_success :
    exGivenTwice (fun _ f => f) = some (.change, some .typeError) ∧
      exGivenTwice (fun _ f => f.reverse) = some (.clock, none) := by
  decide +kernel

end Verif.Props
