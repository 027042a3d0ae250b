import Verif.Lemmas.Prelude
import Verif.Lemmas.Failure
import Verif.Spec.OldFiles
import Verif.Props.OutputRun

/-!
# Two runs that differ in the files they find
-/

set_option autoImplicit false
set_option linter.unusedSectionVars false

namespace Verif

open Spec

variable {K A : Type*} {R C : ℕ} [Field K] [LinearOrder K]

/-! ### The output of a model -/

/-- The same model with another writer and other files. -/
def Live.withOutput (l : Live R C K A) (q : Writer K × FileSystem K A) : Live R C K A :=
  ⟨l.procs, ⟨(l.state.comps.1, q), l.state.world, l.state.archived⟩⟩

def Ready.withOutput {K : Type} (m : Ready K) (q : Writer K × FileSystem K (Option K)) : Ready K :=
  { m with live := m.live.withOutput q }

theorem withWriter_run [IsStrictOrderedRing K] {σ : Type*} {C : ℕ} (view : σ → World R C K → GridView A)
    (comps : List (Component σ R C K)) (dt : K) (s : σ × (Writer K × FileSystem K A))
    (w : World R C K) :
    runComponents (withWriter view comps) dt (s, w) =
      match runComponents comps dt (s.1, w) with
      | .error e => .error e
      | .ok (p, w1) =>
        match writerStep (view p w1) (some dt) s.2 with
        | .error e => .error e
        | .ok q => .ok ((p, q), w1) := by
  obtain ⟨p, q⟩ := s
  unfold withWriter
  rw [Props.runComponents_append, Props.besideWriter_run]
  rcases runComponents comps dt (p, w) with e | ⟨p1, w1⟩
  · rfl
  · simp only [runComponents, writerComponent]
    rcases writerStep (view p1 w1) (some dt) q with e | q1 <;> rfl

/-! ### Two results -/

/-- An output file that must not or can not be removed. -/
def Refuses {α : Type*} (x : Except Err α) : Prop := x = .error .runtimeError ∨ x = .error .osError

/-- Two results with the files that are left if there is no result. -/
def Fate {α : Type*} (strict : Bool) (fs₁ fs₂ : FileSystem K A) (ok : α → α → Prop)
    (x : Except Err α) (f₁ : FileSystem K A) (y : Except Err α) (f₂ : FileSystem K A) : Prop :=
  (∃ a b, x = .ok a ∧ y = .ok b ∧ ok a b) ∨
  (∃ e, x = .error e ∧ y = .error e ∧ SameOrOld fs₁ fs₂ f₁ f₂) ∨
  (strict = false ∧ (Refuses x ∨ Refuses y))

/-- Two file systems that a writer can not tell apart. With `strict` it never has to refuse. -/
structure Lock (strict : Bool) (fs₁ fs₂ : FileSystem K A) (w : Writer K)
    (g₁ g₂ : FileSystem K A) : Prop where
  old : SameOrOld fs₁ fs₂ g₁ g₂
  path : g₁ w.filepath = g₂ w.filepath
  clobber : strict = true → w.clobber = true
  dirs : strict = true → ∀ p, g₁ p = .dir ↔ g₂ p = .dir

theorem SameOrOld.update {fs₁ fs₂ g₁ g₂ : FileSystem K A} (h : SameOrOld fs₁ fs₂ g₁ g₂)
    (p : String) (e : Entry K A) :
    SameOrOld fs₁ fs₂ (Function.update g₁ p e) (Function.update g₂ p e) := by
  intro q
  by_cases hq : q = p
  · subst hq; left; rw [Function.update_self, Function.update_self]
  · rw [Function.update_of_ne hq, Function.update_of_ne hq]; exact h q

theorem Lock.update {strict : Bool} {fs₁ fs₂ g₁ g₂ : FileSystem K A} {w w' : Writer K}
    (h : Lock strict fs₁ fs₂ w g₁ g₂) {p : String} (hw : w'.filepath = p)
    (hc : w'.clobber = w.clobber) (e : Entry K A) :
    Lock strict fs₁ fs₂ w' (Function.update g₁ p e) (Function.update g₂ p e) := by
  refine ⟨SameOrOld.update h.old p e, ?_, fun hs => hc ▸ h.clobber hs, fun hs q => ?_⟩
  · rw [hw, Function.update_self, Function.update_self]
  · by_cases hq : q = p
    · subst hq; rw [Function.update_self, Function.update_self]
    · rw [Function.update_of_ne hq, Function.update_of_ne hq]; exact h.dirs hs q

theorem setFilepath_error_files {clobber : Bool} {old : Option String} {new : String}
    {g : FileSystem K A} {e : Err} (h : (setFilepath clobber old new g).2 = .error e) :
    (setFilepath clobber old new g).1.2 = g := by
  unfold setFilepath at h ⊢
  split_ifs at h ⊢
  · rfl
  · split at h <;> cases h
    rfl

theorem setFilepath_lock {strict : Bool} {g₁ g₂ : FileSystem K A} {clobber : Bool}
    (hs : strict = true → clobber = true) (hd : strict = true → ∀ p, g₁ p = .dir ↔ g₂ p = .dir)
    (old : Option String) (new : String) :
    ((∃ e, (setFilepath clobber old new g₁).2 = .error e ∧
        (setFilepath clobber old new g₂).2 = .error e) ∨
      (strict = false ∧ (Refuses (setFilepath clobber old new g₁).2 ∨
        Refuses (setFilepath clobber old new g₂).2))) ∨
    (setFilepath clobber old new g₁ = ((some new, Function.update g₁ new .absent), .ok ()) ∧
      setFilepath clobber old new g₂ = ((some new, Function.update g₂ new .absent), .ok ())) := by
  have hone : ∀ g : FileSystem K A, ((setFilepath clobber old new g).2 = .error .runtimeError ∧
        clobber = false) ∨ ((setFilepath clobber old new g).2 = .error .osError ∧ g new = .dir) ∨
      (setFilepath clobber old new g = ((some new, Function.update g new .absent), .ok ()) ∧
        g new ≠ .dir) := by
    intro g
    unfold setFilepath
    by_cases h : (g new).isFile ∧ ¬ clobber
    · left; rw [if_pos h]; exact ⟨rfl, by simpa using h.2⟩
    · rw [if_neg h]
      right
      rcases hg : g new with _ | d | _ | _ | _
      · right; refine ⟨?_, by simp⟩; rw [← hg, Function.update_eq_self, hg]
      · right; exact ⟨rfl, by simp⟩
      · right; exact ⟨rfl, by simp⟩
      · left; exact ⟨rfl, rfl⟩
      · right; exact ⟨rfl, by simp⟩
  cases strict with
  | false =>
    rcases hone g₁ with h1 | h1 | h1
    · exact .inl (.inr ⟨rfl, .inl (.inl h1.1)⟩)
    · exact .inl (.inr ⟨rfl, .inl (.inr h1.1)⟩)
    · rcases hone g₂ with h2 | h2 | h2
      · exact .inl (.inr ⟨rfl, .inr (.inl h2.1)⟩)
      · exact .inl (.inr ⟨rfl, .inr (.inr h2.1)⟩)
      · exact .inr ⟨h1.1, h2.1⟩
  | true =>
    have hc := hs rfl
    rcases hone g₁ with h1 | h1 | h1
    · rw [hc] at h1; cases h1.2
    · rcases hone g₂ with h2 | h2 | h2
      · rw [hc] at h2; cases h2.2
      · exact .inl (.inl ⟨_, h1.1, h2.1⟩)
      · exact absurd ((hd rfl new).mp h1.2) h2.2
    · rcases hone g₂ with h2 | h2 | h2
      · rw [hc] at h2; cases h2.2
      · exact absurd ((hd rfl new).mpr h2.2) h1.2
      · exact .inr ⟨h1.1, h2.1⟩

/-! ### Setting a parameter -/

theorem writerSetattr_lock {strict : Bool} {fs₁ fs₂ g₁ g₂ : FileSystem K A} {w : Writer K}
    (h : Lock strict fs₁ fs₂ w g₁ g₂) (name : String) (v : PyValue) :
    Fate strict fs₁ fs₂ (fun a b => a.1 = b.1 ∧ Lock strict fs₁ fs₂ a.1 a.2 b.2)
      (writerSetattr name v (w, g₁)) g₁ (writerSetattr name v (w, g₂)) g₂ := by
  by_cases a : name = "filepath"
  · simp only [writerSetattr, if_pos a]
    rcases v with (_ | _ | new | _ | _) | d
    all_goals first
      | exact .inr (.inl ⟨_, rfl, rfl, h.old⟩)
      | skip
    dsimp only
    rcases setFilepath_lock h.clobber h.dirs (some w.filepath) new with
      (⟨e, h1, h2⟩ | ⟨rfl, hr⟩) | ⟨h1, h2⟩
    · rcases e1 : setFilepath w.clobber (some w.filepath) new g₁ with ⟨⟨p1, f1⟩, r1⟩
      rcases e2 : setFilepath w.clobber (some w.filepath) new g₂ with ⟨⟨p2, f2⟩, r2⟩
      rw [e1] at h1
      rw [e2] at h2
      dsimp only at h1 h2
      subst h1 h2
      exact .inr (.inl ⟨e, rfl, rfl, h.old⟩)
    · rcases e1 : setFilepath w.clobber (some w.filepath) new g₁ with ⟨⟨p1, f1⟩, r1⟩
      rcases e2 : setFilepath w.clobber (some w.filepath) new g₂ with ⟨⟨p2, f2⟩, r2⟩
      rw [e1, e2] at hr
      dsimp only at hr
      refine .inr (.inr ⟨rfl, ?_⟩)
      rcases hr with (rfl | rfl) | (rfl | rfl)
      · exact .inl (.inl rfl)
      · exact .inl (.inr rfl)
      · exact .inr (.inl rfl)
      · exact .inr (.inr rfl)
    · rw [h1, h2]
      exact .inl ⟨_, _, rfl, rfl, rfl, h.update (p := new) (w' := { w with filepath := new }) rfl rfl _⟩
  · simp only [writerSetattr, if_neg a]
    by_cases b : name = "interval"
    · simp only [if_pos b]
      rcases checkInterval (pyToInterval v : PyNumber K) with e | n
      · exact .inr (.inl ⟨_, rfl, rfl, h.old⟩)
      · exact .inl ⟨_, _, rfl, rfl, rfl, ⟨h.old, h.path, h.clobber, h.dirs⟩⟩
    · simp only [if_neg b]
      by_cases c : name = "fields"
      · simp only [if_pos c]
        rcases pyToNames v with e | n
        · exact .inr (.inl ⟨_, rfl, rfl, h.old⟩)
        · exact .inl ⟨_, _, rfl, rfl, rfl, ⟨h.old, h.path, h.clobber, h.dirs⟩⟩
      · simp only [if_neg c]
        exact .inl ⟨_, _, rfl, rfl, rfl, h⟩

/-- Two models that are the same but for the files. -/
def LiveLock (strict : Bool) (fs₁ fs₂ : FileSystem K A) (l₁ l₂ : Live R C K A) : Prop :=
  ∃ g₂, l₂ = l₁.withOutput (l₁.state.comps.2.1, g₂) ∧
    Lock strict fs₁ fs₂ l₁.state.comps.2.1 l₁.files g₂

theorem LiveLock.old {strict : Bool} {fs₁ fs₂ : FileSystem K A} {l₁ l₂ : Live R C K A}
    (h : LiveLock strict fs₁ fs₂ l₁ l₂) : SameOrOld fs₁ fs₂ l₁.files l₂.files := by
  obtain ⟨g, rfl, hg⟩ := h
  exact hg.old

theorem setattr_lock {strict : Bool} {fs₁ fs₂ : FileSystem K A} {l₁ l₂ : Live R C K A}
    (h : LiveLock strict fs₁ fs₂ l₁ l₂) (env : Env R C K) (inp : Inputs K) (comp name : String)
    (v : PyValue) :
    Fate strict fs₁ fs₂ (LiveLock strict fs₁ fs₂) (l₁.setattr env inp comp name v) l₁.files
      (l₂.setattr env inp comp name v) l₂.files := by
  have hold := h.old
  obtain ⟨g, rfl, hg⟩ := h
  by_cases a : comp = "output"
  · simp only [Live.setattr, if_pos a]
    rcases writerSetattr_lock hg name v with ⟨q1, q2, h1, h2, h3, h4⟩ | ⟨e, h1, h2, h3⟩ | ⟨h0, hr⟩
    · left
      have h1' : writerSetattr name v l₁.state.comps.2 = .ok q1 := h1
      have h2' : writerSetattr name v
        (l₁.withOutput (l₁.state.comps.2.1, g)).state.comps.2 = .ok q2 := h2
      rw [h1', h2']
      exact ⟨_, _, rfl, rfl, q2.2, by rw [h3]; rfl, h4⟩
    · have h1' : writerSetattr name v l₁.state.comps.2 = .error e := h1
      have h2' : writerSetattr name v
        (l₁.withOutput (l₁.state.comps.2.1, g)).state.comps.2 = .error e := h2
      rw [h1', h2']
      exact .inr (.inl ⟨e, rfl, rfl, hold⟩)
    · refine .inr (.inr ⟨h0, ?_⟩)
      rcases hr with hr | hr
      · left
        have : Refuses (writerSetattr name v l₁.state.comps.2) := hr
        rcases this with h1 | h1 <;> rw [h1]
        · exact .inl rfl
        · exact .inr rfl
      · right
        have : Refuses (writerSetattr name v
          (l₁.withOutput (l₁.state.comps.2.1, g)).state.comps.2) := hr
        rcases this with h1 | h1 <;> rw [h1]
        · exact .inl rfl
        · exact .inr rfl
  · simp only [Live.setattr, if_neg a]
    have : setattrNamed env inp comp name v (l₁.withOutput (l₁.state.comps.2.1, g)).procs
        ((l₁.withOutput (l₁.state.comps.2.1, g)).state.comps.1,
          (l₁.withOutput (l₁.state.comps.2.1, g)).state.world) =
        setattrNamed env inp comp name v l₁.procs (l₁.state.comps.1, l₁.state.world) := rfl
    rw [this]
    rcases setattrNamed env inp comp name v l₁.procs (l₁.state.comps.1, l₁.state.world) with
      e | ⟨ps, s, w⟩
    · exact .inr (.inl ⟨_, rfl, rfl, hold⟩)
    · exact .inl ⟨_, _, rfl, rfl, g, rfl, hg⟩

theorem setSection_lock {strict : Bool} {fs₁ fs₂ : FileSystem K A} {l₁ l₂ : Live R C K A}
    (h : LiveLock strict fs₁ fs₂ l₁ l₂) (env : Env R C K) (inp : Inputs K) (comp : String)
    (d : Doc) :
    Fate strict fs₁ fs₂ (LiveLock strict fs₁ fs₂) (l₁.setSection env inp comp d)
      (l₁.setSectionFiles env inp comp d) (l₂.setSection env inp comp d)
      (l₂.setSectionFiles env inp comp d) := by
  induction d generalizing l₁ l₂ with
  | nil => exact .inl ⟨_, _, rfl, rfl, h⟩
  | leaf k v r ih =>
    simp only [Live.setSection, Live.setSectionFiles]
    rcases setattr_lock h env inp comp k (.inl v) with
      ⟨a, b, h1, h2, h3⟩ | ⟨e, h1, h2, h3⟩ | ⟨h0, hr | hr⟩
    · rw [h1, h2]; exact ih h3
    · rw [h1, h2]; exact .inr (.inl ⟨e, rfl, rfl, h3⟩)
    · refine .inr (.inr ⟨h0, .inl ?_⟩)
      rcases hr with h1 | h1 <;> rw [h1]
      · exact .inl rfl
      · exact .inr rfl
    · refine .inr (.inr ⟨h0, .inr ?_⟩)
      rcases hr with h1 | h1 <;> rw [h1]
      · exact .inl rfl
      · exact .inr rfl
  | sub k v r _ ih =>
    simp only [Live.setSection, Live.setSectionFiles]
    rcases setattr_lock h env inp comp k (.inr v) with
      ⟨a, b, h1, h2, h3⟩ | ⟨e, h1, h2, h3⟩ | ⟨h0, hr | hr⟩
    · rw [h1, h2]; exact ih h3
    · rw [h1, h2]; exact .inr (.inl ⟨e, rfl, rfl, h3⟩)
    · refine .inr (.inr ⟨h0, .inl ?_⟩)
      rcases hr with h1 | h1 <;> rw [h1]
      · exact .inl rfl
      · exact .inr rfl
    · refine .inr (.inr ⟨h0, .inr ?_⟩)
      rcases hr with h1 | h1 <;> rw [h1]
      · exact .inl rfl
      · exact .inr rfl

theorem setParams_lock {strict : Bool} {fs₁ fs₂ : FileSystem K A} {l₁ l₂ : Live R C K A}
    (h : LiveLock strict fs₁ fs₂ l₁ l₂) (env : Env R C K) (inp : Inputs K) (d : Doc) :
    Fate strict fs₁ fs₂ (LiveLock strict fs₁ fs₂) (l₁.setParams env inp d)
      (l₁.setParamsFiles env inp d) (l₂.setParams env inp d) (l₂.setParamsFiles env inp d) := by
  have hhas : ∀ {l₁ l₂ : Live R C K A}, LiveLock strict fs₁ fs₂ l₁ l₂ → ∀ k, l₂.has k = l₁.has k := by
    rintro l₁ l₂ ⟨g, rfl, -⟩ k; rfl
  induction d generalizing l₁ l₂ with
  | nil => exact .inl ⟨_, _, rfl, rfl, h⟩
  | leaf k v r _ =>
    simp only [Live.setParams, Live.setParamsFiles, hhas h]
    by_cases hk : l₁.has k = true
    · simp only [if_pos hk]; exact .inr (.inl ⟨_, rfl, rfl, h.old⟩)
    · simp only [if_neg hk]; exact .inr (.inl ⟨_, rfl, rfl, h.old⟩)
  | sub k v r _ ih =>
    simp only [Live.setParams, Live.setParamsFiles, hhas h]
    by_cases hk : l₁.has k = true
    · simp only [if_pos hk]
      rcases setSection_lock h env inp k v with
        ⟨a, b, h1, h2, h3⟩ | ⟨e, h1, h2, h3⟩ | ⟨h0, hr | hr⟩
      · rw [h1, h2]; exact ih h3
      · rw [h1, h2]; exact .inr (.inl ⟨e, rfl, rfl, h3⟩)
      · refine .inr (.inr ⟨h0, .inl ?_⟩)
        rcases hr with h1 | h1 <;> rw [h1]
        · exact .inl rfl
        · exact .inr rfl
      · refine .inr (.inr ⟨h0, .inr ?_⟩)
        rcases hr with h1 | h1 <;> rw [h1]
        · exact .inl rfl
        · exact .inr rfl
    · simp only [if_neg hk]; exact .inr (.inl ⟨_, rfl, rfl, h.old⟩)

theorem liveRound_lock {strict : Bool} {fs₁ fs₂ : FileSystem K A} {l₁ l₂ : Live R C K A}
    (h : LiveLock strict fs₁ fs₂ l₁ l₂) (env : Env R C K) (inp : Inputs K) (c : Cfg) :
    Fate strict fs₁ fs₂ (fun a b => a.1 = b.1 ∧ LiveLock strict fs₁ fs₂ a.2 b.2)
      (liveRound env inp (c, l₁)) (roundFiles env inp (c, l₁)) (liveRound env inp (c, l₂))
      (roundFiles env inp (c, l₂)) := by
  unfold liveRound roundFiles
  dsimp only
  rcases c.update 1 with e | ⟨d, c'⟩
  · exact .inr (.inl ⟨_, rfl, rfl, h.old⟩)
  · dsimp only
    rcases setParams_lock h env inp d with ⟨a, b, h1, h2, h3⟩ | ⟨e, h1, h2, h3⟩ | ⟨h0, hr | hr⟩
    · rw [h1, h2]; exact .inl ⟨_, _, rfl, rfl, rfl, h3⟩
    · rw [h1, h2]; exact .inr (.inl ⟨e, rfl, rfl, h3⟩)
    · refine .inr (.inr ⟨h0, .inl ?_⟩)
      rcases hr with h1 | h1 <;> rw [h1]
      · exact .inl rfl
      · exact .inr rfl
    · refine .inr (.inr ⟨h0, .inr ?_⟩)
      rcases hr with h1 | h1 <;> rw [h1]
      · exact .inl rfl
      · exact .inr rfl

/-! ### A step -/

theorem writerStep_lock {strict : Bool} {fs₁ fs₂ g₁ g₂ : FileSystem K A} {w : Writer K}
    (h : Lock strict fs₁ fs₂ w g₁ g₂) (g : GridView A) (dt : Option K) :
    (∃ e, writerStep g dt (w, g₁) = .error e ∧ writerStep g dt (w, g₂) = .error e) ∨
    ∃ w' h₁ h₂, writerStep g dt (w, g₁) = .ok (w', h₁) ∧ writerStep g dt (w, g₂) = .ok (w', h₂) ∧
      Lock strict fs₁ fs₂ w' h₁ h₂ := by
  unfold writerStep
  dsimp only
  by_cases a : w.interval = 0
  · simp only [if_pos a]; exact .inl ⟨_, rfl, rfl⟩
  · simp only [if_neg a]
    by_cases b : w.count % w.interval = 0
    · simp only [if_pos b]
      unfold toNetcdf
      simp only [not_true_eq_false, and_false, if_false]
      rw [h.path]
      generalize IdsArg.mk .all (.list w.rows)
        (.list ((List.range (g.cols - 2)).map Int.ofNat)) = ids
      rcases openDataset g .a defaultLocations ids (g₂ w.filepath) with e | root
      · exact .inl ⟨_, rfl, rfl⟩
      · dsimp only
        rcases appendSlice g w.time defaultLocations ids (.dict [("node", some w.fields)]) true root
          with e | root'
        · exact .inl ⟨_, rfl, rfl⟩
        · exact .inr ⟨_, _, _, rfl, rfl,
            h.update (p := w.filepath) (w' := { w with time := w.time + dt.getD 1, count := w.count + 1 })
              rfl rfl _⟩
    · simp only [if_neg b]
      exact .inr ⟨_, _, _, rfl, rfl, ⟨h.old, h.path, h.clobber, h.dirs⟩⟩

theorem advance_lock [IsStrictOrderedRing K] {strict : Bool} {fs₁ fs₂ : FileSystem K A}
    {l₁ l₂ : Live R C K A} (h : LiveLock strict fs₁ fs₂ l₁ l₂) (env : Env R C K)
    (view : ProcState R C K → World R (C + 2) K → GridView A) (porosity time dt : K) :
    (∃ a b, l₁.advance env view (fun _ => porosity) time dt = .ok a ∧
      l₂.advance env view (fun _ => porosity) time dt = .ok b ∧ LiveLock strict fs₁ fs₂ a b) ∨
    (∃ e, l₁.advance env view (fun _ => porosity) time dt = .error e ∧
      l₂.advance env view (fun _ => porosity) time dt = .error e ∧
      (l₁.advanceFiles env view dt).2 = (l₂.advanceFiles env view dt).2 ∧
      SameOrOld fs₁ fs₂ (l₁.advanceFiles env view dt).1 (l₂.advanceFiles env view dt).1) := by
  have hold := h.old
  obtain ⟨g, rfl, hg⟩ := h
  unfold Live.advance advanceComponents Live.advanceFiles
  rw [withWriter_run, withWriter_run]
  have h1 : runComponents ((l₁.withOutput (l₁.state.comps.2.1, g)).procs.map (Process.component env))
      dt ((l₁.withOutput (l₁.state.comps.2.1, g)).state.comps.1,
        clearDeposit (l₁.withOutput (l₁.state.comps.2.1, g)).state.world) =
      runComponents (l₁.procs.map (Process.component env)) dt
        (l₁.state.comps.1, clearDeposit l₁.state.world) := rfl
  rw [h1]
  rcases runComponents (l₁.procs.map (Process.component env)) dt
    (l₁.state.comps.1, clearDeposit l₁.state.world) with e | ⟨p, w⟩
  · exact .inr ⟨e, rfl, rfl, rfl, hold⟩
  · dsimp only
    have h2 : writerStep (view p w) (some dt) l₁.state.comps.2 =
      writerStep (view p w) (some dt) (l₁.state.comps.2.1, l₁.files) := rfl
    have h3 : writerStep (view p w) (some dt)
        (l₁.withOutput (l₁.state.comps.2.1, g)).state.comps.2 =
      writerStep (view p w) (some dt) (l₁.state.comps.2.1, g) := rfl
    rw [h2, h3]
    rcases writerStep_lock hg (view p w) (some dt) with ⟨e, e1, e2⟩ | ⟨w', f1, f2, e1, e2, e3⟩
    · rw [e1, e2]
      exact .inr ⟨e, rfl, rfl, rfl, hold⟩
    · rw [e1, e2]
      dsimp only
      rcases w.layers.add (atCells w.deposit) (layerProperties time porosity w) with e | ev
      · exact .inr ⟨e, rfl, rfl, rfl, e3.old⟩
      · dsimp only
        rcases updateFields { w with layers := ev } with e | w3
        · exact .inr ⟨e, rfl, rfl, rfl, e3.old⟩
        · dsimp only
          have h4 : (l₁.withOutput (l₁.state.comps.2.1, g)).state.archived = l₁.state.archived := rfl
          rw [h4]
          rcases Archive.archiveOld ⟨w3.layers, l₁.state.archived⟩ with e | a
          · exact .inr ⟨e, rfl, rfl, rfl, e3.old⟩
          · exact .inl ⟨_, _, rfl, rfl, f2, rfl, e3⟩

/-! ### The loop -/

theorem leftLoop_lock [IsStrictOrderedRing K] {strict : Bool} {fs₁ fs₂ : FileSystem K A}
    (env : Env R C K) (inp : Inputs K)
    (view : ProcState R C K → World R (C + 2) K → GridView A) (porosity : K) (fuel : ℕ)
    (k : Clock K) (c : Cfg) {l₁ l₂ : Live R C K A} (h : LiveLock strict fs₁ fs₂ l₁ l₂) :
    SameButOld fs₁ fs₂ (leftLoop env inp view (fun _ => porosity) fuel k (c, l₁))
        (leftLoop env inp view (fun _ => porosity) fuel k (c, l₂)) ∨
      (strict = false ∧ (Refused (leftLoop env inp view (fun _ => porosity) fuel k (c, l₁)) ∨
        Refused (leftLoop env inp view (fun _ => porosity) fuel k (c, l₂)))) := by
  induction fuel generalizing k c l₁ l₂ with
  | zero => exact .inl trivial
  | succ fuel ih =>
    simp only [leftLoop]
    rcases k.advance with ⟨k', e | u⟩
    · exact .inl ⟨rfl, rfl, rfl, h.old⟩
    · dsimp only
      rcases advance_lock h env view porosity k'.time k.step with
        ⟨a, b, h1, h2, h3⟩ | ⟨e, h1, h2, h3, h4⟩
      · rw [h1, h2]
        dsimp only
        rcases liveRound_lock h3 env inp c with
          ⟨⟨c1, a'⟩, ⟨c2, b'⟩, r1, r2, r3, r4⟩ | ⟨e, r1, r2, r3⟩ | ⟨h0, hr | hr⟩
        · rw [r1, r2]
          dsimp only at r3 r4
          subst r3
          exact ih k' c1 r4
        · rw [r1, r2]
          exact .inl ⟨rfl, rfl, rfl, r3⟩
        · refine .inr ⟨h0, .inl ?_⟩
          rcases hr with r1 | r1 <;> rw [r1]
          · exact ⟨_, rfl, .inr rfl, .inl rfl⟩
          · exact ⟨_, rfl, .inr rfl, .inr rfl⟩
        · refine .inr ⟨h0, .inr ?_⟩
          rcases hr with r1 | r1 <;> rw [r1]
          · exact ⟨_, rfl, .inr rfl, .inl rfl⟩
          · exact ⟨_, rfl, .inr rfl, .inr rfl⟩
      · rw [h1, h2]
        exact .inl ⟨rfl, rfl, h3, h4⟩

end Verif
