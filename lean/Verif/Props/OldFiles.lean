import Verif.Lemmas.OldFiles
import Verif.Props.Setup
import Verif.Props.Failure

/-!
# C126: files from before a run make no difference
-/

set_option autoImplicit false
set_option linter.unusedSectionVars false

namespace Verif.Props

open Verif Spec

section

variable {K : Type} [Field K] [LinearOrder K]

/-- What the constructor of a model makes of the writer. -/
theorem finish_output {ext : Externals K} {times : List ℕ} {files : List (List Doc)}
    {p : Prepared K} (hp : prepare ext times files = .ok p)
    (q q2 : Writer K × FileSystem K (Option K)) :
    (∃ e, p.finish q = .error e ∧ p.finish q2 = .error e) ∨
      ∃ m : Ready K, p.finish q = .ok m ∧ p.finish q2 = .ok (m.withOutput q2) ∧
        m.live.state.comps.2 = q := by
  unfold prepare at hp
  simp only [bind, Except.bind] at hp
  iterate 14 (split at hp; · cases hp)
  cases hp
  dsimp only
  split
  · exact .inl ⟨_, rfl, rfl⟩
  · exact .inr ⟨_, rfl, rfl, rfl⟩

theorem setup_lock (ext : Externals K) (times : List ℕ) (files : List (List Doc)) (strict : Bool)
    (fs₁ fs₂ : FileSystem K (Option K))
    (hc : strict = true → ∀ p, prepare ext times files = .ok p → p.args.clobber = true)
    (hd : strict = true → ∀ q, fs₁ q = .dir ↔ fs₂ q = .dir) :
    (∃ e, (runSetup ext times files fs₁).2 = .error e ∧ (runSetup ext times files fs₂).2 = .error e ∧
      SameOrOld fs₁ fs₂ (runSetup ext times files fs₁).1 (runSetup ext times files fs₂).1) ∨
    (∃ m : Ready K, ∃ g, (runSetup ext times files fs₁).2 = .ok m ∧
      (runSetup ext times files fs₂).2 = .ok (m.withOutput (m.live.state.comps.2.1, g)) ∧
      (runSetup ext times files fs₁).1 = m.live.files ∧ (runSetup ext times files fs₂).1 = g ∧
      Lock strict fs₁ fs₂ m.live.state.comps.2.1 m.live.files g) ∨
    (strict = false ∧ (Refuses (runSetup ext times files fs₁).2 ∨
      Refuses (runSetup ext times files fs₂).2)) := by
  unfold runSetup
  by_cases h0 : times = []
  · simp only [if_pos h0]
    exact .inl ⟨_, rfl, rfl, fun p => .inr ⟨rfl, rfl⟩⟩
  · simp only [if_neg h0]
    rcases hp : prepare ext times files with e | p
    · exact .inl ⟨_, rfl, rfl, fun p => .inr ⟨rfl, rfl⟩⟩
    · dsimp only
      unfold writerInit
      rcases checkInterval p.args.interval with e | n
      · exact .inl ⟨_, rfl, rfl, fun p => .inr ⟨rfl, rfl⟩⟩
      · dsimp only
        rcases setFilepath_lock (fun hs => hc hs p hp) hd none
          p.args.path with (⟨e, h1, h2⟩ | ⟨rfl, hr⟩) | ⟨h1, h2⟩
        · left
          have k1 := setFilepath_error_files h1
          have k2 := setFilepath_error_files h2
          rcases e1 : setFilepath p.args.clobber none p.args.path fs₁ with ⟨⟨p1, f1⟩, r1⟩
          rcases e2 : setFilepath p.args.clobber none p.args.path fs₂ with ⟨⟨p2, f2⟩, r2⟩
          rw [e1] at h1 k1
          rw [e2] at h2 k2
          dsimp only at h1 h2 k1 k2
          subst h1 h2 k1 k2
          exact ⟨e, rfl, rfl, fun p => .inr ⟨rfl, rfl⟩⟩
        · right; right
          refine ⟨rfl, ?_⟩
          rcases e1 : setFilepath p.args.clobber none p.args.path fs₁ with ⟨⟨p1, f1⟩, r1⟩
          rcases e2 : setFilepath p.args.clobber none p.args.path fs₂ with ⟨⟨p2, f2⟩, r2⟩
          rw [e1, e2] at hr
          dsimp only at hr
          rcases hr with (rfl | rfl) | (rfl | rfl)
          · exact .inl (.inl rfl)
          · exact .inl (.inr rfl)
          · exact .inr (.inl rfl)
          · exact .inr (.inr rfl)
        · rw [h1, h2]
          dsimp only
          have hlock : ∀ w : Writer K, w.filepath = p.args.path → w.clobber = p.args.clobber →
              Lock strict fs₁ fs₂ w (Function.update fs₁ p.args.path .absent)
                (Function.update fs₂ p.args.path .absent) := by
            intro w hw hcl
            refine ⟨SameOrOld.update (fun p => .inr ⟨rfl, rfl⟩) _ _, ?_,
              fun hs => by rw [hcl]; exact hc hs p hp, fun hs q => ?_⟩
            · rw [hw, Function.update_self, Function.update_self]
            · by_cases hq : q = p.args.path
              · subst hq; rw [Function.update_self, Function.update_self]
              · rw [Function.update_of_ne hq, Function.update_of_ne hq]; exact hd hs q
          rcases hrows : p.args.rows with e | rows
          · exact .inl ⟨_, rfl, rfl, (hlock ⟨p.args.clobber, 0, [], p.args.path, [], 0, 0⟩ rfl rfl).old⟩
          · dsimp only
            generalize hw : (Writer.mk p.args.clobber n p.args.fields p.args.path _ 0 0 :
              Writer K) = w
            rcases finish_output hp (w, Function.update fs₁ p.args.path .absent)
              (w, Function.update fs₂ p.args.path .absent) with ⟨e, k1, k2⟩ | ⟨m, k1, k2, k3⟩
            · rw [k1, k2]
              exact .inl ⟨e, rfl, rfl, (hlock w (by rw [← hw]) (by rw [← hw])).old⟩
            · rw [k1, k2]
              refine .inr (.inl ⟨m, _, rfl, by rw [k3], by rw [Live.files, k3], rfl, ?_⟩)
              rw [Live.files, k3]
              exact hlock w (by rw [← hw]) (by rw [← hw])

end

section

variable {K : Type} [Field K] [LinearOrder K] [IsStrictOrderedRing K] [FloorRing K]

theorem left_lock (ext : Externals K) (entries : List (List Char))
    (contents : List Char → List Doc) (dryRun : Bool) (fuel : ℕ) (strict : Bool)
    (fs₁ fs₂ : FileSystem K (Option K))
    (hc : strict = true → ∀ p, prepare ext (findConfigFiles entries).1
      ((findConfigFiles entries).2.map contents) = .ok p → p.args.clobber = true)
    (hd : strict = true → ∀ q, fs₁ q = .dir ↔ fs₂ q = .dir) :
    SameButOld fs₁ fs₂ (leftByRun ext entries contents dryRun fuel fs₁)
        (leftByRun ext entries contents dryRun fuel fs₂) ∨
      (strict = false ∧ (Refused (leftByRun ext entries contents dryRun fuel fs₁) ∨
        Refused (leftByRun ext entries contents dryRun fuel fs₂))) := by
  unfold leftByRun
  have h := setup_lock ext (findConfigFiles entries).1 ((findConfigFiles entries).2.map contents)
    strict fs₁ fs₂ hc hd
  rcases e1 : runSetup ext (findConfigFiles entries).1 ((findConfigFiles entries).2.map contents)
    fs₁ with ⟨f1, r1⟩
  rcases e2 : runSetup ext (findConfigFiles entries).1 ((findConfigFiles entries).2.map contents)
    fs₂ with ⟨f2, r2⟩
  rw [e1, e2] at h
  dsimp only at h
  rcases h with ⟨e, rfl, rfl, h3⟩ | ⟨m, g, rfl, rfl, rfl, rfl, h3⟩ | ⟨h0, hr⟩
  · exact .inl ⟨rfl, rfl, rfl, h3⟩
  · dsimp only
    cases dryRun with
    | true => exact .inl ⟨rfl, rfl, rfl, h3.old⟩
    | false =>
      simp only [Bool.false_eq_true, if_false]
      unfold Ready.left
      have hk : (m.withOutput (m.live.state.comps.2.1, f2)).clock = m.clock := rfl
      rw [hk]
      rcases progressTotal m.clock with e | n
      · exact .inl ⟨rfl, rfl, rfl, h3.old⟩
      · exact leftLoop_lock m.env m.inp m.view m.porosity fuel m.clock m.cfg
          (l₁ := m.live) (l₂ := m.live.withOutput (m.live.state.comps.2.1, f2)) ⟨f2, rfl, h3⟩
  · refine .inr ⟨h0, ?_⟩
    rcases hr with (rfl | rfl) | (rfl | rfl)
    · exact .inl ⟨_, rfl, .inl rfl, .inl rfl⟩
    · exact .inl ⟨_, rfl, .inl rfl, .inr rfl⟩
    · exact .inr ⟨_, rfl, .inl rfl, .inl rfl⟩
    · exact .inr ⟨_, rfl, .inl rfl, .inr rfl⟩

/-- C126: whatever files are there before a run, it does the same, ends in the same way and leaves
the same in every file that it changes; unless it is stopped because an output file is there. -/
theorem old_files_irrelevant (ext : Externals K) (entries : List (List Char))
    (contents : List Char → List Doc) (dryRun : Bool) (fuel : ℕ)
    (fs₁ fs₂ : FileSystem K (Option K)) :
    Refused (leftByRun ext entries contents dryRun fuel fs₁) ∨
      Refused (leftByRun ext entries contents dryRun fuel fs₂) ∨
      SameButOld fs₁ fs₂ (leftByRun ext entries contents dryRun fuel fs₁)
        (leftByRun ext entries contents dryRun fuel fs₂) := by
  rcases left_lock ext entries contents dryRun fuel false fs₁ fs₂ (fun h => by cases h)
    (fun h => by cases h) with h | ⟨-, h | h⟩
  · exact .inr (.inr h)
  · exact .inl h
  · exact .inr (.inl h)

/-! ### Files that a run may overwrite -/

/-- The first section lets a run overwrite its output file. -/
theorem prepare_clobber {ext : Externals K} {times : List ℕ} {files : List (List Doc)} {d : Doc}
    (hfirst : files.flatten.head? = some d) (hd : DistinctKeys d) (ht : NoTuples d) {v : PyValue}
    (hv : entry d "output" "clobber" = some v) (hb : Truthy v) {p : Prepared K}
    (hp : prepare ext times files = .ok p) : p.args.clobber = true := by
  obtain ⟨docs, c, e, out, h1, h2, h3, h4, h5, h6⟩ := prepare_ok hp
  obtain ⟨hde, hfe⟩ := first_section h1 h2 h3 hfirst hd ht
  rw [(loadWriter_ok h5).2]
  have hget := sectionOf_get? hd (hfe "output" (by decide) (by decide))
    (g := out.items) (by unfold sectionOf; rw [h4]) "clobber"
  rw [Doc.get?_items, hv] at hget
  rw [hget]
  exact pyTruth_iff.mpr hb

/-- C126: with `clobber` in the first section no file from before makes any difference: only
directories could. -/
theorem old_files_overwritten (ext : Externals K) (entries : List (List Char))
    (contents : List Char → List Doc) (d : Doc)
    (hfirst : ((findConfigFiles entries).2.map contents).flatten.head? = some d)
    (hd : DistinctKeys d) (ht : NoTuples d) (v : PyValue)
    (hv : entry d "output" "clobber" = some v) (hb : Truthy v) (dryRun : Bool) (fuel : ℕ)
    (fs₁ fs₂ : FileSystem K (Option K)) (hdir : ∀ path, fs₁ path = .dir ↔ fs₂ path = .dir) :
    SameButOld fs₁ fs₂ (leftByRun ext entries contents dryRun fuel fs₁)
      (leftByRun ext entries contents dryRun fuel fs₂) := by
  rcases left_lock ext entries contents dryRun fuel true fs₁ fs₂
    (fun _ p hp => prepare_clobber hfirst hd ht hv hb hp) (fun _ => hdir) with h | ⟨h, -⟩
  · exact h
  · cases h

/-! ### Directories -/

/-- Whatever the writer keeps is true at every moment of a run. -/
theorem passes_maintains {m : Ready K} {P : Writer K × FileSystem K (Option K) → Prop}
    {docs : List Doc} (hd : ∀ d ∈ docs, DistinctKeys d) (hc : m.cfg.dicts = docs.map stored)
    (h0 : P m.live.state.comps.2)
    (hstep : ∀ g dt q q', P q → writerStep g dt q = .ok q' → P q')
    (hset : ∀ name v q q', P q → writerSetattr name v q = .ok q' → P q')
    {clock : Clock K} {s : Cfg × Live m.R m.C K (Option K)} (h : Passes m clock s) :
    s.1.dicts = docs.map stored ∧ P s.2.state.comps.2 := by
  induction h with
  | start => exact ⟨hc, h0⟩
  | step _ hs ih =>
    refine ⟨ih.1, ?_⟩
    unfold runOneStep at hs
    split at hs
    · cases hs
    · simp only [Prod.mk.injEq] at hs
      have hs := hs.2
      unfold Live.advance at hs
      split at hs
      · cases hs
      · rename_i s' hs'
        cases hs
        obtain ⟨p, w, ev, w3, a, g1, g2, g3, g4, rfl⟩ := advanceComponents_ok hs'
        obtain ⟨p1, q1⟩ := p
        exact hstep _ _ _ _ ih.2 (withWriter_run_ok _ _ g1).2
  | change _ hr ih =>
    unfold liveRound at hr
    split at hr
    · cases hr
    · rename_i e c' hu
      obtain ⟨h1, h2, h3⟩ := Cfg.update_from ih.1 hd hu
      split at hr
      · cases hr
      · rename_i l hl
        cases hr
        refine ⟨h1.trans ih.1, ?_⟩
        refine (setParams_maintains (P := fun l : Live m.R m.C K (Option K) => P l.state.comps.2)
          (Q := fun _ _ _ => True) ?_ h2 (fun _ _ _ _ _ _ => trivial) ih.2).2 _ hl
        intro comp k v l l' _ hl hs
        obtain ⟨-, -, h | ⟨h4, h5⟩⟩ := setattr_world hs
        · rw [h]; exact hl
        · exact hset _ _ _ _ hl h5

theorem roundFiles_maintains {m : Ready K} {P : Writer K × FileSystem K (Option K) → Prop}
    {docs : List Doc} (hd : ∀ d ∈ docs, DistinctKeys d)
    (hset : ∀ name v q q', P q → writerSetattr name v q = .ok q' → P q')
    {s : Cfg × Live m.R m.C K (Option K)} (hc : s.1.dicts = docs.map stored)
    (hq : P s.2.state.comps.2) :
    ∃ l1 : Live m.R m.C K (Option K), P l1.state.comps.2 ∧
      roundFiles m.env m.inp s = l1.files := by
  unfold roundFiles
  split
  · exact ⟨s.2, hq, rfl⟩
  · rename_i e c' hu
    obtain ⟨h1, h2, h3⟩ := Cfg.update_from hc hd hu
    refine (setParams_maintains (P := fun l : Live m.R m.C K (Option K) => P l.state.comps.2)
      (Q := fun _ _ _ => True) ?_ h2 (fun _ _ _ _ _ _ => trivial) hq).1
    intro comp k v l l' _ hl hs
    obtain ⟨-, -, h | ⟨h4, h5⟩⟩ := setattr_world hs
    · rw [h]; exact hl
    · exact hset _ _ _ _ hl h5

/-- No directory is made. -/
def NoNewDirectory (fs : FileSystem K (Option K)) (q : Writer K × FileSystem K (Option K)) : Prop :=
  ∀ path, q.2 path = .dir → fs path = .dir

theorem NoNewDirectory.update {fs : FileSystem K (Option K)}
    {q : Writer K × FileSystem K (Option K)} (h : NoNewDirectory fs q) (w : Writer K)
    (path : String) {e : Entry K (Option K)} (he : e ≠ .dir) :
    NoNewDirectory fs (w, Function.update q.2 path e) := by
  intro p hp
  dsimp only at hp
  by_cases hq : p = path
  · subst hq
    rw [Function.update_self] at hp
    exact absurd hp he
  · rw [Function.update_of_ne hq] at hp
    exact h p hp

theorem writerStep_noNewDirectory {fs : FileSystem K (Option K)} (g : GridView (Option K))
    (dt : Option K) (q q' : Writer K × FileSystem K (Option K)) (hq : NoNewDirectory fs q)
    (h : writerStep g dt q = .ok q') : NoNewDirectory fs q' := by
  obtain ⟨w, f⟩ := q
  unfold writerStep at h
  dsimp only at h
  split_ifs at h
  · split at h
    · cases h
    · rename_i fs' ht
      cases h
      unfold toNetcdf at ht
      split_ifs at ht
      split at ht
      · cases ht
      · split at ht
        · cases ht
        · cases ht
          exact hq.update _ _ (by simp)
  · cases h
    exact hq

theorem writerSetattr_noNewDirectory {fs : FileSystem K (Option K)} (name : String) (v : PyValue)
    (q q' : Writer K × FileSystem K (Option K)) (hq : NoNewDirectory fs q)
    (h : writerSetattr name v q = .ok q') : NoNewDirectory fs q' := by
  unfold writerSetattr at h
  split_ifs at h with h1 h2 h3
  · split at h
    · rename_i path
      split at h
      · cases h
      · rename_i p f u hs
        cases h
        have hset := filepath_ok q.1.clobber (some q.1.filepath) path q.2 (by rw [hs])
        rw [hs] at hset
        cases hset
        exact hq.update _ _ (by simp)
    · cases h
  · split at h
    · cases h
    · cases h
      exact hq
  · split at h
    · cases h
    · cases h
      exact hq
  · cases h
    exact hq

/-- C126: a run makes no directory and removes none, whatever its end. -/
theorem left_directories (ext : Externals K) (entries : List (List Char))
    (contents : List Char → List Doc)
    (hd : ∀ n ∈ (findConfigFiles entries).2, ∀ d ∈ contents n, DistinctKeys d) (dryRun : Bool)
    (fuel : ℕ) (fs : FileSystem K (Option K)) (left : Left K (Option K))
    (h : leftByRun ext entries contents dryRun fuel fs = some left) (path : String) :
    left.files path = .dir ↔ fs path = .dir := by
  constructor
  swap
  · obtain ⟨clobber, -, -, h2⟩ := left_safe hd h
    intro hp
    rw [(h2 path (.inl hp)).1, hp]
  · have hd' : ∀ f ∈ (findConfigFiles entries).2.map contents, ∀ d ∈ f, DistinctKeys d := by
      intro f hf
      obtain ⟨n, hn, rfl⟩ := List.mem_map.mp hf
      exact hd n hn
    unfold leftByRun at h
    have hset : ∀ fs' r, runSetup ext (findConfigFiles entries).1
        ((findConfigFiles entries).2.map contents) fs = (fs', r) →
        ∀ w, NoNewDirectory fs (w, fs') := by
      intro fs' r hs w p hp
      obtain ⟨h1, -⟩ := setup_safe hd' hs
      by_contra hne
      have := (h1 p (by rw [show fs' p = .dir from hp]; exact fun e => hne e.symm)).2
      rw [show fs' p = .dir from hp] at this
      cases this
    split at h
    · rename_i fs' e hs
      cases h
      exact hset _ _ hs ⟨false, 0, [], "", [], 0, 0⟩ path
    · rename_i fs' m hs
      obtain ⟨-, clobber, -, -, h4⟩ := setup_safe hd' hs
      obtain ⟨k1, k2, docs, k3, k4, k5⟩ := h4 m rfl
      have k0 : NoNewDirectory fs m.live.state.comps.2 := by
        have := hset _ _ hs m.live.state.comps.2.1
        rw [← k1] at this
        exact this
      split_ifs at h
      · cases h
        exact hset _ _ hs ⟨false, 0, [], "", [], 0, 0⟩ path
      · rcases left_ends h with ⟨e, rfl⟩ | ⟨c, s, hp, he⟩
        · exact k0 path
        · obtain ⟨q1, q2⟩ := passes_maintains k3 k5 k0 writerStep_noNewDirectory
            writerSetattr_noNewDirectory hp
          obtain ⟨⟨w, g1⟩, -⟩ := endsIn_maintains he (P := NoNewDirectory fs) q2
            (fun p w q q' hq hw => writerStep_noNewDirectory _ _ _ _ hq hw)
            (fun l hl => roundFiles_maintains (s := (s.1, l)) k3 writerSetattr_noNewDirectory q1 hl)
          exact g1 path

/-- C126: with `clobber` a second run with the same files does exactly what the first did: it ends
in the same way and leaves all files as they are. -/
theorem run_again (ext : Externals K) (entries : List (List Char))
    (contents : List Char → List Doc)
    (hk : ∀ n ∈ (findConfigFiles entries).2, ∀ d ∈ contents n, DistinctKeys d) (d : Doc)
    (hfirst : ((findConfigFiles entries).2.map contents).flatten.head? = some d)
    (ht : NoTuples d) (v : PyValue) (hv : entry d "output" "clobber" = some v) (hb : Truthy v)
    (dryRun : Bool) (fuel : ℕ) (fs : FileSystem K (Option K)) (left : Left K (Option K))
    (h : leftByRun ext entries contents dryRun fuel fs = some left) :
    leftByRun ext entries contents dryRun fuel left.files = some left := by
  have hd : DistinctKeys d := by
    have hm := List.mem_of_mem_head? (l := ((findConfigFiles entries).2.map contents).flatten)
      (a := d) (by rw [hfirst]; rfl)
    obtain ⟨f, hf, hdf⟩ := List.mem_flatten.mp hm
    obtain ⟨n, hn, rfl⟩ := List.mem_map.mp hf
    exact hk n hn d hdf
  have hsame := old_files_overwritten ext entries contents d hfirst hd ht v hv hb dryRun fuel fs
    left.files (fun p => (left_directories ext entries contents hk dryRun fuel fs left h p).symm)
  rw [h] at hsame
  rcases h2 : leftByRun ext entries contents dryRun fuel left.files with _ | b
  · rw [h2] at hsame; exact hsame.elim
  · rw [h2] at hsame
    obtain ⟨h3, h4, h5, h6⟩ := hsame
    have h7 : left.files = b.files := by
      funext p
      rcases h6 p with h | ⟨-, h⟩
      · exact h
      · exact h.symm
    obtain ⟨a1, a2, a3, a4⟩ := left
    obtain ⟨b1, b2, b3, b4⟩ := b
    dsimp only at h3 h4 h5 h7
    subst h3 h4 h5 h7
    rfl

end

/-! ### Examples -/

/-- What a command leaves, with given files. -/
def exLeftOn (fs : FileSystem ℚ (Option ℚ)) (d : Doc) (path : String) :
    Option ((Stage × Option Err) × Option (List ℚ) × Option String) :=
  (leftByRun exExt (exEntries.take 1) (exContents d []) false 5 fs).map fun l =>
    ((l.stage, l.error), exLeftTimes (l.files path), l.unfinished)

/-- C126: a run is stopped by an old file; -/
example : exLeftOn exRunFiles (exConfig (exOutSection "old.nc" false) .nil) "old.nc" =
    some ((.before, some .runtimeError), none, none) := by
  decide +kernel

/-- without the file it is not; -/
example : exLeftOn (fun _ => .absent) (exConfig (exOutSection "old.nc" false) .nil) "old.nc" =
    some ((.clock, none), some [0, 100], none) := by
  decide +kernel

/-- with `clobber` the file makes no difference. -/
example : exLeftOn exRunFiles (exConfig (exOutSection "old.nc" true) .nil) "old.nc" =
    exLeftOn (fun _ => .absent) (exConfig (exOutSection "old.nc" true) .nil) "old.nc" := by
  decide +kernel

/-- C126: a second run after a run that overwrote its output. -/
example : ∃ left, leftByRun exExt (exEntries.take 1)
      (exContents (exConfig (exOutSection "old.nc" true) .nil) []) false 5 exRunFiles = some left ∧
    leftByRun exExt (exEntries.take 1) (exContents (exConfig (exOutSection "old.nc" true) .nil) [])
      false 5 left.files = some left := by
  have h : (leftByRun exExt (exEntries.take 1)
      (exContents (exConfig (exOutSection "old.nc" true) .nil) []) false 5 exRunFiles).isSome := by
    decide +kernel
  obtain ⟨left, h⟩ := Option.isSome_iff_exists.mp h
  refine ⟨left, h, run_again exExt _ _ ?_ (exConfig (exOutSection "old.nc" true) .nil) ?_ ?_
    (.inl (.num 1)) (by decide +kernel) (by simp [Truthy, Falsy]) false 5 exRunFiles left h⟩
  · intro n hn d hd
    have hd' : d = exConfig (exOutSection "old.nc" true) .nil := by
      unfold exContents at hd
      split_ifs at hd
      · simpa using hd
      · cases hd
    subst hd'
    exact exConfig_distinct _ _ (by simp [exOutSection, DistinctKeys, Doc.keys])
      (by simp [DistinctKeys]) (by simp [Doc.keys])
  · have : (findConfigFiles (exEntries.take 1)).2 = ["sequence0.toml".toList] := by decide +kernel
    rw [this]
    rfl
  · simp [exConfig, exTimed, exOutSection, NoTuples]

end Verif.Props
