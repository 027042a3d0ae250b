import Verif.Props.Failure
import Verif.Props.Unfinished
import Verif.Spec.WrittenRun

/-! # C124: all files after a run that fails -/

set_option autoImplicit false
set_option linter.unusedSectionVars false

namespace Verif.Props

open Verif Verif.Spec

section

variable {K A : Type*}

theorem setGridCoordinates_times {g : GridView A} {loc : String} {ids : Ids}
    {d d' : Dataset K A} (h : setGridCoordinates g loc ids d = .ok d') : d'.times = d.times := by
  unfold setGridCoordinates at h
  revert h
  repeat' split
  all_goals (intro h; cases h; try rfl)

/-- One attempt to append. -/
theorem writeNetcdf_attempt (order : List String → List String) (g : GridView A) (path : String)
    (time : K) (at_ : List String) (ids : IdsArg) (names : Names) (fs : FileSystem K A) :
    AfterAttempt (fs path)
      ((writeNetcdf order g path .a true time at_ ids names true fs).1 path) := by
  by_cases hf : (fs path).isFile = true
  · cases hd : fs path with
    | absent => rw [hd] at hf; cases hf
    | dir => rw [hd] at hf; cases hf
    | danglingLink => rw [hd] at hf; cases hf
    | raw =>
      left
      unfold writeNetcdf
      rw [if_neg (by decide), hd]
      exact hd
    | dataset d =>
      obtain ⟨d', h1, h2, h3, -⟩ :=
        failed_write_keeps_records order g path true time at_ ids names true (fun h => h) fs d hd
      right; left
      refine ⟨d, d', time, rfl, ?_, h3, h2⟩
      rw [h1, Function.update_self]
  · have key : ∀ w : Written K A, w.1.times = [] →
        (w.andThen (writeSlice order g time at_ ids names true)).1.times.length ≤ 1 := by
      intro w hw
      unfold Written.andThen
      cases w.2 with
      | some e => simp [hw]
      | none =>
        dsimp only
        rw [(writeSlice_keeps order g time at_ ids names true w.1).1, hw]
        simp
    have hnew : (writeEach (fun loc => statement (setGridCoordinates g loc (ids.get loc)))
        ("row" :: "column" :: at_) (Dataset.new : Dataset K A)).1.times = [] := by
      refine writeEach_invariant (P := fun x : Dataset K A => x.times = []) _
        (fun a _ y hy => ?_) _ rfl
      exact statement_invariant (P := fun x : Dataset K A => x.times = [])
        (fun y' h => (setGridCoordinates_times h).trans hy) hy
    unfold writeNetcdf
    rw [if_neg (by decide)]
    cases hd : fs path with
    | raw => rw [hd] at hf; exact absurd rfl hf
    | dataset d => rw [hd] at hf; exact absurd rfl hf
    | dir => exact Or.inl hd
    | absent => exact Or.inr (Or.inr ⟨Or.inl rfl, _, Function.update_self _ _ _, key _ hnew⟩)
    | danglingLink => exact Or.inr (Or.inr ⟨Or.inr rfl, _, Function.update_self _ _ _, key _ hnew⟩)

/-- The step of the writer. -/
theorem writerFiles_attempt (order : List String → List String) [Field K] [LinearOrder K]
    (g : GridView A) (s : Writer K × FileSystem K A) :
    (∀ p ≠ s.1.filepath, writerFiles order g s p = s.2 p) ∧
    AfterAttempt (s.2 s.1.filepath) (writerFiles order g s s.1.filepath) := by
  unfold writerFiles
  split_ifs
  · exact ⟨fun _ _ => rfl, Or.inl rfl⟩
  · exact ⟨fun p hp => write_touches_only order g _ _ _ _ _ _ _ _ _ p hp,
      writeNetcdf_attempt order g _ _ _ _ _ _⟩
  · exact ⟨fun _ _ => rfl, Or.inl rfl⟩

/-- The files of a step that fails. -/
theorem advanceWritten_attempt [Field K] [LinearOrder K] {R C : ℕ}
    (order : List String → List String) (env : Env R C K)
    (view : ProcState R C K → World R (C + 2) K → GridView A) (dt : K) (l : Live R C K A) :
    (∀ p, (l.advanceFiles env view dt).2 ≠ some p →
      l.advanceWritten order env view dt p = (l.advanceFiles env view dt).1 p) ∧
    ∀ p, (l.advanceFiles env view dt).2 = some p →
      AfterAttempt ((l.advanceFiles env view dt).1 p) (l.advanceWritten order env view dt p) := by
  unfold Live.advanceWritten Live.advanceFiles
  cases hr : runComponents (l.procs.map (Process.component env)) dt
      (l.state.comps.1, clearDeposit l.state.world) with
  | error e => exact ⟨fun _ _ => rfl, fun p h => (by cases h)⟩
  | ok q =>
    obtain ⟨p, w⟩ := q
    dsimp only
    cases hw : writerStep (view p w) (some dt) l.state.comps.2 with
    | ok q => exact ⟨fun _ _ => rfl, fun p h => (by cases h)⟩
    | error e =>
      dsimp only
      obtain ⟨h1, h2⟩ := writerFiles_attempt order (view p w) l.state.comps.2
      by_cases hi : l.state.comps.2.1.interval = 0
      · rw [if_pos hi]
        refine ⟨fun p' _ => ?_, fun p h => (by cases h)⟩
        unfold writerFiles
        rw [if_pos hi]
        rfl
      · rw [if_neg hi]
        refine ⟨fun p' hp => h1 p' (fun h => hp (by rw [h])), fun p' hp => ?_⟩
        cases hp
        exact h2

theorem writtenLoop_attempt [Field K] [LinearOrder K] {R C : ℕ}
    (order : List String → List String) (env : Env R C K) (inp : Inputs K)
    (view : ProcState R C K → World R (C + 2) K → GridView A) (porosity : LiveState R C K A → K) :
    ∀ (fuel : ℕ) (c : Clock K) (s : Cfg × Live R C K A),
    (leftLoop env inp view porosity fuel c s = none ↔
      writtenLoop order env inp view porosity fuel c s = none) ∧
    ∀ left fs', leftLoop env inp view porosity fuel c s = some left →
      writtenLoop order env inp view porosity fuel c s = some fs' →
      (∀ p, left.unfinished ≠ some p → fs' p = left.files p) ∧
      ∀ p, left.unfinished = some p → AfterAttempt (left.files p) (fs' p) := by
  intro fuel
  induction fuel with
  | zero => exact fun c s => ⟨⟨fun _ => rfl, fun _ => rfl⟩, fun left fs' h => (by cases h)⟩
  | succ fuel ih =>
    intro c s
    unfold leftLoop writtenLoop
    rcases c.advance with ⟨c', e | t⟩
    · refine ⟨by simp, fun left fs' h h' => ?_⟩
      cases h
      cases h'
      exact ⟨fun _ _ => rfl, fun p h => (by cases h)⟩
    · dsimp only
      cases s.2.advance env view porosity c'.time c.step with
      | error e =>
        refine ⟨by simp, fun left fs' h h' => ?_⟩
        cases h
        cases h'
        exact advanceWritten_attempt order env view c.step s.2
      | ok l =>
        dsimp only
        cases liveRound env inp (s.1, l) with
        | error e =>
          refine ⟨by simp, fun left fs' h h' => ?_⟩
          cases h
          cases h'
          exact ⟨fun _ _ => rfl, fun p h => (by cases h)⟩
        | ok s' => exact ih c' s'

/-- C124: when a run has ended, every file except one that is not finished holds what `Left` says;
and the records of that one are still there. -/
theorem left_keeps_records {K : Type} [Field K] [LinearOrder K] [IsStrictOrderedRing K]
    [FloorRing K] (order : List String → List String)
    (ext : Externals K) (entries : List (List Char)) (contents : List Char → List Doc)
    (dryRun : Bool) (fuel : ℕ) (fs : FileSystem K (Option K)) (left : Left K (Option K))
    (hl : leftByRun ext entries contents dryRun fuel fs = some left) :
    ∃ fs', writtenByRun order ext entries contents dryRun fuel fs = some fs' ∧
      (∀ p, left.unfinished ≠ some p → fs' p = left.files p) ∧
      ∀ p, left.unfinished = some p → AfterAttempt (left.files p) (fs' p) := by
  unfold leftByRun at hl
  unfold writtenByRun
  revert hl
  rcases runSetup ext (findConfigFiles entries).1 ((findConfigFiles entries).2.map contents) fs
    with ⟨f, e | m⟩
  · intro hl
    cases hl
    exact ⟨_, rfl, fun _ _ => rfl, fun p h => (by cases h)⟩
  · intro hl
    dsimp only at hl ⊢
    cases dryRun with
    | true =>
      cases hl
      exact ⟨_, rfl, fun _ _ => rfl, fun p h => (by cases h)⟩
    | false =>
      rw [if_neg (by decide)] at hl ⊢
      unfold Ready.left at hl
      unfold Ready.written
      revert hl
      cases progressTotal m.clock with
      | error e =>
        intro hl
        cases hl
        exact ⟨_, rfl, fun _ _ => rfl, fun p h => (by cases h)⟩
      | ok t =>
        intro hl
        obtain ⟨h1, h2⟩ := writtenLoop_attempt order m.env m.inp m.view (fun _ => m.porosity) fuel
          m.clock (m.cfg, m.live)
        dsimp only at hl ⊢
        cases hw : writtenLoop order m.env m.inp m.view (fun _ => m.porosity) fuel m.clock
            (m.cfg, m.live) with
        | none => rw [h1.2 hw] at hl; cases hl
        | some fs' => exact ⟨fs', rfl, h2 left fs' hl hw⟩

end

/-! ### Examples -/

/-- A model with two rows of which some are to be written. -/
def exTwoRows (rows : List Leaf) : Doc :=
  .sub "grid" (.leaf "shape" (.list [.num 2, .num 3])
    (.leaf "spacing" (.list [.num 1, .num 1]) .nil)) <|
  .sub "bathymetry" (.leaf "filepath" (.str "bathymetry.csv") .nil) <|
  .sub "clock" (.leaf "start" (.num 0) (.leaf "stop" (.num 200) (.leaf "step" (.num 100) .nil))) <|
  .leaf "processes" (.list [.str "sea_level"]) <|
  .sub "sea_level" (.leaf "filepath" (.str "sea_level.csv") .nil) <|
  .sub "shoreline" (.leaf "alpha" (.num 1) .nil) <|
  .sub "output" (.leaf "filepath" (.str "out.nc") (.leaf "rows" (.list rows) .nil)) .nil

/-- What is in the output file after a run. -/
def exWritten (rows : List Leaf) :
    Option ((List ℚ × Option (List (Option ℚ))) × Option (Option (List (Option ℚ))) × ℕ) :=
  match writtenByRun id exShortExt (exEntries.take 1)
    (exContents (exTwoRows rows) []) false 5 exRunFiles with
  | some fs =>
    match fs "out.nc" with
    | .dataset d => some ((d.times, slice d "grid" "sea_level__elevation" 0),
        (d.layerVars "thickness").map (· 0), d.layerDim)
    | _ => none
  | none => none

/-- C124: with one of the two rows the first step fails while it writes the layers. Its record is
in the file, with the sea level; the variable for the thickness of layers is there and empty. With
both rows it is not. -/
theorem some_rows_leave_record :
    (leftByRun exShortExt (exEntries.take 1) (exContents (exTwoRows [.num 1]) []) false 5
      exRunFiles).map (fun l => ((l.stage, l.error), l.unfinished)) =
        some ((.step, some .valueError), some "out.nc") ∧
    exWritten [.num 1] = some (([0], some [some (2/5)]), some none, 0) ∧
    exWritten [.num 1, .num 2] =
      some (([0], some [some (2/5)]), some (some [some 100, some 100]), 1) := by
  refine ⟨?_, ?_, ?_⟩ <;> decide +kernel

/-- C124: with a row that is not there, there is a file without records. -/
example : exWritten [.num 7] = some (([], none), none, 0) := by decide +kernel

end Verif.Props
