import Verif.Props.Accepted
import Verif.Props.Unused

/-!
# C120: null stands for a value that is not given

It does for the stop time and for the fields and rows of the output. A null parameter of a process
is refused, even where `None` is the way to ask for something, since the values of the parameters
are written down as toml for a message in the log, shown or not, and toml has no null. For the same
reason no input files can be made with an option that is null (`setup_null`, `generate_null`), and
`sequence --verbose plot` refuses what `sequence plot` accepts (`plot_verbose_null`).
-/

set_option autoImplicit false
set_option linter.unusedSectionVars false

namespace Verif.Props

open Spec

variable {K : Type} [Field K] [LinearOrder K] [IsStrictOrderedRing K]

/-- C120, false: a configuration with a null in a parameter of a process that is turned on is
refused. -/
theorem null_refused {ext : Externals K} {times : List ℕ} {files : List (List Doc)}
    {fs : FileSystem K (Option K)} {d : Doc} (hfirst : files.flatten.head? = some d)
    (hd : DistinctKeys d) (ht : NoTuples d) {name key : String} (hen : Enabled d name) {v : PyValue}
    (hv : entry d name key = some v) (hnull : Null v) (fs' : FileSystem K (Option K))
    (m : Ready K) : runSetup ext times files fs ≠ (fs', .ok m) := by
  intro h
  obtain ⟨c, e, hm, hde, hfe⟩ := setsUp_made ⟨hfirst, hd, ht, h⟩
  cases hm with
  | @mk gridArgs bathymetry clockArgs output R C info w w' names env ps s clock args porosity rows
      writer ms hgrid hbathy hinfo hw hnames hclock houtput hdx hx hcreate htime hargs hpor hrows
      hwriter hms hdesc =>
    have n3 := processNames_enabled hd (hfe "processes" (by decide) (by decide)) hnames
    have hsed : "sediments" ∉ withRequired names := by
      intro hm
      obtain ⟨cls, hcls, -⟩ := createNamed_mem hcreate _ hm
      simp [processClass] at hcls
    have htime' : ∀ n ∈ withRequired names, n ≠ "_time" ∧ n ≠ "plot" := by
      intro n hm
      obtain ⟨cls, hcls, -⟩ := createNamed_mem hcreate _ hm
      constructor <;> (rintro rfl; simp [processClass] at hcls)
    exact (describe_iff hd hde hfe n3 hsed htime').mp hdesc name hen key v hv hnull

/-- Arguments of which those in `opt` may be `None`. -/
theorem checkKeywords_drop {known opt : List String} (hopt : ∀ k ∈ opt, k ∈ known)
    {g g' : Kwargs} (h1 : ∀ k ∉ opt, g'.get? k = g.get? k)
    (_h2 : ∀ k ∈ opt, g'.get? k = none ∨ g'.get? k = g.get? k) :
    checkKeywords known g' = checkKeywords known g := by
  have hiff : (∀ k ∈ g'.keys, k ∈ known) ↔ ∀ k ∈ g.keys, k ∈ known := by
    have hmem : ∀ k ∉ opt, (k ∈ g'.keys ↔ k ∈ g.keys) := fun k hk => by
      rw [← not_iff_not, ← PyDict.get?_eq_none_iff, ← PyDict.get?_eq_none_iff, h1 k hk]
    constructor
    · intro h k hk
      by_cases ho : k ∈ opt
      · exact hopt k ho
      · exact h k ((hmem k ho).mpr hk)
    · intro h k hk
      by_cases ho : k ∈ opt
      · exact hopt k ho
      · exact h k ((hmem k ho).mp hk)
  unfold checkKeywords
  simp only [hiff]

/-- The stop time may be null. -/
theorem loadClock_drop {g g' : Kwargs} (h1 : ∀ k, k ≠ "stop" → g'.get? k = g.get? k)
    (h2 : g'.get? "stop" = if g.get? "stop" = some (.inl .none) then none else g.get? "stop") :
    loadClock (K := K) g' = loadClock g := by
  have hk : checkKeywords ["start", "stop", "step"] g' = checkKeywords ["start", "stop", "step"] g :=
    checkKeywords_drop (opt := ["stop"]) (by simp) (fun k hk => h1 k (by simpa using hk))
      (fun k hk => by
        simp only [List.mem_singleton] at hk
        rw [hk, h2]
        split_ifs <;> simp)
  have hs : stopArg (K := K) g' = stopArg g := by
    unfold stopArg
    rw [h2]
    split_ifs with h
    · rw [h]
    · rfl
  unfold loadClock floatArg
  rw [hk, hs, h1 "start" (by decide), h1 "step" (by decide)]

/-- The fields and rows may be null. -/
theorem loadWriter_drop {g g' : Kwargs}
    (h1 : ∀ k, k ≠ "fields" → k ≠ "rows" → g'.get? k = g.get? k)
    (h2 : ∀ k, k = "fields" ∨ k = "rows" →
      g'.get? k = if g.get? k = some (.inl .none) then none else g.get? k) :
    loadWriter (K := K) g' = loadWriter g := by
  have hk : checkKeywords ["filepath", "interval", "fields", "clobber", "rows"] g' =
      checkKeywords ["filepath", "interval", "fields", "clobber", "rows"] g :=
    checkKeywords_drop (opt := ["fields", "rows"]) (by simp)
      (fun k hk => h1 k (fun h => hk (by simp [h])) (fun h => hk (by simp [h])))
      (fun k hk => by
        simp only [List.mem_cons, List.not_mem_nil, or_false] at hk
        rw [h2 k hk]
        split_ifs <;> simp)
  have hf : fieldsArg g' = fieldsArg g := by
    unfold fieldsArg
    rw [h2 _ (.inl rfl)]
    split_ifs with h
    · rw [h]
    · rfl
  have hr : rowsArg g' = rowsArg g := by
    unfold rowsArg
    rw [h2 _ (.inr rfl)]
    split_ifs with h
    · rw [h]
    · rfl
  unfold loadWriter textArg
  rw [hk, hf, hr, h1 "filepath" (by decide) (by decide), h1 "interval" (by decide) (by decide),
    h1 "clobber" (by decide) (by decide)]

/-- C120, partial: without further sections, `sequence run` does the same whether the stop time, the
fields and the rows are null or are not given. Missing: parameters of processes (previous theorem). -/
theorem null_not_given_partial [FloorRing K] (ext : Externals K) (d e : Doc)
    (hd : DistinctKeys d) (he : DistinctKeys e) (htd : NoTuples d) (hte : NoTuples e)
    (hsame : ∀ k, k ≠ "clock" → k ≠ "output" → e.find? k = d.find? k)
    (hsec : ∀ sec ∈ ["clock", "output"], ∃ s s', (prune d).find? sec = some (.inr s) ∧
      (prune e).find? sec = some (.inr s'))
    (hdrop : ∀ sec ∈ ["clock", "output"], ∀ key, entry e sec key =
      if (sec, key) ∈ [("clock", "stop"), ("output", "fields"), ("output", "rows")] ∧
          entry d sec key = some (.inl .none) then none else entry d sec key)
    (hproc : ¬ Enabled d "clock" ∧ ¬ Enabled d "output")
    (entries : List (List Char)) (name : List Char)
    (hfiles : findConfigFiles entries = ([0], [name])) (before after : List Char → List Doc)
    (h1 : before name = [d]) (h2 : after name = [e]) (dryRun : Bool) (fuel : ℕ)
    (fs : FileSystem K (Option K)) :
    runCommand ext entries after dryRun fuel fs = runCommand ext entries before dryRun fuel fs := by
  have hargs : ∀ sec ∈ ["clock", "output"], ∃ g g', sectionOf (prune d) sec = .ok g ∧
      sectionOf (prune e) sec = .ok g' ∧ (∀ key, g.get? key = entry d sec key) ∧
      ∀ key, g'.get? key = entry e sec key := by
    intro sec hs
    obtain ⟨s, s', a1, a2⟩ := hsec sec hs
    have b1 : sectionOf (prune d) sec = .ok s.items := by unfold sectionOf; rw [a1]
    have b2 : sectionOf (prune e) sec = .ok s'.items := by unfold sectionOf; rw [a2]
    exact ⟨_, _, b1, b2, sectionOf_get? hd rfl b1, sectionOf_get? he rfl b2⟩
  refine run_same ext d e hd he htd hte ?_ ?_ ?_ entries name hfiles before after h1 h2 dryRun fuel fs
  · rintro k (hk | hk)
    · exact hsame k (by rintro rfl; revert hk; decide) (by rintro rfl; revert hk; decide)
    · exact hsame k (by rintro rfl; exact hproc.1 hk) (by rintro rfl; exact hproc.2 hk)
  · obtain ⟨g, g', a1, a2, a3, a4⟩ := hargs "clock" (by simp)
    unfold clockOf
    rw [a1, a2]
    refine congrArg Except.ok (loadClock_drop (fun k hk => ?_) ?_)
    · rw [a4, a3, hdrop _ (by simp), if_neg (by simp [hk])]
    · rw [a4, a3, hdrop _ (by simp)]
      simp
  · obtain ⟨g, g', a1, a2, a3, a4⟩ := hargs "output" (by simp)
    unfold outputOf
    rw [a1, a2]
    refine congrArg Except.ok (loadWriter_drop (fun k hk hk' => ?_) fun k hk => ?_)
    · rw [a4, a3, hdrop _ (by simp), if_neg (by simp [hk, hk'])]
    · rw [a4, a3, hdrop _ (by simp)]
      rcases hk with rfl | rfl <;> simp

/-! ### Concrete cases -/

/-- C120: null fields and rows. -/
def exNullOutput : Doc :=
  .leaf "filepath" (.str "out.nc") (.leaf "fields" .none (.leaf "rows" .none .nil))

example : exCommand false (exConfig (exOutSection "out.nc" false) .nil) [] =
    exCommand false (exConfig exNullOutput .nil) [] := by
  refine null_not_given_partial exExt (exConfig exNullOutput .nil)
    (exConfig (exOutSection "out.nc" false) .nil)
    (exConfig_distinct _ _ (by simp [exNullOutput, DistinctKeys, Doc.keys]) trivial
      (by simp [Doc.keys]))
    (exConfig_distinct _ _ (exOutSection_distinct ..) trivial (by simp [Doc.keys]))
    (by simp [exConfig, exTimed, exNullOutput, NoTuples])
    (by simp [exConfig, exTimed, exOutSection, NoTuples]) ?_ ?_ ?_ ?_ (exEntries.take 1)
    "sequence0.toml".toList (by decide +kernel) _ _ (by simp [exContents]) (by simp [exContents])
    false 5 exRunFiles
  · intro k h1 h2
    simp [exConfig, exTimed, Doc.find?, Ne.symm h1, Ne.symm h2]
  · intro sec hs
    simp only [List.mem_cons, List.not_mem_nil, or_false] at hs
    rcases hs with rfl | rfl <;> exact ⟨_, _, rfl, rfl⟩
  · intro sec hs key
    simp only [List.mem_cons, List.not_mem_nil, or_false] at hs
    rcases hs with rfl | rfl
    · rw [if_neg]
      · rfl
      · rintro ⟨hk, hn⟩
        have : key = "stop" := by simpa using hk
        subst this
        revert hn
        decide +kernel
    · by_cases a : key = "fields"
      · subst a; decide +kernel
      by_cases b : key = "rows"
      · subst b; decide +kernel
      rw [if_neg (by simp [a, b])]
      by_cases c : key = "filepath"
      · subst c; decide +kernel
      have e1 : entry (exConfig (exOutSection "out.nc" false) .nil) "output" key =
        (exOutSection "out.nc" false).find? key := rfl
      have e2 : entry (exConfig exNullOutput .nil) "output" key = exNullOutput.find? key := rfl
      rw [e1, e2]
      simp [exOutSection, exNullOutput, Doc.find?, Ne.symm a, Ne.symm b, Ne.symm c]
  · constructor <;> rintro (h | ⟨xs, h1, h2⟩ | ⟨h, -⟩)
    · revert h; decide
    · cases h1; simp at h2
    · revert h; decide +kernel
    · revert h; decide
    · cases h1; simp at h2
    · revert h; decide +kernel

/-- C120: a null parameter of `fluvial`, which is always turned on, is refused; without it the
configuration is accepted. -/
example : (∀ (fs fs' : FileSystem ℚ (Option ℚ)) m, runSetup exExt [0]
      [[exConfig (exOutSection "out.nc" false) (.sub "fluvial" (.leaf "sand_frac" .none .nil) .nil)]]
      fs ≠ (fs', .ok m)) ∧
    (runSetup exExt [0] [[exConfig (exOutSection "out.nc" false) .nil]]
      exRunFiles).2.toOption.isSome = true := by
  refine ⟨fun fs fs' m => null_refused rfl ?_ ?_ (name := "fluvial") (key := "sand_frac")
    (.inl (by simp)) (v := .inl .none) (by decide +kernel) .here fs' m, by decide +kernel⟩
  · exact exConfig_distinct _ _ (exOutSection_distinct ..) (by simp [DistinctKeys, Doc.keys])
      (by simp [Doc.keys])
  · simp [exConfig, exTimed, exOutSection, NoTuples]

end Verif.Props
