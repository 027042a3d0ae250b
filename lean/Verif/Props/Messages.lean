import Verif.Spec.Messages
import Verif.Props.Setup

/-!
# What `sequence run` tells (C123)
-/

set_option autoImplicit false
set_option linter.unusedSectionVars false

namespace Verif.Props

open Verif Verif.Spec

/-! ### Lines -/

theorem isLineBreak_iff (c : Char) : isLineBreak c = true ↔ EndsLine c := by
  have key : ∀ d : Char, c = d ↔ c.toNat = d.toNat := fun d =>
    ⟨fun h => h ▸ rfl, fun h => Char.toNat_inj.mp h⟩
  unfold isLineBreak EndsLine
  simp only [List.mem_cons, List.not_mem_nil, or_false, decide_eq_true_eq, key]
  rfl

theorem splitLinesFrom_spec (line s : Text) (h : ∀ c ∈ line, ¬ EndsLine c) :
    IsLines (line ++ s) (splitLinesFrom line s) := by
  induction hn : s.length using Nat.strong_induction_on generalizing line s with
  | _ n ih =>
    rcases s with _ | ⟨c, rest⟩
    · rw [splitLinesFrom, List.append_nil]
      by_cases hl : line = []
      · rw [if_pos hl, hl]; exact .none
      · rw [if_neg hl]; exact .last hl h
    · by_cases h2 : c = '\r' ∧ rest.head? = some '\n'
      · obtain ⟨rfl, h2⟩ := h2
        rcases rest with _ | ⟨c2, rest⟩
        · cases h2
        · cases h2
          rw [splitLinesFrom]
          have := IsLines.more h (.two rest) (ih rest.length (by simp at hn; omega) [] rest
            (by simp) rfl)
          simpa using this
      · have hs : splitLinesFrom line (c :: rest) = if isLineBreak c then
            line :: splitLinesFrom [] rest else splitLinesFrom (line ++ [c]) rest := by
          rw [splitLinesFrom]
          rintro r rfl rfl
          exact h2 ⟨rfl, rfl⟩
        rw [hs]
        by_cases hc : isLineBreak c = true
        · rw [if_pos hc]
          have := IsLines.more h (.one c rest ((isLineBreak_iff c).mp hc) h2)
            (ih rest.length (by simp at hn; omega) [] rest (by simp) rfl)
          simpa using this
        · rw [if_neg hc]
          have := ih rest.length (by simp at hn; omega) (line ++ [c]) rest (by
            intro c' hc'
            rcases List.mem_append.mp hc' with h' | h'
            · exact h c' h'
            · rw [List.mem_singleton.mp h', ← isLineBreak_iff]; exact hc) rfl
          simpa using this

/-- C123: a message in the log is shown with its level before the first line and a plus sign
before every other line; every line is shown once and in order, also if there is none. -/
theorem message_lines (l : Level) (msg : Text) :
    ∃ lines, IsLines msg lines ∧
      (lines = [] → emitLines l msg = ['[' :: l.text ++ ']' :: [' ']]) ∧
      ∀ first more, lines = first :: more → emitLines l msg =
        ('[' :: l.text ++ ']' :: ' ' :: first) :: more.map fun line => '+' :: ' ' :: line := by
  refine ⟨splitLines msg, splitLinesFrom_spec [] msg (by simp), ?_, ?_⟩
  · intro h
    simp [emitLines, h]
  · intro first more h
    simp [emitLines, h]

theorem lineEnd_head {e rest : Text} (h : LineEnd e rest) :
    ∃ c es, e = c :: es ∧ EndsLine c := by
  cases h with
  | two => exact ⟨'\r', ['\n'], rfl, by unfold EndsLine; decide⟩
  | one c _ hc => exact ⟨c, [], rfl, hc⟩

theorem line_first {l l' x x' : Text} {c c' : Char} (hl : ∀ c ∈ l, ¬ EndsLine c)
    (hl' : ∀ c ∈ l', ¬ EndsLine c) (hc : EndsLine c) (hc' : EndsLine c')
    (h : l ++ c :: x = l' ++ c' :: x') : l = l' ∧ c :: x = c' :: x' := by
  induction l generalizing l' with
  | nil =>
    rcases l' with _ | ⟨a, l'⟩
    · exact ⟨rfl, h⟩
    · simp only [List.nil_append, List.cons_append, List.cons.injEq] at h
      exact absurd (h.1 ▸ hc) (hl' a (by simp))
  | cons b l ih =>
    rcases l' with _ | ⟨a, l'⟩
    · simp only [List.nil_append, List.cons_append, List.cons.injEq] at h
      exact absurd (h.1 ▸ hc') (hl b (by simp))
    · simp only [List.cons_append, List.cons.injEq] at h
      obtain ⟨rfl, h⟩ := h
      obtain ⟨h1, h2⟩ := ih (fun c hc => hl c (by simp [hc])) (fun c hc => hl' c (by simp [hc])) h
      exact ⟨by rw [h1], h2⟩

theorem lineEnd_unique {e e' rest rest' : Text} (h : LineEnd e rest) (h' : LineEnd e' rest')
    (heq : e ++ rest = e' ++ rest') : e = e' ∧ rest = rest' := by
  cases h with
  | two =>
    cases h' with
    | two => exact ⟨rfl, by simpa using heq⟩
    | one c _ hc hn =>
      simp only [List.cons_append, List.nil_append, List.cons.injEq] at heq
      exact absurd ⟨heq.1.symm, by rw [← heq.2]; rfl⟩ hn
  | one c _ hc hn =>
    cases h' with
    | two =>
      simp only [List.cons_append, List.nil_append, List.cons.injEq] at heq
      exact absurd ⟨heq.1, by rw [heq.2]; rfl⟩ hn
    | one c' _ hc' hn' =>
      simp only [List.cons_append, List.nil_append, List.cons.injEq] at heq
      obtain ⟨rfl, rfl⟩ := heq
      exact ⟨rfl, rfl⟩

/-- The lines of a text are fixed by it. -/
theorem isLines_unique {s : Text} {a b : List Text} (ha : IsLines s a) (hb : IsLines s b) :
    a = b := by
  have hno : ∀ {l e rest t : Text}, (∀ c ∈ t, ¬ EndsLine c) → LineEnd e rest →
      l ++ e ++ rest ≠ t := by
    rintro l e rest t ht he rfl
    obtain ⟨c, es, rfl, hc⟩ := lineEnd_head he
    exact ht c (by simp) hc
  induction ha generalizing b with
  | none =>
    generalize hs : ([] : Text) = s at hb
    cases hb with
    | none => rfl
    | last h => exact absurd hs.symm h
    | more h he hr => exact absurd hs.symm (hno (by simp) he)
  | @last l hne hl =>
    generalize hs : l = s at hb
    cases hb with
    | none => exact absurd hs hne
    | last h => rfl
    | more h he hr => exact absurd hs.symm (hno hl he)
  | @more l e rest ls hl he hr ih =>
    generalize hs : l ++ e ++ rest = s at hb
    cases hb with
    | none => exact absurd hs (hno (by simp) he)
    | last h h' => exact absurd hs (hno h' he)
    | more h' he' hr' =>
      obtain ⟨c, es, rfl, hc⟩ := lineEnd_head he
      obtain ⟨c', es', rfl, hc'⟩ := lineEnd_head he'
      simp only [List.append_assoc, List.cons_append] at hs
      obtain ⟨rfl, h2⟩ := line_first hl h' hc hc' hs
      obtain ⟨-, rfl⟩ := lineEnd_unique he he' h2
      rw [ih hr']

/-! ### A run -/

section
variable (f : Flags) (withCitations dryRun : Bool) (s : Story)

theorem flatMap_map_nil {α : Type} (l : List α) (g : α → Told) (h : Told → List Text)
    (hg : ∀ x, h (g x) = []) : (l.map g).flatMap h = [] := by
  rw [List.flatMap_map]
  simp [hg]

/-- C123: the standard output of a run is the directory, whatever the options, so that it can be
used in scripts. -/
theorem stdout_is_directory :
    (runTells f withCitations dryRun s).flatMap Told.stdout = [s.directory] := by
  have h1 := flatMap_map_nil s.loading loadingTold Told.stdout (by rintro (_ | _) <;> rfl)
  have h2 := fun l => flatMap_map_nil s.timings (fun m => .log l m) Told.stdout fun _ => rfl
  have h3 := fun l => flatMap_map_nil s.running (fun m => .log l m) Told.stdout fun _ => rfl
  have h4 := flatMap_map_nil s.components
    (fun n => .log .info ("✅ Enabled: ".toList ++ n.toList)) Told.stdout fun _ => rfl
  have h5 := flatMap_map_nil s.disabled
    (fun n => .log .warning ("❌ Disabled: ".toList ++ n.toList)) Told.stdout fun _ => rfl
  unfold runTells
  simp only [List.flatMap_append]
  split_ifs <;>
    simp only [List.flatMap_append, h1, h2, h3, h4, h5, List.flatMap_cons, List.flatMap_nil,
      Told.stdout, List.append_nil, List.nil_append]

theorem silent_level (hs : f.silent = true) : f.level = .error := by
  simp [Flags.level, hs]

/-- C123, the part that holds: with `--silent` alone nothing is written to the standard error. -/
theorem silent_quiet_partial (hs : f.silent = true) (hv : f.verbose = 0) :
    (runTells f withCitations dryRun s).flatMap (Told.stderr f) = [] := by
  have hl := silent_level f hs
  have h1 := flatMap_map_nil s.loading loadingTold (Told.stderr f)
    (by rintro (_ | _) <;> simp [loadingTold, Told.stderr, hl, Level.number])
  have h3 := flatMap_map_nil s.running (fun m => .log .debug m) (Told.stderr f) fun _ => by
    simp [Told.stderr, hl, Level.number]
  unfold runTells
  cases dryRun <;> simp [hs, hv, h1, h3, Told.stderr]

/-- C123, false: with `--silent` and `--verbose` the message at the end is written all the same. -/
theorem silent_verbose_talks (hs : f.silent = true) (hv : f.verbose ≠ 0) :
    (runTells f withCitations dryRun s).flatMap (Told.stderr f) =
      [if dryRun then "Nothing to do. 😴".toList else "💥 Finished! 💥".toList] := by
  have hl := silent_level f hs
  have h1 := flatMap_map_nil s.loading loadingTold (Told.stderr f)
    (by rintro (_ | _) <;> simp [loadingTold, Told.stderr, hl, Level.number])
  have h3 := flatMap_map_nil s.running (fun m => .log .debug m) (Told.stderr f) fun _ => by
    simp [Told.stderr, hl, Level.number]
  have h4 := flatMap_map_nil s.components
    (fun n => .log .info ("✅ Enabled: ".toList ++ n.toList)) (Told.stderr f) fun _ => by
    simp only [Told.stderr, hl, Level.number]; rfl
  have h5 := flatMap_map_nil s.disabled
    (fun n => .log .warning ("❌ Disabled: ".toList ++ n.toList)) (Told.stderr f) fun _ => by
    simp only [Told.stderr, hl, Level.number]; rfl
  unfold runTells
  simp only [List.flatMap_append, hs, hv, ne_eq, not_false_eq_true, true_or, if_true,
    Bool.true_eq_false, false_and, if_false, and_false, List.flatMap_nil, h1, h4, h5,
    List.nil_append]
  cases dryRun
  · simp only [List.flatMap_append, if_true, h3, List.flatMap_cons, List.flatMap_nil, Told.stderr,
      hl, Level.number]
    rfl
  · rfl

/-- C123: without options the standard error holds the warnings of `load_processes`, the names of
the processes that are not turned on, and the message at the end; nothing about the components that
run. -/
theorem default_messages (hs : f.silent = false) (hv : f.verbose = 0) (hn : s.noProcesses = false)
    (hc : withCitations = false) :
    (runTells f withCitations dryRun s).flatMap (Told.stderr f) =
      (s.loading.flatMap fun
        | .inl warning => emitLines .warning warning
        | .inr _ => []) ++
      (s.disabled.flatMap fun n => emitLines .warning ("❌ Disabled: ".toList ++ n.toList)) ++
      [if dryRun then "Nothing to do. 😴".toList else "💥 Finished! 💥".toList] := by
  have hl : f.level = .warning := by simp [Flags.level, hs, hv]
  have h1 : (s.loading.map loadingTold).flatMap (Told.stderr f) = s.loading.flatMap fun
        | .inl warning => emitLines .warning warning
        | .inr _ => [] := by
    rw [List.flatMap_map]
    congr 1
    funext x
    rcases x with _ | _ <;> simp [loadingTold, Told.stderr, hl, Level.number]
  have h3 := flatMap_map_nil s.running (fun m => .log .debug m) (Told.stderr f) fun _ => by
    simp [Told.stderr, hl, Level.number]
  have h4 := flatMap_map_nil s.components
    (fun n => .log .info ("✅ Enabled: ".toList ++ n.toList)) (Told.stderr f) fun _ => by
    simp only [Told.stderr, hl, Level.number]; rfl
  have h5 : (s.disabled.map fun n => Told.log .warning ("❌ Disabled: ".toList ++ n.toList)).flatMap
      (Told.stderr f) = s.disabled.flatMap fun n =>
        emitLines .warning ("❌ Disabled: ".toList ++ n.toList) := by
    rw [List.flatMap_map]
    congr 1
    funext x
    simp only [Told.stderr, hl, le_refl, if_true]
  have h6 : Told.stderr f (.log .info ("config files: ".toList ++ s.configFiles)) = [] := by
    simp only [Told.stderr, hl, Level.number]; rfl
  have h7 : Told.stderr f (.log .info ("Output written to ".toList ++ s.directory)) = [] := by
    simp only [Told.stderr, hl, Level.number]; rfl
  unfold runTells
  simp only [List.flatMap_append, hs, hv, hn, hc, ne_eq, not_true_eq_false, or_true, if_true,
    Bool.false_eq_true, and_false, false_and, if_false, List.flatMap_nil, List.flatMap_cons, h1, h4,
    h5, h6, List.nil_append, List.append_nil]
  cases dryRun
  · simp only [List.flatMap_append, if_true, h3, h7, List.flatMap_cons, List.flatMap_nil]
    simp [Told.stderr]
  · simp [Told.stderr]

/-- What is told at a level in force is shown. -/
theorem shown_of_told (l : Level) (msg line : Text)
    (hl : f.level.number ≤ l.number) (h : .log l msg ∈ runTells f withCitations dryRun s)
    (hline : line ∈ emitLines l msg) :
    line ∈ (runTells f withCitations dryRun s).flatMap (Told.stderr f) := by
  rw [List.mem_flatMap]
  refine ⟨_, h, ?_⟩
  simp only [Told.stderr, if_pos hl]
  exact hline

end

section
variable {K : Type} [Field K] [LinearOrder K] [IsStrictOrderedRing K]
  {ext : Externals K} {times : List ℕ} {files : List (List Doc)}
  {fs fs' : FileSystem K (Option K)} {d : Doc} {m : Ready K}

/-- The processes of a model are those that are turned on. -/
theorem procs_enabled (h : SetsUp ext times files fs d fs' m) (n : String) :
    n ∈ m.live.procs.map Process.name ↔ Enabled d n := by
  obtain ⟨c, e, hm, hde, hfe⟩ := setsUp_made h
  cases hm with
  | @mk _ _ _ _ _ _ _ _ _ names _ ps _ _ _ _ _ _ _ hgrid hbathy hinfo hw hnames hclock houtput hdx
      hx hcreate htime hargs hpor hrows hwriter hms =>
    obtain ⟨h1, h2, -⟩ := createNamed_ok hcreate
    have hkeys : List.map Process.name (List.map Prod.snd
        (PyDict.ofPairs ps : PyDict String (Process K))) =
        PyDict.keys (PyDict.ofPairs ps : PyDict String (Process K)) := by
      unfold PyDict.keys
      rw [List.map_map]
      refine List.map_congr_left fun q hq => ?_
      obtain ⟨cls, hc, hk⟩ := h2 q (mem_ofPairs hq)
      exact (ofKwargs_ok hc hk).1
    rw [← processNames_enabled h.distinct (hfe _ (by decide) (by decide)) hnames n]
    dsimp only
    rw [hkeys, keys_ofPairs, h1, mem_firstAppearances]

/-- C123: with `--verbose` every component of the model is named. -/
theorem components_reported (f : Flags)
    (withCitations dryRun : Bool) (s : Story) (ht : TellsOf s d m) (hs : f.silent = false)
    (hv : f.verbose ≠ 0) (n : String) (hn : n = "output" ∨ n ∈ m.live.procs.map Process.name) :
    "[INFO] ✅ Enabled: ".toList ++ n.toList ∈
      (runTells f withCitations dryRun s).flatMap (Told.stderr f) := by
  have hl : f.level.number ≤ Level.info.number := by
    simp only [Flags.level, hs, Bool.false_eq_true, if_false, if_neg hv]
    split_ifs <;> decide
  have hmem : n ∈ s.components := by
    rw [ht.components]
    unfold Ready.components
    rcases hn with rfl | hn
    · simp
    · exact List.mem_append_left _ hn
  refine shown_of_told f withCitations dryRun s .info ("✅ Enabled: ".toList ++ n.toList) _ hl
    ?_ ?_
  · unfold runTells
    rw [if_pos (Or.inr hs : f.verbose ≠ 0 ∨ f.silent = false)]
    simp only [List.mem_append]
    exact .inl (.inl (.inl (.inl (.inr (.inl (List.mem_map.mpr ⟨n, hmem, rfl⟩))))))
  · rcases hn with rfl | hn
    · decide
    · obtain ⟨p, -, rfl⟩ := List.mem_map.mp hn
      have hk : p.name ∈ ["sea_level", "subsidence", "compaction", "submarine_diffusion",
          "fluvial", "flexure", "water_flexure", "shoreline"] := by cases p <;> simp [Process.name]
      generalize p.name = n at hk
      simp only [List.mem_cons, List.not_mem_nil, or_false] at hk
      rcases hk with rfl | rfl | rfl | rfl | rfl | rfl | rfl | rfl <;> decide

/-- C123: without `--silent` each of the six usual processes that is not turned on is named. -/
theorem disabled_reported (h : SetsUp ext times files fs d fs' m) (f : Flags)
    (withCitations dryRun : Bool) (s : Story) (ht : TellsOf s d m) (hs : f.silent = false)
    (n : String) (hn : n ∈ ["sea_level", "subsidence", "compaction", "submarine_diffusion",
      "fluvial", "flexure"]) (hd : ¬ Enabled d n) :
    "[WARNING] ❌ Disabled: ".toList ++ n.toList ∈
      (runTells f withCitations dryRun s).flatMap (Told.stderr f) := by
  have hl : f.level.number ≤ Level.warning.number := by
    simp only [Flags.level, hs, Bool.false_eq_true, if_false]
    split_ifs <;> decide
  have hmem : n ∈ s.disabled := by
    rw [ht.disabled.mem_iff]
    unfold Ready.disabled
    rw [List.mem_filter]
    refine ⟨hn, ?_⟩
    simp only [Ready.components, List.mem_append, List.mem_singleton, procs_enabled h, hd, false_or,
      decide_eq_true_eq]
    rintro rfl
    revert hn
    decide
  refine shown_of_told f withCitations dryRun s .warning ("❌ Disabled: ".toList ++ n.toList) _ hl
    ?_ ?_
  · unfold runTells
    rw [if_pos (Or.inr hs : f.verbose ≠ 0 ∨ f.silent = false)]
    simp only [List.mem_append]
    exact .inl (.inl (.inl (.inl (.inr (.inr (List.mem_map.mpr ⟨n, hmem, rfl⟩))))))
  · simp only [List.mem_cons, List.not_mem_nil, or_false] at hn
    rcases hn with rfl | rfl | rfl | rfl | rfl | rfl <;> decide

/-- C123, false: if the list of processes is empty the command says that all processes have been
disabled, but two of them run. -/
theorem all_disabled_but_two (h : SetsUp ext times files fs d fs' m) (f : Flags)
    (withCitations dryRun : Bool) (s : Story) (ht : TellsOf s d m) (hs : f.silent = false)
    (hp : d.find? "processes" = some (.inl (.list []))) :
    "[WARNING] ⚠️  ALL PROCESSES HAVE BEEN DISABLED! ⚠️".toList ∈
      (runTells f withCitations dryRun s).flatMap (Told.stderr f) ∧
    m.live.procs.map Process.name = ["fluvial", "shoreline"] := by
  have hl : f.level.number ≤ Level.warning.number := by
    simp only [Flags.level, hs, Bool.false_eq_true, if_false]
    split_ifs <;> decide
  constructor
  · refine shown_of_told f withCitations dryRun s .warning
      "⚠️  ALL PROCESSES HAVE BEEN DISABLED! ⚠️".toList _ hl ?_ (by decide)
    have := ht.noProcesses.mpr hp
    unfold runTells
    rw [if_pos (⟨hs, this⟩ : f.silent = false ∧ s.noProcesses = true)]
    simp only [List.mem_append]
    exact .inl (.inl (.inl (.inr (by simp))))
  · rw [(setup_processes h).1 [] hp]
    decide

end

/-! ### Examples -/

/-- A text of four lines; the second is empty. -/
example : IsLines "a\r\n\nb\x0cc\n".toList ["a".toList, [], "b".toList, "c".toList] :=
  splitLinesFrom_spec [] "a\r\n\nb\x0cc\n".toList (by simp)

/-- C123: a warning with two lines. -/
example : emitLines .warning "mismatch\nalpha = 1".toList =
    ["[WARNING] mismatch".toList, "+ alpha = 1".toList] := by decide

/-- What is told of the model of `exShared`. -/
def exStory : Story where
  configFiles := "'sequence.toml'".toList
  loading := [.inr "reading configuration: fluvial".toList, .inl "mismatch".toList]
  components := ["submarine_diffusion", "sea_level", "fluvial", "shoreline", "output"]
  disabled := ["flexure", "compaction", "subsidence"]
  noProcesses := false
  citations := "nobody".toList
  running := ["bending".toList]
  timings := ["fluvial".toList]
  directory := "/tmp".toList

/-- C123: the hypotheses hold of that model. -/
example : ∃ fs' m, SetsUp exExt [0] [[exShared]] exRunFiles exShared fs' m ∧
    TellsOf exStory exShared m ∧
    "[WARNING] ❌ Disabled: flexure".toList ∈
      (runTells ⟨false, 0⟩ false false exStory).flatMap (Told.stderr ⟨false, 0⟩) ∧
    "[INFO] ✅ Enabled: shoreline".toList ∈
      (runTells ⟨false, 1⟩ false false exStory).flatMap (Told.stderr ⟨false, 1⟩) := by
  obtain ⟨fs', m, h⟩ := exShared_setsUp
  have hn := (setup_processes h).1 ["submarine_diffusion", "sea_level"] rfl
  have hc : m.components = exStory.components := by
    unfold Ready.components
    rw [hn]
    decide
  have ht : TellsOf exStory exShared m := by
    refine ⟨hc.symm, ?_, by decide +kernel⟩
    unfold Ready.disabled
    rw [hc]
    decide
  refine ⟨fs', m, h, ht, ?_, ?_⟩
  · refine disabled_reported h ⟨false, 0⟩ false false exStory ht rfl "flexure" (by decide) ?_
    rw [← procs_enabled h, hn]
    decide
  · refine components_reported ⟨false, 1⟩ false false exStory ht rfl (by decide) "shoreline" ?_
    rw [hn]
    decide

/-- C123: the options together. -/
example : (runTells ⟨true, 0⟩ false false exStory).flatMap (Told.stderr ⟨true, 0⟩) = [] ∧
    (runTells ⟨true, 1⟩ false false exStory).flatMap (Told.stderr ⟨true, 1⟩) =
      ["💥 Finished! 💥".toList] :=
  ⟨silent_quiet_partial _ _ _ _ rfl rfl, silent_verbose_talks _ _ _ _ rfl (by decide)⟩

end Verif.Props
