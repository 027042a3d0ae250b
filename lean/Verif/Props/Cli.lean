import Verif.Lemmas.Cli
import Verif.Lemmas.NullValues
import Verif.Lemmas.PyDict

/-!
# Properties of the command line (C06, C53, C54, C99)
-/

set_option autoImplicit false

namespace Verif.Props

open Spec

/-! ### C06 -/

/-- C06: the discovery returns every configuration file once, in order of time, each with its own
time. -/
theorem config_files_found (entries : List (List Char)) (hn : entries.Nodup) :
    (findConfigFiles entries).2.Nodup ∧
    (∀ n, n ∈ (findConfigFiles entries).2 ↔ ConfigFile entries n) ∧
    (findConfigFiles entries).1.length = (findConfigFiles entries).2.length ∧
    (findConfigFiles entries).1.Pairwise (· ≤ ·) ∧
    ∀ i (h : i < (findConfigFiles entries).1.length) (h' : i < (findConfigFiles entries).2.length),
      FileTime (findConfigFiles entries).2 (findConfigFiles entries).2[i]
        (findConfigFiles entries).1[i] := by
  obtain ⟨files, pairs, he, hsorted, hfiles, hpairs, htimes⟩ := findConfigFiles_pairs entries
  have hl : (filesTimes 0 files).length = files.length := length_filesTimes 0 files
  have hnames : (pairs.map (·.2)).Perm files := by
    have := hpairs.map (·.2)
    rwa [List.map_snd_zip (by rw [hl])] at this
  have hfn : files.Nodup := by
    rw [hfiles.nodup_iff]
    split_ifs <;> exact hn.filter _
  have hmem : ∀ n, n ∈ files ↔ ConfigFile entries n := by
    intro n
    rw [hfiles.mem_iff]
    have ht := mem_globSequence ".toml" rfl entries
    have hy := mem_globSequence ".yaml" rfl entries
    unfold ConfigFile
    by_cases hemp : (globSequence ".toml" entries).isEmpty = true
    · rw [if_pos hemp, hy]
      have hno : ∀ m ∈ entries, ¬ ConfigName ".toml" m := by
        intro m hm hc
        have := (ht m).mpr ⟨hm, hc⟩
        rw [List.isEmpty_iff] at hemp
        rw [hemp] at this; simp at this
      constructor
      · rintro ⟨h1, h2⟩; exact ⟨h1, .inr ⟨h2, hno⟩⟩
      · rintro ⟨h1, h2 | h2⟩
        · exact absurd h2 (hno n h1)
        · exact ⟨h1, h2.1⟩
    · rw [if_neg hemp, ht]
      constructor
      · rintro ⟨h1, h2⟩; exact ⟨h1, .inl h2⟩
      · rintro ⟨h1, h2 | h2⟩
        · exact ⟨h1, h2⟩
        · exfalso; apply hemp
          rw [List.isEmpty_iff, List.eq_nil_iff_forall_not_mem]
          intro m hm
          exact h2.2 m ((ht m).mp hm).1 ((ht m).mp hm).2
  rw [he]
  refine ⟨hnames.nodup_iff.mpr hfn, fun n => by rw [hnames.mem_iff]; exact hmem n, by simp,
    htimes, ?_⟩
  intro i h h'
  simp only [List.length_map] at h
  simp only [List.getElem_map]
  have hp : pairs[i] ∈ (filesTimes 0 files).zip files :=
    hpairs.mem_iff.mp (List.getElem_mem h)
  obtain ⟨j, hj, hpj⟩ := List.mem_iff_getElem.mp hp
  have hj1 : j < (filesTimes 0 files).length := by
    rw [List.length_zip] at hj; omega
  have hj2 : j < files.length := by omega
  rw [List.getElem_zip] at hpj
  have h1 : pairs[i].1 = (timeFromFilename files[j]).getD j := by
    rw [← hpj, getElem_filesTimes files 0 j hj1 hj2, Nat.zero_add]
  have h2 : pairs[i].2 = files[j] := by rw [← hpj]
  rw [h1, h2]
  cases ht : timeFromFilename files[j] with
  | some t => exact .inl (timeFromFilename_some ht)
  | none =>
    refine .inr ⟨timeFromFilename_none.mp ht, ?_⟩
    rw [hnames.countP_eq, Option.getD_none]
    exact (countP_lt_of_sorted hsorted hfn j hj2).symm

/-- A directory with three configuration files, and files that are ignored. -/
def someEntries : List (List Char) :=
  ["sequence-0020.toml", "sequence.yaml", "sequence-3a4.toml", "readme.txt",
    "sequence.toml"].map String.toList

example : someEntries.Nodup ∧ findConfigFiles someEntries = ([2, 3, 20],
    ["sequence.toml", "sequence-3a4.toml", "sequence-0020.toml"].map String.toList) := by
  decide +kernel

/-! ### C53 -/

/-- C53, false: of two options for the same group only the last takes effect. -/
theorem set_option_lost :
    ∃ (parse : List Char → Except Err (Leaf ⊕ Doc)) (defaults r : Doc),
      parse "1".toList = .ok (.inl (.num 1)) ∧ parse "2".toList = .ok (.inl (.num 2)) ∧
      defaults.find? "clock" =
        some (.inr (.leaf "start" (.num 0) (.leaf "stop" (.num 9) .nil))) ∧
      loadModelParams parse defaults ["clock.start=1".toList, "clock.stop=2".toList] = .ok r ∧
      valueAt r ["clock", "start"] = some (.num 0) ∧ valueAt r ["clock", "stop"] = some (.num 2) :=
  ⟨fun s => if s = "1".toList then .ok (.inl (.num 1)) else .ok (.inl (.num 2)),
    .sub "clock" (.leaf "start" (.num 0) (.leaf "stop" (.num 9) .nil)) .nil,
    .sub "clock" (.leaf "start" (.num 0) (.leaf "stop" (.num 2) .nil)) .nil,
    by decide +kernel, by decide +kernel, by decide +kernel, rfl, by decide +kernel,
    by decide +kernel⟩

theorem updateGroups_total {cl : Doc} (hcl : ∀ g, cl.find? g = none ∨
    ∃ s, cl.find? g = some (.inr s)) {d : Doc} (hd : OnlyGroups d) :
    ∃ r, updateGroups cl d = .ok r := by
  induction d with
  | nil => exact ⟨_, rfl⟩
  | leaf => exact hd.elim
  | sub g s t _ ih =>
    obtain ⟨r, hr⟩ := ih hd
    rcases hcl g with h | ⟨s', h⟩
    · exact ⟨.sub g s r, by simp only [updateGroups, h, updateGroup, hr]⟩
    · exact ⟨.sub g (s.updateWith s') r, by simp only [updateGroups, h, updateGroup, hr]⟩

/-- C53, partial: with well-formed options the command succeeds, every option for a known group
that is not followed by another option for that group takes effect, parameters that no option
addresses keep their default, and no group is added or lost. Missing: an option followed by
another one for the same group (previous theorem). -/
theorem set_options_partial (parse : List Char → Except Err (Leaf ⊕ Doc)) (defaults : Doc)
    (hdef : OnlyGroups defaults) (options : List SetOption) (value : SetOption → Leaf)
    (hw : ∀ o ∈ options, o.WellFormed) (hp : ∀ o ∈ options, parse o.text = .ok (.inl (value o))) :
    ∃ r, loadModelParams parse defaults (options.map SetOption.typed) = .ok r ∧
      (∀ pre o post, options = pre ++ o :: post →
        (∀ o' ∈ post, o'.path.head? ≠ o.path.head?) → (∃ g ∈ defaults.keys, o.path.head? = some g) →
        valueAt r o.path = some (value o)) ∧
      (∀ g k p, (∀ o ∈ options, ¬ [g, k] <+: o.path) →
        valueAt r (g :: k :: p) = valueAt defaults (g :: k :: p)) ∧
      (∀ g, g ∈ r.keys ↔ g ∈ defaults.keys) := by
  obtain ⟨cl, hcl, hfind⟩ := load_group hw hp .nil
  simp only [Doc.find?, Option.or_none] at hfind
  obtain ⟨r, hr⟩ := updateGroups_total (cl := cl) (by
    intro g
    rw [hfind]
    cases options.reverse.find? fun o => decide (o.path.head? = some g) with
    | none => exact .inl rfl
    | some o => exact .inr ⟨_, rfl⟩) hdef
  refine ⟨r, by simp only [loadModelParams, hcl, hr], ?_, ?_, ?_⟩
  · rintro pre o post ho hpost ⟨g, hg, hog⟩
    have hwo := hw o (by rw [ho]; simp)
    have hlast : options.reverse.find? (fun o => decide (o.path.head? = some g)) = some o := by
      rw [ho, List.reverse_append, List.reverse_cons, List.append_assoc, List.find?_append]
      have : post.reverse.find? (fun o => decide (o.path.head? = some g)) = none := by
        rw [List.find?_eq_none]
        intro x hx
        have := hpost x (List.mem_reverse.mp hx)
        rw [hog] at this
        simpa using this
      rw [this]
      simp [hog]
    rcases find?_updateGroups hr g with ⟨h1, _⟩ | ⟨s, s', h1, h2, h3⟩
    · rw [Doc.find?_eq_none_iff] at h1; exact absurd hg h1
    · rw [hfind, hlast] at h3
      simp only [Option.map_some, updateGroup, Except.ok.injEq] at h3
      have hlen := hwo.1
      cases hpath : o.path with
      | nil => rw [hpath] at hog; cases hog
      | cons k ks =>
        rw [hpath, List.head?_cons, Option.some.injEq] at hog
        subst hog
        cases ks with
        | nil => rw [hpath] at hlen; simp at hlen
        | cons k2 ks =>
          rw [valueAt_cons, h2]
          dsimp only
          rw [hpath, List.tail_cons] at h3
          have hv := valueAt_dotsToDict (k2 :: ks) (by simp) (value o)
          rw [← hv]
          apply valueAt_congr
          rw [← h3, Doc.find?_updateWith _ _ (distinct_dotsToDict _ _)]
          cases ks <;> simp [dotsToDict, Doc.find?]
  · intro g k p hno
    rcases find?_updateGroups hr g with ⟨h1, h2⟩ | ⟨s, s', h1, h2, h3⟩
    · exact valueAt_congr (h2.trans h1.symm) _
    · rw [valueAt_cons, valueAt_cons, h1, h2]
      dsimp only
      apply valueAt_congr
      rw [hfind] at h3
      cases hf : options.reverse.find? fun o => decide (o.path.head? = some g) with
      | none =>
        rw [hf] at h3
        simp only [Option.map_none, updateGroup, Except.ok.injEq] at h3
        rw [h3]
      | some o =>
        rw [hf] at h3
        simp only [Option.map_some, updateGroup, Except.ok.injEq] at h3
        have ho : o ∈ options := List.mem_reverse.mp (List.mem_of_find?_eq_some hf)
        have hog : o.path.head? = some g := by simpa using List.find?_some hf
        have hlen := (hw o ho).1
        have hno' := hno o ho
        rw [← h3, Doc.find?_updateWith _ _ (distinct_dotsToDict _ _)]
        cases hpath : o.path with
        | nil => rw [hpath] at hog; cases hog
        | cons a ks =>
          rw [hpath, List.head?_cons, Option.some.injEq] at hog
          subst hog
          cases ks with
          | nil => rw [hpath] at hlen; simp at hlen
          | cons k2 ks =>
            have hk : k2 ≠ k := by
              rintro rfl
              exact hno' (by rw [hpath]; exact ⟨ks, rfl⟩)
            cases ks <;> simp [dotsToDict, Doc.find?, hk]
  · intro g
    rw [Doc.mem_keys_iff, Doc.mem_keys_iff]
    rcases find?_updateGroups hr g with ⟨h1, h2⟩ | ⟨s, s', h1, h2, _⟩
    · rw [h1, h2]
    · rw [h1, h2]; simp

theorem length_splitOn (sep : Char) (s : List Char) :
    (splitOn sep s).length = s.count sep + 1 := by
  induction s with
  | nil => rfl
  | cons c cs ih =>
    simp only [splitOn]
    by_cases h : c = sep
    · subst h; simp [ih]
    · rw [if_neg h, List.count_cons_of_ne h]
      cases hs : splitOn sep cs with
      | nil => rw [hs] at ih; simp at ih
      | cons p ps => rw [hs] at ih; simpa using ih

/-- C53: an option that does not have exactly one equal sign stops the command. -/
theorem set_options_one_equal_sign (parse : List Char → Except Err (Leaf ⊕ Doc)) (defaults r : Doc)
    (options : List (List Char)) (h : loadModelParams parse defaults options = .ok r) :
    ∀ o ∈ options, o.count '=' = 1 := by
  have key : ∀ (options : List (List Char)) (params cl : Doc),
      loadParamsFromStrings parse params options = .ok cl → ∀ o ∈ options, o.count '=' = 1 := by
    intro options
    induction options with
    | nil => intro _ _ _ o ho; simp at ho
    | cons x xs ih =>
      intro params cl hok o ho
      rw [loadParamsFromStrings.eq_def] at hok
      dsimp only at hok
      split at hok
      · rename_i name value hsp
        have hl := length_splitOn '=' x
        rw [hsp] at hl
        cases hp : parse value with
        | error e => rw [hp] at hok; cases hok
        | ok v =>
          rw [hp] at hok
          rcases List.mem_cons.mp ho with rfl | ho
          · simpa using hl.symm
          · exact ih _ _ hok o ho
      · cases hok
  unfold loadModelParams at h
  cases hc : loadParamsFromStrings parse .nil options with
  | error e => rw [hc] at h; cases h
  | ok cl => exact key _ _ _ hc

/-- Default parameters used in the examples. -/
def someDefaults : Doc :=
  .sub "clock" (.leaf "start" (.num 0) (.leaf "stop" (.num 9) .nil))
    (.sub "grid" (.leaf "n_cols" (.num 100) .nil) .nil)

example : ∃ r, loadModelParams (fun _ => .ok (.inl (.num 7))) someDefaults
      ["clock.stop=7".toList, "grid.n_cols=7".toList] = .ok r ∧
    valueAt r ["clock", "stop"] = some (.num 7) ∧ valueAt r ["clock", "start"] = some (.num 0) := by
  obtain ⟨r, h1, h2, h3, _⟩ := set_options_partial (fun _ => .ok (.inl (.num 7))) someDefaults trivial
    [⟨["clock", "stop"], "7".toList⟩, ⟨["grid", "n_cols"], "7".toList⟩] (fun _ => .num 7)
    (by unfold SetOption.WellFormed; decide) (by simp)
  exact ⟨r, h1, h2 [] _ _ rfl (by simp) ⟨"clock", by decide, rfl⟩,
    (h3 "clock" "start" [] (by decide)).trans (by decide +kernel)⟩

/-! ### C54 -/

/-- C54, false: with an invalid option the command fails and leaves an empty bathymetry file. -/
theorem setup_not_atomic (parse : List Char → Except Err (Leaf ⊕ Doc)) (render : Doc → String → String)
    (defaults : Doc) :
    setup parse render ["clock.start".toList] defaults [] =
      ([("bathymetry.csv", "")], .error .valueError) := rfl

theorem setupWrite_ok {parse : List Char → Except Err (Leaf ⊕ Doc)} {render : Doc → String → String}
    {opts : List (List Char)} {params : Doc} (h : loadModelParams parse params opts = .ok params)
    (hn : params.hasNull = false) (fs : List String) (dir : PyDict String String) :
    (setupWrite parse render opts params dir fs).2 = .ok () ∧
    (setupWrite parse render opts params dir fs).1 =
      fs.foldl (fun d f => (d.set f "").set f (render params f ++ "\n")) dir := by
  induction fs generalizing dir with
  | nil => exact ⟨rfl, rfl⟩
  | cons f fs ih =>
    simp only [setupWrite, contentsOfInputFile, h, hn, Bool.false_eq_true, if_false, List.foldl_cons]
    exact ih _

/-- C54, partial: if one of the files exists, the command aborts and nothing changes. Otherwise,
if the options are valid and nothing is null, it succeeds, exactly the four files are added, and all
four are written from the same parameters. Missing: invalid options (previous theorem) and null
(`setup_null`). -/
theorem setup_partial (parse : List Char → Except Err (Leaf ⊕ Doc)) (hparse : GivesDicts parse)
    (render : Doc → String → String) (opts : List (List Char)) (defaults : Doc) (dir : PyDict String String) :
    ((∃ f ∈ ["bathymetry.csv", "sequence.toml", "sealevel.csv", "subsidence.csv"],
        dir.get? f ≠ none) →
      setup parse render opts defaults dir = (dir, .error .abort)) ∧
    ((∀ f ∈ ["bathymetry.csv", "sequence.toml", "sealevel.csv", "subsidence.csv"],
        dir.get? f = none) →
      ∀ params, loadModelParams parse defaults opts = .ok params → ¬ NullInDoc params →
        (setup parse render opts defaults dir).2 = .ok () ∧
        ∀ f, (setup parse render opts defaults dir).1.get? f =
          if f ∈ ["bathymetry.csv", "sequence.toml", "sealevel.csv", "subsidence.csv"] then
            some (render params f ++ "\n") else dir.get? f) := by
  constructor
  · rintro ⟨f, hf, hx⟩
    unfold setup
    rw [if_neg]
    intro he
    rw [List.isEmpty_iff, List.filter_eq_nil_iff] at he
    have := he f hf
    simp only [Option.isSome_iff_ne_none, not_not] at this
    exact hx this
  · intro hno params hp hnull
    have hn : params.hasNull = false := by
      rw [Bool.eq_false_iff, ne_eq, docHasNull_iff]
      exact hnull
    have hs : setup parse render opts defaults dir =
        setupWrite parse render opts defaults dir setupFiles := by
      unfold setup
      rw [if_pos]
      rw [List.isEmpty_iff, List.filter_eq_nil_iff]
      intro f hf
      rw [hno f hf]; simp
    have h2 := loadModelParams_idem hparse hp
    have hw : setup parse render opts defaults dir =
        setupWrite parse render opts params
          ((dir.set "bathymetry.csv" "").set "bathymetry.csv"
            (render params "bathymetry.csv" ++ "\n")) setupFiles.tail := by
      rw [hs]
      simp only [setupFiles, setupWrite, contentsOfInputFile, hp, hn, Bool.false_eq_true, if_false,
        List.tail_cons]
    obtain ⟨h3, h4⟩ := setupWrite_ok (render := render) h2 hn setupFiles.tail
      ((dir.set "bathymetry.csv" "").set "bathymetry.csv"
        (render params "bathymetry.csv" ++ "\n"))
    rw [hw]
    refine ⟨h3, fun f => ?_⟩
    rw [h4]
    simp only [setupFiles, List.tail_cons, List.foldl_cons, List.foldl_nil, PyDict.get?_set,
      List.mem_cons, List.not_mem_nil, or_false]
    by_cases h5 : f = "subsidence.csv"
    · simp [h5]
    by_cases h6 : f = "sealevel.csv"
    · simp [h6]
    by_cases h7 : f = "sequence.toml"
    · simp [h7]
    by_cases h8 : f = "bathymetry.csv"
    · simp [h8]
    · simp only [Ne.symm h5, Ne.symm h6, Ne.symm h7, Ne.symm h8, h5, h6, h7, h8, if_false, or_self]

example : (setup (fun _ => .ok (.inl (.num 7))) (fun _ f => "contents of " ++ f)
    ["clock.stop=7".toList] someDefaults [("notes.txt", "x")]).1.get? "sealevel.csv" =
      some "contents of sealevel.csv\n" := by
  obtain ⟨r, h1, _⟩ := set_options_partial (fun _ => .ok (.inl (.num 7))) someDefaults trivial
    [⟨["clock", "stop"], "7".toList⟩] (fun _ => .num 7)
    (by unfold SetOption.WellFormed; decide) (by simp)
  have hn : ¬ NullInDoc r := by
    have h2 : (loadModelParams (fun _ => .ok (.inl (.num 7))) someDefaults
      ["clock.stop=7".toList]).toOption.map Doc.hasNull = some false := by decide +kernel
    have h1' : loadModelParams (fun _ => .ok (.inl (.num 7))) someDefaults ["clock.stop=7".toList] = .ok r :=
      h1
    rw [h1'] at h2
    rw [← docHasNull_iff]
    simpa [Except.toOption] using h2
  have := ((setup_partial (fun _ => .ok (.inl (.num 7))) (by rintro _ _ ⟨⟩) (fun _ f => "contents of " ++ f)
    ["clock.stop=7".toList] someDefaults [("notes.txt", "x")]).2 (by decide +kernel) r h1 hn).2
    "sealevel.csv"
  rw [this]; decide

/-- C54 and C120, false: with an option that is null the command fails, and leaves an empty
bathymetry file. -/
theorem setup_null (parse : List Char → Except Err (Leaf ⊕ Doc)) (render : Doc → String → String)
    (opts : List (List Char)) (defaults params : Doc) (dir : PyDict String String)
    (hno : ∀ f ∈ ["bathymetry.csv", "sequence.toml", "sealevel.csv", "subsidence.csv"],
      dir.get? f = none)
    (hp : loadModelParams parse defaults opts = .ok params) (hnull : NullInDoc params) :
    setup parse render opts defaults dir = (dir.set "bathymetry.csv" "", .error .valueError) := by
  unfold setup
  rw [if_pos]
  · simp only [setupFiles, setupWrite, contentsOfInputFile, hp, (docHasNull_iff _).mpr hnull, if_true]
  · rw [List.isEmpty_iff, List.filter_eq_nil_iff]
    intro f hf
    rw [hno f hf]; simp

/-- `sequence setup --set clock.stop=null` -/
example : setup (fun _ => .ok (.inl .none)) (fun _ _ => "") ["clock.stop=null".toList] someDefaults [] =
    ([("bathymetry.csv", "")], .error .valueError) := by
  refine setup_null _ _ _ _ (.sub "clock" (.leaf "start" (.num 0) (.leaf "stop" .none .nil))
    (.sub "grid" (.leaf "n_cols" (.num 100) .nil) .nil)) _ (by decide) (by decide +kernel)
    (.inner (.afterValue (.value .here)))

/-! ### C99 -/

/-- C99, false: of two values of a group in the file only the last takes effect. -/
theorem param_file_lost :
    ∃ (parse : List Char → Except Err (Leaf ⊕ Doc)) (str : Leaf → List Char) (defaults file r : Doc),
      (∀ p v, valueAt file p = some v → parse (str v) = .ok (.inl v)) ∧
      valueAt file ["clock", "start"] = some (.str "1") ∧
      valueAt file ["clock", "stop"] = some (.str "2") ∧
      loadModelParamsFile parse str defaults file [] = .ok r ∧
      valueAt r ["clock", "start"] = some (.num 0) ∧
      valueAt r ["clock", "stop"] = some (.str "2") := by
  refine ⟨fun s => .ok (.inl (.str (String.ofList s))),
    fun v => match v with | .str s => s.toList | _ => [],
    .sub "clock" (.leaf "start" (.num 0) (.leaf "stop" (.num 9) .nil)) .nil,
    .sub "clock" (.leaf "start" (.str "1") (.leaf "stop" (.str "2") .nil)) .nil,
    .sub "clock" (.leaf "start" (.num 0) (.leaf "stop" (.str "2") .nil)) .nil, ?_,
    by decide +kernel, by decide +kernel, by decide +kernel, by decide +kernel, by decide +kernel⟩
  intro p v hv
  have hs : ∃ s, v = .str s := by
    match p, hv with
    | [], hv => rw [valueAt_nil] at hv; cases hv
    | [k], hv =>
      rw [valueAt_single] at hv
      simp only [Doc.find?] at hv
      split_ifs at hv <;> cases hv
    | k :: n :: q, hv =>
      rw [valueAt_cons] at hv
      simp only [Doc.find?] at hv
      split_ifs at hv with h1
      · dsimp only at hv
        match q, hv with
        | [], hv =>
          rw [valueAt_single] at hv
          simp only [Doc.find?] at hv
          split_ifs at hv <;> cases hv <;> exact ⟨_, rfl⟩
        | m :: q, hv =>
          rw [valueAt_cons] at hv
          simp only [Doc.find?] at hv
          split_ifs at hv <;> cases hv
  obtain ⟨s, rfl⟩ := hs
  simp

/-- C99, false: a value three levels deep in the file ends up in another group. -/
theorem param_file_reversed :
    ∃ (parse : List Char → Except Err (Leaf ⊕ Doc)) (str : Leaf → List Char) (defaults file r : Doc),
      parse (str (.num 1)) = .ok (.inl (.num 1)) ∧
      file = .sub "output" (.sub "clock" (.leaf "step" (.num 1) .nil) .nil) .nil ∧
      defaults.find? "output" = some (.inr .nil) ∧
      loadModelParamsFile parse str defaults file [] = .ok r ∧
      valueAt r ["output", "clock", "step"] = none ∧
      valueAt r ["clock", "output", "step"] = some (.num 1) :=
  ⟨fun _ => .ok (.inl (.num 1)), fun _ => ['1'], .sub "output" .nil (.sub "clock" .nil .nil), _,
    .sub "output" .nil (.sub "clock" (.sub "output" (.leaf "step" (.num 1) .nil) .nil) .nil),
    rfl, rfl, rfl, by decide +kernel, by decide +kernel, by decide +kernel⟩

/-- The file with one value in each group. -/
def singles : List (String × String × Leaf) → Doc
  | [] => .nil
  | (g, k, v) :: rest => .sub g (.leaf k v .nil) (singles rest)

theorem dictToDots_singles (str : Leaf → List Char) (items : List (String × String × Leaf)) :
    dictToDots str (singles items) =
      (items.map fun i => (⟨[i.1, i.2.1], str i.2.2⟩ : SetOption)).map SetOption.typed := by
  induction items with
  | nil => rfl
  | cons i rest ih =>
    unfold dictToDots at ih ⊢
    simp only [singles, cliWalk, List.singleton_append, List.map_cons, ih]
    rfl

/-- C99, partial: a file with one value in each of its groups, whose values read back from
their text, changes these values and no others; an option for one of the groups replaces the value
from the file. Missing: several values in a group and deeper dictionaries (previous theorems). -/
theorem param_file_partial (parse : List Char → Except Err (Leaf ⊕ Doc)) (str : Leaf → List Char)
    (defaults : Doc) (hdef : OnlyGroups defaults) (items : List (String × String × Leaf))
    (hg : (items.map (·.1)).Nodup)
    (hi : ∀ i ∈ items, '.' ∉ i.1.toList ∧ '=' ∉ i.1.toList ∧ '.' ∉ i.2.1.toList ∧
      '=' ∉ i.2.1.toList ∧ '=' ∉ str i.2.2 ∧ parse (str i.2.2) = .ok (.inl i.2.2))
    (options : List SetOption) (value : SetOption → Leaf)
    (hw : ∀ o ∈ options, o.WellFormed) (hp : ∀ o ∈ options, parse o.text = .ok (.inl (value o))) :
    ∃ r, loadModelParamsFile parse str defaults (singles items) (options.map SetOption.typed) =
        .ok r ∧
      (∀ i ∈ items, i.1 ∈ defaults.keys → (∀ o ∈ options, o.path.head? ≠ some i.1) →
        valueAt r [i.1, i.2.1] = some i.2.2) ∧
      (∀ pre o post, options = pre ++ o :: post →
        (∀ o' ∈ post, o'.path.head? ≠ o.path.head?) → (∃ g ∈ defaults.keys, o.path.head? = some g) →
        valueAt r o.path = some (value o)) ∧
      (∀ g k p, (∀ o ∈ options, ¬ [g, k] <+: o.path) → (∀ i ∈ items, (i.1, i.2.1) ≠ (g, k)) →
        valueAt r (g :: k :: p) = valueAt defaults (g :: k :: p)) ∧
      ∀ g, g ∈ r.keys ↔ g ∈ defaults.keys := by
  set fileOpts : List SetOption := items.map fun i => ⟨[i.1, i.2.1], str i.2.2⟩ with hfo
  let val : SetOption → Leaf := fun o =>
    match parse o.text with
    | .ok (.inl v) => v
    | _ => .none
  have hval : ∀ o ∈ options, val o = value o := by
    intro o ho
    simp only [val, hp o ho]
  have hw' : ∀ o ∈ fileOpts ++ options, o.WellFormed := by
    intro o ho
    rcases List.mem_append.mp ho with ho | ho
    · obtain ⟨i, him, rfl⟩ := List.mem_map.mp ho
      obtain ⟨h1, h2, h3, h4, h5, -⟩ := hi i him
      refine ⟨by simp, ?_, h5⟩
      intro k hk
      rcases List.mem_cons.mp hk with rfl | hk
      · exact ⟨h1, h2⟩
      · rw [List.mem_singleton] at hk
        subst hk
        exact ⟨h3, h4⟩
    · exact hw o ho
  have hp' : ∀ o ∈ fileOpts ++ options, parse o.text = .ok (.inl (val o)) := by
    intro o ho
    rcases List.mem_append.mp ho with ho | ho
    · obtain ⟨i, him, rfl⟩ := List.mem_map.mp ho
      simp only [val, (hi i him).2.2.2.2.2]
    · rw [hval o ho]
      exact hp o ho
  obtain ⟨r, h1, h2, h3, h4⟩ := set_options_partial parse defaults hdef (fileOpts ++ options) val
    hw' hp'
  refine ⟨r, ?_, ?_, ?_, ?_, h4⟩
  · unfold loadModelParamsFile
    rw [dictToDots_singles, ← List.map_append]
    exact h1
  · intro i him hk ho
    obtain ⟨pre, post, rfl⟩ := List.append_of_mem him
    have := h2 (pre.map fun i => ⟨[i.1, i.2.1], str i.2.2⟩) ⟨[i.1, i.2.1], str i.2.2⟩
      ((post.map fun i => ⟨[i.1, i.2.1], str i.2.2⟩) ++ options) (by simp [hfo]) (by
        intro o' ho'
        rcases List.mem_append.mp ho' with ho' | ho'
        · obtain ⟨j, hj, rfl⟩ := List.mem_map.mp ho'
          simp only [List.head?_cons, ne_eq, Option.some.injEq]
          rw [List.map_append, List.map_cons, List.nodup_append] at hg
          have := (List.nodup_cons.mp hg.2.1).1
          intro e
          exact this (List.mem_map.mpr ⟨j, hj, e⟩)
        · exact ho o' ho') ⟨i.1, hk, rfl⟩
    rw [this]
    simp only [val, (hi i him).2.2.2.2.2]
  · rintro pre o post ho hpost hgr
    have := h2 (fileOpts ++ pre) o post (by simp [ho]) hpost hgr
    rw [this, hval o (by rw [ho]; simp)]
  · intro g k p ho hne
    refine h3 g k p ?_
    intro o hm
    rcases List.mem_append.mp hm with hm | hm
    · obtain ⟨i, him, rfl⟩ := List.mem_map.mp hm
      intro hpre
      have hne' := hne i him
      simp only [List.cons_prefix_cons, List.nil_prefix, and_true] at hpre
      exact hne' (by rw [hpre.1, hpre.2])
    · exact ho o hm

/-- A reader and a writer of two numbers. -/
def exLeafOf (s : List Char) : Except Err (Leaf ⊕ Doc) :=
  if s = ['1'] then .ok (.inl (.num 1)) else if s = ['2'] then .ok (.inl (.num 2)) else .error .valueError

/-- See `exLeafOf`. -/
def exLeafText (v : Leaf) : List Char := if v = .num 1 then ['1'] else ['2']

/-- The hypotheses: a file that sets `clock.stop` and `grid.rows`, an option for `grid.rows`. -/
example : ∃ r, loadModelParamsFile exLeafOf exLeafText
      (.sub "clock" (.leaf "start" (.num 0) (.leaf "stop" (.num 9) .nil))
        (.sub "grid" (.leaf "rows" (.num 3) .nil) .nil))
      (singles [("clock", "stop", .num 1), ("grid", "rows", .num 2)]) ["grid.rows=1".toList] =
        .ok r ∧
    valueAt r ["clock", "stop"] = some (.num 1) ∧ valueAt r ["clock", "start"] = some (.num 0) ∧
    valueAt r ["grid", "rows"] = some (.num 1) := by
  obtain ⟨r, h1, h2, h3, h4, -⟩ := param_file_partial exLeafOf exLeafText
    (.sub "clock" (.leaf "start" (.num 0) (.leaf "stop" (.num 9) .nil))
        (.sub "grid" (.leaf "rows" (.num 3) .nil) .nil)) (by simp [OnlyGroups])
    [("clock", "stop", .num 1), ("grid", "rows", .num 2)] (by decide)
    (by decide +kernel) [⟨["grid", "rows"], "1".toList⟩] (fun _ => .num 1)
    (by simp only [SetOption.WellFormed]; decide +kernel) (by decide +kernel)
  refine ⟨r, h1, h2 _ (List.mem_cons_self) (by decide) (by decide), ?_, ?_⟩
  · rw [h4 "clock" "start" [] (by decide) (by decide)]
    decide +kernel
  · exact h3 [] _ [] rfl (by simp) ⟨"grid", by decide, rfl⟩

end Verif.Props
