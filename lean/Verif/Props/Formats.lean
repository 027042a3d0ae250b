import Verif.Lemmas.CliNulls
import Verif.Model.Formats
import Verif.Props.Cli
import Verif.Props.Config

/-! # C118, C119: file formats, and several commands in one call -/

set_option autoImplicit false

namespace Verif.Props

open Spec

/-! ### C118 -/

/-- C118: exactly `toml` and `yaml` are formats; anything else (`yml`, `TOML`, nothing) raises
`ValueError`; and these are the formats that are reported as supported. -/
theorem formats_supported (fmt : String) :
    (fmt = "toml" ∨ fmt = "yaml" → getLoader fmt = .ok ("load_" ++ fmt)) ∧
    (¬ (fmt = "toml" ∨ fmt = "yaml") → getLoader fmt = .error .valueError) ∧
    (fmt ∈ supportedFormats ↔ fmt = "toml" ∨ fmt = "yaml") := by
  refine ⟨?_, fun h => ?_, ?_⟩
  · rintro (rfl | rfl) <;> rfl
  · unfold getLoader
    rw [if_neg]
    intro hm
    have key : ∀ n ∈ configMembers, n = "load_" ++ fmt → fmt = "toml" ∨ fmt = "yaml" := by
      intro n hn he
      have he' : n.toList = "load_".toList ++ fmt.toList := by rw [he, String.toList_append]
      simp only [configMembers, List.mem_cons, List.not_mem_nil, or_false] at hn
      rcases hn with rfl | rfl | rfl | rfl | rfl | rfl | rfl | rfl | rfl | rfl | rfl | rfl
      all_goals try (exfalso; revert he'; simp; done)
      · left
        apply String.toList_inj.mp
        simpa using he'.symm
      · right
        apply String.toList_inj.mp
        simpa using he'.symm
    exact h (key _ hm rfl)
  · have : supportedFormats = ["toml", "yaml"] := by decide +kernel
    rw [this]
    simp

example : getLoader "yml" = .error .valueError ∧ getLoader "TOML" = .error .valueError ∧
    getLoader "" = .error .valueError := by decide +kernel

/-- The part of a name after its last dot. -/
theorem afterDot_eq {stem ext : List Char} (h : '.' ∉ ext) :
    (((stem ++ '.' :: ext).reverse.takeWhile (· != '.')).reverse) = ext := by
  have hall : ∀ c ∈ ext.reverse, (c != '.') = true := by
    intro c hc
    rw [List.mem_reverse] at hc
    simp only [bne_iff_ne, ne_eq]
    rintro rfl
    exact h hc
  have : (stem ++ '.' :: ext).reverse = ext.reverse ++ '.' :: stem.reverse := by simp
  rw [this, List.takeWhile_append_of_pos hall]
  simp

/-- C118: the format of a file is what follows the last dot of its name, if there is something
before and after it. (A name without `/`.) -/
theorem format_of_name (name fmt : List Char) (hne : fmt ≠ []) (hdot : '.' ∉ fmt) :
    formatOfFile name = String.ofList fmt ↔ ∃ stem, stem ≠ [] ∧ name = stem ++ '.' :: fmt := by
  have hinj : formatOfFile name = String.ofList fmt ↔ (pathSuffix name).tail = fmt := by
    unfold formatOfFile
    exact String.ofList_inj
  rw [hinj]
  constructor
  · intro h
    unfold pathSuffix at h
    dsimp only at h
    by_cases hc : '.' ∈ name ∧ (name.reverse.takeWhile (· != '.')).reverse ≠ [] ∧
        (name.reverse.takeWhile (· != '.')).reverse.length + 1 < name.length
    · rw [if_pos hc, List.tail_cons] at h
      obtain ⟨h1, h2, h3⟩ := hc
      obtain ⟨pre, post, hsplit, hpost⟩ : ∃ pre post, name = pre ++ '.' :: post ∧ '.' ∉ post := by
        have hr : '.' ∈ name.reverse := List.mem_reverse.mpr h1
        obtain ⟨a, b, hab, hna⟩ := List.eq_append_cons_of_mem hr
        refine ⟨b.reverse, a.reverse, ?_, by rwa [List.mem_reverse]⟩
        rw [← List.reverse_reverse name, hab]
        simp
      subst hsplit
      rw [afterDot_eq hpost] at h h3
      subst h
      refine ⟨pre, ?_, rfl⟩
      rintro rfl
      simp at h3
    · rw [if_neg hc] at h
      exact absurd h.symm hne
  · rintro ⟨stem, hs, rfl⟩
    unfold pathSuffix
    rw [afterDot_eq hdot]
    dsimp only
    rw [if_pos, List.tail_cons]
    refine ⟨by simp, hne, ?_⟩
    have : 0 < stem.length := List.length_pos_iff.mpr hs
    simp only [List.length_append, List.length_cons]
    omega

example : formatOfFile "sequence.2.toml".toList = "toml" ∧ formatOfFile ".toml".toList = "" ∧
    formatOfFile "sequence".toList = "" ∧ formatOfFile "sequence.".toList = "" := by decide +kernel

/-- C118: every configuration file that `sequence run` finds is of a supported format. -/
theorem found_files_readable (entries : List (List Char)) (hn : entries.Nodup) (n : List Char)
    (h : n ∈ (findConfigFiles entries).2) :
    formatOfFile n = "toml" ∨ formatOfFile n = "yaml" := by
  have hf := (config_files_found entries hn).2.1 n |>.mp h
  have key : ∀ ext : String, ∀ fmt : List Char, ext.toList = '.' :: fmt → fmt ≠ [] → '.' ∉ fmt →
      ConfigName ext n → formatOfFile n = String.ofList fmt := by
    intro ext fmt he hne hdot hc
    obtain ⟨mid, hm⟩ := hc
    rw [format_of_name n fmt hne hdot]
    rw [he] at hm
    refine ⟨"sequence".toList ++ mid, by simp, ?_⟩
    rw [hm]
  rcases hf.2 with hc | ⟨hc, -⟩
  · exact .inl (key ".toml" "toml".toList (by decide) (by decide) (by decide) hc)
  · exact .inr (key ".yaml" "yaml".toList (by decide) (by decide) (by decide) hc)

/-- C118: how a yaml file is split into documents and lists makes no difference, and the same
sections in a toml file give the same: a table for one section, an array of tables for several. -/
theorem formats_agree (file : List Section) :
    loadYaml file = loadToml (some (.many (file.flatMap Section.entries))) ∧
    (∀ file', file.flatMap Section.entries = file'.flatMap Section.entries →
      loadYaml file = loadYaml file') ∧
    ∀ e, loadToml (some (.one e)) = loadYaml [.one e] := by
  refine ⟨rfl, fun file' h => ?_, fun e => rfl⟩
  unfold loadYaml
  rw [h]

theorem entryDocs_ok {es : List FileEntry} {ds : List Doc} :
    entryDocs es = .ok ds ↔ es = ds.map .dict := by
  induction es generalizing ds with
  | nil =>
    cases ds with
    | nil => exact ⟨fun _ => rfl, fun _ => rfl⟩
    | cons d ds => exact ⟨fun h => (by cases h), fun h => (by cases h)⟩
  | cons e es ih =>
    cases e with
    | list => exact ⟨fun h => (by cases h), fun h => by cases ds <;> cases h⟩
    | other => exact ⟨fun h => (by cases h), fun h => by cases ds <;> cases h⟩
    | dict d =>
      rw [entryDocs]
      cases hr : entryDocs es with
      | error e =>
        dsimp only
        refine ⟨fun h => (by cases h), fun h => ?_⟩
        cases ds with
        | nil => cases h
        | cons d' ds =>
          rw [List.map_cons, List.cons.injEq] at h
          rw [ih.mpr h.2] at hr
          cases hr
      | ok ds' =>
        dsimp only
        have := ih.mp hr
        subst this
        constructor
        · intro h; cases h; rfl
        · intro h
          cases ds with
          | nil => cases h
          | cons d' ds =>
            rw [List.map_cons, List.cons.injEq, FileEntry.dict.injEq] at h
            obtain ⟨rfl, h2⟩ := h
            rw [(List.map_injective_iff.mpr fun a b h => by cases h; rfl) h2]

theorem fromFile_eq (docs : List Doc) : Cfg.fromFile docs = (Cfg.load 0 docs).bind initSections := by
  unfold Cfg.fromFile
  cases Cfg.load 0 docs with
  | error e => rfl
  | ok tds => cases tds <;> rfl

theorem loadToml_eq {s : Section} {docs : List Doc} (h : s.entries = docs.map .dict) :
    loadToml (some s) = Cfg.load 0 docs := by
  unfold loadToml
  dsimp only
  rw [entryDocs_ok.mpr h]

theorem loadYaml_eq {ss : List Section} {docs : List Doc}
    (h : ss.flatMap Section.entries = docs.map .dict) : loadYaml ss = Cfg.load 0 docs := by
  unfold loadYaml
  rw [entryDocs_ok.mpr h]

theorem bind_ok_iff {α β : Type} {x : Except Err α} {f : α → Except Err β} {b : β} :
    x.bind f = .ok b ↔ ∃ a, x = .ok a ∧ f a = .ok b := by
  cases x with
  | error e => exact ⟨fun h => (by cases h), fun ⟨_, h, _⟩ => (by cases h)⟩
  | ok a => exact ⟨fun h => ⟨a, rfl, h⟩, fun ⟨_, h, h'⟩ => (by cases h; exact h')⟩

/-- C118: a file is loaded exactly if it is of a known format, exists, can be parsed and consists of
dictionaries; what matters of it then are its sections. -/
theorem from_file_iff (name : List Char) (fmt : Option String) (file : Option Parsers) (c : Cfg) :
    fromFileNamed name fmt file = .ok c ↔ ∃ p docs, file = some p ∧ Cfg.fromFile docs = .ok c ∧
      ((fmt.getD (formatOfFile name) = "toml" ∧ ∃ s, p.toml = .ok (some s) ∧
          s.entries = docs.map .dict) ∨
        (fmt.getD (formatOfFile name) = "yaml" ∧ ∃ ss, p.yaml = .ok ss ∧
          ss.flatMap Section.entries = docs.map .dict)) := by
  unfold fromFileNamed
  by_cases hf : fmt.getD (formatOfFile name) = "toml" ∨ fmt.getD (formatOfFile name) = "yaml"
  · rw [(formats_supported _).1 hf]
    dsimp only
    constructor
    · intro h
      obtain ⟨tds, h1, h2⟩ := bind_ok_iff.mp h
      cases file with
      | none => cases h1
      | some p =>
        rcases hf with hf | hf
        · rw [hf] at h1 ⊢
          unfold runLoader at h1
          dsimp only at h1
          rw [if_neg (by decide)] at h1
          obtain ⟨so, hs, hl⟩ := bind_ok_iff.mp h1
          cases so with
          | none => cases hl
          | some s =>
            unfold loadToml at hl
            dsimp only at hl
            cases he : entryDocs s.entries with
            | error e => rw [he] at hl; cases hl
            | ok ds =>
              rw [he] at hl
              refine ⟨p, ds, rfl, ?_, .inl ⟨rfl, s, hs, entryDocs_ok.mp he⟩⟩
              rw [fromFile_eq]
              exact bind_ok_iff.mpr ⟨tds, hl, h2⟩
        · rw [hf] at h1 ⊢
          unfold runLoader at h1
          dsimp only at h1
          rw [if_pos (by decide)] at h1
          obtain ⟨ss, hs, hl⟩ := bind_ok_iff.mp h1
          unfold loadYaml at hl
          cases he : entryDocs (ss.flatMap Section.entries) with
          | error e => rw [he] at hl; cases hl
          | ok ds =>
            rw [he] at hl
            refine ⟨p, ds, rfl, ?_, .inr ⟨rfl, ss, hs, entryDocs_ok.mp he⟩⟩
            rw [fromFile_eq]
            exact bind_ok_iff.mpr ⟨tds, hl, h2⟩
    · rintro ⟨p, docs, rfl, hc, ⟨hf, s, hs, hd⟩ | ⟨hf, ss, hs, hd⟩⟩
      · rw [hf]
        unfold runLoader
        dsimp only
        rw [if_neg (by decide), hs]
        dsimp only [Except.bind]
        rw [loadToml_eq hd]
        rw [fromFile_eq] at hc
        exact hc
      · rw [hf]
        unfold runLoader
        dsimp only
        rw [if_pos (by decide), hs]
        dsimp only [Except.bind]
        rw [loadYaml_eq hd]
        rw [fromFile_eq] at hc
        exact hc
  · rw [(formats_supported _).2.1 hf]
    refine ⟨fun h => (by cases h), ?_⟩
    rintro ⟨p, docs, -, -, ⟨h, -⟩ | ⟨h, -⟩⟩
    · exact absurd (.inl h) hf
    · exact absurd (.inr h) hf

/-- C118: `load_config` returns the dictionary itself if there is one section and the list
otherwise; an unknown format is reported before the file is looked for. -/
theorem load_config_shape (name : List Char) (fmt : Option String) (file : Option Parsers) :
    (¬ (fmt.getD (formatOfFile name) = "toml" ∨ fmt.getD (formatOfFile name) = "yaml") →
      loadConfig name fmt file = .error .valueError) ∧
    (fmt.getD (formatOfFile name) = "toml" ∨ fmt.getD (formatOfFile name) = "yaml" →
      loadConfig name fmt none = .error .osError ∧
      ∀ p tds, runLoader ("load_" ++ fmt.getD (formatOfFile name)) (some p) = .ok tds →
        loadConfig name fmt (some p) =
          if h : tds.length = 1 then .ok (.inl (tds[0]).2) else .ok (.inr tds)) := by
  refine ⟨fun h => ?_, fun h => ⟨?_, fun p tds hr => ?_⟩⟩
  · unfold loadConfig
    rw [(formats_supported _).2.1 h]
  · unfold loadConfig
    rw [(formats_supported _).1 h]
    rfl
  · unfold loadConfig
    rw [(formats_supported _).1 h]
    dsimp only
    rw [hr]
    match tds with
    | [] => rfl
    | [td] => rfl
    | _ :: _ :: _ => simp

/-- C118: `dump` takes the same two formats, and what it writes is read back, with the format's own
loader, as the same sections in both. -/
theorem dump_formats (c : Cfg) (docs : List Doc) (h : c.dumpDocs = .ok docs) (fmt : String) :
    (¬ (fmt = "toml" ∨ fmt = "yaml") → c.dumpFile fmt = .error .valueError) ∧
    (fmt = "toml" ∨ fmt = "yaml" → ∃ p, c.dumpFile fmt = .ok p ∧
      ∀ name, fromFileNamed name (some fmt) (some p) = Cfg.fromFile docs) := by
  unfold Cfg.dumpFile
  rw [h]
  dsimp only
  refine ⟨fun hf => ?_, ?_⟩
  · rw [if_neg (fun h => hf (.inl h)), if_neg (fun h => hf (.inr h))]
  · rintro (rfl | rfl)
    · refine ⟨_, if_pos rfl, fun name => ?_⟩
      unfold fromFileNamed
      rw [Option.getD_some, (formats_supported _).1 (.inl rfl), fromFile_eq]
      dsimp only
      unfold runLoader
      dsimp only
      rw [if_neg (by decide)]
      dsimp only [Except.bind]
      rw [loadToml_eq (s := .many (docs.map .dict)) rfl]
    · refine ⟨_, by rw [if_neg (by decide)]; exact if_pos rfl, fun name => ?_⟩
      unfold fromFileNamed
      rw [Option.getD_some, (formats_supported _).1 (.inr rfl), fromFile_eq]
      dsimp only
      unfold runLoader
      dsimp only
      rw [if_pos (by decide)]
      dsimp only [Except.bind]
      rw [loadYaml_eq (ss := [.many (docs.map .dict)]) (docs := docs) (by simp [Section.entries])]

/-- C118: `SequenceModelGrid.from_toml` takes the grid from a file with one section. -/
theorem grid_from_toml (d : Doc) : gridSection (some (.one (.dict d))) =
    match d.find? "grid" with
    | none => .error (.keyError "grid")
    | some v => .ok v := rfl

/-- C118, false of the grid: a file that `dump` has written, even with a single section, can be
loaded as a configuration but not as a grid: `TypeError`. -/
theorem grid_from_dump_fails (c : Cfg) (p : Parsers) (h : c.dumpFile "toml" = .ok p)
    (s : Option Section) (hs : p.toml = .ok s) : gridSection s = .error .typeError := by
  unfold Cfg.dumpFile at h
  cases hd : c.dumpDocs with
  | error e => rw [hd] at h; cases h
  | ok docs =>
    rw [hd] at h
    dsimp only at h
    rw [if_pos rfl] at h
    cases h
    cases hs
    rfl

/-- One section with a grid: dumped, it can be loaded again, but the grid cannot. -/
example : ∃ c p s, Cfg.init [0] [.sub "grid" (.leaf "shape" (.num 5) .nil) .nil] = .ok c ∧
    c.dumpFile "toml" = .ok p ∧ p.toml = .ok s ∧ gridSection s = .error .typeError ∧
    (fromFileNamed "a.toml".toList none (some p)).toOption.isSome ∧
    gridSection (some (.one (.dict (.sub "grid" (.leaf "shape" (.num 5) .nil) .nil)))) =
      .ok (.inr (.leaf "shape" (.num 5) .nil)) := by
  refine ⟨_, _, _, rfl, rfl, rfl, rfl, by decide +kernel, rfl⟩

/-- An empty document or a number where a section should be. -/
example : loadYaml [.one .other] = .error .attributeError ∧
    loadYaml [.one (.dict .nil), .many [.list]] = .error .typeError ∧
    loadYaml [.one (.dict .nil), .many [.dict .nil]] = .ok [(0, .nil), (1, .nil)] ∧
    loadToml none = .error (.keyError "sequence") := by decide +kernel

/-! ### C119 -/

section Chain

variable (parse : List Char → Except Err (Leaf ⊕ Doc)) (render : Doc → String → String)

/-- The loop of `setup` as in C54. -/
theorem setupLoop_eq (opts : List (List Char)) (s : ChainState) (fs : List String) :
    ((setupLoop parse render opts s fs).1.dir, (setupLoop parse render opts s fs).2) =
      setupWrite parse render opts s.defaults s.dir fs := by
  induction fs generalizing s with
  | nil => rfl
  | cons f fs ih =>
    rw [setupLoop, setupWrite]
    cases contentsOfInputFile parse render s.defaults opts f with
    | error e => rfl
    | ok r => exact ih _

theorem contents_defaults {defaults d' : Doc} {opts : List (List Char)} {f t : String}
    (h : contentsOfInputFile parse render defaults opts f = .ok (d', t)) :
    loadModelParams parse defaults opts = .ok d' ∧ t = render d' f := by
  unfold contentsOfInputFile at h
  cases hl : loadModelParams parse defaults opts with
  | error e => rw [hl] at h; cases h
  | ok r =>
    rw [hl] at h
    dsimp only at h
    split_ifs at h
    cases h
    exact ⟨rfl, rfl⟩

theorem setupLoop_defaults (hparse : GivesDicts parse) {opts : List (List Char)} {s s' : ChainState} {fs : List String}
    (hne : fs ≠ []) (h : setupLoop parse render opts s fs = (s', .ok ())) :
    loadModelParams parse s.defaults opts = .ok s'.defaults ∧ s'.printed = s.printed := by
  induction fs generalizing s with
  | nil => exact absurd rfl hne
  | cons f fs ih =>
    rw [setupLoop] at h
    cases hc : contentsOfInputFile parse render s.defaults opts f with
    | error e => rw [hc] at h; cases h
    | ok r =>
      obtain ⟨d', t⟩ := r
      rw [hc] at h
      dsimp only at h
      obtain ⟨h1, -⟩ := contents_defaults parse render hc
      cases fs with
      | nil =>
        cases h
        exact ⟨h1, rfl⟩
      | cons f2 fs =>
        obtain ⟨h2, h3⟩ := ih (by simp) h
        dsimp only at h2 h3
        rw [loadModelParams_idem hparse h1] at h2
        rw [h1]
        exact ⟨h2, h3⟩

/-- C119: each command starts from the default parameters as the options of the commands before it
have changed them. -/
theorem command_defaults (hparse : GivesDicts parse) {c : InputCommand} {s s' : ChainState}
    (h : c.run parse render s = (s', .ok ())) :
    loadModelParams parse s.defaults c.options = .ok s'.defaults := by
  cases c with
  | generate f opts =>
    simp only [InputCommand.run] at h
    cases hc : contentsOfInputFile parse render s.defaults opts f with
    | error e => rw [hc] at h; cases h
    | ok r =>
      obtain ⟨d', t⟩ := r
      rw [hc] at h
      cases h
      exact (contents_defaults parse render hc).1
  | setup opts =>
    simp only [InputCommand.run] at h
    split_ifs at h
    · exact (setupLoop_defaults parse render hparse (by decide) h).1
    · cases h

/-- C119, false: in a call with two commands the second one uses the options of the first as
defaults, whatever the options. -/
theorem chained_options_leak (defaults params : Doc) (opts : List (List Char)) (f f' : String)
    (dir : PyDict String String) (hp : loadModelParams parse defaults opts = .ok params)
    (hd : OnlyGroups defaults) (hdn : ¬ NullInDoc defaults) (hpn : ¬ NullInDoc params) :
    runChain parse render [.generate f opts, .generate f' []] ⟨defaults, dir, []⟩ =
      (⟨params, dir, [render params f, render params f']⟩, .ok ()) ∧
    runChain parse render [.generate f' []] ⟨defaults, dir, []⟩ =
      (⟨defaults, dir, [render defaults f']⟩, .ok ()) := by
  have hnil : ∀ d : Doc, OnlyGroups d → updateGroups .nil d = .ok d := by
    intro d hd
    induction d with
    | nil => rfl
    | leaf => exact hd.elim
    | sub g s t _ ih => simp only [updateGroups, Doc.find?, updateGroup, ih hd]
  have hgroups : ∀ cl d r : Doc, updateGroups cl d = .ok r → OnlyGroups r := by
    intro cl d
    induction d with
    | nil => intro r h; cases h; trivial
    | leaf => intro r h; cases h
    | sub g s t _ ih =>
      intro r h
      rw [updateGroups] at h
      cases h1 : updateGroup s (cl.find? g) with
      | error e => rw [h1] at h; cases h
      | ok s' =>
        rw [h1] at h
        dsimp only at h
        cases h2 : updateGroups cl t with
        | error e => rw [h2] at h; cases h
        | ok t' => rw [h2] at h; cases h; exact ih t' h2
  have hpg : OnlyGroups params := by
    unfold loadModelParams at hp
    cases hc : loadParamsFromStrings parse .nil opts with
    | error e => rw [hc] at hp; cases hp
    | ok cl => rw [hc] at hp; exact hgroups _ _ _ hp
  have hid : ∀ d : Doc, OnlyGroups d → loadModelParams parse d [] = .ok d := fun d hd => hnil d hd
  constructor
  · simp only [runChain, InputCommand.run, contentsOfInputFile, hp, hid params hpg, List.nil_append,
      List.cons_append, (noNull_iff _).mpr hpn, Bool.false_eq_true, if_false]
  · simp only [runChain, InputCommand.run, contentsOfInputFile, hid defaults hd, List.nil_append,
      (noNull_iff _).mpr hdn, Bool.false_eq_true, if_false]

/-- C119, partial: commands whose earlier commands have no options, or all the same options as the
command itself, do what they do alone. Missing: other options (previous theorem). -/
theorem chained_commands_partial (hparse : GivesDicts parse) (cs : List InputCommand)
    (c : InputCommand) (s s' : ChainState)
    (hcs : (∀ c' ∈ cs, c'.options = []) ∨ ∀ c' ∈ cs, c'.options = c.options)
    (h : runChain parse render cs s = (s', .ok ())) :
    loadModelParams parse s'.defaults c.options = loadModelParams parse s.defaults c.options := by
  induction cs generalizing s with
  | nil => cases h; rfl
  | cons c1 cs ih =>
    rw [runChain] at h
    cases hr : c1.run parse render s with
    | mk s1 res =>
      rw [hr] at h
      cases res with
      | error e => cases h
      | ok u =>
        dsimp only at h
        have h1 := command_defaults parse render hparse hr
        rw [ih s1 (by
          rcases hcs with hcs | hcs
          · exact .inl fun c' hc' => hcs c' (List.mem_cons_of_mem _ hc')
          · exact .inr fun c' hc' => hcs c' (List.mem_cons_of_mem _ hc')) h]
        rcases hcs with hcs | hcs
        · rw [hcs c1 (List.mem_cons_self ..)] at h1
          have hnil : ∀ d r : Doc, updateGroups .nil d = .ok r → r = d := by
            intro d
            induction d with
            | nil => intro r h; cases h; rfl
            | leaf => intro r h; cases h
            | sub g s t _ ih =>
              intro r h
              simp only [updateGroups, Doc.find?, updateGroup] at h
              cases h2 : updateGroups .nil t with
              | error e => rw [h2] at h; cases h
              | ok t' => rw [h2] at h; cases h; rw [ih t' h2]
          rw [hnil _ _ h1]
        · rw [hcs c1 (List.mem_cons_self ..)] at h1
          rw [loadModelParams_idem hparse h1, h1]

/-- C119: an option of an earlier command is still there in a later one that does not set the same
parameter. -/
theorem chained_option_stays (defaults : Doc) (hdef : OnlyGroups defaults)
    (hdn : ¬ NullInDoc defaults)
    (first second : List SetOption) (value : SetOption → Leaf)
    (hw : ∀ o ∈ first ++ second, o.WellFormed)
    (hp : ∀ o ∈ first ++ second, parse o.text = .ok (.inl (value o)))
    (hn : ∀ o ∈ first ++ second, ¬ NullIn (value o)) (pre : List SetOption)
    (o : SetOption) (post : List SetOption) (ho : first = pre ++ o :: post)
    (hpost : ∀ o' ∈ post, o'.path.head? ≠ o.path.head?)
    (hg : ∃ g ∈ defaults.keys, o.path.head? = some g) (g k : String) (p : List String)
    (hpath : o.path = g :: k :: p) (hno : ∀ o' ∈ second, ¬ [g, k] <+: o'.path)
    (f f' : String) (dir : PyDict String String) :
    ∃ r1 r2, runChain parse render [.generate f (first.map SetOption.typed),
        .generate f' (second.map SetOption.typed)] ⟨defaults, dir, []⟩ =
      (⟨r2, dir, [render r1 f, render r2 f']⟩, .ok ()) ∧ valueAt r2 o.path = some (value o) := by
  obtain ⟨r1, h1, h2, -, h3⟩ := set_options_partial parse defaults hdef first value
    (fun o ho => hw o (List.mem_append_left _ ho)) (fun o ho => hp o (List.mem_append_left _ ho))
  have hg1 : OnlyGroups r1 := by
    have hgroups : ∀ cl d r : Doc, updateGroups cl d = .ok r → OnlyGroups r := by
      intro cl d
      induction d with
      | nil => intro r h; cases h; trivial
      | leaf => intro r h; cases h
      | sub g s t _ ih =>
        intro r h
        rw [updateGroups] at h
        cases h1 : updateGroup s (cl.find? g) with
        | error e => rw [h1] at h; cases h
        | ok s' =>
          rw [h1] at h
          dsimp only at h
          cases h2 : updateGroups cl t with
          | error e => rw [h2] at h; cases h
          | ok t' => rw [h2] at h; cases h; exact ih t' h2
    unfold loadModelParams at h1
    cases hc : loadParamsFromStrings parse .nil (first.map SetOption.typed) with
    | error e => rw [hc] at h1; cases h1
    | ok cl => rw [hc] at h1; exact hgroups _ _ _ h1
  obtain ⟨r2, g1, -, g3, -⟩ := set_options_partial parse r1 hg1 second value
    (fun o ho => hw o (List.mem_append_right _ ho)) (fun o ho => hp o (List.mem_append_right _ ho))
  have hn1 := noNull_loadModelParams (optionsGiven_typed
    (fun o ho => hw o (List.mem_append_left _ ho)) (fun o ho => hp o (List.mem_append_left _ ho))
    (fun o ho => hn o (List.mem_append_left _ ho))) ((noNull_iff _).mpr hdn) h1
  have hn2 := noNull_loadModelParams (optionsGiven_typed
    (fun o ho => hw o (List.mem_append_right _ ho)) (fun o ho => hp o (List.mem_append_right _ ho))
    (fun o ho => hn o (List.mem_append_right _ ho))) hn1 g1
  refine ⟨r1, r2, ?_, ?_⟩
  · simp only [runChain, InputCommand.run, contentsOfInputFile, h1, g1, List.nil_append,
      List.cons_append, hn1, hn2, Bool.false_eq_true, if_false]
  · rw [hpath, g3 g k p hno, ← hpath]
    exact h2 pre o post ho hpost hg

end Chain

/-- `sequence generate --set clock.stop=7 sequence.toml generate sequence.toml`: the second file,
for which no option was given, has the stop time of the first. -/
example : ∃ r, loadModelParams (fun _ => .ok (.inl (.num 7))) someDefaults ["clock.stop=7".toList] = .ok r ∧
    valueAt r ["clock", "stop"] = some (.num 7) ∧
    valueAt someDefaults ["clock", "stop"] = some (.num 9) ∧
    ∀ render dir, (runChain (fun _ => .ok (.inl (.num 7))) render
      [.generate "sequence.toml" ["clock.stop=7".toList], .generate "sequence.toml" []]
      ⟨someDefaults, dir, []⟩).1.printed = [render r "sequence.toml", render r "sequence.toml"] := by
  refine ⟨.sub "clock" (.leaf "start" (.num 0) (.leaf "stop" (.num 7) .nil))
    (.sub "grid" (.leaf "n_cols" (.num 100) .nil) .nil), by decide +kernel, by decide +kernel,
    by decide +kernel, fun render dir => ?_⟩
  rw [(chained_options_leak (fun _ => .ok (.inl (.num 7))) render someDefaults (opts := ["clock.stop=7".toList])
    "sequence.toml" "sequence.toml" dir (params := .sub "clock" (.leaf "start" (.num 0)
      (.leaf "stop" (.num 7) .nil)) (.sub "grid" (.leaf "n_cols" (.num 100) .nil) .nil))
    (by decide +kernel) trivial (by rw [← noNull_iff]; decide +kernel)
    (by rw [← noNull_iff]; decide +kernel)).1]

end Verif.Props
