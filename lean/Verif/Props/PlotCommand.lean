import Verif.Lemmas.NullValues
import Verif.Lemmas.PlotCommand
import Verif.Props.PlotFile

/-!
# The command `sequence plot`

C98: which value each option has.
-/

set_option autoImplicit false
set_option linter.unusedSectionVars false

namespace Verif.Props

open Spec

variable {K : Type*} [Field K] [LinearOrder K]

/-! ### C98 -/

theorem distinct_plotKeywords : DistinctKeys plotKeywords := by
  simp only [plotKeywords, DistinctKeys, Doc.keys]
  decide

/-- A dictionary of values. -/
def leaves : List (String × Leaf) → Doc
  | [] => .nil
  | p :: ps => .leaf p.1 p.2 (leaves ps)

theorem valueAt_leaves (l : List (String × Leaf)) (k : String) :
    valueAt (leaves l) [k] = (l.find? fun p => p.1 = k).map (·.2) := by
  induction l with
  | nil => rw [valueAt_single]; rfl
  | cons p ps ih =>
    rw [valueAt_single] at ih ⊢
    simp only [leaves, Doc.find?, List.find?_cons]
    by_cases h : p.1 = k
    · simp [h]
    · simp only [h, decide_false, if_false]
      exact ih

theorem plotKeywords_default (k : String) : valueAt plotKeywords [k] = plotDefault k := by
  have : plotKeywords = leaves plotDefaults := by decide +kernel
  rw [this, valueAt_leaves]
  rfl

theorem plotKeywords_keys : plotKeywords.keys = plotDefaults.map (·.1) := by decide +kernel

/-- The section `plot` of the configuration file, if any, is a dictionary of values. -/
def PlotSection (doc : Option Doc) : Prop :=
  ∀ d, doc = some d → DistinctKeys d ∧ NoTuples d ∧
    (d.find? "plot" = none ∨ ∃ s, d.find? "plot" = some (.inr s) ∧ OnlyValues s)

/-- What is in `config` before the call of `plot_file`. -/
theorem plotConfig_find {parse : List Char → Except Err (Leaf ⊕ Doc)} {toml : Option (List Doc)}
    {key : SetOption → String} {value : SetOption → Leaf} {os : List SetOption}
    (hw : ∀ o ∈ os, o.Keyword (key o)) (hp : ∀ o ∈ os, parse o.text = .ok (.inl (value o)))
    (hfile : ∀ docs, toml = some docs → ∃ c, Cfg.fromFile docs = .ok c)
    (hsec : PlotSection (toml.bind List.head?)) :
    ∃ config, plotConfig parse toml (os.map SetOption.typed) = .ok config ∧ DistinctKeys config ∧
      ∀ k, config.find? k = (plotSetting (os.map fun o => (key o, value o))
        (toml.bind List.head?) k).map Sum.inl := by
  obtain ⟨cl, hcl, hdcl, hfcl⟩ := load_keywords hw hp .nil trivial
  have hbase : ∃ base, plotFromFile toml = .ok base ∧ DistinctKeys base ∧
      ∀ k, base.find? k = (((toml.bind List.head?).bind fun d => valueAt d ["plot", k]).or
        (valueAt plotKeywords [k])).map Sum.inl := by
    have hkw : OnlyValues plotKeywords := by simp [plotKeywords, OnlyValues]
    cases toml with
    | none =>
      exact ⟨plotKeywords, rfl, distinct_plotKeywords, fun k => by
        simpa using Doc.onlyValues_find? hkw k⟩
    | some docs =>
      obtain ⟨c, hc⟩ := hfile docs rfl
      cases docs with
      | nil => cases hc
      | cons d0 ds =>
        obtain ⟨hd, ht, hplot⟩ := hsec d0 rfl
        have has := asDict_first hc hd ht
        have hfp : (prune (d0.erase "_time")).find? "plot" = match d0.find? "plot" with
            | none => none
            | some (.inl v) => some (.inl v)
            | some (.inr s) => if prune s = .nil then none else some (.inr (prune s)) := by
          rw [Doc.find?_prune (Doc.distinct_erase hd _), Doc.find?_erase hd]
          rfl
        have hun : plotFromFile (some (d0 :: ds)) =
            updateGroup plotKeywords ((prune (d0.erase "_time")).find? "plot") := by
          unfold plotFromFile
          simp only [hc, has]
        rw [hun, hfp]
        have hv : ∀ k, ((some (d0 :: ds)).bind List.head?).bind
            (fun d => valueAt d ["plot", k]) = valueAt d0 ["plot", k] := fun k => rfl
        rcases hplot with h | ⟨s, h, hs⟩
        · rw [h]
          refine ⟨plotKeywords, rfl, distinct_plotKeywords, fun k => ?_⟩
          rw [hv, valueAt_cons, h]
          simpa using Doc.onlyValues_find? hkw k
        · rw [h]
          have hds := distinct_sub hd h
          dsimp only
          rw [Doc.prune_onlyValues hs]
          have hvs : ∀ k, valueAt d0 ["plot", k] = valueAt s [k] := fun k => by
            rw [valueAt_cons, h]
          refine ⟨plotKeywords.updateWith s, ?_,
            Doc.distinct_updateWith distinct_plotKeywords hds, ?_⟩
          · cases s with
            | nil => rfl
            | leaf a v r => rfl
            | sub => exact hs.elim
          · intro k
            rw [hv, hvs, Doc.find?_updateWith _ _ hds, Doc.onlyValues_find? hs,
              Doc.onlyValues_find? hkw]
            cases valueAt s [k] <;> rfl
  obtain ⟨base, hb, hdb, hfb⟩ := hbase
  refine ⟨base.updateWith cl, ?_, Doc.distinct_updateWith hdb hdcl, ?_⟩
  · simp only [plotConfig, hb, hcl]
  · intro k
    rw [Doc.find?_updateWith _ _ hdcl, hfcl, hfb]
    unfold plotSetting
    cases (os.map fun o => (key o, value o)).reverse.find? fun o => decide (o.1 = k) with
    | some o => simp
    | none =>
      cases ((toml.bind List.head?).bind fun d => valueAt d ["plot", k]) <;>
        simp [Doc.find?, plotKeywords_default]

/-- Whether there is a null among the keywords. -/
theorem plotConfig_null {config : Doc} (hdc : DistinctKeys config) {f : String → Option Leaf}
    (hfc : ∀ k, config.find? k = (f k).map .inl) :
    config.hasNull = false ↔ ¬ ∃ k v, f k = some v ∧ NullIn v := by
  rw [Bool.eq_false_iff, ne_eq, docHasNull_find hdc, not_iff_not]
  constructor
  · rintro ⟨k, ⟨v, hv, hn⟩ | ⟨s, hs, -⟩⟩
    · rw [hfc] at hv
      cases hf : f k with
      | none => rw [hf] at hv; cases hv
      | some w => rw [hf] at hv; cases hv; exact ⟨k, _, hf, (hasNull_iff _).mp hn⟩
    · rw [hfc] at hs
      cases hf : f k <;> rw [hf] at hs <;> cases hs
  · rintro ⟨k, v, hv, hn⟩
    exact ⟨k, .inl ⟨v, by rw [hfc, hv]; rfl, (hasNull_iff _).mpr hn⟩⟩

/-- C98: with options `key=value` for names that exist, and a section `plot` with such names, the
command draws the data of the row that was asked for (the middle row if none was), with every
keyword from the last option for it, else from the first document of `sequence.toml`, else the
default; a file that lacks a variable or the row aborts it. -/
theorem plot_options_partial (verbose : Bool) (parse : List Char → Except Err (Leaf ⊕ Doc))
    (toml : Option (List Doc))
    (key : SetOption → String) (value : SetOption → Leaf) (os : List SetOption)
    (hw : ∀ o ∈ os, o.Keyword (key o)) (hp : ∀ o ∈ os, parse o.text = .ok (.inl (value o)))
    (hfile : ∀ docs, toml = some docs → ∃ c, Cfg.fromFile docs = .ok c)
    (hsec : PlotSection (toml.bind List.head?))
    (hknown : ∀ o ∈ os, PlotName (key o))
    (hsecknown : ∀ d, toml.bind List.head? = some d → ∀ k v, valueAt d ["plot", k] = some v →
      PlotName k)
    (row : Option ℤ)
    (hrow : plotSetting (os.map fun o => (key o, value o)) (toml.bind List.head?) "row" =
        row.map (fun r => .num r) ∨
      row = none ∧ plotSetting (os.map fun o => (key o, value o)) (toml.bind List.head?) "row" =
        some .none)
    (hnull : verbose = true → ∀ k v, plotSetting (os.map fun o => (key o, value o))
      (toml.bind List.head?) k = some v → ¬ NullIn v)
    (d : Dataset K (Option K)) (filename : String) :
    ∃ kwds, plotCommand verbose parse toml d filename (os.map SetOption.typed) = (match plotFile d row with
        | .ok args => .ok ⟨args, kwds⟩
        | .error e => .error (if e = .missingVariable ∨ e = .invalidRow then .abort else e)) ∧
      ∀ k, valueAt kwds [k] = if k = "row" then none
        else plotSetting (os.map fun o => (key o, value o)) (toml.bind List.head?) k := by
  obtain ⟨config, hc, hdc, hfc⟩ := plotConfig_find hw hp hfile hsec
  have hnames : ∀ k, plotSetting (os.map fun o => (key o, value o)) (toml.bind List.head?) k ≠ none →
      PlotName k := by
    intro k hk
    unfold plotSetting at hk
    cases hf : (os.map fun o => (key o, value o)).reverse.find? fun o => decide (o.1 = k) with
    | some o =>
      have hm := List.mem_of_find?_eq_some hf
      rw [List.mem_reverse, List.mem_map] at hm
      obtain ⟨x, hx, rfl⟩ := hm
      have := List.find?_some hf
      simp only [decide_eq_true_eq] at this
      rw [← this]
      exact hknown x hx
    | none =>
      rw [hf] at hk
      cases hs : (toml.bind List.head?).bind fun d => valueAt d ["plot", k] with
      | some v =>
        obtain ⟨d', hd', hv'⟩ := Option.bind_eq_some_iff.mp hs
        exact hsecknown d' hd' k v hv'
      | none =>
        rw [hs] at hk
        refine .inr (by_contra fun hn => hk ?_)
        dsimp only
        rw [← plotKeywords_default, valueAt_single, (Doc.find?_eq_none_iff _ _).mpr
          (by rw [plotKeywords_keys]; exact hn)]
  have htitle : plotSetting (os.map fun o => (key o, value o)) (toml.bind List.head?) "title" ≠
      none := by
    unfold plotSetting
    split
    · simp
    · simp
    · decide +kernel
  have hkeys : ∀ k, k ∈ (config.erase "row").keys →
      k ≠ "row" ∧ k ∈ plotKeywords.keys := by
    intro k hk
    rw [Doc.mem_keys_iff, Doc.find?_erase hdc] at hk
    by_cases hr : k = "row"
    · rw [hr] at hk; simp at hk
    · refine ⟨hr, ?_⟩
      rw [if_neg (Ne.symm hr), hfc] at hk
      rcases hnames k (by intro h; rw [h] at hk; simp at hk) with h | h
      · exact absurd h hr
      · rw [plotKeywords_keys]; exact h
  have hset : (config.erase "row").setDefault "title" (.str filename) = config.erase "row" := by
    unfold Doc.setDefault
    rw [Doc.find?_erase hdc, if_neg (by decide), hfc]
    cases hs : plotSetting (os.map fun o => (key o, value o)) (toml.bind List.head?) "title" with
    | none => exact absurd hs htitle
    | some v => rfl
  have hfn : "filename" ∉ config.keys := by
    intro hm
    rw [Doc.mem_keys_iff, hfc] at hm
    rcases hnames "filename" (by intro h; rw [h] at hm; simp at hm) with h | h
    · exact absurd h (by decide)
    · exact absurd h (by decide)
  have hra : plotRowArgument (config.find? "row") = .ok row := by
    rw [hfc]
    rcases hrow with h | ⟨h1, h2⟩
    · rw [h]
      cases row with
      | none => rfl
      | some r => simp [plotRowArgument]
    · rw [h2, h1]
      rfl
  have hshow : (verbose && config.hasNull) = false := by
    cases hv : verbose with
    | false => rfl
    | true =>
      rw [Bool.true_and, plotConfig_null hdc hfc]
      rintro ⟨k, v, hk, hn⟩
      exact hnull hv k v hk hn
  refine ⟨config.erase "row", ?_, ?_⟩
  · unfold plotCommand plotFileWith
    rw [hc]
    dsimp only
    rw [hshow, if_neg (by simp), if_neg hfn, hra]
    dsimp only
    cases plotFile d row with
    | error e => cases e <;> rfl
    | ok args =>
      dsimp only
      rw [hset, if_pos fun k hk => (hkeys k hk).2]
  · intro k
    rw [valueAt_single, Doc.find?_erase hdc]
    by_cases hr : k = "row"
    · rw [if_pos hr, if_pos hr.symm]
    · rw [if_neg hr, if_neg (Ne.symm hr), hfc]
      cases plotSetting (os.map fun o => (key o, value o)) (toml.bind List.head?) k <;> rfl

/-- C98: a name that does not exist stops the command, wherever it is set. -/
theorem plot_unknown_name (verbose : Bool) (parse : List Char → Except Err (Leaf ⊕ Doc))
    (toml : Option (List Doc))
    (key : SetOption → String) (value : SetOption → Leaf) (os : List SetOption)
    (hw : ∀ o ∈ os, o.Keyword (key o)) (hp : ∀ o ∈ os, parse o.text = .ok (.inl (value o)))
    (hfile : ∀ docs, toml = some docs → ∃ c, Cfg.fromFile docs = .ok c)
    (hsec : PlotSection (toml.bind List.head?)) (k : String) (hk : ¬ PlotName k)
    (hset : plotSetting (os.map fun o => (key o, value o)) (toml.bind List.head?) k ≠ none)
    (d : Dataset K (Option K)) (filename : String) (call : PlotCall K) :
    plotCommand verbose parse toml d filename (os.map SetOption.typed) ≠ .ok call := by
  obtain ⟨config, hc, hdc, hfc⟩ := plotConfig_find hw hp hfile hsec
  intro h
  unfold plotCommand at h
  rw [hc] at h
  dsimp only at h
  split_ifs at h
  cases hf : plotFileWith d filename config with
  | error e => rw [hf] at h; cases e <;> cases h
  | ok r =>
    unfold plotFileWith at hf
    split_ifs at hf
    dsimp only at hf
    split at hf
    · cases hf
    · split at hf
      · cases hf
      · split_ifs at hf with hall
        unfold PlotName at hk
        push Not at hk
        refine hk.2 (plotKeywords_keys ▸ hall k ?_)
        have hm : k ∈ (config.erase "row").keys := by
          rw [Doc.mem_keys_iff, Doc.find?_erase hdc, if_neg (Ne.symm hk.1), hfc]
          cases hs : plotSetting (os.map fun o => (key o, value o)) (toml.bind List.head?) k with
          | none => exact absurd hs hset
          | some v => simp
        unfold Doc.setDefault
        split
        · exact hm
        · rw [Doc.mem_keys_setItem]
          exact .inr hm

/-- C98 and C120, false of null with `--verbose`: a null value, which is accepted without, stops
the command. -/
theorem plot_verbose_null (parse : List Char → Except Err (Leaf ⊕ Doc)) (toml : Option (List Doc))
    (key : SetOption → String) (value : SetOption → Leaf) (os : List SetOption)
    (hw : ∀ o ∈ os, o.Keyword (key o)) (hp : ∀ o ∈ os, parse o.text = .ok (.inl (value o)))
    (hfile : ∀ docs, toml = some docs → ∃ c, Cfg.fromFile docs = .ok c)
    (hsec : PlotSection (toml.bind List.head?)) (k : String) (v : Leaf)
    (hk : plotSetting (os.map fun o => (key o, value o)) (toml.bind List.head?) k = some v)
    (hv : NullIn v) (d : Dataset K (Option K)) (filename : String) :
    plotCommand true parse toml d filename (os.map SetOption.typed) = .error .valueError := by
  obtain ⟨config, hc, hdc, hfc⟩ := plotConfig_find hw hp hfile hsec
  have hn : config.hasNull = true := by
    by_contra h
    rw [Bool.not_eq_true, plotConfig_null hdc hfc] at h
    exact h ⟨k, v, hk, hv⟩
  unfold plotCommand
  rw [hc]
  simp [hn]

/-- C98: called with a file only, `plot_file` writes the name of the file above the plot. -/
theorem plot_file_title (d : Dataset K (Option K)) (filename : String) (args : PlotArgs K)
    (h : plotFile d none = .ok args) :
    plotFileWith d filename .nil = .ok ⟨args, .leaf "title" (.str filename) .nil⟩ := by
  unfold plotFileWith
  simp only [Doc.keys, List.not_mem_nil, if_false, Doc.find?, plotRowArgument, h, Doc.erase,
    Doc.setDefault, Doc.setItem]
  rw [if_pos (by simp only [plotKeywords, Doc.keys]; decide)]

/-- C98 is false for the title: the command always passes one, so that the name of the file
never has an effect. -/
theorem plot_ignores_name (verbose : Bool) (parse : List Char → Except Err (Leaf ⊕ Doc))
    (toml : Option (List Doc))
    (key : SetOption → String) (value : SetOption → Leaf) (os : List SetOption)
    (hw : ∀ o ∈ os, o.Keyword (key o)) (hp : ∀ o ∈ os, parse o.text = .ok (.inl (value o)))
    (hfile : ∀ docs, toml = some docs → ∃ c, Cfg.fromFile docs = .ok c)
    (hsec : PlotSection (toml.bind List.head?)) (d : Dataset K (Option K)) (f f' : String) :
    plotCommand verbose parse toml d f (os.map SetOption.typed) =
      plotCommand verbose parse toml d f' (os.map SetOption.typed) := by
  obtain ⟨config, hc, hdc, hfc⟩ := plotConfig_find hw hp hfile hsec
  have hset : ∀ f, (config.erase "row").setDefault "title" (.str f) = config.erase "row" := by
    intro f
    unfold Doc.setDefault
    rw [Doc.find?_erase hdc, if_neg (by decide), hfc]
    unfold plotSetting
    split <;> rename_i hs <;> split at hs <;> first | rfl | skip
    all_goals
      exfalso
      first
        | cases hs; done
        | exact absurd hs (by decide +kernel)
  unfold plotCommand plotFileWith
  simp only [hc, hset]

/-- A file of one row, two stacks, two times and one layer. -/
def exFile : Dataset ℚ (Option ℚ) where
  times := [0, 100]
  dims l := if l = "row" then some 1 else if l = "column" then some 2
    else if l = "node" then some 12 else if l = "cell" then some 2 else none
  xOf l := if l = "cell" then some [some 50, some 150] else none
  yOf _ := none
  vars x := if x = ("row", "x_of_shore") then some fun i => some [some (10 * (i + 1) : ℕ)]
    else if x = ("row", "x_of_shelf_edge") then some fun _ => some [none]
    else if x = ("node", "bedrock_surface__elevation") then
      some fun _ => some (List.replicate 12 (some 1))
    else none
  layerDim := 1
  layerVars n := if n = "thickness" then some fun _ => some [some 2, some 3]
    else if n = "age" then some fun _ => some [some 50, some 50] else none

/-- What is drawn of it. -/
def exFileArgs : PlotArgs ℚ := ⟨[[some 3, some 4]], [some 50, some 150], [some 15], [none]⟩

theorem exFile_plot : plotFile exFile none = .ok exFileArgs ∧
    plotFile exFile (some 0) = .ok exFileArgs := by
  have h1 : (plotFile exFile none).toOption = some exFileArgs := by decide +kernel
  have h2 : (plotFile exFile (some 0)).toOption = some exFileArgs := by decide +kernel
  constructor
  · cases h : plotFile exFile none with
    | error e => rw [h] at h1; cases h1
    | ok a => rw [h] at h1; exact congrArg _ (Option.some.inj h1)
  · cases h : plotFile exFile (some 0) with
    | error e => rw [h] at h2; cases h2
    | ok a => rw [h] at h2; exact congrArg _ (Option.some.inj h2)

/-- A reader of numbers and words. -/
def exParse (s : List Char) : Except Err (Leaf ⊕ Doc) :=
  if s = "0".toList then .ok (.inl (.num 0))
  else if s = "9".toList then .ok (.inl (.num 9)) else .ok (.inl (.str (String.ofList s)))

/-- A configuration file with a section `plot`. -/
def exToml : List Doc :=
  [.leaf "_time" (.num 0) (.sub "plot" (.leaf "n_layers" (.num 7) (.leaf "title" (.str "delta") .nil))
    .nil), .sub "plot" (.leaf "n_layers" (.num 8) .nil) .nil]

/-- The hypotheses of `plot_options_partial`, for `-S n_layers=9 -S row=0 -S color_land=red`. -/
example : ∃ kwds, plotCommand false exParse (some exToml) exFile "out.nc"
      ["n_layers=9".toList, "row=0".toList, "color_land=red".toList] = .ok ⟨exFileArgs, kwds⟩ ∧
    valueAt kwds ["n_layers"] = some (.num 9) ∧ valueAt kwds ["title"] = some (.str "delta") ∧
    valueAt kwds ["color_land"] = some (.str "red") ∧
    valueAt kwds ["layer_stop"] = some (.num (-1)) ∧ valueAt kwds ["row"] = none := by
  obtain ⟨kwds, h1, h2⟩ := plot_options_partial false exParse (some exToml)
    (fun o => o.path.headD "") (fun o => if o.text = "0".toList then .num 0
      else if o.text = "9".toList then .num 9 else .str (String.ofList o.text))
    [⟨["n_layers"], "9".toList⟩, ⟨["row"], "0".toList⟩, ⟨["color_land"], "red".toList⟩]
    (by simp only [SetOption.Keyword]; decide +kernel)
    (by intro o _; unfold exParse; split_ifs <;> rfl)
    (by rintro _ ⟨⟩; exact ⟨_, rfl⟩)
    (by
      rintro _ ⟨⟩
      refine ⟨by simp only [DistinctKeys]; decide, by simp [NoTuples], .inr ⟨_, rfl, ?_⟩⟩
      simp [OnlyValues])
    (by decide +kernel)
    (by
      rintro _ ⟨⟩ k v hv
      rw [valueAt_cons] at hv
      simp only [Doc.find?, if_true, if_neg (by decide : "_time" ≠ "plot")] at hv
      rw [valueAt_single] at hv
      simp only [Doc.find?] at hv
      by_cases a : "n_layers" = k
      · subst a; decide +kernel
      · by_cases b : "title" = k
        · subst b; decide +kernel
        · simp [a, b] at hv)
    (some 0) (.inl (by decide +kernel)) (by simp) exFile "out.nc"
  rw [exFile_plot.2] at h1
  refine ⟨kwds, h1, ?_, ?_, ?_, ?_, ?_⟩ <;> rw [h2] <;> decide +kernel

/-- An option for something that cannot be set. -/
example : (plotCommand false exParse none exFile "out.nc" ["nlayers=9".toList]).toOption.isNone ∧
    (plotCommand false exParse none exFile "out.nc" ["n_layers=9".toList]).toOption.isSome := by
  decide +kernel

/-- `-S row=null`, without and with `--verbose`, and `--verbose` without nulls. -/
example : (plotCommand false (fun _ => .ok (.inl .none)) none exFile "out.nc"
      ["row=null".toList]).toOption.isSome ∧
    plotCommand true (fun _ => .ok (.inl .none)) none exFile "out.nc" ["row=null".toList] =
      .error .valueError ∧
    (plotCommand true exParse none exFile "out.nc" ["n_layers=9".toList]).toOption.isSome := by
  refine ⟨by decide +kernel, ?_, by decide +kernel⟩
  exact plot_verbose_null (fun _ => .ok (.inl .none)) none (fun o => o.path.headD "") (fun _ => .none)
    [⟨["row"], "null".toList⟩] (by simp only [SetOption.Keyword]; decide +kernel) (fun _ _ => rfl)
    (by simp) (by simp [PlotSection]) "row" .none (by decide +kernel) .here exFile "out.nc"

/-- The title of a plot of the command, and of the function. -/
example : (plotCommand false exParse none exFile "out.nc" []).toOption.bind
      (fun c => valueAt c.kwds ["title"]) = some (.str "") ∧
    (plotFileWith exFile "out.nc" .nil).toOption.bind
      (fun c => valueAt c.kwds ["title"]) = some (.str "out.nc") := by
  decide +kernel

end Verif.Props
