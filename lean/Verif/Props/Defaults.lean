import Verif.Lemmas.CliNulls
import Verif.Model.Defaults
import Verif.Props.Accepted
import Verif.Props.Cli
import Verif.Props.Shoreline

/-! # C115, C116: what `sequence setup` and `sequence generate` write can be run -/

set_option autoImplicit false
set_option linter.unusedSectionVars false

namespace Verif.Props

open Spec

variable {K : Type} [Field K] [LinearOrder K] [IsStrictOrderedRing K]

/-! ### The default configuration -/

/-- What is read from the `sequence.toml` that `sequence setup` writes without options. -/
def freshDoc : Doc := (freshToml defaultParams).tomlBack

/-- What is taken for granted about the outside world: the two files with tables are read as what
was written to them, the packages `compaction` and `landlab` know the parameters of the default
configuration, and scipy's interpolation of at least four points goes through them. -/
structure UsualWorld (ext : Externals K) (kind : InterpKind K) (xtol rtol : K) : Prop where
  bathymetry : ext.readCurve "bathymetry.csv" "linear" = tableCurve bathymetryTable
  subsidence : ext.readCurve "subsidence.csv" "linear" = tableCurve subsidenceTable
  compact : ∀ k ∈ ["c", "porosity_max", "porosity_min", "rho_grain", "rho_void"],
    k ∈ ext.passedOn "Compact"
  flexure : ∀ k ∈ ["method", "rho_mantle"], k ∈ ext.passedOn "SedimentFlexure"
  solver : ∀ R C params, (ext.env R C params).kind = kind ∧ (ext.env R C params).xtol = xtol ∧
    (ext.env R C params).rtol = rtol
  interpolation : ∀ t : List (K × K), (t.map Prod.fst).Pairwise (· < ·) → 4 ≤ t.length →
    ∃ f, Interpolates kind t f
  xtol : 1000 < xtol * 2 ^ 100
  rtol : 0 ≤ rtol

theorem freshDoc_rightKind : RightKind freshDoc := by
  refine rightKind_of (s0 := [1, 100]) (g0 := [1, 1000]) (names := allProcessNames)
    (by decide +kernel) ⟨.inl (.inr (.inl (by decide +kernel))), .inl (.inr (.inl
      (by decide +kernel)))⟩ ?_ (by decide +kernel)
  rintro rows cols dx (⟨c, x, h, -⟩ | ⟨r, c, y, x, h, -, rfl, rfl, -⟩)
  · cases h
  · cases h
    norm_num

theorem freshDoc_processes : freshDoc.find? "processes" =
    some (.inl (.list (allProcessNames.map Leaf.str))) := by decide +kernel

theorem freshDoc_distinct : DistinctKeys freshDoc := by
  simp [freshDoc, freshToml, defaultParams, Doc.updateWith, Doc.setItem, Doc.tomlBack, DistinctKeys,
    Doc.keys]

theorem freshDoc_noTuples : NoTuples freshDoc := by
  simp [freshDoc, freshToml, defaultParams, Doc.updateWith, Doc.setItem, Doc.tomlBack, NoTuples,
    Leaf.tomlBack]

/-- The processes that run. -/
def freshNames : List String := allProcessNames ++ ["shoreline"]

theorem freshDoc_enabled {name : String} (h : Enabled freshDoc name) : name ∈ freshNames := by
  rcases h with h | ⟨xs, h, hx⟩ | ⟨h, -⟩
  · simp only [List.mem_cons, List.not_mem_nil, or_false] at h
    rcases h with rfl | rfl <;> decide
  · rw [freshDoc_processes] at h
    cases h
    obtain ⟨s, hs, he⟩ := List.mem_map.mp hx
    cases he
    exact List.mem_append_left _ hs
  · exact absurd h (by decide +kernel)

/-- The parameters that are set in the sections of processes. -/
def freshKeys : List (String × String) :=
  ((allEntries freshDoc).filter fun t => t.1 ∈ freshNames).map fun t => (t.1, t.2.1)

theorem freshDoc_setting {name key : String} {v : PyValue} (hn : name ∈ freshNames)
    (h : IsSetting freshDoc name key (some v)) :
    (name, key, v) ∈ allEntries freshDoc ∨
      (name, key) ∈ [("fluvial", "sediment_load"), ("fluvial", "plain_slope"),
        ("shoreline", "alpha")] ∧ ("submarine_diffusion", key, v) ∈ allEntries freshDoc := by
  rcases h with ⟨-, h⟩ | ⟨hnone, other, ⟨keys, hk, hkey, -⟩, h⟩ | ⟨-, -, h⟩
  · exact .inl (mem_allEntries h.symm)
  · have hm := mem_allEntries h.symm
    have hall : ∀ q ∈ sharing, ∀ k ∈ q.2.2, q.1 ∈ freshNames →
        entry freshDoc q.1 k = none → entry freshDoc q.2.1 k ≠ none →
        (q.1, k) ∈ [("fluvial", "sediment_load"), ("fluvial", "plain_slope"),
          ("shoreline", "alpha")] ∧ q.2.1 = "submarine_diffusion" := by decide +kernel
    obtain ⟨h1, h2⟩ := hall _ hk key hkey hn hnone (by rw [← h]; simp)
    dsimp only at h1 h2
    subst h2
    exact .inr ⟨h1, hm⟩
  · cases h

theorem freshDoc_takes {ext : Externals K} {kind : InterpKind K} {xtol rtol : K}
    (hw : UsualWorld ext kind xtol rtol) {name key : String} {v : PyValue}
    (hn : name ∈ freshNames) (h : IsSetting freshDoc name key (some v)) :
    TakesParameter ext.passedOn freshDoc name key := by
  have hkeys : (name, key) ∈ (constructorArguments.flatMap fun q => q.2.map fun k => (q.1, k)) ∨
      (name = "compaction" ∧ key ∈ ["c", "porosity_max", "porosity_min", "rho_grain", "rho_void"]) ∨
      (name = "flexure" ∧ key ∈ ["method", "rho_mantle"]) := by
    rcases freshDoc_setting hn h with h | ⟨h, -⟩
    · have : ∀ t ∈ allEntries freshDoc, t.1 ∈ freshNames →
          (t.1, t.2.1) ∈ (constructorArguments.flatMap fun q => q.2.map fun k => (q.1, k)) ∨
          (t.1 = "compaction" ∧
            t.2.1 ∈ ["c", "porosity_max", "porosity_min", "rho_grain", "rho_void"]) ∨
          (t.1 = "flexure" ∧ t.2.1 ∈ ["method", "rho_mantle"]) := by decide +kernel
      exact this _ h hn
    · refine .inl ?_
      have : ∀ t ∈ [("fluvial", "sediment_load"), ("fluvial", "plain_slope"),
        ("shoreline", "alpha")],
        t ∈ (constructorArguments.flatMap fun q => q.2.map fun k => (q.1, k)) := by decide +kernel
      exact this _ h
  refine ⟨?_, ?_, ?_⟩
  · rcases hkeys with hk | ⟨rfl, hk⟩ | ⟨rfl, hk⟩
    · obtain ⟨q, hq, hm⟩ := List.mem_flatMap.mp hk
      obtain ⟨k, hk, he⟩ := List.mem_map.mp hm
      cases he
      exact .inl ⟨q, hq, rfl, hk⟩
    · exact .inr ⟨("compaction", "Compact"), by decide, rfl, hw.compact _ hk⟩
    · exact .inr ⟨("flexure", "SedimentFlexure"), by decide, rfl, hw.flexure _ hk⟩
  · rintro rfl - rfl
    rcases freshDoc_setting hn h with h | ⟨h, -⟩
    · have : ∀ t ∈ allEntries freshDoc, t.1 = "sea_level" → t.2.1 ≠ "kind" := by decide +kernel
      exact this _ h rfl rfl
    · revert h; decide
  · rintro rfl h
    exact absurd (by decide +kernel) h

/-- The initial surface: 20 m at the landward end, falling by 1 m from column to column. -/
def freshSurface : List K := List.ofFn fun c : Fin 100 => (20 - c.val : K)

theorem bathymetryTable_at {c : ℕ} (h : c < 100) :
    interpTable (bathymetryTable : List (K × K)) (c * 1000) = .ok (20 - c) := by
  have h' : (c : K) ≤ 100 := by exact_mod_cast h.le
  have h0 : (0 : K) ≤ c := Nat.cast_nonneg c
  unfold interpTable bathymetryTable
  simp only [List.head?_cons, List.getLast?_cons_cons, List.getLast?_singleton]
  rw [if_neg (by push Not; constructor <;> nlinarith), linearAt, if_pos (.inr rfl)]
  congr 1
  ring

theorem subsidenceTable_at {c : ℕ} (h : c < 100) :
    ∃ v, interpTable (subsidenceTable : List (K × K)) (c * 1000) = .ok v := by
  have h' : (c : K) ≤ 100 := by exact_mod_cast h.le
  have h0 : (0 : K) ≤ c := Nat.cast_nonneg c
  unfold interpTable
  simp only [subsidenceTable, List.head?_cons, List.getLast?_cons_cons, List.getLast?_singleton]
  rw [if_neg (by push Not; constructor <;> nlinarith)]
  exact ⟨_, rfl⟩

theorem freshDoc_components {ext : Externals K} {kind : InterpKind K} {xtol rtol : K}
    (hw : UsualWorld ext kind xtol rtol) {name : String} (hn : name ∈ freshNames) :
    ComponentFine ext freshDoc 100 1000 name := by
  have hnum : ∀ key, ∀ v, IsSetting freshDoc name key (some v) →
      (key = "plain_slope" ∨ key = "alpha" → v ≠ .inl (.num 0)) ∧
      (key ∈ ["water_density", "sand_density", "mud_density"] → name ≠ "flexure") ∧
      (∀ q, key = "isostasytime" → v = .inl (.num q) → q = 0) := by
    intro key v h
    have hall : ∀ t ∈ allEntries freshDoc,
        (t.2.1 = "plain_slope" ∨ t.2.1 = "alpha" → t.2.2 ≠ .inl (.num 0)) ∧
        (t.2.1 ∈ ["water_density", "sand_density", "mud_density"] → t.1 ≠ "flexure") ∧
        (t.2.1 = "isostasytime" → t.2.2 = .inl (.num 0)) := by decide +kernel
    rcases freshDoc_setting hn h with h | ⟨hm, h⟩
    · refine ⟨(hall _ h).1, (hall _ h).2.1, fun q hq hv => ?_⟩
      have := (hall _ h).2.2 hq
      rw [hv] at this
      cases this
      rfl
    · refine ⟨(hall _ h).1, fun _ hf => ?_, fun q hq hv => ?_⟩
      · subst hf; simp at hm
      · subst hq; simp at hm
  constructor
  · revert hn
    have : ∀ n ∈ freshNames, n ∈ knownProcesses := by decide
    exact this name
  · exact fun key v h => freshDoc_takes hw hn h
  · rintro rfl h
    exact absurd (by decide +kernel) h
  · rintro rfl
    refine ⟨interpTable subsidenceTable, ⟨"subsidence.csv", "linear", by decide +kernel,
      .inl ⟨by decide +kernel, rfl⟩, ?_⟩, fun c hc => subsidenceTable_at hc⟩
    rw [hw.subsidence, tableCurve, if_neg (by simp [subsidenceTable])]
  · exact fun _ h => (hnum _ _ h).1 (.inl rfl) rfl
  · exact fun _ h => (hnum _ _ h).1 (.inr rfl) rfl
  · exact fun hf key hk q h => absurd hf ((hnum _ _ h).2.1 hk)
  · intro _ q h
    rw [(hnum _ _ h).2.2 q rfl rfl]
    norm_num

theorem fresh_shore {kind : InterpKind K} {xtol rtol : K}
    (hint : ∀ t : List (K × K), (t.map Prod.fst).Pairwise (· < ·) → 4 ≤ t.length →
      ∃ f, Interpolates kind t f) (hx : 1000 < xtol * 2 ^ 100) (hr : 0 ≤ rtol)
    (n : ℕ) (hn : 21 < n) :
    ∃ shore, shorelineRow kind xtol rtol (List.ofFn fun c : Fin n => (c.val : K) * 1000)
      (List.ofFn fun c : Fin n => (20 - c.val : K)) 0 = .ok shore ∧
      20000 ≤ shore ∧ shore ≤ 21000 := by
  have hpos : 0 < xtol := by
    by_contra h
    push Not at h
    have : xtol * 2 ^ 100 ≤ 0 := mul_nonpos_of_nonpos_of_nonneg h (by positivity)
    linarith
  have hpw : (List.ofFn fun c : Fin n => (c.val : K) * 1000).Pairwise (· < ·) := by
    rw [List.pairwise_ofFn]
    intro i j hij
    have : (i.val : K) < j.val := by exact_mod_cast hij
    linarith
  have hz : (List.ofFn fun c : Fin n => (20 - c.val : K)).length = n := List.length_ofFn
  have hxl : (List.ofFn fun c : Fin n => (c.val : K) * 1000).length = n := List.length_ofFn
  obtain ⟨f, hf⟩ := hint (profileTable (List.ofFn fun c : Fin n => (c.val : K) * 1000)
    (List.ofFn fun c : Fin n => (20 - c.val : K)) 0) (by
      unfold profileTable
      rw [List.map_fst_zip (by rw [hxl, List.length_map, hz])]
      exact hpw) (by
      unfold profileTable
      rw [List.length_zip, List.length_map, hxl, hz]; omega)
  have h0 : (List.ofFn fun c : Fin n => (20 - c.val : K)).head? = some 20 := by
    rw [List.head?_eq_getElem?, List.getElem?_eq_getElem (by rw [hz]; omega), List.getElem_ofFn]
    simp
  obtain ⟨s, h1, h2, h3⟩ := shoreline_bracket_partial kind xtol rtol
    (List.ofFn fun c : Fin n => (c.val : K) * 1000) (List.ofFn fun c : Fin n => (20 - c.val : K))
    0 hpw (by rw [hxl, hz]) f hf hpos hr 20 h0 (by norm_num) 21 (by rw [hz]; exact hn)
    (by rw [List.getElem_ofFn]; norm_num)
    (by
      intro j hj hlt
      have : (j : K) ≤ 20 := by exact_mod_cast Nat.lt_succ_iff.mp hlt
      rw [List.getElem_ofFn]
      linarith)
    (by rw [List.getElem_ofFn, List.getElem_ofFn]; norm_num; linarith)
  rw [List.getElem_ofFn] at h2 h3
  norm_num at h2 h3
  exact ⟨s, h1, h2, h3⟩

theorem freshDoc_fine {ext : Externals K} {kind : InterpKind K} {xtol rtol : K}
    (hw : UsualWorld ext kind xtol rtol) {fs : FileSystem K (Option K)}
    (hfs : fs "sequence.nc" ≠ .dir) :
    Fine ext kind xtol rtol freshDoc fs 100 1000 freshSurface := by
  have hent : ∀ {P : String → PyValue → Prop} {sec : String},
      (∀ t ∈ allEntries freshDoc, t.1 = sec → P t.2.1 t.2.2) →
      ∀ key v, entry freshDoc sec key = some v → P key v :=
    fun h key v hv => h _ (mem_allEntries hv) rfl
  constructor
  · intro sec hsec
    have : ∀ sec ∈ ["grid", "bathymetry", "clock", "output"],
        ((prune freshDoc).find? sec).any Sum.isRight = true := by decide +kernel
    have := this sec hsec
    cases h : (prune freshDoc).find? sec with
    | none => rw [h] at this; cases this
    | some v =>
      rw [h] at this
      cases v with
      | inl v => cases this
      | inr s => exact ⟨s, rfl⟩
  · refine ⟨[1, 100], [1, 1000], 1, ⟨.inl (.inr (.inl (by decide +kernel))), .inl (.inr (.inl
      (by decide +kernel)))⟩, .inr ⟨1, 100, 1, 1000, rfl, rfl, ?_, ?_, ?_⟩⟩ <;> norm_num
  · exact hent (by decide +kernel)
  · refine ⟨interpTable bathymetryTable, ⟨"bathymetry.csv", "linear", by decide +kernel,
      .inr (by decide +kernel), ?_⟩, List.length_ofFn, ?_⟩
    · rw [hw.bathymetry, tableCurve, if_neg (by simp [bathymetryTable])]
    · intro c h
      rw [freshSurface, List.length_ofFn] at h
      rw [bathymetryTable_at h]
      exact congrArg Except.ok (List.getElem_ofFn (f := fun c : Fin 100 => (20 - c.val : K))
        (by rw [List.length_ofFn]; exact h)).symm
  · exact hent (by decide +kernel)
  · exact fun name h => freshDoc_components hw (freshDoc_enabled h)
  · intro name _
    refine hent (P := fun _ v => ¬ Null v) fun t ht _ => ?_
    have : ∀ t ∈ allEntries freshDoc, pyHasNull t.2.2 = false := by decide +kernel
    rw [← pyHasNull_iff, this t ht]
    simp
  · constructor
    · exact hent (by decide +kernel)
    · intro v hv
      have : entry freshDoc "output" "interval" = some (.inl (.num 10)) := by decide +kernel
      rw [this] at hv
      cases hv
      exact ⟨10, by norm_num⟩
    · refine ⟨"sequence.nc", by decide +kernel, hfs, fun _ => ⟨.inl (.num 1), by decide +kernel, ?_⟩⟩
      simp [Truthy, Falsy]
  · intro before after _ level h1 h2
    have hl : level = 0 := by
      by_cases hb : "submarine_diffusion" ∈ before
      · have : IsSetting freshDoc "submarine_diffusion" "sea_level" none := by
          refine .inr (.inr ⟨by decide +kernel, ?_, rfl⟩)
          rintro ⟨other, keys, hk, hkey, -⟩
          have : ∀ q ∈ sharing, "sea_level" ∉ q.2.2 := by decide
          exact this _ hk hkey
        rcases h2 hb _ this with ⟨-, h⟩ | ⟨q, h, -⟩
        · exact h
        · cases h
      · exact h1 hb
    subst hl
    obtain ⟨s, hs, -⟩ := fresh_shore hw.interpolation hw.xtol hw.rtol 100 (by norm_num)
    exact ⟨s, hs⟩

/-! ### Writing and reading -/

theorem find?_tomlBack (d : Doc) (k : String) :
    d.tomlBack.find? k = (d.find? k).map (Sum.map Leaf.tomlBack Doc.tomlBack) := by
  induction d with
  | nil => rfl
  | leaf a v r ih =>
    simp only [Doc.tomlBack, Doc.find?]
    split_ifs <;> simp [ih]
  | sub a s r _ ih =>
    simp only [Doc.tomlBack, Doc.find?]
    split_ifs <;> simp [ih]

theorem keys_tomlBack (d : Doc) : d.tomlBack.keys = d.keys := by
  induction d with
  | nil => rfl
  | leaf a v r ih => simp only [Doc.tomlBack, Doc.keys, ih]
  | sub a s r _ ih => simp only [Doc.tomlBack, Doc.keys, ih]

theorem distinct_tomlBack {d : Doc} (h : DistinctKeys d) : DistinctKeys d.tomlBack := by
  induction d with
  | nil => trivial
  | leaf a v r ih =>
    simp only [Doc.tomlBack, DistinctKeys, keys_tomlBack] at h ⊢
    exact ⟨h.1, ih h.2⟩
  | sub a s r ih1 ih2 =>
    simp only [Doc.tomlBack, DistinctKeys, keys_tomlBack] at h ⊢
    exact ⟨h.1, ih1 h.2.1, ih2 h.2.2⟩

theorem noTuples_tomlBack (d : Doc) : NoTuples d.tomlBack := by
  induction d with
  | nil => trivial
  | leaf a v r ih =>
    simp only [Doc.tomlBack, NoTuples]
    refine ⟨fun xs h => ?_, ih⟩
    cases v <;> simp [Leaf.tomlBack] at h
  | sub a s r ih1 ih2 => exact ⟨ih1, ih2⟩

theorem keys_updateGroups {cl d r : Doc} (h : updateGroups cl d = .ok r) : r.keys = d.keys := by
  induction d generalizing r with
  | nil => simp only [updateGroups, Except.ok.injEq] at h; subst h; rfl
  | leaf a v t _ => simp [updateGroups] at h
  | sub g s t _ ih =>
    rw [updateGroups] at h
    split at h
    · cases h
    split at h
    · cases h
    rename_i ht
    cases h
    simp only [Doc.keys, ih ht]

theorem distinct_updateGroups {cl d r : Doc} (hcl : DistinctKeys cl) (hd : DistinctKeys d)
    (h : updateGroups cl d = .ok r) : DistinctKeys r := by
  induction d generalizing r with
  | nil => simp only [updateGroups, Except.ok.injEq] at h; subst h; exact hd
  | leaf a v t _ => simp [updateGroups] at h
  | sub g s t _ ih =>
    rw [updateGroups] at h
    split at h
    · cases h
    rename_i hg
    split at h
    · cases h
    rename_i ht
    cases h
    obtain ⟨h1, h2, h3⟩ := hd
    refine ⟨by rwa [keys_updateGroups ht], ?_, ih h3 ht⟩
    unfold updateGroup at hg
    split at hg
    · cases hg; exact h2
    · rename_i hf
      cases hg
      exact Doc.distinct_updateWith h2 (distinct_sub hcl hf)
    · split at hg
      · cases hg
      cases hg
      exact Doc.distinct_updateWith h2 (distinct_ofPairs _)

theorem defaultParams_distinct : DistinctKeys defaultParams := by
  simp [defaultParams, DistinctKeys, Doc.keys]

theorem loadModelParams_distinct {parse : List Char → Except Err (Leaf ⊕ Doc)}
    (hparse : GivesDicts parse) {opts : List (List Char)} {params : Doc}
    (h : loadModelParams parse defaultParams opts = .ok params) :
    DistinctKeys params := by
  unfold loadModelParams at h
  split at h
  · cases h
  rename_i cl hcl
  exact distinct_updateGroups (loadParamsFromStrings_distinct hparse (params := .nil) trivial hcl)
    defaultParams_distinct h

/-- At most one key. -/
def OneKey (s : Doc) : Prop := ∃ k, ∀ k' ≠ k, s.find? k' = none

theorem oneKey_dotsToDict (names : List String) (v : Leaf ⊕ Doc) : OneKey (dotsToDict names v) := by
  cases names with
  | nil => exact ⟨"", fun _ _ => rfl⟩
  | cons a names =>
    refine ⟨a, fun k' hk => ?_⟩
    cases names with
    | nil => cases v <;> simp [dotsToDict, Doc.find?, Ne.symm hk]
    | cons b names => simp [dotsToDict, Doc.find?, Ne.symm hk]

theorem loadParams_oneKey {parse : List Char → Except Err (Leaf ⊕ Doc)} (hparse : GivesDicts parse)
    {opts : List (List Char)} (hopts : NamesParameters opts)
    {params r : Doc} (h : ∀ g v, params.find? g = some v → ∃ s, v = .inr s ∧ OneKey s)
    (hr : loadParamsFromStrings parse params opts = .ok r) :
    ∀ g v, r.find? g = some v → ∃ s, v = .inr s ∧ OneKey s := by
  induction opts generalizing params with
  | nil => simp only [loadParamsFromStrings, Except.ok.injEq] at hr; subst hr; exact h
  | cons o opts ih =>
    rw [loadParamsFromStrings.eq_def] at hr
    dsimp only at hr
    split at hr
    · rename_i name value hsplit
      cases hp : parse value with
      | error e => rw [hp] at hr; cases hr
      | ok v =>
        rw [hp] at hr
        refine ih (fun o' ho' => hopts o' (List.mem_cons_of_mem _ ho')) ?_ hr
        intro g w hg
        rw [Doc.find?_updateWith _ _ (distinct_dotsToDict' _ fun d hd =>
          hparse value d (by rw [hp, hd]))] at hg
        have hdot : '.' ∈ name := hopts o List.mem_cons_self name value (by
          have := intercalate_splitOn '=' o
          rw [hsplit] at this
          simpa [List.intercalate] using this.symm)
        have hlen : 2 ≤ (splitOn '.' name).length := by
          rw [length_splitOn]
          have := List.count_pos_iff.mpr hdot
          omega
        have hlen' : 2 ≤ (List.map String.ofList (splitOn '.' name)).length := by simpa using hlen
        generalize List.map String.ofList (splitOn '.' name) = names at hg hlen'
        cases hd : (dotsToDict names v).find? g with
        | none => rw [hd] at hg; exact h g w hg
        | some u =>
          rw [hd] at hg
          cases hg
          revert hd
          cases names with
          | nil => simp at hlen'
          | cons a names =>
            cases names with
            | nil => simp at hlen'
            | cons b names =>
              simp only [dotsToDict, Doc.find?]
              split_ifs
              · rintro ⟨⟩
                exact ⟨_, rfl, oneKey_dotsToDict _ _⟩
              · simp
    · cases hr

/-- Options for parameters change at most one parameter of a section of the default
configuration. -/
theorem loadModelParams_oneKey {parse : List Char → Except Err (Leaf ⊕ Doc)}
    (hparse : GivesDicts parse) {opts : List (List Char)} (hopts : NamesParameters opts)
    {params : Doc} (h : loadModelParams parse defaultParams opts = .ok params)
    {g : String} {s : Doc} (hg : defaultParams.find? g = some (.inr s)) :
    ∃ s', params.find? g = some (.inr s') ∧ ∃ k, ∀ k' ≠ k, s'.find? k' = s.find? k' := by
  unfold loadModelParams at h
  split at h
  · cases h
  rename_i cl hcl
  rcases find?_updateGroups h g with ⟨h1, -⟩ | ⟨s0, s', h1, h2, h3⟩
  · rw [h1] at hg; cases hg
  rw [h1] at hg
  cases hg
  refine ⟨s', h2, ?_⟩
  cases hf : cl.find? g with
  | none =>
    rw [hf] at h3
    cases h3
    exact ⟨"", fun _ _ => rfl⟩
  | some v =>
    obtain ⟨s1, rfl, k, hk⟩ := loadParams_oneKey hparse hopts (params := .nil)
      (by simp [Doc.find?]) hcl g _ hf
    rw [hf] at h3
    cases h3
    refine ⟨k, fun k' hne => ?_⟩
    rw [Doc.find?_updateWith _ _ (distinct_sub (loadParamsFromStrings_distinct hparse
      (params := .nil) trivial hcl) hf), hk k' hne]
    rfl

theorem hasTuple_leaf {d : Doc} {k : String} {v : Leaf} (h : d.find? k = some (.inl v))
    (hv : v.hasTuple = true) : d.hasTuple = true := by
  induction d with
  | nil => cases h
  | leaf a w r ih =>
    rw [Doc.find?] at h
    rw [Doc.hasTuple, Bool.or_eq_true]
    split_ifs at h
    · cases h; exact .inl hv
    · exact .inr (ih h)
  | sub a w r _ ih =>
    rw [Doc.find?] at h
    rw [Doc.hasTuple, Bool.or_eq_true]
    split_ifs at h
    · cases h
    · exact .inr (ih h)

theorem hasTuple_sub {d s : Doc} {k : String} (h : d.find? k = some (.inr s))
    (hs : s.hasTuple = true) : d.hasTuple = true := by
  induction d with
  | nil => cases h
  | leaf a w r ih =>
    rw [Doc.find?] at h
    rw [Doc.hasTuple, Bool.or_eq_true]
    split_ifs at h
    · cases h
    · exact .inr (ih h)
  | sub a w r _ ih =>
    rw [Doc.find?] at h
    rw [Doc.hasTuple, Bool.or_eq_true]
    split_ifs at h
    · cases h; exact .inl hs
    · exact .inr (ih h)

/-! ### C116 -/

/-- C116, false of yaml: with options for parameters, such as `grid.shape=[1,50]`, the
`sequence.yaml` that `sequence generate` prints cannot be read. -/
theorem generate_yaml_unreadable {parse : List Char → Except Err (Leaf ⊕ Doc)}
    (hparse : GivesDicts parse) {opts : List (List Char)} (hopts : NamesParameters opts)
    {params : Doc} (h : loadModelParams parse defaultParams opts = .ok params) :
    ∃ e, params.yamlBack = .error e := by
  obtain ⟨s', h1, k, hk⟩ := loadModelParams_oneKey hparse hopts (g := "grid") h rfl
  have hs : s'.hasTuple = true := by
    by_cases hsh : k = "shape"
    · refine hasTuple_leaf (k := "spacing") (v := .tup [.num 1, .num 1000]) ?_ rfl
      rw [hk _ (by rw [hsh]; decide)]
      rfl
    · refine hasTuple_leaf (k := "shape") (v := .tup [.num 1, .num 100]) ?_ rfl
      rw [hk _ (Ne.symm hsh)]
      rfl
  exact ⟨.valueError, by rw [Doc.yamlBack, if_pos (hasTuple_sub h1 hs)]⟩

/-- Options with a path of two or more names are for parameters. -/
theorem namesParameters_typed {options : List SetOption} (hw : ∀ o ∈ options, o.WellFormed) :
    NamesParameters (options.map SetOption.typed) := by
  intro t ht name value h
  obtain ⟨o, ho, rfl⟩ := List.mem_map.mp ht
  have h1 := splitOn_typed (hw o ho)
  have h2 := length_splitOn '=' o.typed
  rw [h1] at h2
  have h3 : '=' ∉ name := by
    intro hm
    have := List.count_pos_iff.mpr hm
    rw [h, List.count_append, List.count_cons_self] at h2
    simp at h2
    omega
  rw [h, splitOn_append h3, List.cons.injEq] at h1
  rw [h1.1]
  obtain ⟨hl, -⟩ := hw o ho
  match hp : o.path, hl with
  | a :: b :: r, _ => cases r <;> simp [List.intercalate]

theorem updateGroups_other {cl d : Doc} (hd : OnlyGroups d)
    (h : ∀ g, d.find? g ≠ none → cl.find? g = none) : updateGroups cl d = .ok d := by
  induction d with
  | nil => rfl
  | leaf => exact hd.elim
  | sub g s t _ ih =>
    rw [updateGroups, h g (by simp [Doc.find?]), ih hd fun g' hg' => h g' (by
      rw [Doc.find?]
      split_ifs
      · simp
      · exact hg')]
    rfl

/-- C116: an option for the whole section of the grid, such as
`--set "grid={shape: [1, 50], spacing: [1, 1000]}"`, gives a `sequence.yaml` that can be read. -/
theorem generate_yaml_section (parse : List Char → Except Err (Leaf ⊕ Doc))
    (text : List Char) (hno : '=' ∉ text) (r c dy dx : ℚ)
    (hp : parse text = .ok (.inr (.leaf "shape" (.list [.num r, .num c])
      (.leaf "spacing" (.list [.num dy, .num dx]) .nil)))) :
    ∃ params, loadModelParams parse defaultParams ["grid=".toList ++ text] = .ok params ∧
      params.yamlBack = .ok params ∧
      valueAt params ["grid", "shape"] = some (.list [.num r, .num c]) ∧
      valueAt params ["grid", "spacing"] = some (.list [.num dy, .num dx]) ∧
      ∀ g ≠ "grid", params.find? g = defaultParams.find? g := by
  have hs : splitOn '=' ("grid=".toList ++ text) = ["grid".toList, text] := by
    have : "grid=".toList ++ text = "grid".toList ++ '=' :: text := by simp
    rw [this, splitOn_append (by decide), splitOn_of_notMem hno]
  have hl : loadParamsFromStrings parse .nil ["grid=".toList ++ text] =
      .ok (.sub "grid" (.leaf "shape" (.list [.num r, .num c])
        (.leaf "spacing" (.list [.num dy, .num dx]) .nil)) .nil) := by
    simp only [loadParamsFromStrings, hs, hp]
    rfl
  obtain ⟨rest, hrest, hg, ht, hk⟩ : ∃ rest, defaultParams = .sub "grid"
        (.leaf "shape" (.tup [.num 1, .num 100]) (.leaf "spacing" (.tup [.num 1, .num 1000]) .nil))
        rest ∧ OnlyGroups rest ∧ rest.hasTuple = false ∧ rest.find? "grid" = none :=
    ⟨_, rfl, trivial, by decide +kernel, by decide +kernel⟩
  have hu := updateGroups_other (cl := .sub "grid" (.leaf "shape" (.list [.num r, .num c])
    (.leaf "spacing" (.list [.num dy, .num dx]) .nil)) .nil) hg (by
      intro g hg
      have : g ≠ "grid" := by rintro rfl; exact hg hk
      simp [Doc.find?, Ne.symm this])
  refine ⟨.sub "grid" (.leaf "shape" (.list [.num r, .num c])
    (.leaf "spacing" (.list [.num dy, .num dx]) .nil)) rest, ?_, ?_, rfl, rfl, fun g hg => ?_⟩
  · unfold loadModelParams
    rw [hl]
    dsimp only
    rw [hrest, updateGroups, hu]
    rfl
  · rw [Doc.yamlBack, Doc.hasTuple, ht]
    rfl
  · rw [hrest, Doc.find?, Doc.find?, if_neg (Ne.symm hg), if_neg (Ne.symm hg)]

/-- C116 and C120, false of null: with an option that is null no file can be generated. -/
theorem generate_null {parse : List Char → Except Err (Leaf ⊕ Doc)}
    {opts : List (List Char)}
    {params : Doc} (h : loadModelParams parse defaultParams opts = .ok params)
    (hnull : NullInDoc params) (render : Doc → String → String) (f : String) :
    contentsOfInputFile parse render defaultParams opts f = .error .valueError := by
  simp only [contentsOfInputFile, h, (docHasNull_iff _).mpr hnull, if_true]

/-- The dictionary behind `sequence.toml`. -/
theorem fresh_shape {parse : List Char → Except Err (Leaf ⊕ Doc)}
    (hparse : GivesDicts parse) {opts : List (List Char)}
    {params : Doc} (h : loadModelParams parse defaultParams opts = .ok params) :
    Readable (freshToml params).tomlBack ∧ DistinctKeys (freshToml params).tomlBack ∧
    NoTuples (freshToml params).tomlBack ∧
    (freshToml params).tomlBack.find? "processes" =
      some (.inl (.list (["sea_level", "subsidence", "compaction", "submarine_diffusion", "fluvial",
        "flexure"].map Leaf.str))) ∧
    ∀ sec s, params.find? sec = some (.inr s) →
      (freshToml params).tomlBack.find? sec = some (.inr s.tomlBack) := by
  have hd := loadModelParams_distinct hparse h
  have hno : ∀ k, k = "_time" ∨ k = "processes" → params.find? k = none := by
    intro k hk
    unfold loadModelParams at h
    split at h
    · cases h
    rcases find?_updateGroups h k with ⟨-, h1⟩ | ⟨s0, s', h1, -⟩
    · exact h1
    · rcases hk with rfl | rfl <;> cases h1
  refine ⟨?_, distinct_tomlBack (Doc.distinct_updateWith (by simp [DistinctKeys, Doc.keys]) hd),
    noTuples_tomlBack _, ?_, ?_⟩
  · intro v hv
    rw [find?_tomlBack, freshToml, Doc.find?_updateWith _ _ hd, hno _ (.inl rfl)] at hv
    cases hv
    exact ⟨0, rfl⟩
  · rw [find?_tomlBack, freshToml, Doc.find?_updateWith _ _ hd, hno _ (.inr rfl)]
    rfl
  · intro sec s hs
    rw [find?_tomlBack, freshToml, Doc.find?_updateWith _ _ hd, hs]
    rfl

/-- C116, partial: if no option is null, the files are generated, and the `sequence.toml` that
`sequence generate` prints holds the parameters, the names of the usual processes and the time 0,
with lists for tuples. Missing: yaml and null (previous theorems). -/
theorem generate_toml_partial {parse : List Char → Except Err (Leaf ⊕ Doc)}
    (hparse : GivesDicts parse) {opts : List (List Char)}
    {params : Doc} (h : loadModelParams parse defaultParams opts = .ok params)
    (hnull : ¬ NullInDoc params) :
    (∀ render f, contentsOfInputFile parse render defaultParams opts f =
      .ok (params, render params f)) ∧
    Readable (freshToml params).tomlBack ∧ DistinctKeys (freshToml params).tomlBack ∧
    NoTuples (freshToml params).tomlBack ∧
    (freshToml params).tomlBack.find? "processes" =
      some (.inl (.list (["sea_level", "subsidence", "compaction", "submarine_diffusion", "fluvial",
        "flexure"].map Leaf.str))) ∧
    ∀ sec s, params.find? sec = some (.inr s) →
      (freshToml params).tomlBack.find? sec = some (.inr s.tomlBack) := by
  exact ⟨fun render f => by
    simp only [contentsOfInputFile, h, (noNull_iff _).mpr hnull, Bool.false_eq_true, if_false],
    fresh_shape hparse h⟩

example : ∃ params, loadModelParams (fun _ => .ok (.inl (.list [.num 1, .num 50]))) defaultParams
    ["grid.shape=[1,50]".toList] = .ok params ∧
    entry (freshToml params).tomlBack "grid" "shape" = some (.inl (.list [.num 1, .num 50])) ∧
    entry (freshToml params).tomlBack "grid" "spacing" =
      some (.inl (.list [.num 1, .num 1000])) := by
  have hq : ((loadModelParams (fun _ => .ok (.inl (.list [.num 1, .num 50]))) defaultParams
      ["grid.shape=[1,50]".toList]).toOption.map fun p =>
        (entry (freshToml p).tomlBack "grid" "shape",
          entry (freshToml p).tomlBack "grid" "spacing")) =
      some (some (.inl (.list [.num 1, .num 50])), some (.inl (.list [.num 1, .num 1000]))) := by
    decide +kernel
  cases h : loadModelParams (fun _ => .ok (.inl (.list [.num 1, .num 50]))) defaultParams
      ["grid.shape=[1,50]".toList] with
  | error e => rw [h] at hq; cases hq
  | ok params =>
    rw [h] at hq
    simp only [Except.toOption, Option.map_some, Option.some.injEq, Prod.mk.injEq] at hq
    exact ⟨params, rfl, hq.1, hq.2⟩

/-! ### C115 -/

/-- The only configuration file is found, with time 0. -/
theorem findConfigFiles_fresh {entries : List (List Char)} (hn : entries.Nodup)
    (hm : "sequence.toml".toList ∈ entries)
    (ho : ∀ n ∈ entries, "sequence".toList <+: n → ".toml".toList <:+ n →
      n = "sequence.toml".toList) :
    findConfigFiles entries = ([0], ["sequence.toml".toList]) := by
  have hg : globSequence ".toml" entries = ["sequence.toml".toList] := by
    have h1 : ∀ n ∈ globSequence ".toml" entries, n = "sequence.toml".toList := by
      intro n h
      unfold globSequence at h
      rw [List.mem_filter, Bool.and_eq_true, List.isPrefixOf_iff_prefix,
        List.isSuffixOf_iff_suffix] at h
      exact ho n h.1 h.2.1 h.2.2
    have h2 : "sequence.toml".toList ∈ globSequence ".toml" entries :=
      List.mem_filter.mpr ⟨hm, by decide⟩
    have h3 : (globSequence ".toml" entries).Nodup := hn.filter _
    cases hl : globSequence ".toml" entries with
    | nil => rw [hl] at h2; cases h2
    | cons a l =>
      rw [hl] at h1 h3
      have ha := h1 a (by simp)
      cases l with
      | nil => rw [ha]
      | cons b l =>
        have hb := h1 b (by simp)
        rw [ha, hb] at h3
        simp at h3
  unfold findConfigFiles
  rw [hg]
  simp only [List.isEmpty_cons, Bool.false_eq_true, if_false]
  decide +kernel

/-- What `sequence run` reads after `sequence setup`. -/
theorem fresh_files {parse : List Char → Except Err (Leaf ⊕ Doc)} (hparse : GivesDicts parse)
    {render : Doc → String → String} {readDocs : String → List Doc}
    {opts : List (List Char)} {params : Doc}
    (htoml : readDocs (render params "sequence.toml" ++ "\n") = [(freshToml params).tomlBack])
    (hparams : loadModelParams parse defaultParams opts = .ok params) (hnull : ¬ NullInDoc params)
    {dir : PyDict String String}
    (hfree : ∀ f ∈ ["bathymetry.csv", "sequence.toml", "sealevel.csv", "subsidence.csv"],
      dir.get? f = none)
    (hother : ∀ f, dir.get? f ≠ none → "sequence".toList <+: f.toList →
      ¬ ".toml".toList <:+ f.toList)
    {entries : List (List Char)} (hnodup : entries.Nodup)
    (hentries : ∀ n, n ∈ entries ↔
      (setup parse render opts defaultParams dir).1.get? (String.ofList n) ≠ none) :
    (setup parse render opts defaultParams dir).2 = .ok () ∧ (findConfigFiles entries).1 = [0] ∧
    (findConfigFiles entries).2.map (fun n =>
      readDocs (((setup parse render opts defaultParams dir).1.get? (String.ofList n)).getD "")) =
      [[(freshToml params).tomlBack]] := by
  obtain ⟨hok, hget⟩ := (setup_partial parse hparse render opts defaultParams dir).2 hfree _ hparams hnull
  have hfiles : findConfigFiles entries = ([0], ["sequence.toml".toList]) := by
    refine findConfigFiles_fresh hnodup ?_ ?_
    · rw [hentries, hget, String.ofList_toList, if_pos (by simp)]
      simp
    · intro n hn h1 h2
      rw [hentries, hget] at hn
      have hn' : (String.ofList n).toList = n := String.toList_ofList
      split_ifs at hn with hf
      · simp only [List.mem_cons, List.not_mem_nil, or_false] at hf
        rcases hf with hf | hf | hf | hf
        · rw [← hn', hf] at h1; exact absurd h1 (by decide)
        · rw [← hn', hf]
        · rw [← hn', hf] at h1; exact absurd h1 (by decide)
        · rw [← hn', hf] at h1; exact absurd h1 (by decide)
      · have hno := hother _ hn
        rw [hn'] at hno
        exact absurd h2 (hno h1)
  refine ⟨hok, by rw [hfiles], ?_⟩
  rw [hfiles]
  simp only [List.map_cons, List.map_nil]
  rw [hget, String.ofList_toList, if_pos (by simp), Option.getD_some, htoml]

/-- C115: after `sequence setup` with options, in a directory without its files and without other
configuration files, `sequence run` accepts the simulation exactly if the configuration with the
options is fine in the sense of C114. `entries` are the names in the directory afterwards, and
reading a toml file gives what has been written to it. -/
theorem setup_options_run {ext : Externals K} {kind : InterpKind K} {xtol rtol : K}
    (hsolver : ∀ R C params, (ext.env R C params).kind = kind ∧ (ext.env R C params).xtol = xtol ∧
      (ext.env R C params).rtol = rtol) (parse : List Char → Except Err (Leaf ⊕ Doc))
    (hparse : GivesDicts parse)
    (render : Doc → String → String) (readDocs : String → List Doc)
    (opts : List (List Char)) (params : Doc)
    (htoml : readDocs (render params "sequence.toml" ++ "\n") = [(freshToml params).tomlBack])
    (hparams : loadModelParams parse defaultParams opts = .ok params) (hnull : ¬ NullInDoc params)
    (hrk : RightKind (freshToml params).tomlBack) (dir : PyDict String String)
    (hfree : ∀ f ∈ ["bathymetry.csv", "sequence.toml", "sealevel.csv", "subsidence.csv"],
      dir.get? f = none)
    (hother : ∀ f, dir.get? f ≠ none → "sequence".toList <+: f.toList →
      ¬ ".toml".toList <:+ f.toList)
    (entries : List (List Char)) (hnodup : entries.Nodup)
    (hentries : ∀ n, n ∈ entries ↔
      (setup parse render opts defaultParams dir).1.get? (String.ofList n) ≠ none)
    (fs : FileSystem K (Option K)) :
    (∃ fs' m, runSetup ext (findConfigFiles entries).1 ((findConfigFiles entries).2.map fun n =>
        readDocs (((setup parse render opts defaultParams dir).1.get?
          (String.ofList n)).getD "")) fs = (fs', .ok m)) ↔
      ∃ cols dx zs, Fine ext kind xtol rtol (freshToml params).tomlBack fs cols dx zs := by
  obtain ⟨-, hfiles, hdocs⟩ := fresh_files hparse htoml hparams hnull hfree hother hnodup hentries
  obtain ⟨-, hr, hd, ht, -⟩ := generate_toml_partial hparse hparams hnull
  rw [hfiles, hdocs]
  exact setup_accepts_iff ext kind xtol rtol hsolver [0] (by simp) _
    (by
      intro f hf d hd
      simp only [List.mem_singleton] at hf
      subst hf
      simp only [List.mem_singleton] at hd
      subst hd
      exact hr) fs _ rfl hd ht hrk

/-- C115, partial: without options, what `sequence setup` writes is accepted: 600000 years in
steps of 100 years, with all six processes, on 98 columns of 1 km between two boundary columns.
Missing: options that lead to a configuration that is refused (the other theorems). -/
theorem setup_then_run_partial {ext : Externals K} {kind : InterpKind K} {xtol rtol : K}
    (hw : UsualWorld ext kind xtol rtol) (parse : List Char → Except Err (Leaf ⊕ Doc))
    (hparse : GivesDicts parse)
    (render : Doc → String → String) (readDocs : String → List Doc)
    (htoml : readDocs (render defaultParams "sequence.toml" ++ "\n") =
      [(freshToml defaultParams).tomlBack])
    (dir : PyDict String String)
    (hfree : ∀ f ∈ ["bathymetry.csv", "sequence.toml", "sealevel.csv", "subsidence.csv"],
      dir.get? f = none)
    (hother : ∀ f, dir.get? f ≠ none → "sequence".toList <+: f.toList →
      ¬ ".toml".toList <:+ f.toList)
    (entries : List (List Char)) (hnodup : entries.Nodup)
    (hentries : ∀ n, n ∈ entries ↔
      (setup parse render [] defaultParams dir).1.get? (String.ofList n) ≠ none)
    (fs : FileSystem K (Option K)) (hfs : fs "sequence.nc" ≠ .dir) :
    (setup parse render [] defaultParams dir).2 = .ok () ∧
    ∃ fs' m, runSetup ext (findConfigFiles entries).1 ((findConfigFiles entries).2.map fun n =>
        readDocs (((setup parse render [] defaultParams dir).1.get? (String.ofList n)).getD "")) fs =
          (fs', .ok m) ∧
      m.clock.start = 0 ∧ m.clock.stop = some 600000 ∧ m.clock.step = 100 ∧
      m.live.procs.map Process.name = ["sea_level", "subsidence", "compaction",
        "submarine_diffusion", "fluvial", "flexure", "shoreline"] ∧
      m.R = 1 ∧ m.C = 98 ∧ m.env.dx = 1000 ∧
      m.live.state.comps.2.1.filepath = "sequence.nc" ∧ m.live.state.comps.2.1.interval = 10 := by
  have hparams : loadModelParams parse defaultParams [] = .ok defaultParams := rfl
  have hnull : ¬ NullInDoc defaultParams := by
    rw [← noNull_iff]
    decide +kernel
  obtain ⟨hok, hfiles, hdocs⟩ := fresh_files hparse htoml hparams hnull hfree hother hnodup hentries
  refine ⟨hok, ?_⟩
  obtain ⟨fs', m, hm⟩ := (setup_options_run hw.solver parse hparse render readDocs [] _ htoml
    hparams hnull freshDoc_rightKind dir hfree hother entries hnodup hentries fs).mpr
      ⟨_, _, _, freshDoc_fine hw hfs⟩
  rw [hfiles, hdocs] at hm ⊢
  have hs : SetsUp ext [0] [[freshDoc]] fs freshDoc fs' m :=
    ⟨rfl, freshDoc_distinct, freshDoc_noTuples, hm⟩
  have hnum : ∀ {v : Option PyValue} {default x : K} {q : ℚ}, v = some (.inl (.num q)) →
      IsNumber v default x → x = q := by
    rintro v default x q rfl (⟨h, -⟩ | ⟨q', h, hx⟩)
    · cases h
    · cases h; exact hx
  obtain ⟨c1, c2, c3, -⟩ := setup_clock hs
  have hproc := (setup_processes hs).1 _ freshDoc_processes
  obtain ⟨⟨sizes, gaps, g1, g2, g3⟩, -⟩ := setup_grid hs
  obtain ⟨o1, o2, -⟩ := setup_output hs
  have c1 := hnum (q := 0) (by decide +kernel) c1
  have c3 := hnum (q := 100) (by decide +kernel) c3
  have hstop : entry freshDoc "clock" "stop" = some (.inl (.num 600000)) := by decide +kernel
  rw [hstop] at c2
  have hshape : entry freshDoc "grid" "shape" = some (.inl (.list ([1, 100].map Leaf.num))) := by
    decide +kernel
  have hspacing : entry freshDoc "grid" "spacing" =
      some (.inl (.list ([1, 1000].map Leaf.num))) := by
    decide +kernel
  have hsizes : sizes = [1, 100] := by
    rw [hshape] at g1
    rcases g1 with h | ⟨h, -⟩
    · exact isNumbers_unique h (.inr (.inl rfl))
    · cases h
  have hgaps : gaps = [1, 1000] := by
    rw [hspacing] at g2
    rcases g2 with h | ⟨h, -⟩
    · exact isNumbers_unique h (.inr (.inl rfl))
    · cases h
  subst hsizes hgaps
  have hgrid : m.R = 1 ∧ m.C + 2 = 100 ∧ m.env.dx = 1000 := by
    rcases g3 with ⟨_, _, h, -⟩ | ⟨r, c, y, x, h1, h2, h3, h4, h5⟩
    · cases h
    · cases h1
      cases h2
      exact ⟨by rw [h3]; norm_num, by rw [h4]; norm_num, by rw [h5]; norm_num⟩
  refine ⟨fs', m, hm, by rw [c1]; norm_num, ?_, by rw [c3]; norm_num, ?_, hgrid.1, by omega,
    hgrid.2.2, ?_, ?_⟩
  · rcases c2 with ⟨h, -⟩ | ⟨h, -⟩ | ⟨q, h, hq⟩
    · cases h
    · cases h
    · cases h
      rw [hq]
      norm_num
  · rw [hproc]; decide
  · have : entry freshDoc "output" "filepath" = some (.inl (.str "sequence.nc")) := by
      decide +kernel
    rw [this] at o1
    simp only [Option.some.injEq, Sum.inl.injEq, Leaf.str.injEq] at o1
    exact o1.symm
  · have : entry freshDoc "output" "interval" = some (.inl (.num 10)) := by decide +kernel
    rw [this] at o2
    rcases o2 with ⟨h, -⟩ | h
    · cases h
    · simp only [Option.some.injEq, Sum.inl.injEq, Leaf.num.injEq] at h
      exact_mod_cast h.symm

/-- C115, false of options that give the sea level in a file, such as
`--set sea_level.filepath=sealevel.csv`: `sequence run` never accepts what is written, because the
parameters of the sine stay in the section. -/
theorem sea_level_file_refused {parse : List Char → Except Err (Leaf ⊕ Doc)}
    (hparse : GivesDicts parse) {opts : List (List Char)} (hopts : NamesParameters opts)
    {params : Doc} (h : loadModelParams parse defaultParams opts = .ok params)
    (hfile : entry (freshToml params).tomlBack "sea_level" "filepath" ≠ none)
    (ext : Externals K) (times : List ℕ) (files : List (List Doc))
    (hfirst : files.flatten.head? = some (freshToml params).tomlBack)
    (fs fs' : FileSystem K (Option K)) (m : Ready K) :
    runSetup ext times files fs ≠ (fs', .ok m) := by
  intro hm
  obtain ⟨-, hd, ht, hp, hsec⟩ := fresh_shape hparse h
  have hs : SetsUp ext times files fs (freshToml params).tomlBack fs' m := ⟨hfirst, hd, ht, hm⟩
  have hamp : entry (freshToml params).tomlBack "sea_level" "amplitude" =
      some (.inl (.num 10)) := by
    obtain ⟨s', h1, k, hk⟩ := loadModelParams_oneKey hparse hopts (g := "sea_level") h rfl
    have h2 := hsec _ _ h1
    have hds := distinct_sub hd h2
    unfold entry at hfile ⊢
    rw [h2] at hfile ⊢
    dsimp only at hfile ⊢
    rw [Doc.find?_prune hds] at hfile ⊢
    have hkf : k = "filepath" := by
      by_contra hne
      have h3 := hk "filepath" (Ne.symm hne)
      have h4 : s'.tomlBack.find? "filepath" = none := by rw [find?_tomlBack, h3]; rfl
      exact hfile (by rw [h4])
    have h5 : s'.tomlBack.find? "amplitude" = some (.inl (.num 10)) := by
      rw [find?_tomlBack, hk "amplitude" (by rw [hkf]; decide)]; rfl
    rw [h5]
  have hproc := (setup_processes hs).1 _ hp
  have hmem : "sea_level" ∈ m.live.procs.map Process.name := by
    rw [hproc, mem_firstAppearances]; simp
  obtain ⟨p, hpm, hname⟩ := List.mem_map.mp hmem
  obtain ⟨cls, ps, hset, hcls, hk⟩ := (setup_components hs).2 p hpm
  rw [hname] at hset hcls hk
  have h1 := isSetting_own (hset "filepath") (by decide)
  have h2 := isSetting_own (hset "amplitude") (by decide)
  rw [hamp] at h2
  have : cls = "SeaLevelTimeSeries" := by
    unfold processClass at hcls
    simp only [String.reduceEq, if_false, if_true] at hcls
    split at hcls
    · rename_i hn
      rw [hn] at h1
      exact absurd h1.symm hfile
    · cases hcls; rfl
  subst this
  unfold Process.ofKwargs at hk
  simp only [if_true, bind_eq_ok] at hk
  obtain ⟨u, hu, -⟩ := hk
  have := checkKeywords_iff.mp ⟨u, hu⟩ _ _ h2
  revert this
  decide

/-! ### Examples -/

/-- A world in which the files are read and everything is linear. -/
def exUsual : Externals ℚ :=
  { exExt with
    readCurve := fun path _ =>
      if path = "bathymetry.csv" then tableCurve bathymetryTable
      else if path = "subsidence.csv" then tableCurve subsidenceTable
      else .error .osError
    passedOn := fun cls =>
      if cls = "Compact" then ["c", "porosity_max", "porosity_min", "rho_grain", "rho_void"]
      else if cls = "SedimentFlexure" then ["method", "rho_mantle"] else [] }

theorem exUsual_usual : UsualWorld exUsual linearKind (2/10^12) (1/10^15) where
  bathymetry := rfl
  subsidence := rfl
  compact := fun _ h => h
  flexure := fun _ h => h
  solver := fun _ _ _ => ⟨rfl, rfl, rfl⟩
  interpolation := fun t ht hl => ⟨_, linear_interpolates t (by omega) ht⟩
  xtol := by norm_num
  rtol := by norm_num

/-- C115: the hypotheses hold in an empty directory. -/
example : ∃ fs' m, runSetup exUsual [0] [[freshDoc]] (fun _ => .absent) = (fs', .ok m) ∧
    m.clock.stop = some 600000 := by
  obtain ⟨-, fs', m, h, -, h2, -⟩ := setup_then_run_partial exUsual_usual
    (fun _ => .error .valueError) (by rintro _ _ ⟨⟩) (fun _ name => name)
    (fun _ => [freshDoc]) rfl [] (fun _ _ => rfl) (by simp [PyDict.get?])
    (["bathymetry.csv", "sequence.toml", "sealevel.csv", "subsidence.csv"].map String.toList)
    (by decide) (by
      intro n
      rw [((setup_partial _ (by rintro _ _ ⟨⟩) _ [] defaultParams []).2 (fun _ _ => rfl) _ rfl
        (by rw [← noNull_iff]; decide +kernel)).2]
      have : n ∈ ["bathymetry.csv", "sequence.toml", "sealevel.csv", "subsidence.csv"].map
          String.toList ↔ String.ofList n ∈
            ["bathymetry.csv", "sequence.toml", "sealevel.csv", "subsidence.csv"] := by
        rw [List.mem_map]
        constructor
        · rintro ⟨f, hf, rfl⟩
          rwa [String.ofList_toList]
        · exact fun hf => ⟨_, hf, String.toList_ofList⟩
      rw [this]
      split_ifs with hf
      · simp [hf]
      · simp [hf, PyDict.get?]) (fun _ => .absent) (by simp)
  exact ⟨fs', m, h, h2⟩

/-- C115: options that meet the hypotheses of `sea_level_file_refused`. -/
example : ∃ params, loadModelParams (fun t => .ok (.inl (.str (String.ofList t)))) defaultParams
    ["sea_level.filepath=sealevel.csv".toList] = .ok params ∧
    entry (freshToml params).tomlBack "sea_level" "filepath" ≠ none ∧
    NamesParameters ["sea_level.filepath=sealevel.csv".toList] := by
  have hq : ((loadModelParams (fun t => .ok (.inl (.str (String.ofList t)))) defaultParams
      ["sea_level.filepath=sealevel.csv".toList]).toOption.map fun p =>
        decide (entry (freshToml p).tomlBack "sea_level" "filepath" ≠ none)) = some true := by
    decide +kernel
  cases h : loadModelParams (fun t => .ok (.inl (.str (String.ofList t)))) defaultParams
      ["sea_level.filepath=sealevel.csv".toList] with
  | error e => rw [h] at hq; cases hq
  | ok params =>
    rw [h] at hq
    simp only [Except.toOption, Option.map_some, Option.some.injEq, decide_eq_true_eq] at hq
    exact ⟨params, rfl, hq, namesParameters_typed
      (options := [⟨["sea_level", "filepath"], "sealevel.csv".toList⟩])
      (by unfold SetOption.WellFormed; decide)⟩

end Verif.Props
