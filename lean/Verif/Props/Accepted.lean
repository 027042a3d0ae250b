import Verif.Lemmas.Accepted
import Verif.Lemmas.Nulls

/-! # C114: which configurations are accepted -/

set_option autoImplicit false
set_option linter.unusedSectionVars false

namespace Verif.Props

open Spec

variable {K : Type} [Field K] [LinearOrder K] [IsStrictOrderedRing K]

/-! ### Parts -/

theorem withRequired_filter (l : List String) :
    withRequired l = l ++ ["fluvial", "shoreline"].filter fun n => n ∉ l := by
  unfold withRequired
  by_cases h1 : "fluvial" ∈ l <;> by_cases h2 : "shoreline" ∈ l <;>
    simp [h1, h2]

theorem processNames_order {d e : Doc} (hrk : RightKind d)
    (he : e.find? "processes" = (prune d).find? "processes") :
    ∃ names, processNames e = .ok names ∧ withRequired names = creationOrder d := by
  unfold processNames creationOrder
  rw [he]
  cases hp : (prune d).find? "processes" with
  | none => exact ⟨_, rfl, withRequired_filter _⟩
  | some v =>
    obtain ⟨names, rfl⟩ := hrk.processes v hp
    exact ⟨_, rfl, withRequired_filter _⟩

theorem sectionOf_of {d e : Doc} {sec : String} (he : e.find? sec = (prune d).find? sec) {s : Doc}
    (h : (prune d).find? sec = some (.inr s)) : sectionOf e sec = .ok s.items := by
  unfold sectionOf
  rw [he, h]

theorem sectionOf_section {d e : Doc} {sec : String} (he : e.find? sec = (prune d).find? sec)
    {g : Kwargs} (h : sectionOf e sec = .ok g) : ∃ s, (prune d).find? sec = some (.inr s) := by
  unfold sectionOf at h
  rw [he] at h
  split at h
  · cases h
  · cases h
  · rename_i s hs
    exact ⟨s, hs⟩

theorem isGrid_rat {sizes gaps : List ℚ} {rows cols : ℕ} {dx : K}
    (h : IsGrid sizes gaps rows cols dx) : ∃ dx' : ℚ, IsGrid sizes gaps rows cols dx' := by
  rcases h with ⟨c, x, h1, h2, h3, h4, -⟩ | ⟨r, c, y, x, h1, h2, h3, h4, -⟩
  · exact ⟨x, .inl ⟨c, x, h1, h2, h3, h4, (Rat.cast_id x).symm⟩⟩
  · exact ⟨x, .inr ⟨r, c, y, x, h1, h2, h3, h4, (Rat.cast_id x).symm⟩⟩

/-- The surface of a new world. -/
theorem loadBathymetry_iff {R C : ℕ} {ext : Externals K} {x : Fin C → K} {kwds : Kwargs}
    {w0 : World R C K} {w : World R C K} :
    loadBathymetry ext x kwds w0 = .ok w ↔
      (∀ k v, kwds.get? k = some v → k ∈ ["filepath", "kind"]) ∧
      ∃ path kind curve z, kwds.get? "filepath" = some (.inl (.str path)) ∧
        IsText (kwds.get? "kind") "linear" kind ∧ ext.readCurve path kind = .ok curve ∧
        curve.atColumns x = .ok z ∧ w = loadBedrock { w0 with topo := fun n => z n.2 } := by
  unfold loadBathymetry
  constructor
  · intro h
    simp only [bind_eq_ok] at h
    obtain ⟨u, h0, path, h1, kind, h2, curve, h3, w1, h4, h5⟩ := h
    unfold bathymetryStep at h4
    split at h4
    · cases h4
    rename_i z hz
    cases h4
    cases h5
    exact ⟨checkKeywords_iff.mp ⟨u, h0⟩, path, kind, curve, z, textArg_none h1, textArg_some h2, h3,
      hz, rfl⟩
  · rintro ⟨h0, path, kind, curve, z, h1, h2, h3, h4, rfl⟩
    obtain ⟨u, h0⟩ := checkKeywords_iff.mpr h0
    rw [h0, textArg_of h1, textArg_isText h2]
    simp only [bind, Except.bind]
    rw [h3]
    simp only [bathymetryStep, h4]

theorem loadClock_iff {kwds : Kwargs}
    (hn : ∀ key ∈ ["start", "step"], ∀ v, kwds.get? key = some v → ∃ q : ℚ, v = .inl (.num q))
    (hs : ∀ v, kwds.get? "stop" = some v → v = .inl .none ∨ ∃ q : ℚ, v = .inl (.num q)) :
    (∃ c : Clock K, loadClock kwds = .ok c) ↔
      ∀ k v, kwds.get? k = some v → k ∈ ["start", "stop", "step"] := by
  unfold loadClock
  constructor
  · rintro ⟨c, h⟩
    simp only [bind_eq_ok] at h
    obtain ⟨u, h0, -⟩ := h
    exact checkKeywords_iff.mp ⟨u, h0⟩
  · intro h0
    obtain ⟨u, h0⟩ := checkKeywords_iff.mpr h0
    obtain ⟨_, h1⟩ := floatArg_of (K := K) (default := 0) (hn "start" (by simp))
    obtain ⟨_, h2⟩ := stopArg_of (K := K) hs
    obtain ⟨_, h3⟩ := floatArg_of (K := K) (default := 1) (hn "step" (by simp))
    rw [h0, h1, h2, h3]
    exact ⟨_, rfl⟩

theorem fieldsArg_of {kwds : Kwargs} (h : ∀ v, kwds.get? "fields" = some v → v = .inl .none ∨
    ∃ names : List String, v = .inl (.list (names.map Leaf.str))) :
    ∃ l, fieldsArg kwds = .ok l := by
  unfold fieldsArg
  cases hv : kwds.get? "fields" with
  | none => exact ⟨_, rfl⟩
  | some v =>
    rcases h v hv with rfl | ⟨names, rfl⟩ <;> exact ⟨_, rfl⟩

theorem rowsArg_of {kwds : Kwargs} (h : ∀ v, kwds.get? "rows" = some v → v = .inl .none ∨
    ∃ qs, IsNumbers (some v) qs) : ∃ l, rowsArg kwds = .ok l := by
  unfold rowsArg
  cases hv : kwds.get? "rows" with
  | none => exact ⟨_, rfl⟩
  | some v =>
    rcases h v hv with rfl | ⟨qs, hq⟩
    · exact ⟨_, rfl⟩
    · have := pyToNumbers_of hq
      rcases v with v | v
      · cases v <;> first | exact ⟨_, rfl⟩ | (dsimp only; rw [this]; exact ⟨_, rfl⟩)
      · dsimp only; rw [this]; exact ⟨_, rfl⟩

/-- Which paths an output writer accepts. -/
theorem setFilepath_iff {A : Type} {clobber : Bool} {path : String} {fs : FileSystem K A} :
    (setFilepath clobber none path fs).2 = .ok () ↔
      fs path ≠ .dir ∧ ((fs path).isFile = true → clobber = true) := by
  unfold setFilepath
  split_ifs with h
  · constructor
    · intro h'; cases h'
    · rintro ⟨-, h2⟩
      exact absurd (h2 h.1) h.2
  · have h2 : (fs path).isFile = true → clobber = true := by
      intro hf
      by_contra hc
      exact h ⟨hf, hc⟩
    cases hp : fs path <;> simp_all

theorem interval_iff {v : PyValue} : (∃ n, checkInterval (K := K) (pyToInterval v) = .ok n) ↔
    ∃ n : ℕ, v = .inl (.num n) := by
  constructor
  · rintro ⟨n, h⟩
    unfold pyToInterval at h
    split at h
    · rename_i q
      split_ifs at h with hden
      · unfold checkInterval at h
        dsimp only at h
        split_ifs at h with hneg
        refine ⟨q.num.toNat, ?_⟩
        have h1 : ((q.num.toNat : ℕ) : ℤ) = q.num := Int.toNat_of_nonneg (by omega)
        have h2 : ((q.num.toNat : ℕ) : ℚ) = ((q.num.toNat : ℕ) : ℤ) := by push_cast; rfl
        rw [h2, h1, (Rat.den_eq_one_iff q).mp hden]
      · unfold checkInterval at h
        dsimp only at h
        split_ifs at h
    · cases h
  · rintro ⟨n, rfl⟩
    refine ⟨n, ?_⟩
    simp [pyToInterval, checkInterval]

theorem loadWriter_iff {kwds : Kwargs} {args : WriterArgs K} :
    loadWriter kwds = .ok args ↔
      (∀ k v, kwds.get? k = some v → k ∈ ["filepath", "interval", "fields", "clobber", "rows"]) ∧
      kwds.get? "filepath" = some (.inl (.str args.path)) ∧ fieldsArg kwds = .ok args.fields ∧
      args.interval = (kwds.get? "interval").elim (.int 1) pyToInterval ∧
      args.clobber = (kwds.get? "clobber").elim false pyTruth ∧ args.rows = rowsArg kwds := by
  unfold loadWriter
  simp only [bind_eq_ok]
  constructor
  · rintro ⟨u, h0, path, h1, fields, h2, h3⟩
    cases h3
    refine ⟨checkKeywords_iff.mp ⟨u, h0⟩, textArg_none h1, h2, ?_, ?_, rfl⟩
    · cases kwds.get? "interval" <;> rfl
    · cases kwds.get? "clobber" <;> rfl
  · rintro ⟨h0, h1, h2, h3, h4, h5⟩
    obtain ⟨u, h0⟩ := checkKeywords_iff.mpr h0
    refine ⟨u, h0, _, textArg_of h1, _, h2, ?_⟩
    obtain ⟨path, interval, fields, clobber, rows⟩ := args
    dsimp only at h3 h4 h5 ⊢
    rw [h3, h4, h5]
    cases kwds.get? "interval" <;> cases kwds.get? "clobber" <;> rfl

/-- What the output section needs. -/
theorem output_iff {d : Doc} {kwds : Kwargs} (hk : ∀ key, kwds.get? key = entry d "output" key)
    (hrk : RightKind d) (R : ℕ) (fs : FileSystem K (Option K)) :
    (∃ (args : WriterArgs K) (rows : Option (List ℤ)) (fs' : FileSystem K (Option K))
        (wr : Writer K), loadWriter kwds = .ok args ∧
        args.rows = .ok rows ∧ writerInit R args.path args.interval args.fields args.clobber rows fs =
          (fs', .ok wr)) ↔ OutputFine d fs := by
  constructor
  · rintro ⟨args, rows, fs', wr, h1, -, h3⟩
    obtain ⟨h0, hp, -, hi, hc, -⟩ := loadWriter_iff.mp h1
    rw [hk] at hp hi hc
    unfold writerInit at h3
    split at h3
    · cases h3
    rename_i n hn
    have hset : (setFilepath args.clobber none args.path fs).2 = .ok () := by
      split at h3
      · cases h3
      · rename_i u hu
        rw [hu]
    obtain ⟨g1, g2⟩ := setFilepath_iff.mp hset
    refine ⟨fun key v hv => h0 key v (by rw [hk]; exact hv), ?_, args.path, hp, g1, fun hf => ?_⟩
    · intro v hv
      rw [hi, hv] at hn
      exact interval_iff.mp ⟨n, hn⟩
    · have := g2 hf
      rw [hc] at this
      cases hv : entry d "output" "clobber" with
      | none => rw [hv] at this; cases this
      | some v =>
        rw [hv] at this
        exact ⟨v, rfl, pyTruth_iff.mp this⟩
  · rintro ⟨h0, h1, path, h2, h3, h4⟩
    obtain ⟨fields, hf⟩ := fieldsArg_of (kwds := kwds) fun v hv => hrk.fields v (by rw [← hk]; exact hv)
    obtain ⟨rows, hr⟩ := rowsArg_of (kwds := kwds) fun v hv => hrk.rows v (by rw [← hk]; exact hv)
    have hset : (setFilepath ((kwds.get? "clobber").elim false pyTruth) none path fs).2 = .ok () := by
      refine setFilepath_iff.mpr ⟨h3, fun hfile => ?_⟩
      obtain ⟨v, hv, ht⟩ := h4 hfile
      rw [hk, hv]
      exact pyTruth_iff.mpr ht
    have hint : ∃ n, checkInterval (K := K) ((kwds.get? "interval").elim (.int 1) pyToInterval) =
        .ok n := by
      rw [hk]
      cases hv : entry d "output" "interval" with
      | none => exact ⟨1, rfl⟩
      | some v => exact interval_iff.mpr (h1 v hv)
    obtain ⟨n, hn⟩ := hint
    refine ⟨⟨path, (kwds.get? "interval").elim (.int 1) pyToInterval, fields,
      (kwds.get? "clobber").elim false pyTruth, rowsArg kwds⟩, rows,
      (setFilepath ((kwds.get? "clobber").elim false pyTruth) none path fs).1.2,
      ?_, loadWriter_iff.mpr ⟨fun key v hv => h0 key v (by rw [← hk]; exact hv), by rw [hk]; exact h2,
        hf, rfl, rfl, rfl⟩, hr, ?_⟩
    rotate_left
    · unfold writerInit
      dsimp only
      rw [hn]
      dsimp only
      cases hsf : setFilepath ((kwds.get? "clobber").elim false pyTruth) none path fs with
      | mk a b =>
        rw [hsf] at hset
        dsimp only at hset
        subst hset
        rfl

theorem loadFiles_flatten {files : List (List Doc)} {docs : List Doc}
    (h : Cfg.loadFiles files = .ok docs) : docs.length = files.flatten.length := by
  induction files generalizing docs with
  | nil => cases h; rfl
  | cons f files ih =>
    rw [Cfg.loadFiles] at h
    split at h
    · cases h
    rename_i r hr
    split at h
    · cases h
    rename_i rest hrest
    cases h
    simp [load_length hr, ih hrest]

/-- The configuration can be read. -/
theorem config_read {files : List (List Doc)} {d : Doc} (ts : List ℚ)
    (hread : ∀ f ∈ files, ∀ d ∈ f, Readable d) (hfirst : files.flatten.head? = some d)
    (hd : DistinctKeys d) (ht : NoTuples d) :
    ∃ c e, Cfg.fromFiles files (some ts) = .ok c ∧ c.asDict = .ok e := by
  obtain ⟨docs, hl⟩ := loadFiles_readable hread
  have hlen := loadFiles_flatten hl
  cases docs with
  | nil =>
    rw [List.length_nil, eq_comm, List.length_eq_zero_iff] at hlen
    rw [hlen] at hfirst
    cases hfirst
  | cons d1 ds =>
    obtain ⟨d', hd', hdd⟩ := loadFiles_head hl
    rw [hfirst] at hd'
    cases hd'
    have hall : DistinctKeys d1 ∧ NoTuples d1 := by
      rcases hdd with rfl | rfl
      · exact ⟨hd, ht⟩
      · exact ⟨Doc.distinct_erase hd _, noTuples_erase ht _⟩
    refine ⟨⟨ts, stored d1 :: ds.map stored, 0, stored d1⟩, prune d1, ?_, ?_⟩
    · unfold Cfg.fromFiles
      rw [hl]
      rfl
    · unfold Cfg.asDict Doc.expand
      rw [stored, Doc.flatten_eq hall.1]
      exact Doc.addItems_walk d1 .nil hall.1 hall.2 (by simp [Doc.keys])

theorem rowList_columns {R C : ℕ} (z : Fin C → K) (r : Fin R) :
    rowList (fun n : Node R C => z n.2) r = List.ofFn z := rfl

/-- The level at which the diffuser starts. -/
theorem diffuser_level {d : Doc} (hrk : RightKind d) (hen : Enabled d "submarine_diffusion")
    {v : Option PyValue} (hv : IsSetting d "submarine_diffusion" "sea_level" v) :
    ∃ L : K, IsNumber v 0 L := by
  cases v with
  | none => exact ⟨0, .inl ⟨rfl, rfl⟩⟩
  | some v =>
    obtain ⟨q, rfl⟩ := hrk.numbers ("submarine_diffusion", "sea_level") (by decide) hen v hv
    exact ⟨q, .inr ⟨q, rfl, rfl⟩⟩

/-- Whatever a constructor adds is there in the end. -/
theorem createNamed_provides {R C : ℕ} {ext : Externals K} {env : Env R C K}
    {params : PyDict String Kwargs} {names : List String}
    {s : ProcState R C K × World R (C + 2) K}
    {r : List (String × Process K) × ProcState R C K × World R (C + 2) K}
    (h : createNamed ext env params names s = .ok r) :
    (∀ q ∈ r.1, Needs q.2 r.2.2) ∧ Provides s.2 r.2.2 := by
  induction names generalizing s r with
  | nil => cases h; exact ⟨by simp, provides_refl _⟩
  | cons n names ih =>
    rw [createNamed] at h
    split at h
    · cases h
    split at h
    · cases h
    split at h
    · cases h
    rename_i s1 hs1
    split at h
    · cases h
    rename_i ps1 s2 hr
    cases h
    obtain ⟨h1, h2⟩ := create_provides hs1
    obtain ⟨h3, h4⟩ := ih hr
    refine ⟨fun q hq => ?_, provides_trans h2 h4⟩
    rcases List.mem_cons.mp hq with rfl | hq
    · exact needs_mono h4 h1
    · exact h3 q hq

/-- A model with a shoreline finder on a grid without layers can be created. -/
theorem modelInit_of {σ : Type} {R C : ℕ} (start : K) (f : K → σ → σ) (s : σ) {w : World R C K}
    (h1 : w.rowShore.isSome) (h2 : w.rowShelf.isSome) (hl : w.layers = EventLayers.empty) :
    ∃ m, modelInit start f s w = .ok m := by
  obtain ⟨a, ha⟩ := Option.isSome_iff_exists.mp h1
  obtain ⟨b, hb⟩ := Option.isSome_iff_exists.mp h2
  obtain ⟨ev, hev⟩ := add_ok_of_subset (ev := w.layers) (dz := (initEvent start w).dz)
    (kw := (initEvent start w).kw) (.inl (by rw [hl]; rfl))
  simp only [initEvent] at hev
  unfold modelInit
  simp only [ha, hb, hev]
  exact ⟨_, rfl⟩

theorem runSetup_solver {ext : Externals K} {times : List ℕ} {files : List (List Doc)}
    {fs fs' : FileSystem K (Option K)} {m : Ready K}
    (h : runSetup ext times files fs = (fs', .ok m)) :
    ∃ params, m.env.kind = (ext.env m.R m.C params).kind ∧
      m.env.xtol = (ext.env m.R m.C params).xtol ∧ m.env.rtol = (ext.env m.R m.C params).rtol := by
  unfold runSetup at h
  split_ifs at h
  · cases h
  split at h
  · cases h
  rename_i p hp
  unfold prepare at hp
  simp only [bind, Except.bind] at hp
  iterate 14 (split at hp; · cases hp)
  cases hp
  dsimp only at h
  split at h
  · cases h
  split at h
  · cases h
  split at h
  · cases h
  cases h
  exact ⟨_, rfl, rfl, rfl⟩

/-- C114: a configuration whose values are of the right kind is accepted exactly if it is fine. The
three parameters of `find_shoreline` do not depend on the configuration. -/
theorem setup_accepts_iff (ext : Externals K) (kind : InterpKind K) (xtol rtol : K)
    (hsolver : ∀ R C params, (ext.env R C params).kind = kind ∧ (ext.env R C params).xtol = xtol ∧
      (ext.env R C params).rtol = rtol)
    (times : List ℕ) (htimes : times ≠ []) (files : List (List Doc))
    (hread : ∀ f ∈ files, ∀ d ∈ f, Readable d) (fs : FileSystem K (Option K)) (d : Doc)
    (hfirst : files.flatten.head? = some d) (hd : DistinctKeys d) (ht : NoTuples d)
    (hrk : RightKind d) :
    (∃ fs' m, runSetup ext times files fs = (fs', .ok m)) ↔
      ∃ cols dx zs, Fine ext kind xtol rtol d fs cols dx zs := by
  have hnames : ∀ {e : Doc}, (∀ k, k ≠ "_time" → k ≠ "plot" → e.find? k = (prune d).find? k) →
      ∃ names, processNames e = .ok names ∧ withRequired names = creationOrder d ∧
        ∀ n, n ∈ withRequired names ↔ Enabled d n := by
    intro e hfe
    have hp := hfe "processes" (by decide) (by decide)
    obtain ⟨names, h1, h2⟩ := processNames_order hrk hp
    exact ⟨names, h1, h2, processNames_enabled hd hp h1⟩
  have hlevel : ∃ L : K, Enabled d "submarine_diffusion" →
      ∀ v, IsSetting d "submarine_diffusion" "sea_level" v → IsNumber v 0 L := by
    by_cases hen : Enabled d "submarine_diffusion"
    · by_cases hv : ∃ v, IsSetting d "submarine_diffusion" "sea_level" v
      · obtain ⟨v, hv⟩ := hv
        obtain ⟨L, hL⟩ := diffuser_level (K := K) hrk hen hv
        exact ⟨L, fun _ v' hv' => isSetting_unique hv hv' ▸ hL⟩
      · exact ⟨0, fun _ v hv' => absurd ⟨v, hv'⟩ hv⟩
    · exact ⟨0, fun h => absurd h hen⟩
  obtain ⟨L, hL⟩ := hlevel
  constructor
  · rintro ⟨fs', m, h⟩
    obtain ⟨params, hs1, hs2, hs3⟩ := runSetup_solver h
    obtain ⟨hk1, hk2, hk3⟩ := hsolver m.R m.C params
    rw [hk1] at hs1
    rw [hk2] at hs2
    rw [hk3] at hs3
    obtain ⟨c, e, hm, hde, hfe⟩ := setsUp_made ⟨hfirst, hd, ht, h⟩
    cases hm with
    | @mk gridArgs bathymetry clockArgs output R C info w w' names env ps s clock args porosity rows
        writer ms hgrid hbathy hinfo hw hnames' hclock houtput hdx hx hcreate htime hargs hpor hrows
        hwriter hms hdesc =>
      clear hk1 hk2 hk3 h
      dsimp only at hs1 hs2 hs3
      have hget := fun {sec : String} (h1 : sec ≠ "_time") (h2 : sec ≠ "plot") {g : Kwargs}
        (hsec : sectionOf e sec = .ok g) => sectionOf_get? hd (hfe sec h1 h2) hsec
      have hggrid := hget (by decide) (by decide) hgrid
      have hgbath := hget (by decide) (by decide) hbathy
      have hgclock := hget (by decide) (by decide) hclock
      have hgout := hget (by decide) (by decide) houtput
      obtain ⟨names2, n1, n2, n3⟩ := hnames hfe
      rw [hnames'] at n1
      cases n1
      obtain ⟨sizes, gaps, g1, g2, g3⟩ := loadGrid_ok hinfo
      simp only [hggrid] at g1 g2
      obtain ⟨dxq, hdxq⟩ := isGrid_rat g3
      have hR := (hrk.size sizes gaps R (C + 2) dxq ⟨g1, g2⟩ hdxq).1
      obtain ⟨R, rfl⟩ : ∃ R', R = R' + 1 := ⟨R - 1, by omega⟩
      obtain ⟨b1, path, kd, curve, z, b2, b3, b4, b5, b6⟩ := loadBathymetry_iff.mp hw
      have hsed : "sediments" ∉ withRequired names := by
        intro hm
        obtain ⟨cls, hcls, -⟩ := createNamed_mem hcreate _ hm
        simp [processClass] at hcls
      have htime' : ∀ n ∈ withRequired names, n ≠ "_time" ∧ n ≠ "plot" := by
        intro n hm
        obtain ⟨cls, hcls, -⟩ := createNamed_mem hcreate _ hm
        constructor <;> (rintro rfl; simp [processClass] at hcls)
      have hc := (createNamed_iff (before := []) (z := List.ofFn z) (L := L)
        (fun n hn key => matched_setting hd hde hfe n3 hsed hn (htime' n hn).1 (htime' n hn).2 key)
        hrk (fun n hn => (n3 n).mp hn) hx (fun hn => hL ((n3 _).mp hn))
        (fun r => by rw [b6]; exact rowList_columns z r) (by rw [b6]; rfl)).mp ⟨_, hcreate⟩
      refine ⟨C + 2, info.dx, List.ofFn z, ?_⟩
      constructor
      · intro sec hsec
        simp only [List.mem_cons, List.not_mem_nil, or_false] at hsec
        rcases hsec with rfl | rfl | rfl | rfl
        · exact sectionOf_section (hfe _ (by decide) (by decide)) hgrid
        · exact sectionOf_section (hfe _ (by decide) (by decide)) hbathy
        · exact sectionOf_section (hfe _ (by decide) (by decide)) hclock
        · exact sectionOf_section (hfe _ (by decide) (by decide)) houtput
      · exact ⟨sizes, gaps, R + 1, ⟨g1, g2⟩, g3⟩
      · intro key v hv
        rw [← hgbath] at hv
        exact b1 key v hv
      · rw [hgbath] at b2 b3
        refine ⟨curve, ⟨path, kd, b2, b3, b4⟩, by simp, fun c hc => ?_⟩
        rw [List.length_ofFn] at hc
        rw [List.getElem_ofFn]
        exact (atColumns_ok_iff curve _).2.1 z b5 ⟨c, hc⟩
      · intro key v hv
        rw [← hgclock] at hv
        refine (loadClock_iff (K := K) (fun key hk v hv => ?_) (fun v hv => ?_)).mp ⟨_, htime⟩ key v hv
        · rw [hgclock] at hv
          exact hrk.clock key hk v hv
        · rw [hgclock] at hv
          exact hrk.stop v hv
      · intro name hen
        exact hc.1 name ((n3 name).mpr hen)
      · exact (describe_iff hd hde hfe n3 hsed htime').mp hdesc
      · exact (output_iff hgout hrk (R + 1) fs).mp ⟨args, rows, _, writer, hargs, hrows, hwriter⟩
      · intro before after hba level h0 h1
        rw [← n2] at hba
        have := hc.2 before after hba
        rw [List.nil_append, hs1, hs2, hs3, hx] at this
        have hlv : level = if "submarine_diffusion" ∈ before then L else 0 := by
          split_ifs with hb
          · have hsd : "submarine_diffusion" ∈ withRequired names := by
              rw [hba]; exact List.mem_append_left _ hb
            have hset := matched_setting hd hde hfe n3 hsed hsd (by decide) (by decide) "sea_level"
            exact isNumber_unique (h1 hb _ hset) (hL ((n3 _).mp hsd) _ hset)
          · exact h0 hb
        rw [hlv]
        exact this
  · rintro ⟨cols, dx, zs, hf⟩
    obtain ⟨c, e, hc, he⟩ := config_read (times.map fun t : ℕ => (t : ℚ)) hread hfirst hd ht
    have hfe' : DistinctKeys (e.erase "plot") ∧
        ∀ k, k ≠ "_time" → k ≠ "plot" → (e.erase "plot").find? k = (prune d).find? k := by
      have hc' := hc
      unfold Cfg.fromFiles at hc'
      split at hc'
      · cases hc'
      rename_i docs hdocs
      exact first_section hdocs hc' he hfirst hd ht
    obtain ⟨hde, hfe⟩ := hfe'
    obtain ⟨names, n1, n2, n3⟩ := hnames hfe
    have hsec : ∀ sec ∈ ["grid", "bathymetry", "clock", "output"], ∃ g : Kwargs,
        sectionOf (e.erase "plot") sec = .ok g ∧ ∀ key, g.get? key = entry d sec key := by
      intro sec hs
      obtain ⟨s, hs'⟩ := hf.sections sec hs
      have hne : sec ≠ "_time" ∧ sec ≠ "plot" := by
        simp only [List.mem_cons, List.not_mem_nil, or_false] at hs
        rcases hs with rfl | rfl | rfl | rfl <;> decide
      have := sectionOf_of (hfe sec hne.1 hne.2) hs'
      exact ⟨_, this, sectionOf_get? hd (hfe sec hne.1 hne.2) this⟩
    obtain ⟨gridArgs, hgrid, hggrid⟩ := hsec "grid" (by simp)
    obtain ⟨bathymetry, hbathy, hgbath⟩ := hsec "bathymetry" (by simp)
    obtain ⟨clockArgs, hclock, hgclock⟩ := hsec "clock" (by simp)
    obtain ⟨output, houtput, hgout⟩ := hsec "output" (by simp)
    obtain ⟨sizes, gaps, rows, hgg, hig⟩ := hf.grid
    obtain ⟨dxq, hdxq⟩ := isGrid_rat hig
    obtain ⟨hr, hcl⟩ := hrk.size sizes gaps rows cols dxq hgg hdxq
    obtain ⟨R, rfl⟩ : ∃ R', rows = R' + 1 := ⟨rows - 1, by omega⟩
    obtain ⟨C, rfl⟩ : ∃ C', cols = C' + 2 := ⟨cols - 2, by omega⟩
    obtain ⟨info, hinfo, rfl⟩ := loadGrid_of (K := K) (kwds := gridArgs)
      (fun key hk v hv => hrk.grid key hk v (by rw [← hggrid]; exact hv))
      (by rw [hggrid, hggrid]; exact hgg.1) (by rw [hggrid, hggrid]; exact hgg.2) hig
    obtain ⟨curve, ⟨path, kd, b2, b3, b4⟩, hlen, hcurve⟩ := hf.surface
    obtain ⟨z, hz⟩ := (atColumns_ok_iff curve fun c : Fin (C + 2) => (c.val : K) * info.dx).1.mpr
      fun c => ⟨_, hcurve c.val (by rw [hlen]; exact c.isLt)⟩
    have hzs : zs = List.ofFn z := by
      refine List.ext_getElem (by simp [hlen]) fun i h1 h2 => ?_
      have h3 := (atColumns_ok_iff curve _).2.1 z hz ⟨i, by rw [← hlen]; exact h1⟩
      rw [hcurve i h1] at h3
      rw [List.getElem_ofFn]
      exact Except.ok.inj h3
    obtain ⟨w, hw, hwd⟩ : ∃ w, loadBathymetry ext (fun c : Fin (C + 2) => (c.val : K) * info.dx)
        bathymetry (newWorld (R + 1) (C + 2)) = .ok w ∧
        w = loadBedrock { newWorld (R + 1) (C + 2) with topo := fun n => z n.2 } :=
      ⟨_, loadBathymetry_iff.mpr ⟨fun key v hv => hf.bathymetryKeys key v (by rw [← hgbath]; exact hv),
        path, kd, curve, z, by rw [hgbath]; exact b2, by rw [hgbath]; exact b3, b4, hz, rfl⟩, rfl⟩
    have hknown : ∀ n ∈ withRequired names, n ∈ knownProcesses := fun n hn =>
      (hf.components n ((n3 n).mp hn)).known
    have hsed : "sediments" ∉ withRequired names := fun hm => absurd (hknown _ hm) (by decide)
    have hset : ∀ n ∈ withRequired names, ∀ key, IsSetting d n key
        ((groupOf (matchedParams (withRequired names) (e.erase "plot").sections) n).get? key) := by
      intro n hn key
      refine matched_setting hd hde hfe n3 hsed hn ?_ ?_ key
      · rintro rfl; exact absurd (hknown _ hn) (by decide)
      · rintro rfl; exact absurd (hknown _ hn) (by decide)
    have hdesc := (describe_iff hd hde hfe n3 hsed fun n hn =>
      ⟨by rintro rfl; exact absurd (hknown _ hn) (by decide),
        by rintro rfl; exact absurd (hknown _ hn) (by decide)⟩).mpr hf.nulls
    generalize hpar : matchedParams (withRequired names) (e.erase "plot").sections = params at hset hdesc
    obtain ⟨hk1, hk2, hk3⟩ := hsolver (R + 1) C params
    obtain ⟨env, henv⟩ : ∃ env : Env (R + 1) C K, env = { ext.env (R + 1) C params with
      dx := info.dx, x := fun c => c.val * info.dx } := ⟨_, rfl⟩
    have hx : env.x = fun c => c.val * info.dx := by rw [henv]
    obtain ⟨⟨ps, s, w'⟩, hcreate⟩ := (createNamed_iff (ext := ext) (env := env) (before := [])
      (s := (newProcState (R + 1) C, w)) (z := zs) (L := L) hset hrk (fun n hn => (n3 n).mp hn) hx
      (fun hn => hL ((n3 _).mp hn)) (fun r => by rw [hwd, hzs]; exact rowList_columns z r)
      (by rw [hwd]; rfl)).mpr ⟨fun n hn => hf.components n ((n3 n).mp hn), fun p q hpq => by
        rw [n2] at hpq
        rw [List.nil_append, hx, henv]
        dsimp only
        rw [hk1, hk2, hk3]
        refine hf.shore p q hpq _ (fun hp => if_neg hp) fun hp v hv => ?_
        rw [if_pos hp]
        exact hL ((n3 _).mp (by rw [n2, hpq]; exact List.mem_append_left _ hp)) v hv⟩
    obtain ⟨clock, htime⟩ := (loadClock_iff (K := K) (kwds := clockArgs)
      (fun key hk v hv => hrk.clock key hk v (by rw [← hgclock]; exact hv))
      (fun v hv => hrk.stop v (by rw [← hgclock]; exact hv))).mpr
      fun key v hv => hf.clockKeys key v (by rw [← hgclock]; exact hv)
    obtain ⟨args, rws, fs', writer, hargs, hrows, hwriter⟩ :=
      (output_iff hgout hrk (R + 1) fs).mpr hf.output
    obtain ⟨c1, c2, c3, -⟩ := createNamed_ok hcreate
    obtain ⟨porosity, hpor⟩ : ∃ p, porosityArg ext
        (PyDict.keys (PyDict.ofPairs ps : PyDict String (Process K)))
        (groupOf params "compaction") = .ok p := by
      unfold porosityArg
      split_ifs with hcomp
      · have hm : "compaction" ∈ withRequired names := by
          rw [List.contains_iff_mem, keys_ofPairs, mem_firstAppearances, c1] at hcomp
          exact hcomp
        refine floatArg_of fun v hv => ?_
        refine hrk.numbers ("compaction", "porosity_max") (by decide) ((n3 _).mp hm) v ?_
        have := hset _ hm "porosity_max"
        rw [hv] at this
        exact this
      · exact ⟨_, rfl⟩
    have hsh : "shoreline" ∈ withRequired names := by
      rw [withRequired_mem]
      simp [allProcesses]
    obtain ⟨⟨n, p⟩, hp, rfl⟩ : ∃ q ∈ ps, q.1 = "shoreline" := by
      rw [← c1] at hsh
      obtain ⟨q, hq, hq'⟩ := List.mem_map.mp hsh
      exact ⟨q, hq, hq'⟩
    obtain ⟨cls, hcls, hkw⟩ := c2 _ hp
    have hpn := (ofKwargs_ok hcls hkw).1
    have hneeds := (createNamed_provides hcreate).1 _ hp
    have hss : w'.rowShore.isSome ∧ w'.rowShelf.isSome := by
      cases p <;> simp [Process.name] at hpn
      exact hneeds
    obtain ⟨ms, hms⟩ := modelInit_of clock.start
      (fun t (q : ProcState (R + 1) C K) => { q with seaTime := t }) s hss.1 hss.2
      (by rw [c3, hwd]; rfl)
    have hprep : ∃ p, prepare ext times files = .ok p ∧ p.args = args ∧ p.rows = R + 1 ∧
        ∀ q, ∃ m, p.finish q = .ok m := by
      rw [prepare_eq, hc]
      simp only [bind, Except.bind]
      rw [he]
      dsimp only
      unfold prepareFrom
      rw [hgrid, hbathy]
      simp only [bind, Except.bind]
      rw [hinfo]
      dsimp only
      rw [hw]
      dsimp only
      rw [n1]
      dsimp only
      rw [hclock, houtput]
      dsimp only
      rw [hpar, hdesc]
      dsimp only
      rw [← henv, hcreate]
      dsimp only
      rw [htime]
      dsimp only
      rw [hargs]
      dsimp only
      rw [hpor]
      dsimp only
      refine ⟨_, rfl, rfl, rfl, fun q => ?_⟩
      dsimp only
      rw [hms]
      exact ⟨_, rfl⟩
    obtain ⟨p, hp, rfl, hprows, hfin⟩ := hprep
    obtain ⟨m, hm⟩ := hfin (writer, fs')
    refine ⟨fs', m, ?_⟩
    unfold runSetup
    rw [if_neg htimes, hp]
    dsimp only
    rw [hprows, hrows]
    simp only [Except.toOption, Option.getD_some, hwriter, hm]

/-! ### Concrete configurations -/

/-- All entries of all sections. -/
def allEntries : Doc → List (String × String × PyValue)
  | .nil => []
  | .leaf _ _ r => allEntries r
  | .sub k s r => (prune s).items.map (fun q => (k, q.1, q.2)) ++ allEntries r

theorem mem_items {s : Doc} {k : String} {v : PyValue} (h : s.find? k = some v) :
    (k, v) ∈ s.items := by
  induction s with
  | nil => cases h
  | leaf a w r ih =>
    rw [Doc.find?] at h
    rw [Doc.items]
    split_ifs at h with hk
    · cases h; subst hk; exact List.mem_cons_self ..
    · exact List.mem_cons_of_mem _ (ih h)
  | sub a w r _ ih =>
    rw [Doc.find?] at h
    rw [Doc.items]
    split_ifs at h with hk
    · cases h; subst hk; exact List.mem_cons_self ..
    · exact List.mem_cons_of_mem _ (ih h)

theorem mem_allEntries {d : Doc} {sec key : String} {v : PyValue} (h : entry d sec key = some v) :
    (sec, key, v) ∈ allEntries d := by
  unfold entry at h
  split at h
  · rename_i s hs
    induction d with
    | nil => cases hs
    | leaf a w r ih =>
      rw [Doc.find?] at hs
      split_ifs at hs
      · cases hs
      · exact ih hs
    | sub a w r _ ih =>
      rw [Doc.find?] at hs
      rw [allEntries, List.mem_append]
      split_ifs at hs with hk
      · cases hs
        subst hk
        exact .inl (List.mem_map.mpr ⟨(key, v), mem_items h, rfl⟩)
      · exact .inr (ih hs)
  · cases h

/-- Kinds of values. -/
def isNum : PyValue → Bool
  | .inl (.num _) => true
  | _ => false

@[inherit_doc isNum]
def isNone : PyValue → Bool
  | .inl .none => true
  | _ => false

@[inherit_doc isNum]
def isNums : PyValue → Bool
  | .inl (.list xs) => xs.all fun x => isNum (.inl x)
  | _ => false

@[inherit_doc isNum]
def isStrs : PyValue → Bool
  | .inl (.list xs) => xs.all fun x => match x with
    | .str _ => true
    | _ => false
  | _ => false

/-- Whether the value of a key is of the right kind. -/
def goodEntry (key : String) (v : PyValue) : Bool :=
  if key ∈ ["shape", "n_cols", "spacing", "xy_spacing"] then isNum v || isNums v
  else if key = "fields" then isNone v || isStrs v
  else if key = "rows" then isNone v || isNum v || isNums v
  else if key ∈ ["isostasytime", "stop"] then isNone v || isNum v
  else if key ∈ "step" :: numberKeys.map (·.2) then isNum v
  else true

theorem isNum_iff {v : PyValue} (h : isNum v = true) : ∃ q : ℚ, v = .inl (.num q) := by
  unfold isNum at h
  split at h
  · exact ⟨_, rfl⟩
  · cases h

theorem isNone_iff {v : PyValue} (h : isNone v = true) : v = .inl .none := by
  unfold isNone at h
  split at h
  · rfl
  · cases h

theorem isNums_of {v : PyValue} (h : isNum v = true ∨ isNums v = true) :
    ∃ qs, IsNumbers (some v) qs := by
  rcases h with h | h
  · obtain ⟨q, rfl⟩ := isNum_iff h
    exact ⟨[q], .inl ⟨q, rfl, rfl⟩⟩
  · unfold isNums at h
    split at h
    · rename_i xs
      have : ∃ qs : List ℚ, xs = qs.map Leaf.num := by
        induction xs with
        | nil => exact ⟨[], rfl⟩
        | cons x xs ih =>
          rw [List.all_cons, Bool.and_eq_true] at h
          obtain ⟨qs, rfl⟩ := ih h.2
          obtain ⟨q, hq⟩ := isNum_iff h.1
          cases hq
          exact ⟨q :: qs, rfl⟩
      obtain ⟨qs, rfl⟩ := this
      exact ⟨qs, .inr (.inl rfl)⟩
    · cases h

theorem isStrs_of {v : PyValue} (h : isStrs v = true) :
    ∃ names : List String, v = .inl (.list (names.map Leaf.str)) := by
  unfold isStrs at h
  split at h
  · rename_i xs
    have : ∃ qs : List String, xs = qs.map Leaf.str := by
      induction xs with
      | nil => exact ⟨[], rfl⟩
      | cons x xs ih =>
        rw [List.all_cons, Bool.and_eq_true] at h
        obtain ⟨qs, rfl⟩ := ih h.2
        cases x with
        | str q => exact ⟨q :: qs, rfl⟩
        | _ => simp at h
    obtain ⟨qs, rfl⟩ := this
    exact ⟨qs, rfl⟩
  · cases h

/-- A way to see that the values are of the right kind. -/
theorem rightKind_of {d : Doc} (h : ∀ t ∈ allEntries d, goodEntry t.2.1 t.2.2 = true)
    {s0 g0 : List ℚ} (hg : GivesGrid d s0 g0)
    (hs : ∀ rows cols (dx : ℚ), IsGrid s0 g0 rows cols dx → 1 ≤ rows ∧ 2 ≤ cols)
    {names : List String}
    (hp : (prune d).find? "processes" = some (.inl (.list (names.map Leaf.str)))) :
    RightKind d := by
  have hent : ∀ sec key v, entry d sec key = some v → goodEntry key v = true :=
    fun sec key v hv => h _ (mem_allEntries hv)
  have hsetting : ∀ {name key v}, IsSetting d name key (some v) → goodEntry key v = true := by
    rintro name key v (⟨-, h1⟩ | ⟨-, other, -, h1⟩ | ⟨-, -, h1⟩)
    · exact hent _ _ _ h1.symm
    · exact hent _ _ _ h1.symm
    · cases h1
  constructor
  · intro key hk v hv
    have := hent _ _ _ hv
    rw [goodEntry, if_pos hk, Bool.or_eq_true] at this
    exact isNums_of this
  · intro sizes gaps rows cols dx hgg hig
    have none_ne : ∀ {qs}, ¬ IsNumbers none qs := by
      rintro qs (⟨_, h, -⟩ | h | h) <;> cases h
    have h1 : sizes = s0 := by
      rcases hg.1 with a | ⟨a1, a2⟩ <;> rcases hgg.1 with b | ⟨b1, b2⟩
      · exact isNumbers_unique b a
      · rw [b1] at a; exact absurd a none_ne
      · rw [a1] at b; exact absurd b none_ne
      · exact isNumbers_unique b2 a2
    have h2 : gaps = g0 := by
      rcases hg.2 with a | ⟨a1, a2⟩ <;> rcases hgg.2 with b | ⟨b1, b2⟩
      · exact isNumbers_unique b a
      · rw [b1] at a; exact absurd a none_ne
      · rw [a1] at b; exact absurd b none_ne
      · exact List.reverse_injective (isNumbers_unique b2 a2)
    subst h1 h2
    exact hs _ _ _ hig
  · intro v hv
    rw [hp] at hv
    cases hv
    exact ⟨names, rfl⟩
  · intro p hpm _ v hv
    have h1 := hsetting hv
    have h2 : ∀ p ∈ numberKeys, p.2 ∉ ["shape", "n_cols", "spacing", "xy_spacing"] ∧
        p.2 ≠ "fields" ∧ p.2 ≠ "rows" ∧ p.2 ∉ ["isostasytime", "stop"] := by decide
    obtain ⟨a1, a2, a3, a4⟩ := h2 p hpm
    rw [goodEntry, if_neg a1, if_neg a2, if_neg a3, if_neg a4,
      if_pos (List.mem_cons_of_mem _ (List.mem_map.mpr ⟨p, hpm, rfl⟩))] at h1
    exact isNum_iff h1
  · intro name _ _ v hv
    have h1 := hsetting hv
    rw [goodEntry, if_neg (by decide), if_neg (by decide), if_neg (by decide), if_pos (by decide),
      Bool.or_eq_true] at h1
    exact h1.imp isNone_iff isNum_iff
  · intro key hk v hv
    have h1 := hent _ _ _ hv
    simp only [List.mem_cons, List.not_mem_nil, or_false] at hk
    rcases hk with rfl | rfl <;>
    · rw [goodEntry, if_neg (by decide), if_neg (by decide), if_neg (by decide),
        if_neg (by decide), if_pos (by decide)] at h1
      exact isNum_iff h1
  · intro v hv
    have h1 := hent _ _ _ hv
    rw [goodEntry, if_neg (by decide), if_neg (by decide), if_neg (by decide), if_pos (by decide),
      Bool.or_eq_true] at h1
    exact h1.imp isNone_iff isNum_iff
  · intro v hv
    have h1 := hent _ _ _ hv
    rw [goodEntry, if_neg (by decide), if_pos rfl, Bool.or_eq_true] at h1
    exact h1.imp isNone_iff isStrs_of
  · intro v hv
    have h1 := hent _ _ _ hv
    rw [goodEntry, if_neg (by decide), if_neg (by decide), if_pos rfl, Bool.or_eq_true,
      Bool.or_eq_true, or_assoc] at h1
    exact h1.imp isNone_iff isNums_of

theorem exShared_rightKind : RightKind exShared := by
  refine rightKind_of (s0 := [1, 3]) (g0 := [10, 2]) (names := ["submarine_diffusion", "sea_level"])
    (by decide +kernel) ⟨.inl (.inr (.inl (by decide +kernel))), .inr ⟨by decide +kernel,
      .inr (.inl (by decide +kernel))⟩⟩ ?_ (by decide +kernel)
  rintro rows cols dx (⟨c, x, h, -⟩ | ⟨r, c, y, x, h, -, rfl, rfl, -⟩)
  · cases h
  · cases h
    norm_num

/-- C114: `exShared` is accepted, so it meets all the requirements. -/
example : ∃ cols dx zs, Fine exExt linearKind (2/10^12) (1/10^15) exShared exRunFiles cols dx zs := by
  obtain ⟨fs', m, h⟩ := exShared_setsUp
  exact (setup_accepts_iff exExt linearKind _ _ (fun _ _ _ => ⟨rfl, rfl, rfl⟩) [0] (by simp)
    [[exShared]] (by simp [Readable, exShared, Doc.find?]) exRunFiles exShared rfl h.distinct
    h.noTuples exShared_rightKind).mp ⟨fs', m, h.ok⟩

/-- The same with a misspelt key in the section `clock`. -/
def exMisspelt : Doc :=
  exTimed (.leaf "start" (.num 0) (.leaf "stopp" (.num 200) .nil)) (exOutSection "out.nc" false) .nil

/-- C114: a configuration with a misspelt key is refused, whatever files there are. -/
example (fs : FileSystem ℚ (Option ℚ)) : ¬ ∃ fs' m, runSetup exExt [0] [[exMisspelt]] fs =
    (fs', .ok m) := by
  rw [setup_accepts_iff exExt linearKind _ _ (fun _ _ _ => ⟨rfl, rfl, rfl⟩) [0] (by simp)
    [[exMisspelt]] (by simp [Readable, exMisspelt, exTimed, Doc.find?]) fs exMisspelt rfl
    (by simp [exMisspelt, exTimed, exOutSection, DistinctKeys, Doc.keys])
    (by simp [exMisspelt, exTimed, exOutSection, NoTuples])
    (by
      refine rightKind_of (s0 := [3]) (g0 := [1]) (names := ["sea_level"]) (by decide +kernel)
        ⟨.inr ⟨by decide +kernel, .inl ⟨3, by decide +kernel, rfl⟩⟩,
          .inl (.inl ⟨1, by decide +kernel, rfl⟩)⟩ ?_ (by decide +kernel)
      rintro rows cols dx (⟨c, x, h, -, rfl, rfl, -⟩ | ⟨r, c, y, x, h, -⟩)
      · cases h
        norm_num
      · cases h)]
  rintro ⟨cols, dx, zs, hf⟩
  have := hf.clockKeys "stopp" (.inl (.num 200)) (by decide +kernel)
  simp at this

end Verif.Props
