import Verif.Lemmas.Prelude
import Verif.Spec.Output

/-!
# Lemmas about output files
-/

set_option autoImplicit false
set_option linter.unusedSectionVars false

namespace Verif

open Spec

variable {K A : Type*}

theorem npIndex_natCast (a : List A) (i : ℕ) (h : i < a.length) :
    npIndex a (Int.ofNat i) = .ok a[i] := by
  unfold npIndex
  have h1 : ¬ ((i : ℤ) < 0) := by omega
  simp only [Int.ofNat_eq_natCast, if_neg h1, Int.toNat_natCast, List.getElem?_eq_getElem h]

theorem mapM_npIndex_range (a : List A) : ∀ (n : ℕ), n ≤ a.length →
    ((List.range n).map Int.ofNat).mapM (npIndex a) = .ok (a.take n) := by
  intro n
  induction n with
  | zero => intro _; simp [pure, Except.pure]
  | succ n ih =>
    intro h
    rw [List.range_succ, List.map_append, List.mapM_append, ih (by omega)]
    simp only [List.map_cons, List.map_nil, List.mapM_cons, List.mapM_nil]
    rw [npIndex_natCast a n (by omega)]
    simp only [bind, Except.bind, pure, Except.pure]
    rw [List.take_succ_eq_append_getElem (by omega)]

theorem takeIds_range (a : List A) (n : ℕ) (h : n ≤ a.length) :
    takeIds a (.list ((List.range n).map Int.ofNat)) = .ok (a.take n) :=
  mapM_npIndex_range a n h

theorem takeIds_full (a : List A) (n : ℕ) (h : a.length = n) :
    takeIds a (.list ((List.range n).map Int.ofNat)) = .ok a := by
  rw [takeIds_range a n (by omega), ← h, List.take_length]

/-- Everything but the fields is the same. -/
structure SameFrame (d d' : Dataset K A) : Prop where
  times : d'.times = d.times
  dims : d'.dims = d.dims
  xOf : d'.xOf = d.xOf
  yOf : d'.yOf = d.yOf
  layerDim : d'.layerDim = d.layerDim
  layerVars : d'.layerVars = d.layerVars

theorem SameFrame.trans {d d' d'' : Dataset K A} (h : SameFrame d d') (h' : SameFrame d' d'') :
    SameFrame d d'' :=
  ⟨h'.times.trans h.times, h'.dims.trans h.dims, h'.xOf.trans h.xOf, h'.yOf.trans h.yOf,
    h'.layerDim.trans h.layerDim, h'.layerVars.trans h.layerVars⟩

theorem field_isSome {g : GridView A} {loc name : String}
    (h : name ∈ (g.fields loc).map (·.1)) : ∃ v, g.field loc name = some v := by
  unfold GridView.field
  obtain ⟨p, hp, rfl⟩ := List.mem_map.mp h
  cases hf : (g.fields loc).find? (fun q => q.1 == p.1) with
  | none =>
    exfalso
    have := List.find?_eq_none.mp hf p hp
    simp at this
  | some q => exact ⟨q.2, rfl⟩

theorem field_eq_none {g : GridView A} {loc name : String}
    (h : name ∉ (g.fields loc).map (·.1)) : g.field loc name = none := by
  unfold GridView.field
  cases hf : (g.fields loc).find? (fun q => q.1 == name) with
  | none => rfl
  | some q =>
    exfalso
    apply h
    have h1 := List.find?_some hf
    have h2 := List.mem_of_find?_eq_some hf
    simp only [beq_iff_eq] at h1
    exact List.mem_map.mpr ⟨q, h2, h1⟩

theorem setOneField_ok {z : Sizes} {g : GridView A} (hg : HasSizes z g) {d : Dataset K A}
    {loc : String} {ids : Ids} (hdim : d.dims loc = some (z.at loc))
    (hids : loc = "grid" ∨ ∀ v : List A, v.length = z.at loc → takeIds v ids = .ok v)
    {name : String} (hname : name ∈ (g.fields loc).map (·.1)) :
    ∃ d', setOneField g loc ids name d = .ok d' ∧ SameFrame d d' ∧
      ∀ l n j, slice d' l n j =
        if l = loc ∧ n = name ∧ j = d.times.length - 1 then g.field loc name else slice d l n j := by
  obtain ⟨v, hv⟩ := field_isSome hname
  have hlen := hg.fields loc name v hv
  have htake : (if loc = "grid" then (.ok v : Except Err (List A)) else takeIds v ids) = .ok v := by
    by_cases hl : loc = "grid"
    · rw [if_pos hl]
    · rw [if_neg hl]
      rcases hids with h | h
      · exact absurd h hl
      · exact h v hlen
  have hb : broadcastTo (z.at loc) v = .ok v := by
    unfold broadcastTo
    rw [if_pos hlen]
  let vars' : String × String → Option (ℕ → Option (List A)) := fun k =>
    if k = (loc, name) then
      some (fun j => if j = d.times.length - 1 then some v
        else ((d.vars (loc, name)).getD fun _ => none) j)
    else d.vars k
  refine ⟨{ d with vars := vars' }, ?_, ?_, ?_⟩
  · unfold setOneField
    simp only [hv, htake, hdim, hb]
    rfl
  · exact ⟨rfl, rfl, rfl, rfl, rfl, rfl⟩
  · intro l n j
    unfold slice
    dsimp only [vars']
    by_cases hk : (l, n) = (loc, name)
    · obtain ⟨rfl, rfl⟩ := Prod.mk.inj hk
      rw [if_pos rfl]
      simp only [Option.bind_some]
      by_cases hj : j = d.times.length - 1
      · simp [hj, hv]
      · simp only [hj, if_false, and_false]
        cases d.vars (l, n) <;> rfl
    · rw [if_neg hk, if_neg]
      rintro ⟨rfl, rfl, _⟩
      exact hk rfl

theorem setFieldNames_ok {z : Sizes} {g : GridView A} (hg : HasSizes z g)
    {loc : String} {ids : Ids}
    (hids : loc = "grid" ∨ ∀ v : List A, v.length = z.at loc → takeIds v ids = .ok v) :
    ∀ (names : List String) (d : Dataset K A), d.dims loc = some (z.at loc) →
    (∀ n ∈ names, n ∈ (g.fields loc).map (·.1)) →
    ∃ d', setFieldNames g loc ids names d = .ok d' ∧ SameFrame d d' ∧
      ∀ l n j, slice d' l n j =
        if l = loc ∧ n ∈ names ∧ j = d.times.length - 1 then g.field loc n else slice d l n j := by
  intro names
  induction names with
  | nil =>
    intro d _ _
    exact ⟨d, rfl, ⟨rfl, rfl, rfl, rfl, rfl, rfl⟩, fun l n j => by simp⟩
  | cons name names ih =>
    intro d hdim hsub
    obtain ⟨d1, h1, f1, s1⟩ := setOneField_ok hg hdim hids (hsub name (List.mem_cons_self ..))
    obtain ⟨d2, h2, f2, s2⟩ := ih d1 (by rw [f1.dims]; exact hdim)
      (fun n hn => hsub n (List.mem_cons_of_mem _ hn))
    refine ⟨d2, ?_, f1.trans f2, ?_⟩
    · simp only [setFieldNames, h1, h2]
    · intro l n j
      rw [s2, s1, f1.times]
      by_cases hl : l = loc
      · by_cases hj : j = d.times.length - 1
        · by_cases hn : n = name
          · subst hn
            simp [hl, hj]
          · simp [hl, hj, hn]
        · simp [hj]
      · simp [hl]

theorem mem_fieldNames {g : GridView A} {loc : String} {names : List String} {n : String} :
    n ∈ fieldNames g loc names ↔ n ∈ (g.fields loc).map (·.1) ∧ (names = [] ∨ n ∈ names) ∧
      (loc = "grid" → n ≠ "x_of_shelf_edge" ∧ n ≠ "x_of_shore") := by
  have hcore : n ∈ List.filter (((g.fields loc).map (·.1)).contains ·)
      (if names = [] then (g.fields loc).map (·.1) else names) ↔
      n ∈ (g.fields loc).map (·.1) ∧ (names = [] ∨ n ∈ names) := by
    by_cases h : names = []
    · rw [if_pos h]
      simp [h]
    · rw [if_neg h]
      simp only [List.mem_filter, List.contains_iff_mem]
      tauto
  unfold fieldNames
  dsimp only
  by_cases hl : loc = "grid"
  · rw [if_pos hl, List.mem_filter, hcore]
    simp [hl, and_assoc]
  · rw [if_neg hl, hcore]
    simp [hl]

theorem setField_ok {z : Sizes} {g : GridView A} (hg : HasSizes z g)
    {loc : String} {ids : Ids}
    (hids : loc = "grid" ∨ ∀ v : List A, v.length = z.at loc → takeIds v ids = .ok v)
    (names : List String) (d : Dataset K A) (hdim : d.dims loc = some (z.at loc)) :
    ∃ d', setField g loc ids names d = .ok d' ∧ SameFrame d d' ∧
      ∀ l n j, slice d' l n j =
        if l = loc ∧ n ∈ fieldNames g loc names ∧ j = d.times.length - 1 then g.field loc n
        else slice d l n j :=
  setFieldNames_ok hg hids _ d hdim fun _ hn => (mem_fieldNames.mp hn).1

/-- The indices that an `OutputWriter` passes. -/
def writerIds (rows : List ℤ) (cols : ℕ) : IdsArg :=
  { row := .list rows, column := .list ((List.range (cols - 2)).map Int.ofNat) }

/-- The dimensions of a file fit a grid. -/
structure Fits (z : Sizes) (d : Dataset K A) : Prop where
  field : ∀ loc ∈ locations, d.dims loc = some (z.at loc)
  column : d.dims "column" = some (z.cols - 2)

/-- The fields at the locations given. -/
theorem forLocs_setField_ok {z : Sizes} {g : GridView A} (hg : HasSizes z g) (ids : String → Ids)
    (names : String → List String) :
    ∀ (locs : List String) (d : Dataset K A),
    (∀ loc ∈ locs, d.dims loc = some (z.at loc)) →
    (∀ loc ∈ locs, loc = "grid" ∨ ∀ v : List A, v.length = z.at loc → takeIds v (ids loc) = .ok v) →
    ∃ d', forLocs (fun loc => setField g loc (ids loc) (names loc)) locs d = .ok d' ∧
      SameFrame d d' ∧
      ∀ l n j, slice d' l n j =
        if l ∈ locs ∧ n ∈ fieldNames g l (names l) ∧ j = d.times.length - 1 then g.field l n
        else slice d l n j := by
  intro locs
  induction locs with
  | nil =>
    intro d _ _
    exact ⟨d, rfl, ⟨rfl, rfl, rfl, rfl, rfl, rfl⟩, fun l n j => by simp⟩
  | cons loc locs ih =>
    intro d hdim hids
    obtain ⟨d1, h1, f1, s1⟩ := setField_ok hg (hids loc (List.mem_cons_self ..)) (names loc) d
      (hdim loc (List.mem_cons_self ..))
    obtain ⟨d2, h2, f2, s2⟩ := ih d1
      (fun l hl => by rw [f1.dims]; exact hdim l (List.mem_cons_of_mem _ hl))
      (fun l hl => hids l (List.mem_cons_of_mem _ hl))
    refine ⟨d2, ?_, f1.trans f2, ?_⟩
    · simp only [forLocs, h1, h2]
    · intro l n j
      rw [s2, s1, f1.times]
      by_cases hl : l = loc
      · subst hl
        simp only [true_and, List.mem_cons, true_or]
        by_cases hc : n ∈ fieldNames g l (names l) ∧ j = d.times.length - 1
        · rw [if_pos hc]
          split <;> rfl
        · rw [if_neg hc, if_neg (fun h => hc h.2)]
      · simp [hl]

theorem mapM_broadcastLayer {r c : ℕ} : ∀ (l : List (List A)),
    l.mapM (broadcastLayer r c r c) = .ok l := by
  intro l
  induction l with
  | nil => rfl
  | cons a l ih =>
    rw [List.mapM_cons, ih]
    have : broadcastLayer r c r c a = .ok a := by
      unfold broadcastLayer
      rw [if_pos rfl]
    rw [this]
    rfl

theorem setLayerVar_ok {r c : ℕ} (data : List (List A)) (old : ℕ → Option (List A)) :
    setLayerVar r c r c data old = .ok fun k => if k < data.length then data[k]? else old k := by
  unfold setLayerVar
  rw [mapM_broadcastLayer]

theorem setLayerVars_ok {z : Sizes} {g : GridView A} (hg : HasSizes z g) :
    ∀ (names : List String), (∀ n ∈ names, n ∈ g.tracking) →
    ∀ (vars : String → Option (ℕ → Option (List A))),
    ∃ vars', setLayerVars g z.rows (z.cols - 2) names vars = .ok vars' ∧
      ∀ n k, (vars' n).bind (fun f => f k) =
        if n ∈ names ∧ k < g.nLayers then (g.layer n)[k]? else (vars n).bind (fun f => f k) := by
  intro names
  induction names with
  | nil => intro _ vars; exact ⟨vars, rfl, fun n k => by simp⟩
  | cons name names ih =>
    intro hsub vars
    obtain ⟨vars', h', s'⟩ := ih (fun n hn => hsub n (List.mem_cons_of_mem _ hn))
      (fun n => if n = name then some (fun k =>
        if k < (g.layer name).length then (g.layer name)[k]? else ((vars name).getD fun _ => none) k)
        else vars n)
    refine ⟨vars', ?_, ?_⟩
    · unfold setLayerVars
      rw [hg.rows, hg.cols, setLayerVar_ok]
      exact h'
    · intro n k
      rw [s']
      have hlen := (hg.layer name (hsub name (List.mem_cons_self ..))).1
      by_cases hn : n = name
      · subst hn
        simp only [if_true, Option.bind_some, hlen]
        by_cases hk : k < g.nLayers
        · simp [hk]
        · simp only [hk, and_false, if_false]
          cases vars n <;> rfl
      · simp [hn]

theorem setLayers_ok {z : Sizes} {g : GridView A} (hg : HasSizes z g) (d : Dataset K A)
    (hd : Fits z d) :
    ∃ d', setLayers g d = .ok d' ∧ d'.times = d.times ∧ d'.dims = d.dims ∧ d'.xOf = d.xOf ∧
      d'.yOf = d.yOf ∧ d'.vars = d.vars ∧ d'.layerDim = max d.layerDim g.nLayers ∧
      ∀ n k, layerSlice d' n k =
        if n = "thickness" ∧ k < g.nLayers then g.dz[k]?
        else if n ∈ g.tracking ∧ k < g.nLayers then (g.layer n)[k]?
        else layerSlice d n k := by
  obtain ⟨vars', h', s'⟩ := setLayerVars_ok hg g.tracking (fun _ h => h) d.layerVars
  have hr : d.dims "row" = some z.rows := hd.field "row" (by simp [locations])
  let vars : String → Option (ℕ → Option (List A)) := fun n =>
    if n = "thickness" then
      some (fun k => if k < g.dz.length then g.dz[k]?
        else ((vars' "thickness").getD fun _ => none) k)
    else vars' n
  refine ⟨{ d with layerDim := max d.layerDim g.nLayers, layerVars := vars }, ?_, ?_⟩
  · unfold setLayers
    rw [hr, hd.column]
    simp only [h']
    rw [hg.rows, hg.cols, setLayerVar_ok]
  · refine ⟨rfl, rfl, rfl, rfl, rfl, rfl, ?_⟩
    intro n k
    unfold layerSlice
    dsimp only [vars]
    by_cases hn : n = "thickness"
    · rw [if_pos hn]
      simp only [Option.bind_some, hg.dz.1, hn, true_and]
      by_cases hk : k < g.nLayers
      · rw [if_pos hk, if_pos hk]
      · rw [if_neg hk, if_neg hk]
        have := s' "thickness" k
        rw [← this]
        cases vars' "thickness" <;> rfl
    · rw [if_neg hn, if_neg (fun h => hn h.1)]
      exact s' n k

/-- The names that an `OutputWriter` passes. -/
def writerNames (fields : List String) : Names := .dict [("node", some fields)]

theorem namesDict_writer (g : GridView A) (fields : List String) (loc : String) :
    namesDict g defaultLocations (writerNames fields) loc = if loc = "node" then fields else [] := by
  unfold namesDict writerNames
  by_cases h : loc = "node"
  · subst h
    simp
  · have : (("node" : String) == loc) = false := by
      simp only [beq_eq_false_iff_ne, ne_eq]
      exact fun e => h e.symm
    simp [List.find?, this, h]

theorem mem_writer_fieldNames {g : GridView A} {fields : List String} {loc n : String}
    (hl : loc ∈ defaultLocations) :
    n ∈ fieldNames g loc (namesDict g defaultLocations (writerNames fields) loc) ↔
      n ∈ (g.fields loc).map (·.1) ∧ Requested fields loc n := by
  rw [mem_fieldNames, namesDict_writer]
  simp only [defaultLocations, List.mem_cons, List.not_mem_nil, or_false] at hl
  refine and_congr_right fun _ => ?_
  rcases hl with rfl | rfl | rfl | rfl | rfl <;> simp [Requested]
  tauto

theorem mem_row_fieldNames {g : GridView A} {fields : List String} {n : String} :
    n ∈ fieldNames g "row" ["x_of_shore", "x_of_shelf_edge"] ↔
      n ∈ (g.fields "row").map (·.1) ∧ Requested fields "row" n := by
  rw [mem_fieldNames]
  refine and_congr_right fun _ => ?_
  simp [Requested]

theorem requested_location {fields : List String} {loc n : String} (h : Requested fields loc n) :
    loc ∈ defaultLocations ∨ loc = "row" := by
  unfold Requested at h
  simp only [defaultLocations, List.mem_cons, List.not_mem_nil, or_false]
  tauto

/-- The row indices of a writer that was not given any. -/
def allRows (R : ℕ) : List ℤ := (List.range R).map Int.ofNat

theorem appendSlice_ok {z : Sizes} {g : GridView A} (hg : HasSizes z g) (d : Dataset K A)
    (hd : Fits z d) (time : K) (fields : List String) :
    ∃ d', appendSlice g time defaultLocations (writerIds (allRows z.rows) g.cols)
        (writerNames fields) true d = .ok d' ∧
      d'.times = d.times ++ [time] ∧ d'.dims = d.dims ∧ d'.xOf = d.xOf ∧ d'.yOf = d.yOf ∧
      (∀ l n j, slice d' l n j =
        if j = d.times.length ∧ n ∈ (g.fields l).map (·.1) ∧ Requested fields l n then g.field l n
        else slice d l n j) ∧
      d'.layerDim = max d.layerDim g.nLayers ∧
      ∀ n k, layerSlice d' n k =
        if n = "thickness" ∧ k < g.nLayers then g.dz[k]?
        else if n ∈ g.tracking ∧ k < g.nLayers then (g.layer n)[k]?
        else layerSlice d n k := by
  let d1 : Dataset K A := { d with times := d.times ++ [time] }
  obtain ⟨d2, h2, f2, s2⟩ := forLocs_setField_ok hg
    (fun loc => (writerIds (allRows z.rows) g.cols).get loc)
    (fun loc => namesDict g defaultLocations (writerNames fields) loc) defaultLocations d1
    (fun loc hl => hd.field loc (by
      simp only [defaultLocations, List.mem_cons, List.not_mem_nil, or_false] at hl
      rcases hl with rfl | rfl | rfl | rfl | rfl <;> simp [locations]))
    (fun loc hl => by
      simp only [defaultLocations, List.mem_cons, List.not_mem_nil, or_false] at hl
      rcases hl with rfl | rfl | rfl | rfl | rfl
      · exact .inr fun v _ => rfl
      · exact .inr fun v _ => rfl
      · exact .inr fun v _ => rfl
      · exact .inr fun v _ => rfl
      · exact .inl rfl)
  have hrow : d2.dims "row" = some (z.at "row") := by
    rw [f2.dims]
    exact hd.field "row" (by simp [locations])
  obtain ⟨d3, h3, f3, s3⟩ := setField_ok hg (loc := "row") (ids := .list (allRows z.rows))
    (.inr fun v hv => takeIds_full v z.rows hv) ["x_of_shore", "x_of_shelf_edge"] d2 hrow
  have hfits : Fits z d3 := by
    constructor
    · intro loc hl
      rw [f3.dims, f2.dims]
      exact hd.field loc hl
    · rw [f3.dims, f2.dims]
      exact hd.column
  obtain ⟨d4, h4, t4, dm4, x4, y4, v4, ld4, s4⟩ := setLayers_ok hg d3 hfits
  refine ⟨d4, ?_, ?_, ?_, ?_, ?_, ?_, ?_, ?_⟩
  · unfold appendSlice
    dsimp only
    have h2' : forLocs (fun loc => setField g loc ((writerIds (allRows z.rows) g.cols).get loc)
        (namesDict g defaultLocations (writerNames fields) loc)) defaultLocations
        { d with times := d.times ++ [time] } = .ok d2 := h2
    rw [h2']
    dsimp only
    have h3' : setField g "row" (writerIds (allRows z.rows) g.cols).row
        ["x_of_shore", "x_of_shelf_edge"] d2 = .ok d3 := h3
    rw [h3']
    exact h4
  · rw [t4, f3.times, f2.times]
  · rw [dm4, f3.dims, f2.dims]
  · rw [x4, f3.xOf, f2.xOf]
  · rw [y4, f3.yOf, f2.yOf]
  · intro l n j
    have e4 : slice d4 l n j = slice d3 l n j := by
      unfold slice
      rw [v4]
    have ht : d1.times.length - 1 = d.times.length := by simp [d1]
    rw [e4, s3, s2, f2.times, ht]
    have e1 : slice d1 l n j = slice d l n j := rfl
    rw [e1]
    by_cases hj : j = d.times.length
    · by_cases hl : l ∈ defaultLocations
      · have hne : l ≠ "row" := by
          rintro rfl
          revert hl
          decide
        simp only [hl, mem_writer_fieldNames hl, hj, hne, true_and, and_true, false_and, if_false]
      · by_cases hr : l = "row"
        · subst hr
          simp only [hl, mem_row_fieldNames (fields := fields), hj, true_and, and_true, false_and,
            if_false]
        · have : ¬ Requested fields l n := by
            intro h
            rcases requested_location h with h | h
            · exact hl h
            · exact hr h
          simp [hl, hr, this]
    · simp [hj]
  · rw [ld4, f3.layerDim, f2.layerDim]
  · intro n k
    have e : layerSlice d3 n k = layerSlice d n k := by
      unfold layerSlice
      rw [f3.layerVars, f2.layerVars]
    rw [s4, e]

theorem newDataset_ok {z : Sizes} {g : GridView A} (hg : HasSizes z g) :
    ∃ d : Dataset K A, newDataset g defaultLocations (writerIds (allRows z.rows) g.cols) = .ok d ∧
      Fits z d ∧ d.times = [] ∧ (∀ l n j, slice d l n j = none) ∧ d.layerDim = 0 ∧
      (∀ n k, layerSlice d n k = none) ∧
      d.yOf "row" = some ((g.yOf "row").take z.rows) ∧
      d.xOf "column" = some ((g.xOf "column").take (z.cols - 2)) ∧
      ∀ loc ∈ ["node", "link", "face", "cell"],
        d.xOf loc = some (g.xOf loc) ∧ d.yOf loc = some (g.yOf loc) := by
  have hy : takeIds (g.yOf "row") (.list (allRows z.rows)) = .ok ((g.yOf "row").take z.rows) :=
    takeIds_range _ _ (by rw [hg.yRow]; omega)
  have hx : takeIds (g.xOf "column") (.list ((List.range (g.cols - 2)).map Int.ofNat)) =
      .ok ((g.xOf "column").take (z.cols - 2)) := by
    rw [hg.cols]
    exact takeIds_range _ _ (by rw [hg.xCol]; omega)
  have ly : ((g.yOf "row").take z.rows).length = z.rows := by
    rw [List.length_take, hg.yRow]
    omega
  have lx : ((g.xOf "column").take (z.cols - 2)).length = z.cols - 2 := by
    rw [List.length_take, hg.xCol]
    omega
  have e1 := hg.x "node" (by simp)
  have e2 := hg.x "link" (by simp)
  have e3 := hg.x "face" (by simp)
  have e4 := hg.x "cell" (by simp)
  have hall : ∀ a : List A, takeIds a .all = .ok a := fun _ => rfl
  let dims : String → Option ℕ := fun d =>
    if d = "grid" then some 1 else if d = "cell" then some (g.xOf "cell").length
    else if d = "face" then some (g.xOf "face").length
    else if d = "link" then some (g.xOf "link").length
    else if d = "node" then some (g.xOf "node").length
    else if d = "column" then some ((g.xOf "column").take (z.cols - 2)).length
    else if d = "row" then some ((g.yOf "row").take z.rows).length else none
  let xs : String → Option (List A) := fun d =>
    if d = "cell" then some (g.xOf "cell") else if d = "face" then some (g.xOf "face")
    else if d = "link" then some (g.xOf "link") else if d = "node" then some (g.xOf "node")
    else if d = "column" then some ((g.xOf "column").take (z.cols - 2)) else none
  let ys : String → Option (List A) := fun d =>
    if d = "cell" then some (g.yOf "cell") else if d = "face" then some (g.yOf "face")
    else if d = "link" then some (g.yOf "link") else if d = "node" then some (g.yOf "node")
    else if d = "row" then some ((g.yOf "row").take z.rows) else none
  refine ⟨⟨[], dims, xs, ys, fun _ => none, 0, fun _ => none⟩, ?_, ?_⟩
  · unfold newDataset writerIds defaultLocations
    simp only [forLocs]
    simp [setGridCoordinates, knownLocations, IdsArg.get, hy, hx, hall, Dataset.new, dims, xs, ys]
  · refine ⟨⟨?_, ?_⟩, rfl, fun _ _ _ => rfl, rfl, fun _ _ => rfl, ?_, ?_, ?_⟩
    · intro loc hl
      simp only [locations, List.mem_cons, List.not_mem_nil, or_false] at hl
      rcases hl with rfl | rfl | rfl | rfl | rfl | rfl <;> simp [Sizes.at, e1, e2, e3, e4, hg.yRow, dims]
    · simp [hg.xCol, dims]
    · simp [ys]
    · simp [xs]
    · intro loc hl
      simp only [List.mem_cons, List.not_mem_nil, or_false] at hl
      rcases hl with rfl | rfl | rfl | rfl <;> simp [xs, ys]

/-- A file that holds the given writes, for a grid of the given sizes. -/
structure Holds (z : Sizes) (d : Dataset K A) (ws : List (Write K A)) : Prop where
  fits : Fits z d
  records : Records d ws
  layers : LayerRecords d ws

theorem holds_append {z : Sizes} {d : Dataset K A} {ws : List (Write K A)} (h : Holds z d ws)
    {w : Write K A} (hg : HasSizes z w.view) :
    ∃ d', appendSlice w.view w.time defaultLocations (writerIds (allRows z.rows) w.view.cols)
        (writerNames w.fields) true d = .ok d' ∧ d'.xOf = d.xOf ∧ d'.yOf = d.yOf ∧
      Holds z d' (ws ++ [w]) := by
  obtain ⟨d', h', ht, hdims, hx, hy, hs, hld, hls⟩ := appendSlice_ok hg d h.fits w.time w.fields
  have hlen : d.times.length = ws.length := by
    rw [h.records.times, List.length_map]
  refine ⟨d', h', hx, hy, ⟨?_, ?_⟩, ⟨?_, ?_, ?_, ?_⟩, ⟨?_, ?_, ?_⟩⟩
  · intro loc hl
    rw [hdims]
    exact h.fits.field loc hl
  · rw [hdims]
    exact h.fits.column
  · rw [ht, h.records.times]
    simp
  · intro i v hi loc name hr
    rw [hs, hlen]
    by_cases hil : i = ws.length
    · subst hil
      have hv : v = w := by
        rw [List.getElem?_append_right (le_refl _)] at hi
        simpa using hi.symm
      subst hv
      by_cases ha : name ∈ (v.view.fields loc).map (·.1)
      · rw [if_pos ⟨rfl, ha, hr⟩]
      · rw [if_neg (fun h => ha h.2.1), field_eq_none ha]
        exact h.records.beyond _ (le_refl _) loc name
    · rw [if_neg (fun h => hil h.1)]
      have hlt : i < ws.length := by
        have := (List.getElem?_eq_some_iff.mp hi).1
        rw [List.length_append, List.length_singleton] at this
        omega
      rw [List.getElem?_append_left hlt] at hi
      exact h.records.requested i v hi loc name hr
  · intro i v hi loc name hr
    rw [hs, hlen]
    by_cases hil : i = ws.length
    · subst hil
      have hv : v = w := by
        rw [List.getElem?_append_right (le_refl _)] at hi
        simpa using hi.symm
      subst hv
      rw [if_neg (fun h => hr h.2.2)]
      exact h.records.beyond _ (le_refl _) loc name
    · rw [if_neg (fun h => hil h.1)]
      have hlt : i < ws.length := by
        have := (List.getElem?_eq_some_iff.mp hi).1
        rw [List.length_append, List.length_singleton] at this
        omega
      rw [List.getElem?_append_left hlt] at hi
      exact h.records.others i v hi loc name hr
  · intro i hi loc name
    rw [List.length_append, List.length_singleton] at hi
    rw [hs, hlen, if_neg (by omega)]
    exact h.records.beyond i (by omega) loc name
  · rw [hld, h.layers.dim]
    simp
  · intro k
    rw [hls, List.reverse_append]
    by_cases hk : k < w.view.nLayers
    · simp [hk]
    · simp only [hk, and_false, if_false, List.reverse_singleton, List.singleton_append,
        List.find?_cons, decide_false]
      exact h.layers.thickness k
  · intro name hn k
    rw [hls, List.reverse_append, if_neg (fun h => hn h.1)]
    by_cases hk : name ∈ w.view.tracking ∧ k < w.view.nLayers
    · simp [hk]
    · rw [if_neg hk]
      simp only [hk, List.reverse_singleton, List.singleton_append, List.find?_cons, decide_false]
      exact h.layers.layer name hn k

theorem holds_new {z : Sizes} {d : Dataset K A} (hf : Fits z d) (ht : d.times = [])
    (hs : ∀ l n j, slice d l n j = none) (hd : d.layerDim = 0)
    (hl : ∀ n k, layerSlice d n k = none) : Holds z d [] :=
  ⟨hf, ⟨ht, fun i w h => by simp at h, fun i w h => by simp at h, fun i _ l n => hs l n i⟩,
    ⟨hd, fun k => by simp [hl], fun n _ k => by simp [hl]⟩⟩

/-- The operations of a call. -/
def Spec.Call.ops (c : Call K A) : List (WriterOp K A) :=
  [.setInterval (.int c.interval), .setFields c.fields, .step c.view c.dt]

section
variable [Field K] [LinearOrder K]

theorem writerRun_append (s : Writer K × FileSystem K A) (ops ops' : List (WriterOp K A)) :
    writerRun s (ops ++ ops') =
      match writerRun s ops with
      | .error e => .error e
      | .ok s' => writerRun s' ops' := by
  induction ops generalizing s with
  | nil => rfl
  | cons op ops ih =>
    rw [List.cons_append]
    simp only [writerRun]
    cases h : writerOp op s with
    | error e => rfl
    | ok s' => exact ih s'

theorem writesOf_append (calls : List (Call K A)) (c : Call K A) :
    writesOf (calls ++ [c]) = writesOf calls ++
      if c.interval ∣ calls.length then [⟨elapsed calls, c.fields, c.view⟩] else [] := by
  unfold writesOf
  rw [List.length_append, List.length_singleton, List.range_succ, List.filterMap_append]
  congr 1
  · apply List.filterMap_congr
    intro j hj
    have hj := List.mem_range.mp hj
    rw [List.getElem?_append_left hj, List.take_append_of_le_length (by omega)]
  · rw [List.filterMap_cons, List.getElem?_append_right (le_refl _)]
    by_cases h : c.interval ∣ calls.length
    · simp [h]
    · simp [h]

theorem writesOf_ne_nil {calls : List (Call K A)} (h : calls ≠ []) : writesOf calls ≠ [] := by
  induction calls using List.reverseRecOn with
  | nil => exact absurd rfl h
  | append_singleton calls c ih =>
    rw [writesOf_append]
    by_cases hc : calls = []
    · subst hc
      simp
    · intro he
      exact ih hc (List.append_eq_nil_iff.mp he).1

theorem elapsed_append (calls : List (Call K A)) (c : Call K A) :
    elapsed (calls ++ [c]) = elapsed calls + c.dt.getD 1 := by
  unfold elapsed
  simp

theorem dvd_iff_mod {m n : ℕ} : m ∣ n ↔ n % m = 0 := Nat.dvd_iff_mod_eq_zero

/-- The state of a writer and its file after some calls. -/
structure After (z : Sizes) (w0 : Writer K) (fs0 : FileSystem K A) (calls : List (Call K A))
    (g0 : Option (GridView A)) (w : Writer K) (fs : FileSystem K A) : Prop where
  clobber : w.clobber = w0.clobber
  rows : w.rows = w0.rows
  filepath : w.filepath = w0.filepath
  time : w.time = elapsed calls
  count : w.count = calls.length
  others : ∀ p, p ≠ w0.filepath → fs p = fs0 p
  file : match g0 with
    | none => fs w0.filepath = .absent ∧ calls = []
    | some g => ∃ d, fs w0.filepath = .dataset d ∧ Holds z d (writesOf calls) ∧
      d.yOf "row" = some ((g.yOf "row").take z.rows) ∧
      d.xOf "column" = some ((g.xOf "column").take (z.cols - 2)) ∧
      ∀ loc ∈ ["node", "link", "face", "cell"],
        d.xOf loc = some (g.xOf loc) ∧ d.yOf loc = some (g.yOf loc)

theorem after_step {z : Sizes} {w0 : Writer K} {fs0 : FileSystem K A} {calls : List (Call K A)}
    {g0 : Option (GridView A)} {w : Writer K} {fs : FileSystem K A}
    (hrows : w0.rows = allRows z.rows) (h : After z w0 fs0 calls g0 w fs) (c : Call K A)
    (hc : 0 < c.interval) (hg : HasSizes z c.view) :
    ∃ w' fs', writerRun (w, fs) c.ops = .ok (w', fs') ∧
      After z w0 fs0 (calls ++ [c]) (some (g0.getD c.view)) w' fs' := by
  have hop : writerRun (w, fs) c.ops =
      writerStep c.view c.dt ({ w with interval := c.interval, fields := c.fields }, fs) := by
    unfold Spec.Call.ops
    have hi : checkInterval (.int (c.interval : ℤ) : PyNumber K) = .ok c.interval := by
      have : ¬ ((c.interval : ℤ) < 0) := by omega
      simp only [checkInterval, this, if_false, Int.toNat_natCast]
    simp only [writerRun, writerOp, hi]
    cases writerStep c.view c.dt ({ w with interval := c.interval, fields := c.fields }, fs) <;> rfl
  have hci : c.interval ≠ 0 := by omega
  let w' : Writer K := { w with interval := c.interval, fields := c.fields,
                                time := w.time + c.dt.getD 1, count := w.count + 1 }
  have htime : w'.time = elapsed (calls ++ [c]) := by
    rw [elapsed_append, ← h.time]
  have hcount : w'.count = (calls ++ [c]).length := by
    simp [w', h.count]
  by_cases hd : c.interval ∣ calls.length
  · -- this call writes
    have hm : w.count % c.interval = 0 := by
      rw [h.count]
      exact dvd_iff_mod.mp hd
    -- the file as opened
    have hopen : ∃ d0 : Dataset K A,
        openDataset c.view .a defaultLocations (writerIds w.rows c.view.cols) (fs w.filepath) =
          .ok d0 ∧ Holds z d0 (writesOf calls) ∧
        d0.yOf "row" = some (((g0.getD c.view).yOf "row").take z.rows) ∧
        d0.xOf "column" = some (((g0.getD c.view).xOf "column").take (z.cols - 2)) ∧
        ∀ loc ∈ ["node", "link", "face", "cell"],
          d0.xOf loc = some ((g0.getD c.view).xOf loc) ∧
          d0.yOf loc = some ((g0.getD c.view).yOf loc) := by
      rw [h.filepath, h.rows, hrows]
      have hfile := h.file
      cases g0 with
      | none =>
        obtain ⟨ha, hnil⟩ := hfile
        obtain ⟨d, e1, e2, e3, e4, e5, e6, e7, e8, e9⟩ := newDataset_ok (K := K) hg
        refine ⟨d, ?_, ?_, e7, e8, e9⟩
        · rw [ha]
          exact e1
        · rw [hnil]
          exact holds_new e2 e3 e4 e5 e6
      | some g =>
        obtain ⟨d, e1, e2, e3, e4, e5⟩ := hfile
        refine ⟨d, ?_, e2, e3, e4, e5⟩
        rw [e1]
        rfl
    obtain ⟨d0, o1, o2, o3, o4, o5⟩ := hopen
    obtain ⟨d1, a1, ax, ay, a2⟩ := holds_append (w := ⟨elapsed calls, c.fields, c.view⟩) o2 hg
    refine ⟨w', Function.update fs w.filepath (.dataset d1), ?_, ?_⟩
    · rw [hop]
      unfold writerStep toNetcdf
      simp only [hci, if_false, hm, if_true]
      have o1' := o1
      unfold writerIds at o1'
      rw [if_neg (by simp)]
      rw [o1']
      dsimp only
      have a1' := a1
      dsimp only at a1'
      unfold writerIds writerNames at a1'
      rw [← hrows, ← h.rows, ← h.time] at a1'
      rw [a1']
    · refine ⟨h.clobber, h.rows, h.filepath, htime, hcount, ?_, ?_⟩
      · intro p hp
        rw [h.filepath, Function.update_of_ne hp]
        exact h.others p hp
      · refine ⟨d1, ?_, ?_, ?_, ?_, ?_⟩
        · rw [h.filepath, Function.update_self]
        · rw [writesOf_append, if_pos hd]
          exact a2
        · rw [ay]; exact o3
        · rw [ax]; exact o4
        · rw [ax, ay]; exact o5
  · have hm : ¬ w.count % c.interval = 0 := by
      rw [h.count]
      exact fun e => hd (dvd_iff_mod.mpr e)
    refine ⟨w', fs, ?_, ?_⟩
    · rw [hop]
      unfold writerStep
      simp only [hci, if_false, hm]
      rfl
    · refine ⟨h.clobber, h.rows, h.filepath, htime, hcount, h.others, ?_⟩
      have hfile := h.file
      cases g0 with
      | none =>
        exfalso
        apply hd
        rw [hfile.2]
        simp
      | some g =>
        obtain ⟨d, e1, e2, e3⟩ := hfile
        refine ⟨d, e1, ?_, e3⟩
        rw [writesOf_append, if_neg hd, List.append_nil]
        exact e2

theorem after_run {z : Sizes} {w0 : Writer K} {fs0 : FileSystem K A}
    (hrows : w0.rows = allRows z.rows) (ht : w0.time = 0) (hc : w0.count = 0)
    (hfs : fs0 w0.filepath = .absent) (calls : List (Call K A))
    (hcalls : ∀ c ∈ calls, 0 < c.interval ∧ HasSizes z c.view) :
    ∃ w fs, writerRun (w0, fs0) (calls.flatMap Call.ops) = .ok (w, fs) ∧
      After z w0 fs0 calls (calls.head?.map (·.view)) w fs := by
  induction calls using List.reverseRecOn with
  | nil => exact ⟨w0, fs0, rfl, rfl, rfl, rfl, ht, hc, fun _ _ => rfl, hfs, rfl⟩
  | append_singleton calls c ih =>
    obtain ⟨w, fs, h1, h2⟩ := ih (fun c hc => hcalls c (List.mem_append_left _ hc))
    obtain ⟨w', fs', h3, h4⟩ := after_step hrows h2 c (hcalls c (by simp)).1 (hcalls c (by simp)).2
    refine ⟨w', fs', ?_, ?_⟩
    · rw [List.flatMap_append, writerRun_append, h1]
      simpa using h3
    · have : (calls ++ [c]).head?.map (·.view) =
          some ((calls.head?.map (·.view)).getD c.view) := by
        cases calls <;> rfl
      rw [this]
      exact h4

end

end Verif
