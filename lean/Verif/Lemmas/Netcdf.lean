import Verif.Lemmas.Output
import Verif.Spec.Netcdf

/-!
# Lemmas about `to_netcdf`
-/

set_option autoImplicit false
set_option linter.unusedSectionVars false

namespace Verif

open Spec

variable {K A : Type*}

theorem takeIds_picked (v : List A) (ids : Ids) (h : ValidIds v.length ids) :
    takeIds v ids = .ok (picked ids v) := by
  cases ids with
  | all => rfl
  | list l =>
    simp only [takeIds, picked]
    induction l with
    | nil => rfl
    | cons i l ih =>
      obtain ⟨h1, h2⟩ := h i (List.mem_cons_self ..)
      have hi : ∃ a, npIndex v i = .ok a ∧
          v[(if i < 0 then i + v.length else i).toNat]? = some a := by
        unfold npIndex
        dsimp only
        have h0 : ¬ (if i < 0 then i + (v.length : ℤ) else i) < 0 := by split_ifs <;> omega
        have hl : (if i < 0 then i + (v.length : ℤ) else i).toNat < v.length := by
          split_ifs <;> omega
        rw [if_neg h0, List.getElem?_eq_getElem hl]
        exact ⟨_, rfl, rfl⟩
      obtain ⟨a, a1, a2⟩ := hi
      rw [List.mapM_cons, a1, ih fun j hj => h j (List.mem_cons_of_mem _ hj), List.filterMap_cons, a2]
      rfl

theorem picked_length (v : List A) (ids : Ids) (h : ValidIds v.length ids) :
    (picked ids v).length = match ids with
      | .all => v.length
      | .list l => l.length := by
  cases ids with
  | all => rfl
  | list l =>
    simp only [picked]
    induction l with
    | nil => rfl
    | cons i l ih =>
      obtain ⟨h1, h2⟩ := h i (List.mem_cons_self ..)
      have hl : (if i < 0 then i + (v.length : ℤ) else i).toNat < v.length := by
        split_ifs <;> omega
      rw [List.filterMap_cons, List.getElem?_eq_getElem hl]
      simp only [List.length_cons]
      rw [ih fun j hj => h j (List.mem_cons_of_mem _ hj)]

/-- What is to be written of the fields at a location can be written. -/
def CanWrite (g : GridView A) (loc : String) (ids : Ids) (n : ℕ)
    (out : String → Option (List A)) : Prop :=
  ∀ name v, g.field loc name = some v → ∃ v',
    (if loc = "grid" then (.ok v : Except Err (List A)) else takeIds v ids) = .ok v' ∧
    v'.length = n ∧ out name = some v'

theorem setOneField_write {g : GridView A} {d : Dataset K A} {loc : String} {ids : Ids} {n : ℕ}
    {out : String → Option (List A)} (hdim : d.dims loc = some n) (hw : CanWrite g loc ids n out)
    {name : String} (hname : name ∈ (g.fields loc).map (·.1)) :
    ∃ d', setOneField g loc ids name d = .ok d' ∧ SameFrame d d' ∧
      ∀ l nm j, slice d' l nm j =
        if l = loc ∧ nm = name ∧ j = d.times.length - 1 then out name else slice d l nm j := by
  obtain ⟨v, hv⟩ := field_isSome hname
  obtain ⟨v', ht, hlen, hout⟩ := hw name v hv
  have hb : broadcastTo n v' = .ok v' := by
    unfold broadcastTo
    rw [if_pos hlen]
  let vars' : String × String → Option (ℕ → Option (List A)) := fun k =>
    if k = (loc, name) then
      some (fun j => if j = d.times.length - 1 then some v'
        else ((d.vars (loc, name)).getD fun _ => none) j)
    else d.vars k
  refine ⟨{ d with vars := vars' }, ?_, ?_, ?_⟩
  · unfold setOneField
    simp only [hv, ht, hdim, hb]
    rfl
  · exact ⟨rfl, rfl, rfl, rfl, rfl, rfl⟩
  · intro l nm j
    unfold slice
    dsimp only [vars']
    by_cases hk : (l, nm) = (loc, name)
    · obtain ⟨rfl, rfl⟩ := Prod.mk.inj hk
      rw [if_pos rfl]
      simp only [Option.bind_some]
      by_cases hj : j = d.times.length - 1
      · simp [hj, hout]
      · simp only [hj, if_false, and_false]
        cases d.vars (l, nm) <;> rfl
    · rw [if_neg hk, if_neg]
      rintro ⟨rfl, rfl, _⟩
      exact hk rfl

theorem setFieldNames_write {g : GridView A} {loc : String} {ids : Ids} {n : ℕ}
    {out : String → Option (List A)} (hw : CanWrite g loc ids n out) :
    ∀ (names : List String) (d : Dataset K A), d.dims loc = some n →
    (∀ nm ∈ names, nm ∈ (g.fields loc).map (·.1)) →
    ∃ d', setFieldNames g loc ids names d = .ok d' ∧ SameFrame d d' ∧
      ∀ l nm j, slice d' l nm j =
        if l = loc ∧ nm ∈ names ∧ j = d.times.length - 1 then out nm else slice d l nm j := by
  intro names
  induction names with
  | nil =>
    intro d _ _
    exact ⟨d, rfl, ⟨rfl, rfl, rfl, rfl, rfl, rfl⟩, fun l nm j => by simp⟩
  | cons name names ih =>
    intro d hdim hsub
    obtain ⟨d1, h1, f1, s1⟩ := setOneField_write hdim hw (hsub name (List.mem_cons_self ..))
    obtain ⟨d2, h2, f2, s2⟩ := ih d1 (by rw [f1.dims]; exact hdim)
      (fun nm hn => hsub nm (List.mem_cons_of_mem _ hn))
    refine ⟨d2, ?_, f1.trans f2, ?_⟩
    · simp only [setFieldNames, h1, h2]
    · intro l nm j
      rw [s2, s1, f1.times]
      by_cases hl : l = loc
      · by_cases hj : j = d.times.length - 1
        · by_cases hn : nm = name
          · subst hn
            simp [hl, hj]
          · simp [hl, hj, hn]
        · simp [hj]
      · simp [hl]

/-- The fields at the locations given. -/
theorem forLocs_write {g : GridView A} (ids : String → Ids) (names : String → List String)
    (size : String → ℕ) (out : String → String → Option (List A)) :
    ∀ (locs : List String) (d : Dataset K A),
    (∀ loc ∈ locs, d.dims loc = some (size loc) ∧ CanWrite g loc (ids loc) (size loc) (out loc)) →
    ∃ d', forLocs (fun loc => setField g loc (ids loc) (names loc)) locs d = .ok d' ∧
      SameFrame d d' ∧
      ∀ l n j, slice d' l n j =
        if l ∈ locs ∧ n ∈ fieldNames g l (names l) ∧ j = d.times.length - 1 then out l n
        else slice d l n j := by
  intro locs
  induction locs with
  | nil =>
    intro d _
    exact ⟨d, rfl, ⟨rfl, rfl, rfl, rfl, rfl, rfl⟩, fun l n j => by simp⟩
  | cons loc locs ih =>
    intro d hdim
    obtain ⟨e1, e2⟩ := hdim loc (List.mem_cons_self ..)
    obtain ⟨d1, h1, f1, s1⟩ := setFieldNames_write e2 (fieldNames g loc (names loc)) d e1
      (fun _ hn => (mem_fieldNames.mp hn).1)
    obtain ⟨d2, h2, f2, s2⟩ := ih d1
      (fun l hl => by rw [f1.dims]; exact hdim l (List.mem_cons_of_mem _ hl))
    refine ⟨d2, ?_, f1.trans f2, ?_⟩
    · have : setField g loc (ids loc) (names loc) d = .ok d1 := h1
      simp only [forLocs, this, h2]
    · intro l n j
      rw [s2, s1, f1.times]
      by_cases hl : l = loc
      · subst hl
        simp only [true_and, List.mem_cons, true_or]
        by_cases hc : n ∈ fieldNames g l (names l) ∧ j = d.times.length - 1
        · rw [if_pos hc]
          split <;> rfl
        · rw [if_neg hc, if_neg (fun h => hc h.2)]
      · simp [hl]

/-- The number of elements that `ids` picks. -/
def pickedSize (n : ℕ) : Ids → ℕ
  | .all => n
  | .list l => l.length

theorem pickedSize_eq (v : List A) (ids : Ids) (h : ValidIds v.length ids) :
    (picked ids v).length = pickedSize v.length ids := by
  rw [picked_length v ids h]
  cases ids <;> rfl

/-- The size of a dimension of a new file. -/
def fileSize (z : Sizes) (ids : IdsArg) (loc : String) : ℕ :=
  if loc = "grid" then 1 else pickedSize (z.at loc) (ids.get loc)

/-- Everything in a new file but the coordinates and dimensions. -/
structure NoSlices (d : Dataset K A) : Prop where
  times : d.times = []
  vars : d.vars = fun _ => none
  layerDim : d.layerDim = 0
  layerVars : d.layerVars = fun _ => none

theorem coordinates_write {z : Sizes} {g : GridView A} (hg : HasSizes z g) (ids : IdsArg)
    (hids : ValidIds (z.size "node") ids.node) :
    ∀ (locs : List String) (d : Dataset K A), locs.Nodup → locs ⊆ defaultLocations →
    (∀ loc ∈ locs, d.dims loc = none) → NoSlices d →
    ∃ d', forLocs (fun loc => setGridCoordinates g loc (ids.get loc)) locs d = .ok d' ∧ NoSlices d' ∧
      (∀ loc ∉ locs, d'.dims loc = d.dims loc) ∧
      (∀ loc ∈ locs, d'.dims loc = some (fileSize z ids loc)) ∧
      (∀ loc ∉ locs, d'.xOf loc = d.xOf loc ∧ d'.yOf loc = d.yOf loc) ∧
      ∀ loc ∈ locs, loc ≠ "grid" → d'.xOf loc = some (picked (ids.get loc) (g.xOf loc)) ∧
        d'.yOf loc = some (picked (ids.get loc) (g.yOf loc)) := by
  intro locs
  induction locs with
  | nil =>
    intro d _ _ _ hb
    exact ⟨d, rfl, hb, fun _ _ => rfl, by simp, fun _ _ => ⟨rfl, rfl⟩, by simp⟩
  | cons loc locs ih =>
    intro d hnd hsub hnone hb
    obtain ⟨hnot, hnd'⟩ := List.nodup_cons.mp hnd
    have hloc := hsub (List.mem_cons_self ..)
    have hknown : loc ∈ knownLocations := by
      simp only [defaultLocations, List.mem_cons, List.not_mem_nil, or_false] at hloc
      rcases hloc with rfl | rfl | rfl | rfl | rfl <;> simp [knownLocations]
    have step : ∃ d1 : Dataset K A, setGridCoordinates g loc (ids.get loc) d = .ok d1 ∧ NoSlices d1 ∧
        (∀ l, l ≠ loc → d1.dims l = d.dims l ∧ d1.xOf l = d.xOf l ∧ d1.yOf l = d.yOf l) ∧
        d1.dims loc = some (fileSize z ids loc) ∧
        (loc ≠ "grid" → d1.xOf loc = some (picked (ids.get loc) (g.xOf loc)) ∧
          d1.yOf loc = some (picked (ids.get loc) (g.yOf loc))) := by
      unfold setGridCoordinates
      rw [if_neg (not_not.mpr hknown)]
      by_cases h1 : loc = "grid"
      · rw [if_pos h1]
        exact ⟨_, rfl, ⟨hb.times, hb.vars, hb.layerDim, hb.layerVars⟩,
          fun l hl => ⟨by simp [hl], rfl, rfl⟩, by simp [fileSize, h1], fun h => absurd h1 h⟩
      have hmem : loc ∈ ["node", "link", "face", "cell"] := by
        simp only [defaultLocations, List.mem_cons, List.not_mem_nil, or_false] at hloc ⊢
        tauto
      have h2 : loc ≠ "row" := by rintro rfl; simp at hmem
      have h3 : loc ≠ "column" := by rintro rfl; simp at hmem
      have hx := hg.x loc hmem
      have hy := hg.y loc hmem
      have hv : ∀ v : List A, v.length = z.size loc → ValidIds v.length (ids.get loc) := by
        intro v hv
        rw [hv]
        unfold IdsArg.get
        by_cases hn : loc = "node"
        · subst hn; rw [if_pos rfl]; exact hids
        · rw [if_neg hn, if_neg h2, if_neg h3]; trivial
      rw [if_neg h1, hnone loc (List.mem_cons_self ..), if_neg (by simp), if_neg h2, if_neg h3,
        takeIds_picked _ _ (hv _ hx), takeIds_picked _ _ (hv _ hy)]
      refine ⟨_, rfl, ⟨hb.times, hb.vars, hb.layerDim, hb.layerVars⟩,
        fun l hl => ⟨by simp [hl], by simp [hl], by simp [hl]⟩, ?_, fun _ => ⟨by simp, by simp⟩⟩
      dsimp only
      rw [if_pos rfl, pickedSize_eq _ _ (hv _ hx), hx]
      simp [fileSize, h1, Sizes.at, h2]
    obtain ⟨d1, s1, s2, s3, s4, s5⟩ := step
    obtain ⟨d2, r1, r2, r3, r4, r5, r6⟩ := ih d1 hnd' (fun l hl => hsub (List.mem_cons_of_mem _ hl))
      (fun l hl => by
        rw [(s3 l (by rintro rfl; exact hnot hl)).1]
        exact hnone l (List.mem_cons_of_mem _ hl)) s2
    refine ⟨d2, by simp only [forLocs, s1, r1], r2, ?_, ?_, ?_, ?_⟩
    · intro l hl
      simp only [List.mem_cons, not_or] at hl
      rw [r3 l hl.2, (s3 l hl.1).1]
    · intro l hl
      rcases List.mem_cons.mp hl with rfl | hl
      · rw [r3 l hnot, s4]
      · exact r4 l hl
    · intro l hl
      simp only [List.mem_cons, not_or] at hl
      rw [(r5 l hl.2).1, (r5 l hl.2).2]
      exact (s3 l hl.1).2
    · intro l hl hne
      rcases List.mem_cons.mp hl with rfl | hl
      · rw [(r5 l hnot).1, (r5 l hnot).2]
        exact s5 hne
      · exact r6 l hl hne

/-- The coordinates of a new file with all rows and columns. -/
theorem newDataset_write {z : Sizes} {g : GridView A} (hg : HasSizes z g) (nodes : Ids)
    (hids : ValidIds (z.size "node") nodes) (locs : List String) (hnd : locs.Nodup)
    (hsub : locs ⊆ defaultLocations) :
    ∃ d : Dataset K A, newDataset g locs { node := nodes } = .ok d ∧ NoSlices d ∧
      d.dims "row" = some (z.rows + 2) ∧ d.dims "column" = some z.cols ∧
      d.yOf "row" = some (g.yOf "row") ∧ d.xOf "column" = some (g.xOf "column") ∧
      (∀ loc ∈ locs, d.dims loc = some (fileSize z { node := nodes } loc)) ∧
      ∀ loc ∈ locs, loc ≠ "grid" →
        d.xOf loc = some (picked (IdsArg.get { node := nodes } loc) (g.xOf loc)) ∧
        d.yOf loc = some (picked (IdsArg.get { node := nodes } loc) (g.yOf loc)) := by
  have hrow : "row" ∉ locs := fun h => by simpa [defaultLocations] using hsub h
  have hcol : "column" ∉ locs := fun h => by simpa [defaultLocations] using hsub h
  let d0 : Dataset K A :=
    { (Dataset.new : Dataset K A) with
      dims := fun d => if d = "column" then some (g.xOf "column").length
        else if d = "row" then some (g.yOf "row").length else none
      xOf := fun d => if d = "column" then some (g.xOf "column") else none
      yOf := fun d => if d = "row" then some (g.yOf "row") else none }
  obtain ⟨d, h1, h2, h3, h4, h5, h6⟩ := coordinates_write (K := K) hg { node := nodes } hids locs d0
    hnd hsub (fun loc hl => by
      have h1 : loc ≠ "column" := by rintro rfl; exact hcol hl
      have h2 : loc ≠ "row" := by rintro rfl; exact hrow hl
      simp [d0, h1, h2]) ⟨rfl, rfl, rfl, rfl⟩
  refine ⟨d, ?_, h2, ?_, ?_, ?_, ?_, h4, h6⟩
  · unfold newDataset
    simp only [forLocs]
    rw [show setGridCoordinates g "row" (IdsArg.get { node := nodes } "row")
        (Dataset.new : Dataset K A) = .ok { (Dataset.new : Dataset K A) with
          dims := fun d => if d = "row" then some (g.yOf "row").length else none
          yOf := fun d => if d = "row" then some (g.yOf "row") else none } from by
        simp [setGridCoordinates, knownLocations, IdsArg.get, takeIds, Dataset.new]]
    dsimp only
    rw [show setGridCoordinates g "column" (IdsArg.get { node := nodes } "column")
        { (Dataset.new : Dataset K A) with
          dims := fun d => if d = "row" then some (g.yOf "row").length else none
          yOf := fun d => if d = "row" then some (g.yOf "row") else none } = .ok d0 from by
        simp [setGridCoordinates, knownLocations, IdsArg.get, takeIds, Dataset.new, d0]]
    exact h1
  · rw [h3 _ hrow]; simp [d0, hg.yRow]
  · rw [h3 _ hcol]; simp [d0, hg.xCol]
  · rw [(h5 _ hrow).2]; simp [d0]
  · rw [(h5 _ hcol).1]; simp [d0]

/-- Layers of a grid that has none. -/
theorem setLayers_empty {z : Sizes} {g : GridView A} (hg : HasSizes z g) (hn : g.nLayers = 0)
    (d : Dataset K A) (hr : (d.dims "row").isSome) (hc : (d.dims "column").isSome) :
    ∃ d', setLayers g d = .ok d' ∧ d'.times = d.times ∧ d'.vars = d.vars ∧ d'.dims = d.dims ∧
      d'.xOf = d.xOf ∧ d'.yOf = d.yOf ∧ d'.layerDim = d.layerDim := by
  obtain ⟨r, hr⟩ := Option.isSome_iff_exists.mp hr
  obtain ⟨c, hc⟩ := Option.isSome_iff_exists.mp hc
  have hvars : ∀ (names : List String) (vars : String → Option (ℕ → Option (List A))),
      (∀ nm ∈ names, g.layer nm = []) → ∃ v, setLayerVars g r c names vars = .ok v := by
    intro names
    induction names with
    | nil => exact fun vars _ => ⟨vars, rfl⟩
    | cons nm names ih =>
      intro vars hl
      simp only [setLayerVars, hl nm (List.mem_cons_self ..)]
      exact ih _ fun n hn => hl n (List.mem_cons_of_mem _ hn)
  obtain ⟨v, hv⟩ := hvars g.tracking d.layerVars fun nm hm => by
    have := (hg.layer nm hm).1
    rw [hn] at this
    exact List.eq_nil_of_length_eq_zero this
  have hdz : g.dz = [] := by
    have := hg.dz.1
    rw [hn] at this
    exact List.eq_nil_of_length_eq_zero this
  unfold setLayers
  rw [hr, hc]
  dsimp only
  rw [hv, hdz]
  refine ⟨_, rfl, rfl, rfl, rfl, rfl, rfl, ?_⟩
  simp [hn]

theorem mem_field_keys {g : GridView A} {loc name : String} :
    name ∈ (g.fields loc).map (·.1) ↔ (g.field loc name).isSome := by
  constructor
  · intro h
    obtain ⟨v, hv⟩ := field_isSome h
    rw [hv]; rfl
  · intro h
    by_contra hn
    rw [field_eq_none hn] at h
    cases h

theorem mem_fieldNames_has {g : GridView A} {loc : String} {names : List String} {n : String} :
    n ∈ fieldNames g loc names ↔ g.Has loc n ∧ (names = [] ∨ n ∈ names) := by
  rw [mem_fieldNames, mem_field_keys]
  unfold GridView.Has Writable
  tauto

/-- A new slice. -/
theorem appendSlice_write {z : Sizes} {g : GridView A} (hg : HasSizes z g) (nodes : Ids)
    (hids : ValidIds (z.size "node") nodes) (at_ : List String) (hsub : at_ ⊆ defaultLocations)
    (names : Names) (time : K) (withLayers : Bool) (hl : withLayers = false ∨ g.nLayers = 0)
    (hs1 : g.field "row" "x_of_shore" = none) (hs2 : g.field "row" "x_of_shelf_edge" = none)
    (d : Dataset K A) (hd : ∀ loc ∈ at_, d.dims loc = some (fileSize z { node := nodes } loc))
    (hr : (d.dims "row").isSome) (hc : (d.dims "column").isSome) :
    ∃ d', appendSlice g time at_ { node := nodes } names withLayers d = .ok d' ∧
      d'.times = d.times ++ [time] ∧ d'.dims = d.dims ∧ d'.xOf = d.xOf ∧ d'.yOf = d.yOf ∧
      d'.layerDim = d.layerDim ∧
      ∀ l n j, slice d' l n j =
        if l ∈ at_ ∧ n ∈ fieldNames g l (namesDict g at_ names l) ∧ j = d.times.length then
          (g.field l n).map (picked (idsAt nodes l))
        else slice d l n j := by
  have hget : ∀ loc ∈ at_, IdsArg.get { node := nodes } loc = idsAt nodes loc := by
    intro loc hloc
    unfold IdsArg.get idsAt
    split_ifs <;> rfl
  obtain ⟨d2, h2, f2, s2⟩ := forLocs_write (K := K) (g := g)
    (fun loc => IdsArg.get { node := nodes } loc) (namesDict g at_ names)
    (fileSize z { node := nodes })
    (fun l n => (g.field l n).map (picked (idsAt nodes l))) at_
    { d with times := d.times ++ [time] } (fun loc hloc => by
      refine ⟨hd loc hloc, fun name v hv => ?_⟩
      have hlen := hg.fields loc name v hv
      have hdef := hsub hloc
      by_cases h1 : loc = "grid"
      · subst h1
        refine ⟨v, by rw [if_pos rfl], by rw [hlen]; simp [Sizes.at, fileSize], ?_⟩
        dsimp only
        rw [hv]
        simp [idsAt, picked]
      · have hrow : loc ≠ "row" := by
          rintro rfl
          simp [defaultLocations] at hdef
        have hval : ValidIds v.length (IdsArg.get { node := nodes } loc) := by
          rw [hlen, hget loc hloc]
          unfold idsAt
          by_cases hn : loc = "node"
          · subst hn
            simpa [Sizes.at] using hids
          · rw [if_neg hn]; trivial
        refine ⟨_, by rw [if_neg h1, takeIds_picked _ _ hval], ?_, ?_⟩
        · rw [pickedSize_eq _ _ hval, hlen]
          simp [fileSize, h1]
        · dsimp only
          rw [hv, ← hget loc hloc]
          rfl)
  have hrowf : setField g "row" Ids.all ["x_of_shore", "x_of_shelf_edge"] d2 = .ok d2 := by
    have : fieldNames g "row" ["x_of_shore", "x_of_shelf_edge"] = [] := by
      rw [List.eq_nil_iff_forall_not_mem]
      intro n hn
      obtain ⟨⟨a, -⟩, b⟩ := mem_fieldNames_has.mp hn
      rcases b with b | b
      · cases b
      · simp only [List.mem_cons, List.not_mem_nil, or_false] at b
        rcases b with rfl | rfl
        · rw [hs1] at a; cases a
        · rw [hs2] at a; cases a
    unfold setField
    rw [this]
    rfl
  have hslice : ∀ l n j, slice d2 l n j =
        if l ∈ at_ ∧ n ∈ fieldNames g l (namesDict g at_ names l) ∧ j = d.times.length then
          (g.field l n).map (picked (idsAt nodes l))
        else slice d l n j := by
    intro l n j
    rw [s2]
    simp only [List.length_append, List.length_cons, List.length_nil, zero_add,
      Nat.add_sub_cancel]
    rfl
  unfold appendSlice
  dsimp only
  rw [h2]
  dsimp only
  rw [hrowf]
  dsimp only
  cases withLayers with
  | false =>
    exact ⟨d2, rfl, f2.times, f2.dims, f2.xOf, f2.yOf, f2.layerDim, hslice⟩
  | true =>
    have hn : g.nLayers = 0 := by simpa using hl
    rw [if_pos rfl]
    obtain ⟨d3, r1, r2, r3, r4, r5, r6, r7⟩ := setLayers_empty hg hn d2
      (by rw [f2.dims]; exact hr) (by rw [f2.dims]; exact hc)
    refine ⟨d3, r1, r2.trans f2.times, r4.trans f2.dims, r5.trans f2.xOf, r6.trans f2.yOf,
      r7.trans f2.layerDim, ?_⟩
    intro l n j
    rw [← hslice]
    unfold slice
    rw [r3]

theorem nodup_erase_two {l : List String} (h : l.Nodup) (a b n : String) :
    n ∈ (l.erase a).erase b ↔ n ∈ l ∧ n ≠ a ∧ n ≠ b := by
  rw [(h.erase a).mem_erase_iff, h.mem_erase_iff]
  tauto

theorem mem_erase_two {l : List String} {a b n : String} (ha : n ≠ a) (hb : n ≠ b) :
    n ∈ (l.erase a).erase b ↔ n ∈ l := by
  rw [List.mem_erase_of_ne hb, List.mem_erase_of_ne ha]

/-- The names that are written. -/
theorem mem_names_effective {g : GridView A} {at_ : List String} {names : Names}
    (hd : DistinctNames names) {loc name : String} (hloc : loc ∈ at_) :
    name ∈ fieldNames g loc (namesDict g at_ names loc) ↔
      g.Has loc name ∧ Effective g names loc name := by
  rw [mem_fieldNames_has]
  refine and_congr_right fun hh => ?_
  -- all names of the location
  have hall : ∀ keys : List String, keys = (g.fields loc).map (·.1) →
      ((if loc = "grid" then (keys.erase "x_of_shore").erase "x_of_shelf_edge" else keys) = [] ∨
        name ∈ if loc = "grid" then (keys.erase "x_of_shore").erase "x_of_shelf_edge" else keys) := by
    rintro keys rfl
    right
    have hm := mem_field_keys.mpr hh.1
    split_ifs with h1
    · rw [mem_erase_two]
      · exact hm
      · exact fun e => hh.2 ⟨h1, Or.inl e⟩
      · exact fun e => hh.2 ⟨h1, Or.inr e⟩
    · exact hm
  -- the names of a list
  have hlist : ∀ l : List String, l.Nodup →
      (((if loc = "grid" then (l.erase "x_of_shore").erase "x_of_shelf_edge" else l) = [] ∨
        name ∈ if loc = "grid" then (l.erase "x_of_shore").erase "x_of_shelf_edge" else l) ↔
      (name ∈ l ∨ ∀ n ∈ l, ¬ Writable loc n)) := by
    intro l hl
    by_cases h1 : loc = "grid"
    · simp only [if_pos h1]
      rw [List.eq_nil_iff_forall_not_mem, mem_erase_two
        (fun e => hh.2 ⟨h1, Or.inl e⟩) (fun e => hh.2 ⟨h1, Or.inr e⟩)]
      simp only [nodup_erase_two hl, Writable, h1, true_and, not_not]
      constructor
      · rintro (h | h)
        · right
          intro n hn
          by_contra hc
          exact h n ⟨hn, fun e => hc (Or.inl e), fun e => hc (Or.inr e)⟩
        · exact Or.inl h
      · rintro (h | h)
        · exact Or.inr h
        · left
          rintro n ⟨hn, a, b⟩
          rcases h n hn with e | e
          · exact a e
          · exact b e
    · simp only [if_neg h1, Writable, h1, false_and, not_false_eq_true, not_true_eq_false]
      rw [List.eq_nil_iff_forall_not_mem]
      tauto
  unfold namesDict Effective
  cases names with
  | all =>
    simp only [if_pos hloc, iff_true]
    exact hall _ rfl
  | list l =>
    simp only [if_pos hloc]
    rw [hlist _ (List.nodup_dedup _)]
    simp only [List.mem_dedup, List.mem_filter, List.contains_iff_mem, mem_field_keys]
    constructor
    · rintro (h | h)
      · exact Or.inl h.1
      · exact Or.inr fun n hn hw => h n ⟨hn, hw.1⟩ hw.2
    · rintro (h | h)
      · exact Or.inl ⟨h, hh.1⟩
      · exact Or.inr fun n hn hw => h n hn.1 ⟨hn.2, hw⟩
  | dict d =>
    dsimp only
    cases hf : d.find? (fun p => p.1 == loc) with
    | none =>
      dsimp only
      simp only [iff_true]
      left
      split_ifs <;> rfl
    | some p =>
      obtain ⟨k, o⟩ := p
      cases o with
      | none =>
        dsimp only
        simp only [iff_true]
        exact hall _ rfl
      | some l =>
        dsimp only
        exact hlist l (hd k l (List.mem_of_find?_eq_some hf))

end Verif
