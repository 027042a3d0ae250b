import Verif.Props.Output
import Verif.Lemmas.Netcdf

/-!
# C135, C136: Files that `to_netcdf` writes
-/

set_option autoImplicit false
set_option linter.unusedSectionVars false

namespace Verif.Props

open Verif Verif.Spec

variable {K A : Type*}

/-! ## The fields -/

/-- A further slice in a file that holds some calls. -/
theorem holdsCalls_append {z : Sizes} {isNetcdf4 : Bool} {at_ : List String} {nodes : Ids}
    (hids : ValidIds (z.size "node") nodes) (hsub : at_ ⊆ defaultLocations)
    {d : Dataset K A} {done : List (NetcdfCall K A)} (hd : HoldsCalls d at_ nodes done)
    (hdims : ∀ loc ∈ at_, d.dims loc = some (fileSize z { node := nodes } loc))
    (hr : (d.dims "row").isSome) (hc : (d.dims "column").isSome)
    (c : NetcdfCall K A) (hp : PlainCall z isNetcdf4 c) :
    ∃ d', appendSlice c.view c.time at_ { node := nodes } c.names c.withLayers d = .ok d' ∧
      d'.dims = d.dims ∧ d'.xOf = d.xOf ∧ d'.yOf = d.yOf ∧ HoldsCalls d' at_ nodes (done ++ [c]) := by
  obtain ⟨d', h1, h2, h3, h4, h5, h6, h7⟩ := appendSlice_write hp.sizes nodes hids at_ hsub c.names
    c.time c.withLayers (hp.layers.imp id And.left) hp.shore hp.shelf d hdims hr hc
  have hlen : d.times.length = done.length := by rw [hd.times, List.length_map]
  refine ⟨d', h1, h3, h4, h5, ⟨?_, ?_, ?_, ?_, by rw [h6, hd.layers]⟩⟩
  · rw [h2, hd.times]; simp
  · intro i c' hi loc hloc name hh he
    rw [h7]
    by_cases hlt : i < done.length
    · rw [if_neg (by rintro ⟨-, -, rfl⟩; omega)]
      rw [List.getElem?_append_left hlt] at hi
      exact hd.written i c' hi loc hloc name hh he
    · have hi' : i = done.length := by
        have := (List.getElem?_eq_some_iff.mp hi).1
        simp at this
        omega
      subst hi'
      simp at hi
      subst hi
      rw [if_pos ⟨hloc, (mem_names_effective hp.names hloc).mpr ⟨hh, he⟩, hlen.symm⟩]
  · intro i c' hi loc name hno
    rw [h7]
    by_cases hlt : i < done.length
    · rw [if_neg (by rintro ⟨-, -, rfl⟩; omega)]
      rw [List.getElem?_append_left hlt] at hi
      exact hd.others i c' hi loc name hno
    · have hi' : i = done.length := by
        have := (List.getElem?_eq_some_iff.mp hi).1
        simp at this
        omega
      subst hi'
      simp at hi
      subst hi
      rw [if_neg]
      · exact hd.beyond _ le_rfl loc name
      · rintro ⟨a, b, -⟩
        exact hno ⟨a, (mem_names_effective hp.names a).mp b⟩
  · intro i hi loc name
    rw [List.length_append, List.length_singleton] at hi
    rw [h7, if_neg (by rintro ⟨-, -, rfl⟩; omega)]
    exact hd.beyond i (by omega) loc name

theorem toNetcdf_open {g : GridView A} {path : String} {mode : Mode} {b : Bool} {time : K}
    {at_ : List String} {ids : IdsArg} {names : Names} {wl : Bool} {fs : FileSystem K A}
    (hf : ¬ (wl = true ∧ ¬ b = true)) {root root' : Dataset K A}
    (h1 : openDataset g mode at_ ids (fs path) = .ok root)
    (h2 : appendSlice g time at_ ids names wl root = .ok root') :
    toNetcdf g path mode b time at_ ids names wl fs = .ok (Function.update fs path (.dataset root')) := by
  unfold toNetcdf
  rw [if_neg hf, h1]
  dsimp only
  rw [h2]

theorem plain_format {z : Sizes} {b : Bool} {c : NetcdfCall K A} (hp : PlainCall z b c) :
    ¬ (c.withLayers = true ∧ ¬ b = true) := by
  rintro ⟨h1, h2⟩
  rcases hp.layers with h | h
  · rw [h] at h1; cases h1
  · exact h2 h.2

theorem netcdfCalls_append {z : Sizes} {b : Bool} {at_ : List String} {nodes : Ids}
    (hids : ValidIds (z.size "node") nodes) (hsub : at_ ⊆ defaultLocations) (path : String)
    (fs : FileSystem K A) :
    ∀ (calls done : List (NetcdfCall K A)) (d : Dataset K A), HoldsCalls d at_ nodes done →
    (∀ loc ∈ at_, d.dims loc = some (fileSize z { node := nodes } loc)) →
    (d.dims "row").isSome → (d.dims "column").isSome → (∀ c ∈ calls, PlainCall z b c) →
    ∃ d', netcdfCalls path b at_ nodes .a calls (Function.update fs path (.dataset d)) =
        .ok (Function.update fs path (.dataset d')) ∧ HoldsCalls d' at_ nodes (done ++ calls) ∧
      d'.dims = d.dims ∧ d'.xOf = d.xOf ∧ d'.yOf = d.yOf := by
  intro calls
  induction calls with
  | nil =>
    intro done d hd _ _ _ _
    exact ⟨d, rfl, by rw [List.append_nil]; exact hd, rfl, rfl, rfl⟩
  | cons c calls ih =>
    intro done d hd hdims hr hc hp
    have hpc := hp c (List.mem_cons_self ..)
    obtain ⟨d1, h1, h2, h3, h4, h5⟩ := holdsCalls_append hids hsub hd hdims hr hc c hpc
    obtain ⟨d2, r1, r2, r3, r4, r5⟩ := ih (done ++ [c]) d1 h5 (by rw [h2]; exact hdims)
      (by rw [h2]; exact hr) (by rw [h2]; exact hc) fun c hc => hp c (List.mem_cons_of_mem _ hc)
    refine ⟨d2, ?_, by simpa using r2, r3.trans h2, r4.trans h3, r5.trans h4⟩
    have ho : openDataset c.view .a at_ { node := nodes }
        (Function.update fs path (.dataset d) path) = .ok d := by
      rw [Function.update_self]
      rfl
    simp only [netcdfCalls, toNetcdf_open (plain_format hpc) ho h1]
    rw [Function.update_idem]
    exact r1

/-- Calls of `to_netcdf`, of which the first makes the file and the others append, write a file
with one slice for each call, which holds the fields as they are at the call, and the coordinates of
the first grid. Nothing else in the file system changes. -/
theorem netcdf_calls_partial {z : Sizes} {b : Bool} {at_ : List String} {nodes : Ids} {path : String}
    {fs : FileSystem K A} (hids : ValidIds (z.size "node") nodes) (hsub : at_ ⊆ defaultLocations)
    (hnd : at_.Nodup) (mode : Mode) (hmode : mode = .w ∨ (fs path).isFile = false)
    (hdir : fs path ≠ .dir) (c : NetcdfCall K A) (calls : List (NetcdfCall K A))
    (hp : ∀ c' ∈ c :: calls, PlainCall z b c') :
    ∃ d, netcdfCalls path b at_ nodes mode (c :: calls) fs =
        .ok (Function.update fs path (.dataset d)) ∧ HoldsCalls d at_ nodes (c :: calls) ∧
      d.yOf "row" = some (c.view.yOf "row") ∧ d.xOf "column" = some (c.view.xOf "column") ∧
      ∀ loc ∈ at_, loc ≠ "grid" → d.xOf loc = some (picked (idsAt nodes loc) (c.view.xOf loc)) ∧
        d.yOf loc = some (picked (idsAt nodes loc) (c.view.yOf loc)) := by
  have hpc := hp c (List.mem_cons_self ..)
  obtain ⟨d0, h1, h2, h3, h4, h5, h6, h7, h8⟩ := newDataset_write (K := K) hpc.sizes nodes hids at_
    hnd hsub
  have h0 : HoldsCalls d0 at_ nodes [] := by
    have hs : ∀ loc name i, slice d0 loc name i = none := by
      intro loc name i
      unfold slice
      rw [h2.vars]
      rfl
    exact ⟨h2.times, by simp, by simp, fun i _ loc name => hs loc name i, h2.layerDim⟩
  obtain ⟨d1, a1, a2, a3, a4, a5⟩ := holdsCalls_append hids hsub h0 h7 (by rw [h3]; rfl)
    (by rw [h4]; rfl) c hpc
  obtain ⟨d2, r1, r2, r3, r4, r5⟩ := netcdfCalls_append (z := z) (b := b) hids hsub path fs calls [c]
    d1 a5 (by rw [a2]; exact h7) (by rw [a2, h3]; rfl) (by rw [a2, h4]; rfl)
    fun c hc => hp c (List.mem_cons_of_mem _ hc)
  have ho : openDataset c.view mode at_ { node := nodes } (fs path) = .ok d0 := by
    rw [← h1]
    unfold openDataset
    have hm : (if (fs path).isFile then mode else Mode.w) = Mode.w := by
      rcases hmode with h | h
      · rw [h]; split <;> rfl
      · rw [h]; rfl
    rw [hm]
    cases he : fs path with
    | dir => exact absurd he hdir
    | _ => rfl
  have hget : ∀ loc, loc ∈ at_ → IdsArg.get { node := nodes } loc = idsAt nodes loc := by
    intro loc _
    unfold IdsArg.get idsAt
    split_ifs <;> rfl
  refine ⟨d2, ?_, r2, ?_, ?_, ?_⟩
  · simp only [netcdfCalls, toNetcdf_open (plain_format hpc) ho a1]
    exact r1
  · rw [r5, a4, h5]
  · rw [r4, a3, h6]
  · intro loc hloc hne
    obtain ⟨e1, e2⟩ := h8 loc hloc hne
    rw [r4, a3, r5, a4, e1, e2, hget loc hloc]
    exact ⟨rfl, rfl⟩

/-- What is written where is what is asked for there if some of it exists. -/
theorem effective_iff_asked {g : GridView A} {names : Names} {loc : String}
    (h : ∃ n, Asked names loc n ∧ g.Has loc n) (name : String) :
    Effective g names loc name ↔ Asked names loc name := by
  obtain ⟨n, h1, h2⟩ := h
  unfold Asked at *
  unfold Effective
  cases names with
  | all => rfl
  | list l =>
    dsimp only at *
    constructor
    · rintro (h | h)
      · exact h
      · exact absurd h2 (h n h1)
    · exact Or.inl
  | dict d =>
    dsimp only at *
    cases hf : d.find? (fun p => p.1 == loc) with
    | none => rw [hf] at h1; exact h1.elim
    | some p =>
      obtain ⟨k, o⟩ := p
      rw [hf] at h1
      cases o with
      | none => simp
      | some l =>
        dsimp only at *
        constructor
        · rintro (h | h)
          · exact h
          · exact absurd h2.2 (h n h1)
        · exact Or.inl

/-- Names that are not those of fields of a location mean all the fields there. -/
theorem unknown_names_mean_all {g : GridView A} {l : List String} {loc : String}
    (h : ∀ n ∈ l, ¬ g.Has loc n) (name : String) : Effective g (.list l) loc name :=
  Or.inr h

/-- So does leaving a location out of a dictionary, or giving an empty list. -/
theorem unmentioned_location_means_all {g : GridView A} {d : List (String × Option (List String))}
    {loc : String} (h : ∀ p ∈ d, p.1 ≠ loc) (name : String) : Effective g (.dict d) loc name := by
  have : d.find? (fun p => p.1 == loc) = none := by
    rw [List.find?_eq_none]
    intro p hp
    simpa using h p hp
  simp only [Effective, this]

theorem empty_names_mean_all {g : GridView A} {d : List (String × Option (List String))}
    {loc : String} (name : String) : Effective g (.dict ((loc, some []) :: d)) loc name := by
  simp [Effective]

/-- In a dictionary, names that do not exist give nothing. -/
theorem unknown_names_in_dict {g : GridView A} {d : List (String × Option (List String))}
    {loc : String} {l : List String} (hl : ∃ n ∈ l, Writable loc n) (hno : ∀ n ∈ l, ¬ g.Has loc n)
    (name : String) :
    ¬ (g.Has loc name ∧ Effective g (.dict ((loc, some l) :: d)) loc name) := by
  rintro ⟨h1, h2⟩
  obtain ⟨n, hn, hw⟩ := hl
  simp only [Effective, List.find?_cons_of_pos, beq_self_eq_true] at h2
  rcases h2 with h | h
  · exact hno name h h1
  · exact h n hn hw

/-! ## Layers and the shoreline -/

variable [Field K] [LinearOrder K]

theorem newDataset_all_dims {g : GridView A} {at_ : List String} {nodes : Ids} {d : Dataset K A}
    (h : newDataset g at_ { node := nodes } = .ok d) :
    d.dims "row" = some (g.yOf "row").length ∧ d.dims "column" = some (g.xOf "column").length := by
  unfold newDataset at h
  simp only [forLocs] at h
  cases h1 : setGridCoordinates g "row" (IdsArg.get { node := nodes } "row")
      (Dataset.new : Dataset K A) with
  | error e => rw [h1] at h; cases h
  | ok d1 =>
    rw [h1] at h
    dsimp only at h
    cases h2 : setGridCoordinates g "column" (IdsArg.get { node := nodes } "column") d1 with
    | error e => rw [h2] at h; cases h
    | ok d2 =>
      rw [h2] at h
      dsimp only at h
      obtain ⟨y, y1, y2⟩ := (setGridCoordinates_dims h1).2.1 rfl
      obtain ⟨x, x1, x2⟩ := (setGridCoordinates_dims h2).2.2 rfl
      have e1 := (setGridCoordinates_dims h2).1 "row" (by decide)
      have hy : y = g.yOf "row" := by cases y1; rfl
      have hx : x = g.xOf "column" := by cases x1; rfl
      subst hy hx
      refine forLocs_invariant
        (fun d => d.dims "row" = some (g.yOf "row").length ∧
          d.dims "column" = some (g.xOf "column").length)
        at_ d2 d ?_ h ⟨by rw [e1, y2], x2⟩
      intro loc _ a b hab hp
      have hne : loc ≠ "row" ∧ loc ≠ "column" := by
        constructor
        · rintro rfl
          rw [setGridCoordinates, if_neg (by decide), if_neg (by decide), hp.1] at hab
          cases hab
        · rintro rfl
          rw [setGridCoordinates, if_neg (by decide), if_neg (by decide), hp.2] at hab
          cases hab
      have hd := (setGridCoordinates_dims hab).1
      exact ⟨by rw [hd _ hne.1.symm]; exact hp.1, by rw [hd _ hne.2.symm]; exact hp.2⟩

/-- The parts of a call that makes a file. -/
theorem toNetcdf_new {g : GridView A} {path : String} {mode : Mode} {b : Bool} {time : K}
    {at_ : List String} {nodes : Ids} {names : Names} {wl : Bool} {fs fs' : FileSystem K A}
    (hmode : mode = .w ∨ (fs path).isFile = false)
    (h : toNetcdf g path mode b time at_ { node := nodes } names wl fs = .ok fs') :
    ∃ d d2 d3 d4 : Dataset K A, newDataset g at_ { node := nodes } = .ok d ∧ d2.dims = d.dims ∧
      setField g "row" .all ["x_of_shore", "x_of_shelf_edge"] d2 = .ok d3 ∧ d3.dims = d.dims ∧
      (if wl then setLayers g d3 else .ok d3) = .ok d4 := by
  unfold toNetcdf at h
  split at h
  · cases h
  · have hm : (if (fs path).isFile then mode else Mode.w) = Mode.w := by
      rcases hmode with h | h
      · rw [h]; split <;> rfl
      · rw [h]; rfl
    split at h
    · cases h
    · rename_i d ho
      unfold openDataset at ho
      rw [hm] at ho
      have hnew : newDataset g at_ { node := nodes } = .ok d := by
        cases he : fs path with
        | dir => rw [he] at ho; cases ho
        | _ => rw [he] at ho; exact ho
      split at h
      · cases h
      · rename_i d4 ha
        unfold appendSlice at ha
        dsimp only at ha
        split at ha
        · cases ha
        · rename_i d2 hf
          have hd2 : d2.dims = d.dims :=
            forLocs_invariant (fun x => x.dims = d.dims) _ _ _
              (fun loc _ a b hab hp => (setFieldNames_dims _ _ _ hab).trans hp) hf rfl
          split at ha
          · cases ha
          · rename_i d3 hf3
            exact ⟨d, d2, d3, d4, hnew, hd2, hf3, (setFieldNames_dims _ _ _ hf3).trans hd2, ha⟩

/-- C136 is false: unless the numbers of rows and columns are given, a grid with layers cannot be
written, except one with a single cell. -/
theorem default_layers_fail {z : Sizes} {g : GridView A} (hg : HasSizes z g) {path : String}
    {mode : Mode} {b : Bool} {time : K} {at_ : List String} {nodes : Ids} {names : Names}
    {fs : FileSystem K A} (hmode : mode = .w ∨ (fs path).isFile = false) (hn : 0 < g.nLayers)
    (hcols : 2 < z.cols) (hbig : 1 < z.rows * (z.cols - 2)) :
    ∃ e, toNetcdf g path mode b time at_ { node := nodes } names true fs = .error e := by
  cases h : toNetcdf g path mode b time at_ { node := nodes } names true fs with
  | error e => exact ⟨e, rfl⟩
  | ok fs' =>
    exfalso
    obtain ⟨d, d2, d3, d4, h1, -, -, h3, h4⟩ := toNetcdf_new hmode h
    obtain ⟨e1, e2⟩ := newDataset_all_dims h1
    rw [if_pos rfl] at h4
    unfold setLayers at h4
    rw [h3, e1, e2] at h4
    dsimp only at h4
    split at h4
    · cases h4
    · split at h4
      · cases h4
      · rename_i v hv
        unfold setLayerVar at hv
        obtain ⟨l, ls, hl⟩ := List.exists_cons_of_ne_nil
          (l := g.dz) (by
            intro e
            have := hg.dz.1
            rw [e] at this
            simp at this
            omega)
        rw [hl, List.mapM_cons] at hv
        have hb : broadcastLayer g.rows (g.cols - 2) (g.yOf "row").length (g.xOf "column").length l =
            .error .valueError := by
          unfold broadcastLayer
          rw [hg.rows, hg.cols, hg.yRow, hg.xCol]
          obtain ⟨c, hc⟩ : ∃ c, z.cols = c + 2 := ⟨z.cols - 2, by omega⟩
          rw [hc] at hbig ⊢
          simp only [Nat.add_sub_cancel] at hbig ⊢
          rw [if_neg (by nlinarith), if_neg]
          rintro ⟨h1 | h1, h2 | h2⟩
          · omega
          · omega
          · omega
          · rw [h1, h2] at hbig
            simp at hbig
        rw [hb] at hv
        cases hv

/-- Nor can a grid with several rows that has a shoreline or a shelf edge, even without layers. -/
theorem default_shore_fails {z : Sizes} {g : GridView A} (hg : HasSizes z g) {path : String}
    {mode : Mode} {b wl : Bool} {time : K} {at_ : List String} {nodes : Ids} {names : Names}
    {fs : FileSystem K A} (hmode : mode = .w ∨ (fs path).isFile = false) (hrows : z.rows ≠ 1)
    {name : String} (hname : name = "x_of_shore" ∨ name = "x_of_shelf_edge")
    (hf : (g.field "row" name).isSome) :
    ∃ e, toNetcdf g path mode b time at_ { node := nodes } names wl fs = .error e := by
  cases h : toNetcdf g path mode b time at_ { node := nodes } names wl fs with
  | error e => exact ⟨e, rfl⟩
  | ok fs' =>
    exfalso
    obtain ⟨d, d2, d3, d4, h1, h2, h3, -, -⟩ := toNetcdf_new hmode h
    obtain ⟨e1, -⟩ := newDataset_all_dims h1
    have hmem : name ∈ fieldNames g "row" ["x_of_shore", "x_of_shelf_edge"] := by
      rw [mem_fieldNames_has]
      exact ⟨⟨hf, by simp [Writable]⟩, Or.inr (by simpa using hname)⟩
    have hone : ∀ (names : List String) (a b : Dataset K A), a.dims = d.dims →
        setFieldNames g "row" .all names a = .ok b → name ∉ names := by
      intro names
      induction names with
      | nil => simp
      | cons n ns ih =>
        intro a b ha hs
        simp only [setFieldNames] at hs
        cases hs1 : setOneField g "row" .all n a with
        | error e => rw [hs1] at hs; cases hs
        | ok a' =>
          rw [hs1] at hs
          dsimp only at hs
          have ha' : a'.dims = d.dims := by
            rw [← ha]
            exact setFieldNames_dims (g := g) (loc := "row") (ids := .all) [n] a a'
              (by simp only [setFieldNames, hs1])
          rw [List.mem_cons, not_or]
          refine ⟨?_, ih a' b ha' hs⟩
          rintro rfl
          obtain ⟨v, hv⟩ := Option.isSome_iff_exists.mp hf
          have hlen : v.length = z.rows := by
            rw [hg.fields _ _ _ hv]
            simp [Sizes.at]
          unfold setOneField at hs1
          rw [hv, ha, e1, hg.yRow] at hs1
          dsimp only at hs1
          rw [if_neg (by decide)] at hs1
          dsimp only [takeIds] at hs1
          have hb : broadcastTo (z.rows + 2) v = .error .valueError := by
            unfold broadcastTo
            rw [if_neg (by omega)]
            match v, hlen with
            | [], _ => rfl
            | [_], hl => exact absurd hl.symm hrows
            | _ :: _ :: _, _ => rfl
          rw [hb] at hs1
          cases hs1
    exact hone _ _ _ h2 h3 hmem

/-- A location given twice makes a call fail that makes a file. -/
theorem location_twice_fails {g : GridView A} {path : String} {mode : Mode} {b wl : Bool} {time : K}
    {l1 l2 l3 : List String} {loc : String} {nodes : Ids} {names : Names} {fs : FileSystem K A}
    (hmode : mode = .w ∨ (fs path).isFile = false) (hne : loc ≠ "grid") :
    ∃ e, toNetcdf g path mode b time (l1 ++ loc :: l2 ++ loc :: l3) { node := nodes } names wl fs =
      .error e := by
  cases h : toNetcdf g path mode b time (l1 ++ loc :: l2 ++ loc :: l3) { node := nodes } names wl fs with
  | error e => exact ⟨e, rfl⟩
  | ok fs' =>
    exfalso
    obtain ⟨d, -, -, -, h1, -⟩ := toNetcdf_new hmode h
    have keep : ∀ (l : String) (ids : Ids) (a b : Dataset K A), setGridCoordinates g l ids a = .ok b →
        (b.dims l).isSome ∧ ∀ k, (a.dims k).isSome → (b.dims k).isSome := by
      intro l ids a b hab
      have hl : (b.dims l).isSome := by
        unfold setGridCoordinates at hab
        split at hab
        · cases hab
        · split at hab
          · cases hab; simp
          · split at hab
            · cases hab
            · split at hab
              · split at hab
                · cases hab
                · cases hab; simp
              · split at hab
                · split at hab
                  · cases hab
                  · cases hab; simp
                · split at hab
                  · cases hab; simp
                  · cases hab
                  · cases hab
      refine ⟨hl, fun k hk => ?_⟩
      by_cases e : k = l
      · rw [e]; exact hl
      · rw [(setGridCoordinates_dims hab).1 k e]; exact hk
    have split : ∀ (f : String → Dataset K A → Except Err (Dataset K A)) (p q : List String)
        (a b : Dataset K A), forLocs f (p ++ q) a = .ok b →
        ∃ m, forLocs f p a = .ok m ∧ forLocs f q m = .ok b := by
      intro f p q
      induction p with
      | nil => exact fun a b h => ⟨a, rfl, h⟩
      | cons x p ih =>
        intro a b h
        simp only [List.cons_append, forLocs] at h ⊢
        cases hx : f x a with
        | error e => rw [hx] at h; cases h
        | ok a' =>
          rw [hx] at h
          exact ih a' b h
    unfold newDataset at h1
    rw [show "row" :: "column" :: (l1 ++ loc :: l2 ++ loc :: l3) =
      ("row" :: "column" :: l1) ++ (loc :: (l2 ++ (loc :: l3))) from by simp] at h1
    obtain ⟨m, -, m2⟩ := split _ _ _ _ _ h1
    simp only [forLocs] at m2
    cases hx : setGridCoordinates g loc (IdsArg.get { node := nodes } loc) m with
    | error e => rw [hx] at m2; cases m2
    | ok m' =>
      rw [hx] at m2
      dsimp only at m2
      obtain ⟨q, q1, q2⟩ := split _ _ _ _ _ m2
      have hq : (q.dims loc).isSome := forLocs_invariant (fun d => (d.dims loc).isSome) _ _ _
        (fun l _ a b hab hp => (keep l _ a b hab).2 loc hp) q1 (keep loc _ _ _ hx).1
      simp only [forLocs] at q2
      have : ∃ e, setGridCoordinates g loc (IdsArg.get { node := nodes } loc) q = .error e := by
        unfold setGridCoordinates
        by_cases hk : loc ∉ knownLocations
        · rw [if_pos hk]
          exact ⟨_, rfl⟩
        · rw [if_neg hk, if_neg hne, if_pos hq]
          exact ⟨_, rfl⟩
      obtain ⟨e, he⟩ := this
      rw [he] at q2
      cases q2

/-! ## Examples -/

/-- The grid of `exView` without the shoreline. -/
def exBare (n : ℕ) (v : ℚ) : GridView ℚ :=
  { exView n v with fields := fun loc => if loc = "row" then [] else (exView n v).fields loc }

theorem exBare_sizes (n : ℕ) (v : ℚ) : HasSizes exSizes (exBare n v) := by
  have h := exView_sizes n v
  refine ⟨h.rows, h.cols, h.x, h.y, h.yRow, h.xCol, ?_, h.layer, h.dz⟩
  intro loc name a ha
  by_cases hl : loc = "row"
  · subst hl
    simp [GridView.field, exBare] at ha
  · refine h.fields loc name a ?_
    simpa [GridView.field, exBare, hl] using ha

/-- Two calls, the first without layers, for nodes 0 and -1 at nodes and cells. -/
example : ∃ d, netcdfCalls "out.nc" true ["node", "cell"] (.list [0, -1]) .w
      [⟨(0 : ℚ), exBare 1 5, .list ["z"], false⟩, ⟨1, exBare 0 6, .all, true⟩] exFiles =
        .ok (Function.update exFiles "out.nc" (.dataset d)) ∧
    d.times = [0, 1] ∧ slice d "node" "z" 0 = some [5, 5] ∧ slice d "node" "b" 0 = none ∧
    slice d "node" "b" 1 = some [0, 0] ∧ slice d "node" "z" 1 = some [6, 6] := by
  have hp : ∀ c' ∈ [⟨(0 : ℚ), exBare 1 5, .list ["z"], false⟩, (⟨1, exBare 0 6, .all, true⟩ : NetcdfCall ℚ ℚ)],
      PlainCall exSizes true c' := by
    intro c' hc
    simp only [List.mem_cons, List.not_mem_nil, or_false] at hc
    rcases hc with rfl | rfl
    · exact ⟨exBare_sizes _ _, Or.inl rfl, rfl, rfl, trivial⟩
    · exact ⟨exBare_sizes _ _, Or.inr ⟨rfl, rfl⟩, rfl, rfl, trivial⟩
  obtain ⟨d, h1, h2, -⟩ := netcdf_calls_partial (z := exSizes) (b := true) (at_ := ["node", "cell"])
    (nodes := .list [0, -1]) (path := "out.nc") (fs := (exFiles : FileSystem ℚ ℚ))
    (by simp [ValidIds, exSizes]) (by simp [defaultLocations]) (by decide) .w (Or.inl rfl)
    (by simp [exFiles]) _ _ hp
  refine ⟨d, h1, h2.times, ?_, ?_, ?_, ?_⟩
  · rw [h2.written 0 _ rfl "node" (by decide) "z" ⟨by decide +kernel, by decide⟩ (Or.inl (by simp))]
    decide +kernel
  · refine h2.others 0 _ rfl "node" "b" ?_
    rintro ⟨-, -, h | h⟩
    · simp at h
    · exact h "z" (by simp) ⟨by decide +kernel, by decide⟩
  · rw [h2.written 1 _ rfl "node" (by decide) "b" ⟨by decide +kernel, by decide⟩ trivial]
    decide +kernel
  · rw [h2.written 1 _ rfl "node" (by decide) "z" ⟨by decide +kernel, by decide⟩ trivial]
    decide +kernel

/-- A misspelt name: both fields at nodes are written. -/
example : Effective (exBare 0 5) (.list ["zz"]) "node" "z" ∧
    Effective (exBare 0 5) (.list ["zz"]) "node" "b" ∧ (exBare 0 5).Has "node" "z" ∧
    ¬ Asked (.list ["zz"]) "node" "z" := by
  have h : ∀ n ∈ ["zz"], ¬ (exBare 0 5).Has "node" n := by
    simp only [List.mem_cons, List.not_mem_nil, or_false, forall_eq]
    rintro ⟨h, -⟩
    revert h
    decide +kernel
  exact ⟨unknown_names_mean_all h _, unknown_names_mean_all h _, ⟨by decide +kernel, by decide⟩,
    by simp [Asked]⟩

/-- `z` is asked for and exists: it alone is written. -/
example (name : String) : Effective (exBare 0 5) (.list ["z", "zz"]) "node" name ↔
    name ∈ ["z", "zz"] :=
  effective_iff_asked ⟨"z", by simp [Asked], by decide +kernel, by decide⟩ name

/-- The default call on a grid with one layer of two cells. -/
example : ∃ e, toNetcdf (exBare 1 5) "out.nc" .w true (0 : ℚ) defaultLocations {} .all true exFiles =
    .error e :=
  default_layers_fail (exBare_sizes 1 5) (Or.inl rfl) (by decide) (by decide) (by decide)

/-- Two rows with a shoreline. -/
example : ∃ e, toNetcdf { exView2 with fields := fun loc => if loc = "row" then
      [("x_of_shore", [3, 4])] else [] } "out.nc" .w true (0 : ℚ) ["node"] {} .all false exFiles =
    .error e := by
  refine default_shore_fails (z := ⟨2, 3, fun _ => 0⟩) (name := "x_of_shore") ?_ (Or.inl rfl)
    (by decide) (Or.inl rfl) (by decide +kernel)
  refine ⟨rfl, rfl, ?_, ?_, rfl, rfl, ?_, ?_, ⟨rfl, ?_⟩⟩
  · intro loc hl
    simp only [List.mem_cons, List.not_mem_nil, or_false] at hl
    rcases hl with rfl | rfl | rfl | rfl <;> simp [exView2]
  · intro loc hl
    simp only [List.mem_cons, List.not_mem_nil, or_false] at hl
    rcases hl with rfl | rfl | rfl | rfl <;> simp [exView2]
  · intro loc name v hv
    by_cases hl : loc = "row"
    · subst hl
      simp only [GridView.field, if_true, List.find?_cons, List.find?_nil] at hv
      split at hv
      · cases hv; rfl
      · cases hv
    · simp [GridView.field, hl] at hv
  · intro name hn
    simp [exView2] at hn
  · intro l hl
    simp only [exView2, List.mem_cons, List.not_mem_nil, or_false] at hl
    rw [hl]
    rfl

/-- With one row the shoreline is written three times. -/
example : (match toNetcdf (exView 0 5) "out.nc" .w true (0 : ℚ) ["node"] {} .all false exFiles with
    | .ok fs => match fs "out.nc" with
      | .dataset d => slice d "row" "x_of_shore" 0
      | _ => none
    | .error _ => none) = some [5, 5, 5] := by
  decide +kernel

/-- Nodes twice. -/
example : ∃ e, toNetcdf (exBare 0 5) "out.nc" .w true (0 : ℚ) ["node", "node"] {} .all false exFiles =
    .error e :=
  location_twice_fails (l1 := []) (l2 := []) (l3 := []) (Or.inl rfl) (by decide)

end Verif.Props
