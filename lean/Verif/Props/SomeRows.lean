import Verif.Props.Output

/-! # C73: rows that are all of them, in order or not -/

set_option autoImplicit false
set_option linter.unusedSectionVars false

namespace Verif.Props

open Verif Verif.Spec

variable {K A : Type*} [Field K] [LinearOrder K] [IsStrictOrderedRing K]

/-- C73, partial (all rows, in order): naming all rows is the same as naming none. Missing: some
of the rows, which fails (`some_rows_fail`), and other orders, which label the layers wrongly
(`reordered_rows`). -/
theorem all_rows_partial (R : ℕ) (path : String) (interval : PyNumber K) (fields : List String)
    (clobber : Bool) (fs : FileSystem K A) :
    writerInit R path interval fields clobber
        (some ((List.range R).map fun r => ((r + 1 : ℕ) : ℤ))) fs =
      writerInit R path interval fields clobber none fs := by
  have h : ((List.range R).map fun r => ((r + 1 : ℕ) : ℤ)).map (· - 1) =
      (List.range R).map Int.ofNat := by
    rw [List.map_map]
    apply List.map_congr_left
    intro r _
    simp
  unfold writerInit
  dsimp only
  rw [h]

theorem setFieldNames_yOf {g : GridView A} {loc : String} {ids : Ids} :
    ∀ (names : List String) (d d' : Dataset K A), setFieldNames g loc ids names d = .ok d' →
    d'.yOf = d.yOf ∧ d'.layerVars = d.layerVars := by
  intro names
  induction names with
  | nil => intro d d' h; cases h; exact ⟨rfl, rfl⟩
  | cons n ns ih =>
    intro d d' h
    simp only [setFieldNames] at h
    cases hl : setOneField g loc ids n d with
    | error e' => rw [hl] at h; cases h
    | ok d1 =>
      rw [hl] at h
      obtain ⟨i1, i2⟩ := ih d1 d' h
      rw [i1, i2]
      unfold setOneField at hl
      cases hv : g.field loc n with
      | none => rw [hv] at hl; cases hl
      | some v =>
        rw [hv] at hl
        dsimp only at hl
        cases ht : (if loc = "grid" then (.ok v : Except Err (List A)) else takeIds v ids) with
        | error e' => rw [ht] at hl; cases hl
        | ok values =>
          rw [ht] at hl
          dsimp only at hl
          cases hd : d.dims loc with
          | none => rw [hd] at hl; cases hl
          | some n =>
            rw [hd] at hl
            dsimp only at hl
            cases hb : broadcastTo n values with
            | ok s => rw [hb] at hl; cases hl; exact ⟨rfl, rfl⟩
            | error e' => rw [hb] at hl; cases hl

theorem setGridCoordinates_yOf {g : GridView A} {loc : String} {ids : Ids} {d d' : Dataset K A}
    (h : setGridCoordinates g loc ids d = .ok d') :
    (loc ≠ "row" → d'.yOf "row" = d.yOf "row") ∧
    (loc = "row" → ∃ y, takeIds (g.yOf "row") ids = .ok y ∧ d'.yOf "row" = some y) := by
  unfold setGridCoordinates at h
  split_ifs at h with h1 h2 h3 h4 h5
  · cases h
    subst h2
    exact ⟨fun _ => rfl, by simp⟩
  · subst h4
    cases hy : takeIds (g.yOf "row") ids with
    | error e => rw [hy] at h; cases h
    | ok y =>
      rw [hy] at h
      cases h
      exact ⟨by simp, fun _ => ⟨y, rfl, by simp⟩⟩
  · subst h5
    cases hy : takeIds (g.xOf "column") ids with
    | error e => rw [hy] at h; cases h
    | ok y =>
      rw [hy] at h
      cases h
      exact ⟨fun _ => rfl, by simp⟩
  · cases hx : takeIds (g.xOf loc) ids with
    | error e => rw [hx] at h; cases h
    | ok x =>
      cases hy : takeIds (g.yOf loc) ids with
      | error e => rw [hx, hy] at h; cases h
      | ok y =>
        rw [hx, hy] at h
        cases h
        exact ⟨fun e => by simp [Ne.symm e], fun e => absurd e h4⟩

theorem newDataset_yOf {g : GridView A} {rows : List ℤ} {cols : List ℤ} {d : Dataset K A}
    (h : newDataset g defaultLocations { row := .list rows, column := .list cols } = .ok d) :
    ∃ y, takeIds (g.yOf "row") (.list rows) = .ok y ∧ d.yOf "row" = some y := by
  unfold newDataset at h
  simp only [forLocs] at h
  cases h1 : setGridCoordinates g "row" (IdsArg.get { row := .list rows, column := .list cols } "row")
      (Dataset.new : Dataset K A) with
  | error e => rw [h1] at h; cases h
  | ok d1 =>
    rw [h1] at h
    dsimp only at h
    cases h2 : setGridCoordinates g "column"
        (IdsArg.get { row := .list rows, column := .list cols } "column") d1 with
    | error e => rw [h2] at h; cases h
    | ok d2 =>
      rw [h2] at h
      dsimp only at h
      obtain ⟨y, y1, y2⟩ := (setGridCoordinates_yOf h1).2 rfl
      have e1 := (setGridCoordinates_yOf h2).1 (by decide)
      refine ⟨y, y1, forLocs_invariant (fun d => d.yOf "row" = some y) defaultLocations d2 d ?_ h
        (by rw [e1, y2])⟩
      intro loc hl a b hab hp
      have hne : loc ≠ "row" := by
        rintro rfl
        exact absurd hl (by decide)
      rw [(setGridCoordinates_yOf hab).1 hne, hp]

/-- The layers in the file are those of the grid when the sizes agree. -/
theorem setLayerVar_slices {R C r c : ℕ} (hsize : r * c = R * C) {data : List (List A)}
    {old v : ℕ → Option (List A)} (h : setLayerVar R C r c data old = .ok v) :
    ∀ k < data.length, v k = data[k]? := by
  unfold setLayerVar at h
  have hm : data.mapM (broadcastLayer R C r c) = .ok data := by
    clear h
    induction data with
    | nil => rfl
    | cons l ls ih =>
      rw [List.mapM_cons, ih]
      unfold broadcastLayer
      rw [if_pos hsize]
      rfl
  rw [hm] at h
  cases h
  intro k hk
  dsimp only
  rw [if_pos hk]

/-- C73 is false of rows in another order too. The first step of a writer for all the rows, in any
order, labels the rows of the file in this order; but the layers are stored in the order of the
grid, whatever the order asked for. -/
theorem reordered_rows {path : String} {interval : PyNumber K} {fields : List String}
    {clobber : Bool} {rows : List ℤ} {fs fs0 : FileSystem K A} {w0 : Writer K} {z : Sizes}
    (hi : writerInit z.rows path interval fields clobber (some rows) fs = (fs0, .ok w0))
    (g : GridView A) (hg : HasSizes z g) (dt : Option K) (hrows : rows.length = z.rows)
    {w1 : Writer K} {fs1 : FileSystem K A} (hs : writerStep g dt (w0, fs0) = .ok (w1, fs1)) :
    ∃ d y, fs1 path = .dataset d ∧
      takeIds (g.yOf "row") (.list (rows.map (· - 1))) = .ok y ∧ d.yOf "row" = some y ∧
      ∀ k < g.nLayers, layerSlice d "thickness" k = g.dz[k]? := by
  obtain ⟨h1, h2, -, h4, -, -, -, h6, -⟩ := writerInit_ok hi
  have hrow := h6 rows rfl
  unfold writerStep at hs
  dsimp only at hs
  by_cases hz : w0.interval = 0
  · rw [if_pos hz] at hs
    cases hs
  rw [if_neg hz, h4, if_pos (Nat.zero_mod _)] at hs
  cases ht : toNetcdf g w0.filepath .a true w0.time defaultLocations
      { row := .list w0.rows, column := .list ((List.range (g.cols - 2)).map Int.ofNat) }
      (.dict [("node", some w0.fields)]) true fs0 with
  | error e => rw [ht] at hs; cases hs
  | ok fs' =>
    rw [ht] at hs
    cases hs
    unfold toNetcdf at ht
    rw [if_neg (by simp)] at ht
    have habs : fs0 w0.filepath = .absent := by
      rw [h1, h2, Function.update_self]
    rw [habs] at ht
    cases ho : openDataset g .a defaultLocations
        { row := .list w0.rows, column := .list ((List.range (g.cols - 2)).map Int.ofNat) }
        (.absent : Entry K A) with
    | error e => rw [ho] at ht; cases ht
    | ok d0 =>
      rw [ho] at ht
      dsimp only at ht
      have hd0 := newDataset_dims (K := K) (show newDataset g defaultLocations _ = .ok d0 from ho)
      obtain ⟨y, y1, y2⟩ := newDataset_yOf (K := K)
        (show newDataset g defaultLocations _ = .ok d0 from ho)
      cases ha : appendSlice g w0.time defaultLocations
          { row := .list w0.rows, column := .list ((List.range (g.cols - 2)).map Int.ofNat) }
          (.dict [("node", some w0.fields)]) true d0 with
      | error e => rw [ha] at ht; cases ht
      | ok d4 =>
        rw [ha] at ht
        cases ht
        refine ⟨d4, y, by rw [← h2, Function.update_self], by rw [← hrow]; exact y1, ?_⟩
        unfold appendSlice at ha
        dsimp only at ha
        split at ha
        · cases ha
        · rename_i d2 hf
          have hd2 : d2.dims = d0.dims ∧ d2.yOf = d0.yOf :=
            forLocs_invariant (fun d => d.dims = d0.dims ∧ d.yOf = d0.yOf) _ _ _
              (fun loc _ a b hab hp => ⟨(setFieldNames_dims _ _ _ hab).trans hp.1,
                (setFieldNames_yOf _ _ _ hab).1.trans hp.2⟩) hf ⟨rfl, rfl⟩
          split at ha
          · cases ha
          · rename_i d3 hf3
            have hd3 : d3.dims = d0.dims := (setFieldNames_dims _ _ _ hf3).trans hd2.1
            have hy3 : d3.yOf = d0.yOf := (setFieldNames_yOf _ _ _ hf3).1.trans hd2.2
            rw [if_pos rfl] at ha
            unfold setLayers at ha
            rw [hd3, hd0.1, hd0.2] at ha
            dsimp only at ha
            split at ha
            · cases ha
            · split at ha
              · cases ha
              · rename_i v hv
                cases ha
                refine ⟨by dsimp only; rw [hy3, y2], ?_⟩
                intro k hk
                unfold layerSlice
                simp only [if_pos, Option.bind_some]
                refine setLayerVar_slices ?_ hv k (by rw [hg.dz.1]; exact hk)
                rw [hrow, List.length_map, List.length_map, List.length_range, hrows, hg.rows]

/-- A grid with two rows of one cell and one layer, thicker in the second row. -/
def exTwoRowView : GridView ℚ where
  rows := 2
  cols := 3
  xOf := fun loc => if loc = "column" then [0, 1, 2] else if loc = "cell" then [1, 1] else []
  yOf := fun loc => if loc = "row" then [0, 10, 20, 30] else if loc = "cell" then [10, 20] else []
  fields := fun _ => []
  tracking := []
  nLayers := 1
  layer := fun _ => []
  dz := [[5, 7]]

/-- The hypotheses of `reordered_rows`, and what is in the file: the thickness 5 of the first row
beside the position of the other one. -/
theorem rows_swapped :
    (match writerInit 2 "out.nc" (.int 1) [] true (some [2, 1]) (fun _ => .absent : FileSystem ℚ ℚ) with
    | (fs0, .ok w0) => match writerStep exTwoRowView none (w0, fs0) with
      | .ok (_, fs1) => match fs1 "out.nc" with
        | .dataset d => some (d.yOf "row", layerSlice d "thickness" 0)
        | _ => none
      | .error _ => none
    | _ => none) = some (some [10, 0], some [5, 7]) ∧
    HasSizes ⟨2, 3, fun loc => if loc = "cell" then 2 else 0⟩ exTwoRowView := by
  refine ⟨by decide +kernel, rfl, rfl, ?_, ?_, rfl, rfl, ?_, ?_, ?_⟩
  · intro loc hl
    simp only [List.mem_cons, List.not_mem_nil, or_false] at hl
    rcases hl with rfl | rfl | rfl | rfl <;> simp [exTwoRowView]
  · intro loc hl
    simp only [List.mem_cons, List.not_mem_nil, or_false] at hl
    rcases hl with rfl | rfl | rfl | rfl <;> simp [exTwoRowView]
  · intro loc name a ha
    simp [GridView.field, exTwoRowView] at ha
  · intro name hn
    simp [exTwoRowView] at hn
  · refine ⟨rfl, ?_⟩
    intro l hl
    simp only [exTwoRowView, List.mem_singleton] at hl
    rw [hl]
    rfl

end Verif.Props
