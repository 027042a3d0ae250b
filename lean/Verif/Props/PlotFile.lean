import Verif.Lemmas.PlotFile
import Verif.Spec.PlotFile
import Verif.Props.OutputRun

/-!
# C79 – C83: plots of files and grids
-/

set_option autoImplicit false
set_option linter.unusedSectionVars false

namespace Verif.Props

open Verif Verif.Spec

variable {K σ : Type*} {R C : ℕ} [Field K] [LinearOrder K]

/-! ## C79: what is missing -/

theorem plotRow_error {n : ℕ} {row : Option ℤ} {e : Err} :
    plotRow n row = .error e ↔ e = .invalidRow ∧ ∃ r, row = some r ∧ ¬ ValidRow n r := by
  cases row with
  | none => simp [plotRow]
  | some r =>
    simp only [plotRow]
    split_ifs with h
    · constructor
      · intro h'
        cases h'
        refine ⟨rfl, r, rfl, ?_⟩
        unfold ValidRow
        omega
      · rintro ⟨rfl, -⟩
        rfl
    · constructor
      · intro h'; cases h'
      · rintro ⟨-, r', e1, e2⟩
        cases e1
        unfold ValidRow at e2
        omega

theorem fileVars_error {d : Dataset K (Option K)} {n m : ℕ} {e : Err}
    (h : fileVars d n m = .error e) : e = .missingVariable := by
  unfold fileVars at h
  split at h
  · cases h
  · cases h; rfl

theorem fileVars_ok_iff {d : Dataset K (Option K)} {n m : ℕ} :
    (∃ v, fileVars d n m = .ok v) ↔
      (d.layerVars "thickness").isSome ∧ (d.layerVars "age").isSome ∧
      (d.vars ("row", "x_of_shore")).isSome ∧ (d.vars ("row", "x_of_shelf_edge")).isSome ∧
      (d.vars ("node", "bedrock_surface__elevation")).isSome := by
  unfold fileVars layerSlices timeSlices
  cases d.layerVars "thickness" <;> cases d.layerVars "age" <;>
    cases d.vars ("row", "x_of_shore") <;> cases d.vars ("row", "x_of_shelf_edge") <;>
    cases d.vars ("node", "bedrock_surface__elevation") <;> simp

theorem plotFile_eq {d : Dataset K (Option K)} {row : Option ℤ} {n m : ℕ} {r : ℤ} {v : FileVars K}
    (hd : d.dims "row" = some n) (hr : plotRow n row = .ok r) (hc : d.dims "column" = some m)
    (hv : fileVars d n m = .ok v) :
    plotFile d row =
      if d.dims "node" ≠ some ((n + 2) * (m + 2)) then .error .valueError
      else if d.times.length ≤ 1 then .error .indexError
      else
        match interpAll d.times (rowSeries n r v.shore) (fileAges n m r v),
          interpAll d.times (rowSeries n r v.shelf) (fileAges n m r v) with
        | .ok shore, .ok shelf =>
          .ok ⟨fileElevation n m r v (v.bedrock.getLastD []), fileX d n m r, shore, shelf⟩
        | .error e, _ => .error e
        | .ok _, .error e => .error e := by
  unfold plotFile
  rw [hd]
  dsimp only
  rw [hr, hc]
  dsimp only
  rw [hv]
  rfl

theorem plotFile_late_error {d : Dataset K (Option K)} {row : Option ℤ} {n m : ℕ} {r : ℤ}
    {v : FileVars K} {e : Err} (hd : d.dims "row" = some n) (hr : plotRow n row = .ok r)
    (hc : d.dims "column" = some m) (hv : fileVars d n m = .ok v)
    (h : plotFile d row = .error e) : e = .valueError ∨ e = .indexError := by
  rw [plotFile_eq hd hr hc hv] at h
  by_cases h1 : d.dims "node" ≠ some ((n + 2) * (m + 2))
  · rw [if_pos h1] at h
    cases h
    exact .inl rfl
  rw [if_neg h1] at h
  by_cases h2 : d.times.length ≤ 1
  · rw [if_pos h2] at h
    cases h
    exact .inr rfl
  rw [if_neg h2] at h
  split at h
  · cases h
  · rename_i e _ _ he
    cases h
    exact .inl (interpAll_error he)
  · rename_i e _ he
    cases h
    exact .inl (interpAll_error he)

/-- C79: `InvalidRowError` is raised exactly for a row that is not in the file. -/
theorem plotFile_invalidRow_iff (d : Dataset K (Option K)) (row : Option ℤ) :
    plotFile d row = .error .invalidRow ↔
      ∃ n r, d.dims "row" = some n ∧ row = some r ∧ ¬ ValidRow n r := by
  cases hd : d.dims "row" with
  | none => simp [plotFile, hd]
  | some n =>
    cases hr : plotRow n row with
    | error e =>
      obtain ⟨rfl, r, h1, h2⟩ := plotRow_error.mp hr
      have : plotFile d row = .error .invalidRow := by simp [plotFile, hd, hr]
      simp only [this, true_iff]
      exact ⟨n, r, rfl, h1, h2⟩
    | ok r =>
      have hno : ¬ ∃ n' r, some n = some n' ∧ row = some r ∧ ¬ ValidRow n' r := by
        rintro ⟨n', r', h1, h2, h3⟩
        cases h1
        have := plotRow_error.mpr ⟨rfl, r', h2, h3⟩
        rw [hr] at this
        cases this
      simp only [hno, iff_false]
      intro h
      cases hc : d.dims "column" with
      | none => simp [plotFile, hd, hr, hc] at h
      | some m =>
        cases hv : fileVars d n m with
        | error e => simp [plotFile, hd, hr, hc, hv, fileVars_error hv] at h
        | ok v => rcases plotFile_late_error hd hr hc hv h with h | h <;> cases h

/-- C79: `MissingRequiredVariable` is raised exactly if the file lacks something that is needed
(and the row, if the file has rows, is valid). -/
theorem plotFile_missing_iff (d : Dataset K (Option K)) (row : Option ℤ) :
    plotFile d row = .error .missingVariable ↔
      ¬ Plottable d ∧ ∀ n r, d.dims "row" = some n → row = some r → ValidRow n r := by
  unfold Plottable
  cases hd : d.dims "row" with
  | none => simp [plotFile, hd]
  | some n =>
    cases hr : plotRow n row with
    | error e =>
      obtain ⟨rfl, r, h1, h2⟩ := plotRow_error.mp hr
      have : plotFile d row = .error .invalidRow := by simp [plotFile, hd, hr]
      simp only [this, Except.error.injEq, reduceCtorEq, false_iff, not_and, not_forall]
      exact fun _ => ⟨n, r, rfl, h1, h2⟩
    | ok r =>
      have hyes : ∀ n' r, some n = some n' → row = some r → ValidRow n' r := by
        intro n' r' h1 h2
        cases h1
        by_contra h3
        have := plotRow_error.mpr ⟨rfl, r', h2, h3⟩
        rw [hr] at this
        cases this
      rw [and_iff_left hyes]
      cases hc : d.dims "column" with
      | none => simp [plotFile, hd, hr, hc]
      | some m =>
        simp only [Option.isSome_some, true_and]
        rw [← fileVars_ok_iff (n := n) (m := m)]
        cases hv : fileVars d n m with
        | error e => simp [plotFile, hd, hr, hc, hv, fileVars_error hv]
        | ok v =>
          have : ¬ ¬ ∃ v', (Except.ok v : Except Err (FileVars K)) = .ok v' := not_not.mpr ⟨v, rfl⟩
          simp only [this, iff_false]
          intro h
          rcases plotFile_late_error hd hr hc hv h with h | h <;> cases h

/-! ## What is plotted -/

theorem chosenRow_of {n : ℕ} {row : Option ℤ} {i : ℕ} (h : ChosenRow n row i) :
    ∃ r, plotRow n row = .ok r ∧ pyIndex n r = i ∧ i < n ∧
      pyIndex (n + 2) r = if row.any (· < 0) then i + 2 else i := by
  cases row with
  | none =>
    obtain ⟨h1, h2⟩ := h
    refine ⟨_, rfl, ?_, h2, ?_⟩
    · unfold pyIndex
      rw [if_neg (by omega), h1]
      omega
    · unfold pyIndex
      rw [if_neg (by omega), h1]
      simp only [Option.any_none, Bool.false_eq_true, if_false]
      omega
  | some r =>
    obtain ⟨h1, h2⟩ := h
    refine ⟨r, ?_, ?_, h1, ?_⟩
    · simp only [plotRow]
      rw [if_neg (by omega)]
    · unfold pyIndex
      split_ifs <;> omega
    · simp only [Option.any_some, decide_eq_true_eq]
      unfold pyIndex
      push_cast
      split_ifs <;> omega

theorem join_getD {α : Type*} (o : Option (Option α)) : o.getD none = o.join := by
  cases o <;> rfl

theorem fileVars_get {d : Dataset K (Option K)} {n m : ℕ} (hs : FileSizes d n m) {v : FileVars K}
    (hv : fileVars d n m = .ok v) :
    (v.thickness.length = d.layerDim ∧ (∀ l ∈ v.thickness, l.length = n * m) ∧
      ∀ k < d.layerDim, ∀ j, ((v.thickness[k]?).bind (·[j]?)).join = layerValueAt d "thickness" k j) ∧
    (v.age.length = d.layerDim ∧ (∀ l ∈ v.age, l.length = n * m) ∧
      ∀ k < d.layerDim, ∀ j, ((v.age[k]?).bind (·[j]?)).join = layerValueAt d "age" k j) ∧
    (v.shore.length = d.times.length ∧ ∀ i < d.times.length, ∀ j,
      ((v.shore[i]?).bind (·[j]?)).join = fieldValueAt d "row" "x_of_shore" i j) ∧
    (v.shelf.length = d.times.length ∧ ∀ i < d.times.length, ∀ j,
      ((v.shelf[i]?).bind (·[j]?)).join = fieldValueAt d "row" "x_of_shelf_edge" i j) ∧
    (v.bedrock.length = d.times.length ∧ (∀ l ∈ v.bedrock, l.length = (n + 2) * (m + 2)) ∧
      ∀ i < d.times.length, ∀ j, ((v.bedrock[i]?).bind (·[j]?)).join =
        fieldValueAt d "node" "bedrock_surface__elevation" i j) := by
  have hL : ∀ {name l}, layerSlices d (n * m) name = .ok l → l.length = d.layerDim ∧
      (∀ x ∈ l, x.length = n * m) ∧
      ∀ k < d.layerDim, ∀ j, ((l[k]?).bind (·[j]?)).join = layerValueAt d name k j := by
    intro name l hl
    unfold layerSlices at hl
    cases hf : d.layerVars name with
    | none => rw [hf] at hl; cases hl
    | some f =>
      rw [hf] at hl
      cases hl
      have hsl : ∀ k, layerSlice d name k = f k := fun k => by simp [layerSlice, hf]
      refine ⟨by simp, ?_, ?_⟩
      · intro x hx
        obtain ⟨k, -, rfl⟩ := List.mem_map.mp hx
        cases hk : f k with
        | none => simp
        | some y => exact hs.layer name k y (by rw [hsl, hk])
      · intro k hk j
        unfold layerValueAt
        rw [hsl, List.getElem?_map, List.getElem?_range hk]
        cases hy : f k with
        | none =>
          simp only [Option.map_some, Option.bind_some, hy, Option.getD_none, Option.bind_none,
            List.getElem?_replicate]
          split_ifs <;> rfl
        | some y => simp [hy]
  have hT : ∀ {loc name l}, timeSlices d loc name = .ok l → l.length = d.times.length ∧
      (∀ x ∈ l, x.length = (d.dims loc).getD 0 ∨ ∃ i, slice d loc name i = some x) ∧
      ∀ i < d.times.length, ∀ j, ((l[i]?).bind (·[j]?)).join = fieldValueAt d loc name i j := by
    intro loc name l hl
    unfold timeSlices at hl
    cases hf : d.vars (loc, name) with
    | none => rw [hf] at hl; cases hl
    | some f =>
      rw [hf] at hl
      cases hl
      have hsl : ∀ k, slice d loc name k = f k := fun k => by simp [slice, hf]
      refine ⟨by simp, ?_, ?_⟩
      · intro x hx
        obtain ⟨k, -, rfl⟩ := List.mem_map.mp hx
        cases hk : f k with
        | none => left; simp
        | some y => exact .inr ⟨k, by rw [hsl, hk]; rfl⟩
      · intro k hk j
        unfold fieldValueAt
        rw [hsl, List.getElem?_map, List.getElem?_range hk]
        cases hy : f k with
        | none =>
          simp only [Option.map_some, Option.bind_some, hy, Option.getD_none, Option.bind_none,
            List.getElem?_replicate]
          split_ifs <;> rfl
        | some y => simp [hy]
  unfold fileVars at hv
  split at hv
  · rename_i th sh se be ag h1 h2 h3 h4 h5
    cases hv
    refine ⟨hL h1, hL h5, ⟨(hT h2).1, (hT h2).2.2⟩, ⟨(hT h3).1, (hT h3).2.2⟩,
      (hT h4).1, ?_, (hT h4).2.2⟩
    intro l hl
    rcases (hT h4).2.1 l hl with h | ⟨i, h⟩
    · rw [h, hs.nodes]; rfl
    · exact hs.bedrock i l h
  · cases hv

theorem rowSeries_get {n : ℕ} {r : ℤ} {l : List (List (Option K))} {j : ℕ} (hj : j < l.length) :
    (rowSeries n r l)[j]? = some ((l[j]?).bind (·[pyIndex n r]?)).join := by
  unfold rowSeries
  rw [List.getElem?_map, List.getElem?_eq_getElem hj, Option.map_some, Option.bind_some,
    List.getD_eq_getElem?_getD, join_getD]

theorem fileAges_get {n m : ℕ} (hm : 0 < m) {r : ℤ} {v : FileVars K} {k : ℕ}
    (hk : k < v.age.length) :
    (fileAges n m r v)[k]? = some ((v.age[k]?).bind (·[pyIndex n r * m]?)).join := by
  unfold fileAges
  rw [List.getElem?_map, List.getElem?_eq_getElem hk, Option.map_some, Option.bind_some]
  congr 1
  have := flatRow_get m (pyIndex n r) 0 (v.age[k]) hm
  rw [Nat.add_zero] at this
  rw [← this, ← join_getD]
  cases flatRow m (pyIndex n r) v.age[k] <;> rfl

/-- The interpolation that `plot_file` does, row by row. -/
theorem interp_series {times : List K} (hp : times.Pairwise (· < ·)) {f : ℕ → Option K}
    {y : List (Option K)} (hl : y.length = times.length)
    (hy : ∀ j < times.length, y[j]? = some (f j)) {a b : K} (ha : times.head? = some a)
    (hb : times.getLast? = some b) (v : Option K) :
    ((∃ u, interpFloats times y v = .ok u) ↔ ∀ t, v = some t → a ≤ t ∧ t ≤ b) ∧
    ∀ u, interpFloats times y v = .ok u →
      (v = none → u = none) ∧ ∀ t, v = some t → Interpolates times f t u := by
  rw [interpFloats_sorted hp hl.symm ha hb]
  cases v with
  | none => exact ⟨⟨fun _ t ht => (by cases ht), fun _ => ⟨none, rfl⟩⟩,
      fun u hu => ⟨fun _ => (by cases hu; rfl), fun t ht => (by cases ht)⟩⟩
  | some t =>
    dsimp only
    have hzip : ∀ j < times.length, ∃ t0, times[j]? = some t0 ∧ (times.zip y)[j]? = some (t0, f j) := by
      intro j hj
      refine ⟨times[j], List.getElem?_eq_getElem hj, ?_⟩
      rw [List.getElem?_zip_eq_some]
      exact ⟨List.getElem?_eq_getElem hj, hy j hj⟩
    refine ⟨?_, ?_⟩
    · constructor
      · rintro ⟨u, hu⟩ t' ht
        cases ht
        split_ifs at hu with h
        push Not at h
        exact h
      · intro h
        obtain ⟨h1, h2⟩ := h t rfl
        rw [if_neg (by push Not; exact ⟨h1, h2⟩)]
        exact ⟨_, rfl⟩
    · intro u hu
      refine ⟨fun h => (by cases h), ?_⟩
      intro t' ht
      cases ht
      split_ifs at hu with h
      cases hu
      have hzp := zip_pairwise y hp
      refine ⟨?_, ?_⟩
      · intro j hj
        obtain ⟨hlt, -⟩ := List.getElem?_eq_some_iff.mp hj
        obtain ⟨t0, e1, e2⟩ := hzip j hlt
        rw [hj] at e1
        cases e1
        exact npInterp_node hzp (List.mem_of_getElem? e2)
      · intro j t0 t1 h0 h1 hlt0 hlt1
        obtain ⟨hj0, -⟩ := List.getElem?_eq_some_iff.mp h0
        obtain ⟨hj1, -⟩ := List.getElem?_eq_some_iff.mp h1
        obtain ⟨x0, e1, e2⟩ := hzip j hj0
        obtain ⟨x1, e3, e4⟩ := hzip (j + 1) hj1
        rw [h0] at e1
        cases e1
        rw [h1] at e3
        cases e3
        have hsplit : times.zip y = (times.zip y).take j ++ (t0, f j) :: (t1, f (j + 1)) ::
            (times.zip y).drop (j + 2) := by
          obtain ⟨k0, k1⟩ := List.getElem?_eq_some_iff.mp e2
          obtain ⟨k2, k3⟩ := List.getElem?_eq_some_iff.mp e4
          conv_lhs => rw [← List.take_append_drop j (times.zip y)]
          rw [List.drop_eq_getElem_cons k0, List.drop_eq_getElem_cons k2, k1, k3]
        rw [hsplit] at hzp ⊢
        rw [npInterp_between _ _ hzp hlt0 hlt1]
        cases f j <;> cases f (j + 1) <;> simp
        ring

/-- C80, what is really plotted, and C81, when: a file with everything that is needed and with
increasing times is plotted if it has at least two time slices and the ages of the layers in the
first stack of the row are not outside these times. The layers are drawn on the bedrock of the
boundary row `i` of nodes (`i + 2` if rows are counted from the end), not on their own, which is
`i + 1`. Shoreline and shelf edge are interpolated to the ages. -/
theorem plotFile_spec {d : Dataset K (Option K)} {n m i : ℕ} {row : Option ℤ} (hp : Plottable d)
    (hs : FileSizes d n m) (hm : 0 < m) (hrow : ChosenRow n row i)
    (htimes : d.times.Pairwise (· < ·)) :
    (d.times.length ≤ 1 → plotFile d row = .error .indexError) ∧
    ∀ first last, 2 ≤ d.times.length → d.times.head? = some first → d.times.getLast? = some last →
      ((∀ k < d.layerDim, ∀ a, layerValueAt d "age" k (i * m) = some a → first ≤ a ∧ a ≤ last) →
        ∃ args, plotFile d row = .ok args ∧
          args.elevation.length = d.layerDim ∧
          args.shore.length = d.layerDim ∧ args.shelf.length = d.layerDim ∧
          (∀ k < d.layerDim, ∀ c < m, (args.elevation[k]?).bind (·[c]?) = some
            ((fieldValueAt d "node" "bedrock_surface__elevation" (d.times.length - 1)
              ((if row.any (· < 0) then i + 2 else i) * (m + 2) + (c + 1))).map (· +
              ((List.range (k + 1)).map fun j =>
                (layerValueAt d "thickness" j (i * m + c)).getD 0).sum))) ∧
          (∀ k a, layerValueAt d "age" k (i * m) = some a → k < d.layerDim →
            ∃ x y, args.shore[k]? = some x ∧ args.shelf[k]? = some y ∧
              Interpolates d.times (fun j => fieldValueAt d "row" "x_of_shore" j i) a x ∧
              Interpolates d.times (fun j => fieldValueAt d "row" "x_of_shelf_edge" j i) a y) ∧
          (∀ x, d.xOf "cell" = some x → args.x = (x.drop (i * m)).take m)) ∧
      (∀ k < d.layerDim, ∀ a, layerValueAt d "age" k (i * m) = some a → (a < first ∨ last < a) →
        plotFile d row = .error .valueError) := by
  obtain ⟨p1, p2, p3, p4, p5, p6, p7⟩ := hp
  obtain ⟨v, hv⟩ := (fileVars_ok_iff (n := n) (m := m)).mpr ⟨p3, p4, p5, p6, p7⟩
  obtain ⟨r, r1, r2, r3, r4⟩ := chosenRow_of hrow
  have heq := plotFile_eq hs.rows r1 hs.columns hv
  rw [if_neg (not_not.mpr hs.nodes)] at heq
  obtain ⟨⟨t1, t2, t3⟩, ⟨g1, g2, g3⟩, ⟨s1, s2⟩, ⟨e1, e2⟩, ⟨b1, b2, b3⟩⟩ := fileVars_get hs hv
  refine ⟨fun h => by rw [heq, if_pos h], ?_⟩
  intro first last h2 hfirst hlast
  rw [if_neg (by omega : ¬ d.times.length ≤ 1)] at heq
  rw [heq]
  -- the ages
  have hage : ∀ k < d.layerDim, (fileAges n m r v)[k]? = some (layerValueAt d "age" k (i * m)) := by
    intro k hk
    rw [fileAges_get hm (by rw [g1]; exact hk), r2, g3 k hk]
  have hagelen : (fileAges n m r v).length = d.layerDim := by
    unfold fileAges
    rw [List.length_map, g1]
  have hser : ∀ {l : List (List (Option K))} {name : String},
      (l.length = d.times.length ∧ ∀ i < d.times.length, ∀ j,
        ((l[i]?).bind (·[j]?)).join = fieldValueAt d "row" name i j) →
      (rowSeries n r l).length = d.times.length ∧
      ∀ j < d.times.length, (rowSeries n r l)[j]? = some (fieldValueAt d "row" name j i) := by
    intro l name ⟨h1, h2⟩
    refine ⟨by unfold rowSeries; rw [List.length_map, h1], ?_⟩
    intro j hj
    rw [rowSeries_get (by rw [h1]; exact hj), r2, h2 j hj]
  obtain ⟨ss1, ss2⟩ := hser ⟨s1, s2⟩
  obtain ⟨se1, se2⟩ := hser ⟨e1, e2⟩
  have hshore := interp_series htimes ss1 ss2 hfirst hlast
  have hshelf := interp_series htimes se1 se2 hfirst hlast
  constructor
  · intro hr
    have hin : ∀ a ∈ fileAges n m r v, ∀ t, a = some t → first ≤ t ∧ t ≤ last := by
      intro a ha t ht
      obtain ⟨k, hk⟩ := List.mem_iff_getElem?.mp ha
      have hlt : k < d.layerDim := by
        rw [← hagelen]
        exact (List.getElem?_eq_some_iff.mp hk).1
      rw [hage k hlt] at hk
      cases hk
      exact hr k hlt t ht
    obtain ⟨xs, hxs⟩ : ∃ xs, interpAll d.times (rowSeries n r v.shore) (fileAges n m r v) = .ok xs :=
      mapM_total fun a ha => (hshore a).1.mpr (hin a ha)
    obtain ⟨ys, hys⟩ : ∃ ys, interpAll d.times (rowSeries n r v.shelf) (fileAges n m r v) = .ok ys :=
      mapM_total fun a ha => (hshelf a).1.mpr (hin a ha)
    obtain ⟨x1, x2⟩ := mapM_ok_iff.mp hxs
    obtain ⟨y1, y2⟩ := mapM_ok_iff.mp hys
    refine ⟨_, by rw [hxs, hys], ?_, x1.symm.trans hagelen, y1.symm.trans hagelen, ?_, ?_, ?_⟩
    · simp only [fileElevation, List.length_map, cumsumRows_length, t1]
    · intro k hk c hc
      have hrowlen : ∀ l ∈ v.thickness.map (flatRow m (pyIndex n r)),
          l.length = (List.replicate m (0 : K)).length := by
        intro l hl
        obtain ⟨l', hl', rfl⟩ := List.mem_map.mp hl
        rw [List.length_replicate, flatRow_length (t2 l' hl') (by rw [r2]; exact r3)]
      obtain ⟨h, c1, c2, c3⟩ := cumsumRows_get _ (List.replicate m (0 : K)) k c hrowlen
        (by rw [List.length_map, t1]; exact hk) (by rw [List.length_replicate]; exact hc)
      rw [List.length_replicate] at c2
      simp only [fileElevation, List.getElem?_map, c1, Option.map_some, Option.bind_some]
      have hlt : d.times.length - 1 < d.times.length := by omega
      have hbl : v.bedrock.getLastD [] = (v.bedrock[d.times.length - 1]?).getD [] := by
        rw [← b1, ← List.getLast?_eq_getElem?, List.getLastD_eq_getLast?]
      obtain ⟨bl, hbl'⟩ : ∃ bl, v.bedrock[d.times.length - 1]? = some bl :=
        ⟨_, List.getElem?_eq_getElem (by rw [b1]; exact hlt)⟩
      have hbv := b3 _ hlt ((if row.any (· < 0) then i + 2 else i) * (m + 2) + (c + 1))
      rw [hbl', Option.bind_some] at hbv
      rw [hbl, hbl', Option.getD_some, ← hbv]
      have hbllen := b2 bl (List.mem_of_getElem? hbl')
      have hflat : (flatRow (m + 2) (pyIndex (n + 2) r) bl).length = m + 2 :=
        flatRow_length hbllen (by rw [r4]; split_ifs <;> omega)
      have hidx : (if row.any (· < 0) then i + 2 else i) * (m + 2) + (c + 1) < bl.length := by
        rw [hbllen]
        have : (if row.any (· < 0) then i + 2 else i) + 1 ≤ n + 2 := by split_ifs <;> omega
        have := Nat.mul_le_mul_right (m + 2) this
        rw [Nat.succ_mul] at this
        omega
      have hbed : (((flatRow (m + 2) (pyIndex (n + 2) r) bl).drop 1).dropLast)[c]? =
          bl[(if row.any (· < 0) then i + 2 else i) * (m + 2) + (c + 1)]? := by
        rw [List.getElem?_dropLast, if_pos (by rw [List.length_drop, hflat]; omega),
          List.getElem?_drop, flatRow_get _ _ _ _ (by omega), r4, Nat.add_comm 1 c]
      have hsum : ((v.thickness.map (flatRow m (pyIndex n r))).take (k + 1)).map
          (fun l => ((l[c]?).getD none).getD 0) =
          (List.range (k + 1)).map fun j => (layerValueAt d "thickness" j (i * m + c)).getD 0 := by
        refine List.ext_getElem? fun j => ?_
        rw [List.getElem?_map, List.getElem?_take, List.getElem?_map, List.getElem?_map]
        by_cases hj : j < k + 1
        · rw [if_pos hj, List.getElem?_range hj]
          have hjl : j < d.layerDim := by omega
          have := t3 j hjl (i * m + c)
          rw [List.getElem?_eq_getElem (by rw [t1]; exact hjl), Option.bind_some] at this
          rw [List.getElem?_eq_getElem (by rw [t1]; exact hjl), Option.map_some, Option.map_some,
            Option.map_some, flatRow_get _ _ _ _ hc, r2, join_getD, this]
        · rw [if_neg hj, List.getElem?_eq_none (by simp; omega)]
          rfl
      rw [List.getElem?_zipWith, hbed, c3, hsum, List.getElem?_eq_getElem hidx,
        List.getElem_replicate]
      simp
    · intro k a ha hk
      obtain ⟨x, hx1, hx2⟩ := x2 k _ (hage k hk)
      obtain ⟨y, hy1, hy2⟩ := y2 k _ (hage k hk)
      exact ⟨x, y, hx1, hy1, ((hshore _).2 x hx2).2 a ha, ((hshelf _).2 y hy2).2 a ha⟩
    · intro x hx
      simp only [fileX, hx, flatRow, r2]
  · intro k hk a ha hout
    cases hxs : interpAll d.times (rowSeries n r v.shore) (fileAges n m r v) with
    | error e => rw [interpAll_error hxs]
    | ok xs =>
      obtain ⟨x, -, hx⟩ := (mapM_ok_iff.mp hxs).2 k _ (hage k hk)
      obtain ⟨h3, h4⟩ := (hshore _).1.mp ⟨x, hx⟩ a ha
      rcases hout with h | h
      · exact absurd h3 (not_le.mpr h)
      · exact absurd h4 (not_le.mpr h)

end Verif.Props
