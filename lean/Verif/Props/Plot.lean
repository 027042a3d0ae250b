import Mathlib.Algebra.Order.Ring.Rat
import Mathlib.Tactic.LinearCombination
import Verif.Lemmas.Plot

/-!
# Plots of layers: C56, C57, C77 and C78
-/

set_option autoImplicit false
set_option linter.unusedSectionVars false

namespace Verif.Props

open Verif Spec

variable {K : Type*}

/-! ## C56: which layers are drawn as lines -/

/-- The indices that the slice `start:stop:step` selects, for `0 ≤ start`, `stop` not behind the
end of the array and a positive step. -/
def selected (start stop step : ℤ) : ℕ := ((stop - start + step - 1) / step).toNat

/-- C56, when it fails: exactly if some layers are wanted and the range is one short of empty. -/
theorem layersToPlot_error_iff (start stop num : ℤ) :
    (∃ e, layersToPlot start stop num = .error e) ↔ num ≠ 0 ∧ start = stop + 1 := by
  unfold layersToPlot
  by_cases h0 : num = 0
  · simp [h0]
  · rw [if_neg h0]
    dsimp only
    by_cases hc : num < 0 ∨ num > stop - start + 1
    · rw [if_pos hc]
      by_cases hz : stop - start + 1 = 0
      · rw [if_pos hz]
        exact ⟨fun _ => ⟨h0, by omega⟩, fun _ => ⟨_, rfl⟩⟩
      · rw [if_neg hz]
        constructor
        · rintro ⟨e, he⟩
          cases he
        · rintro ⟨-, h⟩
          omega
    · rw [if_neg hc, if_neg h0]
      constructor
      · rintro ⟨e, he⟩
        cases he
      · rintro ⟨-, h⟩
        omega

/-- C56, the part that holds: for a range with at least one layer and a positive number, the
selection starts at `start`, has a positive step, all of it lies in the range, and it has at least
as many layers as asked for (or all there are) and fewer than twice as many. -/
theorem layers_count_partial (start stop num : ℤ) (hrange : start < stop) (hnum : 0 < num) :
    ∃ step, layersToPlot start stop num = .ok (some (start, stop, step)) ∧ 0 < step ∧
      min num (stop - start) ≤ selected start stop step ∧
      (selected start stop step : ℤ) < 2 * num ∧
      (∀ k < selected start stop step, start ≤ start + k * step ∧ start + k * step < stop) ∧
      stop ≤ start + selected start stop step * step := by
  have key : ∀ step, 0 < step → (stop - start + 1).tdiv
      (if num < 0 ∨ num > stop - start + 1 then stop - start + 1 else num) = step →
      (∀ k < selected start stop step, start ≤ start + k * step ∧ start + k * step < stop) ∧
      stop ≤ start + selected start stop step * step := by
    intro step hs _
    have hq := Int.mul_ediv_add_emod (stop - start + step - 1) step
    have hr0 := Int.emod_nonneg (stop - start + step - 1) hs.ne'
    have hr1 := Int.emod_lt_of_pos (stop - start + step - 1) hs
    have hpos : 0 ≤ (stop - start + step - 1) / step := Int.ediv_nonneg (by omega) hs.le
    have hcast : (selected start stop step : ℤ) = (stop - start + step - 1) / step := by
      unfold selected
      rw [Int.toNat_of_nonneg hpos]
    constructor
    · intro k hk
      have hk' : (k : ℤ) + 1 ≤ (stop - start + step - 1) / step := by
        rw [← hcast]
        omega
      have h0 : 0 ≤ (k : ℤ) * step := by positivity
      have h1 : ((k : ℤ) + 1) * step ≤ (stop - start + step - 1) / step * step :=
        mul_le_mul_of_nonneg_right hk' hs.le
      constructor
      · omega
      · rw [add_mul] at h1
        rw [mul_comm step] at hq
        omega
    · rw [hcast]
      rw [mul_comm step] at hq
      omega
  unfold layersToPlot
  rw [if_neg (by omega)]
  dsimp only
  by_cases hc : num < 0 ∨ num > stop - start + 1
  · rw [if_pos hc, if_neg (by omega)]
    have h1 : (stop - start + 1).tdiv (stop - start + 1) = 1 := Int.tdiv_self (by omega)
    refine ⟨1, by rw [h1], by norm_num, ?_, ?_, key 1 (by norm_num) (by rw [if_pos hc]; exact h1)⟩
    · unfold selected
      rw [Int.ediv_one, min_eq_right (by omega)]
      omega
    · unfold selected
      rw [Int.ediv_one]
      omega
  · rw [if_neg hc, if_neg (by omega)]
    push Not at hc
    set step := (stop - start + 1).tdiv num with hstep
    have he : step = (stop - start + 1) / num := by
      rw [hstep, Int.tdiv_eq_ediv_of_nonneg (by omega)]
    have hs : 0 < step := by
      rw [he]
      exact (Int.le_ediv_iff_mul_le hnum).mpr (by omega)
    have hk := key step hs (by rw [if_neg (by push Not; exact hc)])
    have hq := Int.mul_ediv_add_emod (stop - start + 1) num
    have hr0 := Int.emod_nonneg (stop - start + 1) hnum.ne'
    have hr1 := Int.emod_lt_of_pos (stop - start + 1) hnum
    rw [← he] at hq
    refine ⟨step, rfl, hs, ?_, ?_, hk⟩
    · by_contra hlt
      push Not at hlt
      rw [lt_min_iff] at hlt
      have h1 : (selected start stop step : ℤ) * step ≤ (num - 1) * step :=
        mul_le_mul_of_nonneg_right (by omega) hs.le
      have h2 := hk.2
      have h3 : (num - 1) * step = num * step - step := by ring
      have hstep1 : step = 1 := by omega
      rw [hstep1] at h2 hlt
      rw [mul_one] at h2
      omega
    · by_contra hge
      push Not at hge
      have hpos : 0 < selected start stop step := by omega
      have h1 := (hk.1 (selected start stop step - 1) (by omega)).2
      rw [Nat.cast_sub (by omega), Nat.cast_one] at h1
      have h2 : (2 * num - 1) * step ≤ ((selected start stop step : ℤ) - 1) * step :=
        mul_le_mul_of_nonneg_right (by omega) hs.le
      nlinarith

/-- C56 is false in its last part: nearly twice as many layers as asked for can be drawn. -/
theorem too_many_layers (num : ℤ) (hnum : 2 < num) :
    ∃ step, layersToPlot 0 (2 * num - 2) num = .ok (some (0, 2 * num - 2, step)) ∧
      (selected 0 (2 * num - 2) step : ℤ) = 2 * num - 2 := by
  unfold layersToPlot
  rw [if_neg (by omega)]
  dsimp only
  rw [if_neg (by omega), if_neg (by omega)]
  have h1 : (2 * num - 2 - 0 + 1).tdiv num = 1 := by
    rw [Int.tdiv_eq_ediv_of_nonneg (by omega)]
    exact Int.ediv_eq_iff_of_pos (by omega) |>.mpr (by omega)
  rw [h1]
  refine ⟨1, rfl, ?_⟩
  unfold selected
  rw [Int.ediv_one]
  omega

example : layersToPlot 0 (100 : ℤ) 5 = .ok (some (0, 100, 20)) ∧ selected 0 100 20 = 5 ∧
    layersToPlot 0 (8 : ℤ) 5 = .ok (some (0, 8, 1)) ∧ selected 0 8 1 = 8 ∧
    layersToPlot 3 (2 : ℤ) 5 = .error .zeroDivision := by decide +kernel

section
variable [Field K] [LinearOrder K] [IsStrictOrderedRing K]

/-! ## C57: outlines -/

/-- An array of `n` numbers. -/
abbrev arr {α : Type*} (n : ℕ) (f : ℕ → α) : List α := (List.range n).map f

/-- The columns along the top, from right to left. There are none if the limits are the wrong way
round. -/
def topColumns (n t0 t1 : ℕ) : List ℕ :=
  if t0 ≤ t1 then walk (min t1 (n - 1)) (min t0 (n - 1)) else []

/-- The columns of an outline, in order: along the top from right to left, down to the bottom,
along the bottom from left to right, up to the top. -/
def outlineColumns (n b0 b1 t0 t1 : ℕ) : List ℕ :=
  topColumns n t0 t1 ++ walk (min t0 (n - 1)) (min b0 (n - 1)) ++
    List.range' b0 (min b1 n - b0) ++ walk (min b1 (n - 1)) (min t1 (n - 1))

/-- The elevations of an outline. -/
def outlineElevations (n : ℕ) (x yb yt : ℕ → K) (b0 b1 t0 t1 : ℕ) : List K :=
  (topColumns n t0 t1).map yt ++
    (walk (min t0 (n - 1)) (min b0 (n - 1))).map
      (blend x yt yb (min t0 (n - 1)) (min b0 (n - 1))) ++
    (List.range' b0 (min b1 n - b0)).map yb ++
    (walk (min b1 (n - 1)) (min t1 (n - 1))).map
      (blend x yb yt (min b1 (n - 1)) (min t1 (n - 1)))

/-- One side of an outline. -/
theorem side_ok {n : ℕ} (hn : 0 < n) {x : ℕ → K} (hx : ∀ i j, i < j → j < n → x i < x j)
    (f g : ℕ → K) (a b : ℕ) :
    ∃ l, interpBetween
      (stepped (decide (a > b)) (if a > b then sliceUp b (a + 1) (arr n x)
        else sliceUp a (b + 1) (arr n x)))
      (stepped (decide (a > b)) (if a > b then sliceUp b (a + 1) (arr n f)
        else sliceUp a (b + 1) (arr n f)))
      (stepped (decide (a > b)) (if a > b then sliceUp b (a + 1) (arr n g)
        else sliceUp a (b + 1) (arr n g))) = .ok l ∧
      l.dropLast = (walk (min a (n - 1)) (min b (n - 1))).map
        (blend x f g (min a (n - 1)) (min b (n - 1))) ∧
      (stepped (decide (a > b)) (if a > b then sliceUp b (a + 1) (arr n x)
        else sliceUp a (b + 1) (arr n x))).dropLast =
        (walk (min a (n - 1)) (min b (n - 1))).map x := by
  have hcols : ∀ h : ℕ → K, stepped (decide (a > b)) (if a > b then sliceUp b (a + 1) (arr n h)
      else sliceUp a (b + 1) (arr n h)) =
      (if n ≤ a ∧ n ≤ b then [] else walk (min a (n - 1)) (min b (n - 1)) ++ [min b (n - 1)]).map h := by
    intro h
    by_cases hab : a > b
    · rw [if_pos hab, decide_eq_true hab, sliceUp_map]
      unfold stepped
      rw [if_pos rfl, ← List.map_reverse]
      congr 1
      by_cases hb : n ≤ b
      · rw [if_pos ⟨by omega, hb⟩, show min (a + 1) n - b = 0 by omega]
        rfl
      · rw [if_neg (by omega), min_eq_left (show b ≤ n - 1 by omega)]
        by_cases hlt : b < min a (n - 1)
        · rw [← walk_down hlt]
          congr 2
          omega
        · have e : min a (n - 1) = b := by omega
          rw [e, walk_self, show min (a + 1) n - b = 1 by omega]
          rfl
    · rw [if_neg hab, decide_eq_false hab, sliceUp_map]
      unfold stepped
      rw [if_neg (by simp)]
      congr 1
      by_cases ha : n ≤ a
      · rw [if_pos ⟨ha, by omega⟩, show min (b + 1) n - a = 0 by omega]
        rfl
      · rw [if_neg (by omega), min_eq_left (show a ≤ n - 1 by omega),
          ← walk_up (show a ≤ min b (n - 1) by omega)]
        congr 1
        omega
  rw [hcols x, hcols f, hcols g]
  by_cases hboth : n ≤ a ∧ n ≤ b
  · rw [if_pos hboth, min_eq_right (show n - 1 ≤ a by omega),
      min_eq_right (show n - 1 ≤ b by omega), walk_self]
    exact ⟨[], by simp [interpBetween], rfl, rfl⟩
  · rw [if_neg hboth]
    obtain ⟨l, h1, h2⟩ := interpBetween_walk hx f g (a := min a (n - 1)) (b := min b (n - 1))
      (by omega) (by omega)
    exact ⟨l, h1, h2, by simp⟩

/-- C57. The outline of a layer is exactly the path described above: along the top, down to the bottom in proportion to the
distance, along the bottom and back up in proportion to the distance. Nothing fails. -/
theorem outline_path {n : ℕ} (hn : 0 < n) {x : ℕ → K} (hx : ∀ i j, i < j → j < n → x i < x j)
    (yb yt : ℕ → K) (b0 b1 t0 t1 : ℕ) :
    outlineLayer (arr n x) (arr n yb) (arr n yt) (some (some b0, some b1))
      (some (some t0, some t1)) =
      .ok ((outlineColumns n b0 b1 t0 t1).map x, outlineElevations n x yb yt b0 b1 t0 t1) := by
  have htop : ∀ f : ℕ → K, sliceDown t1 t0 (arr n f) =
      (topColumns n t0 t1).map f := by
    intro f
    rw [sliceDown_map]
    congr 1
    unfold topColumns
    by_cases ht : t0 ≤ t1
    swap
    · rw [if_neg ht, show min (t1 + 1) n - (t0 + 1) = 0 by omega]
      rfl
    rw [if_pos ht]
    by_cases hlt : min t0 (n - 1) < min t1 (n - 1)
    · unfold walk
      rw [if_neg (by omega)]
      congr 2 <;> omega
    · rw [show min t1 (n - 1) = min t0 (n - 1) by omega, walk_self,
        show min (t1 + 1) n - (t0 + 1) = 0 by omega]
      rfl
  obtain ⟨l, l1, l2, l3⟩ := side_ok hn hx yt yb t0 b0
  obtain ⟨r, r1, r2, r3⟩ := side_ok hn hx yb yt b1 t1
  unfold outlineLayer
  simp only [Option.getD_some]
  rw [l1]
  dsimp only
  rw [r1]
  dsimp only
  rw [l2, l3, r2, r3, htop, htop, sliceUp_map, sliceUp_map]
  unfold outlineColumns outlineElevations
  simp only [List.map_append]

theorem goes_bottom {n : ℕ} (hn : 0 < n) {b0 b1 : ℕ} (h : b0 ≤ b1) :
    Goes (min b0 (n - 1)) (List.range' b0 (min b1 n - b0)) (min b1 (n - 1)) := by
  by_cases hb : b1 < n
  · rw [min_eq_left (show b1 ≤ n by omega), min_eq_left (show b0 ≤ n - 1 by omega),
      min_eq_left (show b1 ≤ n - 1 by omega)]
    have := goes_walk b0 b1
    unfold walk at this
    rwa [if_pos h] at this
  · rw [min_eq_right (show n ≤ b1 by omega), min_eq_right (show n - 1 ≤ b1 by omega)]
    by_cases hb0 : b0 < n
    · rw [min_eq_left (show b0 ≤ n - 1 by omega)]
      have e : List.range' b0 (n - b0) = walk b0 (n - 1) ++ [n - 1] := by
        rw [← walk_up (by omega)]
        congr 1
        omega
      rw [e]
      refine (goes_walk b0 (n - 1)).append ⟨?_, ?_⟩
      · simp [Adjacent]
      · simp
    · rw [min_eq_right (show n - 1 ≤ b0 by omega), show n - b0 = 0 by omega]
      exact ⟨by simp, by simp⟩

/-- C57. Walking around an outline one never skips a column. -/
theorem outline_connected {n b0 b1 t0 t1 : ℕ} (hn : 0 < n) (hb : b0 ≤ b1) (ht : t0 ≤ t1) :
    ClosedPath (outlineColumns n b0 b1 t0 t1) := by
  unfold outlineColumns topColumns
  rw [if_pos ht]
  exact ((((goes_walk _ _).append (goes_walk _ _)).append (goes_bottom hn hb)).append
    (goes_walk _ _)).closed

/-- C57. The columns of an outline stay in the two ranges and in the array. -/
theorem outline_in_range {n b0 b1 t0 t1 : ℕ} (hn : 0 < n) (hb : b0 ≤ b1) (ht : t0 ≤ t1) :
    ∀ c ∈ outlineColumns n b0 b1 t0 t1,
      min (min b0 t0) (n - 1) ≤ c ∧ c ≤ max b1 t1 ∧ c < n := by
  intro c hc
  unfold outlineColumns topColumns at hc
  rw [if_pos ht] at hc
  simp only [List.mem_append] at hc
  rcases hc with ((hc | hc) | hc) | hc
  · rcases mem_walk hc with h | h <;> omega
  · rcases mem_walk hc with h | h <;> omega
  · rw [List.mem_range'_1] at hc
    omega
  · rcases mem_walk hc with h | h <;> omega

/-- C57. As many elevations as columns. -/
theorem outline_lengths (n : ℕ) (x yb yt : ℕ → K) (b0 b1 t0 t1 : ℕ) :
    (outlineElevations n x yb yt b0 b1 t0 t1).length = (outlineColumns n b0 b1 t0 t1).length := by
  simp [outlineElevations, outlineColumns]

theorem blend_between {n : ℕ} {x : ℕ → K} (hx : ∀ i j, i < j → j < n → x i < x j) (f g : ℕ → K)
    {a b c : ℕ} (ha : a < n) (hb : b < n) (hc : c ∈ walk a b) :
    Between (f c) (g c) (blend x f g a b c) := by
  have hle : ∀ i j, i ≤ j → j < n → x i ≤ x j := by
    intro i j hij hj
    rcases Nat.eq_or_lt_of_le hij with rfl | h
    · exact le_rfl
    · exact (hx _ _ h hj).le
  have hfrac : 0 ≤ (x c - x a) / (x b - x a) ∧ (x c - x a) / (x b - x a) ≤ 1 := by
    rcases mem_walk hc with h | h
    · have h1 := hle _ _ h.1 (by omega)
      have h2 := hx _ _ h.2 hb
      have h3 : 0 < x b - x a := by linarith
      exact ⟨div_nonneg (by linarith) h3.le, (div_le_one h3).mpr (by linarith)⟩
    · have h1 := hle _ _ h.2 ha
      have h2 := hx _ _ h.1 (by omega)
      have h3 : x b - x a < 0 := by linarith
      exact ⟨div_nonneg_of_nonpos (by linarith) h3.le, (div_le_one_of_neg h3).mpr (by linarith)⟩
  unfold blend Between
  set t := (x c - x a) / (x b - x a)
  rcases le_total (f c) (g c) with h | h
  · rw [min_eq_left h, max_eq_right h]
    constructor <;> nlinarith [hfrac.1, hfrac.2]
  · rw [min_eq_right h, max_eq_left h]
    constructor <;> nlinarith [hfrac.1, hfrac.2]

/-- C57. Every vertex lies between the two surfaces at its column. -/
theorem outline_between {n : ℕ} (hn : 0 < n) {x : ℕ → K} (hx : ∀ i j, i < j → j < n → x i < x j)
    (yb yt : ℕ → K) (b0 b1 t0 t1 : ℕ) :
    ∀ p ∈ (outlineColumns n b0 b1 t0 t1).zip (outlineElevations n x yb yt b0 b1 t0 t1),
      Between (yb p.1) (yt p.1) p.2 := by
  have hself : ∀ (l : List ℕ) (f : ℕ → K), l.zip (l.map f) = l.map fun c => (c, f c) := by
    intro l f
    rw [List.zip_map_right, List.zip_eq_zipWith, List.zipWith_self, List.map_map]
    rfl
  have hsym : ∀ a b v : K, Between a b v → Between b a v := by
    intro a b v h
    unfold Between at h ⊢
    rwa [min_comm, max_comm]
  intro p hp
  unfold outlineColumns outlineElevations at hp
  rw [List.zip_append (by simp), List.zip_append (by simp), List.zip_append (by simp), hself,
    hself, hself, hself] at hp
  simp only [List.mem_append, List.mem_map] at hp
  rcases hp with ((⟨c, hc, rfl⟩ | ⟨c, hc, rfl⟩) | ⟨c, hc, rfl⟩) | ⟨c, hc, rfl⟩
  · exact ⟨min_le_right _ _, le_max_right _ _⟩
  · exact hsym _ _ _ (blend_between hx yt yb (by omega) (by omega) hc)
  · exact ⟨min_le_left _ _, le_max_left _ _⟩
  · exact blend_between hx yb yt (by omega) (by omega) hc

/-- C57 needs limits that are the right way round. With the shelf edge landward of the shoreline
the path can jump. -/
theorem outline_jumps : ¬ ClosedPath (outlineColumns 6 4 2 5 1) := by decide +kernel

example : outlineLayer (K := ℚ) (arr 6 fun i => i) (arr 6 fun _ => 0) (arr 6 fun _ => 1)
      (some (some 1, some 3)) (some (some 2, some 5)) =
      .ok ([5, 4, 3, 2, 1, 2, 3, 4], [1, 1, 1, 1, 0, 0, 0, 1 / 2]) ∧
    outlineColumns 6 1 3 2 5 = [5, 4, 3, 2, 1, 2, 3, 4] := by decide +kernel

/-! ## C77: corners -/

theorem blend_start {x : ℕ → K} (f g : ℕ → K) (a b : ℕ) : blend x f g a b a = f a := by
  simp [blend]

/-- A line that leaves `f` for a different `g` does not touch `g` before its end. -/
theorem blend_ne_end {n : ℕ} {x : ℕ → K} (hx : ∀ i j, i < j → j < n → x i < x j) (f g : ℕ → K)
    {a b c : ℕ} (ha : a < n) (hb : b < n) (hc : c ∈ walk a b) (hfg : f c ≠ g c) :
    blend x f g a b c ≠ g c := by
  have hxcb : x c ≠ x b := by
    rcases mem_walk hc with h | h
    · exact (hx _ _ h.2 hb).ne
    · exact (hx _ _ h.1 (by omega)).ne'
  have hxab : x b - x a ≠ 0 := by
    rcases mem_walk hc with h | h
    · exact sub_ne_zero.mpr (hx _ _ (by omega) hb).ne'
    · exact sub_ne_zero.mpr (hx _ _ (by omega) ha).ne
  intro h
  unfold blend at h
  have h1 : (g c - f c) * ((x c - x a) / (x b - x a) - 1) = 0 := by linear_combination h
  rcases mul_eq_zero.mp h1 with h2 | h2
  · exact hfg (sub_eq_zero.mp h2).symm
  · have h3 : (x c - x a) / (x b - x a) = 1 := by linear_combination h2
    rw [div_eq_one_iff_eq hxab] at h3
    exact hxcb (by linear_combination h3)

/-- The vertices of an outline. -/
abbrev outlineVertices (n : ℕ) (x yb yt : ℕ → K) (b0 b1 t0 t1 : ℕ) : List (ℕ × K) :=
  (outlineColumns n b0 b1 t0 t1).zip (outlineElevations n x yb yt b0 b1 t0 t1)

theorem mem_outlineVertices (n : ℕ) (x yb yt : ℕ → K) (b0 b1 t0 t1 : ℕ) (p : ℕ × K) :
    p ∈ outlineVertices n x yb yt b0 b1 t0 t1 ↔
      (p.1 ∈ topColumns n t0 t1 ∧ p.2 = yt p.1) ∨
      (p.1 ∈ walk (min t0 (n - 1)) (min b0 (n - 1)) ∧
        p.2 = blend x yt yb (min t0 (n - 1)) (min b0 (n - 1)) p.1) ∨
      (p.1 ∈ List.range' b0 (min b1 n - b0) ∧ p.2 = yb p.1) ∨
      (p.1 ∈ walk (min b1 (n - 1)) (min t1 (n - 1)) ∧
        p.2 = blend x yb yt (min b1 (n - 1)) (min t1 (n - 1)) p.1) := by
  have hself : ∀ (l : List ℕ) (f : ℕ → K), l.zip (l.map f) = l.map fun c => (c, f c) := by
    intro l f
    rw [List.zip_map_right, List.zip_eq_zipWith, List.zipWith_self, List.map_map]
    rfl
  have hm : ∀ (l : List ℕ) (f : ℕ → K), p ∈ l.map (fun c => (c, f c)) ↔ p.1 ∈ l ∧ p.2 = f p.1 := by
    intro l f
    rw [List.mem_map]
    constructor
    · rintro ⟨c, hc, rfl⟩
      exact ⟨hc, rfl⟩
    · rintro ⟨hc, he⟩
      exact ⟨p.1, hc, Prod.ext rfl he.symm⟩
  unfold outlineVertices outlineColumns outlineElevations
  rw [List.zip_append (by simp), List.zip_append (by simp), List.zip_append (by simp), hself,
    hself, hself, hself, List.mem_append, List.mem_append, List.mem_append, hm, hm, hm, hm]
  tauto

/-- C77. The left end of the top surface is a corner of the outline exactly if the left ends of
top and bottom differ. -/
theorem top_corner_iff {n : ℕ} {x : ℕ → K} (hx : ∀ i j, i < j → j < n → x i < x j)
    (yb yt : ℕ → K) (hy : ∀ c < n, yb c < yt c) {b0 b1 t0 t1 : ℕ} (hb0 : b0 < n) (hb1 : b1 < n)
    (ht0 : t0 < n) (ht1 : t1 < n) :
    (t0, yt t0) ∈ outlineVertices n x yb yt b0 b1 t0 t1 ↔ t0 ≠ b0 := by
  rw [mem_outlineVertices]
  dsimp only
  rw [min_eq_left (show t0 ≤ n - 1 by omega), min_eq_left (show b0 ≤ n - 1 by omega),
    min_eq_left (show b1 ≤ n - 1 by omega), min_eq_left (show t1 ≤ n - 1 by omega)]
  constructor
  · rintro (⟨h, -⟩ | ⟨h, -⟩ | ⟨-, h⟩ | ⟨h, he⟩)
    · exfalso
      unfold topColumns at h
      split_ifs at h
      · rw [min_eq_left (show t0 ≤ n - 1 by omega), min_eq_left (show t1 ≤ n - 1 by omega)] at h
        rcases mem_walk h with h | h <;> omega
      · simp at h
    · rcases mem_walk h with h | h <;> omega
    · exact absurd h (hy t0 ht0).ne'
    · exact absurd he.symm (blend_ne_end hx yb yt hb1 ht1 h (hy t0 ht0).ne)
  · intro hne
    refine Or.inr (Or.inl ⟨mem_walk_iff.mpr (by omega), ?_⟩)
    rw [blend_start]

/-- C77. The right end of the bottom surface is a corner of the outline exactly if the right ends
of top and bottom differ. -/
theorem bottom_corner_iff {n : ℕ} {x : ℕ → K} (hx : ∀ i j, i < j → j < n → x i < x j)
    (yb yt : ℕ → K) (hy : ∀ c < n, yb c < yt c) {b0 b1 t0 t1 : ℕ} (hb0 : b0 < n) (hb1 : b1 < n)
    (ht0 : t0 < n) (ht1 : t1 < n) :
    (b1, yb b1) ∈ outlineVertices n x yb yt b0 b1 t0 t1 ↔ b1 ≠ t1 := by
  rw [mem_outlineVertices]
  dsimp only
  rw [min_eq_left (show t0 ≤ n - 1 by omega), min_eq_left (show b0 ≤ n - 1 by omega),
    min_eq_left (show b1 ≤ n - 1 by omega), min_eq_left (show t1 ≤ n - 1 by omega)]
  constructor
  · rintro (⟨-, h⟩ | ⟨h, he⟩ | ⟨h, -⟩ | ⟨h, -⟩)
    · exact absurd h (hy b1 hb1).ne
    · exact absurd he.symm (blend_ne_end hx yt yb ht0 hb0 h (hy b1 hb1).ne')
    · rw [List.mem_range'_1] at h
      omega
    · rcases mem_walk h with h | h <;> omega
  · intro hne
    refine Or.inr (Or.inr (Or.inr ⟨mem_walk_iff.mpr (by omega), ?_⟩))
    rw [blend_start]

/-- C77. In particular the land, which begins at the first column in every layer, never reaches
the top of its layer there, and the shelf, which ends at the last column, never the bottom. -/
theorem corners_cut {n : ℕ} {x : ℕ → K} (hx : ∀ i j, i < j → j < n → x i < x j)
    (yb yt : ℕ → K) (hy : ∀ c < n, yb c < yt c) {b t : ℕ} (hb : b < n) (ht : t < n) :
    (0, yt 0) ∉ outlineVertices n x yb yt 0 b 0 t ∧
      (n - 1, yb (n - 1)) ∉ outlineVertices n x yb yt b (n - 1) t (n - 1) := by
  rw [top_corner_iff hx yb yt hy (by omega) hb (by omega) ht,
    bottom_corner_iff hx yb yt hy hb (by omega) ht (by omega)]
  simp

/-- A layer of constant thickness between two verticals: a square without two of its corners. -/
example : outlineLayer (K := ℚ) (arr 3 fun i => i) (arr 3 fun _ => 0) (arr 3 fun _ => 1) none
    none = .ok ([2, 1, 0, 1], [1, 1, 0, 0]) := by decide +kernel

/-! ## C78: plots of layers -/

theorem length_searchSorted (x : List K) (v : Option K) : searchSorted x v ≤ x.length := by
  unfold searchSorted
  cases v with
  | none => exact le_rfl
  | some v => exact (List.takeWhile_prefix _).length_le

/-- The polygons of one facies. -/
def patches (n : ℕ) (x : ℕ → K) (ys : List (ℕ → K)) (lower upper : ℕ → ℕ) :
    List (List K × List K) :=
  (List.range (ys.length - 1)).map fun k =>
    ((outlineColumns n (lower k) (upper k) (lower (k + 1)) (upper (k + 1))).map x,
      outlineElevations n x (ys.getD k 0) (ys.getD (k + 1) 0) (lower k) (upper k)
        (lower (k + 1)) (upper (k + 1)))

theorem fillBetween_ok {n : ℕ} (hn : 0 < n) {x : ℕ → K}
    (hx : ∀ i j, i < j → j < n → x i < x j) (ys : List (ℕ → K)) (lower upper : Option (List ℕ))
    (hl : ∀ l, lower = some l → l.length = ys.length)
    (hu : ∀ l, upper = some l → l.length = ys.length) :
    fillBetween (arr n x) (ys.map (arr n)) lower upper =
      .ok (patches n x ys (fun k => (lower.map fun l => l.getD k 0).getD 0)
        (fun k => (upper.map fun l => l.getD k 0).getD (n - 1))) := by
  unfold fillBetween patches
  dsimp only
  rw [List.length_map]
  apply mapM_ok_eq
  intro k hk
  rw [List.mem_range] at hk
  have hk0 : k < ys.length := by omega
  have hk1 : k + 1 < ys.length := by omega
  have hlo : ∀ j < ys.length, (lower.getD (List.replicate ys.length 0))[j]? =
      some ((lower.map fun l => l.getD j 0).getD 0) := by
    intro j hj
    cases lower with
    | none => simp [hj]
    | some l =>
      have := hl l rfl
      simp [List.getElem?_eq_getElem (show j < l.length by omega)]
  have hup : ∀ j < ys.length, (upper.getD (List.replicate ys.length ((arr n x).length - 1)))[j]? =
      some ((upper.map fun l => l.getD j 0).getD (n - 1)) := by
    intro j hj
    cases upper with
    | none => simp [hj]
    | some l =>
      have := hu l rfl
      simp [List.getElem?_eq_getElem (show j < l.length by omega)]
  have hys : ∀ j < ys.length, (ys.map (arr n))[j]? = some (arr n (ys.getD j 0)) := by
    intro j hj
    rw [List.getElem?_map, List.getElem?_eq_getElem hj]
    simp [List.getElem?_eq_getElem hj]
  rw [hys k hk0, hys (k + 1) hk1, hlo k hk0, hlo (k + 1) hk1, hup k hk0, hup (k + 1) hk1]
  dsimp only
  exact outline_path hn hx _ _ _ _ _ _

/-- The stack of the shoreline or the shelf edge of layer `k`. -/
def stackAt (n : ℕ) (x : ℕ → K) (v : List (Option K)) (k : ℕ) : ℕ :=
  searchSorted (arr n x) (v.getD k none)

theorem stackAt_getD {n : ℕ} {x : ℕ → K} (v : List (Option K)) {k : ℕ} (hk : k < v.length) :
    (v.map (searchSorted (arr n x))).getD k 0 = stackAt n x v k := by
  unfold stackAt
  simp [List.getElem?_eq_getElem hk]

theorem patches_congr {n : ℕ} {x : ℕ → K} {ys : List (ℕ → K)} {l l' u u' : ℕ → ℕ}
    (hl : ∀ k < ys.length, l k = l' k) (hu : ∀ k < ys.length, u k = u' k) :
    patches n x ys l u = patches n x ys l' u' := by
  unfold patches
  apply List.map_congr_left
  intro k hk
  rw [List.mem_range] at hk
  rw [hl k (by omega), hl (k + 1) (by omega), hu k (by omega), hu (k + 1) (by omega)]

/-- The last layer that `layer_stop` refers to. -/
def lastLayer (count : ℕ) (stop : ℤ) : ℤ := if stop < 0 then count + stop + 1 else stop

/-- C78. Plotting layers over strictly increasing positions fails exactly if some lines are wanted
and the range of layers is one short of empty. Otherwise each facies has one polygon between
each pair of consecutive layers: the land up to the shoreline, the shoreface from there to the
shelf edge and the shelf from there to the end. The topmost layer is always drawn. -/
theorem plotLayers_ok {n : ℕ} (hn : 0 < n) {x : ℕ → K} (hx : ∀ i j, i < j → j < n → x i < x j)
    (ys : List (ℕ → K)) (hys : ys ≠ []) (shore shelf : List (Option K))
    (hshore : shore.length = ys.length) (hshelf : shelf.length = ys.length) (start stop num : ℤ) :
    ((∃ e, plotLayers {} start stop num n (ys.map (arr n)) (some (arr n x)) (some shore)
        (some shelf) = .error e) ↔ num ≠ 0 ∧ start = lastLayer ys.length stop + 1) ∧
    ∀ d, plotLayers {} start stop num n (ys.map (arr n)) (some (arr n x)) (some shore)
        (some shelf) = .ok d →
      d.land = patches n x ys (fun _ => 0) (stackAt n x shore) ∧
      d.shoreface = patches n x ys (stackAt n x shore) (stackAt n x shelf) ∧
      d.shelf = patches n x ys (stackAt n x shelf) (fun _ => n - 1) ∧
      layersToPlot start (lastLayer ys.length stop) num = .ok d.lines ∧
      some d.top = (ys.map (arr n)).getLast? ∧ d.xlim = (x 0, x (n - 1)) := by
  have hlast : ∃ s, shore.getLast? = some s := by
    rw [← Option.isSome_iff_exists, List.getLast?_isSome]
    intro h
    rw [h] at hshore
    exact hys (List.length_eq_zero_iff.mp hshore.symm)
  obtain ⟨s, hs⟩ := hlast
  have htop : ∃ t, (ys.map (arr n)).getLast? = some t := by
    rw [← Option.isSome_iff_exists, List.getLast?_isSome]
    simpa using hys
  obtain ⟨t, ht⟩ := htop
  have h1 := fillBetween_ok hn hx ys none (some (shore.map (searchSorted (arr n x))))
    (by simp) (by simp [hshore])
  have h2 := fillBetween_ok hn hx ys (some (shore.map (searchSorted (arr n x))))
    (some (shelf.map (searchSorted (arr n x)))) (by simp [hshore]) (by simp [hshelf])
  have h3 := fillBetween_ok hn hx ys (some (shelf.map (searchSorted (arr n x)))) none
    (by simp [hshelf]) (by simp)
  have hx0 : (arr n x).head? = some (x 0) := by
    obtain ⟨m, rfl⟩ : ∃ m, n = m + 1 := ⟨n - 1, by omega⟩
    simp [arr, List.range_succ_eq_map]
  have hx1 : (arr n x).getLast? = some (x (n - 1)) := by
    obtain ⟨m, rfl⟩ : ∃ m, n = m + 1 := ⟨n - 1, by omega⟩
    simp [arr, List.range_succ]
  have hp1 := patches_congr (n := n) (x := x) (ys := ys) (l := fun _ => 0) (l' := fun _ => 0)
    (u := fun k => (shore.map (searchSorted (arr n x))).getD k 0) (u' := stackAt n x shore)
    (fun _ _ => rfl) (fun k hk => stackAt_getD shore (by omega))
  have hp2 := patches_congr (n := n) (x := x) (ys := ys)
    (l := fun k => (shore.map (searchSorted (arr n x))).getD k 0) (l' := stackAt n x shore)
    (u := fun k => (shelf.map (searchSorted (arr n x))).getD k 0) (u' := stackAt n x shelf)
    (fun k hk => stackAt_getD shore (by omega)) (fun k hk => stackAt_getD shelf (by omega))
  have hp3 := patches_congr (n := n) (x := x) (ys := ys)
    (l := fun k => (shelf.map (searchSorted (arr n x))).getD k 0) (l' := stackAt n x shelf)
    (u := fun _ => n - 1) (u' := fun _ => n - 1)
    (fun k hk => stackAt_getD shelf (by omega)) (fun _ _ => rfl)
  simp only [Option.map_none, Option.getD_none, Option.map_some, Option.getD_some] at h1 h2 h3
  rw [hp1] at h1
  rw [hp2] at h2
  rw [hp3] at h3
  have herr := layersToPlot_error_iff start (lastLayer ys.length stop) num
  have hstop : (if stop < 0 then (((ys.map (arr n)).length : ℕ) : ℤ) + stop + 1 else stop) =
      lastLayer ys.length stop := by
    rw [List.length_map]
    rfl
  unfold plotLayers
  simp only [Option.getD_some, wanted, if_true]
  rw [hs, ht]
  dsimp only
  rw [hstop, if_neg (by simp [arr])]
  cases hl : layersToPlot start (lastLayer ys.length stop) num with
  | error e =>
    rw [hl] at herr
    dsimp only
    refine ⟨⟨fun _ => herr.mp ⟨e, rfl⟩, fun _ => ⟨e, rfl⟩⟩, ?_⟩
    intro d hd
    cases hd
  | ok lines =>
    rw [hl] at herr
    dsimp only
    rw [h1, h2, h3]
    dsimp only
    rw [hx0, hx1]
    dsimp only
    constructor
    · constructor
      · rintro ⟨e, he⟩
        cases he
      · intro h
        obtain ⟨e, he⟩ := herr.mpr h
        cases he
    · intro d hd
      cases hd
      exact ⟨rfl, rfl, rfl, rfl, rfl, rfl⟩

/-- C78. The stack of a shoreline: the columns landward of it are those at smaller positions. -/
theorem stackAt_spec {n : ℕ} {x : ℕ → K} (hx : ∀ i j, i < j → j < n → x i < x j)
    (v : List (Option K)) {k : ℕ} {s : K} (hs : v[k]? = some (some s)) {c : ℕ} (hc : c < n) :
    c < stackAt n x v k ↔ x c < s := by
  have hv : v.getD k none = some s := by
    rw [List.getD_eq_getElem?_getD, hs]
    rfl
  unfold stackAt searchSorted
  rw [hv]
  dsimp only
  have hget : ∀ i (hi : i < (arr n x).length), (arr n x)[i] = x i := by
    intro i hi
    simp [arr]
  constructor
  · intro h
    have hp := List.takeWhile_prefix (l := arr n x) fun a => decide (a < s)
    have hmem : x c ∈ (arr n x).takeWhile fun a => decide (a < s) := by
      have e := hp.getElem h
      rw [hget] at e
      rw [← e]
      exact List.getElem_mem h
    simpa using List.all_eq_true.mp (List.all_takeWhile (p := fun a => decide (a < s))) _ hmem
  · intro h
    have hsplit : arr n x = arr (c + 1) x ++ (List.range' (c + 1) (n - (c + 1))).map x := by
      show (List.range n).map x = (List.range (c + 1)).map x ++ _
      rw [← List.map_append, List.range_eq_range', List.range_eq_range']
      congr 1
      rw [show List.range' (c + 1) (n - (c + 1)) = List.range' (0 + (c + 1)) (n - (c + 1)) by simp,
        List.range'_append_1]
      congr 1
      omega
    rw [hsplit, List.takeWhile_append_of_pos]
    · simp
      omega
    · intro a ha
      obtain ⟨i, hi, rfl⟩ := List.mem_map.mp ha
      rw [List.mem_range] at hi
      have : x i ≤ x c := by
        rcases Nat.eq_or_lt_of_le (show i ≤ c by omega) with rfl | h'
        · exact le_rfl
        · exact (hx _ _ h' hc).le
      simpa using lt_of_le_of_lt this h

/-- C78. The surface of the water is drawn at the elevation of the topmost layer in the first
stack seaward of the shoreline, whatever sea level is. -/
theorem water_level {x : List K} {y : List (List K)} {shore shelf : Option (List (Option K))}
    {start stop num : ℤ} {cols : ℕ} {d : Drawing K} {colors : PlotColors}
    (h : plotLayers colors start stop num cols y (some x) shore shelf = .ok d) {a b level : K}
    (hw : d.waterLine = some (a, b, level)) :
    ∃ s, (shore.getD (List.replicate y.length (some 0))).getLast? = some (some s) ∧
      y.getLast? = some d.top ∧ (x.zip d.top).find? (fun p => decide (s < p.1)) = some (a, level) := by
  unfold plotLayers at h
  simp only [Option.getD_some] at h
  cases hs : (shore.getD (List.replicate y.length (some 0))).getLast? with
  | none =>
    rw [hs] at h
    cases h
  | some s =>
    cases ht : y.getLast? with
    | none =>
      rw [hs, ht] at h
      cases h
    | some t =>
      rw [hs, ht] at h
      dsimp only at h
      split at h
      · cases h
      split at h
      · cases h
      · split at h
        · split at h
          · cases h
            dsimp only at hw ⊢
            cases s with
            | none => simp at hw
            | some s =>
              refine ⟨s, rfl, rfl, ?_⟩
              simp only [List.head?_filter] at hw
              cases hf : (x.zip t).find? (fun p => decide (s < p.1)) with
              | none =>
                rw [hf] at hw
                cases hw
              | some p =>
                rw [hf] at hw
                simp only [Option.bind_some, Option.map_eq_some_iff] at hw
                obtain ⟨q, -, hq⟩ := hw
                cases hq
                rfl
          · cases h
        · cases h
        · cases h
        · cases h

/-- C78. Positions that do not fit the columns stop the plot. -/
theorem plotLayers_positions {x : List K} {y : List (List K)} {shore shelf : Option (List (Option K))}
    {start stop num : ℤ} {cols : ℕ} {d : Drawing K} {colors : PlotColors}
    (h : plotLayers colors start stop num cols y (some x) shore shelf = .ok d) :
    x.length = cols ∧ y ≠ [] ∧ shore ≠ some [] := by
  unfold plotLayers at h
  simp only [Option.getD_some] at h
  split at h
  · rename_i s t hs ht
    refine ⟨?_, ?_, ?_⟩
    · by_contra hne
      rw [if_pos hne] at h
      cases h
    · rintro rfl
      cases ht
    · rintro rfl
      cases hs
  · cases h

/-- Sea level is 0, the shoreline is at 3/2 and the bed falls by 10 from each stack to the next:
the water is drawn at -4, the elevation of the first stack offshore. -/
example : (plotLayers (K := ℚ) {} 0 (-1) 5 4 [[15, 5, -5, -15], [16, 6, -4, -14]] (some [0, 1, 2, 3])
      (some [some (3 / 2), some (3 / 2)]) (some [some 3, some 3])).toOption.bind (·.waterLine) =
      some (2, 3, -4) := by decide +kernel

example : (plotLayers (K := ℚ) {} 0 (-1) 5 4 [[15, 5, -5, -15], [16, 6, -4, -14]] (some [0, 1, 2, 3])
      (some [some (3 / 2), some (3 / 2)]) (some [some 3, some 3])).toOption.map (·.land) =
      some [([2, 1, 0, 1], [-4, 6, 15, 5])] := by decide +kernel

/-- C78. Without shelf edges, the shelf is drawn over the whole section, land and shoreface
included. -/
theorem default_shelf {n : ℕ} (hn : 0 < n) {x : ℕ → K} (hx : ∀ i j, i < j → j < n → x i < x j)
    (hx0 : 0 ≤ x 0) (ys : List (ℕ → K)) (hys : ys ≠ []) (shore : List (Option K))
    (hshore : shore.length = ys.length) (start stop num : ℤ) {d : Drawing K}
    (h : plotLayers {} start stop num n (ys.map (arr n)) (some (arr n x)) (some shore) none =
      .ok d) :
    d.shelf = patches n x ys (fun _ => 0) (fun _ => n - 1) := by
  have h' : plotLayers {} start stop num n (ys.map (arr n)) (some (arr n x)) (some shore)
      (some (List.replicate ys.length (some 0))) = .ok d := by
    rw [← h]
    unfold plotLayers
    simp
  rw [((plotLayers_ok hn hx ys hys shore (List.replicate ys.length (some 0)) hshore (by simp)
    start stop num).2 d h').2.2.1]
  apply patches_congr _ fun _ _ => rfl
  intro k hk
  have hs : (List.replicate ys.length (some (0 : K)))[k]? = some (some 0) := by simp [hk]
  have := stackAt_spec hx _ hs hn
  by_contra hne
  exact absurd (this.mp (by omega)) (not_lt.mpr hx0)

/-- C78. Every polygon of land of a plot is a connected path between its layers. -/
theorem land_connected {n : ℕ} (hn : 0 < n) (upper : ℕ → ℕ) (k : ℕ) :
    ClosedPath (outlineColumns n 0 (upper k) 0 (upper (k + 1))) :=
  outline_connected hn (Nat.zero_le _) (Nat.zero_le _)

end

end Verif.Props
