import Verif.Lemmas.Prelude
import Verif.Lemmas.Shoreline
import Verif.Model.Curvature
import Mathlib.Tactic.LinearCombination

/-!
# The shelf edge by curvature

C100: where `find_shelf_edge_by_curvature` finds the edge.
-/

set_option autoImplicit false
set_option linter.unusedSectionVars false

namespace Verif.Props

variable {K : Type*} [Field K] [LinearOrder K] [IsStrictOrderedRing K]

/-! ### C100 -/

/-- Increasing positions. -/
def Increasing (n : ℕ) (x : ℕ → K) : Prop := ∀ i, i + 1 < n → x i < x (i + 1)

/-- Inside, the gradient is a mean of the slopes on both sides. -/
theorem gradientAt_slopes {n : ℕ} {x : ℕ → K} (hx : Increasing n x) (z : ℕ → K) {i : ℕ}
    (hi : i + 2 < n) :
    gradientAt n x z (i + 1) =
      ((x (i + 2) - x (i + 1)) * ((z (i + 1) - z i) / (x (i + 1) - x i)) +
        (x (i + 1) - x i) * ((z (i + 2) - z (i + 1)) / (x (i + 2) - x (i + 1)))) /
        (x (i + 2) - x i) := by
  have h1 : 0 < x (i + 1) - x i := sub_pos.mpr (hx i (by omega))
  have h2 : 0 < x (i + 2) - x (i + 1) := sub_pos.mpr (hx (i + 1) (by omega))
  unfold gradientAt
  rw [if_neg (by omega), if_neg (by omega)]
  dsimp only
  have e1 : i + 1 - 1 = i := by omega
  have e2 : i + 1 + 1 = i + 2 := by omega
  rw [e1, e2]
  have h3 : x (i + 2) - x i = (x (i + 1) - x i) + (x (i + 2) - x (i + 1)) := by ring
  rw [h3]
  generalize hh : x (i + 1) - x i = h at *
  generalize hk : x (i + 2) - x (i + 1) = k at *
  have : h + k ≠ 0 := by positivity
  field_simp
  ring

theorem gradientAt_last {n : ℕ} (x z : ℕ → K) :
    gradientAt (n + 2) x z (n + 1) = (z (n + 1) - z n) / (x (n + 1) - x n) := by
  unfold gradientAt
  rw [if_neg (by omega), if_pos rfl]
  rfl

theorem gradientAt_congr {n : ℕ} (hn : 2 ≤ n) {x z z' : ℕ → K} (h : ∀ i < n, z i = z' i) {i : ℕ}
    (hi : i < n) : gradientAt n x z i = gradientAt n x z' i := by
  unfold gradientAt
  split_ifs with h1 h2
  · rw [h 1 (by omega), h 0 (by omega)]
  · rw [h i hi, h (i - 1) (by omega)]
  · dsimp only
    rw [h (i - 1) (by omega), h i hi, h (i + 1) (by omega)]

/-- The gradient is linear, and exact on straight lines. -/
theorem gradientAt_affine {n : ℕ} (hn : 2 ≤ n) {x : ℕ → K} (hx : Increasing n x) (z : ℕ → K)
    (s a b : K) {i : ℕ} (hi : i < n) :
    gradientAt n x (fun j => s * z j + a + b * x j) i = s * gradientAt n x z i + b := by
  rcases Nat.eq_zero_or_pos i with rfl | hpos
  · have h1 : x 1 - x 0 ≠ 0 := (sub_pos.mpr (hx 0 (by omega))).ne'
    simp only [gradientAt, if_true]
    field_simp
    ring
  · obtain ⟨i, rfl⟩ := Nat.exists_eq_succ_of_ne_zero hpos.ne'
    by_cases hl : i + 2 = n
    · subst hl
      rw [gradientAt_last, gradientAt_last]
      have h1 : x (i + 1) - x i ≠ 0 := (sub_pos.mpr (hx i (by omega))).ne'
      field_simp
      ring
    · have hi' : i + 2 < n := by omega
      rw [Nat.succ_eq_add_one, gradientAt_slopes hx _ hi', gradientAt_slopes hx _ hi']
      have h1 : x (i + 1) - x i ≠ 0 := (sub_pos.mpr (hx i (by omega))).ne'
      have h2 : x (i + 2) - x (i + 1) ≠ 0 := (sub_pos.mpr (hx (i + 1) (by omega))).ne'
      have h3 : x (i + 2) - x i ≠ 0 :=
        (sub_pos.mpr ((hx i (by omega)).trans (hx (i + 1) (by omega)))).ne'
      field_simp
      ring

theorem curvatureAt_affine {n : ℕ} (hn : 2 ≤ n) {x : ℕ → K} (hx : Increasing n x) (z : ℕ → K)
    (s a b : K) {i : ℕ} (hi : i < n) :
    curvatureAt n x (fun j => s * z j + a + b * x j) i = s * curvatureAt n x z i := by
  unfold curvatureAt
  rw [gradientAt_congr hn (z' := fun j => s * gradientAt n x z j + b + 0 * x j) (fun j hj => by
    rw [gradientAt_affine hn hx z s a b hj]; ring) hi, gradientAt_affine hn hx _ s b 0 hi, add_zero]

/-- The result is the position of the first smallest curvature. -/
theorem byCurvature_iff {x z : List K} (hl : z.length = x.length) (hn : 2 ≤ x.length)
    (seaLevel v : K) :
    shelfEdgeByCurvature x z seaLevel = .ok v ↔ ∃ i, x[i]? = some v ∧
      (∀ j < x.length, curvatureAt x.length (fun i => x.getD i 0) (fun i => z.getD i 0) i ≤
        curvatureAt x.length (fun i => x.getD i 0) (fun i => z.getD i 0) j) ∧
      ∀ j < i, curvatureAt x.length (fun i => x.getD i 0) (fun i => z.getD i 0) i <
        curvatureAt x.length (fun i => x.getD i 0) (fun i => z.getD i 0) j := by
  set c := curvatureAt x.length (fun i => x.getD i 0) (fun i => z.getD i 0) with hc
  obtain ⟨k, b, h1, h2, h3⟩ := argmax_spec (((List.range x.length).map c).map fun v => -v) (by
    rw [ne_eq, List.map_eq_nil_iff, List.map_eq_nil_iff, List.range_eq_nil]; omega)
  have hget : ∀ j v, (((List.range x.length).map c).map fun v => -v)[j]? = some v ↔
      j < x.length ∧ v = -c j := by
    intro j v
    by_cases hj : j < x.length
    · simp [hj, eq_comm]
    · simp [hj]
  obtain ⟨hk, rfl⟩ := (hget k b).mp h2
  have hmin : ∀ j < x.length, c k ≤ c j ∧ (j < k → c k < c j) := by
    intro j hj
    obtain ⟨h4, h5⟩ := h3 j (-c j) ((hget j _).mpr ⟨hj, rfl⟩)
    exact ⟨neg_le_neg_iff.mp h4, fun h => neg_lt_neg_iff.mp (h5 h)⟩
  have hval : shelfEdgeByCurvature x z seaLevel = .ok x[k] := by
    unfold shelfEdgeByCurvature argmin
    rw [if_neg (by push Not; exact ⟨hl, hn⟩), h1]
    dsimp only
    rw [List.getElem?_eq_getElem hk]
  rw [hval]
  constructor
  · intro h
    refine ⟨k, ?_, fun j hj => (hmin j hj).1, fun j hj => (hmin j (by omega)).2 hj⟩
    rw [List.getElem?_eq_getElem hk]
    exact congrArg some (Except.ok.inj h)
  · rintro ⟨i, hi1, hi2, hi3⟩
    have hil : i < x.length := by
      by_contra hh
      rw [List.getElem?_eq_none (by omega)] at hi1
      cases hi1
    have : i = k := by
      rcases lt_trichotomy i k with h | h | h
      · exact absurd (hi2 k hk) (not_le.mpr ((hmin i hil).2 h))
      · exact h
      · exact absurd ((hmin i hil).1) (not_le.mpr (hi3 k h))
    subst this
    rw [List.getElem?_eq_getElem hil] at hi1
    exact congrArg _ (Option.some.inj hi1)

/-- C100: the edge does not depend on the sea level, on the units of elevation, or on adding a
constant slope. -/
theorem byCurvature_invariant (x z z' : List K) (hx : x.Pairwise (· < ·)) (s a b : K) (hs : 0 < s)
    (hz : z' = List.zipWith (fun u v => s * u + a + b * v) z x) (hl : z.length = x.length)
    (seaLevel seaLevel' : K) :
    shelfEdgeByCurvature x z' seaLevel' = shelfEdgeByCurvature x z seaLevel := by
  have hl' : z'.length = x.length := by rw [hz]; simp [hl]
  by_cases hn : x.length < 2
  · unfold shelfEdgeByCurvature
    rw [if_pos (.inr hn), if_pos (.inr hn)]
  push Not at hn
  have hinc : Increasing x.length (fun i => x.getD i 0) := by
    intro i hi
    have h1 : x.getD i 0 = x[i] := List.getD_eq_getElem _ _ _
    have h2 : x.getD (i + 1) 0 = x[i + 1] := List.getD_eq_getElem _ _ _
    dsimp only
    rw [h1, h2]
    exact List.pairwise_iff_getElem.mp hx _ _ _ _ (by omega)
  have hcurv : ∀ i < x.length, curvatureAt x.length (fun i => x.getD i 0) (fun i => z'.getD i 0) i =
      s * curvatureAt x.length (fun i => x.getD i 0) (fun i => z.getD i 0) i := by
    intro i hi
    rw [← curvatureAt_affine hn hinc _ s a b hi]
    unfold curvatureAt
    refine gradientAt_congr hn (fun j hj => gradientAt_congr hn (fun k hk => ?_) hj) hi
    rw [hz, List.getD_eq_getElem _ _ (by simpa [hl] using hk), List.getElem_zipWith,
      List.getD_eq_getElem _ _ (by omega), List.getD_eq_getElem _ _ hk]
  have hiff : ∀ v, shelfEdgeByCurvature x z' seaLevel' = .ok v ↔
      shelfEdgeByCurvature x z seaLevel = .ok v := by
    intro v
    rw [byCurvature_iff hl' hn, byCurvature_iff hl hn]
    constructor
    · rintro ⟨i, h1, h2, h3⟩
      have hi : i < x.length := by
        by_contra hh
        rw [List.getElem?_eq_none (by omega)] at h1
        cases h1
      refine ⟨i, h1, fun j hj => ?_, fun j hj => ?_⟩
      · have := h2 j hj
        rw [hcurv i hi, hcurv j hj] at this
        exact le_of_mul_le_mul_left this hs
      · have := h3 j hj
        rw [hcurv i hi, hcurv j (by omega)] at this
        exact lt_of_mul_lt_mul_left this hs.le
    · rintro ⟨i, h1, h2, h3⟩
      have hi : i < x.length := by
        by_contra hh
        rw [List.getElem?_eq_none (by omega)] at h1
        cases h1
      refine ⟨i, h1, fun j hj => ?_, fun j hj => ?_⟩
      · rw [hcurv i hi, hcurv j hj]
        exact mul_le_mul_of_nonneg_left (h2 j hj) hs.le
      · rw [hcurv i hi, hcurv j (by omega)]
        exact mul_lt_mul_of_pos_left (h3 j hj) hs
  obtain ⟨k, b', h1, h2, -⟩ := argmax_spec (((List.range x.length).map (curvatureAt x.length
    (fun i => x.getD i 0) fun i => z.getD i 0)).map fun v => -v) (by
      rw [ne_eq, List.map_eq_nil_iff, List.map_eq_nil_iff, List.range_eq_nil]; omega)
  have hk : k < x.length := by
    by_contra hh
    rw [List.getElem?_eq_none (by simpa using hh)] at h2
    cases h2
  have hok : shelfEdgeByCurvature x z seaLevel = .ok x[k] := by
    unfold shelfEdgeByCurvature argmin
    rw [if_neg (by push Not; exact ⟨hl, hn⟩), h1]
    dsimp only
    rw [List.getElem?_eq_getElem hk]
  rw [hok]
  exact (hiff _).mpr hok

/-- A profile of two straight pieces that meet at position `j`: slope `s₁` landward of it, `s₂`
seaward. -/
def Bent (x z : List K) (j : ℕ) (s₁ s₂ : K) : Prop :=
  z.length = x.length ∧ j + 1 < x.length ∧
    ∀ i < x.length, z.getD i 0 = z.getD j 0 +
      (if i ≤ j then s₁ else s₂) * (x.getD i 0 - x.getD j 0)

/-- The gradient of such a profile. -/
theorem gradientAt_bent {n j : ℕ} {x z : ℕ → K} (hx : Increasing n x) {s₁ s₂ : K}
    (hj : j + 1 < n) (h0 : 0 < j)
    (hz : ∀ i < n, z i = z j + (if i ≤ j then s₁ else s₂) * (x i - x j)) {i : ℕ} (hi : i < n) :
    gradientAt n x z i = if i < j then s₁ else if j < i then s₂
      else s₁ + (s₂ - s₁) * ((x j - x (j - 1)) / (x (j + 1) - x (j - 1))) := by
  have hne : ∀ i, i + 1 < n → x (i + 1) - x i ≠ 0 := fun i hi => (sub_pos.mpr (hx i hi)).ne'
  have hlow : ∀ i, i + 1 < n → i < j → (z (i + 1) - z i) / (x (i + 1) - x i) = s₁ := by
    intro i hi hij
    rw [hz i (by omega), hz (i + 1) hi, if_pos (by omega), if_pos (by omega),
      div_eq_iff (hne i hi)]
    ring
  have hhigh : ∀ i, i + 1 < n → j ≤ i → (z (i + 1) - z i) / (x (i + 1) - x i) = s₂ := by
    intro i hi hij
    rw [div_eq_iff (hne i hi)]
    rcases Nat.eq_or_lt_of_le hij with rfl | hlt
    · rw [hz (j + 1) hi, if_neg (by omega)]
      ring
    · rw [hz i (by omega), hz (i + 1) hi, if_neg (by omega), if_neg (by omega)]
      ring
  rcases Nat.eq_zero_or_pos i with rfl | hpos
  · rw [if_pos h0]
    have := hlow 0 (by omega) h0
    simpa [gradientAt] using this
  · obtain ⟨i, rfl⟩ := Nat.exists_eq_succ_of_ne_zero hpos.ne'
    rw [Nat.succ_eq_add_one] at *
    by_cases hl : i + 2 = n
    · subst hl
      rw [gradientAt_last, if_neg (by omega), if_pos (by omega)]
      exact hhigh i (by omega) (by omega)
    · have hi' : i + 2 < n := by omega
      rw [gradientAt_slopes hx z hi']
      have h3 : x (i + 2) - x i ≠ 0 :=
        (sub_pos.mpr ((hx i (by omega)).trans (hx (i + 1) (by omega)))).ne'
      rcases lt_trichotomy (i + 1) j with h | h | h
      · rw [hlow i (by omega) (by omega), hlow (i + 1) (by omega) h, if_pos h, div_eq_iff h3]
        ring
      · rw [hlow i (by omega) (by omega), hhigh (i + 1) (by omega) (by omega), if_neg (by omega),
          if_neg (by omega), ← h]
        have e1 : i + 1 - 1 = i := by omega
        have e2 : i + 1 + 1 = i + 2 := by omega
        rw [e1, e2, div_eq_iff h3]
        field_simp
        ring
      · rw [hhigh i (by omega) (by omega), hhigh (i + 1) (by omega) (by omega), if_neg (by omega),
          if_pos h, div_eq_iff h3]
        ring

/-- Its curvature: smallest at the bend, and there `(s₂ - s₁)` over the distance of the
neighbours. -/
theorem curvatureAt_bent {n j : ℕ} {x z : ℕ → K} (hx : Increasing n x) {s₁ s₂ : K} (hs : s₂ < s₁)
    (hj : j + 1 < n) (h0 : 0 < j)
    (hz : ∀ i < n, z i = z j + (if i ≤ j then s₁ else s₂) * (x i - x j)) :
    (∀ i < n, curvatureAt n x z j ≤ curvatureAt n x z i) ∧
      (∀ i < j, 0 < i ∨ 1 < j → curvatureAt n x z j < curvatureAt n x z i) ∧
      (j = 1 → curvatureAt n x z 0 = curvatureAt n x z 1) := by
  have hpos : ∀ i, i + 1 < n → 0 < x (i + 1) - x i := fun i hi => sub_pos.mpr (hx i hi)
  obtain ⟨p, rfl⟩ : ∃ p, j = p + 1 := ⟨j - 1, by omega⟩
  have hh1 := hpos p (by omega)
  have hh2 := hpos (p + 1) (by omega)
  set g := gradientAt n x z with hg
  set E := (s₂ - s₁) / (x (p + 2) - x p) with hE
  have hw : 0 < x (p + 2) - x p := by
    have : x (p + 2) - x p = (x (p + 1) - x p) + (x (p + 1 + 1) - x (p + 1)) := by ring
    rw [this]
    positivity
  have hEneg : E < 0 := div_neg_of_neg_of_pos (by linarith) hw
  have hgv : ∀ i < n, g i = if i < p + 1 then s₁ else if p + 1 < i then s₂
      else s₁ + (s₂ - s₁) * ((x (p + 1) - x p) / (x (p + 2) - x p)) := by
    intro i hi
    have := gradientAt_bent hx hj h0 hz hi
    simpa using this
  have hq : ∀ i, i + 1 < n → (g (i + 1) - g i) / (x (i + 1) - x i) =
      if i = p ∨ i = p + 1 then E else 0 := by
    intro i hi
    have hd := (hpos i hi).ne'
    rw [div_eq_iff hd, hgv i (by omega), hgv (i + 1) hi, hE]
    rcases lt_trichotomy i p with h | h | h
    · rw [if_pos (by omega), if_pos (by omega), if_neg (by omega)]
      ring
    · subst h
      rw [if_neg (by omega), if_neg (by omega), if_pos (by omega), if_pos (by omega)]
      have := hw.ne'
      field_simp
      ring
    · rcases Nat.eq_or_lt_of_le h with h | h
      · have : i = p + 1 := by omega
        subst this
        rw [if_neg (by omega), if_pos (by omega), if_neg (by omega), if_neg (by omega),
          if_pos (by omega)]
        have := hw.ne'
        have e : p + 1 + 1 = p + 2 := by omega
        rw [e]
        field_simp
        ring
      · rw [if_neg (by omega), if_pos (by omega), if_neg (by omega), if_pos (by omega),
          if_neg (by omega)]
        ring
  have hc0 : curvatureAt n x z 0 = if p = 0 then E else 0 := by
    have := hq 0 (by omega)
    have e : curvatureAt n x z 0 = (g 1 - g 0) / (x 1 - x 0) := by
      simp [curvatureAt, gradientAt, hg]
    rw [e]
    rw [zero_add] at this
    rw [this]
    by_cases hp : p = 0
    · rw [if_pos hp, if_pos (by omega)]
    · rw [if_neg hp, if_neg (by omega)]
  have hcin : ∀ i, i + 2 < n → curvatureAt n x z (i + 1) =
      ((x (i + 2) - x (i + 1)) * (if i = p ∨ i = p + 1 then E else 0) +
        (x (i + 1) - x i) * (if i + 1 = p ∨ i + 1 = p + 1 then E else 0)) / (x (i + 2) - x i) := by
    intro i hi
    have h1 := hq i (by omega)
    have h2 := hq (i + 1) (by omega)
    have := gradientAt_slopes hx g hi
    rw [h1, show i + 2 = i + 1 + 1 from rfl, h2] at this
    exact this
  have hclast : ∀ m, n = m + 2 → curvatureAt n x z (m + 1) = if m = p ∨ m = p + 1 then E else 0 := by
    intro m hm
    have h1 := hq m (by omega)
    have : curvatureAt n x z (m + 1) = (g (m + 1) - g m) / (x (m + 1) - x m) := by
      unfold curvatureAt
      rw [← hg, hm]
      exact gradientAt_last x g
    rw [this, h1]
  have hcj : curvatureAt n x z (p + 1) = E := by
    rw [hcin p (by omega), if_pos (.inl rfl), if_pos (.inr rfl), div_eq_iff hw.ne']
    ring
  have hge : ∀ i, (if i = p ∨ i = p + 1 then E else 0) ≥ E := by
    intro i
    split_ifs
    · exact le_refl _
    · exact hEneg.le
  rw [hcj]
  refine ⟨?_, ?_, ?_⟩
  · intro i hi
    rcases Nat.eq_zero_or_pos i with rfl | hip
    · rw [hc0]
      split_ifs
      · exact le_refl _
      · exact hEneg.le
    · obtain ⟨i, rfl⟩ := Nat.exists_eq_succ_of_ne_zero hip.ne'
      rw [Nat.succ_eq_add_one] at *
      by_cases hl : i + 2 = n
      · rw [hclast i hl.symm]
        exact hge i
      · rw [hcin i (by omega)]
        have a := hpos i (by omega)
        have b := hpos (i + 1) (by omega)
        have e : x (i + 2) - x i = (x (i + 1) - x i) + (x (i + 1 + 1) - x (i + 1)) := by ring
        rw [le_div_iff₀ (by rw [e]; positivity), e]
        have g1 := hge i
        have g2 := hge (i + 1)
        simp only [ge_iff_le] at g1 g2
        have m1 := mul_le_mul_of_nonneg_left g1 b.le
        have m2 := mul_le_mul_of_nonneg_left g2 a.le
        have c1 : i + 1 = p + 1 ↔ i = p := by omega
        simp only [show i + 1 + 1 = i + 2 from rfl] at m1 m2 b ⊢
        linarith
  · intro i hi hcase
    rcases Nat.eq_zero_or_pos i with rfl | hip
    · rw [hc0, if_neg (by omega)]
      exact hEneg
    · obtain ⟨i, rfl⟩ := Nat.exists_eq_succ_of_ne_zero hip.ne'
      rw [Nat.succ_eq_add_one] at *
      rw [hcin i (by omega), if_neg (by omega : ¬ (i = p ∨ i = p + 1))]
      have a := hpos i (by omega)
      have b := hpos (i + 1) (by omega)
      have e : x (i + 2) - x i = (x (i + 1) - x i) + (x (i + 1 + 1) - x (i + 1)) := by ring
      rw [lt_div_iff₀ (by rw [e]; positivity), e]
      have g2 := hge (i + 1)
      simp only [ge_iff_le] at g2
      have m2 := mul_le_mul_of_nonneg_left g2 a.le
      have m1 := mul_neg_of_pos_of_neg b hEneg
      simp only [show i + 1 + 1 = i + 2 from rfl] at m1 m2 b ⊢
      linarith
  · intro h1
    have hp : p = 0 := by omega
    rw [hc0, if_pos hp]
    subst hp
    exact hcj.symm

theorem increasing_of_pairwise {x : List K} (hx : x.Pairwise (· < ·)) :
    Increasing x.length (fun i => x.getD i 0) := by
  intro i hi
  have h1 : x.getD i 0 = x[i] := List.getD_eq_getElem _ _ _
  have h2 : x.getD (i + 1) 0 = x[i + 1] := List.getD_eq_getElem _ _ _
  dsimp only
  rw [h1, h2]
  exact List.pairwise_iff_getElem.mp hx _ _ _ _ (by omega)

/-- C100, partial: on a profile of two straight pieces, the second one steeper, with any spacing,
the edge is where they meet. Missing: a bend next to the landward end (next theorem). -/
theorem byCurvature_bend_partial (x z : List K) (hx : x.Pairwise (· < ·)) (j : ℕ) (s₁ s₂ : K)
    (hb : Bent x z j s₁ s₂) (hs : s₂ < s₁) (hj : 1 < j) (seaLevel : K) :
    ∃ v, x[j]? = some v ∧ shelfEdgeByCurvature x z seaLevel = .ok v := by
  obtain ⟨hl, hjl, hz⟩ := hb
  obtain ⟨h1, h2, -⟩ := curvatureAt_bent (increasing_of_pairwise hx) hs hjl (by omega) hz
  have hget : x[j]? = some x[j] := List.getElem?_eq_getElem _
  exact ⟨x[j], hget, (byCurvature_iff hl (by omega) seaLevel _).mpr
    ⟨j, hget, h1, fun i hi => h2 i hi (.inr hj)⟩⟩

/-- C100 is false at the landward end: a bend at the second node is reported at the first. -/
theorem byCurvature_bend_first (x z : List K) (hx : x.Pairwise (· < ·)) (s₁ s₂ : K)
    (hb : Bent x z 1 s₁ s₂) (hs : s₂ < s₁) (seaLevel : K) :
    ∃ v, x[0]? = some v ∧ shelfEdgeByCurvature x z seaLevel = .ok v := by
  obtain ⟨hl, hjl, hz⟩ := hb
  obtain ⟨h1, -, h3⟩ := curvatureAt_bent (increasing_of_pairwise hx) hs hjl (by omega) hz
  have hget : x[0]? = some x[0] := List.getElem?_eq_getElem _
  refine ⟨x[0], hget, (byCurvature_iff hl (by omega) seaLevel _).mpr
    ⟨0, hget, ?_, fun i hi => by omega⟩⟩
  rw [h3 rfl]
  exact h1

/-- A shelf with its edge at 30, unevenly sampled. -/
example : Bent ([0, 10, 30, 35, 50] : List ℚ) [-1, -2, -4, -9, -24] 2 (-1/10) (-1) ∧
    ([0, 10, 30, 35, 50] : List ℚ).Pairwise (· < ·) ∧
    (shelfEdgeByCurvature ([0, 10, 30, 35, 50] : List ℚ) [-1, -2, -4, -9, -24] 0).toOption =
      some 30 := by
  unfold Bent
  decide +kernel

/-- With the edge at the second node. -/
example : Bent ([0, 10, 20, 30] : List ℚ) [-1, -2, -12, -22] 1 (-1/10) (-1) ∧
    (shelfEdgeByCurvature ([0, 10, 20, 30] : List ℚ) [-1, -2, -12, -22] 0).toOption = some 0 := by
  unfold Bent
  decide +kernel

/-- A constant slope added to the first example. -/
example : (shelfEdgeByCurvature ([0, 10, 30, 35, 50] : List ℚ)
    (List.zipWith (fun u v => 2 * u + 7 + 3 * v) [-1, -2, -4, -9, -24] [0, 10, 30, 35, 50])
    5).toOption = some 30 := by
  decide +kernel

end Verif.Props
