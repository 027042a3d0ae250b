import Verif.Lemmas.Prelude
import Verif.Model.Search

/-! # Binary search on a sorted list -/

set_option autoImplicit false
set_option linter.unusedSectionVars false

namespace Verif

variable {α : Type*} [LinearOrder α] [Inhabited α]

theorem bisectLoop_spec (xs : List α) (v : α) (hs : xs.Pairwise (· ≤ ·)) :
    ∀ (fuel lo hi : Nat), hi ≤ lo + fuel → lo ≤ hi → hi ≤ xs.length →
      (∀ i (h : i < xs.length), i < lo → xs[i] ≤ v) →
      (∀ i (h : i < xs.length), hi ≤ i → v < xs[i]) →
      bisectLoop xs v fuel lo hi ≤ xs.length ∧
      (∀ i (h : i < xs.length), i < bisectLoop xs v fuel lo hi → xs[i] ≤ v) ∧
      (∀ i (h : i < xs.length), bisectLoop xs v fuel lo hi ≤ i → v < xs[i]) := by
  intro fuel
  induction fuel with
  | zero =>
    intro lo hi h1 h2 h3 h4 h5
    have : hi = lo := by omega
    subst this
    exact ⟨h3, h4, h5⟩
  | succ fuel ih =>
    intro lo hi h1 h2 h3 h4 h5
    simp only [bisectLoop]
    have mono : ∀ i j (hi : i < xs.length) (hj : j < xs.length), i ≤ j → xs[i] ≤ xs[j] := by
      intro i j hi hj hij
      rcases Nat.lt_or_eq_of_le hij with h | h
      · exact List.pairwise_iff_getElem.mp hs i j hi hj h
      · subst h; exact le_refl _
    split_ifs with h6 h7
    · have hm : (lo + hi) / 2 < xs.length := by omega
      rw [List.getD_eq_getElem _ _ hm] at h7
      refine ih lo _ (by omega) (by omega) (by omega) h4 ?_
      intro i h hi'
      exact lt_of_lt_of_le h7 (mono _ _ hm h hi')
    · have hm : (lo + hi) / 2 < xs.length := by omega
      rw [List.getD_eq_getElem _ _ hm] at h7
      refine ih _ hi (by omega) (by omega) h3 ?_ h5
      intro i h hi'
      exact le_trans (mono _ _ h hm (by omega)) (not_lt.mp h7)
    · have : hi = lo := by omega
      subst this
      exact ⟨h3, h4, h5⟩

theorem bisectRight_spec (xs : List α) (v : α) (hs : xs.Pairwise (· ≤ ·)) :
    bisectRight xs v ≤ xs.length ∧
      (∀ i (h : i < xs.length), i < bisectRight xs v → xs[i] ≤ v) ∧
      (∀ i (h : i < xs.length), bisectRight xs v ≤ i → v < xs[i]) :=
  bisectLoop_spec xs v hs _ _ _ (by omega) (by omega) (le_refl _) (by intro i _ h; omega)
    (by intro i h h'; omega)

/-- The position found splits the list into the part `≤ v` and the part above. -/
theorem bisectRight_lt_iff (xs : List α) (v : α) (hs : xs.Pairwise (· ≤ ·)) (i : Nat)
    (h : i < xs.length) : i < bisectRight xs v ↔ xs[i] ≤ v := by
  obtain ⟨_, h2, h3⟩ := bisectRight_spec xs v hs
  constructor
  · exact h2 i h
  · intro hle
    by_contra hn
    exact absurd (h3 i h (by omega)) (not_lt.mpr hle)

theorem bisectRight_mono (xs : List α) (hs : xs.Pairwise (· ≤ ·)) {v w : α} (h : v ≤ w) :
    bisectRight xs v ≤ bisectRight xs w := by
  by_contra hn
  have h1 := (bisectRight_spec xs v hs).1
  have hi : bisectRight xs w < xs.length := by omega
  have := (bisectRight_lt_iff xs v hs _ hi).mp (by omega)
  have := (bisectRight_lt_iff xs w hs _ hi).mpr (le_trans this h)
  omega

/-- Keeping the pairs whose first component is `≤ v` is taking a prefix. -/
theorem filter_zip_eq_take {β : Type*} (xs : List α) (ys : List β) (v : α)
    (hs : xs.Pairwise (· ≤ ·)) :
    (xs.zip ys).filter (fun s => decide (s.1 ≤ v)) = (xs.zip ys).take (bisectRight xs v) := by
  obtain ⟨_, h2, h3⟩ := bisectRight_spec xs v hs
  generalize bisectRight xs v = r at h2 h3
  conv_lhs => rw [← List.take_append_drop r (xs.zip ys)]
  rw [List.filter_append, List.filter_eq_self.mpr, List.filter_eq_nil_iff.mpr, List.append_nil]
  · intro a ha
    obtain ⟨i, hi, rfl⟩ := List.getElem_of_mem ha
    simp only [List.getElem_drop, List.getElem_zip, decide_eq_true_eq, not_le]
    exact h3 _ _ (by omega)
  · intro a ha
    obtain ⟨i, hi, rfl⟩ := List.getElem_of_mem ha
    simp only [List.getElem_take, List.getElem_zip, decide_eq_true_eq]
    simp only [List.length_take] at hi
    exact h2 _ _ (by omega)

end Verif
