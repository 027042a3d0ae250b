import Verif.Lemmas.Prelude
import Verif.Model.Plot
import Verif.Spec.Plot

/-!
# Lemmas about outlines
-/

set_option autoImplicit false
set_option linter.unusedSectionVars false

namespace Verif

open Spec

variable {K α : Type*}

theorem sliceUp_map (f : ℕ → α) (n a b : ℕ) :
    sliceUp a b ((List.range n).map f) = (List.range' a (min b n - a)).map f := by
  unfold sliceUp
  rw [← List.map_take, ← List.map_drop, List.take_range, List.range_eq_range', List.drop_range']
  simp

theorem sliceDown_map (f : ℕ → α) (n a b : ℕ) :
    sliceDown a b ((List.range n).map f) =
      ((List.range' (b + 1) (min (a + 1) n - (b + 1))).reverse).map f := by
  have h := sliceUp_map f n (b + 1) (a + 1)
  unfold sliceUp at h
  unfold sliceDown
  rw [h, List.map_reverse]

theorem walk_up {a b : ℕ} (h : a ≤ b) : List.range' a (b + 1 - a) = walk a b ++ [b] := by
  unfold walk
  rw [if_pos h, show b + 1 - a = (b - a) + 1 by omega, List.range'_concat]
  congr 2
  omega

theorem walk_down {a b : ℕ} (h : b < a) : (List.range' b (a + 1 - b)).reverse = walk a b ++ [b] := by
  unfold walk
  rw [if_neg (by omega), show a + 1 - b = (a - b) + 1 by omega, List.range'_succ,
    List.reverse_cons]

theorem walk_self (a : ℕ) : walk a a = [] := by simp [walk]

theorem mem_walk {a b c : ℕ} (h : c ∈ walk a b) :
    (a ≤ c ∧ c < b) ∨ (b < c ∧ c ≤ a) := by
  unfold walk at h
  split_ifs at h
  · rw [List.mem_range'_1] at h
    left
    omega
  · rw [List.mem_reverse, List.mem_range'_1] at h
    right
    omega

theorem mem_walk_iff {a b c : ℕ} : c ∈ walk a b ↔ (a ≤ c ∧ c < b) ∨ (b < c ∧ c ≤ a) := by
  refine ⟨mem_walk, ?_⟩
  intro h
  unfold walk
  split_ifs
  · rw [List.mem_range'_1]
    omega
  · rw [List.mem_reverse, List.mem_range'_1]
    omega

/-! ## Paths -/

/-- A list of columns that leads from `a` to `b`. -/
structure Goes (a : ℕ) (l : List ℕ) (b : ℕ) : Prop where
  chain : List.IsChain Adjacent (l ++ [b])
  head : ∀ h, (l ++ [b]).head? = some h → h = a

theorem isChain_range' (a k : ℕ) : List.IsChain Adjacent (List.range' a k) := by
  induction k generalizing a with
  | zero => simp
  | succ k ih =>
    rw [List.range'_succ]
    cases k with
    | zero => simp
    | succ k =>
      have := ih (a + 1)
      rw [List.range'_succ] at this ⊢
      exact List.IsChain.cons_cons ⟨by omega, by omega⟩ this

theorem adjacent_symm {a b : ℕ} (h : Adjacent a b) : Adjacent b a := ⟨h.2, h.1⟩

theorem isChain_reverse' {l : List ℕ} (h : List.IsChain Adjacent l) :
    List.IsChain Adjacent l.reverse := by
  rw [List.isChain_reverse]
  exact h.imp fun a b hab => adjacent_symm hab

theorem goes_walk (a b : ℕ) : Goes a (walk a b) b := by
  rcases Nat.lt_or_ge b a with h | h
  · rw [show Goes a (walk a b) b ↔ _ from ⟨fun h => And.intro h.1 h.2, fun h => ⟨h.1, h.2⟩⟩,
      ← walk_down h]
    refine ⟨isChain_reverse' (isChain_range' _ _), ?_⟩
    intro x hx
    rw [List.head?_reverse, show a + 1 - b = (a - b) + 1 by omega, List.range'_concat] at hx
    simp at hx
    omega
  · rw [show Goes a (walk a b) b ↔ _ from ⟨fun h => And.intro h.1 h.2, fun h => ⟨h.1, h.2⟩⟩,
      ← walk_up h]
    refine ⟨isChain_range' _ _, ?_⟩
    intro x hx
    rw [show b + 1 - a = (b - a) + 1 by omega, List.range'_succ] at hx
    simp at hx
    exact hx.symm

theorem Goes.append {a b c : ℕ} {l m : List ℕ} (h1 : Goes a l b) (h2 : Goes b m c) :
    Goes a (l ++ m) c := by
  have hm : ∃ rest, m ++ [c] = b :: rest := by
    cases m with
    | nil => exact ⟨[], by rw [h2.head c rfl]; rfl⟩
    | cons x m => exact ⟨m ++ [c], by rw [h2.head x rfl]; rfl⟩
  obtain ⟨rest, hr⟩ := hm
  constructor
  · have c2 := h2.chain
    rw [List.append_assoc, hr]
    rw [hr] at c2
    have c1 := h1.chain
    rw [List.isChain_append] at c1 ⊢
    refine ⟨c1.1, c2, ?_⟩
    intro x hx y hy
    exact c1.2.2 x hx y (by simpa using hy)
  · intro x hx
    rw [List.append_assoc, hr] at hx
    apply h1.head
    cases l with
    | nil => simpa using hx
    | cons y l => simpa using hx

theorem Goes.closed {a : ℕ} {l : List ℕ} (h : Goes a l a) : ClosedPath l := by
  unfold ClosedPath
  cases l with
  | nil => simp
  | cons x l =>
    have := h.head x rfl
    subst this
    exact h.chain

/-! ## Interpolation between surfaces -/

section
variable [Field K] [LinearOrder K] [IsStrictOrderedRing K]

theorem mapM_ok_eq {β : Type*} {f : α → Except Err β} {g : α → β} : ∀ (l : List α),
    (∀ a ∈ l, f a = .ok (g a)) → l.mapM f = .ok (l.map g) := by
  intro l
  induction l with
  | nil => intro _; rfl
  | cons a l ih =>
    intro h
    rw [List.mapM_cons, h a (by simp), ih fun b hb => h b (by simp [hb])]
    rfl

theorem interpUnit_ok {a b v : K} (hne : a ≠ b) (hv : min a b ≤ v ∧ v ≤ max a b) :
    interpUnit a b v = .ok ((v - a) / (b - a)) := by
  unfold interpUnit
  rcases lt_or_gt_of_ne hne with h | h
  · rw [min_eq_left h.le, max_eq_right h.le] at hv
    rw [if_pos h.le]
    simp only [interpTable, List.head?_cons, List.getLast?_cons_cons, List.getLast?_singleton]
    rw [if_neg (by push Not; exact hv)]
    simp only [linearAt, or_true, if_true]
    congr 1
    ring
  · rw [min_eq_right h.le, max_eq_left h.le] at hv
    rw [if_neg (not_le.mpr h)]
    simp only [interpTable, List.head?_cons, List.getLast?_cons_cons, List.getLast?_singleton]
    rw [if_neg (by push Not; exact hv)]
    simp only [linearAt, or_true, if_true]
    congr 1
    have h1 : a - b ≠ 0 := sub_ne_zero.mpr hne
    have h2 : b - a ≠ 0 := sub_ne_zero.mpr hne.symm
    field_simp
    ring

/-- Interpolating along the columns from `a` to `b`. -/
theorem interpBetween_walk {n : ℕ} {x : ℕ → K} (hx : ∀ i j, i < j → j < n → x i < x j)
    (f g : ℕ → K) {a b : ℕ} (ha : a < n) (hb : b < n) :
    ∃ l, interpBetween ((walk a b ++ [b]).map x) ((walk a b ++ [b]).map f)
      ((walk a b ++ [b]).map g) = .ok l ∧ l.dropLast = (walk a b).map (blend x f g a b) := by
  by_cases hab : a = b
  · subst hab
    rw [walk_self]
    exact ⟨[f a], by simp [interpBetween], rfl⟩
  have hinj : x a ≠ x b := by
    rcases Nat.lt_or_gt_of_ne hab with h | h
    · exact (hx _ _ h hb).ne
    · exact (hx _ _ h ha).ne'
  have hhead : ((walk a b ++ [b]).map x).head? = some (x a) := by
    have := (goes_walk a b).head
    rw [List.head?_map]
    cases hh : (walk a b ++ [b]).head? with
    | none => simp at hh
    | some h => rw [this h hh]; rfl
  have hlast : ((walk a b ++ [b]).map x).getLast? = some (x b) := by simp
  have hlen : (walk a b ++ [b]).length ≠ 1 := by
    intro h
    have : walk a b = [] := by simpa using h
    unfold walk at this
    split_ifs at this <;> simp at this <;> omega
  have hmono : ∀ c ∈ walk a b ++ [b], min (x a) (x b) ≤ x c ∧ x c ≤ max (x a) (x b) := by
    have hle : ∀ i j, i ≤ j → j < n → x i ≤ x j := by
      intro i j hij hj
      rcases Nat.eq_or_lt_of_le hij with rfl | h
      · exact le_rfl
      · exact (hx _ _ h hj).le
    intro c hc
    rcases List.mem_append.mp hc with hc | hc
    · rcases mem_walk hc with h | h
      · exact ⟨(min_le_left _ _).trans (hle _ _ h.1 (by omega)),
          (hle _ _ h.2.le hb).trans (le_max_right _ _)⟩
      · exact ⟨(min_le_right _ _).trans (hle _ _ h.1.le (by omega)),
          (hle _ _ h.2 ha).trans (le_max_left _ _)⟩
    · simp only [List.mem_singleton] at hc
      subst hc
      exact ⟨min_le_right _ _, le_max_right _ _⟩
  have hmap : ((walk a b ++ [b]).map x).mapM (interpUnit (x a) (x b)) =
      .ok (((walk a b ++ [b]).map x).map fun v => (v - x a) / (x b - x a)) := by
    apply mapM_ok_eq
    intro v hv
    obtain ⟨c, hc, rfl⟩ := List.mem_map.mp hv
    exact interpUnit_ok hinj (hmono c hc)
  refine ⟨(walk a b ++ [b]).map (blend x f g a b), ?_, by simp⟩
  unfold interpBetween
  rw [if_neg (by simp), hhead, hlast]
  dsimp only
  rw [if_neg (by simpa using hlen), hmap]
  dsimp only
  rw [List.map_map, List.zipWith_map, List.zipWith_self, List.zipWith_map, List.zipWith_self,
    List.zipWith_map, List.zipWith_self]
  rfl

end

end Verif
