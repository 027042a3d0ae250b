import Mathlib.Algebra.Order.Field.Basic
import Mathlib.Algebra.Order.BigOperators.Group.List
import Mathlib.Algebra.BigOperators.Group.List.Basic
import Mathlib.Tactic.Linarith
import Mathlib.Tactic.Ring
import Mathlib.Tactic.SplitIfs
import Verif.Model.Layers

/-! Helper lemmas about single columns of layers. -/

set_option linter.unusedSectionVars false

set_option autoImplicit false

namespace Verif

variable {ι K : Type*}

section Column
variable [Field K] [LinearOrder K] [IsStrictOrderedRing K]

theorem erodeLoop_length (amount : K) (L : List K) :
    ∀ removed, (erodeLoop amount removed L).length = L.length := by
  induction L with
  | nil => intro r; rfl
  | cons l rest ih =>
    intro r
    simp only [erodeLoop]
    split_ifs
    · simp
    · simp [ih]

theorem sum_nonneg_of {L : List K} (h : ∀ x ∈ L, 0 ≤ x) : 0 ≤ L.sum := List.sum_nonneg h

/-- Suffix sums (from the top) of an eroded stack. -/
theorem erodeLoop_drop_sum (amount : K) (L : List K) (hL : ∀ x ∈ L, 0 ≤ x) :
    ∀ removed, removed ≤ amount → ∀ j,
      ((erodeLoop amount removed L).drop j).sum =
        min (L.drop j).sum (max 0 (L.sum + removed - amount)) := by
  induction L with
  | nil =>
    intro r hr j
    simp only [erodeLoop, List.drop_nil, List.sum_nil]
    rw [max_eq_left (by linarith)]; simp
  | cons l rest ih =>
    intro r hr j
    have hl : 0 ≤ l := hL l (by simp)
    have hrest : ∀ x ∈ rest, 0 ≤ x := fun x hx => hL x (by simp [hx])
    have hs := sum_nonneg_of hrest
    have hd : ∀ j, (rest.drop j).sum ≤ rest.sum := by
      intro j
      have := List.sum_take_add_sum_drop rest j
      have h2 : 0 ≤ (rest.take j).sum :=
        sum_nonneg_of (fun x hx => hrest x (List.mem_of_mem_take hx))
      linarith
    simp only [erodeLoop]
    split_ifs with hc
    · rw [max_eq_right (by simp only [List.sum_cons]; linarith)]
      cases j with
      | zero =>
        simp only [List.drop_zero, List.sum_cons]
        rw [min_eq_right (by linarith)]; ring
      | succ j =>
        simp only [List.drop_succ_cons, List.sum_cons]
        rw [min_eq_left]
        have := hd j
        linarith
    · have hc' : r + l ≤ amount := not_lt.mp hc
      cases j with
      | zero =>
        simp only [List.drop_zero, List.sum_cons, zero_add]
        have h0 := ih hrest (r + l) hc' 0
        simp only [List.drop_zero] at h0
        rw [h0]
        have e : rest.sum + (r + l) - amount = l + rest.sum + r - amount := by ring
        rw [e]
        rcases le_total 0 (l + rest.sum + r - amount) with h | h
        · rw [max_eq_right h, min_eq_right (by linarith), min_eq_right (by linarith)]
        · rw [max_eq_left h, min_eq_right hs, min_eq_right (by linarith)]
      | succ j =>
        simp only [List.drop_succ_cons, List.sum_cons]
        rw [ih hrest (r + l) hc' j]
        congr 2; ring

theorem erodeLoop_nonneg (amount : K) (L : List K) (hL : ∀ x ∈ L, 0 ≤ x) :
    ∀ removed, ∀ x ∈ erodeLoop amount removed L, 0 ≤ x := by
  induction L with
  | nil => intro r x hx; simp [erodeLoop] at hx
  | cons l rest ih =>
    intro r x hx
    have hrest : ∀ x ∈ rest, 0 ≤ x := fun x hx => hL x (by simp [hx])
    simp only [erodeLoop] at hx
    split_ifs at hx with hc
    · rcases List.mem_cons.mp hx with h | h
      · rw [h]; linarith
      · exact hrest x h
    · rcases List.mem_cons.mp hx with h | h
      · rw [h]
      · exact ih hrest _ x h

theorem addToTop_length (d : K) (L : List K) : (addToTop d L).length = L.length := by
  induction L with
  | nil => rfl
  | cons l rest ih =>
    cases rest with
    | nil => rfl
    | cons r rs => simp only [addToTop, List.length_cons] at *; omega

theorem addToTop_append (d l : K) (L : List K) : addToTop d (L ++ [l]) = L ++ [l + d] := by
  induction L with
  | nil => rfl
  | cons a rest ih =>
    cases rest with
    | nil => rfl
    | cons r rs =>
      simp only [List.cons_append, addToTop] at *
      rw [ih]

theorem addColumn_nonneg_eq (col : List K) {d : K} (hd : 0 ≤ d) : addColumn col d = col ++ [d] := by
  unfold addColumn depositOrErode
  rw [if_neg (not_lt.mpr hd), addToTop_append]; simp

theorem addColumn_length (col : List K) (d : K) : (addColumn col d).length = col.length + 1 := by
  unfold addColumn depositOrErode
  split_ifs
  · simp [erodeLoop_length]
  · rw [addToTop_length]; simp

theorem addColumn_nonneg {col : List K} (h : ∀ x ∈ col, 0 ≤ x) (d : K) :
    ∀ x ∈ addColumn col d, 0 ≤ x := by
  unfold addColumn depositOrErode
  split_ifs with hd
  · intro x hx
    rw [List.mem_reverse] at hx
    refine erodeLoop_nonneg _ _ ?_ 0 x hx
    intro y hy
    rcases List.mem_append.mp (List.mem_reverse.mp hy) with h' | h'
    · exact h y h'
    · simp at h'; rw [h']
  · rw [addToTop_append]
    intro x hx
    rcases List.mem_append.mp hx with h' | h'
    · exact h x h'
    · simp at h'; rw [h']; exact not_lt.mp hd

/-- Heights (prefix sums) of an eroded column. -/
theorem addColumn_take_sum_neg {col : List K} (h : ∀ x ∈ col, 0 ≤ x) {d : K} (hd : d < 0) (k : ℕ) :
    ((addColumn col d).take k).sum = min (col.take k).sum (max 0 (col.sum + d)) := by
  unfold addColumn depositOrErode
  rw [if_pos hd]
  have hL : ∀ x ∈ (col ++ [0]).reverse, 0 ≤ x := by
    intro y hy
    rcases List.mem_append.mp (List.mem_reverse.mp hy) with h' | h'
    · exact h y h'
    · simp at h'; rw [h']
  have key := erodeLoop_drop_sum (-d) (col ++ [0]).reverse hL 0 (by linarith)
    ((col ++ [0]).length - k)
  rw [List.take_reverse, List.sum_reverse, erodeLoop_length, List.length_reverse, key]
  rw [List.drop_reverse, List.sum_reverse, List.sum_reverse]
  have e1 : (col ++ [(0 : K)]).sum + 0 - -d = col.sum + d := by simp
  rw [e1]
  congr 1
  by_cases hk : k ≤ col.length
  · have : (col ++ [(0 : K)]).length - ((col ++ [(0 : K)]).length - k) = k := by
      simp only [List.length_append, List.length_singleton]; omega
    rw [this, List.take_append_of_le_length hk]
  · have h1 : (col ++ [(0 : K)]).length - ((col ++ [(0 : K)]).length - k) = (col ++ [(0 : K)]).length := by
      simp only [List.length_append, List.length_singleton]; omega
    rw [h1, List.take_length, List.take_of_length_le (by omega)]
    simp

theorem addColumn_take_sum {col : List K} (h : ∀ x ∈ col, 0 ≤ x) (d : K) {k : ℕ}
    (hk : k ≤ col.length) :
    ((addColumn col d).take k).sum = min (col.take k).sum (max 0 (col.sum + d)) := by
  by_cases hd : d < 0
  · exact addColumn_take_sum_neg h hd k
  · have hd' := not_lt.mp hd
    rw [addColumn_nonneg_eq col hd', List.take_append_of_le_length hk]
    have h1 := List.sum_take_add_sum_drop col k
    have h2 : 0 ≤ (col.drop k).sum := sum_nonneg_of fun x hx => h x (List.mem_of_mem_drop hx)
    have h3 := sum_nonneg_of h
    rw [max_eq_right (by linarith), min_eq_left (by linarith)]

theorem addColumn_sum {col : List K} (h : ∀ x ∈ col, 0 ≤ x) (d : K) :
    (addColumn col d).sum = max 0 (col.sum + d) := by
  by_cases hd : d < 0
  · have := addColumn_take_sum_neg h hd (col.length + 1)
    rw [List.take_of_length_le (by rw [addColumn_length]), List.take_of_length_le (by omega)] at this
    rw [this, min_eq_right]
    rw [max_le_iff]; exact ⟨sum_nonneg_of h, by linarith⟩
  · have hd' := not_lt.mp hd
    rw [addColumn_nonneg_eq col hd']
    have := sum_nonneg_of h
    rw [max_eq_right (by linarith)]; simp

/-- A list is determined by its length and prefix sums. -/
theorem eq_of_take_sum : ∀ {L M : List K}, L.length = M.length →
    (∀ k ≤ L.length, (L.take k).sum = (M.take k).sum) → L = M
  | [], [], _, _ => rfl
  | l :: L, m :: M, hlen, h => by
    have h1 := h 1 (by simp)
    simp at h1
    subst h1
    congr 1
    refine eq_of_take_sum (by simpa using hlen) ?_
    intro k hk
    have := h (k + 1) (by simpa using hk)
    simpa using this

end Column

/-! ### Merging the oldest groups of ten -/

/-- Merge the first `a` groups of ten elements with `f`. -/
def mergeTens {α : Type*} (f : List α → α) : ℕ → List α → List α
  | 0, l => l
  | a + 1, l => f (l.take 10) :: mergeTens f a (l.drop 10)

theorem mergeTens_length {α : Type*} (f : List α → α) :
    ∀ (a : ℕ) (l : List α), 10 * a ≤ l.length → (mergeTens f a l).length = l.length - 9 * a
  | 0, l, _ => by simp [mergeTens]
  | a + 1, l, h => by
    simp only [mergeTens, List.length_cons]
    rw [mergeTens_length f a (l.drop 10) (by rw [List.length_drop]; omega), List.length_drop]
    omega

theorem mergeTens_append {α : Type*} (f : List α → α) :
    ∀ (a : ℕ) (l m : List α), 10 * a ≤ l.length → mergeTens f a (l ++ m) = mergeTens f a l ++ m
  | 0, l, m, _ => rfl
  | a + 1, l, m, h => by
    simp only [mergeTens, List.cons_append]
    rw [List.take_append_of_le_length (by omega), List.drop_append_of_le_length (by omega),
      mergeTens_append f a _ m (by rw [List.length_drop]; omega)]

theorem reduceColumn_mergeTens {α : Type*} (f : List α → α) :
    ∀ (a : ℕ) (l : List α),
      reduceColumn a (a + 10) f (mergeTens f a l) = mergeTens f (a + 1) l
  | 0, l => by simp [reduceColumn, mergeTens]
  | a + 1, l => by
    have ih := reduceColumn_mergeTens f a (l.drop 10)
    have e : a + 1 + 10 - (a + 1) = 10 := by omega
    have e' : a + 10 - a = 10 := by omega
    simp only [reduceColumn, e'] at ih
    rw [show mergeTens f (a + 1 + 1) l = f (l.take 10) :: mergeTens f (a + 1) (l.drop 10) from rfl,
      ← ih]
    simp only [reduceColumn, e]
    rw [show mergeTens f (a + 1) l = f (l.take 10) :: mergeTens f a (l.drop 10) from rfl]
    rw [show a + 1 + 10 = (a + 10) + 1 by omega]
    simp

section Column
variable [Field K] [LinearOrder K] [IsStrictOrderedRing K]

theorem mergeTens_sum_nonneg :
    ∀ (a : ℕ) (l : List K), (∀ x ∈ l, 0 ≤ x) → ∀ x ∈ mergeTens List.sum a l, 0 ≤ x
  | 0, l, h => h
  | a + 1, l, h => by
    intro x hx
    rcases List.mem_cons.mp hx with h' | h'
    · rw [h']; exact sum_nonneg_of fun y hy => h y (List.mem_of_mem_take hy)
    · exact mergeTens_sum_nonneg a _ (fun y hy => h y (List.mem_of_mem_drop hy)) x h'

/-- The index, in the unmerged list, of the boundary `k` of the merged one. -/
def boundary (a k : ℕ) : ℕ := if k ≤ a then 10 * k else k + 9 * a

theorem mergeTens_take_sum :
    ∀ (a : ℕ) (l : List K) (k : ℕ), 10 * a ≤ l.length →
      ((mergeTens List.sum a l).take k).sum = (l.take (boundary a k)).sum
  | 0, l, k, _ => by
    simp only [mergeTens, boundary]
    split_ifs with h
    · simp [Nat.le_zero.mp h]
    · simp
  | a + 1, l, 0, _ => by simp [boundary]
  | a + 1, l, k + 1, h => by
    simp only [mergeTens, List.take_succ_cons, List.sum_cons]
    rw [mergeTens_take_sum a (l.drop 10) k (by rw [List.length_drop]; omega)]
    have hb : boundary (a + 1) (k + 1) = 10 + boundary a k := by
      unfold boundary; split_ifs <;> omega
    rw [hb, List.take_add, List.sum_append]

theorem mergeTens_sum (a : ℕ) (l : List K) (h : 10 * a ≤ l.length) :
    (mergeTens List.sum a l).sum = l.sum := by
  have h1 := mergeTens_take_sum a l (l.length - 9 * a) h
  rw [List.take_of_length_le (by rw [mergeTens_length _ _ _ h])] at h1
  rw [h1]
  unfold boundary
  split_ifs with hc
  · rw [List.take_of_length_le (by omega)]
  · rw [List.take_of_length_le (by omega)]

theorem boundary_le {a k n : ℕ} (h : 10 * a ≤ n) (hk : k ≤ n - 9 * a) : boundary a k ≤ n := by
  unfold boundary; split_ifs <;> omega

/-- Adding a layer commutes with merging old layers. -/
theorem addColumn_mergeTens {l : List K} (hl : ∀ x ∈ l, 0 ≤ x) {a : ℕ} (ha : 10 * a ≤ l.length)
    (d : K) : addColumn (mergeTens List.sum a l) d = mergeTens List.sum a (addColumn l d) := by
  have ha' : 10 * a ≤ (addColumn l d).length := by rw [addColumn_length]; omega
  by_cases hd : d < 0
  · refine eq_of_take_sum ?_ ?_
    · rw [addColumn_length, mergeTens_length _ _ _ ha, mergeTens_length _ _ _ ha', addColumn_length]
      omega
    · intro k hk
      rw [addColumn_take_sum_neg (mergeTens_sum_nonneg a l hl) hd, mergeTens_take_sum a l k ha,
        mergeTens_sum a l ha, mergeTens_take_sum a _ k ha', addColumn_take_sum_neg hl hd]
  · have hd' := not_lt.mp hd
    rw [addColumn_nonneg_eq _ hd', addColumn_nonneg_eq _ hd', mergeTens_append _ _ _ _ ha]

end Column

end Verif
