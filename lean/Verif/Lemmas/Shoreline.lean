import Verif.Lemmas.Prelude
import Verif.Lemmas.Search
import Verif.Model.Shoreline

/-! # Lemmas on the shoreline search -/

set_option autoImplicit false
set_option linter.unusedSectionVars false

namespace Verif

variable {K : Type*} [Field K] [LinearOrder K] [IsStrictOrderedRing K]

/-- The nodes below sea level. -/
def belowWater (z : List K) (sl : K) : List ℕ :=
  (List.range z.length).filter fun i => (z[i]?.map fun v => decide (v < sl)).getD false

theorem mem_belowWater {z : List K} {sl : K} {i : ℕ} :
    i ∈ belowWater z sl ↔ ∃ h : i < z.length, z[i] < sl := by
  unfold belowWater
  rw [List.mem_filter, List.mem_range]
  constructor
  · rintro ⟨h, h2⟩
    rw [List.getElem?_eq_getElem h] at h2
    exact ⟨h, by simpa using h2⟩
  · rintro ⟨h, h2⟩
    refine ⟨h, ?_⟩
    rw [List.getElem?_eq_getElem h]
    simpa using h2

theorem belowWater_sorted (z : List K) (sl : K) : (belowWater z sl).Pairwise (· < ·) :=
  List.Pairwise.filter _ List.pairwise_lt_range

theorem belowWater_length_eq_zero {z : List K} {sl : K} :
    (belowWater z sl).length = 0 ↔ ∀ v ∈ z, sl ≤ v := by
  rw [List.length_eq_zero_iff, List.eq_nil_iff_forall_not_mem]
  constructor
  · intro h v hv
    obtain ⟨i, hi, rfl⟩ := List.getElem_of_mem hv
    by_contra hn
    exact h i (mem_belowWater.mpr ⟨hi, not_le.mp hn⟩)
  · intro h i hi
    obtain ⟨hl, hlt⟩ := mem_belowWater.mp hi
    exact absurd hlt (not_lt.mpr (h _ (List.getElem_mem hl)))

theorem belowWater_length_eq {z : List K} {sl : K} :
    (belowWater z sl).length = z.length ↔ ∀ v ∈ z, v < sl := by
  constructor
  · intro h v hv
    obtain ⟨i, hi, rfl⟩ := List.getElem_of_mem hv
    have hall : belowWater z sl = List.range z.length := by
      apply List.Sublist.eq_of_length List.filter_sublist
      rw [List.length_range]
      exact h
    have : i ∈ belowWater z sl := by rw [hall]; exact List.mem_range.mpr hi
    obtain ⟨_, hlt⟩ := mem_belowWater.mp this
    exact hlt
  · intro h
    have hall : belowWater z sl = List.range z.length := by
      apply List.filter_eq_self.mpr
      intro i hi
      rw [List.mem_range] at hi
      rw [List.getElem?_eq_getElem hi]
      simpa using h _ (List.getElem_mem hi)
    rw [hall, List.length_range]

theorem shorelineIndexRow_def (nx : ℕ) (z : List K) (sl : K) :
    shorelineIndexRow nx z sl =
      if (belowWater z sl).length = 0 ∨ (belowWater z sl).length = nx then .error .shorelineError
      else match belowWater z sl with
        | i :: _ => .ok i
        | [] => .error .indexError := rfl

/-! ### scipy's bisect -/

/-- The function is defined on an interval. -/
def DefinedOn (f : Curve K) (lo hi : K) : Prop := ∀ x, lo ≤ x → x ≤ hi → ∃ v, f x = .ok v

/-- The function takes the value 0 between a positive and a later negative value. -/
def Crosses (f : Curve K) (lo hi : K) : Prop :=
  ∀ a b va vb, lo ≤ a → a ≤ b → b ≤ hi → f a = .ok va → f b = .ok vb → 0 < va → vb < 0 →
    ∃ r, a ≤ r ∧ r ≤ b ∧ f r = .ok 0

theorem scipyBisectLoop_ok (f : Curve K) (xtol rtol fa lo hi : K) (hx : 0 < xtol) (hr : 0 ≤ rtol)
    (hdef : DefinedOn f lo hi) :
    ∀ (n : ℕ) (a dm : K), lo ≤ a → 0 ≤ dm → a + dm ≤ hi → dm < xtol * 2 ^ (n + 1) →
      ∃ m, scipyBisectLoop f xtol rtol fa (n + 1) a dm = .ok m ∧ lo ≤ m ∧ m ≤ hi := by
  intro n
  induction n with
  | zero =>
    intro a dm h1 h2 h3 h4
    obtain ⟨v, hv⟩ := hdef (a + dm / 2) (by linarith) (by linarith)
    refine ⟨a + dm / 2, ?_, by linarith, by linarith⟩
    simp only [scipyBisectLoop, hv]
    have hlt : |dm / 2| < xtol + rtol * |a + dm / 2| := by
      rw [abs_of_nonneg (by linarith)]
      have := mul_nonneg hr (abs_nonneg (a + dm / 2))
      rw [zero_add, pow_one] at h4
      linarith
    rw [if_pos (.inr hlt)]
  | succ n ih =>
    intro a dm h1 h2 h3 h4
    obtain ⟨v, hv⟩ := hdef (a + dm / 2) (by linarith) (by linarith)
    rw [scipyBisectLoop]
    dsimp only
    rw [hv]
    dsimp only
    by_cases hstop : v = 0 ∨ |dm / 2| < xtol + rtol * |a + dm / 2|
    · rw [if_pos hstop]
      exact ⟨a + dm / 2, rfl, by linarith, by linarith⟩
    · rw [if_neg hstop]
      have h5 : dm / 2 < xtol * 2 ^ (n + 1) := by
        rw [pow_succ] at h4; linarith
      split_ifs with hs
      · exact ih (a + dm / 2) (dm / 2) (by linarith) (by linarith) (by linarith) h5
      · exact ih a (dm / 2) h1 (by linarith) (by linarith) h5

theorem scipyBisectLoop_root (f : Curve K) (xtol rtol fa lo hi : K) (hx : 0 < xtol) (hr : 0 ≤ rtol)
    (hc : Crosses f lo hi) (hfa : 0 < fa) :
    ∀ (n : ℕ) (a dm va vb : K), lo ≤ a → 0 ≤ dm → a + dm ≤ hi → f a = .ok va → f (a + dm) = .ok vb →
      0 < va → vb < 0 → ∀ m, scipyBisectLoop f xtol rtol fa n a dm = .ok m →
      ∃ r, a ≤ r ∧ r ≤ a + dm ∧ f r = .ok 0 ∧ |m - r| ≤ xtol + rtol * |m| := by
  intro n
  induction n with
  | zero => intro a dm va vb _ _ _ _ _ _ _ m h; cases h
  | succ n ih =>
    intro a dm va vb h1 h2 h3 h4 h5 h6 h7 m h
    rw [scipyBisectLoop] at h
    dsimp only at h
    cases hv : f (a + dm / 2) with
    | error e => rw [hv] at h; cases h
    | ok v =>
      rw [hv] at h
      dsimp only at h
      by_cases hstop : v = 0 ∨ |dm / 2| < xtol + rtol * |a + dm / 2|
      · rw [if_pos hstop] at h
        cases h
        rcases hstop with h0 | htol
        · subst h0
          refine ⟨a + dm / 2, by linarith, by linarith, hv, ?_⟩
          rw [sub_self, abs_zero]
          have := mul_nonneg hr (abs_nonneg (a + dm / 2))
          linarith
        · obtain ⟨r, r1, r2, r3⟩ := hc a (a + dm) va vb h1 (by linarith) h3 h4 h5 h6 h7
          refine ⟨r, r1, r2, r3, le_trans ?_ htol.le⟩
          rw [abs_of_nonneg (show (0 : K) ≤ dm / 2 by linarith), abs_le]
          constructor <;> linarith
      · rw [if_neg hstop] at h
        push Not at hstop
        rcases lt_or_gt_of_ne hstop.1 with hneg | hpos
        · have hs : ¬ signbit v = signbit fa := by
            simp [signbit, hneg, not_lt.mpr hfa.le]
          rw [if_neg hs] at h
          obtain ⟨r, r1, r2, r3⟩ := ih a (dm / 2) va v h1 (by linarith) (by linarith) h4 hv h6 hneg m h
          exact ⟨r, r1, by linarith, r3⟩
        · have hs : signbit v = signbit fa := by
            simp [signbit, not_lt.mpr hpos.le, not_lt.mpr hfa.le]
          rw [if_pos hs] at h
          obtain ⟨r, r1, r2, r3⟩ := ih (a + dm / 2) (dm / 2) v vb (by linarith) (by linarith)
            (by linarith) hv (by rw [add_assoc, add_halves]; exact h5) hpos h7 m h
          exact ⟨r, by linarith, by linarith, r3⟩

/-- Whatever the function, what the loop returns lies in the bracket. -/
theorem scipyBisectLoop_mem (f : Curve K) (xtol rtol fa : K) :
    ∀ (n : ℕ) (a dm : K), 0 ≤ dm → ∀ m, scipyBisectLoop f xtol rtol fa n a dm = .ok m →
      a ≤ m ∧ m ≤ a + dm := by
  intro n
  induction n with
  | zero => intro a dm _ m h; cases h
  | succ n ih =>
    intro a dm hd m h
    rw [scipyBisectLoop] at h
    dsimp only at h
    cases hv : f (a + dm / 2) with
    | error e => rw [hv] at h; cases h
    | ok v =>
      rw [hv] at h
      dsimp only at h
      by_cases hstop : v = 0 ∨ |dm / 2| < xtol + rtol * |a + dm / 2|
      · rw [if_pos hstop] at h
        cases h
        constructor <;> linarith
      rw [if_neg hstop] at h
      split_ifs at h
      · have := ih _ _ (by linarith) m h
        constructor <;> linarith
      · have := ih _ _ (by linarith) m h
        constructor <;> linarith

theorem scipyBisect_mem {f : Curve K} {xtol rtol a b m : K} (hab : a ≤ b)
    (h : scipyBisect f xtol rtol a b = .ok m) : a ≤ m ∧ m ≤ b := by
  unfold scipyBisect at h
  cases ha : f a with
  | error e => rw [ha] at h; cases h
  | ok fa =>
    cases hb : f b with
    | error e => rw [ha, hb] at h; cases h
    | ok fb =>
      rw [ha, hb] at h
      dsimp only at h
      split_ifs at h
      · cases h
        exact ⟨le_rfl, hab⟩
      · cases h
        exact ⟨hab, le_rfl⟩
      · have := scipyBisectLoop_mem f xtol rtol fa 100 a (b - a) (by linarith) m h
        constructor <;> linarith

/-! ### argmax -/

theorem argmax_go_spec (vs : List K) : ∀ (all : List K) (best : K) (ibest i : ℕ),
    all.length = i + vs.length → (∀ j (_ : j < vs.length), all[i + j]? = vs[j]?) →
    ibest < i → all[ibest]? = some best →
    (∀ j v, j < i → all[j]? = some v → v ≤ best ∧ (j < ibest → v < best)) →
    ∃ b, all[argmax.go best ibest i vs]? = some b ∧
      ∀ j v, all[j]? = some v → v ≤ b ∧ (j < argmax.go best ibest i vs → v < b) := by
  induction vs with
  | nil =>
    intro all best ibest i hl hall hib hb hbest
    refine ⟨best, hb, ?_⟩
    intro j v hj
    apply hbest j v _ hj
    have := (List.getElem?_eq_some_iff.mp hj).1
    simp only [List.length_nil, add_zero] at hl
    omega
  | cons w vs ih =>
    intro all best ibest i hl hall hib hb hbest
    have hw : all[i]? = some w := by
      have := hall 0 (by simp)
      simpa using this
    have hall' : ∀ j (_ : j < vs.length), all[i + 1 + j]? = vs[j]? := by
      intro j hj
      have := hall (j + 1) (by simp; omega)
      rw [List.getElem?_cons_succ] at this
      rw [← this]
      congr 1
      omega
    rw [argmax.go]
    split_ifs with hlt
    · refine ih all w i (i + 1) (by simp only [List.length_cons] at hl; omega) hall' (by omega) hw ?_
      intro j v hj hv
      rcases Nat.lt_succ_iff_lt_or_eq.mp hj with hj | rfl
      · have := (hbest j v hj hv).1
        exact ⟨(this.trans_lt hlt).le, fun _ => this.trans_lt hlt⟩
      · rw [hw] at hv
        cases hv
        exact ⟨le_rfl, fun h => absurd h (lt_irrefl _)⟩
    · refine ih all best ibest (i + 1) (by simp only [List.length_cons] at hl; omega) hall' (by omega) hb ?_
      intro j v hj hv
      rcases Nat.lt_succ_iff_lt_or_eq.mp hj with hj | rfl
      · exact hbest j v hj hv
      · rw [hw] at hv
        cases hv
        exact ⟨not_lt.mp hlt, fun h => by omega⟩

/-- `argmax` finds the first largest element. -/
theorem argmax_spec (vs : List K) (hne : vs ≠ []) :
    ∃ k b, argmax vs = .ok k ∧ vs[k]? = some b ∧
      ∀ j v, vs[j]? = some v → v ≤ b ∧ (j < k → v < b) := by
  cases vs with
  | nil => exact absurd rfl hne
  | cons v vs =>
    obtain ⟨b, h1, h2⟩ := argmax_go_spec vs (v :: vs) v 0 1 (by simp; omega)
      (by intro j _; rw [Nat.add_comm 1 j, List.getElem?_cons_succ]) (by omega) rfl (by
        intro j w hj hw
        have : j = 0 := by omega
        subst this
        simp only [List.getElem?_cons_zero, Option.some.injEq] at hw
        subst hw
        exact ⟨le_rfl, fun h => absurd h (lt_irrefl _)⟩)
    exact ⟨_, b, rfl, h1, h2⟩

/-! ### Loops over rows -/

theorem overRows_ok {α : Type*} {n : ℕ} {g : Fin n → Except Err α} {res : Fin n → α}
    (h : overRows g = .ok res) (i : Fin n) : g i = .ok (res i) := by
  induction n with
  | zero => exact i.elim0
  | succ n ih =>
    rw [overRows] at h
    cases h0 : g 0 with
    | error e => rw [h0] at h; cases h
    | ok a =>
      rw [h0] at h
      dsimp only at h
      cases h1 : overRows (fun i => g i.succ) with
      | error e => rw [h1] at h; cases h
      | ok as =>
        rw [h1] at h
        cases h
        refine Fin.cases ?_ ?_ i
        · rw [h0, Fin.cons_zero]
        · intro j
          rw [Fin.cons_succ]
          exact ih h1 j

theorem overRows_of_all {α : Type*} {n : ℕ} {g : Fin n → Except Err α} {res : Fin n → α}
    (h : ∀ i, g i = .ok (res i)) : overRows g = .ok res := by
  induction n with
  | zero => rw [overRows]; congr 1; funext i; exact i.elim0
  | succ n ih =>
    rw [overRows, h 0]
    dsimp only
    rw [ih (fun i => h i.succ)]
    dsimp only
    congr 1
    funext i
    refine Fin.cases ?_ ?_ i
    · rw [Fin.cons_zero]
    · intro j; rw [Fin.cons_succ]

theorem overRows_error {α : Type*} {n : ℕ} {g : Fin n → Except Err α} {e : Err}
    (h : overRows g = .error e) : ∃ i, g i = .error e ∧ ∀ j, j < i → ∃ a, g j = .ok a := by
  induction n with
  | zero => rw [overRows] at h; cases h
  | succ n ih =>
    rw [overRows] at h
    cases h0 : g 0 with
    | error e' =>
      rw [h0] at h; cases h
      exact ⟨0, h0, fun j hj => absurd hj (by simp)⟩
    | ok a =>
      rw [h0] at h
      dsimp only at h
      cases h1 : overRows (fun i => g i.succ) with
      | ok as => rw [h1] at h; cases h
      | error e' =>
        rw [h1] at h; cases h
        obtain ⟨i, i1, i2⟩ := ih h1
        refine ⟨i.succ, i1, ?_⟩
        intro j hj
        refine Fin.cases (motive := fun j => j < i.succ → ∃ a, g j = .ok a) ?_ ?_ j hj
        · intro _; exact ⟨a, h0⟩
        · intro k hk; exact i2 k (by simpa using hk)

end Verif
