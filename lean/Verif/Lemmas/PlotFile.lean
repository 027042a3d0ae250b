import Verif.Lemmas.Prelude
import Verif.Model.PlotFile

/-!
# Reading a plot file, lemmas
-/

set_option autoImplicit false
set_option linter.unusedSectionVars false

namespace Verif

variable {K : Type*} [Field K] [LinearOrder K]

theorem zip_pairwise {α : Type*} {x : List K} (y : List α) (h : x.Pairwise (· < ·)) :
    (x.zip y).Pairwise fun p q => p.1 < q.1 := by
  induction x generalizing y with
  | nil => simp
  | cons a x ih =>
    cases y with
    | nil => simp
    | cons b y =>
      rw [List.pairwise_cons] at h
      rw [List.zip_cons_cons, List.pairwise_cons]
      exact ⟨fun p hp => h.1 _ (List.of_mem_zip hp).1, ih y h.2⟩

/-- A table with increasing abscissas is looked up at its nodes. -/
theorem npInterp_node {t : List (K × Option K)} (h : t.Pairwise fun p q => p.1 < q.1)
    {p : K × Option K} (hp : p ∈ t) : npInterp t p.1 = p.2 := by
  induction t with
  | nil => simp at hp
  | cons a t ih =>
    rw [List.pairwise_cons] at h
    cases t with
    | nil =>
      rw [List.mem_singleton] at hp
      subst hp
      rfl
    | cons b t =>
      rw [npInterp]
      rcases List.mem_cons.mp hp with rfl | hp
      · rw [if_pos (h.1 b (by simp)), if_pos rfl]
      · have hb : ¬ p.1 < b.1 := by
          rcases List.mem_cons.mp hp with rfl | hp
          · exact lt_irrefl _
          · exact not_lt.mpr (le_of_lt ((List.pairwise_cons.mp h.2).1 p hp))
        rw [if_neg hb]
        exact ih h.2 hp

/-- Between two neighbouring nodes it is a straight line, and NaN if one of them is NaN. -/
theorem npInterp_between (l : List (K × Option K)) {p q : K × Option K} (r : List (K × Option K))
    (h : (l ++ p :: q :: r).Pairwise fun p q => p.1 < q.1) {v : K} (h1 : p.1 < v) (h2 : v < q.1) :
    npInterp (l ++ p :: q :: r) v =
      p.2.bind fun a => q.2.map fun b => (b - a) / (q.1 - p.1) * (v - p.1) + a := by
  induction l with
  | nil =>
    rw [List.nil_append, npInterp, if_pos h2, if_neg h1.ne']
    cases p.2 <;> cases q.2 <;> rfl
  | cons a l ih =>
    rw [List.cons_append, List.pairwise_cons] at h
    rw [List.cons_append]
    obtain ⟨b, t, ht⟩ : ∃ b t, l ++ p :: q :: r = b :: t := by
      cases l with
      | nil => exact ⟨_, _, rfl⟩
      | cons b l => exact ⟨_, _, rfl⟩
    have hb : ¬ v < b.1 := by
      have hp : p ∈ b :: t := by rw [← ht]; simp
      rcases List.mem_cons.mp hp with e | hp
      · rw [← e]; exact not_lt.mpr h1.le
      · have := h.2
        rw [ht, List.pairwise_cons] at this
        exact not_lt.mpr ((this.1 p hp).le.trans h1.le)
    have := ih h.2
    rw [ht] at this ⊢
    rw [npInterp, if_neg hb]
    exact this

/-- `interp1d` on increasing abscissas. -/
theorem interpFloats_sorted {x : List K} {y : List (Option K)} (hx : x.Pairwise (· < ·))
    (hl : x.length = y.length) {a b : K} (ha : x.head? = some a) (hb : x.getLast? = some b)
    (v : Option K) :
    interpFloats x y v = match v with
      | none => .ok none
      | some v => if v < a ∨ b < v then .error .valueError else .ok (npInterp (x.zip y) v) := by
  have hs : (x.zip y).insertionSort (fun p q => p.1 ≤ q.1) = x.zip y :=
    List.Pairwise.insertionSort_eq ((zip_pairwise y hx).imp fun h => h.le)
  have hfst : (x.zip y).map Prod.fst = x := List.map_fst_zip hl.le
  obtain ⟨p, hp, hp1⟩ : ∃ p, (x.zip y).head? = some p ∧ p.1 = a := by
    rw [← hfst, List.head?_map, Option.map_eq_some_iff] at ha
    exact ha
  obtain ⟨q, hq, hq1⟩ : ∃ q, (x.zip y).getLast? = some q ∧ q.1 = b := by
    rw [← hfst, List.getLast?_map, Option.map_eq_some_iff] at hb
    exact hb
  unfold interpFloats
  rw [if_neg (not_not.mpr hl)]
  dsimp only
  rw [hs, hp, hq]
  cases v with
  | none => rfl
  | some v => dsimp only; rw [hp1, hq1]

theorem mapM_ok_iff {α β : Type*} {f : α → Except Err β} : ∀ {l : List α} {r : List β},
    l.mapM f = .ok r ↔ l.length = r.length ∧
      ∀ (i : ℕ) (a : α), l[i]? = some a → ∃ b, r[i]? = some b ∧ f a = .ok b
  | [], r => by
    rw [List.mapM_nil]
    constructor
    · intro h
      cases h
      simp
    · intro h
      rw [List.length_eq_zero_iff.mp h.1.symm]
      rfl
  | a :: l, r => by
    rw [List.mapM_cons]
    cases hf : f a with
    | error e =>
      constructor
      · intro h; cases h
      · intro h
        obtain ⟨b, -, hb⟩ := h.2 0 a rfl
        rw [hf] at hb
        cases hb
    | ok b =>
      show (l.mapM f).bind _ = _ ↔ _
      cases hl : l.mapM f with
      | error e =>
        constructor
        · intro h; cases h
        · intro h
          cases r with
          | nil => simp at h
          | cons b' r =>
            have : l.mapM f = .ok r := mapM_ok_iff.mpr ⟨by simpa using h.1, fun i a hi =>
              h.2 (i + 1) a (by simpa using hi)⟩
            rw [hl] at this
            cases this
      | ok r' =>
        obtain ⟨h1, h2⟩ := mapM_ok_iff.mp hl
        constructor
        · intro h
          cases h
          refine ⟨by simp [h1], fun i x hi => ?_⟩
          cases i with
          | zero =>
            simp only [List.getElem?_cons_zero, Option.some.injEq] at hi
            subst hi
            exact ⟨b, rfl, hf⟩
          | succ i => exact h2 i x (by simpa using hi)
        · intro h
          cases r with
          | nil => simp at h
          | cons b' r =>
            obtain ⟨b'', e1, e2⟩ := h.2 0 a rfl
            simp only [List.getElem?_cons_zero, Option.some.injEq] at e1
            subst e1
            rw [hf] at e2
            cases e2
            have : l.mapM f = .ok r := mapM_ok_iff.mpr ⟨by simpa using h.1, fun i a hi =>
              h.2 (i + 1) a (by simpa using hi)⟩
            rw [hl] at this
            cases this
            rfl

theorem mapM_total {α β : Type*} {f : α → Except Err β} {l : List α}
    (h : ∀ a ∈ l, ∃ b, f a = .ok b) : ∃ r, l.mapM f = .ok r := by
  induction l with
  | nil => exact ⟨[], rfl⟩
  | cons a l ih =>
    obtain ⟨b, hb⟩ := h a (by simp)
    obtain ⟨r, hr⟩ := ih fun a ha => h a (List.mem_cons_of_mem _ ha)
    exact ⟨b :: r, by rw [List.mapM_cons, hb, hr]; rfl⟩

theorem interpFloats_error {x : List K} {y : List (Option K)} {v : Option K} {e : Err}
    (h : interpFloats x y v = .error e) : e = .valueError := by
  unfold interpFloats at h
  dsimp only at h
  split_ifs at h
  · cases h; rfl
  · split at h
    · split_ifs at h
      cases h; rfl
    · cases h
    · cases h; rfl

theorem interpAll_error {x : List K} {y vs : List (Option K)} {e : Err}
    (h : interpAll x y vs = .error e) : e = .valueError := by
  unfold interpAll at h
  induction vs with
  | nil => cases h
  | cons v vs ih =>
    rw [List.mapM_cons] at h
    cases hv : interpFloats x y v with
    | error e' =>
      rw [hv] at h
      cases h
      exact interpFloats_error hv
    | ok b =>
      rw [hv] at h
      cases hr : vs.mapM (interpFloats x y) with
      | error e' =>
        have h' : (vs.mapM (interpFloats x y)).bind _ = .error e := h
        rw [hr] at h'
        cases h'
        exact ih hr
      | ok r =>
        have h' : (vs.mapM (interpFloats x y)).bind _ = .error e := h
        rw [hr] at h'
        cases h'

/-- The running sums. -/
theorem cumsumRows_get : ∀ (ls : List (List (Option K))) (acc : List K) (k c : ℕ),
    (∀ l ∈ ls, l.length = acc.length) → k < ls.length → (hc : c < acc.length) →
    ∃ h, (cumsumRows acc ls)[k]? = some h ∧ h.length = acc.length ∧
      h[c]? = some (acc[c] + ((ls.take (k + 1)).map fun l => ((l[c]?).getD none).getD 0).sum)
  | [], _, _, _, _, hk, _ => by simp at hk
  | l :: ls, acc, k, c, hl, hk, hc => by
    have hlen : (List.zipWith (fun a (v : Option K) => a + v.getD 0) acc l).length = acc.length := by
      rw [List.length_zipWith, hl l (by simp), min_self]
    have hlc : c < l.length := by rw [hl l (by simp)]; exact hc
    have hval : (List.zipWith (fun a (v : Option K) => a + v.getD 0) acc l)[c]'(by rw [hlen]; exact hc)
        = acc[c] + (((l[c]?).getD none).getD 0) := by
      rw [List.getElem_zipWith, List.getElem?_eq_getElem hlc]
      rfl
    rw [cumsumRows]
    cases k with
    | zero =>
      refine ⟨_, rfl, hlen, ?_⟩
      rw [List.getElem?_eq_getElem (by rw [hlen]; exact hc), hval]
      simp
    | succ k =>
      obtain ⟨h, h1, h2, h3⟩ := cumsumRows_get ls _ k c
        (fun m hm => by rw [hlen]; exact hl m (List.mem_cons_of_mem _ hm))
        (by simpa using hk) (by rw [hlen]; exact hc)
      refine ⟨h, by rw [List.getElem?_cons_succ]; exact h1, h2.trans hlen, ?_⟩
      rw [h3, hval, List.take_succ_cons, List.map_cons, List.sum_cons, add_assoc]

theorem cumsumRows_length (ls : List (List (Option K))) (acc : List K) :
    (cumsumRows acc ls).length = ls.length := by
  induction ls generalizing acc with
  | nil => rfl
  | cons l ls ih => rw [cumsumRows, List.length_cons, ih, List.length_cons]

theorem flatRow_get {α : Type*} (cols row c : ℕ) (l : List α) (hc : c < cols) :
    (flatRow cols row l)[c]? = l[row * cols + c]? := by
  unfold flatRow
  rw [List.getElem?_take, if_pos hc, List.getElem?_drop]

theorem flatRow_length {α : Type*} {cols row rows : ℕ} {l : List α} (hl : l.length = rows * cols)
    (hr : row < rows) : (flatRow cols row l).length = cols := by
  unfold flatRow
  rw [List.length_take, List.length_drop, hl]
  have : (row + 1) * cols ≤ rows * cols := Nat.mul_le_mul_right _ hr
  rw [Nat.succ_mul] at this
  omega

theorem pyIndex_lt {n : ℕ} {i : ℤ} (h1 : i < n) (h2 : -(n : ℤ) ≤ i) : pyIndex n i < n := by
  unfold pyIndex
  split_ifs <;> omega

theorem plotRow_ok {R : ℕ} {row : Option ℤ} {r : ℤ} (h : plotRow R row = .ok r) :
    (row = none ∧ r = (R / 2 : ℕ)) ∨ (row = some r ∧ r < R ∧ -(R : ℤ) ≤ r) := by
  cases row with
  | none => left; cases h; exact ⟨rfl, rfl⟩
  | some r' =>
    right
    simp only [plotRow] at h
    split_ifs at h with hr
    cases h
    push Not at hr
    exact ⟨rfl, hr.1, hr.2⟩

theorem plotRow_lt {R : ℕ} {row : Option ℤ} {r : ℤ} (hR : 0 < R) (h : plotRow R row = .ok r) :
    r < R ∧ -(R : ℤ) ≤ r := by
  rcases plotRow_ok h with ⟨-, rfl⟩ | ⟨-, h⟩
  · constructor <;> omega
  · exact h

end Verif
