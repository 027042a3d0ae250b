import Verif.Lemmas.Prelude
import Mathlib.Data.Rat.Floor
import Verif.Model.Interp

/-!
# Properties of tabulated curves (C26)
-/

set_option autoImplicit false
set_option linter.unusedSectionVars false

namespace Verif.Props

open Verif

variable {K : Type*} [Field K] [LinearOrder K] [IsStrictOrderedRing K]

/-- On the interval between two neighbouring rows of the table, `linearAt` is the straight line
through them. -/
theorem linearAt_segment (l r : List (K × K)) (p q : K × K)
    (h : ((l ++ p :: q :: r).map Prod.fst).Pairwise (· < ·)) (x : K) (hp : p.1 ≤ x)
    (hq : x ≤ q.1) :
    linearAt (l ++ p :: q :: r) x = (q.2 - p.2) / (q.1 - p.1) * (x - p.1) + p.2 := by
  induction l with
  | nil => simp only [List.nil_append, linearAt]; rw [if_pos (.inl hq)]
  | cons a l ih =>
    have htail : ((l ++ p :: q :: r).map Prod.fst).Pairwise (· < ·) := by
      rw [List.cons_append, List.map_cons, List.pairwise_cons] at h; exact h.2
    rw [List.cons_append, List.map_cons, List.pairwise_cons] at h
    cases l with
    | nil =>
      rw [List.nil_append] at h ih htail
      simp only [List.cons_append, List.nil_append, linearAt]
      by_cases hx : x ≤ p.1
      · have hxe : x = p.1 := le_antisymm hx hp
        have hne : p.1 - a.1 ≠ 0 := by
          have := h.1 p.1 (by simp)
          exact sub_ne_zero.mpr this.ne'
        rw [if_pos (.inl hx), hxe, sub_self, mul_zero, zero_add,
          div_mul_cancel₀ _ hne]
        ring
      · rw [if_neg (by push Not; exact ⟨lt_of_not_ge hx, by simp⟩)]
        have := ih htail
        simpa only [List.nil_append, linearAt] using this
    | cons b l =>
      rw [List.cons_append] at ih h ⊢
      have hb : b.1 < p.1 := by
        rw [List.cons_append, List.map_cons, List.pairwise_cons] at htail
        exact htail.1 p.1 (by simp)
      rw [List.cons_append, linearAt]
      rw [if_neg (by push Not; exact ⟨lt_of_lt_of_le hb hp, by simp⟩)]
      exact ih htail

/-- A sorted table of at least two rows has a pair of neighbouring rows around every abscissa in
its range. -/
theorem exists_segment (t : List (K × K)) (x : K) (p0 pn : K × K) (hlen : 2 ≤ t.length)
    (h0 : t.head? = some p0) (hn : t.getLast? = some pn) (hlo : p0.1 ≤ x) (hhi : x ≤ pn.1) :
    ∃ l r p q, t = l ++ p :: q :: r ∧ p.1 ≤ x ∧ x ≤ q.1 := by
  induction t generalizing p0 with
  | nil => simp at hlen
  | cons a t ih =>
    simp only [List.head?_cons, Option.some.injEq] at h0
    subst h0
    cases t with
    | nil => simp at hlen
    | cons b t =>
      by_cases hb : x ≤ b.1
      · exact ⟨[], t, a, b, rfl, hlo, hb⟩
      · push Not at hb
        cases t with
        | nil =>
          simp only [List.getLast?_cons_cons, List.getLast?_singleton, Option.some.injEq] at hn
          subst hn
          exact absurd hhi (not_le.mpr hb)
        | cons d t =>
          obtain ⟨l, r, p, q, e, h1, h2⟩ := ih b (by simp) rfl
            (by rw [List.getLast?_cons_cons] at hn; exact hn) hb.le
          exact ⟨a :: l, r, p, q, by rw [e]; rfl, h1, h2⟩

/-- C26: the curve of a table is defined exactly from the first to the last abscissa, and raises
`ValueError` elsewhere. -/
theorem interp_defined_iff (t : List (K × K)) (p0 pn : K × K) (h0 : t.head? = some p0)
    (hn : t.getLast? = some pn) (x : K) :
    ((∃ v, interpTable t x = .ok v) ↔ p0.1 ≤ x ∧ x ≤ pn.1) ∧
    (¬ (p0.1 ≤ x ∧ x ≤ pn.1) → interpTable t x = .error .valueError) := by
  unfold interpTable
  rw [h0, hn]
  dsimp only
  by_cases h : x < p0.1 ∨ pn.1 < x
  · rw [if_pos h]
    refine ⟨⟨fun ⟨v, hv⟩ => (by cases hv), fun ⟨h1, h2⟩ => ?_⟩, fun _ => rfl⟩
    rcases h with h | h
    · exact absurd h1 (not_le.mpr h)
    · exact absurd h2 (not_le.mpr h)
  · rw [if_neg h]
    push Not at h
    exact ⟨⟨fun _ => h, fun _ => ⟨_, rfl⟩⟩, fun hc => absurd h hc⟩

/-- C26: a file with fewer than two lines cannot be used. -/
theorem table_too_short (t : List (K × K)) :
    ((∃ f, tableCurve t = .ok f) ↔ 2 ≤ t.length) ∧
      (t.length < 2 → tableCurve t = .error .indexError) := by
  unfold tableCurve
  by_cases h : t.length < 2
  · rw [if_pos h]
    exact ⟨⟨fun ⟨f, hf⟩ => (by cases hf), fun h' => by omega⟩, fun _ => rfl⟩
  · rw [if_neg h]
    exact ⟨⟨fun _ => by omega, fun _ => ⟨_, rfl⟩⟩, fun h' => absurd h' h⟩

/-- C26: between two neighbouring rows the value divides the two tabulated values in the same
proportion as the abscissa divides the interval. -/
theorem interp_between (l r : List (K × K)) (p q : K × K)
    (h : ((l ++ p :: q :: r).map Prod.fst).Pairwise (· < ·)) (s : K) (h0 : 0 ≤ s) (h1 : s ≤ 1) :
    interpTable (l ++ p :: q :: r) (p.1 + s * (q.1 - p.1)) = .ok (p.2 + s * (q.2 - p.2)) := by
  have hpq : p.1 < q.1 := by
    rw [List.map_append, List.pairwise_append] at h
    have := h.2.1
    rw [List.map_cons, List.pairwise_cons] at this
    exact this.1 q.1 (by simp)
  have hd : 0 < q.1 - p.1 := sub_pos.mpr hpq
  have hlo : p.1 ≤ p.1 + s * (q.1 - p.1) := by have := mul_nonneg h0 hd.le; linarith
  have hhi : p.1 + s * (q.1 - p.1) ≤ q.1 := by
    have := mul_le_mul_of_nonneg_right h1 hd.le; linarith
  have hhead : ∃ p0, (l ++ p :: q :: r).head? = some p0 ∧ p0.1 ≤ p.1 := by
    cases l with
    | nil => exact ⟨p, rfl, le_refl _⟩
    | cons a l =>
      rw [List.cons_append, List.map_cons, List.pairwise_cons] at h
      exact ⟨a, rfl, (h.1 p.1 (by simp)).le⟩
  have hlast : ∃ pn, (l ++ p :: q :: r).getLast? = some pn ∧ q.1 ≤ pn.1 := by
    rw [List.map_append, List.pairwise_append] at h
    have h2 := h.2.1
    rw [List.map_cons, List.pairwise_cons, List.map_cons, List.pairwise_cons] at h2
    cases hr : r.getLast? with
    | none =>
      rw [List.getLast?_eq_none_iff] at hr
      subst hr
      exact ⟨q, by simp, le_refl _⟩
    | some b =>
      have hb : b ∈ r := List.mem_of_getLast? hr
      refine ⟨b, ?_, (h2.2.1 b.1 (List.mem_map_of_mem hb)).le⟩
      rw [List.getLast?_append, List.getLast?_cons, List.getLast?_cons, hr]
      rfl
  obtain ⟨p0, e0, g0⟩ := hhead
  obtain ⟨pn, en, gn⟩ := hlast
  unfold interpTable
  rw [e0, en]
  dsimp only
  rw [if_neg (by push Not; exact ⟨g0.trans hlo, hhi.trans gn⟩), linearAt_segment l r p q h _ hlo hhi]
  congr 1
  field_simp
  ring

/-- C26: the curve goes through every row of the table. -/
theorem interp_at_node (t : List (K × K)) (hlen : 2 ≤ t.length)
    (h : (t.map Prod.fst).Pairwise (· < ·)) (p : K × K) (hp : p ∈ t) :
    interpTable t p.1 = .ok p.2 := by
  obtain ⟨l, r, rfl⟩ := List.append_of_mem hp
  cases r with
  | cons q r =>
    have := interp_between l r p q h 0 le_rfl zero_le_one
    simpa using this
  | nil =>
    rcases List.eq_nil_or_concat l with rfl | ⟨l', a, rfl⟩
    · simp at hlen
    · rw [List.concat_eq_append, List.append_assoc, List.singleton_append] at h ⊢
      have := interp_between l' [] a p h 1 zero_le_one le_rfl
      simpa using this

/-- C26: no overshoot: bounds of the tabulated values are bounds of the curve. -/
theorem interp_bounds (t : List (K × K)) (hlen : 2 ≤ t.length)
    (h : (t.map Prod.fst).Pairwise (· < ·)) (lo hi : K) (hb : ∀ p ∈ t, lo ≤ p.2 ∧ p.2 ≤ hi)
    (x v : K) (hv : interpTable t x = .ok v) : lo ≤ v ∧ v ≤ hi := by
  cases h0 : t.head? with
  | none => rw [List.head?_eq_none_iff] at h0; subst h0; simp at hlen
  | some p0 =>
    cases hn : t.getLast? with
    | none => rw [List.getLast?_eq_none_iff] at hn; subst hn; simp at hlen
    | some pn =>
      obtain ⟨hlo, hhi⟩ := (interp_defined_iff t p0 pn h0 hn x).1.mp ⟨v, hv⟩
      obtain ⟨l, r, p, q, rfl, h1, h2⟩ := exists_segment t x p0 pn hlen h0 hn hlo hhi
      have hpq : p.1 < q.1 := by
        rw [List.map_append, List.pairwise_append] at h
        have := h.2.1
        rw [List.map_cons, List.pairwise_cons] at this
        exact this.1 q.1 (by simp)
      have hd : 0 < q.1 - p.1 := sub_pos.mpr hpq
      set s := (x - p.1) / (q.1 - p.1) with hs
      have hs0 : 0 ≤ s := div_nonneg (sub_nonneg.mpr h1) hd.le
      have hs1 : s ≤ 1 := (div_le_one hd).mpr (by linarith)
      have hx : x = p.1 + s * (q.1 - p.1) := by rw [hs, div_mul_cancel₀ _ hd.ne']; ring
      rw [hx, interp_between l r p q h s hs0 hs1] at hv
      cases hv
      obtain ⟨p1, p2⟩ := hb p (by simp)
      obtain ⟨q1, q2⟩ := hb q (by simp)
      constructor
      · nlinarith [mul_nonneg hs0 (sub_nonneg.mpr q1), mul_nonneg (sub_nonneg.mpr hs1) (sub_nonneg.mpr p1)]
      · nlinarith [mul_nonneg hs0 (sub_nonneg.mpr q2), mul_nonneg (sub_nonneg.mpr hs1) (sub_nonneg.mpr p2)]

/-- C26: a table whose values do not decrease gives a curve that does not decrease. -/
theorem interp_monotone (t : List (K × K)) (hlen : 2 ≤ t.length)
    (h : (t.map Prod.fst).Pairwise (· < ·)) (hm : (t.map Prod.snd).Pairwise (· ≤ ·))
    (x y v w : K) (hxy : x ≤ y) (hv : interpTable t x = .ok v) (hw : interpTable t y = .ok w) :
    v ≤ w := by
  cases h0 : t.head? with
  | none => rw [List.head?_eq_none_iff] at h0; subst h0; simp at hlen
  | some p0 =>
    cases hn : t.getLast? with
    | none => rw [List.getLast?_eq_none_iff] at hn; subst hn; simp at hlen
    | some pn =>
      obtain ⟨hlo, hhi⟩ := (interp_defined_iff t p0 pn h0 hn x).1.mp ⟨v, hv⟩
      obtain ⟨hlo', hhi'⟩ := (interp_defined_iff t p0 pn h0 hn y).1.mp ⟨w, hw⟩
      obtain ⟨l, r, p, q, rfl, h1, h2⟩ := exists_segment t x p0 pn hlen h0 hn hlo hhi
      have hsplit := h
      rw [List.map_append, List.pairwise_append] at hsplit
      have hpr := hsplit.2.1
      rw [List.map_cons, List.pairwise_cons] at hpr
      have hpq : p.1 < q.1 := hpr.1 q.1 (by simp)
      have hd : 0 < q.1 - p.1 := sub_pos.mpr hpq
      have hmsplit := hm
      rw [List.map_append, List.pairwise_append] at hmsplit
      have hmr := hmsplit.2.1
      rw [List.map_cons, List.pairwise_cons] at hmr
      have hpq2 : p.2 ≤ q.2 := hmr.1 q.2 (by simp)
      have val : ∀ z u, p.1 ≤ z → z ≤ q.1 → interpTable (l ++ p :: q :: r) z = .ok u →
          u = p.2 + (z - p.1) / (q.1 - p.1) * (q.2 - p.2) := by
        intro z u hz1 hz2 hu
        have hz : z = p.1 + (z - p.1) / (q.1 - p.1) * (q.1 - p.1) := by
          rw [div_mul_cancel₀ _ hd.ne']; ring
        have := interp_between l r p q h ((z - p.1) / (q.1 - p.1))
          (div_nonneg (sub_nonneg.mpr hz1) hd.le) ((div_le_one hd).mpr (by linarith))
        rw [← hz, hu] at this
        exact Except.ok.inj this
      have hvv := val x v h1 h2 hv
      by_cases hy : y ≤ q.1
      · have hww := val y w (h1.trans hxy) hy hw
        rw [hvv, hww]
        have : (x - p.1) / (q.1 - p.1) ≤ (y - p.1) / (q.1 - p.1) :=
          div_le_div_of_nonneg_right (by linarith) hd.le
        have := mul_le_mul_of_nonneg_right this (sub_nonneg.mpr hpq2)
        linarith
      · push Not at hy
        -- beyond the segment: the values there are at least `q.2`
        have hvq : v ≤ q.2 := by
          rw [hvv]
          have : (x - p.1) / (q.1 - p.1) ≤ 1 := (div_le_one hd).mpr (by linarith)
          have := mul_le_mul_of_nonneg_right this (sub_nonneg.mpr hpq2)
          linarith
        have hqr : (((q :: r)).map Prod.fst).Pairwise (· < ·) := hpr.2
        have hrne : r ≠ [] := by
          rintro rfl
          rw [List.getLast?_append] at hn
          simp only [List.getLast?_cons_cons, List.getLast?_singleton] at hn
          cases hn
          exact absurd hhi' (not_le.mpr hy)
        have hlen' : 2 ≤ (q :: r).length := by
          cases r with
          | nil => exact absurd rfl hrne
          | cons a r => simp
        have hlast : (q :: r).getLast? = some pn := by
          cases r with
          | nil => exact absurd rfl hrne
          | cons a r =>
            rw [← hn]
            rw [List.getLast?_append, List.getLast?_cons_cons (a := p)]
            rw [List.getLast?_eq_some_getLast (by simp)]
            rfl
        obtain ⟨l2, r2, p2, q2, e2, g1, g2⟩ := exists_segment (q :: r) y q pn hlen' rfl hlast
          hy.le hhi'
        have eq2 : l ++ p :: q :: r = (l ++ p :: l2) ++ p2 :: q2 :: r2 := by
          rw [e2]; simp
        have hw2 : interpTable (q :: r) y = .ok w := by
          have hd2 : p2.1 < q2.1 := by
            rw [e2, List.map_append, List.pairwise_append] at hqr
            have := hqr.2.1
            rw [List.map_cons, List.pairwise_cons] at this
            exact this.1 q2.1 (by simp)
          have hdd : 0 < q2.1 - p2.1 := sub_pos.mpr hd2
          have hz : y = p2.1 + (y - p2.1) / (q2.1 - p2.1) * (q2.1 - p2.1) := by
            rw [div_mul_cancel₀ _ hdd.ne']; ring
          have b0 := div_nonneg (sub_nonneg.mpr g1) hdd.le
          have b1 : (y - p2.1) / (q2.1 - p2.1) ≤ 1 := (div_le_one hdd).mpr (by linarith)
          have i1 := interp_between l2 r2 p2 q2 (by rw [← e2]; exact hqr) _ b0 b1
          have i2 := interp_between (l ++ p :: l2) r2 p2 q2 (by rw [← eq2]; exact h) _ b0 b1
          rw [← hz] at i1 i2
          rw [← eq2, hw] at i2
          rw [e2, i1, ← Except.ok.inj i2]
        have := interp_bounds (q :: r) hlen' hqr q.2 (max q.2 ((r.map Prod.snd).foldr max q.2)) ?_ y w hw2
        · exact hvq.trans this.1
        · intro p' hp'
          rcases List.mem_cons.mp hp' with rfl | hp'
          · exact ⟨le_rfl, le_max_left _ _⟩
          · have hq2 := hmr.2
            rw [List.map_cons, List.pairwise_cons] at hq2
            refine ⟨hq2.1 p'.2 (List.mem_map_of_mem hp'), le_max_of_le_right ?_⟩
            have : ∀ (m : List K) (z : K), z ∈ m → z ≤ m.foldr max q.2 := by
              intro m
              induction m with
              | nil => intro z hz; cases hz
              | cons b m ih =>
                intro z hz
                rcases List.mem_cons.mp hz with rfl | hz
                · exact le_max_left _ _
                · exact le_max_of_le_right (ih z hz)
            exact this _ _ (List.mem_map_of_mem hp')

/-- A table of three rows. -/
def exTable : List (ℚ × ℚ) := [(0, 5), (10, -5), (30, 15)]

example : (exTable.map Prod.fst).Pairwise (· < ·) := by decide +kernel
example : [interpTable exTable 0, interpTable exTable 5, interpTable exTable 10,
    interpTable exTable 25, interpTable exTable 30].map (·.toOption) =
    [some 5, some 0, some (-5), some 10, some 15] := by decide +kernel
example : interpTable exTable (-1) = .error .valueError ∧
    interpTable exTable 31 = .error .valueError := ⟨rfl, rfl⟩

end Verif.Props
