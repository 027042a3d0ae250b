import Verif.Props.Shoreline
import Verif.Props.Symmetry
import Verif.Spec.Retreat

/-! # C144: a higher sea moves the shoreline landward -/

set_option autoImplicit false
set_option linter.unusedSectionVars false

namespace Verif.Props

open Verif Verif.Spec

variable {K σ : Type*} {R C : ℕ} [Field K] [LinearOrder K] [IsStrictOrderedRing K]

/-! ### scipy's bisect -/

theorem scipyBisectLoop_mono {f g : Curve K} (hfg : ∀ v a b, f v = .ok a → g v = .ok b → b ≤ a)
    (xtol rtol : K) {fa ga : K} (hfa : 0 ≤ fa) (hga : 0 ≤ ga) :
    ∀ (n : ℕ) (a dm : K), 0 ≤ dm → ∀ m m', scipyBisectLoop f xtol rtol fa n a dm = .ok m →
      scipyBisectLoop g xtol rtol ga n a dm = .ok m' → m' ≤ m := by
  have hsf : signbit fa = false := by simp [signbit, hfa]
  have hsg : signbit ga = false := by simp [signbit, hga]
  intro n
  induction n with
  | zero => intro a dm _ m m' h; cases h
  | succ n ih =>
    intro a dm hd m m' h h'
    rw [scipyBisectLoop] at h h'
    dsimp only at h h'
    cases hv : f (a + dm / 2) with
    | error e => rw [hv] at h; cases h
    | ok v =>
      cases hv' : g (a + dm / 2) with
      | error e => rw [hv'] at h'; cases h'
      | ok v' =>
        rw [hv] at h
        rw [hv'] at h'
        dsimp only at h h'
        rw [hsf] at h
        rw [hsg] at h'
        have hle := hfg _ _ _ hv hv'
        have hd2 : 0 ≤ dm / 2 := by linarith
        by_cases ht : |dm / 2| < xtol + rtol * |a + dm / 2|
        · rw [if_pos (.inr ht)] at h h'
          cases h
          cases h'
          exact le_rfl
        · have hup : ∀ v : K, 0 < v → signbit v = false := fun v hv => by simp [signbit, hv.le]
          have hdown : ∀ v : K, v < 0 → ¬ signbit v = false := fun v hv => by simp [signbit, hv]
          rcases lt_trichotomy v' 0 with hv0' | hv0' | hv0'
          · rw [if_neg (by rintro (h | h); exacts [hv0'.ne h, ht h]), if_neg (hdown _ hv0')] at h'
            have hm' := (scipyBisectLoop_mem g xtol rtol ga n a (dm / 2) hd2 m' h').2
            rcases lt_trichotomy v 0 with hv0 | hv0 | hv0
            · rw [if_neg (by rintro (h | h); exacts [hv0.ne h, ht h]), if_neg (hdown _ hv0)] at h
              exact ih _ _ hd2 _ _ h h'
            · rw [if_pos (.inl hv0)] at h
              cases h
              exact hm'
            · rw [if_neg (by rintro (h | h); exacts [hv0.ne' h, ht h]), if_pos (hup _ hv0)] at h
              exact hm'.trans (scipyBisectLoop_mem f xtol rtol fa n _ (dm / 2) hd2 m h).1
          · rw [if_pos (.inl hv0')] at h'
            cases h'
            rcases lt_trichotomy v 0 with hv0 | hv0 | hv0
            · linarith
            · rw [if_pos (.inl hv0)] at h
              cases h
              exact le_rfl
            · rw [if_neg (by rintro (h | h); exacts [hv0.ne' h, ht h]), if_pos (hup _ hv0)] at h
              exact (scipyBisectLoop_mem f xtol rtol fa n _ (dm / 2) hd2 m h).1
          · have hv0 : 0 < v := by linarith
            rw [if_neg (by rintro (h | h); exacts [hv0'.ne' h, ht h]), if_pos (hup _ hv0')] at h'
            rw [if_neg (by rintro (h | h); exacts [hv0.ne' h, ht h]), if_pos (hup _ hv0)] at h
            exact ih _ _ hd2 _ _ h h'

theorem scipyBisect_mono {f g : Curve K} (hfg : ∀ v a b, f v = .ok a → g v = .ok b → b ≤ a)
    {xtol rtol a b fa fb ga gb m m' : K} (hab : a ≤ b) (hfa : f a = .ok fa) (hfb : f b = .ok fb)
    (hga : g a = .ok ga) (hgb : g b = .ok gb) (h1 : 0 ≤ fa) (h2 : fb < 0) (h3 : 0 ≤ ga)
    (h4 : gb < 0) (h : scipyBisect f xtol rtol a b = .ok m)
    (h' : scipyBisect g xtol rtol a b = .ok m') : m' ≤ m := by
  have hm := scipyBisect_mem hab h
  unfold scipyBisect at h h'
  rw [hfa, hfb] at h
  rw [hga, hgb] at h'
  dsimp only at h h'
  rw [if_neg h2.ne] at h
  rw [if_neg h4.ne] at h'
  by_cases hg0 : ga = 0
  · rw [if_pos hg0] at h'
    cases h'
    exact hm.1
  · have := hfg _ _ _ hfa hga
    have hgp : 0 < ga := lt_of_le_of_ne h3 (Ne.symm hg0)
    have hfp : 0 < fa := by linarith
    have s1 : ¬ signbit fa = signbit fb := by simp [signbit, h1, h2]
    have s2 : ¬ signbit ga = signbit gb := by simp [signbit, h3, h4]
    rw [if_neg hfp.ne', if_neg s1] at h
    rw [if_neg hgp.ne', if_neg s2] at h'
    exact scipyBisectLoop_mono hfg xtol rtol h1 h3 _ _ _ (by linarith) _ _ h h'

/-! ### Shorelines -/

/-- The shoreline of a profile with land first and water later: what is solved. -/
theorem shorelineRow_solves {kind : InterpKind K} {xtol rtol : K} {x z : List K} {sl s : K}
    (hlen : x.length = z.length) (hrow : LandFirst z sl) (hdry : ¬ ∀ v ∈ z, sl ≤ v)
    (hwet : ¬ ∀ v ∈ z, v < sl) (h : shorelineRow kind xtol rtol x z sl = .ok s) :
    ∃ i, ∃ hi : i < z.length, 0 < i ∧ z[i] < sl ∧
      (∀ (j : ℕ) (hj : j < z.length), j < i → sl ≤ z[j]) ∧
      ∃ f, kind (x.zip (z.map fun v => v - sl)) = .ok f ∧
        scipyBisect f xtol rtol x[i - 1] x[i] = .ok s := by
  obtain ⟨z0, hz0, hz0d⟩ := hrow.resolve_right hwet
  cases hidx : shorelineIndexRow z.length z sl with
  | error e =>
    have h1 := shoreline_index_error_iff z sl
    have := h1.2 e hidx
    subst this
    rcases h1.1.mp hidx with h | h
    · exact absurd h hdry
    · exact absurd h hwet
  | ok i =>
    obtain ⟨⟨g1, g2⟩, g3, -⟩ := (shoreline_index_iff z sl i).mp hidx
    have hi0 : i ≠ 0 := by
      rintro rfl
      rw [List.head?_eq_getElem?, List.getElem?_eq_getElem g1] at hz0
      cases hz0
      exact absurd g2 (not_lt.mpr hz0d)
    refine ⟨i, g1, by omega, g2, g3, ?_⟩
    unfold shorelineRow at h
    rw [hlen, hidx] at h
    dsimp only at h
    cases hk : kind (x.zip (z.map fun v => v - sl)) with
    | error e => rw [hk] at h; cases h
    | ok f =>
      have hp : pyPrev x i = some x[i - 1] := by
        unfold pyPrev; rw [if_neg hi0, List.getElem?_eq_getElem (by omega)]
      rw [hk] at h
      dsimp only at h
      rw [hp, List.getElem?_eq_getElem (by omega)] at h
      exact ⟨f, rfl, h⟩

/-- Two profiles with two seas: the one that is nowhere higher above its sea has its shoreline
nowhere further out. -/
theorem shoreline_lower {kind : InterpKind K} {xtol rtol : K} {x z z' : List K} {sl sl' s s' : K}
    (hx : x.Pairwise (· < ·)) (hlen : x.length = z.length) (hlen' : x.length = z'.length)
    (hrel : ∀ (j : ℕ) (hj : j < z.length) (hj' : j < z'.length), z'[j] - sl' ≤ z[j] - sl)
    (hnodes : ∀ f, kind (x.zip (z.map fun v => v - sl)) = .ok f →
      Interpolates kind (profileTable x z sl) f)
    (hnodes' : ∀ f, kind (x.zip (z'.map fun v => v - sl')) = .ok f →
      Interpolates kind (profileTable x z' sl') f)
    (hkind : ∀ f g, kind (x.zip (z.map fun v => v - sl)) = .ok f →
      kind (x.zip (z'.map fun v => v - sl')) = .ok g →
      ∀ v a b, f v = .ok a → g v = .ok b → b ≤ a)
    (hrow : LandFirst z sl) (hrow' : LandFirst z' sl')
    (h : shorelineRow kind xtol rtol x z sl = .ok s)
    (h' : shorelineRow kind xtol rtol x z' sl' = .ok s') : s' ≤ s := by
  by_cases hne : x = []
  · subst hne
    have hz : z = [] := List.length_eq_zero_iff.1 hlen.symm
    subst hz
    simp [shorelineRow, shorelineIndexRow] at h
  have hxl : 0 < x.length := List.length_pos_iff.2 hne
  obtain ⟨x0, hx0⟩ : ∃ x0, x.head? = some x0 := ⟨_, List.head?_eq_some_head hne⟩
  obtain ⟨xn, hxn⟩ : ∃ xn, x.getLast? = some xn := ⟨_, List.getLast?_eq_some_getLast hne⟩
  have hzne : z ≠ [] := by rintro rfl; simp at hlen; exact hne hlen
  have hzne' : z' ≠ [] := by rintro rfl; simp at hlen'; exact hne hlen'
  have hsep := shoreline_separates kind xtol rtol x z sl hx hlen hrow s h
  have hsep' := shoreline_separates kind xtol rtol x z' sl' hx hlen' hrow' s' h'
  have b := hsep.2 x0 xn hx0 hxn
  have b' := hsep'.2 x0 xn hx0 hxn
  by_cases hwet' : ∀ v ∈ z', v < sl'
  · obtain ⟨y, hy, e⟩ := (shoreline_all kind xtol rtol x z' sl' hlen' hzne').1 hwet'
    rw [hx0] at hy
    cases hy
    rw [h'] at e
    cases e
    exact b.1
  by_cases hdry : ∀ v ∈ z, sl ≤ v
  · obtain ⟨y, hy, e⟩ := (shoreline_all kind xtol rtol x z sl hlen hzne).2 hdry
    rw [hxn] at hy
    cases hy
    rw [h] at e
    cases e
    exact b'.2
  have hwet : ¬ ∀ v ∈ z, v < sl := by
    intro hw
    refine hwet' fun v hv => ?_
    obtain ⟨j, hj, rfl⟩ := List.getElem_of_mem hv
    have h1 := hrel j (by omega) hj
    have h2 := hw z[j] (List.getElem_mem _)
    linarith
  have hdry' : ¬ ∀ v ∈ z', sl' ≤ v := by
    intro hd
    refine hdry fun v hv => ?_
    obtain ⟨j, hj, rfl⟩ := List.getElem_of_mem hv
    have h1 := hrel j hj (by omega)
    have h2 := hd z'[j] (List.getElem_mem _)
    linarith
  obtain ⟨i, hi, hi0, hiw, hif, f, hf, hb⟩ := shorelineRow_solves hlen hrow hdry hwet h
  obtain ⟨i', hi', hi0', hiw', hif', g, hg, hb'⟩ := shorelineRow_solves hlen' hrow' hdry' hwet' h'
  have hle : i' ≤ i := by
    by_contra hn
    have h1 := hif' i (by omega) (by omega)
    have h2 := hrel i hi (by omega)
    linarith
  have hmono : ∀ (a b : ℕ) (ha : a < x.length) (hb : b < x.length), a ≤ b → x[a] ≤ x[b] := by
    intro a b ha hb hab
    rcases Nat.lt_or_eq_of_le hab with hlt | rfl
    · exact (List.pairwise_iff_getElem.mp hx a b ha hb hlt).le
    · exact le_rfl
  rcases Nat.lt_or_eq_of_le hle with hlt | rfl
  · have h1 := (scipyBisect_mem (hmono _ _ _ _ (by omega)) hb).1
    have h2 := (scipyBisect_mem (hmono _ _ _ _ (by omega)) hb').2
    have h3 := hmono i' (i - 1) (by omega) (by omega) (by omega)
    exact h2.trans (h3.trans h1)
  · have n1 := (hnodes f hf).nodes _ (mem_profileTable (sl := sl) (i := i' - 1) (by omega) (by omega))
    have n2 := (hnodes f hf).nodes _ (mem_profileTable (sl := sl) (i := i') (by omega) hi)
    have n3 := (hnodes' g hg).nodes _
      (mem_profileTable (sl := sl') (i := i' - 1) (by omega) (by omega))
    have n4 := (hnodes' g hg).nodes _ (mem_profileTable (sl := sl') (i := i') (by omega) hi')
    refine scipyBisect_mono (hkind f g hf hg) (hmono _ _ _ _ (by omega)) n1 n2 n3 n4 ?_ ?_ ?_ ?_ hb hb'
    · have := hif (i' - 1) (by omega) (by omega); dsimp only; linarith
    · dsimp only; linarith
    · have := hif' (i' - 1) (by omega) (by omega); dsimp only; linarith
    · dsimp only; linarith

/-- C144 (partial): a higher sea does not move the shoreline seaward. For every profile that starts
on land (or is all under water) at both sea levels, every kind of interpolation that goes through
the nodes and keeps constants (linear and cubic among them) and any tolerances of scipy's `bisect`.
Missing: profiles that start under water and have land further out (`higher_sea_seaward`). -/
theorem higher_sea_partial {kind : InterpKind K} (hkind : KeepsConstants kind) {x z : List K}
    (hx : x.Pairwise (· < ·)) (hlen : x.length = z.length)
    (hnodes : ∀ sl f, kind (profileTable x z sl) = .ok f →
      Interpolates kind (profileTable x z sl) f)
    {sl sl' : K} (hsl : sl ≤ sl') (hrow : LandFirst z sl) (hrow' : LandFirst z sl')
    {xtol rtol s s' : K} (h : shorelineRow kind xtol rtol x z sl = .ok s)
    (h' : shorelineRow kind xtol rtol x z sl' = .ok s') : s' ≤ s := by
  refine shoreline_lower hx hlen hlen (fun j hj _ => by linarith) (hnodes sl) (hnodes sl') ?_ hrow
    hrow' h h'
  intro f g hf hg v a b ha hb
  have hmap : (z.map fun v => v - sl').map id = (z.map fun v => v - sl).map fun v => v - (sl' - sl) := by
    rw [List.map_map, List.map_map]
    refine List.map_congr_left fun v _ => ?_
    simp
  rw [List.map_id] at hmap
  rw [hmap] at hg
  have := hkind x _ _ f g hf hg v a b ha hb
  linarith

/-! ### Linear interpolation -/

theorem linearAt_le : ∀ (x z z' : List K), x.Pairwise (· < ·) → x.length = z.length →
    x.length = z'.length →
    (∀ (j : ℕ) (hj : j < z.length) (hj' : j < z'.length), z[j] ≤ z'[j]) → ∀ v : K,
    (∀ a ∈ x.head?, a ≤ v) → (∀ a ∈ x.getLast?, v ≤ a) →
    linearAt (x.zip z) v ≤ linearAt (x.zip z') v := by
  intro x
  induction x with
  | nil =>
    intro z z' _ _ _ _ v _ _
    simp [linearAt]
  | cons p x ih =>
    intro z z' hx hl hl' hz v h0 hn
    obtain ⟨a, z, rfl⟩ : ∃ a t, z = a :: t := by
      cases z with
      | nil => simp at hl
      | cons a t => exact ⟨a, t, rfl⟩
    obtain ⟨a', z', rfl⟩ : ∃ a t, z' = a :: t := by
      cases z' with
      | nil => simp at hl'
      | cons a t => exact ⟨a, t, rfl⟩
    have ha : a ≤ a' := hz 0 (by simp) (by simp)
    simp only [List.length_cons, Nat.add_right_cancel_iff] at hl hl'
    cases x with
    | nil =>
      simp only [List.zip_cons_cons, List.zip_nil_left, linearAt]
      exact ha
    | cons q x =>
      obtain ⟨b, z, rfl⟩ : ∃ a t, z = a :: t := by
        cases z with
        | nil => simp at hl
        | cons a t => exact ⟨a, t, rfl⟩
      obtain ⟨b', z', rfl⟩ : ∃ a t, z' = a :: t := by
        cases z' with
        | nil => simp at hl'
        | cons a t => exact ⟨a, t, rfl⟩
      have hb : b ≤ b' := hz 1 (by simp) (by simp)
      have hpq : p < q := (List.pairwise_cons.1 hx).1 q List.mem_cons_self
      have hpv : p ≤ v := h0 p rfl
      simp only [List.length_cons, Nat.add_right_cancel_iff] at hl hl'
      have hnil : x.zip z = [] ↔ x = [] := by
        rw [← List.length_eq_zero_iff, List.length_zip, ← hl, min_self, List.length_eq_zero_iff]
      have hnil' : x.zip z' = [] ↔ x = [] := by
        rw [← List.length_eq_zero_iff, List.length_zip, ← hl', min_self, List.length_eq_zero_iff]
      simp only [List.zip_cons_cons, linearAt, hnil, hnil']
      by_cases hc : v ≤ q ∨ x = []
      · rw [if_pos hc, if_pos hc]
        have hvq : v ≤ q := by
          rcases hc with h | rfl
          · exact h
          · exact hn q rfl
        have hw : 0 < q - p := by linarith
        have key : ∀ a b : K, (b - a) / (q - p) * (v - p) + a =
            (a * (q - v) + b * (v - p)) / (q - p) := by
          intro a b
          field_simp
          ring
        rw [key, key]
        refine div_le_div_of_nonneg_right ?_ hw.le
        have h1 := mul_le_mul_of_nonneg_right ha (sub_nonneg.2 hvq)
        have h2 := mul_le_mul_of_nonneg_right hb (sub_nonneg.2 hpv)
        linarith
      · rw [if_neg hc, if_neg hc]
        push Not at hc
        have := ih (b :: z) (b' :: z') (List.pairwise_cons.1 hx).2 (by simp [hl]) (by simp [hl'])
          (fun j hj hj' => hz (j + 1) (by simpa using hj) (by simpa using hj')) v
          (by rintro a ⟨⟩; exact hc.1.le)
          (by
            intro a ha
            refine hn a ?_
            rw [List.getLast?_cons_cons]
            exact ha)
        simpa using this

theorem interpTable_range {t : List (K × K)} {v a : K} (h : interpTable t v = .ok a) :
    (∀ p ∈ t.head?, p.1 ≤ v) ∧ (∀ p ∈ t.getLast?, v ≤ p.1) ∧ a = linearAt t v := by
  unfold interpTable at h
  cases hh : t.head? with
  | none => rw [hh] at h; cases h
  | some p =>
    cases hl : t.getLast? with
    | none => rw [hh, hl] at h; cases h
    | some q =>
      rw [hh, hl] at h
      dsimp only at h
      split_ifs at h with hc
      cases h
      push Not at hc
      exact ⟨by rintro _ ⟨⟩; exact hc.1, by rintro _ ⟨⟩; exact hc.2, rfl⟩

/-- Linear interpolation keeps constants. -/
theorem linear_keeps_constants : KeepsConstants (linearKind (K := K)) := by
  intro x z d f g hf hg v a b ha hb
  cases hf
  cases hg
  obtain ⟨-, -, rfl⟩ := interpTable_range ha
  obtain ⟨-, -, rfl⟩ := interpTable_range hb
  have hne : x.zip z ≠ [] := by
    intro hz
    rw [hz] at ha
    cases ha
  have hmap : x.zip (z.map fun v => v - d) = (x.zip z).map fun p => (p.1 + 0, p.2 + -d) := by
    rw [List.zip_map_right]
    refine List.map_congr_left fun p _ => ?_
    simp [Prod.map, sub_eq_add_neg]
  rw [hmap, linearAt_moved 0 (-d) _ hne, sub_zero, sub_eq_add_neg]

/-- C144 (partial): of two surfaces with two seas the one that is nowhere lower above its sea does
not have its shoreline further in; with linear interpolation. Missing: as in `higher_sea_partial`,
and other kinds of interpolation. -/
theorem more_emerged_partial {x z z' : List K} {sl sl' : K} (hx : x.Pairwise (· < ·)) (hx2 : 2 ≤ x.length)
    (hlen : x.length = z.length) (hlen' : x.length = z'.length)
    (hz : ∀ (j : ℕ) (hj : j < z.length) (hj' : j < z'.length), z[j] - sl ≤ z'[j] - sl')
    (hrow : LandFirst z sl) (hrow' : LandFirst z' sl') {xtol rtol s s' : K}
    (h : shorelineRow linearKind xtol rtol x z sl = .ok s)
    (h' : shorelineRow linearKind xtol rtol x z' sl' = .ok s') : s ≤ s' := by
  have hint : ∀ (y : List K) (sl : K), x.length = y.length → ∀ f,
      linearKind (x.zip (y.map fun v => v - sl)) = .ok f →
      Interpolates linearKind (profileTable x y sl) f := by
    intro y sl hy f hf
    cases hf
    refine linear_interpolates _ (by simp [profileTable]; omega) ?_
    rw [profileTable, List.map_fst_zip (by simp; omega)]
    exact hx
  refine shoreline_lower hx hlen' hlen (fun j hj hj' => hz j hj' hj)
    (hint z' sl' hlen') (hint z sl hlen) ?_ hrow' hrow h' h
  intro f g hf hg v a b ha hb
  cases hf
  cases hg
  obtain ⟨h1, h2, rfl⟩ := interpTable_range ha
  obtain ⟨-, -, rfl⟩ := interpTable_range hb
  refine linearAt_le x _ _ hx (by simpa using hlen) (by simpa using hlen')
    (fun j hj hj' => ?_) v (fun p hp => ?_) fun p hp => ?_
  · simp only [List.length_map] at hj hj'
    have := hz j hj hj'
    simp only [List.getElem_map]
    exact this
  · rw [Option.mem_def, List.head?_eq_getElem?, List.getElem?_eq_getElem (by omega)] at hp
    cases hp
    refine h1 (x[0], z'[0] - sl') ?_
    rw [Option.mem_def, List.head?_eq_getElem?, List.getElem?_eq_getElem (by simp; omega)]
    simp
  · rw [Option.mem_def, List.getLast?_eq_getElem?, List.getElem?_eq_getElem (by omega)] at hp
    cases hp
    refine h2 (x[x.length - 1], z'[x.length - 1] - sl') ?_
    rw [Option.mem_def, List.getLast?_eq_getElem?, List.getElem?_eq_getElem (by simp; omega)]
    simp [← hlen']

/-- C144 (partial): land that is nowhere lower does not have its shoreline further in; with linear
interpolation. Missing: as in `higher_sea_partial`, and other kinds of interpolation. -/
theorem higher_land_partial {x z z' : List K} (hx : x.Pairwise (· < ·)) (hx2 : 2 ≤ x.length)
    (hlen : x.length = z.length) (hlen' : x.length = z'.length)
    (hz : ∀ (j : ℕ) (hj : j < z.length) (hj' : j < z'.length), z[j] ≤ z'[j]) {sl : K}
    (hrow : LandFirst z sl) (hrow' : LandFirst z' sl) {xtol rtol s s' : K}
    (h : shorelineRow linearKind xtol rtol x z sl = .ok s)
    (h' : shorelineRow linearKind xtol rtol x z' sl = .ok s') : s ≤ s' :=
  more_emerged_partial hx hx2 hlen hlen' (fun j hj hj' => by have := hz j hj hj'; linarith) hrow hrow'
    h h'

/-! ### The component -/

/-- C144 (partial), for `ShorelineFinder`: on the same topography under a higher sea, no row has its
shoreline further out. -/
theorem higher_sea_rows_partial {kind : InterpKind K} (hkind : KeepsConstants kind) {x : Fin C → K}
    (hx : ∀ i j, i < j → x i < x j) {xtol rtol alpha : K} {asserting : Bool} {w w' v v' : World R C K}
    (htopo : w'.topo = w.topo) (hsl : w.seaLevel ≤ w'.seaLevel)
    (hnodes : ∀ r sl f, kind (profileTable (List.ofFn x) (rowList w.topo r) sl) = .ok f →
      Interpolates kind (profileTable (List.ofFn x) (rowList w.topo r) sl) f)
    (hrow : ∀ r, LandFirst (rowList w.topo r) w.seaLevel)
    (hrow' : ∀ r, LandFirst (rowList w.topo r) w'.seaLevel)
    (h : shorelineUpdate kind xtol rtol alpha asserting x w = .ok v)
    (h' : shorelineUpdate kind xtol rtol alpha asserting x w' = .ok v') :
    ∃ a a' : Fin R → K, v.rowShore = some (fun r => some (a r)) ∧
      v'.rowShore = some (fun r => some (a' r)) ∧ ∀ r, a' r ≤ a r := by
  have key : ∀ {u u' : World R C K}, shorelineUpdate kind xtol rtol alpha asserting x u = .ok u' →
      ∃ a : Fin R → K, u'.rowShore = some (fun r => some (a r)) ∧
        ∀ r, shorelineRow kind xtol rtol (List.ofFn x) (rowList u.topo r) u.seaLevel = .ok (a r) := by
    intro u u' hu
    unfold shorelineUpdate at hu
    cases ho : overRows (fun r => shorelineFinderRow kind xtol rtol alpha asserting (List.ofFn x)
        (rowList u.topo r) (rowList u.deposit r) u.seaLevel) with
    | error e => rw [ho] at hu; cases hu
    | ok res =>
      rw [ho] at hu
      dsimp only at hu
      cases h1 : u.rowShore with
      | none => rw [h1] at hu; cases hu
      | some s =>
        cases h2 : u.rowShelf with
        | none => rw [h1, h2] at hu; cases hu
        | some e =>
          rw [h1, h2] at hu
          cases hu
          refine ⟨fun r => (res r).1, rfl, fun r => ?_⟩
          have hr := overRows_ok ho r
          unfold shorelineFinderRow at hr
          cases hs : shorelineRow kind xtol rtol (List.ofFn x) (rowList u.topo r) u.seaLevel with
          | error e => rw [hs] at hr; cases hr
          | ok shore =>
            rw [hs] at hr
            dsimp only at hr
            have : (res r).1 = shore := by
              split at hr
              · injection hr with hq; rw [← hq]
              · cases hr
              · split_ifs at hr
                injection hr with hq; rw [← hq]
            show _ = Except.ok (res r).1
            rw [this]
  obtain ⟨a, ha, hs⟩ := key h
  obtain ⟨a', ha', hs'⟩ := key h'
  refine ⟨a, a', ha, ha', fun r => ?_⟩
  have hxs : (List.ofFn x).Pairwise (· < ·) := by
    rw [List.pairwise_ofFn]
    exact hx
  have hs'' := hs' r
  rw [htopo] at hs''
  exact higher_sea_partial hkind hxs (by simp [rowList]) (hnodes r) hsl (hrow r) (hrow' r) (hs r) hs''

/-! ### Where the property fails -/

/-- C144, negation: a low coast with a ridge behind it and land at the far end. When the sea rises
from 0 to 1 m the first node is flooded and the shoreline jumps from the ridge to the far land. -/
theorem higher_sea_seaward :
    ∃ s s' : ℚ, shorelineRow linearKind (2/10^12) (1/10^15) [0, 1, 2, 3] [0, 2, -1, 3] 0 = .ok s ∧
      shorelineRow linearKind (2/10^12) (1/10^15) [0, 1, 2, 3] [0, 2, -1, 3] 1 = .ok s' ∧
      s < 2 ∧ 2 < s' := by
  have h1 : (shorelineRow linearKind (2/10^12) (1/10^15) [0, 1, 2, 3] [0, 2, -1, 3]
      (0 : ℚ)).toOption.map (fun s => decide (s < 2)) = some true := by decide +kernel
  have h2 : (shorelineRow linearKind (2/10^12) (1/10^15) [0, 1, 2, 3] [0, 2, -1, 3]
      (1 : ℚ)).toOption.map (fun s => decide (2 < s)) = some true := by decide +kernel
  cases e1 : shorelineRow linearKind (2/10^12) (1/10^15) [0, 1, 2, 3] [0, 2, -1, 3] (0 : ℚ) with
  | error e => rw [e1] at h1; cases h1
  | ok s =>
    cases e2 : shorelineRow linearKind (2/10^12) (1/10^15) [0, 1, 2, 3] [0, 2, -1, 3] (1 : ℚ) with
    | error e => rw [e2] at h2; cases h2
    | ok s' =>
      rw [e1] at h1
      rw [e2] at h2
      simp only [Except.toOption, Option.map_some, Option.some.injEq, decide_eq_true_eq] at h1 h2
      exact ⟨s, s', rfl, rfl, h1, h2⟩

/-! ### Concrete cases -/

example : LandFirst [5, 3, 1, (-1 : ℚ)] 0 ∧ LandFirst [5, 3, 1, (-1 : ℚ)] 2 :=
  ⟨.inl ⟨5, rfl, by norm_num⟩, .inl ⟨5, rfl, by norm_num⟩⟩

/-- The hypotheses of `higher_sea_partial` for linear interpolation. -/
example : KeepsConstants (linearKind (K := ℚ)) ∧ ∀ sl : ℚ, ∀ f,
    linearKind (profileTable [0, 1, 2, 3] [5, 3, 1, -1] sl) = .ok f →
    Interpolates linearKind (profileTable [0, 1, 2, 3] [5, 3, 1, -1] sl) f := by
  refine ⟨linear_keeps_constants, fun sl f hf => ?_⟩
  cases hf
  exact linear_interpolates _ (by simp [profileTable]) (by simp [profileTable]; norm_num)

/-- The sea rises by 2 m: the shoreline moves by one node. Land raised by 1 m brings half of it
back. -/
example :
    (shorelineRow linearKind (2/10^12) (1/10^15) [0, 1, 2, 3] [5, 3, 1, (-1 : ℚ)] 0).toOption.map
      (fun s => decide (|s - 5/2| < 1/10^11)) = some true ∧
    (shorelineRow linearKind (2/10^12) (1/10^15) [0, 1, 2, 3] [5, 3, 1, (-1 : ℚ)] 2).toOption.map
      (fun s => decide (|s - 3/2| < 1/10^11)) = some true ∧
    (shorelineRow linearKind (2/10^12) (1/10^15) [0, 1, 2, 3] [6, 4, 2, (0 : ℚ)] 2).toOption.map
      (fun s => decide (|s - 2| < 1/10^11)) = some true := by
  decide +kernel

end Verif.Props
