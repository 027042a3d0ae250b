import Mathlib.Topology.Order.IntermediateValue
import Mathlib.Topology.Instances.Real.Lemmas
import Verif.Lemmas.Shoreline
import Verif.Props.Interp
import Verif.Props.DriverRun

/-!
# Properties of the shoreline and the shelf edge (C29–C32, C65)
-/

set_option autoImplicit false
set_option linter.unusedSectionVars false

namespace Verif.Props

open Verif

variable {K σ : Type*} {R C : ℕ} [Field K] [LinearOrder K] [IsStrictOrderedRing K]

/-! ### C29 -/

/-- C29: the index found is that of the first node below sea level. -/
theorem shoreline_index_iff (z : List K) (sl : K) (i : ℕ) :
    shorelineIndexRow z.length z sl = .ok i ↔
      (∃ h : i < z.length, z[i] < sl) ∧ (∀ (j : ℕ) (h : j < z.length), j < i → sl ≤ z[j]) ∧
      ∃ v ∈ z, sl ≤ v := by
  rw [shorelineIndexRow_def]
  have hdry : (∃ v ∈ z, sl ≤ v) ↔ (belowWater z sl).length ≠ z.length := by
    rw [Ne, belowWater_length_eq]
    push Not
    rfl
  constructor
  · intro h
    split_ifs at h with hc
    push Not at hc
    have hs := belowWater_sorted z sl
    cases hb : belowWater z sl with
    | nil => rw [hb] at h; cases h
    | cons k ks =>
      rw [hb] at h
      cases h
      refine ⟨mem_belowWater.mp (by rw [hb]; simp), ?_, hdry.mpr hc.2⟩
      intro j hj hji
      by_contra hn
      have hm : j ∈ belowWater z sl := mem_belowWater.mpr ⟨hj, not_le.mp hn⟩
      rw [hb] at hm hs
      rcases List.mem_cons.mp hm with rfl | hm
      · omega
      · have := (List.pairwise_cons.mp hs).1 j hm
        omega
  · rintro ⟨h1, h2, h3⟩
    have hm : i ∈ belowWater z sl := mem_belowWater.mpr h1
    have hs := belowWater_sorted z sl
    rw [if_neg]
    · cases hb : belowWater z sl with
      | nil => rw [hb] at hm; cases hm
      | cons k ks =>
        rw [hb] at hm hs
        obtain ⟨hk, hkl⟩ := mem_belowWater.mp (show k ∈ belowWater z sl by rw [hb]; simp)
        rcases List.mem_cons.mp hm with rfl | hm
        · rfl
        · have := (List.pairwise_cons.mp hs).1 i hm
          exact absurd (h2 k hk this) (not_le.mpr hkl)
    · push Not
      refine ⟨?_, hdry.mp h3⟩
      intro h0
      rw [List.length_eq_zero_iff] at h0
      rw [h0] at hm
      cases hm

/-- C29: there is a `ShorelineError` exactly when no node or every node is below sea level. -/
theorem shoreline_index_error_iff (z : List K) (sl : K) :
    (shorelineIndexRow z.length z sl = .error .shorelineError ↔
      (∀ v ∈ z, sl ≤ v) ∨ ∀ v ∈ z, v < sl) ∧
    (∀ e, shorelineIndexRow z.length z sl = .error e → e = .shorelineError) := by
  rw [shorelineIndexRow_def, ← belowWater_length_eq_zero, ← belowWater_length_eq]
  split_ifs with h
  · exact ⟨⟨fun _ => h, fun _ => rfl⟩, fun e he => by cases he; rfl⟩
  · cases hb : belowWater z sl with
    | nil => rw [hb] at h; exact absurd (.inl rfl) h
    | cons k ks =>
      rw [hb] at h
      exact ⟨⟨fun h' => (by cases h'), fun h' => absurd h' h⟩, fun e he => (by cases he)⟩

/-- C29 for several rows: every row gets its own index, and the call fails with `ShorelineError`
exactly if some row has no shoreline. -/
theorem shoreline_index_rows (n : ℕ) (rows : List (List K)) (hr : ∀ z ∈ rows, z.length = n) (sl : K) :
    (∀ is, shorelineIndex n rows sl = .ok is → is.length = rows.length ∧
      ∀ p ∈ rows.zip is, shorelineIndexRow p.1.length p.1 sl = .ok p.2) ∧
    ((∃ is, shorelineIndex n rows sl = .ok is) ↔
      ∀ z ∈ rows, (∃ v ∈ z, v < sl) ∧ ∃ v ∈ z, sl ≤ v) ∧
    (∀ e, shorelineIndex n rows sl = .error e → e = .shorelineError) := by
  induction rows with
  | nil =>
    refine ⟨fun is h => ?_, ⟨fun _ => by simp, fun _ => ⟨[], rfl⟩⟩, fun e h => (by cases h)⟩
    cases h
    simp
  | cons z zs ih =>
    obtain ⟨i1, i2, i3⟩ := ih (fun z hz => hr z (by simp [hz]))
    have hz := hr z (by simp)
    have he := shoreline_index_error_iff z sl
    have hsome : (∃ i, shorelineIndexRow z.length z sl = .ok i) ↔
        (∃ v ∈ z, v < sl) ∧ ∃ v ∈ z, sl ≤ v := by
      cases h : shorelineIndexRow z.length z sl with
      | ok i =>
        refine ⟨fun _ => ?_, fun _ => ⟨i, rfl⟩⟩
        have := shoreline_index_iff z sl i
        obtain ⟨⟨a, b⟩, -, c⟩ := this.mp h
        exact ⟨⟨_, List.getElem_mem a, b⟩, c⟩
      | error e =>
        refine ⟨fun ⟨i, hi⟩ => (by cases hi), fun ⟨⟨v, hv, hv'⟩, w, hw, hw'⟩ => ?_⟩
        have e1 := he.2 e h
        subst e1
        rcases he.1.mp h with h' | h'
        · exact absurd (h' v hv) (not_le.mpr hv')
        · exact absurd (h' w hw) (not_lt.mpr hw')
    rw [shorelineIndex, ← hz]
    cases h : shorelineIndexRow z.length z sl with
    | error e =>
      refine ⟨fun is h' => (by cases h'), ⟨fun ⟨is, h'⟩ => (by cases h'), fun hall => ?_⟩, ?_⟩
      · obtain ⟨i, hi⟩ := hsome.mpr (hall z (by simp))
        rw [h] at hi; cases hi
      · intro e' h'
        cases h'
        exact he.2 e h
    | ok i =>
      dsimp only
      rw [hz]
      cases h' : shorelineIndex n zs sl with
      | error e =>
        refine ⟨fun is h'' => (by cases h''), ⟨fun ⟨is, h''⟩ => (by cases h''), fun hall => ?_⟩, ?_⟩
        · obtain ⟨is, his⟩ := i2.mpr (fun z hz => hall z (by simp [hz]))
          rw [h'] at his; cases his
        · intro e' h''
          cases h''
          exact i3 e h'
      | ok is =>
        refine ⟨?_, ⟨fun _ => ?_, fun _ => ⟨_, rfl⟩⟩, fun e h'' => (by cases h'')⟩
        · intro is' h''
          cases h''
          obtain ⟨j1, j2⟩ := i1 is h'
          refine ⟨by simp [j1], ?_⟩
          intro p hp
          rw [List.zip_cons_cons] at hp
          rcases List.mem_cons.mp hp with rfl | hp
          · exact h
          · exact j2 p hp
        · intro y hy
          rcases List.mem_cons.mp hy with rfl | hy
          · exact hsome.mp ⟨i, h⟩
          · exact i2.mp ⟨is, h'⟩ y hy

example : shorelineIndexRow 4 [3, 1, -1, (2 : ℚ)] 0 = .ok 2 := by decide +kernel

/-! ### C30 -/

/-- What is required of an interpolation of a table: it goes through the rows of the table and is
defined from the first to the last abscissa. scipy's kinds all do. -/
structure Interpolates (kind : InterpKind K) (t : List (K × K)) (f : Curve K) : Prop where
  made : kind t = .ok f
  nodes : ∀ p ∈ t, f p.1 = .ok p.2
  defined : ∀ p ∈ t, ∀ q ∈ t, DefinedOn f p.1 q.1

/-- The table of a profile relative to sea level. -/
def profileTable (x z : List K) (sl : K) : List (K × K) := x.zip (z.map fun v => v - sl)

theorem mem_profileTable {x z : List K} {sl : K} {i : ℕ} (hx : i < x.length) (hz : i < z.length) :
    (x[i], z[i] - sl) ∈ profileTable x z sl := by
  have hl : i < (profileTable x z sl).length := by simp [profileTable]; omega
  have : (profileTable x z sl)[i] = (x[i], z[i] - sl) := by simp [profileTable]
  rw [← this]
  exact List.getElem_mem hl

/-- Linear interpolation is one. -/
theorem linear_interpolates (t : List (K × K)) (hlen : 2 ≤ t.length)
    (h : (t.map Prod.fst).Pairwise (· < ·)) : Interpolates linearKind t (interpTable t) := by
  refine ⟨rfl, fun p hp => interp_at_node t hlen h p hp, ?_⟩
  intro p hp q hq x h1 h2
  cases h0 : t.head? with
  | none => rw [List.head?_eq_none_iff] at h0; subst h0; simp at hlen
  | some p0 =>
    cases hn : t.getLast? with
    | none => rw [List.getLast?_eq_none_iff] at hn; subst hn; simp at hlen
    | some pn =>
      have key := interp_defined_iff t p0 pn h0 hn
      have g1 := (key p.1).1.mp ⟨_, interp_at_node t hlen h p hp⟩
      have g2 := (key q.1).1.mp ⟨_, interp_at_node t hlen h q hq⟩
      exact (key x).1.mpr ⟨g1.1.trans h1, h2.trans g2.2⟩

/-- C30: an entirely submerged profile has its shoreline at the first node, an entirely emerged
one at the last. -/
theorem shoreline_all (kind : InterpKind K) (xtol rtol : K) (x z : List K) (sl : K)
    (hlen : x.length = z.length) (hne : z ≠ []) :
    ((∀ v ∈ z, v < sl) → ∃ x0, x.head? = some x0 ∧
      shorelineRow kind xtol rtol x z sl = .ok x0) ∧
    ((∀ v ∈ z, sl ≤ v) → ∃ xn, x.getLast? = some xn ∧
      shorelineRow kind xtol rtol x z sl = .ok xn) := by
  have hx : x ≠ [] := by
    intro h; rw [h] at hlen; exact hne (List.length_eq_zero_iff.mp hlen.symm)
  have herr := (shoreline_index_error_iff z sl).1
  have hz0 : z.head? = some (z.head hne) := List.head?_eq_some_head hne
  have hx0 : x.head? = some (x.head hx) := List.head?_eq_some_head hx
  have hxn : x.getLast? = some (x.getLast hx) := List.getLast?_eq_some_getLast hx
  constructor
  · intro h
    refine ⟨x.head hx, hx0, ?_⟩
    unfold shorelineRow
    rw [hlen, herr.mpr (.inr h), hz0]
    dsimp only
    rw [if_pos (h _ (List.head_mem hne)), hx0]
  · intro h
    refine ⟨x.getLast hx, hxn, ?_⟩
    unfold shorelineRow
    rw [hlen, herr.mpr (.inl h), hz0]
    dsimp only
    rw [if_neg (not_lt.mpr (h _ (List.head_mem hne))), hxn]

/-- C30, partial (the first node must be dry; see `shoreline_barrier_fails`): the shoreline exists
and lies between the last dry node before the first wet one and that node. The hypothesis on the
spacing is that 100 halvings reach the tolerance, which for the default tolerance holds up to a
spacing of 10^18. -/
theorem shoreline_bracket_partial (kind : InterpKind K) (xtol rtol : K) (x z : List K) (sl : K)
    (hx : x.Pairwise (· < ·)) (hlen : x.length = z.length) (f : Curve K)
    (hk : Interpolates kind (profileTable x z sl) f) (ht : 0 < xtol) (hr : 0 ≤ rtol)
    (z0 : K) (h0 : z.head? = some z0) (hdry : sl ≤ z0) (i : ℕ) (hi : i < z.length)
    (hwet : z[i] < sl) (hfirst : ∀ (j : ℕ) (hj : j < z.length), j < i → sl ≤ z[j])
    (hspace : x[i] - x[i - 1] < xtol * 2 ^ 100) :
    ∃ s, shorelineRow kind xtol rtol x z sl = .ok s ∧ x[i - 1] ≤ s ∧ s ≤ x[i] := by
  have hi0 : i ≠ 0 := by
    rintro rfl
    rw [List.head?_eq_getElem?, List.getElem?_eq_getElem hi] at h0
    cases h0
    exact absurd hwet (not_lt.mpr hdry)
  have hix : i < x.length := by omega
  have hpx : i - 1 < x.length := by omega
  have hpz : i - 1 < z.length := by omega
  have hidx : shorelineIndexRow x.length z sl = .ok i := by
    rw [hlen]
    exact (shoreline_index_iff z sl i).mpr ⟨⟨hi, hwet⟩, hfirst, z0, List.mem_of_head? h0, hdry⟩
  have hlt : x[i - 1] < x[i] := List.pairwise_iff_getElem.mp hx _ _ hpx hix (by omega)
  have hfa := hk.nodes _ (mem_profileTable (sl := sl) hpx hpz)
  have hfb := hk.nodes _ (mem_profileTable (sl := sl) hix hi)
  have hdef := hk.defined _ (mem_profileTable (sl := sl) hpx hpz) _ (mem_profileTable (sl := sl) hix hi)
  have hprev := hfirst (i - 1) hpz (by omega)
  have hmade : kind (x.zip (z.map fun v => v - sl)) = .ok f := hk.made
  have hp : pyPrev x i = some x[i - 1] := by
    unfold pyPrev; rw [if_neg hi0, List.getElem?_eq_getElem hpx]
  unfold shorelineRow
  rw [hidx]
  dsimp only
  rw [hmade]
  dsimp only
  rw [hp, List.getElem?_eq_getElem hix]
  dsimp only
  unfold scipyBisect
  dsimp only at hfa hfb hdef
  rw [hfa, hfb]
  dsimp only
  by_cases hz1 : z[i - 1] - sl = 0
  · rw [if_pos hz1]
    exact ⟨_, rfl, le_rfl, hlt.le⟩
  · rw [if_neg hz1, if_neg (by intro h; linarith), if_neg]
    · exact scipyBisectLoop_ok f xtol rtol _ _ _ ht hr hdef 99 _ _ le_rfl (by linarith) (by linarith)
        hspace
    · have h1 : ¬ (z[i - 1] - sl < 0) := by linarith
      have h2 : z[i] - sl < 0 := by linarith
      simp [signbit, h1, h2]

/-- C30 is false when the profile starts below sea level: if it also ends below sea level and
there is land in between (a barrier island), `find_shoreline` raises `ValueError`, whatever the
interpolation. -/
theorem shoreline_barrier_fails (kind : InterpKind K) (xtol rtol : K) (x z : List K) (sl : K)
    (hlen : x.length = z.length) (f : Curve K)
    (hk : Interpolates kind (profileTable x z sl) f)
    (z0 zn : K) (h0 : z.head? = some z0) (hn : z.getLast? = some zn) (hw0 : z0 < sl)
    (hwn : zn < sl) (hland : ∃ v ∈ z, sl ≤ v) :
    shorelineRow kind xtol rtol x z sl = .error .valueError := by
  have hzl : 0 < z.length := by
    cases z with
    | nil => cases h0
    | cons => simp
  have hz0 : z[0] = z0 := by
    rw [List.head?_eq_getElem?, List.getElem?_eq_getElem hzl] at h0
    exact Option.some.inj h0
  have hzn : z[z.length - 1] = zn := by
    rw [List.getLast?_eq_getElem?, List.getElem?_eq_getElem (by omega)] at hn
    exact Option.some.inj hn
  have hidx : shorelineIndexRow x.length z sl = .ok 0 := by
    rw [hlen]
    exact (shoreline_index_iff z sl 0).mpr ⟨⟨hzl, by rw [hz0]; exact hw0⟩,
      fun j _ hj => absurd hj (by omega), hland⟩
  have hfa := hk.nodes _ (mem_profileTable (x := x) (sl := sl) (i := z.length - 1) (by omega) (by omega))
  have hfb := hk.nodes _ (mem_profileTable (x := x) (sl := sl) (i := 0) (by omega) hzl)
  have hmade : kind (x.zip (z.map fun v => v - sl)) = .ok f := hk.made
  have hp : pyPrev x 0 = some (x[z.length - 1]'(by omega)) := by
    unfold pyPrev
    rw [if_pos rfl, List.getLast?_eq_getElem?, List.getElem?_eq_getElem (by omega)]
    simp only [hlen]
  unfold shorelineRow
  rw [hidx]
  dsimp only
  rw [hmade]
  dsimp only
  rw [hp, List.getElem?_eq_getElem (by omega)]
  dsimp only
  unfold scipyBisect
  dsimp only at hfa hfb
  rw [hfa, hfb]
  dsimp only
  rw [hzn, hz0, if_neg (by intro h; linarith), if_neg (by intro h; linarith), if_pos]
  have h1 : zn - sl < 0 := by linarith
  have h2 : z0 - sl < 0 := by linarith
  simp [signbit, h1, h2]

/-- C30, the barrier island on a concrete profile. -/
example : shorelineRow linearKind (2/10^12) (1/10^15) [0, 1, 2] [-1, 1, (-1 : ℚ)] 0 =
    .error .valueError := by decide +kernel

example : shorelineRow linearKind (2/10^12) (1/10^15) [0, 1, 2, 3] [2, 1, -1, (-2 : ℚ)] 0 =
    .ok (3/2) := by decide +kernel

/-- C30: the shoreline separates land from water: for a profile that starts on dry land or is
entirely submerged, no submerged node is landward of the shoreline found, whatever the
interpolation. -/
theorem shoreline_separates (kind : InterpKind K) (xtol rtol : K) (x z : List K) (sl : K)
    (hx : x.Pairwise (· < ·)) (hlen : x.length = z.length)
    (hrow : (∃ z0, z.head? = some z0 ∧ sl ≤ z0) ∨ ∀ v ∈ z, v < sl)
    (s : K) (h : shorelineRow kind xtol rtol x z sl = .ok s) :
    (∀ (j : ℕ) (hj : j < x.length), z[j] < sl → s ≤ x[j]) ∧
    ∀ x0 xn, x.head? = some x0 → x.getLast? = some xn → x0 ≤ s ∧ s ≤ xn := by
  have hle : ∀ (a b : ℕ) (ha : a < x.length) (hb : b < x.length), a ≤ b → x[a] ≤ x[b] := by
    intro a b ha hb hab
    rcases Nat.lt_or_eq_of_le hab with hlt | rfl
    · exact (List.pairwise_iff_getElem.mp hx a b ha hb hlt).le
    · exact le_rfl
  have hends : ∀ x0 xn, x.head? = some x0 → x.getLast? = some xn →
      ∀ (j : ℕ) (hj : j < x.length), x0 ≤ x[j] ∧ x[j] ≤ xn := by
    intro x0 xn h0 hn j hj
    rw [List.head?_eq_getElem?, List.getElem?_eq_getElem (by omega)] at h0
    rw [List.getLast?_eq_getElem?, List.getElem?_eq_getElem (by omega)] at hn
    cases h0
    cases hn
    exact ⟨hle _ _ _ _ (by omega), hle _ _ _ _ (by omega)⟩
  by_cases hne : z = []
  · subst hne
    simp only [List.length_nil, List.length_eq_zero_iff] at hlen
    subst hlen
    exact ⟨fun j hj => absurd hj (by simp), fun x0 xn h0 => (by cases h0)⟩
  have hxl : 0 < x.length := by rw [hlen]; exact List.length_pos_iff.mpr hne
  have hall := shoreline_all kind xtol rtol x z sl hlen hne
  by_cases hwet : ∀ v ∈ z, v < sl
  · obtain ⟨x0, h0, h1⟩ := hall.1 hwet
    rw [h] at h1
    cases h1
    have h0' := h0
    rw [List.head?_eq_getElem?, List.getElem?_eq_getElem hxl] at h0'
    cases h0'
    refine ⟨fun j hj _ => hle _ _ _ _ (by omega), fun y yn hy hyn => ?_⟩
    rw [h0] at hy
    cases hy
    exact ⟨le_rfl, (hends _ _ h0 hyn 0 hxl).2⟩
  · by_cases hdry : ∀ v ∈ z, sl ≤ v
    · obtain ⟨xn, h0, h1⟩ := hall.2 hdry
      rw [h] at h1
      cases h1
      refine ⟨fun j hj hw => absurd (hdry _ (List.getElem_mem _)) (not_le.mpr hw),
        fun y yn hy hyn => ?_⟩
      rw [h0] at hyn
      cases hyn
      have h0' := h0
      rw [List.getLast?_eq_getElem?, List.getElem?_eq_getElem (by omega)] at h0'
      cases h0'
      exact ⟨(hends _ _ hy h0 _ (by omega)).1, le_rfl⟩
    · obtain ⟨z0, hz0, hz0d⟩ := hrow.resolve_right hwet
      cases hidx : shorelineIndexRow z.length z sl with
      | error e =>
        have h1 := shoreline_index_error_iff z sl
        have := h1.2 e hidx
        subst this
        rcases h1.1.mp hidx with h | h
        · exact absurd h hdry
        · exact absurd h hwet
      | ok i =>
        obtain ⟨⟨g1, g2⟩, g3, -⟩ := (shoreline_index_iff z sl i).mp hidx
        have hi0 : i ≠ 0 := by
          rintro rfl
          rw [List.head?_eq_getElem?, List.getElem?_eq_getElem g1] at hz0
          cases hz0
          exact absurd g2 (not_lt.mpr hz0d)
        unfold shorelineRow at h
        rw [hlen, hidx] at h
        dsimp only at h
        cases hk : kind (x.zip (z.map fun v => v - sl)) with
        | error e => rw [hk] at h; cases h
        | ok f =>
          have hp : pyPrev x i = some x[i - 1] := by
            unfold pyPrev; rw [if_neg hi0, List.getElem?_eq_getElem (by omega)]
          rw [hk] at h
          dsimp only at h
          rw [hp, List.getElem?_eq_getElem (by omega)] at h
          dsimp only at h
          obtain ⟨m1, m2⟩ := scipyBisect_mem (hle _ _ _ _ (by omega)) h
          refine ⟨fun j hj hw => m2.trans (hle _ _ _ _ ?_), fun y yn hy hyn => ?_⟩
          · by_contra hn
            exact absurd (g3 j (by omega) (by omega)) (not_le.mpr hw)
          · have e1 := hends y yn hy hyn (i - 1) (by omega)
            have e2 := hends y yn hy hyn i (by omega)
            exact ⟨e1.1.trans m1, m2.trans e2.2⟩

/-! ### C31 -/

/-- C31: under the hypotheses of C30 and if the interpolant changes sign only by being 0
somewhere, the position found is within the tolerance of the root finder of a point between the
two nodes where the interpolated profile is at sea level. -/
theorem shoreline_is_crossing (kind : InterpKind K) (xtol rtol : K) (x z : List K) (sl : K)
    (hx : x.Pairwise (· < ·)) (hlen : x.length = z.length) (f : Curve K)
    (hk : Interpolates kind (profileTable x z sl) f) (ht : 0 < xtol) (hr : 0 ≤ rtol)
    (z0 : K) (h0 : z.head? = some z0) (hdry : sl ≤ z0) (i : ℕ) (hi : i < z.length)
    (hwet : z[i] < sl) (hfirst : ∀ (j : ℕ) (hj : j < z.length), j < i → sl ≤ z[j])
    (hcross : Crosses f x[i - 1] x[i]) (s : K)
    (h : shorelineRow kind xtol rtol x z sl = .ok s) :
    ∃ r, x[i - 1] ≤ r ∧ r ≤ x[i] ∧ f r = .ok 0 ∧ |s - r| ≤ xtol + rtol * |s| := by
  have hi0 : i ≠ 0 := by
    rintro rfl
    rw [List.head?_eq_getElem?, List.getElem?_eq_getElem hi] at h0
    cases h0
    exact absurd hwet (not_lt.mpr hdry)
  have hix : i < x.length := by omega
  have hpx : i - 1 < x.length := by omega
  have hpz : i - 1 < z.length := by omega
  have hidx : shorelineIndexRow x.length z sl = .ok i := by
    rw [hlen]
    exact (shoreline_index_iff z sl i).mpr ⟨⟨hi, hwet⟩, hfirst, z0, List.mem_of_head? h0, hdry⟩
  have hlt : x[i - 1] < x[i] := List.pairwise_iff_getElem.mp hx _ _ hpx hix (by omega)
  have hfa := hk.nodes _ (mem_profileTable (sl := sl) hpx hpz)
  have hfb := hk.nodes _ (mem_profileTable (sl := sl) hix hi)
  have hprev := hfirst (i - 1) hpz (by omega)
  have hmade : kind (x.zip (z.map fun v => v - sl)) = .ok f := hk.made
  have hp : pyPrev x i = some x[i - 1] := by
    unfold pyPrev; rw [if_neg hi0, List.getElem?_eq_getElem hpx]
  unfold shorelineRow at h
  rw [hidx] at h
  dsimp only at h
  rw [hmade] at h
  dsimp only at h
  rw [hp, List.getElem?_eq_getElem hix] at h
  dsimp only at h
  unfold scipyBisect at h
  dsimp only at hfa hfb
  rw [hfa, hfb] at h
  dsimp only at h
  by_cases hz1 : z[i - 1] - sl = 0
  · rw [if_pos hz1] at h
    cases h
    refine ⟨x[i - 1], le_rfl, hlt.le, by rw [hfa, hz1], ?_⟩
    rw [sub_self, abs_zero]
    have := mul_nonneg hr (abs_nonneg x[i - 1])
    linarith
  · have h1 : ¬ (z[i - 1] - sl < 0) := by linarith
    have h2 : z[i] - sl < 0 := by linarith
    have h3 : 0 < z[i - 1] - sl := lt_of_le_of_ne (by linarith) (Ne.symm hz1)
    rw [if_neg hz1, if_neg (by intro h; linarith), if_neg (by simp [signbit, h1, h2])] at h
    obtain ⟨r, r1, r2, r3, r4⟩ := scipyBisectLoop_root f xtol rtol _ _ _ ht hr hcross h3 100 x[i - 1]
      (x[i] - x[i - 1]) _ _ le_rfl (by linarith) (by linarith) hfa
      (by rw [show x[i - 1] + (x[i] - x[i - 1]) = x[i] by ring]; exact hfb) h3 h2 s h
    exact ⟨r, r1, by linarith, r3, r4⟩

/-- C31: a continuous interpolant changes sign only by being 0 somewhere. -/
theorem continuous_crosses (f : Curve ℝ) (g : ℝ → ℝ) (lo hi : ℝ)
    (hg : ContinuousOn g (Set.Icc lo hi)) (hf : ∀ x, lo ≤ x → x ≤ hi → f x = .ok (g x)) :
    Crosses f lo hi := by
  intro a b va vb h1 h2 h3 h4 h5 h6 h7
  rw [hf a h1 (h2.trans h3)] at h4
  rw [hf b (h1.trans h2) h3] at h5
  cases h4
  cases h5
  have hsub : Set.Icc a b ⊆ Set.Icc lo hi := Set.Icc_subset_Icc h1 h3
  have := intermediate_value_Icc' h2 (hg.mono hsub)
  obtain ⟨r, ⟨r1, r2⟩, r3⟩ := this ⟨h7.le, h6.le⟩
  exact ⟨r, r1, r2, by rw [hf r (h1.trans r1) (r2.trans h3), r3]⟩

/-- C31 for linear interpolation: the position found is within the tolerance of the one point
where the straight line between the last dry and the first wet node crosses sea level. -/
theorem shoreline_linear (xtol rtol : K) (x z : List K) (sl : K)
    (hx : x.Pairwise (· < ·)) (hlen : x.length = z.length) (ht : 0 < xtol) (hr : 0 ≤ rtol)
    (z0 : K) (h0 : z.head? = some z0) (hdry : sl ≤ z0) (i : ℕ) (hi : i < z.length)
    (hwet : z[i] < sl) (hfirst : ∀ (j : ℕ) (hj : j < z.length), j < i → sl ≤ z[j])
    (hspace : x[i] - x[i - 1] < xtol * 2 ^ 100) :
    ∃ s, shorelineRow linearKind xtol rtol x z sl = .ok s ∧ x[i - 1] ≤ s ∧ s ≤ x[i] ∧
      |s - (x[i - 1] + (z[i - 1] - sl) / (z[i - 1] - z[i]) * (x[i] - x[i - 1]))| ≤
        xtol + rtol * |s| := by
  have hi0 : i ≠ 0 := by
    rintro rfl
    rw [List.head?_eq_getElem?, List.getElem?_eq_getElem hi] at h0
    cases h0
    exact absurd hwet (not_lt.mpr hdry)
  have hfst : (profileTable x z sl).map Prod.fst = x := by
    unfold profileTable
    rw [List.map_fst_zip (by simp; omega)]
  have hsorted : ((profileTable x z sl).map Prod.fst).Pairwise (· < ·) := by rw [hfst]; exact hx
  have hl2 : (profileTable x z sl).length = x.length := by
    have := congrArg List.length hfst
    simpa using this
  have hk := linear_interpolates (profileTable x z sl) (by rw [hl2]; omega) hsorted
  have hprev := hfirst (i - 1) (by omega) (by omega)
  have hlt : x[i - 1] < x[i] := List.pairwise_iff_getElem.mp hx _ _ (by omega) (by omega) (by omega)
  have hdx : 0 < x[i] - x[i - 1] := sub_pos.mpr hlt
  have hdz : 0 < z[i - 1] - z[i] := by linarith
  -- the line between the two nodes
  have hline : ∀ y, x[i - 1] ≤ y → y ≤ x[i] → interpTable (profileTable x z sl) y =
      .ok (z[i - 1] - sl + (y - x[i - 1]) / (x[i] - x[i - 1]) * (z[i] - z[i - 1])) := by
    intro y hy1 hy2
    have hsplit : profileTable x z sl = (profileTable x z sl).take (i - 1) ++
        (x[i - 1], z[i - 1] - sl) :: (x[i], z[i] - sl) :: (profileTable x z sl).drop (i + 1) := by
      have hla : i - 1 < (profileTable x z sl).length := by omega
      have hlb : i < (profileTable x z sl).length := by omega
      have e1 : (profileTable x z sl)[i - 1] = (x[i - 1], z[i - 1] - sl) := by simp [profileTable]
      have e2 : (profileTable x z sl)[i] = (x[i], z[i] - sl) := by simp [profileTable]
      rw [← e1, ← e2]
      conv_lhs => rw [← List.take_append_drop (i - 1) (profileTable x z sl)]
      rw [List.drop_eq_getElem_cons hla]
      have hs1 : i - 1 + 1 = i := by omega
      rw [hs1, List.drop_eq_getElem_cons hlb]
    have := interp_between _ _ _ _ (by rw [← hsplit]; exact hsorted)
      ((y - x[i - 1]) / (x[i] - x[i - 1])) (div_nonneg (by linarith) hdx.le)
      ((div_le_one hdx).mpr (by linarith))
    rw [← hsplit] at this
    rw [div_mul_cancel₀ _ hdx.ne'] at this
    rw [show x[i - 1] + (y - x[i - 1]) = y by ring] at this
    rw [this]
    congr 1
    ring
  set r0 := x[i - 1] + (z[i - 1] - sl) / (z[i - 1] - z[i]) * (x[i] - x[i - 1]) with hr0
  -- it is 0 exactly at `r0`
  have hroot : ∀ y, x[i - 1] ≤ y → y ≤ x[i] →
      interpTable (profileTable x z sl) y = .ok 0 → y = r0 := by
    intro y hy1 hy2 hy
    rw [hline y hy1 hy2, Except.ok.injEq] at hy
    have : y - x[i - 1] = (z[i - 1] - sl) / (z[i - 1] - z[i]) * (x[i] - x[i - 1]) := by
      field_simp at hy ⊢
      linarith
    rw [hr0]; linarith
  have hcross : Crosses (interpTable (profileTable x z sl)) x[i - 1] x[i] := by
    intro a b va vb g1 g2 g3 g4 g5 g6 g7
    rw [hline a g1 (g2.trans g3), Except.ok.injEq] at g4
    rw [hline b (g1.trans g2) g3, Except.ok.injEq] at g5
    have hq : ∀ y, z[i - 1] - sl + (y - x[i - 1]) / (x[i] - x[i - 1]) * (z[i] - z[i - 1]) =
        (r0 - y) * ((z[i - 1] - z[i]) / (x[i] - x[i - 1])) := by
      intro y
      rw [hr0]
      field_simp
      ring
    have hpos : 0 < (z[i - 1] - z[i]) / (x[i] - x[i - 1]) := div_pos hdz hdx
    rw [hq] at g4 g5
    have ha : a ≤ r0 := by
      by_contra hc
      have : (r0 - a) * ((z[i - 1] - z[i]) / (x[i] - x[i - 1])) ≤ 0 :=
        mul_nonpos_of_nonpos_of_nonneg (by linarith) hpos.le
      linarith
    have hb : r0 ≤ b := by
      by_contra hc
      have : 0 ≤ (r0 - b) * ((z[i - 1] - z[i]) / (x[i] - x[i - 1])) :=
        mul_nonneg (by linarith) hpos.le
      linarith
    refine ⟨r0, ha, hb, ?_⟩
    rw [hline r0 (g1.trans ha) (hb.trans g3), hq]
    simp
  obtain ⟨s, s1, s2, s3⟩ := shoreline_bracket_partial linearKind xtol rtol x z sl hx hlen _ hk ht hr
    z0 h0 hdry i hi hwet hfirst hspace
  obtain ⟨r, r1, r2, r3, r4⟩ := shoreline_is_crossing linearKind xtol rtol x z sl hx hlen _ hk ht hr
    z0 h0 hdry i hi hwet hfirst hcross s s1
  refine ⟨s, s1, s2, s3, ?_⟩
  rw [hroot r r1 r2 r3] at r4
  exact r4

/-- The hypotheses of C30 and C31 hold for a concrete profile. -/
example : ∃ s : ℚ, shorelineRow linearKind (2/10^12) (1/10^15) [0, 1, 2, 4] [2, 1, 1/2, -1] 0 = .ok s ∧
    2 ≤ s ∧ s ≤ 4 ∧ |s - 8/3| ≤ 2/10^12 + 1/10^15 * |s| := by
  obtain ⟨s, h1, h2, h3, h4⟩ := shoreline_linear (2/10^12 : ℚ) (1/10^15) [0, 1, 2, 4] [2, 1, 1/2, -1] 0
    (by decide +kernel) rfl (by norm_num) (by norm_num) 2 rfl (by norm_num) 3 (by decide)
    (by decide +kernel) (by decide +kernel) (by decide +kernel)
  refine ⟨s, h1, h2, h3, ?_⟩
  have : ([0, 1, 2, 4] : List ℚ)[3 - 1] + (([2, 1, 1/2, -1] : List ℚ)[3 - 1] - (0 : ℚ)) /
    (([2, 1, 1/2, -1] : List ℚ)[3 - 1] - ([2, 1, 1/2, -1] : List ℚ)[3]) *
    (([0, 1, 2, 4] : List ℚ)[3] - ([0, 1, 2, 4] : List ℚ)[3 - 1]) = 8/3 := by decide +kernel
  rwa [this] at h4

/-- The hypotheses of `shoreline_barrier_fails` hold for a concrete profile. -/
example : shorelineRow linearKind (2/10^12) (1/10^15) [0, 1, 2] [-1, 1, (-1 : ℚ)] 0 =
    .error .valueError :=
  shoreline_barrier_fails linearKind _ _ _ _ 0 rfl _
    (linear_interpolates _ (by decide) (by decide +kernel)) (-1) (-1) rfl rfl (by norm_num)
    (by norm_num) ⟨1, by simp, by norm_num⟩

/-! ### C32 -/

/-- C32: the shelf edge is at the first largest deposit among the nodes beyond
`x_of_shore + 3 / alpha`, and there is a `ShelfEdgeError` exactly when there is no such node. -/
theorem shelf_edge_spec (x dz : List K) (hx : x.Pairwise (· ≤ ·)) (hlen : x.length = dz.length)
    (shore alpha : K) (ha : alpha ≠ 0) :
    (∀ v, shelfEdge x dz shore alpha = .ok v → ∃ (k : ℕ) (h1 : k < x.length) (h2 : k < dz.length),
      x[k] = v ∧ shore + 3 / alpha < v ∧
      ∀ (j : ℕ) (g1 : j < x.length) (g2 : j < dz.length), shore + 3 / alpha < x[j] →
        dz[j] ≤ dz[k] ∧ (j < k → dz[j] < dz[k])) ∧
    (shelfEdge x dz shore alpha = .error .shelfEdgeError ↔ ∀ v ∈ x, v ≤ shore + 3 / alpha) ∧
    (∀ e, shelfEdge x dz shore alpha = .error e → e = .shelfEdgeError) := by
  letI : Inhabited K := ⟨0⟩
  unfold shelfEdge
  rw [if_neg ha]
  dsimp only
  generalize hv0 : shore + 3 / alpha = v0
  have hb := bisectRight_spec x v0 hx
  have hbi := bisectRight_lt_iff x v0 hx
  generalize hind : bisectRight x v0 = ind at hb hbi
  have hnone : dz.length ≤ ind ↔ ∀ v ∈ x, v ≤ v0 := by
    constructor
    · intro h v hv
      obtain ⟨j, hj, rfl⟩ := List.getElem_of_mem hv
      exact (hbi j hj).mp (by omega)
    · intro h
      by_contra hn
      have hl : ind < x.length := by omega
      exact absurd ((hbi ind hl).mpr (h _ (List.getElem_mem hl))) (lt_irrefl _)
  by_cases hle : dz.length ≤ ind
  · rw [if_pos hle]
    exact ⟨fun v h => (by cases h), ⟨fun _ => hnone.mp hle, fun _ => rfl⟩, fun e h => by cases h; rfl⟩
  · rw [if_neg hle]
    have hne : dz.drop ind ≠ [] := by
      intro h
      rw [List.drop_eq_nil_iff] at h
      exact hle h
    obtain ⟨k, b, hk1, hk2, hk3⟩ := argmax_spec (dz.drop ind) hne
    rw [hk1]
    dsimp only
    have hkl : k + ind < dz.length := by
      have := (List.getElem?_eq_some_iff.mp hk2).1
      rw [List.length_drop] at this
      omega
    have hkb : dz[k + ind] = b := by
      rw [List.getElem?_drop, Nat.add_comm, List.getElem?_eq_getElem hkl] at hk2
      exact Option.some.inj hk2
    rw [List.getElem?_eq_getElem (show k + ind < x.length by omega)]
    dsimp only
    refine ⟨?_, ⟨fun h => (by cases h), fun h => absurd (hnone.mpr h) hle⟩, fun e h => (by cases h)⟩
    intro v hv
    cases hv
    refine ⟨k + ind, by omega, hkl, rfl, hb.2.2 (k + ind) (by omega) (by omega), ?_⟩
    intro j g1 g2 hj
    have hjind : ind ≤ j := by
      by_contra hn
      exact absurd ((hbi j g1).mp (by omega)) (not_le.mpr hj)
    have := hk3 (j - ind) dz[j] (by
      rw [List.getElem?_drop, show ind + (j - ind) = j by omega, List.getElem?_eq_getElem g2])
    rw [hkb]
    exact ⟨this.1, fun h => this.2 (by omega)⟩

/-- C32: the assertion in `ShorelineFinder.update` never fails: with `alpha > 0` the shelf edge is
seaward of the shoreline, so running with and without assertions is the same. -/
theorem shelf_edge_seaward (kind : InterpKind K) (xtol rtol alpha : K) (ha : 0 < alpha)
    (x z dz : List K) (hx : x.Pairwise (· ≤ ·)) (hlen : x.length = dz.length) (sl : K) :
    shorelineFinderRow kind xtol rtol alpha true x z dz sl =
      shorelineFinderRow kind xtol rtol alpha false x z dz sl := by
  unfold shorelineFinderRow
  cases hs : shorelineRow kind xtol rtol x z sl with
  | error e => rfl
  | ok shore =>
    dsimp only
    obtain ⟨h1, -, h3⟩ := shelf_edge_spec x dz hx hlen shore alpha ha.ne'
    cases he : shelfEdge x dz shore alpha with
    | error e =>
      have := h3 e he
      subst this
      rfl
    | ok edge =>
      obtain ⟨k, g1, g2, -, g3, -⟩ := h1 edge he
      have hlt : shore < edge := by
        have : 0 < 3 / alpha := by positivity
        linarith
      simp [hlt]

example : shelfEdge [0, 1, 2, 3, 4] [9, 1, 5, 5, (2 : ℚ)] (-2) 1 = .ok 2 := by decide +kernel
example : shelfEdge [0, 1, 2, 3, 4] [9, 1, 5, 5, (2 : ℚ)] 1 1 = .error .shelfEdgeError := by
  decide +kernel

/-- C32: what `ShorelineFinder` stores for a row: the shoreline, and either no shelf edge, exactly if
no node is far enough seaward, or the position of the largest deposit among those that are. -/
theorem finder_row (kind : InterpKind K) (xtol rtol alpha : K) (ha : 0 < alpha) (asserting : Bool)
    (x z dz : List K) (hx : x.Pairwise (· ≤ ·)) (hlen : x.length = dz.length) (sl shore : K)
    (edge : Option K)
    (h : shorelineFinderRow kind xtol rtol alpha asserting x z dz sl = .ok (shore, edge)) :
    shorelineRow kind xtol rtol x z sl = .ok shore ∧
    (edge = none ↔ ∀ v ∈ x, v ≤ shore + 3 / alpha) ∧
    ∀ v, edge = some v → shore < v ∧ ∃ (k : ℕ) (h1 : k < x.length) (h2 : k < dz.length),
      x[k] = v ∧ shore + 3 / alpha < v ∧
      ∀ (j : ℕ) (g1 : j < x.length) (g2 : j < dz.length), shore + 3 / alpha < x[j] →
        dz[j] ≤ dz[k] ∧ (j < k → dz[j] < dz[k]) := by
  unfold shorelineFinderRow at h
  cases hs : shorelineRow kind xtol rtol x z sl with
  | error e => rw [hs] at h; cases h
  | ok s =>
    rw [hs] at h
    dsimp only at h
    obtain ⟨h1, h2, h3⟩ := shelf_edge_spec x dz hx hlen s alpha ha.ne'
    cases he : shelfEdge x dz s alpha with
    | error e =>
      have := h3 e he
      subst this
      rw [he] at h
      cases h
      exact ⟨rfl, ⟨fun _ => h2.mp he, fun _ => rfl⟩, fun v hv => (by cases hv)⟩
    | ok v =>
      rw [he] at h
      dsimp only at h
      split_ifs at h
      cases h
      refine ⟨rfl, ⟨fun hv => (by cases hv), fun hv => ?_⟩, ?_⟩
      · have := h2.mpr hv
        rw [he] at this
        cases this
      · intro u hu
        cases hu
        obtain ⟨k, k1, k2, k3, k4, k5⟩ := h1 v he
        have : 0 < 3 / alpha := by positivity
        exact ⟨by linarith, k, k1, k2, k3, k4, k5⟩

/-! ### C65 -/

/-- C65: a step of `ShorelineFinder` finds every row on its own, touches only the two row fields,
and fails as a whole, leaving them alone, with the error of the first row that fails. -/
theorem shoreline_update_rows (kind : InterpKind K) (xtol rtol alpha : K) (asserting : Bool)
    (x : Fin C → K) (w : World R C K) (hf : w.rowShore.isSome ∧ w.rowShelf.isSome) :
    (∀ w', shorelineUpdate kind xtol rtol alpha asserting x w = .ok w' →
      (∃ (shore : Fin R → K) (shelf : Fin R → Option K), w' = { w with rowShore := some fun r => some (shore r), rowShelf := some shelf } ∧
        ∀ r, shorelineFinderRow kind xtol rtol alpha asserting (List.ofFn x) (rowList w.topo r)
          (rowList w.deposit r) w.seaLevel = .ok (shore r, shelf r))) ∧
    (∀ e, shorelineUpdate kind xtol rtol alpha asserting x w = .error e →
      ∃ r, shorelineFinderRow kind xtol rtol alpha asserting (List.ofFn x) (rowList w.topo r)
        (rowList w.deposit r) w.seaLevel = .error e) := by
  obtain ⟨a, ha⟩ := Option.isSome_iff_exists.mp hf.1
  obtain ⟨b, hb⟩ := Option.isSome_iff_exists.mp hf.2
  unfold shorelineUpdate
  cases h : overRows (fun r => shorelineFinderRow kind xtol rtol alpha asserting (List.ofFn x)
      (rowList w.topo r) (rowList w.deposit r) w.seaLevel) with
  | error e =>
    refine ⟨fun w' h' => (by cases h'), fun e' h' => ?_⟩
    cases h'
    obtain ⟨r, hr, -⟩ := overRows_error h
    exact ⟨r, hr⟩
  | ok res =>
    rw [ha, hb]
    refine ⟨fun w' h' => ?_, fun e h' => (by cases h')⟩
    cases h'
    exact ⟨fun r => (res r).1, fun r => (res r).2, rfl, fun r => overRows_ok h r⟩

/-- C65: the shoreline step only fails if `find_shoreline` does: if every row starts on dry land,
with increasing node positions and a usable interpolation, it succeeds. -/
theorem shoreline_update_succeeds (kind : InterpKind K) (xtol rtol alpha : K) (ha : 0 < alpha)
    (ht : 0 < xtol) (hr : 0 ≤ rtol) (asserting : Bool) (x : Fin (C + 1) → K)
    (hx : StrictMono x)
    (hspace : ∀ c d, x d - x c < xtol * 2 ^ 100) (w : World R (C + 1) K)
    (hf : w.rowShore.isSome ∧ w.rowShelf.isSome)
    (hk : ∀ r, ∃ f, Interpolates kind
      (profileTable (List.ofFn x) (rowList w.topo r) w.seaLevel) f)
    (hdry : ∀ r, w.seaLevel ≤ getProfile w.topo r 0) :
    ∃ w', shorelineUpdate kind xtol rtol alpha asserting x w = .ok w' := by
  have hxs : (List.ofFn x).Pairwise (· < ·) := by
    rw [List.pairwise_ofFn]
    intro i j hij
    exact hx hij
  have hrow : ∀ r, ∃ p, shorelineFinderRow kind xtol rtol alpha asserting (List.ofFn x)
      (rowList w.topo r) (rowList w.deposit r) w.seaLevel = .ok p := by
    intro r
    have hlen : (List.ofFn x).length = (rowList w.topo r).length := by simp [rowList]
    have hlen' : (List.ofFn x).length = (rowList w.deposit r).length := by simp [rowList]
    have hlz : (rowList w.topo r).length = C + 1 := by simp [rowList]
    have hhead : (rowList w.topo r).head? = some (getProfile w.topo r 0) := by
      rw [List.head?_eq_getElem?, List.getElem?_eq_getElem (by omega)]
      simp [rowList]
    have hshore : ∃ s, shorelineRow kind xtol rtol (List.ofFn x) (rowList w.topo r) w.seaLevel =
        .ok s := by
      by_cases hall : ∀ v ∈ rowList w.topo r, w.seaLevel ≤ v
      · obtain ⟨xn, -, h⟩ := (shoreline_all kind xtol rtol (List.ofFn x) (rowList w.topo r)
          w.seaLevel hlen (by intro h; rw [h] at hlz; simp at hlz)).2 hall
        exact ⟨xn, h⟩
      · push Not at hall
        obtain ⟨v, hv, hvs⟩ := hall
        cases hidx : shorelineIndexRow (rowList w.topo r).length (rowList w.topo r) w.seaLevel with
        | error e =>
          have h1 := shoreline_index_error_iff (rowList w.topo r) w.seaLevel
          have := h1.2 e hidx
          subst this
          rcases h1.1.mp hidx with h | h
          · exact absurd (h v hv) (not_le.mpr hvs)
          · exact absurd (h _ (List.mem_of_head? hhead)) (not_lt.mpr (hdry r))
        | ok i =>
          obtain ⟨⟨g1, g2⟩, g3, -⟩ := (shoreline_index_iff _ _ i).mp hidx
          obtain ⟨f, hf⟩ := hk r
          have hsp : (List.ofFn x)[i]'(by omega) - (List.ofFn x)[i - 1]'(by omega) <
              xtol * 2 ^ 100 := by
            rw [List.getElem_ofFn, List.getElem_ofFn]
            exact hspace _ _
          obtain ⟨s, hs, -⟩ := shoreline_bracket_partial kind xtol rtol _ _ _ hxs hlen f hf ht hr _
            hhead (hdry r) i g1 g2 g3 hsp
          exact ⟨s, hs⟩
    obtain ⟨s, hs⟩ := hshore
    obtain ⟨h1, -, h3⟩ := shelf_edge_spec (List.ofFn x) (rowList w.deposit r)
      (hxs.imp fun h => h.le) hlen' s alpha ha.ne'
    unfold shorelineFinderRow
    rw [hs]
    dsimp only
    cases he : shelfEdge (List.ofFn x) (rowList w.deposit r) s alpha with
    | error e =>
      have := h3 e he
      subst this
      exact ⟨_, rfl⟩
    | ok edge =>
      obtain ⟨k, g1, g2, -, g3, -⟩ := h1 edge he
      have hlt : s < edge := by
        have : 0 < 3 / alpha := by positivity
        linarith
      exact ⟨(s, some edge), by simp [hlt]⟩
  choose res hres using hrow
  obtain ⟨a, ha'⟩ := Option.isSome_iff_exists.mp hf.1
  obtain ⟨b, hb'⟩ := Option.isSome_iff_exists.mp hf.2
  unfold shorelineUpdate
  rw [overRows_of_all hres, ha', hb']
  exact ⟨_, rfl⟩

/-- The step on a concrete grid: the row starts on land. -/
example : ∃ w', shorelineUpdate linearKind (2/10^12) (1/10^15) 1 true
    (fun c : Fin 3 => (c.val : ℚ))
    { exWorld with
        topo := fun n => 1 - (n.2.val : ℚ)
        seaLevel := 1/2
        rowShore := some fun _ => none
        rowShelf := some fun _ => none } = .ok w' := by
  refine shoreline_update_succeeds (C := 2) linearKind _ _ _ (by norm_num) (by norm_num) (by norm_num)
    true (fun c : Fin 3 => (c.val : ℚ)) ?_ ?_ _ ⟨rfl, rfl⟩ ?_ ?_
  · intro a b hab
    dsimp only
    exact_mod_cast hab
  · decide +kernel
  · intro r
    refine ⟨_, linear_interpolates _ (by simp [profileTable, rowList]) ?_⟩
    revert r
    decide +kernel
  · decide +kernel

end Verif.Props
