import Mathlib.Tactic.FieldSimp
import Verif.Props.Fluvial

/-!
# The sand fraction of flat land

C41. Where the land is flat the channel is infinitely deep, and what becomes of the sand fraction
depends on the mud in the river only.
-/

set_option autoImplicit false
set_option linter.unusedSectionVars false

namespace Verif.Props

open Verif Verif.XNum

variable {K : Type*} {C : ℕ} [Field K] [LinearOrder K] [IsStrictOrderedRing K]

/-- A node with a deposit on flat land: no sand at all if the river carries mud, NaN if it carries
none, nothing but sand if it has lost more mud than it had. -/
theorem nodeSand_flat (expf : K → K) (hexp : expf 0 = 1) (width conc eps deposit : K)
    (hw : 0 < width) (he : 0 < eps) (hd : 0 < deposit) :
    nodeSand expf (.num width) (.inf false) (.num conc) (.num eps) deposit =
      if conc = 0 then .nan else if 0 < conc then .num 0 else .num 1 := by
  have hne : deposit ≠ 0 := hd.ne'
  have hpos : 0 < deposit * eps := mul_pos hd he
  have heps : channelEpsilon (.num width) (.inf false) = (.num (1/8) : XNum K) := by
    unfold channelEpsilon
    rw [if_neg]
    show ¬ decide ((75 : K) < 0) = true
    simp
  have e0 : (num (1/10) * inf false / num 10 : XNum K) = inf false := by
    show XNum.div (XNum.mul (num (1/10)) (inf false)) (num 10) = _
    have h1 : XNum.mul (num (1/10)) (inf false) = (inf false : XNum K) := by
      show (if (1/10 : K) = 0 then _ else _) = _
      rw [if_neg (by norm_num)]
      simp
    rw [h1]
    show inf (xor false (decide ((10 : K) < 0))) = _
    simp
  have e1 : (inf false * num conc : XNum K) = if conc = 0 then nan else inf (decide (conc < 0)) := by
    show (if conc = 0 then nan else inf (xor false (decide (conc < 0))) : XNum K) = _
    simp
  unfold nodeSand
  dsimp only
  rw [heps, e0, e1, num_mul, if_pos hd]
  rw [if_neg (show ¬ XNum.lt (num (deposit * eps)) (num 0) = true by
    rw [lt_num, decide_eq_true_eq]; exact not_lt.mpr hpos.le)]
  rcases lt_trichotomy conc 0 with hc | rfl | hc
  · simp only [if_neg hc.ne, if_neg (not_lt.mpr hc.le), hc, decide_true]
    rw [if_neg (show ¬ XNum.lt (num (deposit * eps)) (inf true) = true by simp [XNum.lt])]
    have h1 : (num (deposit * eps) - inf true : XNum K) = inf false := rfl
    have h2 : (num 10 * inf false : XNum K) = inf false := by
      show (if (10 : K) = 0 then _ else _) = _
      rw [if_neg (by norm_num)]
      simp
    have h3 : (inf false / num deposit : XNum K) = inf false := by
      show inf (xor false (decide (deposit < 0))) = _
      simp [not_lt.mpr hd.le]
    have h4 : (num (deposit * eps) * inf false : XNum K) = inf false := by
      show (if deposit * eps = 0 then _ else _) = _
      rw [if_neg hpos.ne']
      simp [not_lt.mpr hpos.le]
    have h5 : (inf false - inf true : XNum K) = inf false := rfl
    have h6 : (num (-1) * (num width / num (1/8)) / num 10000 * inf false : XNum K) = inf true := by
      rw [num_div _ _ (by norm_num), num_mul, num_div _ _ (by norm_num)]
      have : -1 * (width / (1/8)) / 10000 < 0 := by
        have : 0 < width / (1/8) := by positivity
        linarith
      show (if -1 * (width / (1/8)) / 10000 = 0 then _ else _) = _
      rw [if_neg this.ne]
      simp only [this, decide_true, Bool.false_xor]
    rw [h1, h2, h3, if_pos (show XNum.lt (num (1 : K)) (inf false) = true from rfl), h4,
      if_neg (show ¬ XNum.le (inf false) (num (0 : K)) = true by simp [XNum.le]), h5, h2, h3, h6]
    show clipPercent (num 1 - num 0) = num 1
    rw [num_sub, sub_zero]
    simp [clipPercent, lt_num, not_lt.mpr (zero_le_one (α := K))]
  · simp only [if_true]
    rw [if_neg (show ¬ XNum.lt (num (deposit * eps)) nan = true by simp [XNum.lt])]
    have h1 : (num 10 * (num (deposit * eps) - nan) / num deposit : XNum K) = nan := rfl
    rw [h1, if_neg (show ¬ XNum.lt (num (1 : K)) nan = true by simp [XNum.lt]),
      if_neg (show ¬ XNum.le (num (deposit * eps)) (num 0) = true by
        rw [le_num, decide_eq_true_eq]; exact not_le.mpr hpos), h1, num_div _ _ (by norm_num), num_mul,
      num_div _ _ (by norm_num)]
    rfl
  · simp only [if_neg hc.ne', if_pos hc, not_lt.mpr hc.le, decide_false]
    rw [if_pos (show XNum.lt (num (deposit * eps)) (inf false) = true from rfl), num_sub, sub_self,
      num_mul, mul_zero, num_div _ _ hne, zero_div,
      if_neg (show ¬ XNum.lt (num (1 : K)) (num 0) = true by
        rw [lt_num, decide_eq_true_eq]; exact not_lt.mpr zero_le_one),
      if_neg (show ¬ XNum.le (num (deposit * eps)) (num 0) = true by
        rw [le_num, decide_eq_true_eq]; exact not_le.mpr hpos), num_sub, sub_self, num_mul, mul_zero,
      num_div _ _ hne, zero_div, num_div _ _ (by norm_num), num_mul, num_div _ _ (by norm_num),
      num_mul, mul_zero, exp_num, hexp, num_sub, sub_self]
    simp [clipPercent, lt_num, not_lt.mpr (zero_le_one (α := K))]

/-- The width of the channel for any square root that is positive where it should be. -/
theorem channelWidth_pos_of (sqrtf : K → K) (hsqrt : ∀ a, 0 < a → 0 < sqrtf a)
    (P : FluvialParams K) (hrho : 1000 < P.sandDensity) (hload : 0 < P.load) :
    ∃ w, channelWidth sqrtf P = .num w ∧ 0 < w := by
  have harg : 0 < 98/10 * (P.sandDensity / 1000 - 1) := by
    have : 1 < P.sandDensity / 1000 := by rw [lt_div_iff₀ (by norm_num)]; linarith
    have : 0 < P.sandDensity / 1000 - 1 := by linarith
    positivity
  have hsq := hsqrt _ harg
  have hq : 0 < 10 * sqrtf (98/10 * (P.sandDensity / 1000 - 1)) * (1/1000) := by positivity
  unfold channelWidth XNum.sqrt
  dsimp only
  rw [if_neg (not_lt.mpr harg.le), num_mul, num_mul, num_div _ _ hq.ne']
  exact ⟨_, rfl, div_pos hload hq⟩

theorem channelEpsilon_pos (w d : XNum K) : ∃ e, channelEpsilon w d = .num e ∧ 0 < e := by
  unfold channelEpsilon
  split_ifs
  · exact ⟨_, rfl, by norm_num⟩
  · exact ⟨_, rfl, by norm_num⟩

/-- C41: flat land that does not rise. With sand denser than water, a river that flows and a plain
that slopes, a flat node with a deposit is given no sand at all if the river carries any mud
(`sand_frac` below 1), NaN if the river carries none (`sand_frac` 1), and nothing but sand for a
`sand_frac` above 1. -/
theorem flat_land_sand (expf sqrtf : K → K) (hexp : expf 0 = 1)
    (hsqrt : ∀ a, 0 < a → 0 < sqrtf a) (P : FluvialParams K) (hrho : 1000 < P.sandDensity)
    (hload : 0 < P.load) (hslope : 0 < P.plainSlope) (hsf : 0 < P.sandFrac) (dx dt : K)
    (x z deposit dz : Fin C → K) (hx : ∀ i j : Fin C, i ≤ j → x i ≤ x j) (sl s : K)
    (percent : Fin C → XNum K) (deposit' : Fin C → K) (hdz : ∀ c, x c < s → dz c ≤ 0)
    (h : fluvialRow expf sqrtf P dx dt x z deposit dz sl (.ok s) = .ok (percent, deposit'))
    (c : Fin C) (hc : x c < s) (hflat : npGradient z c / dx = 0) (hd : 0 < deposit c) :
    (P.sandFrac < 1 → percent c = .num 0) ∧ (P.sandFrac = 1 → percent c = .nan) ∧
    (1 < P.sandFrac → percent c = .num 1) := by
  obtain ⟨h0, hp⟩ := sand_fraction_local _ _ P dx dt x z deposit dz hx sl s percent deposit' hdz h c hc
  obtain ⟨w, hw, hwpos⟩ := channelWidth_pos_of sqrtf hsqrt P hrho hload
  obtain ⟨e, he, hepos⟩ := channelEpsilon_pos (channelWidth sqrtf P)
    (channelDepth P (npGradient z ⟨0, h0⟩ / dx))
  have hdep : channelDepth P (npGradient z c / dx) = .inf false := by
    rw [hflat]
    unfold channelDepth
    have : 0 < (P.sandDensity - 1000) / 1000 * (1/1000) := by
      have : 0 < P.sandDensity - 1000 := by linarith
      positivity
    rw [num_div_zero _ this.ne']
    simp only [not_lt.mpr this.le, decide_false]
  rw [he, hw, hdep, nodeSand_flat expf hexp _ _ _ _ hwpos hepos hd] at hp
  have hpos : 0 < 61/100 * P.plainSlope / P.sandFrac := by positivity
  have hcon : 61/100 * P.plainSlope * (1 - P.sandFrac) / P.sandFrac =
      61/100 * P.plainSlope / P.sandFrac * (1 - P.sandFrac) := by ring
  rw [hcon] at hp
  refine ⟨fun h1 => ?_, fun h1 => ?_, fun h1 => ?_⟩
  · have : 0 < 61/100 * P.plainSlope / P.sandFrac * (1 - P.sandFrac) :=
      mul_pos hpos (by linarith)
    rw [hp, if_neg this.ne', if_pos this]
  · rw [hp, h1, sub_self, mul_zero, if_pos rfl]
  · have : 61/100 * P.plainSlope / P.sandFrac * (1 - P.sandFrac) < 0 :=
      mul_neg_of_pos_of_neg hpos (by linarith)
    rw [hp, if_neg this.ne, if_neg (not_lt.mpr this.le)]

/-- C41: if moreover the river carries both sand and mud, every node of the row is given a number
in [0, 1], flat or not. -/
theorem sand_fraction_number (expf sqrtf : K → K) (hexp : expf 0 = 1)
    (hsqrt : ∀ a, 0 < a → 0 < sqrtf a) (P : FluvialParams K) (hrho : 1000 < P.sandDensity)
    (hload : 0 < P.load) (hslope : 0 < P.plainSlope) (hsf : 0 < P.sandFrac) (hsf1 : P.sandFrac < 1)
    (dx dt : K) (x z deposit dz : Fin C → K) (hx : ∀ i j : Fin C, i ≤ j → x i ≤ x j) (sl s : K)
    (percent : Fin C → XNum K) (deposit' : Fin C → K) (hdz : ∀ c, x c < s → dz c ≤ 0)
    (h : fluvialRow expf sqrtf P dx dt x z deposit dz sl (.ok s) = .ok (percent, deposit'))
    (c : Fin C) : ∃ v, percent c = .num v ∧ 0 ≤ v ∧ v ≤ 1 := by
  have hfrac := (sand_fraction_range_partial expf sqrtf P dx dt x z deposit dz sl _ percent deposit' h c).1
  suffices hnum : IsNum (percent c) by
    obtain ⟨v, hv⟩ := hnum
    rcases hfrac with hn | ⟨u, hu, h0, h1⟩
    · rw [hv] at hn; cases hn
    · exact ⟨u, hu, h0, h1⟩
  by_cases hc : x c < s
  swap
  · exact ⟨0, offshore_fraction_zero expf sqrtf P dx dt x z deposit dz sl s percent deposit' h c
      (not_lt.mp hc)⟩
  obtain ⟨h0, hp⟩ := sand_fraction_local _ _ P dx dt x z deposit dz hx sl s percent deposit' hdz h c hc
  by_cases hd : 0 < deposit c
  swap
  · refine ⟨0, ?_⟩
    rw [hp]
    unfold nodeSand
    dsimp only
    rw [if_neg hd]
  by_cases hflat : npGradient z c / dx = 0
  · exact ⟨0, (flat_land_sand expf sqrtf hexp hsqrt P hrho hload hslope hsf dx dt x z deposit dz hx sl s
      percent deposit' hdz h c hc hflat hd).1 hsf1⟩
  · obtain ⟨w, hw, -⟩ := channelWidth_pos_of sqrtf hsqrt P hrho hload
    obtain ⟨e, he, -⟩ := channelEpsilon_pos (channelWidth sqrtf P)
      (channelDepth P (npGradient z ⟨0, h0⟩ / dx))
    rw [hp, channelDepth_num P _ hflat]
    exact nodeSand_isNum _ _ _ _ _ _ ⟨_, hw⟩ (isNum_num _) (isNum_num _) ⟨_, he⟩

/-- `flat_land_sand`: half sand, no sand left on flat land; `sand_frac` 2 gives pure sand. -/
example :
    (fluvialRow (fun a => if a = 0 then 1 else 1/3) (fun _ => (4 : ℚ)) exFluvial 1000 100
      (fun i : Fin 4 => 1000 * i.val) ![1, 1, 1, -15] (fun _ => 1) (fun _ => 0) 0
      (.ok 2000)).toOption.map (fun o => List.ofFn o.1) =
      some [.num 0, .num 0, .num 0, .num 0] ∧
    (fluvialRow (fun a => if a = 0 then 1 else 1/3) (fun _ => (4 : ℚ))
      { exFluvial with sandFrac := 2 } 1000 100
      (fun i : Fin 4 => 1000 * i.val) ![1, 1, 1, -15] (fun _ => 1) (fun _ => 0) 0
      (.ok 2000)).toOption.map (fun o => List.ofFn o.1) =
      some [.num 1, .num 1, .num 0, .num 0] := by decide +kernel

end Verif.Props
