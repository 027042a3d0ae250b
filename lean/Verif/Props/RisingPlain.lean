import Verif.Props.Fluvial

/-! # C71 where it holds: plains that rise towards the sea -/

set_option autoImplicit false
set_option linter.unusedSectionVars false

namespace Verif.Props

open Verif Verif.Spec XNum

variable {C : ℕ}

/-- What is in the exponent of the sand fraction where the depth is positive: `e0` is the part of
the deposit that is channel belt, `r` the part that is flood plain. -/
theorem nodeSand_landward (width d conc e e0 deposit : ℝ) (hw : 0 < width) (hd : 0 < d)
    (hc : 0 ≤ conc) (he0 : 0 < e0) (he : 0 < e)
    (heps : channelEpsilon (num width) (num d) = num e) (hdep : 0 < deposit) :
    nodeSand Real.exp (num width) (num d) (num conc) (num e0) deposit =
      num (1 - Real.exp (-(width / e / 10000 *
        (10 * (e0 * max 1 (10 * (e0 - min e0 (d * conc / (100 * deposit)))) -
          min e0 (d * conc / (100 * deposit))))))) := by
  have hne : deposit ≠ 0 := hdep.ne'
  unfold nodeSand
  dsimp only
  rw [heps, if_pos hdep]
  generalize hr : d * conc / (100 * deposit) = r
  have hr0 : 0 ≤ r := by rw [← hr]; positivity
  have e1 : (num deposit * num e0 : XNum ℝ) = num (deposit * e0) := num_mul _ _
  have e2 : (num (1/10) * num d / num 10 * num conc : XNum ℝ) = num (deposit * r) := by
    rw [num_mul, num_div _ _ (by norm_num), num_mul]
    congr 1
    rw [← hr]
    field_simp
    ring
  rw [e1, e2]
  have hpos : 0 < deposit * e0 := mul_pos hdep he0
  rw [if_neg (show ¬ XNum.lt (num (deposit * e0)) (num 0) = true by
    rw [lt_num, decide_eq_true_eq]; linarith)]
  have e3 : (if XNum.lt (num (deposit * e0)) (num (deposit * r)) = true then num (deposit * e0)
      else num (deposit * r) : XNum ℝ) = num (deposit * min e0 r) := by
    rw [lt_num]
    by_cases h : e0 < r
    · rw [if_pos (by rw [decide_eq_true_eq]; exact mul_lt_mul_of_pos_left h hdep),
        min_eq_left h.le]
    · rw [if_neg (by rw [decide_eq_true_eq]; intro hc; exact h (lt_of_mul_lt_mul_left hc hdep.le)),
        min_eq_right (not_lt.mp h)]
  rw [e3]
  generalize hm : min e0 r = m
  have hm0 : m ≤ e0 := by rw [← hm]; exact min_le_left _ _
  have hm1 : 0 ≤ m := by rw [← hm]; exact le_min he0.le hr0
  have e4 : (num 10 * (num (deposit * e0) - num (deposit * m)) / num deposit : XNum ℝ) =
      num (10 * (e0 - m)) := by
    rw [num_sub, num_mul, num_div _ _ hne]
    congr 1
    field_simp
  rw [e4]
  have e5 : (if XNum.lt (num 1) (num (10 * (e0 - m))) = true then
      num (deposit * e0) * num (10 * (e0 - m)) else num (deposit * e0) : XNum ℝ) =
      num (deposit * (e0 * max 1 (10 * (e0 - m)))) := by
    rw [lt_num, num_mul]
    by_cases h : 1 < 10 * (e0 - m)
    · rw [if_pos (by rw [decide_eq_true_eq]; exact h), max_eq_right h.le, mul_assoc]
    · rw [if_neg (by rw [decide_eq_true_eq]; exact h), max_eq_left (not_lt.mp h), mul_one]
  rw [e5]
  generalize hb : e0 * max 1 (10 * (e0 - m)) = b
  have hb0 : e0 ≤ b := by
    rw [← hb]
    exact le_mul_of_one_le_right he0.le (le_max_left _ _)
  rw [if_neg (show ¬ XNum.le (num (deposit * b)) (num 0) = true by
    rw [le_num, decide_eq_true_eq, not_le]
    exact mul_pos hdep (lt_of_lt_of_le he0 hb0))]
  have e6 : (num 10 * (num (deposit * b) - num (deposit * m)) / num deposit : XNum ℝ) =
      num (10 * (b - m)) := by
    rw [num_sub, num_mul, num_div _ _ hne]
    congr 1
    field_simp
  rw [e6]
  have e7 : (num (-1) * (num width / num e) / num 10000 * num (10 * (b - m)) : XNum ℝ) =
      num (-(width / e / 10000 * (10 * (b - m)))) := by
    rw [num_div _ _ he.ne', num_mul, num_div _ _ (by norm_num), num_mul]
    congr 1
    ring
  rw [e7, exp_num, num_sub]
  have hbm : 0 ≤ b - m := by linarith
  have hexp := Real.exp_pos (-(width / e / 10000 * (10 * (b - m))))
  have hexp1 : Real.exp (-(width / e / 10000 * (10 * (b - m)))) ≤ 1 := by
    apply Real.exp_le_one_iff.mpr
    have : 0 ≤ width / e / 10000 * (10 * (b - m)) := by positivity
    linarith
  unfold clipPercent
  dsimp only
  rw [if_neg (show ¬ XNum.lt (num 1) (num (1 - Real.exp (-(width / e / 10000 * (10 * (b - m)))))) = true by
    rw [lt_num, decide_eq_true_eq]; linarith)]
  rw [if_neg (show ¬ XNum.lt (num (1 - Real.exp (-(width / e / 10000 * (10 * (b - m)))))) (num 0) = true by
    rw [lt_num, decide_eq_true_eq]; linarith)]

/-- Braided or meandering is decided by numbers where the plain rises towards the sea. -/
theorem channelEpsilon_rising (P : FluvialParams ℝ) (hrho : 1000 < P.sandDensity)
    (width slope : ℝ) (hs : 0 < slope) :
    ∃ e, channelEpsilon (num width) (channelDepth P slope) = num e ∧ 0 < e := by
  rw [braided_partial P hrho width slope hs]
  split_ifs
  · exact ⟨_, rfl, by norm_num⟩
  · exact ⟨_, rfl, by norm_num⟩

/-- C71, partial (plains that rise towards the sea everywhere, without uplift): a river with less
sand does not leave more sand at any node on land. Missing: plains that fall towards the sea, where
it always does (`muddier_river_sandier_plain`). -/
theorem muddier_river_partial (P : FluvialParams ℝ) (hrho : 1000 < P.sandDensity)
    (hload : 0 < P.load) (hps : 0 < P.plainSlope) (sf' : ℝ) (hsf' : 0 < sf')
    (hlt : sf' ≤ P.sandFrac) (hsf : P.sandFrac ≤ 1) (dx dt : ℝ) (x z deposit dz : Fin C → ℝ)
    (hx : ∀ i j : Fin C, i ≤ j → x i ≤ x j) (sl s : ℝ)
    (hslope : ∀ c, x c < s → 0 < npGradient z c / dx) (hdz : ∀ c, x c < s → dz c ≤ 0)
    (percent percent' : Fin C → XNum ℝ) (out out' : Fin C → ℝ)
    (h : fluvialRow Real.exp Real.sqrt P dx dt x z deposit dz sl (.ok s) = .ok (percent, out))
    (h' : fluvialRow Real.exp Real.sqrt { P with sandFrac := sf' } dx dt x z deposit dz sl (.ok s) =
      .ok (percent', out')) (c : Fin C) (hc : x c < s) :
    ∃ p p', percent c = .num p ∧ percent' c = .num p' ∧ p' ≤ p := by
  obtain ⟨w, hw, hwpos⟩ := channelWidth_pos P hrho hload
  obtain ⟨h0, hp⟩ := sand_fraction_local _ _ P dx dt x z deposit dz hx sl s percent out hdz h c hc
  obtain ⟨h0', hp'⟩ := sand_fraction_local _ _ { P with sandFrac := sf' } dx dt x z deposit dz hx sl s
    percent' out' hdz h' c hc
  have hfirst : x ⟨0, h0⟩ < s := lt_of_le_of_lt (hx _ c (Fin.le_def.mpr (Nat.zero_le _))) hc
  obtain ⟨e0, heps0, he0⟩ := channelEpsilon_rising P hrho w _ (hslope ⟨0, h0⟩ hfirst)
  obtain ⟨e, heps, he⟩ := channelEpsilon_rising P hrho w _ (hslope c hc)
  have hw' : channelWidth Real.sqrt { P with sandFrac := sf' } = .num w := hw
  have hdep' : ∀ slope, channelDepth { P with sandFrac := sf' } slope = channelDepth P slope := fun _ => rfl
  rw [hw, heps0] at hp
  rw [hw', hdep', hdep', heps0] at hp'
  rw [hp, hp']
  by_cases hd : 0 < deposit c
  · have hdpos : 0 < (P.sandDensity - 1000) / 1000000 / (npGradient z c / dx) :=
      div_pos (div_pos (by linarith) (by norm_num)) (hslope c hc)
    rw [channelDepth_num P _ (hslope c hc).ne'] at heps ⊢
    generalize (P.sandDensity - 1000) / 1000000 / (npGradient z c / dx) = d at hdpos heps ⊢
    have hc1 : 0 ≤ 61/100 * P.plainSlope * (1 - P.sandFrac) / P.sandFrac :=
      div_nonneg (mul_nonneg (by positivity) (by linarith)) (by linarith)
    have hcc : 61/100 * P.plainSlope * (1 - P.sandFrac) / P.sandFrac ≤
        61/100 * P.plainSlope * (1 - sf') / sf' := by
      rw [div_le_div_iff₀ (by linarith) hsf']
      have : 0 < 61/100 * P.plainSlope := by positivity
      nlinarith
    generalize 61/100 * P.plainSlope * (1 - P.sandFrac) / P.sandFrac = conc at hc1 hcc ⊢
    dsimp only
    generalize 61/100 * P.plainSlope * (1 - sf') / sf' = conc' at hcc ⊢
    refine ⟨_, _, nodeSand_landward w d conc e e0 _ hwpos hdpos hc1 he0 he heps hd,
      nodeSand_landward w d conc' e e0 _ hwpos hdpos (hc1.trans hcc) he0 he heps hd, ?_⟩
    have hm : min e0 (d * conc / (100 * deposit c)) ≤ min e0 (d * conc' / (100 * deposit c)) :=
      min_le_min le_rfl (div_le_div_of_nonneg_right (mul_le_mul_of_nonneg_left hcc hdpos.le)
        (by linarith))
    generalize min e0 (d * conc / (100 * deposit c)) = m at hm ⊢
    generalize min e0 (d * conc' / (100 * deposit c)) = m' at hm ⊢
    have hmax : max 1 (10 * (e0 - m')) ≤ max 1 (10 * (e0 - m)) := max_le_max le_rfl (by linarith)
    have hb : e0 * max 1 (10 * (e0 - m')) ≤ e0 * max 1 (10 * (e0 - m)) :=
      mul_le_mul_of_nonneg_left hmax he0.le
    have hk : 0 ≤ w / e / 10000 := by positivity
    have := mul_le_mul_of_nonneg_left
      (show 10 * (e0 * max 1 (10 * (e0 - m')) - m') ≤ 10 * (e0 * max 1 (10 * (e0 - m)) - m) by
        linarith) hk
    have := Real.exp_le_exp.mpr (neg_le_neg this)
    linarith
  · refine ⟨0, 0, ?_, ?_, le_rfl⟩
    · unfold nodeSand; rw [if_neg hd]
    · unfold nodeSand; rw [if_neg hd]

/-- The hypotheses of `muddier_river_partial`: both steps succeed on a row that rises seaward. -/
example : ∃ (percent percent' : Fin 4 → XNum ℝ) (out out' : Fin 4 → ℝ),
    fluvialRow Real.exp Real.sqrt (⟨1/2, 10, 3, 2650, 1/1000, 0⟩ : FluvialParams ℝ) 1 1
      (fun i => i.val) (fun i => 1 + i.val) (fun _ => 1) (fun _ => 0) 0 (.ok 1) = .ok (percent, out) ∧
    fluvialRow Real.exp Real.sqrt (⟨1/4, 10, 3, 2650, 1/1000, 0⟩ : FluvialParams ℝ) 1 1
      (fun i => i.val) (fun i => 1 + i.val) (fun _ => 1) (fun _ => 0) 0 (.ok 1) = .ok (percent', out') ∧
    ((0 : Fin 4).val : ℝ) < 1 ∧ 0 < npGradient (fun i : Fin 4 => 1 + (i.val : ℝ)) 0 / 1 := by
  obtain ⟨⟨p, o⟩, h⟩ := fluvial_in_range Real.exp Real.sqrt
    (⟨1/2, 10, 3, 2650, 1/1000, 0⟩ : FluvialParams ℝ) 1 1
    (fun i : Fin 4 => (i.val : ℝ)) (fun i => 1 + i.val) (fun _ => 1) (fun _ => 0) 0 1 (by norm_num)
    (by norm_num) (by norm_num) (by norm_num) (by
      intro c hc
      have : c.val = 3 := by omega
      rw [this]; norm_num)
  obtain ⟨⟨p', o'⟩, h'⟩ := fluvial_in_range Real.exp Real.sqrt
    (⟨1/4, 10, 3, 2650, 1/1000, 0⟩ : FluvialParams ℝ) 1 1
    (fun i : Fin 4 => (i.val : ℝ)) (fun i => 1 + i.val) (fun _ => 1) (fun _ => 0) 0 1 (by norm_num)
    (by norm_num) (by norm_num) (by norm_num) (by
      intro c hc
      have : c.val = 3 := by omega
      rw [this]; norm_num)
  exact ⟨p, p', o, o', h, h', by norm_num, by unfold npGradient; norm_num⟩

end Verif.Props
