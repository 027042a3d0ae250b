import Mathlib.Tactic.NormNum
import Mathlib.Tactic.Linarith
import Mathlib.Tactic.Positivity
import Mathlib.Tactic.FieldSimp
import Verif.Lemmas.Prelude
import Verif.Lemmas.XNum
import Verif.Model.Fluvial
import Verif.Props.Fluvial

/-!
# Sand that is no denser than water

`Fluvial` takes any density. It says how wide the river is: of sand lighter than water the width is
NaN, of sand as dense as water it is infinite.
-/

set_option autoImplicit false
set_option linter.unusedSectionVars false

namespace Verif.Props

open Verif XNum

variable {K : Type*} {C : ℕ} [Field K] [LinearOrder K] [IsStrictOrderedRing K]

/-- What the loop leaves at a node on land is that of its body for some concentration of mud. -/
theorem fluvialLoop_node (expf : K → K) (P : FluvialParams K) (width epsilon0 : XNum K)
    (dx dt qw : K) (slope deposit dz : Fin C → K) (l : List (Fin C)) (mud : XNum K)
    (conc percent q : Fin C → XNum K)
    (h : fluvialLoop expf P width epsilon0 dx dt qw slope deposit dz l mud conc percent = .ok q)
    (c : Fin C) (hc : c ∈ l) :
    ∃ m, q c = nodeSand expf width (channelDepth P (slope c)) m epsilon0 (deposit c) := by
  induction l generalizing mud conc percent with
  | nil => cases hc
  | cons i rest ih =>
    rw [fluvialLoop] at h
    dsimp only at h
    by_cases hi : i.val + 1 < C
    swap
    · rw [dif_neg hi] at h; cases h
    rw [dif_pos hi] at h
    by_cases hr : c ∈ rest
    · exact ih _ _ _ h hr
    · rcases List.mem_cons.mp hc with rfl | hc
      · refine ⟨conc c, ?_⟩
        have keep : ∀ (l : List (Fin C)) (mud : XNum K) (conc percent q : Fin C → XNum K),
            fluvialLoop expf P width epsilon0 dx dt qw slope deposit dz l mud conc percent = .ok q →
            c ∉ l → q c = percent c := by
          intro l
          induction l with
          | nil => intro mud conc percent q h _; cases h; rfl
          | cons j rest ih =>
            intro mud conc percent q h hn
            rw [fluvialLoop] at h
            dsimp only at h
            by_cases hj : j.val + 1 < C
            swap
            · rw [dif_neg hj] at h; cases h
            rw [dif_pos hj] at h
            rw [List.mem_cons, not_or] at hn
            rw [ih _ _ _ _ h hn.2, Function.update_of_ne hn.1]
        rw [keep _ _ _ _ _ h hr, Function.update_self]
      · exact absurd hc hr

/-- NaN goes through the operations. -/
theorem nan_div (a : XNum K) : (nan / a : XNum K) = nan := by cases a <;> rfl

theorem nan_mul (a : XNum K) : (nan * a : XNum K) = nan := by cases a <;> rfl

theorem mul_nan (a : XNum K) : (a * nan : XNum K) = nan := by cases a <;> rfl

theorem sub_nan (a : XNum K) : (a - nan : XNum K) = nan := by cases a <;> rfl

theorem channelEpsilon_cases (width depth : XNum K) :
    ∃ e : K, channelEpsilon width depth = num e ∧ 1/10 < e := by
  unfold channelEpsilon
  split_ifs
  · exact ⟨_, rfl, by norm_num⟩
  · exact ⟨_, rfl, by norm_num⟩

/-- The body of the loop with a width that is NaN. -/
theorem nodeSand_nan (expf : K → K) (depth conc : XNum K) (e deposit : K) (he : 0 < e)
    (hd : 0 < deposit) : nodeSand expf nan depth conc (num e) deposit = nan := by
  unfold nodeSand
  dsimp only
  rw [if_pos hd, num_mul, nan_div]
  have hpos : 0 < deposit * e := by positivity
  simp only [XNum.lt_num, decide_eq_true_eq, if_neg (not_lt.mpr hpos.le)]
  generalize hr : (if XNum.lt (num (deposit * e)) (num (1/10) * depth / num 10 * conc) = true then
    num (deposit * e) else num (1/10) * depth / num 10 * conc) = rfp
  have hle : XNum.le (if XNum.lt (num 1) (num 10 * (num (deposit * e) - rfp) / num deposit) = true then
      num (deposit * e) * (num 10 * (num (deposit * e) - rfp) / num deposit)
      else num (deposit * e)) (num 0) = false := by
    generalize num 10 * (num (deposit * e) - rfp) / num deposit = n
    cases n with
    | nan =>
      rw [if_neg (by simp [XNum.lt]), XNum.le_num]
      simpa using hpos
    | inf s =>
      cases s with
      | true =>
        rw [if_neg (by simp [XNum.lt]), XNum.le_num]
        simpa using hpos
      | false =>
        rw [if_pos (by simp [XNum.lt])]
        show XNum.le (XNum.mul (num (deposit * e)) (inf false)) _ = false
        unfold XNum.mul
        dsimp only
        rw [if_neg hpos.ne', decide_eq_false (not_lt.mpr hpos.le)]
        rfl
    | num a =>
      by_cases h1 : 1 < a
      · rw [if_pos (by simpa [XNum.lt] using h1), num_mul, XNum.le_num]
        have : 0 < deposit * e * a := mul_pos hpos (by linarith)
        simpa using this
      · rw [if_neg (by simpa [XNum.lt] using h1), XNum.le_num]
        simpa using hpos
  rw [hle, if_neg (by simp), mul_nan, nan_div, nan_mul]
  have : (num 1 - XNum.exp expf nan : XNum K) = nan := sub_nan _
  rw [this]
  rfl

/-- The body of the loop where the river is infinitely wide and not deep. -/
theorem nodeSand_inf (expf : K → K) (m e deposit : K) (he : 1/10 < e) (hd : 0 < deposit) :
    nodeSand expf (inf false) (num 0) (num m) (num e) deposit = num 1 := by
  have he0 : 0 < e := by linarith [show (0 : K) < 1/10 by norm_num]
  have hpos : 0 < deposit * e := by positivity
  have h10 : (10 : K) ≠ 0 := by norm_num
  have hw : (inf false / channelEpsilon (inf false) (num 0) : XNum K) = inf false := by
    obtain ⟨e', h', hp⟩ := channelEpsilon_cases (inf false : XNum K) (num 0)
    rw [h']
    show inf (xor false (decide (e' < 0))) = _
    rw [decide_eq_false (by linarith [show (0 : K) < 1/10 by norm_num])]
    rfl
  unfold nodeSand
  dsimp only
  rw [if_pos hd, num_mul, hw, num_mul, mul_zero, num_div _ _ h10, zero_div, num_mul, zero_mul]
  simp only [XNum.lt_num, decide_eq_true_eq, if_neg (not_lt.mpr hpos.le)]
  have hN : (num 10 * (num (deposit * e) - num 0) / num deposit : XNum K) = num (10 * e) := by
    rw [num_sub, num_mul, num_div _ _ hd.ne']
    congr 1
    field_simp
    ring
  have h1 : 1 < 10 * e := by linarith
  rw [hN]
  simp only [XNum.lt_num, decide_eq_true_eq, if_pos h1]
  rw [num_mul]
  have hpos2 : 0 < deposit * e * (10 * e) := by positivity
  rw [if_neg (by simpa [XNum.le] using hpos2), num_sub, num_mul, num_div _ _ hd.ne', sub_zero]
  generalize hn : 10 * (deposit * e * (10 * e)) / deposit = n
  have hn0 : 0 < n := by rw [← hn]; positivity
  have hm : (num (-1) * inf false / num 10000 * num n : XNum K) = inf true := by
    show XNum.mul (XNum.div (XNum.mul (num (-1)) (inf false)) (num 10000)) (num n) = _
    unfold XNum.mul XNum.div
    dsimp only
    rw [if_neg (by norm_num), decide_eq_true (by norm_num : (-1 : K) < 0)]
    dsimp only
    rw [if_neg hn0.ne', decide_eq_false (by norm_num : ¬ (10000 : K) < 0),
      decide_eq_false (not_lt.mpr hn0.le)]
    rfl
  rw [hm]
  show clipPercent (num 1 - num 0) = num 1
  rw [num_sub, sub_zero]
  unfold clipPercent
  dsimp only
  rw [if_neg (by simp [XNum.lt]), if_neg (by simp [XNum.lt])]

/-- C130: of sand that is lighter than water the sand fraction is NaN wherever on land something was
deposited, whatever the land looks like. -/
theorem sand_lighter_than_water (expf sqrtf : K → K) (P : FluvialParams K)
    (hrho : P.sandDensity < 1000) (dx dt : K) (x z deposit dz : Fin C → K) (sl s : K)
    (percent : Fin C → XNum K) (out : Fin C → K)
    (h : fluvialRow expf sqrtf P dx dt x z deposit dz sl (.ok s) = .ok (percent, out))
    (c : Fin C) (hc : x c < s) (hd : 0 < deposit c) : percent c = .nan := by
  obtain ⟨s', hC, hs, h1, h2, h3, hl, -⟩ := fluvialRow_ok h
  cases hs
  have hwidth : channelWidth sqrtf P = nan := by
    unfold channelWidth XNum.sqrt
    dsimp only
    have : 98/10 * (P.sandDensity / 1000 - 1) < 0 := by
      have : P.sandDensity / 1000 < 1 := by rw [div_lt_one (by norm_num)]; exact hrho
      have : P.sandDensity / 1000 - 1 < 0 := by linarith
      exact mul_neg_of_pos_of_neg (by norm_num) this
    rw [if_pos this]
    rfl
  rw [hwidth] at hl
  obtain ⟨m, hm⟩ := fluvialLoop_node _ _ _ _ _ _ _ _ _ _ _ _ _ _ _ hl c (by simpa using hc)
  obtain ⟨e, he, hp⟩ := channelEpsilon_cases (nan : XNum K) (if x ⟨0, by omega⟩ < s then
          channelDepth P (npGradient z ⟨0, by omega⟩ / dx) else .num 0)
  rw [hm, he]
  exact nodeSand_nan _ _ _ _ _ (by linarith [show (0 : K) < 1/10 by norm_num]) hd

/-- C130: of sand as dense as water every deposit on land is all sand, if no node on land is
flat. -/
theorem sand_as_dense_as_water (expf sqrtf : K → K) (hsqrt : sqrtf 0 = 0) (P : FluvialParams K)
    (hrho : P.sandDensity = 1000) (hload : 0 < P.load) (dx dt : K) (hdt : dt ≠ 0)
    (x z deposit dz : Fin C → K) (sl s : K) (percent : Fin C → XNum K) (out : Fin C → K)
    (hslope : ∀ c, x c < s → npGradient z c / dx ≠ 0)
    (h : fluvialRow expf sqrtf P dx dt x z deposit dz sl (.ok s) = .ok (percent, out))
    (c : Fin C) (hc : x c < s) (hd : 0 < deposit c) : percent c = .num 1 := by
  obtain ⟨s', hC, hs, h1, h2, h3, hl, -⟩ := fluvialRow_ok h
  cases hs
  have hqw : P.load / P.plainSlope / (61/100) ≠ 0 := div_ne_zero (div_ne_zero h3 h2) (by norm_num)
  have hwidth : channelWidth sqrtf P = inf false := by
    unfold channelWidth XNum.sqrt
    dsimp only
    have : 98/10 * (P.sandDensity / 1000 - 1) = 0 := by rw [hrho]; norm_num
    rw [this, if_neg (lt_irrefl _), hsqrt, num_mul, num_mul, mul_zero, zero_mul,
      num_div_zero _ hload.ne', decide_eq_false (not_lt.mpr hload.le)]
  have hdepth : ∀ c, x c < s → channelDepth P (npGradient z c / dx) = num 0 := by
    intro c hc
    unfold channelDepth
    rw [num_div _ _ (hslope c hc), hrho]
    norm_num
  rw [hwidth] at hl
  obtain ⟨e, he, hp⟩ := channelEpsilon_cases (inf false : XNum K) (if x ⟨0, by omega⟩ < s then
          channelDepth P (npGradient z ⟨0, by omega⟩ / dx) else .num 0)
  rw [he] at hl
  have hloop : ∀ (l : List (Fin C)), (∀ i ∈ l, x i < s) → ∀ (mud : XNum K)
      (conc percent q : Fin C → XNum K), IsNum mud → (∀ c, IsNum (conc c)) →
      fluvialLoop expf P (inf false) (num e) dx dt (P.load / P.plainSlope / (61/100))
        (fun i => npGradient z i / dx) deposit dz l mud conc percent = .ok q →
      ∀ c, 0 < deposit c → (c ∈ l ∨ percent c = num 1) → q c = num 1 := by
    intro l hl'
    induction l with
    | nil =>
      intro mud conc percent q _ _ hq c _ hc
      cases hq
      rcases hc with hc | hc
      · cases hc
      · exact hc
    | cons i rest ih =>
      intro mud conc percent q hm hco hq c hd hc
      rw [fluvialLoop] at hq
      dsimp only at hq
      by_cases hi : i.val + 1 < C
      swap
      · rw [dif_neg hi] at hq; cases hq
      rw [dif_pos hi, hdepth i (hl' i (by simp))] at hq
      obtain ⟨m, hmc⟩ := hco i
      have hn : IsNum (nodeSand expf (inf false) (num 0) (conc i) (num e) (deposit i)) ∧
          (0 < deposit i →
            nodeSand expf (inf false) (num 0) (conc i) (num e) (deposit i) = num 1) := by
        rw [hmc]
        by_cases hdi : 0 < deposit i
        · have := nodeSand_inf expf m e (deposit i) hp hdi
          exact ⟨⟨1, this⟩, fun _ => this⟩
        · exact ⟨⟨0, (nodeSand_range _ _ _ _ _ _).2 (not_lt.mp hdi)⟩, fun h => absurd h hdi⟩
      generalize nodeSand expf (inf false) (num 0) (conc i) (num e) (deposit i) = p at hn hq
      have hmud : IsNum (if 0 < dz i then
          mud - (num 1 - p) * num dx * num (dz i + dz ⟨i.val + 1, hi⟩) / num 2 / num dt
        else mud) := by
        refine isNum_ite (isNum_sub hm ?_) hm
        exact isNum_div (isNum_div (isNum_mul (isNum_mul (isNum_sub (isNum_num _) hn.1) (isNum_num _))
          (isNum_num _)) 2 (by norm_num)) dt hdt
      refine ih (fun j hj => hl' j (by simp [hj])) _ _ _ q hmud ?_ hq c hd ?_
      · intro c
        by_cases hc : c = ⟨i.val + 1, hi⟩
        · rw [hc, Function.update_self]
          exact isNum_div hmud _ hqw
        · rw [Function.update_of_ne hc]
          exact hco c
      · by_cases hci : c = i
        · right
          rw [hci, Function.update_self]
          exact hn.2 (hci ▸ hd)
        · rw [Function.update_of_ne hci]
          rcases hc with hc | hc
          · rcases List.mem_cons.mp hc with rfl | hc
            · exact absurd rfl hci
            · exact Or.inl hc
          · exact Or.inr hc
  refine hloop _ (fun i hi => by simpa using (List.mem_filter.mp hi).2) _ _ _ _ (isNum_num _) (fun c =>
    isNum_ite (isNum_num _) (isNum_num _)) hl c hd (Or.inl (by simpa using hc))

/-! ### Examples -/

/-- A row with two nodes on land, of sand of the given density. -/
def exDensityRow (rho : ℚ) : Except Err ((Fin 6 → XNum ℚ) × (Fin 6 → ℚ)) :=
  fluvialRow (fun a => if a ≤ -2 then 1/4 else 1/2) (fun a => if a = 0 then 0 else 4)
    { exFluvial with sandDensity := rho } 1000 100
    (fun i => 1000 * i.val) ![2, 1, 0, -15, -20, -30] ![5, 1, 0, 0, 0, 0] (fun _ => 1/5) 0 (.ok 2000)

example : (exDensityRow 999).toOption.map (fun o => List.ofFn o.1) =
      some [.nan, .nan, .num 0, .num 0, .num 0, .num 0] ∧
    (exDensityRow 1000).toOption.map (fun o => List.ofFn o.1) =
      some [.num 1, .num 1, .num 0, .num 0, .num 0, .num 0] ∧
    (exDensityRow 2650).toOption.map (fun o => List.ofFn o.1) =
      some [.num (1/2), .num (1/2), .num 0, .num 0, .num 0, .num 0] := by decide +kernel

end Verif.Props
