import Mathlib.Analysis.SpecialFunctions.Log.Basic
import Mathlib.Analysis.SpecialFunctions.Sqrt
import Mathlib.Tactic.FieldSimp
import Mathlib.Tactic.Ring
import Mathlib.Tactic.Linarith
import Mathlib.Tactic.NormNum
import Verif.Lemmas.Grid
import Verif.Lemmas.XNum
import Verif.Model.Fluvial
import Verif.Props.Shoreline

/-!
# Properties of the fluvial component (C41–C43, C70, C71)
-/

set_option autoImplicit false
set_option linter.unusedSectionVars false

namespace Verif.Props

open Verif Verif.XNum

variable {K σ : Type*} {R C : ℕ} [Field K] [LinearOrder K] [IsStrictOrderedRing K]

/-! ### C41 -/

/-- A fraction, or NaN. -/
def FractionOrNan (p : XNum K) : Prop := p = .nan ∨ ∃ v, p = .num v ∧ 0 ≤ v ∧ v ≤ 1

theorem clipPercent_range (p : XNum K) : FractionOrNan (clipPercent p) := by
  unfold clipPercent
  dsimp only
  cases p with
  | nan => exact Or.inl (by simp [XNum.lt])
  | inf s =>
    cases s with
    | false => exact Or.inr ⟨1, by simp [XNum.lt, zero_le_one], zero_le_one, le_rfl⟩
    | true => exact Or.inr ⟨0, by simp [XNum.lt], le_rfl, zero_le_one⟩
  | num v =>
    by_cases hv : 1 < v
    · exact Or.inr ⟨1, by simp [XNum.lt, hv, zero_le_one], zero_le_one, le_rfl⟩
    · by_cases h0 : v < 0
      · exact Or.inr ⟨0, by simp [XNum.lt, hv, h0], le_rfl, zero_le_one⟩
      · exact Or.inr ⟨v, by simp [XNum.lt, hv, h0], not_lt.mp h0, not_lt.mp hv⟩

theorem nodeSand_range (expf : K → K) (width depth conc epsilon0 : XNum K) (deposit : K) :
    FractionOrNan (nodeSand expf width depth conc epsilon0 deposit) ∧
    (deposit ≤ 0 → nodeSand expf width depth conc epsilon0 deposit = .num 0) := by
  unfold nodeSand
  dsimp only
  by_cases hd : 0 < deposit
  · rw [if_pos hd]
    exact ⟨clipPercent_range _, fun h => absurd hd (not_lt.mpr h)⟩
  · rw [if_neg hd]
    exact ⟨Or.inr ⟨0, rfl, le_rfl, zero_le_one⟩, fun _ => rfl⟩

theorem fluvialLoop_spec (expf : K → K) (P : FluvialParams K) (width epsilon0 : XNum K) (dx dt qw : K)
    (slope deposit dz : Fin C → K) (l : List (Fin C)) (mud : XNum K) (conc percent q : Fin C → XNum K)
    (h : fluvialLoop expf P width epsilon0 dx dt qw slope deposit dz l mud conc percent = .ok q)
    (hp : ∀ c, FractionOrNan (percent c)) :
    (∀ c, FractionOrNan (q c)) ∧ (∀ c, c ∉ l → q c = percent c) ∧
      ∀ c ∈ l, deposit c ≤ 0 → q c = .num 0 := by
  induction l generalizing mud conc percent with
  | nil => cases h; exact ⟨hp, fun _ _ => rfl, fun c hc => absurd hc (by simp)⟩
  | cons i rest ih =>
    rw [fluvialLoop] at h
    dsimp only at h
    by_cases hi : i.val + 1 < C
    swap
    · rw [dif_neg hi] at h; cases h
    rw [dif_pos hi] at h
    have hn := nodeSand_range expf width (channelDepth P (slope i)) (conc i) epsilon0 (deposit i)
    obtain ⟨i1, i2, i3⟩ := ih _ _ _ h (by
      intro c
      by_cases hc : c = i
      · subst hc; rw [Function.update_self]; exact hn.1
      · rw [Function.update_of_ne hc]; exact hp c)
    refine ⟨i1, fun c hc => ?_, fun c hc hd => ?_⟩
    · rw [List.mem_cons, not_or] at hc
      rw [i2 c hc.2, Function.update_of_ne hc.1]
    · by_cases hr : c ∈ rest
      · exact i3 c hr hd
      · rcases List.mem_cons.mp hc with rfl | hc
        · rw [i2 c hr, Function.update_self]
          exact hn.2 hd
        · exact absurd hc hr

/-- A successful step on the row, taken apart. -/
theorem fluvialRow_ok {expf sqrtf : K → K} {P : FluvialParams K} {dx dt : K}
    {x z deposit dz : Fin C → K} {sl : K} {shore : Except Err K} {percent : Fin C → XNum K}
    {deposit' : Fin C → K}
    (h : fluvialRow expf sqrtf P dx dt x z deposit dz sl shore = .ok (percent, deposit')) :
    ∃ s, ∃ hC : 1 < C, shore = .ok s ∧ P.sandFrac ≠ 0 ∧ P.plainSlope ≠ 0 ∧ P.load ≠ 0 ∧
      (fluvialLoop expf P (channelWidth sqrtf P)
        (channelEpsilon (channelWidth sqrtf P) (if x ⟨0, by omega⟩ < s then
          channelDepth P (npGradient z ⟨0, by omega⟩ / dx) else .num 0)) dx dt
        (P.load / P.plainSlope / (61/100)) (fun i => npGradient z i / dx) deposit dz
        ((List.finRange C).filter fun i => x i < s) (.num (P.load * (1 - P.sandFrac) / P.sandFrac))
        (fun i => if i = ⟨0, by omega⟩ then .num (P.load * (1 - P.sandFrac) / P.sandFrac /
          (P.load / P.plainSlope / (61/100))) else .num 0)
        (fun _ => .num 0) = .ok percent) ∧
      deposit' = fun i => if s ≤ x i then deposit i +
        hemipelagicLoop P dt x (fun i => sl - z i) ((List.finRange C).filter fun i => s ≤ x i)
          ⟨1, hC⟩ (fun _ => 0) i else deposit i := by
  unfold fluvialRow at h
  by_cases h1 : P.sandFrac = 0 ∨ P.plainSlope = 0
  · rw [if_pos h1] at h; cases h
  rw [if_neg h1] at h
  dsimp only at h
  by_cases h2 : P.load / P.plainSlope / (61/100) = 0
  · rw [if_pos h2] at h; cases h
  rw [if_neg h2] at h
  cases shore with
  | error e => cases h
  | ok s =>
    dsimp only at h
    by_cases hC : 1 < C
    swap
    · rw [dif_neg hC] at h; cases h
    rw [dif_pos hC] at h
    push Not at h1
    cases hl : fluvialLoop expf P (channelWidth sqrtf P)
        (channelEpsilon (channelWidth sqrtf P) (if x ⟨0, by omega⟩ < s then
          channelDepth P (npGradient z ⟨0, by omega⟩ / dx) else .num 0)) dx dt
        (P.load / P.plainSlope / (61/100)) (fun i => npGradient z i / dx) deposit dz
        ((List.finRange C).filter fun i => x i < s) (.num (P.load * (1 - P.sandFrac) / P.sandFrac))
        (fun i => if i = ⟨0, by omega⟩ then .num (P.load * (1 - P.sandFrac) / P.sandFrac /
          (P.load / P.plainSlope / (61/100))) else .num 0)
        (fun _ => .num 0) with
    | error e => rw [hl] at h; cases h
    | ok q =>
      rw [hl] at h
      cases h
      refine ⟨s, hC, rfl, h1.1, h1.2, ?_, hl, rfl⟩
      rintro h0
      exact h2 (by rw [h0]; simp)

/-- C41, partial: after a step the sand fraction of every node of the middle row is in [0, 1] or NaN,
it is 0 where nothing was deposited or there is water. (`sand_fraction_finite` says when there is
no NaN.) -/
theorem sand_fraction_range_partial (expf sqrtf : K → K) (P : FluvialParams K) (dx dt : K)
    (x z deposit dz : Fin C → K) (sl : K) (shore : Except Err K) (percent : Fin C → XNum K)
    (deposit' : Fin C → K)
    (h : fluvialRow expf sqrtf P dx dt x z deposit dz sl shore = .ok (percent, deposit')) (c : Fin C) :
    FractionOrNan (percent c) ∧ (deposit c ≤ 0 → percent c = .num 0) ∧
      ∀ s, shore = .ok s → s ≤ x c → percent c = .num 0 := by
  obtain ⟨s, hC, rfl, -, -, -, hl, -⟩ := fluvialRow_ok h
  obtain ⟨h1, h2, h3⟩ := fluvialLoop_spec _ _ _ _ _ _ _ _ _ _ _ _ _ _ _ hl
    (fun c => Or.inr ⟨0, rfl, le_rfl, zero_le_one⟩)
  refine ⟨h1 c, fun hd => ?_, fun s' hs hx => ?_⟩
  · by_cases hc : c ∈ (List.finRange C).filter fun i => x i < s
    · exact h3 c hc hd
    · exact h2 c hc
  · cases hs
    exact h2 c (by simp [hx])

/-- C41: the step never reads or writes outside the row if the shoreline is not beyond the last
node. (`shoreline_separates` says that it is not.) -/
theorem fluvial_in_range (expf sqrtf : K → K) (P : FluvialParams K) (dx dt : K)
    (x z deposit dz : Fin C → K) (sl s : K) (hC : 1 < C) (hsf : P.sandFrac ≠ 0)
    (hps : P.plainSlope ≠ 0) (hload : P.load ≠ 0) (hs : ∀ c : Fin C, c.val + 1 = C → s ≤ x c) :
    ∃ out, fluvialRow expf sqrtf P dx dt x z deposit dz sl (.ok s) = .ok out := by
  have hloop : ∀ (width epsilon0 : XNum K) (qw : K) (slope : Fin C → K) (l : List (Fin C)),
      (∀ i ∈ l, x i < s) → ∀ mud conc percent, ∃ q,
      fluvialLoop expf P width epsilon0 dx dt qw slope deposit dz l mud conc percent = .ok q := by
    intro width epsilon0 qw slope l hl
    induction l with
    | nil => intro mud conc percent; exact ⟨_, rfl⟩
    | cons i rest ih =>
      intro mud conc percent
      rw [fluvialLoop]
      dsimp only
      have hi : i.val + 1 < C := by
        by_contra hcon
        have : i.val + 1 = C := by have := i.isLt; omega
        exact absurd (hl i (by simp)) (not_lt.mpr (hs i this))
      rw [dif_pos hi]
      exact ih (fun j hj => hl j (by simp [hj])) _ _ _
  unfold fluvialRow
  rw [if_neg (by push Not; exact ⟨hsf, hps⟩)]
  dsimp only
  rw [if_neg (div_ne_zero (div_ne_zero hload hps) (by norm_num)), dif_pos hC]
  obtain ⟨q, hq⟩ := hloop (channelWidth sqrtf P)
        (channelEpsilon (channelWidth sqrtf P) (if x ⟨0, by omega⟩ < s then
          channelDepth P (npGradient z ⟨0, by omega⟩ / dx) else .num 0))
        (P.load / P.plainSlope / (61/100)) (fun i => npGradient z i / dx)
        ((List.finRange C).filter fun i => x i < s) (by
          intro i hi
          simpa using (List.mem_filter.mp hi).2) (.num (P.load * (1 - P.sandFrac) / P.sandFrac))
        (fun i => if i = ⟨0, by omega⟩ then .num (P.load * (1 - P.sandFrac) / P.sandFrac /
          (P.load / P.plainSlope / (61/100))) else .num 0) (fun _ => .num 0)
  rw [hq]
  exact ⟨_, rfl⟩

/-- C41: a parameter of 0 for the sand fraction, the slope of the plain or the sediment load makes
every step raise `ZeroDivisionError`. -/
theorem fluvial_zero_parameter (expf sqrtf : K → K) (P : FluvialParams K) (dx dt : K)
    (x z deposit dz : Fin C → K) (sl : K) (shore : Except Err K)
    (h : P.sandFrac = 0 ∨ P.plainSlope = 0 ∨ P.load = 0) :
    fluvialRow expf sqrtf P dx dt x z deposit dz sl shore = .error .zeroDivision := by
  unfold fluvialRow
  by_cases h1 : P.sandFrac = 0 ∨ P.plainSlope = 0
  · rw [if_pos h1]
  · rw [if_neg h1]
    have h2 : P.load = 0 := by tauto
    dsimp only
    rw [h2, if_pos (by simp)]

theorem nodeSand_isNum (expf : K → K) (width depth conc epsilon0 : XNum K) (deposit : K)
    (hw : IsNum width) (hd : IsNum depth) (hc : IsNum conc) (he : IsNum epsilon0) :
    IsNum (nodeSand expf width depth conc epsilon0 deposit) := by
  unfold nodeSand
  dsimp only
  by_cases hdep : 0 < deposit
  · rw [if_pos hdep]
    have hne : deposit ≠ 0 := hdep.ne'
    have hcb : IsNum (width / channelEpsilon width depth) := by
      unfold channelEpsilon
      split_ifs
      · exact isNum_div hw _ (by norm_num)
      · exact isNum_div hw _ (by norm_num)
    have h1 : IsNum (if XNum.lt (num deposit * epsilon0) (num 0) = true then (num 0 : XNum K)
        else num deposit * epsilon0) := isNum_ite (isNum_num 0) (isNum_mul (isNum_num _) he)
    generalize (if XNum.lt (num deposit * epsilon0) (num 0) = true then (num 0 : XNum K)
        else num deposit * epsilon0) = rcb1 at h1 ⊢
    have h2 : IsNum (if XNum.lt rcb1 (num (1/10) * depth / num 10 * conc) = true then rcb1 else
        num (1/10) * depth / num 10 * conc) :=
      isNum_ite h1 (isNum_mul (isNum_div (isNum_mul (isNum_num _) hd) 10 (by norm_num)) hc)
    generalize (if XNum.lt rcb1 (num (1/10) * depth / num 10 * conc) = true then rcb1 else
        num (1/10) * depth / num 10 * conc) = rfp at h2 ⊢
    have h3 : IsNum (num 10 * (rcb1 - rfp) / num deposit) :=
      isNum_div (isNum_mul (isNum_num _) (isNum_sub h1 h2)) _ hne
    generalize num 10 * (rcb1 - rfp) / num deposit = bigN at h3 ⊢
    have h4 : IsNum (if XNum.lt (num 1) bigN = true then rcb1 * bigN else rcb1) :=
      isNum_ite (isNum_mul h1 h3) h1
    generalize (if XNum.lt (num 1) bigN = true then rcb1 * bigN else rcb1) = rcb2 at h4 ⊢
    have hclip : ∀ p : XNum K, IsNum p → IsNum (clipPercent p) := fun p hp =>
      isNum_ite (isNum_num 0) (isNum_ite (isNum_num 1) hp)
    refine hclip _ (isNum_ite (isNum_num 1) ?_)
    refine isNum_sub (isNum_num 1) (isNum_exp expf (isNum_mul (isNum_div (isNum_mul (isNum_num _) hcb)
      _ (by norm_num)) ?_))
    exact isNum_div (isNum_mul (isNum_num _) (isNum_sub h4 h2)) _ hne
  · rw [if_neg hdep]
    exact isNum_num 0

/-- C41: if the sand is denser than water, the square root as it should be and no node on land is
flat, the sand fraction of every node of the row is a number in [0, 1]. -/
theorem sand_fraction_finite (expf sqrtf : K → K) (hsqrt : ∀ a, 0 < a → 0 < sqrtf a)
    (P : FluvialParams K) (hrho : 1000 < P.sandDensity) (dx dt : K) (hdt : dt ≠ 0)
    (x z deposit dz : Fin C → K) (sl s : K) (percent : Fin C → XNum K) (deposit' : Fin C → K)
    (hslope : ∀ c, x c < s → npGradient z c / dx ≠ 0)
    (h : fluvialRow expf sqrtf P dx dt x z deposit dz sl (.ok s) = .ok (percent, deposit'))
    (c : Fin C) : ∃ v, percent c = .num v ∧ 0 ≤ v ∧ v ≤ 1 := by
  have hfrac := (sand_fraction_range_partial expf sqrtf P dx dt x z deposit dz sl _ percent deposit' h c).1
  obtain ⟨s', hC, hs, h1, h2, h3, hl, -⟩ := fluvialRow_ok h
  cases hs
  have hqw : P.load / P.plainSlope / (61/100) ≠ 0 := div_ne_zero (div_ne_zero h3 h2) (by norm_num)
  have harg : 0 < 98/10 * (P.sandDensity / 1000 - 1) := by
    have : 1 < P.sandDensity / 1000 := by rw [lt_div_iff₀ (by norm_num)]; linarith
    have : 0 < P.sandDensity / 1000 - 1 := by linarith
    positivity
  have hwidth : IsNum (channelWidth sqrtf P) := by
    unfold channelWidth XNum.sqrt
    dsimp only
    rw [if_neg (not_lt.mpr harg.le), num_mul, num_mul]
    have := hsqrt _ harg
    exact isNum_div (isNum_num _) _ (by positivity)
  have hdepth : ∀ c, x c < s → IsNum (channelDepth P (npGradient z c / dx)) := by
    intro c hc
    exact isNum_div (isNum_num _) _ (hslope c hc)
  have heps : ∀ d : XNum K, IsNum (channelEpsilon (channelWidth sqrtf P) d) := by
    intro d
    exact isNum_ite (isNum_num _) (isNum_num _)
  have hloop : ∀ (l : List (Fin C)), (∀ i ∈ l, x i < s) → ∀ (eps : XNum K), IsNum eps →
      ∀ (mud : XNum K) (conc percent q : Fin C → XNum K), IsNum mud → (∀ c, IsNum (conc c)) →
      (∀ c, IsNum (percent c)) →
      fluvialLoop expf P (channelWidth sqrtf P) eps dx dt (P.load / P.plainSlope / (61/100))
        (fun i => npGradient z i / dx) deposit dz l mud conc percent = .ok q → ∀ c, IsNum (q c) := by
    intro l hl' eps he
    induction l with
    | nil => intro mud conc percent q _ _ hp hq; cases hq; exact hp
    | cons i rest ih =>
      intro mud conc percent q hm hco hp hq
      rw [fluvialLoop] at hq
      dsimp only at hq
      by_cases hi : i.val + 1 < C
      swap
      · rw [dif_neg hi] at hq; cases hq
      rw [dif_pos hi] at hq
      have hn := nodeSand_isNum expf _ _ _ _ (deposit i) hwidth (hdepth i (hl' i (by simp))) (hco i) he
      have hmud : IsNum (if 0 < dz i then
          mud - (num 1 - nodeSand expf (channelWidth sqrtf P) (channelDepth P (npGradient z i / dx))
            (conc i) eps (deposit i)) * num dx * num (dz i + dz ⟨i.val + 1, hi⟩) / num 2 / num dt
        else mud) := by
        refine isNum_ite (isNum_sub hm ?_) hm
        exact isNum_div (isNum_div (isNum_mul (isNum_mul (isNum_sub (isNum_num _) hn) (isNum_num _))
          (isNum_num _)) 2 (by norm_num)) dt hdt
      refine ih (fun j hj => hl' j (by simp [hj])) _ _ _ q hmud ?_ ?_ hq
      · intro c
        by_cases hc : c = ⟨i.val + 1, hi⟩
        · rw [hc, Function.update_self]
          exact isNum_div hmud _ hqw
        · rw [Function.update_of_ne hc]
          exact hco c
      · intro c
        by_cases hc : c = i
        · rw [hc, Function.update_self]
          exact hn
        · rw [Function.update_of_ne hc]
          exact hp c
  have hnum := hloop _ (by
    intro i hi
    simpa using (List.mem_filter.mp hi).2) _ (heps _) _ _ _ _ (isNum_num _) (by
    intro c
    exact isNum_ite (isNum_num _) (isNum_num _)) (fun _ => isNum_num _) hl c
  rcases hfrac with hf | hf
  · obtain ⟨a, ha⟩ := hnum
    rw [hf] at ha
    cases ha
  · exact hf

/-- A row of the grid: the other rows and fields are untouched. -/
theorem fluvial_other_rows (kind : InterpKind K) (xtol rtol : K) (expf sqrtf : K → K)
    (P : FluvialParams K) (dx dt : K) (x : Fin C → K) (w w' : World R C K)
    (h : fluvialStep kind xtol rtol expf sqrtf P dx dt x w = .ok w') :
    ∃ sand sand', w.sand = some sand ∧ w'.sand = some sand' ∧
      w' = { w with sand := some sand', deposit := w'.deposit } ∧
      ∀ n : Node R C, n.1.val ≠ R / 2 + 1 → sand' n = sand n ∧ w'.deposit n = w.deposit n := by
  unfold fluvialStep at h
  cases hs : w.sand with
  | none => rw [hs] at h; cases h
  | some sand =>
    cases hi : w.increment with
    | none => rw [hs, hi] at h; cases h
    | some inc =>
      rw [hs, hi] at h
      dsimp only at h
      split_ifs at h with hR
      cases hf : fluvialRow expf sqrtf P dx dt x (getProfile w.topo ⟨R / 2, hR⟩)
          (getProfile w.deposit ⟨R / 2, hR⟩) (getProfile inc ⟨R / 2, hR⟩) w.seaLevel
          (shorelineRow kind xtol rtol (List.ofFn x) (rowList w.topo ⟨R / 2, hR⟩) w.seaLevel) with
      | error e => rw [hf] at h; cases h
      | ok out =>
        obtain ⟨percent, dep⟩ := out
        rw [hf] at h
        dsimp only at h
        split_ifs at h with hall
        cases h
        refine ⟨sand, _, rfl, rfl, rfl, fun n hn => ?_⟩
        have hne : n.1 ≠ activeRow ⟨R / 2, hR⟩ := by
          intro heq
          rw [heq] at hn
          exact hn (activeRow_val _)
        exact ⟨if_neg hne, if_neg hne⟩

/-- C41 on the grid: if the middle row begins on dry land or is all under water, its shoreline is
found, no node on land is flat and the parameters are as they should be, a step succeeds and leaves
a fraction in [0, 1] at every node of the row. -/
theorem fluvial_step_succeeds (kind : InterpKind K) (xtol rtol : K) (expf sqrtf : K → K)
    (hsqrt : ∀ a, 0 < a → 0 < sqrtf a) (P : FluvialParams K) (hrho : 1000 < P.sandDensity)
    (hsf : P.sandFrac ≠ 0) (hps : P.plainSlope ≠ 0) (hload : P.load ≠ 0) (dx dt : K) (hdt : dt ≠ 0)
    (x : Fin C → K) (hx : ∀ i j : Fin C, i < j → x i < x j) (hC : 1 < C) (w : World R C K)
    (sand inc : NodeField R C K) (hsand : w.sand = some sand) (hinc : w.increment = some inc)
    (r : Fin R) (hr : r.val = R / 2) (s : K)
    (hshore : shorelineRow kind xtol rtol (List.ofFn x) (rowList w.topo r) w.seaLevel = .ok s)
    (hrow : w.seaLevel ≤ getProfile w.topo r ⟨0, by omega⟩ ∨ ∀ c, getProfile w.topo r c < w.seaLevel)
    (hslope : ∀ c, x c < s → npGradient (getProfile w.topo r) c / dx ≠ 0) :
    ∃ w' sand', fluvialStep kind xtol rtol expf sqrtf P dx dt x w = .ok w' ∧ w'.sand = some sand' ∧
      ∀ c, 0 ≤ getProfile sand' r c ∧ getProfile sand' r c ≤ 1 := by
  have hR : R / 2 < R := by rw [← hr]; exact r.isLt
  have hreq : (⟨R / 2, hR⟩ : Fin R) = r := Fin.ext hr.symm
  have hC0 : 0 < C := by omega
  have hsep := shoreline_separates kind xtol rtol (List.ofFn x) (rowList w.topo r) w.seaLevel
    (List.pairwise_ofFn.mpr fun i j hij => hx i j hij) (by simp [rowList])
    (by
      rcases hrow with h | h
      · refine Or.inl ⟨_, ?_, h⟩
        rw [List.head?_eq_getElem?, List.getElem?_eq_getElem (by simp only [rowList, List.length_ofFn]; exact hC0)]
        simp only [rowList, List.getElem_ofFn]
      · refine Or.inr fun v hv => ?_
        obtain ⟨i, rfl⟩ := List.mem_ofFn.mp hv
        exact h i) s hshore
  have hend : ∀ c : Fin C, c.val + 1 = C → s ≤ x c := by
    intro c hc
    refine (hsep.2 (x ⟨0, hC0⟩) (x c) ?_ ?_).2
    · rw [List.head?_eq_getElem?, List.getElem?_eq_getElem (by rw [List.length_ofFn]; exact hC0)]
      simp only [List.getElem_ofFn]
    · rw [List.getLast?_eq_getElem?, List.getElem?_eq_getElem (by rw [List.length_ofFn]; omega)]
      simp only [List.getElem_ofFn, List.length_ofFn]
      congr 2
      exact Fin.ext (by dsimp only; omega)
  obtain ⟨⟨percent, dep⟩, hout⟩ := fluvial_in_range expf sqrtf P dx dt x (getProfile w.topo r)
    (getProfile w.deposit r) (getProfile inc r) w.seaLevel s hC hsf hps hload hend
  have hfin := sand_fraction_finite expf sqrtf hsqrt P hrho dx dt hdt x (getProfile w.topo r)
    (getProfile w.deposit r) (getProfile inc r) w.seaLevel s percent dep hslope hout
  have hall : ∀ c, (percent c).toNum ≠ none := by
    intro c
    obtain ⟨v, hv, -⟩ := hfin c
    rw [hv]
    exact fun h => by cases h
  refine ⟨{ w with
      sand := some (setRow sand r fun c => (percent c).toNum.getD 0)
      deposit := setRow w.deposit r dep }, _, ?_, rfl, fun c => ?_⟩
  · simp only [fluvialStep, hsand, hinc, dif_pos hR, hreq, hshore, hout]
    rw [if_pos hall]
  · obtain ⟨v, hv, h0, h1⟩ := hfin c
    have : getProfile (setRow sand r fun c => (percent c).toNum.getD 0) r c = v := by
      unfold getProfile setRow
      dsimp only
      rw [if_pos rfl, hv]
      rfl
    rw [this]
    exact ⟨h0, h1⟩

/-- C41 in a driver: a step that stores no NaN keeps the fractions of all rows in [0, 1]. -/
theorem fluvial_keeps_fractions (kind : InterpKind K) (xtol rtol : K) (expf sqrtf : K → K)
    (P : σ → FluvialParams K) (dx : K) (x : Fin C → K) :
    Spec.Maintains (fluvialComponent kind xtol rtol expf sqrtf P dx x : Component σ R C K)
      fun w => ∀ f, w.sand = some f → ∀ n, 0 ≤ f n ∧ f n ≤ 1 := by
  intro dt p w p' w' hw h
  unfold fluvialComponent fluvialStep at h
  dsimp only at h
  cases hs : w.sand with
  | none => simp only [hs] at h; cases h
  | some sand =>
    cases hi : w.increment with
    | none => simp only [hs, hi] at h; cases h
    | some inc =>
      simp only [hs, hi] at h
      by_cases hR : R / 2 < R
      swap
      · simp only [dif_neg hR] at h; cases h
      simp only [dif_pos hR] at h
      cases hf : fluvialRow expf sqrtf (P p) dx dt x (getProfile w.topo ⟨R / 2, hR⟩)
          (getProfile w.deposit ⟨R / 2, hR⟩) (getProfile inc ⟨R / 2, hR⟩) w.seaLevel
          (shorelineRow kind xtol rtol (List.ofFn x) (rowList w.topo ⟨R / 2, hR⟩) w.seaLevel) with
      | error e => simp only [hf] at h; cases h
      | ok out =>
        obtain ⟨percent, dep⟩ := out
        simp only [hf] at h
        by_cases hall : ∀ c, (percent c).toNum ≠ none
        swap
        · rw [if_neg hall] at h; cases h
        rw [if_pos hall] at h
        cases h
        intro f hf' n
        cases hf'
        unfold setRow
        split_ifs with hn
        · have hfr := (sand_fraction_range_partial _ _ _ _ _ _ _ _ _ _ _ percent dep hf n.2).1
          rcases hfr with hfr | ⟨v, hv, h0, h1⟩
          · exact absurd (by rw [hfr]; rfl) (hall n.2)
          · dsimp only; rw [hv]; exact ⟨h0, h1⟩
        · exact hw sand hs n

/-! ### C42 -/

/-- The sand fraction one would expect under water: what was there before the mud. -/
def expectedOffshore (before after : K) : K := min 1 (max 0 (before / after))

/-- C42 is false: under water the sand fraction is always 0. -/
theorem offshore_fraction_zero (expf sqrtf : K → K) (P : FluvialParams K) (dx dt : K)
    (x z deposit dz : Fin C → K) (sl s : K) (percent : Fin C → XNum K) (deposit' : Fin C → K)
    (h : fluvialRow expf sqrtf P dx dt x z deposit dz sl (.ok s) = .ok (percent, deposit'))
    (c : Fin C) (hc : s ≤ x c) : percent c = .num 0 :=
  (sand_fraction_range_partial expf sqrtf P dx dt x z deposit dz sl _ percent deposit' h c).2.2 s rfl hc

/-- C42, partial: it is what one would expect only where nothing but mud was deposited. -/
theorem offshore_fraction_partial (expf sqrtf : K → K) (P : FluvialParams K) (dx dt : K)
    (x z deposit dz : Fin C → K) (sl s : K) (percent : Fin C → XNum K) (deposit' : Fin C → K)
    (h : fluvialRow expf sqrtf P dx dt x z deposit dz sl (.ok s) = .ok (percent, deposit'))
    (c : Fin C) (hc : s ≤ x c) (hpos : 0 < deposit' c) :
    percent c = .num (expectedOffshore (deposit c) (deposit' c)) ↔ deposit c ≤ 0 := by
  rw [offshore_fraction_zero expf sqrtf P dx dt x z deposit dz sl s percent deposit' h c hc]
  unfold expectedOffshore
  rw [XNum.num.injEq]
  constructor
  · intro h0
    by_contra hcon
    have : 0 < deposit c / deposit' c := div_pos (not_le.mp hcon) hpos
    have h2 : 0 < min (1 : K) (max 0 (deposit c / deposit' c)) :=
      lt_min zero_lt_one (lt_max_of_lt_right this)
    linarith
  · intro h0
    rw [max_eq_left (div_nonpos_of_nonpos_of_nonneg h0 hpos.le), min_eq_right zero_le_one]

/-! ### C43 -/

/-- The node from which the taper is measured: the last one between wave base and twice wave base
among the wet nodes before `c`, or node 1. -/
def taperNode (wb : K) (depth : Fin C → K) (start : Fin C) (wet : List (Fin C)) (c : Fin C) : Fin C :=
  ((wet.takeWhile (· ≠ c)).filter fun i => wb < depth i ∧ depth i < 2 * wb).getLast?.getD start

theorem hemipelagicLoop_spec (P : FluvialParams K) (dt : K) (x depth : Fin C → K) (l : List (Fin C))
    (hnd : l.Nodup) (taper : Fin C) (mud : Fin C → K) (c : Fin C) :
    (c ∉ l → hemipelagicLoop P dt x depth l taper mud c = mud c) ∧
    (c ∈ l → hemipelagicLoop P dt x depth l taper mud c =
      (hemipelagicNode P dt x depth (taperNode P.waveBase depth taper l c) c).2) := by
  induction l generalizing taper mud with
  | nil => exact ⟨fun _ => rfl, fun h => absurd h (by simp)⟩
  | cons i rest ih =>
    rw [List.nodup_cons] at hnd
    rw [hemipelagicLoop]
    obtain ⟨i1, i2⟩ := ih hnd.2 (hemipelagicNode P dt x depth taper i).1
      (Function.update mud i (hemipelagicNode P dt x depth taper i).2)
    constructor
    · intro hc
      rw [List.mem_cons, not_or] at hc
      rw [i1 hc.2, Function.update_of_ne hc.1]
    · intro hc
      by_cases hci : c = i
      · subst hci
        rw [i1 hnd.1, Function.update_self]
        unfold taperNode
        rw [List.takeWhile_cons_of_neg (by simp)]
        rfl
      · rw [List.mem_cons] at hc
        have hcr : c ∈ rest := hc.resolve_left hci
        rw [i2 hcr]
        congr 2
        unfold taperNode
        rw [List.takeWhile_cons_of_pos (by simpa using Ne.symm hci)]
        by_cases hr : P.waveBase < depth i ∧ depth i < 2 * P.waveBase
        · rw [List.filter_cons_of_pos (by simpa using hr)]
          unfold hemipelagicNode
          rw [if_pos hr, List.getLast?_cons, Option.getD_some]
        · rw [List.filter_cons_of_neg (by simpa using hr)]
          unfold hemipelagicNode
          rw [if_neg hr]
          split_ifs <;> rfl

/-- C43: the mud a step adds to each node of the row: none on land or above wave base, between
wave base and twice wave base a linear ramp from 0 to `hemi * dt`, and below that `hemi * dt` less
one part in 100 km of the distance from the last node of the ramp. -/
theorem hemipelagic_mud (expf sqrtf : K → K) (P : FluvialParams K) (hwb : 0 < P.waveBase) (dx dt : K)
    (x z deposit dz : Fin C → K) (sl s : K) (percent : Fin C → XNum K) (deposit' : Fin C → K)
    (h : fluvialRow expf sqrtf P dx dt x z deposit dz sl (.ok s) = .ok (percent, deposit')) :
    (∀ c, x c < s → deposit' c = deposit c) ∧
    (∀ c, s ≤ x c → sl - z c ≤ P.waveBase → deposit' c = deposit c) ∧
    (∀ c, s ≤ x c → P.waveBase < sl - z c → sl - z c < 2 * P.waveBase →
      deposit' c = deposit c + ((sl - z c) / P.waveBase - 1) * (P.hemi * dt)) ∧
    ∃ hC : 1 < C, ∀ c, s ≤ x c → 2 * P.waveBase ≤ sl - z c → deposit' c = deposit c +
      max 0 (P.hemi * dt * (1 - (x c - x (taperNode P.waveBase (fun i => sl - z i) ⟨1, hC⟩
        ((List.finRange C).filter fun i => s ≤ x i) c)) / 100000)) := by
  obtain ⟨s', hC, hs, -, -, -, -, rfl⟩ := fluvialRow_ok h
  cases hs
  have hspec : ∀ c, s ≤ x c → hemipelagicLoop P dt x (fun i => sl - z i)
      ((List.finRange C).filter fun i => s ≤ x i) ⟨1, hC⟩ (fun _ => 0) c =
      (hemipelagicNode P dt x (fun i => sl - z i) (taperNode P.waveBase (fun i => sl - z i) ⟨1, hC⟩
        ((List.finRange C).filter fun i => s ≤ x i) c) c).2 := by
    intro c hc
    exact (hemipelagicLoop_spec P dt x (fun i => sl - z i) _
      ((List.nodup_finRange C).filter _) ⟨1, hC⟩ (fun _ => 0) c).2 (by simp [hc])
  refine ⟨?_, ?_, ?_, hC, ?_⟩
  · intro c hc
    exact if_neg (not_le.mpr hc)
  · intro c hc hd
    dsimp only
    rw [if_pos hc, hspec c hc]
    unfold hemipelagicNode
    rw [if_neg (fun h => absurd h.1 (not_lt.mpr hd))]
    by_cases h2 : 2 * P.waveBase ≤ sl - z c
    · exfalso; linarith
    · rw [if_neg h2, add_zero]
  · intro c hc h1 h2
    dsimp only
    rw [if_pos hc, hspec c hc]
    unfold hemipelagicNode
    rw [if_pos ⟨h1, h2⟩]
    have : P.waveBase ≠ 0 := by
      intro h0; rw [h0] at h1 h2; linarith
    dsimp only
    field_simp
  · intro c hc h2
    dsimp only
    rw [if_pos hc, hspec c hc]
    unfold hemipelagicNode
    rw [if_neg (fun h => absurd h.2 (not_lt.mpr h2)), if_pos h2]
    dsimp only
    congr 1
    split_ifs with hneg
    · rw [max_eq_left hneg.le]
    · rw [max_eq_right (not_lt.mp hneg)]

/-- C43: the mud is never negative, and never more than `hemi * dt`, except at the first node. -/
theorem hemipelagic_bounds (expf sqrtf : K → K) (P : FluvialParams K) (hwb : 0 < P.waveBase)
    (dx dt : K) (hh : 0 ≤ P.hemi * dt) (x z deposit dz : Fin C → K)
    (hx : ∀ i j : Fin C, i ≤ j → x i ≤ x j) (sl s : K) (percent : Fin C → XNum K)
    (deposit' : Fin C → K)
    (h : fluvialRow expf sqrtf P dx dt x z deposit dz sl (.ok s) = .ok (percent, deposit'))
    (c : Fin C) :
    deposit c ≤ deposit' c ∧ (0 < c.val → deposit' c ≤ deposit c + P.hemi * dt) := by
  obtain ⟨h1, h2, h3, hC, h4⟩ :=
    hemipelagic_mud expf sqrtf P hwb dx dt x z deposit dz sl s percent deposit' h
  by_cases hc : x c < s
  · rw [h1 c hc]; exact ⟨le_rfl, fun _ => by linarith⟩
  have hc := not_lt.mp hc
  by_cases ha : sl - z c ≤ P.waveBase
  · rw [h2 c hc ha]; exact ⟨le_rfl, fun _ => by linarith⟩
  have ha := not_le.mp ha
  by_cases hb : sl - z c < 2 * P.waveBase
  · rw [h3 c hc ha hb]
    have e1 : 0 ≤ (sl - z c) / P.waveBase - 1 := by
      rw [sub_nonneg, le_div_iff₀ hwb]; linarith
    have e2 : (sl - z c) / P.waveBase - 1 ≤ 1 := by
      rw [sub_le_iff_le_add, div_le_iff₀ hwb]; linarith
    have e3 : 0 ≤ ((sl - z c) / P.waveBase - 1) * (P.hemi * dt) := mul_nonneg e1 hh
    have e4 : ((sl - z c) / P.waveBase - 1) * (P.hemi * dt) ≤ 1 * (P.hemi * dt) :=
      mul_le_mul_of_nonneg_right e2 hh
    exact ⟨by linarith, fun _ => by linarith⟩
  · rw [h4 c hc (not_lt.mp hb)]
    refine ⟨by linarith [le_max_left 0 (P.hemi * dt * (1 - (x c - x (taperNode P.waveBase
      (fun i => sl - z i) ⟨1, hC⟩ ((List.finRange C).filter fun i => s ≤ x i) c)) / 100000))],
      fun hc0 => ?_⟩
    have htap : taperNode P.waveBase (fun i => sl - z i) ⟨1, hC⟩
        ((List.finRange C).filter fun i => s ≤ x i) c ≤ c := by
      unfold taperNode
      cases hg : (((List.finRange C).filter fun i => s ≤ x i).takeWhile (· ≠ c) |>.filter
          fun i => P.waveBase < sl - z i ∧ sl - z i < 2 * P.waveBase).getLast? with
      | none => rw [Option.getD_none, Fin.le_def]; exact hc0
      | some t =>
        rw [Option.getD_some]
        have ht := List.mem_of_getLast? hg
        have ht' := (List.mem_filter.mp ht).1
        by_contra hlt
        rw [not_le] at hlt
        -- `t` is after `c` in an increasing list, so not in front of it
        have hsorted : (((List.finRange C).filter fun i => s ≤ x i)).Pairwise (· < ·) :=
          (List.pairwise_lt_finRange C).filter _
        have hmem : c ∈ (List.finRange C).filter fun i => s ≤ x i := by simp [hc]
        have key : ∀ l : List (Fin C), l.Pairwise (· < ·) → c ∈ l →
            ∀ t ∈ l.takeWhile (· ≠ c), t < c := by
          intro l hl hcl t ht
          induction l with
          | nil => simp at ht
          | cons a l ih =>
            by_cases hac : a = c
            · rw [List.takeWhile_cons_of_neg (by simpa using hac)] at ht
              simp at ht
            · rw [List.takeWhile_cons_of_pos (by simpa using hac)] at ht
              have hcl' : c ∈ l := (List.mem_cons.mp hcl).resolve_left (Ne.symm hac)
              rcases List.mem_cons.mp ht with rfl | ht
              · exact (List.pairwise_cons.mp hl).1 c hcl'
              · exact ih (List.pairwise_cons.mp hl).2 hcl' ht
        exact absurd (key _ hsorted hmem t ht') (not_lt.mpr hlt.le)
    have hxt := hx _ _ htap
    have hfac : 1 - (x c - x (taperNode P.waveBase (fun i => sl - z i) ⟨1, hC⟩
        ((List.finRange C).filter fun i => s ≤ x i) c)) / 100000 ≤ 1 := by
      have : 0 ≤ (x c - x (taperNode P.waveBase (fun i => sl - z i) ⟨1, hC⟩
        ((List.finRange C).filter fun i => s ≤ x i) c)) / 100000 :=
        div_nonneg (by linarith) (by norm_num)
      linarith
    have := mul_le_mul_of_nonneg_left hfac hh
    have := max_le hh (by linarith : P.hemi * dt * (1 - (x c - x (taperNode P.waveBase
      (fun i => sl - z i) ⟨1, hC⟩ ((List.finRange C).filter fun i => s ≤ x i) c)) / 100000) ≤ P.hemi * dt)
    linarith

/-- C43: the mud is proportional to the time step. -/
theorem hemipelagic_scales (expf sqrtf : K → K) (P : FluvialParams K) (hwb : 0 < P.waveBase)
    (dx dt k : K) (hk : 0 ≤ k) (x z deposit deposit1 dz dz1 : Fin C → K) (sl s : K)
    (percent percent1 : Fin C → XNum K) (out out1 : Fin C → K)
    (h : fluvialRow expf sqrtf P dx dt x z deposit dz sl (.ok s) = .ok (percent, out))
    (h1 : fluvialRow expf sqrtf P dx (k * dt) x z deposit1 dz1 sl (.ok s) = .ok (percent1, out1))
    (c : Fin C) : out1 c - deposit1 c = k * (out c - deposit c) := by
  obtain ⟨a1, a2, a3, hC, a4⟩ := hemipelagic_mud expf sqrtf P hwb dx dt x z deposit dz sl s percent out h
  obtain ⟨b1, b2, b3, hC', b4⟩ :=
    hemipelagic_mud expf sqrtf P hwb dx (k * dt) x z deposit1 dz1 sl s percent1 out1 h1
  by_cases hc : x c < s
  · rw [a1 c hc, b1 c hc]; ring
  have hc := not_lt.mp hc
  by_cases ha : sl - z c ≤ P.waveBase
  · rw [a2 c hc ha, b2 c hc ha]; ring
  have ha := not_le.mp ha
  by_cases hb : sl - z c < 2 * P.waveBase
  · rw [a3 c hc ha hb, b3 c hc ha hb]; ring
  · rw [a4 c hc (not_lt.mp hb), b4 c hc (not_lt.mp hb)]
    rw [show P.hemi * (k * dt) = k * (P.hemi * dt) by ring, mul_assoc k, ← mul_zero k,
      ← mul_max_of_nonneg _ _ hk, mul_zero]
    ring

/-! ### C70, C71 -/

/-- The depth of a channel on a plain that slopes down towards the sea. -/
theorem channelDepth_num (P : FluvialParams K) (slope : K) (h : slope ≠ 0) :
    channelDepth P slope = .num ((P.sandDensity - 1000) / 1000000 / slope) := by
  unfold channelDepth
  rw [num_div _ _ h]
  congr 1
  ring

/-- C70 is false: a channel on a plain that slopes down towards the sea is always taken to be
meandering, however steep the plain: its depth is negative. -/
theorem never_braided (P : FluvialParams K) (hrho : 1000 < P.sandDensity) (width slope : K)
    (hw : 0 < width) (hs : slope < 0) :
    channelEpsilon (.num width) (channelDepth P slope) = .num (1/8) ∧
    ∃ d, channelDepth P slope = .num d ∧ d < 0 := by
  rw [channelDepth_num P slope hs.ne]
  have hneg : (P.sandDensity - 1000) / 1000000 / slope < 0 :=
    div_neg_of_pos_of_neg (div_pos (by linarith) (by norm_num)) hs
  refine ⟨?_, _, rfl, hneg⟩
  unfold channelEpsilon
  rw [num_div _ _ hneg.ne, lt_num, if_neg]
  rw [decide_eq_true_eq, not_lt]
  exact (div_neg_of_pos_of_neg hw hneg).le.trans (by norm_num)

/-- C70, partial: on a plain that slopes down landward a channel is braided exactly if it is more
than 75 times as wide as deep. -/
theorem braided_partial (P : FluvialParams K) (hrho : 1000 < P.sandDensity) (width slope : K)
    (hs : 0 < slope) :
    channelEpsilon (.num width) (channelDepth P slope) =
      if 75 * ((P.sandDensity - 1000) / 1000000 / slope) < width then .num (2/5) else .num (1/8) := by
  rw [channelDepth_num P slope hs.ne']
  have hpos : 0 < (P.sandDensity - 1000) / 1000000 / slope :=
    div_pos (div_pos (by linarith) (by norm_num)) hs
  unfold channelEpsilon
  rw [num_div _ _ hpos.ne', lt_num]
  by_cases h : 75 * ((P.sandDensity - 1000) / 1000000 / slope) < width
  · rw [if_pos h, if_pos (by rw [decide_eq_true_eq, lt_div_iff₀ hpos]; exact h)]
    norm_num
  · rw [if_neg h, if_neg (by rw [decide_eq_true_eq, lt_div_iff₀ hpos]; exact h)]

/-- The sand fraction of a node with a deposit on a plain that slopes down towards the sea. -/
theorem nodeSand_seaward (P : FluvialParams ℝ) (hrho : 1000 < P.sandDensity) (width slope conc deposit : ℝ)
    (hw : 0 < width) (hs : slope < 0) (hc : 0 ≤ conc) (hd : 0 < deposit) :
    nodeSand Real.exp (.num width) (channelDepth P slope) (.num conc) (.num (1/8)) deposit =
      .num (1 - Real.exp (-(width / 1250 * (25/16 + 9/4 *
        ((P.sandDensity - 1000) / 1000000 / -slope * conc / (10 * deposit)))))) := by
  obtain ⟨heps, d, hdep, hneg⟩ := never_braided P hrho width slope hw hs
  have hd' : d = (P.sandDensity - 1000) / 1000000 / slope := by
    rw [channelDepth_num P slope hs.ne] at hdep
    exact (XNum.num.inj hdep).symm
  have hdne : deposit ≠ 0 := hd.ne'
  unfold nodeSand
  dsimp only
  rw [heps, hdep]
  have hr : 1/10 * d / 10 * conc ≤ 0 := by nlinarith
  have hu : 0 ≤ -(10 * (1/10 * d / 10 * conc)) / deposit := div_nonneg (by linarith) hd.le
  have e1 : (num deposit * num (1/8) : XNum ℝ) = num (deposit / 8) := by rw [num_mul]; congr 1; ring
  have e2 : (num (1/10) * num d / num 10 * num conc : XNum ℝ) = num (1/10 * d / 10 * conc) := by
    rw [num_mul, num_div _ _ (by norm_num), num_mul]
  rw [e1, e2]
  rw [if_neg (show ¬ XNum.lt (num (deposit / 8)) (num 0) = true by
    rw [lt_num, decide_eq_true_eq]; linarith)]
  rw [if_neg (show ¬ XNum.lt (num (deposit / 8)) (num (1/10 * d / 10 * conc)) = true by
    rw [lt_num, decide_eq_true_eq]; linarith)]
  rw [if_pos hd]
  have e3 : (num 10 * (num (deposit / 8) - num (1/10 * d / 10 * conc)) / num deposit : XNum ℝ) =
      num (5/4 + -(10 * (1/10 * d / 10 * conc)) / deposit) := by
    rw [num_sub, num_mul, num_div _ _ hdne]
    congr 1
    field_simp
    ring
  rw [e3]
  generalize hudef : -(10 * (1/10 * d / 10 * conc)) / deposit = u at hu ⊢
  rw [if_pos (show XNum.lt (num 1) (num (5/4 + u)) = true by
    rw [lt_num, decide_eq_true_eq]; linarith)]
  rw [num_mul]
  have hpos : 0 < deposit / 8 * (5/4 + u) := mul_pos (by linarith) (by linarith)
  rw [if_neg (show ¬ XNum.le (num (deposit / 8 * (5/4 + u))) (num 0) = true by
    rw [le_num, decide_eq_true_eq]; linarith)]
  have hr' : 1/10 * d / 10 * conc = -(u * deposit / 10) := by
    rw [← hudef]
    field_simp
  have e4 : (num 10 * (num (deposit / 8 * (5/4 + u)) - num (1/10 * d / 10 * conc)) / num deposit : XNum ℝ) =
      num (25/16 + 9/4 * u) := by
    rw [hr', num_sub, num_mul, num_div _ _ hdne]
    congr 1
    field_simp
    ring
  rw [e4]
  have e5 : (num (-1) * (num width / num (1/8)) / num 10000 * num (25/16 + 9/4 * u) : XNum ℝ) =
      num (-(width / 1250 * (25/16 + 9/4 * u))) := by
    rw [num_div _ _ (by norm_num), num_mul, num_div _ _ (by norm_num), num_mul]
    congr 1
    ring
  rw [e5, exp_num, num_sub]
  unfold clipPercent
  dsimp only
  have hexp := Real.exp_pos (-(width / 1250 * (25/16 + 9/4 * u)))
  have hexp1 : Real.exp (-(width / 1250 * (25/16 + 9/4 * u))) ≤ 1 := by
    apply Real.exp_le_one_iff.mpr
    have : 0 ≤ width / 1250 * (25/16 + 9/4 * u) := by positivity
    linarith
  rw [if_neg (show ¬ XNum.lt (num 1) (num (1 - Real.exp (-(width / 1250 * (25/16 + 9/4 * u))))) = true by
    rw [lt_num, decide_eq_true_eq]; linarith)]
  rw [if_neg (show ¬ XNum.lt (num (1 - Real.exp (-(width / 1250 * (25/16 + 9/4 * u))))) (num 0) = true by
    rw [lt_num, decide_eq_true_eq]; linarith)]
  have hu2 : u = (P.sandDensity - 1000) / 1000000 / -slope * conc / (10 * deposit) := by
    rw [← hudef, hd']
    have : slope ≠ 0 := hs.ne
    have : -slope ≠ 0 := neg_ne_zero.mpr this
    field_simp
  rw [hu2]

/-- C71 is false: on a plain that slopes down towards the sea, a node gets a strictly larger sand
fraction from a muddier river. -/
theorem muddier_is_sandier (P : FluvialParams ℝ) (hrho : 1000 < P.sandDensity)
    (width slope conc conc' deposit : ℝ) (hw : 0 < width) (hs : slope < 0) (hc : 0 ≤ conc)
    (hcc : conc < conc') (hd : 0 < deposit) :
    ∃ p p', nodeSand Real.exp (.num width) (channelDepth P slope) (.num conc) (.num (1/8)) deposit
        = .num p ∧
      nodeSand Real.exp (.num width) (channelDepth P slope) (.num conc') (.num (1/8)) deposit
        = .num p' ∧ p < p' := by
  refine ⟨_, _, nodeSand_seaward P hrho width slope conc deposit hw hs hc hd,
    nodeSand_seaward P hrho width slope conc' deposit hw hs (hc.trans hcc.le) hd, ?_⟩
  have hden : 0 < (P.sandDensity - 1000) / 1000000 / -slope :=
    div_pos (div_pos (by linarith) (by norm_num)) (by linarith)
  have h1 : (P.sandDensity - 1000) / 1000000 / -slope * conc / (10 * deposit) <
      (P.sandDensity - 1000) / 1000000 / -slope * conc' / (10 * deposit) := by
    apply div_lt_div_of_pos_right _ (by linarith)
    exact mul_lt_mul_of_pos_left hcc hden
  have h2 : width / 1250 * (25/16 + 9/4 * ((P.sandDensity - 1000) / 1000000 / -slope * conc / (10 * deposit))) <
      width / 1250 * (25/16 + 9/4 * ((P.sandDensity - 1000) / 1000000 / -slope * conc' / (10 * deposit))) := by
    apply mul_lt_mul_of_pos_left _ (by linarith)
    linarith
  have := Real.exp_lt_exp.mpr (neg_lt_neg h2)
  linarith

/-- If the bedrock does not rise on land, the river carries the same concentration of mud all the
way and the sand fraction of a node depends on its own deposit and slope only. -/
theorem sand_fraction_local (expf sqrtf : K → K) (P : FluvialParams K) (dx dt : K)
    (x z deposit dz : Fin C → K) (hx : ∀ i j : Fin C, i ≤ j → x i ≤ x j) (sl s : K)
    (percent : Fin C → XNum K) (deposit' : Fin C → K) (hdz : ∀ c, x c < s → dz c ≤ 0)
    (h : fluvialRow expf sqrtf P dx dt x z deposit dz sl (.ok s) = .ok (percent, deposit'))
    (c : Fin C) (hc : x c < s) :
    ∃ h0 : 0 < C, percent c = nodeSand expf (channelWidth sqrtf P) (channelDepth P (npGradient z c / dx))
      (.num (61/100 * P.plainSlope * (1 - P.sandFrac) / P.sandFrac))
      (channelEpsilon (channelWidth sqrtf P) (channelDepth P (npGradient z ⟨0, h0⟩ / dx)))
      (deposit c) := by
  obtain ⟨s', hC, hs, h1, h2, h3, hl, -⟩ := fluvialRow_ok h
  cases hs
  have h0 : 0 < C := by omega
  refine ⟨h0, ?_⟩
  have hfirst : x ⟨0, h0⟩ < s := lt_of_le_of_lt (hx _ c (Fin.le_def.mpr (Nat.zero_le _))) hc
  rw [if_pos hfirst] at hl
  have hqw : P.load / P.plainSlope / (61/100) ≠ 0 := div_ne_zero (div_ne_zero h3 h2) (by norm_num)
  have hcon : P.load * (1 - P.sandFrac) / P.sandFrac / (P.load / P.plainSlope / (61/100)) =
      61/100 * P.plainSlope * (1 - P.sandFrac) / P.sandFrac := by
    field_simp
  generalize channelEpsilon (channelWidth sqrtf P) (channelDepth P (npGradient z ⟨0, h0⟩ / dx)) = eps at hl ⊢
  have key : ∀ (l : List (Fin C)) (a : ℕ), l.Pairwise (· < ·) → (∀ i ∈ l, a ≤ i.val) →
      (∀ i ∈ l, ∀ j : Fin C, a ≤ j.val → j ≤ i → j ∈ l) → (∀ i ∈ l, x i < s) →
      ∀ (conc percent q : Fin C → XNum K),
      (∀ i : Fin C, i.val = a → conc i = .num (61/100 * P.plainSlope * (1 - P.sandFrac) / P.sandFrac)) →
      fluvialLoop expf P (channelWidth sqrtf P) eps dx dt (P.load / P.plainSlope / (61/100))
        (fun i => npGradient z i / dx) deposit dz l (.num (P.load * (1 - P.sandFrac) / P.sandFrac)) conc
        percent = .ok q →
      (∀ i, i ∉ l → q i = percent i) ∧
      ∀ i ∈ l, q i = nodeSand expf (channelWidth sqrtf P) (channelDepth P (npGradient z i / dx))
        (.num (61/100 * P.plainSlope * (1 - P.sandFrac) / P.sandFrac)) eps (deposit i) := by
    intro l
    induction l with
    | nil =>
      intro a _ _ _ _ conc percent q _ hq
      cases hq
      exact ⟨fun _ _ => rfl, fun i hi => absurd hi (by simp)⟩
    | cons i rest ih =>
      intro a hsort hge hclosed hland conc percent q hconc hq
      rw [List.pairwise_cons] at hsort
      have hia : i.val = a := by
        by_contra hne
        have hlt : a < i.val := lt_of_le_of_ne (hge i (by simp)) (Ne.symm hne)
        have hmem := hclosed i (by simp) ⟨a, by have := i.isLt; omega⟩ le_rfl (Fin.le_def.mpr hlt.le)
        rcases List.mem_cons.mp hmem with heq | hmem
        · have := congrArg Fin.val heq
          dsimp only at this
          omega
        · have := Fin.lt_def.mp (hsort.1 _ hmem)
          dsimp only at this
          omega
      rw [fluvialLoop] at hq
      dsimp only at hq
      by_cases hi : i.val + 1 < C
      swap
      · rw [dif_neg hi] at hq; cases hq
      rw [dif_pos hi, if_neg (not_lt.mpr (hdz i (hland i (by simp)))), num_div _ _ hqw, hcon] at hq
      obtain ⟨i1, i2⟩ := ih (a + 1) hsort.2
        (fun j hj => by have := Fin.lt_def.mp (hsort.1 j hj); omega)
        (by
          intro j hj k hk hkj
          rcases List.mem_cons.mp (hclosed j (by simp [hj]) k (by omega) hkj) with heq | hmem
          · rw [heq] at hk; omega
          · exact hmem)
        (fun j hj => hland j (by simp [hj])) _ _ q
        (by
          intro j hj
          have : j = ⟨i.val + 1, hi⟩ := Fin.ext (by dsimp only; omega)
          rw [this, Function.update_self]) hq
      refine ⟨fun j hj => ?_, fun j hj => ?_⟩
      · rw [List.mem_cons, not_or] at hj
        rw [i1 j hj.2, Function.update_of_ne hj.1]
      · rcases List.mem_cons.mp hj with rfl | hj
        · have hnot : j ∉ rest := fun hm => lt_irrefl _ (hsort.1 j hm)
          rw [i1 j hnot, Function.update_self, hconc j hia]
        · exact i2 j hj
  refine (key _ 0 ((List.pairwise_lt_finRange C).filter _) (fun _ _ => Nat.zero_le _) ?_ ?_ _ _ _ ?_ hl).2
    c (by simp [hc])
  · intro i hi j _ hji
    have := (List.mem_filter.mp hi).2
    rw [decide_eq_true_eq] at this
    simp [lt_of_le_of_lt (hx j i hji) this]
  · intro i hi
    simpa using (List.mem_filter.mp hi).2
  · intro i hi
    rw [if_pos (Fin.ext hi), hcon]

/-- The width of the channel. -/
theorem channelWidth_pos (P : FluvialParams ℝ) (hrho : 1000 < P.sandDensity) (hload : 0 < P.load) :
    ∃ w, channelWidth Real.sqrt P = .num w ∧ 0 < w := by
  have harg : 0 < 98/10 * (P.sandDensity / 1000 - 1) := by
    have : 1 < P.sandDensity / 1000 := by rw [lt_div_iff₀ (by norm_num)]; linarith
    have : 0 < P.sandDensity / 1000 - 1 := by linarith
    positivity
  have hsq := Real.sqrt_pos.mpr harg
  have hq : 0 < 10 * Real.sqrt (98/10 * (P.sandDensity / 1000 - 1)) * (1/1000) := by positivity
  unfold channelWidth XNum.sqrt
  dsimp only
  rw [if_neg (not_lt.mpr harg.le), num_mul, num_mul, num_div _ _ hq.ne']
  exact ⟨_, rfl, div_pos hload hq⟩

/-- C71 is false, for every profile: on a plain that slopes down towards the sea and does not rise,
if the river carries a smaller fraction of sand, every node on land with a deposit is given a
strictly larger fraction of sand. -/
theorem muddier_river_sandier_plain (P : FluvialParams ℝ) (hrho : 1000 < P.sandDensity)
    (hload : 0 < P.load) (hps : 0 < P.plainSlope) (sf' : ℝ) (hsf' : 0 < sf') (hlt : sf' < P.sandFrac)
    (hsf : P.sandFrac ≤ 1) (dx dt : ℝ) (x z deposit dz : Fin C → ℝ)
    (hx : ∀ i j : Fin C, i ≤ j → x i ≤ x j) (sl s : ℝ)
    (hslope : ∀ c, x c < s → npGradient z c / dx < 0) (hdz : ∀ c, x c < s → dz c ≤ 0)
    (percent percent' : Fin C → XNum ℝ) (out out' : Fin C → ℝ)
    (h : fluvialRow Real.exp Real.sqrt P dx dt x z deposit dz sl (.ok s) = .ok (percent, out))
    (h' : fluvialRow Real.exp Real.sqrt { P with sandFrac := sf' } dx dt x z deposit dz sl (.ok s) =
      .ok (percent', out')) (c : Fin C) (hc : x c < s) (hd : 0 < deposit c) :
    ∃ p p', percent c = .num p ∧ percent' c = .num p' ∧ p < p' := by
  obtain ⟨w, hw, hwpos⟩ := channelWidth_pos P hrho hload
  obtain ⟨h0, hp⟩ := sand_fraction_local _ _ P dx dt x z deposit dz hx sl s percent out hdz h c hc
  obtain ⟨h0', hp'⟩ := sand_fraction_local _ _ { P with sandFrac := sf' } dx dt x z deposit dz hx sl s
    percent' out' hdz h' c hc
  have hfirst : x ⟨0, h0⟩ < s := lt_of_le_of_lt (hx _ c (Fin.le_def.mpr (Nat.zero_le _))) hc
  have heps := (never_braided P hrho w _ hwpos (hslope ⟨0, h0⟩ hfirst)).1
  have hw' : channelWidth Real.sqrt { P with sandFrac := sf' } = .num w := hw
  have hdep' : ∀ slope, channelDepth { P with sandFrac := sf' } slope = channelDepth P slope := fun _ => rfl
  rw [hw, heps] at hp
  rw [hw', hdep', hdep', heps] at hp'
  rw [hp, hp']
  refine muddier_is_sandier P hrho w _ _ _ (deposit c) hwpos (hslope c hc) ?_ ?_ hd
  · exact div_nonneg (mul_nonneg (by positivity) (by linarith)) (by linarith)
  · dsimp only
    rw [div_lt_div_iff₀ (by linarith) hsf']
    have : 0 < 61/100 * P.plainSlope := by positivity
    nlinarith

/-! ### Examples -/

/-- Sand of density 2650, river with half sand. -/
def exFluvial : FluvialParams ℚ where
  sandFrac := 1/2
  waveBase := 10
  load := 3
  sandDensity := 2650
  plainSlope := 1/1000
  hemi := 1/100

/-- A row of six nodes 1 km apart, two of them on land. -/
def exFluvialRow (P : FluvialParams ℚ) (z : Fin 6 → ℚ) :
    Except Err ((Fin 6 → XNum ℚ) × (Fin 6 → ℚ)) :=
  fluvialRow (fun _ => 1/3) (fun _ => 4) P 1000 100 (fun i => 1000 * i.val) z (fun _ => 1)
    (fun _ => 0) 0 (.ok 2000)

/-- C41, C42, C43: fractions on land, zeros under water although sand was deposited there; no
mud, a ramp, and the taper. -/
example : (exFluvialRow exFluvial ![2, 1, 0, -15, -20, -30]).toOption.map
    (fun o => (List.ofFn o.1, List.ofFn o.2)) =
    some ([.num (2/3), .num (2/3), .num 0, .num 0, .num 0, .num 0],
      [1, 1, 1, 3/2, 2 - 1/100, 2 - 2/100]) := by decide +kernel

/-- C42: what one would expect at the third node. -/
example : expectedOffshore (1 : ℚ) 1 = 1 := by decide +kernel

/-- C41 is false on a flat plain when the river carries no mud: NaN. -/
theorem flat_plain_nan : (exFluvialRow { exFluvial with sandFrac := 1 } ![1, 1, 0, -15, -20, -30]).toOption.map
    (fun o => o.1 0) = some .nan := by decide +kernel

/-- C43: at the first node, if it is deep, the mud exceeds `hemi * dt = 1`. -/
theorem first_node_mud : (fluvialRow (fun _ => 1/3) (fun _ => (4 : ℚ)) exFluvial 1000 100
    (fun i : Fin 3 => 1000 * i.val) (fun _ => -100) (fun _ => 0) (fun _ => 0) 0 (.ok 0)).toOption.map
    (fun o => List.ofFn o.2) = some [101/100, 1, 99/100] := by decide +kernel

/-- The hypotheses of `never_braided` on a very steep plain. -/
example : channelEpsilon (.num (10 : ℚ)) (channelDepth exFluvial (-1)) = .num (1/8) ∧
    channelEpsilon (.num (10 : ℚ)) (channelDepth exFluvial 1) = .num (4/10) := by decide +kernel

/-- The hypotheses of `muddier_river_sandier_plain`: both steps succeed on a sloping row. -/
example : ∃ (percent percent' : Fin 4 → XNum ℝ) (out out' : Fin 4 → ℝ),
    fluvialRow Real.exp Real.sqrt (⟨1/2, 10, 3, 2650, 1/1000, 0⟩ : FluvialParams ℝ) 1 1
      (fun i => i.val) (fun i => 1 - i.val) (fun _ => 1) (fun _ => 0) 0 (.ok 1) = .ok (percent, out) ∧
    fluvialRow Real.exp Real.sqrt (⟨1/4, 10, 3, 2650, 1/1000, 0⟩ : FluvialParams ℝ) 1 1
      (fun i => i.val) (fun i => 1 - i.val) (fun _ => 1) (fun _ => 0) 0 (.ok 1) = .ok (percent', out') ∧
    ((0 : Fin 4).val : ℝ) < 1 ∧ npGradient (fun i : Fin 4 => 1 - (i.val : ℝ)) 0 / 1 < 0 := by
  obtain ⟨⟨p, o⟩, h⟩ := fluvial_in_range Real.exp Real.sqrt
    (⟨1/2, 10, 3, 2650, 1/1000, 0⟩ : FluvialParams ℝ) 1 1
    (fun i : Fin 4 => (i.val : ℝ)) (fun i => 1 - i.val) (fun _ => 1) (fun _ => 0) 0 1 (by norm_num)
    (by norm_num) (by norm_num) (by norm_num) (by
      intro c hc
      have : c.val = 3 := by omega
      rw [this]; norm_num)
  obtain ⟨⟨p', o'⟩, h'⟩ := fluvial_in_range Real.exp Real.sqrt
    (⟨1/4, 10, 3, 2650, 1/1000, 0⟩ : FluvialParams ℝ) 1 1
    (fun i : Fin 4 => (i.val : ℝ)) (fun i => 1 - i.val) (fun _ => 1) (fun _ => 0) 0 1 (by norm_num)
    (by norm_num) (by norm_num) (by norm_num) (by
      intro c hc
      have : c.val = 3 := by omega
      rw [this]; norm_num)
  exact ⟨p, p', o, o', h, h', by norm_num, by unfold npGradient; norm_num⟩

end Verif.Props
