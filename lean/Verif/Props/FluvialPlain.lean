import Verif.Props.Fluvial

/-!
# The mud the river carries across the plain (C87), and the sand fraction of an even plain
-/

set_option autoImplicit false
set_option linter.unusedSectionVars false

namespace Verif.Spec

variable {K : Type*} {C : ℕ} [Field K] [LinearOrder K]

/-- The mud of a bed of mean thickness `(a + b) / 2` and length `dx` that is a fraction `p` sand, per
unit of time. -/
def mudOfBed (p dx a b dt : K) : K := (1 - p) * (dx * ((a + b) / 2)) / dt

/-- The next node of the row, and zero past its end. -/
def nextOf (f : Fin C → K) (i : Fin C) : K := if h : i.val + 1 < C then f ⟨i.val + 1, h⟩ else 0

/-- The mud in what `thick` says of the nodes upstream of `c`, where it is positive. -/
def mudUpstream (p thick : Fin C → K) (dx dt : K) (c : Fin C) : K :=
  (((List.finRange C).filter fun j => j < c ∧ 0 < thick j).map fun j =>
    mudOfBed (p j) dx (thick j) (nextOf thick j) dt).sum

end Verif.Spec

namespace Verif.Props

open Verif Verif.XNum

variable {K : Type*} {C : ℕ} [Field K] [LinearOrder K] [IsStrictOrderedRing K]

/-! ### The slope of an even plain -/

/-- The slope of a plain that falls by `g` per metre is `-g` at every node, those at its ends
included. -/
theorem even_plain_slope (a g dx : K) (hdx : dx ≠ 0) (hC : 1 < C) (i : Fin C) :
    npGradient (fun j : Fin C => a - g * (dx * j.val)) i / dx = -g := by
  have hi := i.isLt
  rw [div_eq_iff hdx]
  unfold npGradient
  by_cases h1 : i.val + 1 < C
  · rw [dif_pos h1]
    by_cases h0 : i.val = 0
    · rw [if_pos h0]
      push_cast
      ring
    · rw [if_neg h0]
      have : (((i.val - 1 : ℕ) : K)) = i.val - 1 := by
        rw [Nat.cast_sub (by omega)]; norm_num
      dsimp only
      rw [this]
      push_cast
      ring
  · rw [dif_neg h1, dif_pos (by omega : 0 < i.val)]
    have : (((i.val - 1 : ℕ) : K)) = i.val - 1 := by
      rw [Nat.cast_sub (by omega)]; norm_num
    dsimp only
    rw [this]
    ring

/-- The sand fraction at every node of an even plain whose bedrock does not rise, where there is
a deposit. -/
theorem even_plain_sand (P : FluvialParams ℝ) (hrho : 1000 < P.sandDensity) (hload : 0 < P.load)
    (hps : 0 < P.plainSlope) (hsf : 0 < P.sandFrac) (hsf1 : P.sandFrac ≤ 1) (a g dx dt : ℝ)
    (hg : 0 < g) (hdx : 0 < dx) (deposit dz : Fin C → ℝ) (sl s : ℝ)
    (hdz : ∀ c : Fin C, dx * c.val < s → dz c ≤ 0) (percent : Fin C → XNum ℝ) (out : Fin C → ℝ)
    (h : fluvialRow Real.exp Real.sqrt P dx dt (fun j => dx * j.val)
      (fun j => a - g * (dx * j.val)) deposit dz sl (.ok s) = .ok (percent, out))
    (c : Fin C) (hc : dx * c.val < s) (hd : 0 < deposit c) :
    percent c = .num (1 - Real.exp (-(
      P.load / (10 * Real.sqrt (98/10 * (P.sandDensity / 1000 - 1)) / 1000) / 1250 *
      (25/16 + 9/4 * ((P.sandDensity - 1000) / 1000000 / g *
        (61/100 * P.plainSlope * (1 - P.sandFrac) / P.sandFrac) / (10 * deposit c)))))) := by
  have hC : 1 < C := by
    obtain ⟨_, hC, _⟩ := fluvialRow_ok h
    exact hC
  obtain ⟨h0, hp⟩ := sand_fraction_local _ _ P dx dt _ _ deposit dz (by
    intro i j hij
    have : (i.val : ℝ) ≤ j.val := by exact_mod_cast hij
    exact mul_le_mul_of_nonneg_left this hdx.le) sl s percent out hdz h c hc
  have harg : 0 < 98/10 * (P.sandDensity / 1000 - 1) := by
    have : 1 < P.sandDensity / 1000 := by rw [lt_div_iff₀ (by norm_num)]; linarith
    nlinarith
  have hq : 0 < 10 * Real.sqrt (98/10 * (P.sandDensity / 1000 - 1)) / 1000 := by
    have := Real.sqrt_pos.mpr harg
    positivity
  have hw : channelWidth Real.sqrt P =
      .num (P.load / (10 * Real.sqrt (98/10 * (P.sandDensity / 1000 - 1)) / 1000)) := by
    unfold channelWidth
    dsimp only
    have : XNum.sqrt Real.sqrt (num (98/10 * (P.sandDensity / 1000 - 1))) =
        num (Real.sqrt (98/10 * (P.sandDensity / 1000 - 1))) := if_neg (not_lt.mpr harg.le)
    rw [this, num_mul, num_mul, num_div _ _ (by
      have : 10 * Real.sqrt (98/10 * (P.sandDensity / 1000 - 1)) * (1/1000) =
          10 * Real.sqrt (98/10 * (P.sandDensity / 1000 - 1)) / 1000 := by ring
      rw [this]
      exact hq.ne')]
    congr 2
    ring
  have hwpos : 0 < P.load / (10 * Real.sqrt (98/10 * (P.sandDensity / 1000 - 1)) / 1000) :=
    div_pos hload hq
  rw [even_plain_slope a g dx hdx.ne' hC, even_plain_slope a g dx hdx.ne' hC, hw,
    (never_braided P hrho _ (-g) hwpos (by linarith)).1] at hp
  rw [hp, nodeSand_seaward P hrho _ (-g) _ (deposit c) hwpos (by linarith) _ hd, neg_neg]
  exact div_nonneg (mul_nonneg (by positivity) (by linarith)) hsf.le

/-! ### C87 -/

/-- The loop, with the mud that reaches each node. -/
theorem fluvialLoop_mud (expf : K → K) (P : FluvialParams K) (width eps : XNum K) (dx dt qw : K)
    (hdt : dt ≠ 0) (hqw : qw ≠ 0) (slope deposit dz p : Fin C → K) (l : List (Fin C)) :
    ∀ (a : ℕ) (_ : l.Pairwise (· < ·)) (_ : ∀ i ∈ l, a ≤ i.val)
      (_ : ∀ i ∈ l, ∀ j : Fin C, a ≤ j.val → j ≤ i → j ∈ l) (m : K)
      (conc percent q : Fin C → XNum K) (_ : ∀ i : Fin C, i.val = a → conc i = .num (m / qw))
      (_ : fluvialLoop expf P width eps dx dt qw slope deposit dz l (.num m) conc percent = .ok q)
      (_ : ∀ i ∈ l, q i = .num (p i)),
      (∀ i, i ∉ l → q i = percent i) ∧
      ∀ i ∈ l, q i = nodeSand expf width (channelDepth P (slope i))
        (.num ((m - ((l.filter fun j => j < i ∧ 0 < dz j).map fun j =>
          Spec.mudOfBed (p j) dx (dz j) (Spec.nextOf dz j) dt).sum) / qw)) eps (deposit i) := by
  induction l with
  | nil =>
    intro a _ _ _ m conc percent q _ hq _
    cases hq
    exact ⟨fun _ _ => rfl, fun i hi => absurd hi (by simp)⟩
  | cons i rest ih =>
    intro a hsort hge hclosed m conc percent q hconc hq hp
    rw [List.pairwise_cons] at hsort
    have hia : i.val = a := by
      by_contra hne
      have hlt : a < i.val := lt_of_le_of_ne (hge i (by simp)) (Ne.symm hne)
      have hmem := hclosed i (by simp) ⟨a, by have := i.isLt; omega⟩ le_rfl (Fin.le_def.mpr hlt.le)
      rcases List.mem_cons.mp hmem with heq | hmem
      · have := congrArg Fin.val heq
        dsimp only at this
        omega
      · have := Fin.lt_def.mp (hsort.1 _ hmem)
        dsimp only at this
        omega
    have hnot : i ∉ rest := fun hm => lt_irrefl _ (hsort.1 i hm)
    rw [fluvialLoop] at hq
    dsimp only at hq
    by_cases hi : i.val + 1 < C
    swap
    · rw [dif_neg hi] at hq; cases hq
    rw [dif_pos hi] at hq
    have hnode : nodeSand expf width (channelDepth P (slope i)) (conc i) eps (deposit i) =
        .num (p i) := by
      have hkeep : ∀ (l : List (Fin C)) (mud : XNum K) (conc percent q : Fin C → XNum K),
          fluvialLoop expf P width eps dx dt qw slope deposit dz l mud conc percent = .ok q →
          ∀ j, j ∉ l → q j = percent j := by
        intro l
        induction l with
        | nil => intro _ _ _ _ h j _; cases h; rfl
        | cons k l ih =>
          intro mud conc percent q h j hj
          rw [fluvialLoop] at h
          dsimp only at h
          rw [List.mem_cons, not_or] at hj
          by_cases hk : k.val + 1 < C
          · rw [dif_pos hk] at h
            rw [ih _ _ _ _ h j hj.2, Function.update_of_ne hj.1]
          · rw [dif_neg hk] at h; cases h
      have := hkeep _ _ _ _ _ hq i hnot
      rw [Function.update_self] at this
      rw [← this]
      exact hp i (by simp)
    have hmud : (if 0 < dz i then
          num m - (num 1 - nodeSand expf width (channelDepth P (slope i)) (conc i) eps (deposit i)) *
            num dx * num (dz i + dz ⟨i.val + 1, hi⟩) / num 2 / num dt
        else num m : XNum K) =
        num (m - if 0 < dz i then Spec.mudOfBed (p i) dx (dz i) (Spec.nextOf dz i) dt else 0) := by
      rw [hnode]
      by_cases hz : 0 < dz i
      · rw [if_pos hz, if_pos hz, num_sub, num_mul, num_mul, num_div _ _ (by norm_num),
          num_div _ _ hdt, num_sub]
        unfold Spec.mudOfBed Spec.nextOf
        rw [dif_pos hi]
        congr 2
        ring
      · rw [if_neg hz, if_neg hz, sub_zero]
    rw [hmud, num_div _ _ hqw] at hq
    obtain ⟨i1, i2⟩ := ih (a + 1) hsort.2
      (fun j hj => by have := Fin.lt_def.mp (hsort.1 j hj); omega)
      (by
        intro j hj k hk hkj
        rcases List.mem_cons.mp (hclosed j (by simp [hj]) k (by omega) hkj) with heq | hmem
        · rw [heq] at hk; omega
        · exact hmem)
      _ _ _ q
      (by
        intro j hj
        have : j = ⟨i.val + 1, hi⟩ := Fin.ext (by dsimp only; omega)
        rw [this, Function.update_self]) hq
      (fun j hj => hp j (by simp [hj]))
    refine ⟨fun j hj => ?_, fun j hj => ?_⟩
    · rw [List.mem_cons, not_or] at hj
      rw [i1 j hj.2, Function.update_of_ne hj.1]
    · rcases List.mem_cons.mp hj with rfl | hj
      · rw [i1 j hnot, Function.update_self, hconc j hia]
        have : (j :: rest).filter (fun k => k < j ∧ 0 < dz k) = [] := by
          rw [List.filter_eq_nil_iff]
          intro k hk hlt
          have hlt := (of_decide_eq_true hlt).1
          rcases List.mem_cons.mp hk with rfl | hk
          · exact lt_irrefl _ hlt
          · exact lt_irrefl _ (hlt.trans (hsort.1 k hk))
        rw [this, List.map_nil, List.sum_nil, sub_zero]
      · rw [i2 j hj]
        congr 3
        have hij : i < j := hsort.1 j hj
        rw [List.filter_cons]
        by_cases hz : 0 < dz i
        · rw [if_pos hz, if_pos (by simp [hij, hz]), List.map_cons, List.sum_cons]
          ring
        · rw [if_neg hz, if_neg (by simp [hz]), sub_zero]

/-- C87, partial: the concentration of mud in the river at a node is what it was at the head, less
the mud in the *rise of the bedrock* upstream, where that is positive: not the mud in what the
river deposited there. -/
theorem mud_budget_partial (expf sqrtf : K → K) (P : FluvialParams K) (dx dt : K) (hdt : dt ≠ 0)
    (x z deposit dz p : Fin C → K) (hx : ∀ i j : Fin C, i ≤ j → x i ≤ x j) (sl s : K)
    (percent : Fin C → XNum K) (deposit' : Fin C → K)
    (h : fluvialRow expf sqrtf P dx dt x z deposit dz sl (.ok s) = .ok (percent, deposit'))
    (hp : ∀ c, x c < s → percent c = .num (p c)) (c : Fin C) (hc : x c < s) :
    ∃ h0 : 0 < C, percent c = nodeSand expf (channelWidth sqrtf P) (channelDepth P (npGradient z c / dx))
      (.num ((P.load * (1 - P.sandFrac) / P.sandFrac - Spec.mudUpstream p dz dx dt c) /
        (P.load / P.plainSlope / (61/100))))
      (channelEpsilon (channelWidth sqrtf P) (channelDepth P (npGradient z ⟨0, h0⟩ / dx)))
      (deposit c) := by
  obtain ⟨s', hC, hs, h1, h2, h3, hl, -⟩ := fluvialRow_ok h
  cases hs
  have h0 : 0 < C := by omega
  refine ⟨h0, ?_⟩
  have hfirst : x ⟨0, h0⟩ < s := lt_of_le_of_lt (hx _ c (Fin.le_def.mpr (Nat.zero_le _))) hc
  rw [if_pos hfirst] at hl
  have hqw : P.load / P.plainSlope / (61/100) ≠ 0 := div_ne_zero (div_ne_zero h3 h2) (by norm_num)
  have := (fluvialLoop_mud expf P _ _ dx dt _ hdt hqw _ deposit dz p _ 0
    ((List.pairwise_lt_finRange C).filter _) (fun _ _ => Nat.zero_le _) (by
      intro i hi j _ hji
      have := (List.mem_filter.mp hi).2
      rw [decide_eq_true_eq] at this
      simp [lt_of_le_of_lt (hx j i hji) this]) _ _ _ _ (by
      intro i hi
      rw [if_pos (Fin.ext hi)]) hl (by
      intro i hi
      exact hp i (by simpa using (List.mem_filter.mp hi).2))).2 c (by simp [hc])
  rw [this]
  congr 4
  unfold Spec.mudUpstream
  rw [List.filter_filter]
  congr 2
  apply List.filter_congr
  intro j _
  by_cases hj : j < c
  · simp [hj, lt_of_le_of_lt (hx j c hj.le) hc]
  · simp [hj]

/-- C87 is false: where the bedrock does not rise, what is deposited upstream makes no difference
to what the river leaves at a node: no mud is taken out of the river. -/
theorem upstream_deposit_ignored (expf sqrtf : K → K) (P : FluvialParams K) (dx dt : K)
    (x z deposit₁ deposit₂ dz : Fin C → K) (hx : ∀ i j : Fin C, i ≤ j → x i ≤ x j) (sl s : K)
    (hdz : ∀ c, x c < s → dz c ≤ 0) (percent₁ percent₂ : Fin C → XNum K) (out₁ out₂ : Fin C → K)
    (h₁ : fluvialRow expf sqrtf P dx dt x z deposit₁ dz sl (.ok s) = .ok (percent₁, out₁))
    (h₂ : fluvialRow expf sqrtf P dx dt x z deposit₂ dz sl (.ok s) = .ok (percent₂, out₂))
    (c : Fin C) (hc : x c < s) (heq : deposit₁ c = deposit₂ c) : percent₁ c = percent₂ c := by
  obtain ⟨_, e₁⟩ := sand_fraction_local _ _ P dx dt x z deposit₁ dz hx sl s percent₁ out₁ hdz h₁ c hc
  obtain ⟨_, e₂⟩ := sand_fraction_local _ _ P dx dt x z deposit₂ dz hx sl s percent₂ out₂ hdz h₂ c hc
  rw [e₁, e₂, heq]

/-! ### Examples -/

/-- A row with two nodes on land and the given deposit and bedrock increment. -/
def exMudRow (deposit dz : Fin 6 → ℚ) : Except Err ((Fin 6 → XNum ℚ) × (Fin 6 → ℚ)) :=
  fluvialRow (fun a => if a ≤ -2 then 1/4 else 1/2) (fun _ => 4) exFluvial 1000 100
    (fun i => 1000 * i.val) ![2, 1, 0, -15, -20, -30] deposit dz 0 (.ok 2000)

/-- `upstream_deposit_ignored`: five metres or none at the head of the river, the same fraction at
the second node, although the five metres hold mud. -/
example : (exMudRow ![5, 1, 0, 0, 0, 0] (fun _ => 0)).toOption.map (fun o => List.ofFn o.1) =
      some [.num (1/2), .num (1/2), .num 0, .num 0, .num 0, .num 0] ∧
    (exMudRow ![0, 1, 0, 0, 0, 0] (fun _ => 0)).toOption.map (fun o => List.ofFn o.1) =
      some [.num 0, .num (1/2), .num 0, .num 0, .num 0, .num 0] := by decide +kernel

/-- `mud_budget_partial`: a rise of the bedrock takes mud out of the river. -/
example : Spec.mudUpstream (fun _ : Fin 6 => (1/2 : ℚ)) (fun _ => 1/5) 1000 100 1 = 1 ∧
    Spec.mudUpstream (fun _ : Fin 6 => (1/2 : ℚ)) (fun _ => -1/5) 1000 100 1 = 0 ∧
    (exMudRow ![5, 1, 0, 0, 0, 0] (fun _ => 1/5)).toOption.isSome := by decide +kernel

/-- `even_plain_slope`. -/
example : npGradient (fun j : Fin 4 => (5 : ℚ) - 2 * (10 * j.val)) 3 / 10 = -2 := by decide +kernel

/-- The hypotheses of `even_plain_sand`. -/
example : ∃ (percent : Fin 4 → XNum ℝ) (out : Fin 4 → ℝ),
    fluvialRow Real.exp Real.sqrt (⟨1/2, 10, 3, 2650, 1/1000, 0⟩ : FluvialParams ℝ) 1 1
      (fun j => 1 * j.val) (fun j => 1 - 1 * (1 * j.val)) (fun _ => 1) (fun _ => 0) 0 (.ok 1) =
      .ok (percent, out) := by
  obtain ⟨⟨p, o⟩, h⟩ := fluvial_in_range Real.exp Real.sqrt
    (⟨1/2, 10, 3, 2650, 1/1000, 0⟩ : FluvialParams ℝ) 1 1
    (fun j : Fin 4 => 1 * (j.val : ℝ)) (fun j => 1 - 1 * (1 * j.val)) (fun _ => 1) (fun _ => 0) 0 1
    (by norm_num) (by norm_num) (by norm_num) (by norm_num) (by
      intro c hc
      have : c.val = 3 := by omega
      rw [this]; norm_num)
  exact ⟨p, o, h⟩

end Verif.Props
