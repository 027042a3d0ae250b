import Verif.Lemmas.Prelude
import Verif.Lemmas.FloatRun
import Verif.Props.Clock
import Verif.Props.Float

/-!
# `Sequence.run(until, dt)` in floating point

C127: where a run to a given time ends when times are rounded, and how many updates it makes.
-/

set_option autoImplicit false
set_option linter.unusedSectionVars false

namespace Verif.Props

variable {W : Type*}

/-! ### C127 -/

/-- C127: for times on a grid of a power of two (whole years, quarters of a year, ...) of at most
2^52 units and at most 2^49 steps, a run in floating point is the run in exact arithmetic: the same
updates, with the same steps and at the same times, and the same end or the same failure. By C13 it
ends at `until`, if that is not in the past. -/
theorem float_until_exact (rnd : ℚ → ℚ)
    (hrnd : ∀ m k : ℤ, |m| ≤ 2 ^ 53 → rnd ((m : ℚ) * 2 ^ k) = m * 2 ^ k)
    (herr : ∀ x, |rnd x - x| ≤ |x| * (1 / 2 ^ 53))
    (update : ℚ → ℚ → W → Except Err W) (timeStep : ℚ) (k a b c : ℤ)
    (ha : |a| ≤ 2 ^ 52) (hb : 0 < b) (hc : |c| ≤ 2 ^ 52)
    (hn : c - a ≤ 2 ^ 49 * b) (w : W) :
    (floatRun (fun (d t : Rounded rnd) w => update d.val t.val w) ⟨timeStep⟩ ⟨a * 2 ^ k⟩ w
      (some ⟨c * 2 ^ k⟩) (some ⟨b * 2 ^ k⟩)).map (fun x => (x.1.val, x.2)) =
    seqRun update timeStep ((a : ℚ) * 2 ^ k) w (some (c * 2 ^ k)) (some (b * 2 ^ k)) := by
  have hp : (0 : ℚ) < 2 ^ k := by positivity
  have hbp : (0 : ℚ) < (b : ℚ) * 2 ^ k := by
    have : (0 : ℚ) < b := by exact_mod_cast hb
    positivity
  have ha' := abs_le.mp ha
  have hc' := abs_le.mp hc
  have hsub : ∀ t : ℤ, |t| ≤ 2 ^ 52 →
      ((⟨c * 2 ^ k⟩ - ⟨t * 2 ^ k⟩ : Rounded rnd)) = ⟨((c - t : ℤ) : ℚ) * 2 ^ k⟩ := by
    intro t ht
    have ht' := abs_le.mp ht
    refine Rounded.ext ?_
    change rnd ((c : ℚ) * 2 ^ k - t * 2 ^ k) = _
    rw [← hrnd (c - t) k (by rw [abs_le]; constructor <;> omega)]
    congr 1
    push_cast
    ring
  have hdiv : ((c - a : ℤ) : ℚ) * 2 ^ k / (b * 2 ^ k) = ((c - a : ℤ) : ℚ) / b := by
    rw [mul_div_mul_right _ _ hp.ne']
  have hq0 : ((c - a : ℤ) : ℚ) / b ≤ 2 ^ 49 := by
    rw [div_le_iff₀ (by exact_mod_cast hb)]
    exact_mod_cast hn
  rw [floatRun_eq (u := 1 / 2 ^ 53) (by norm_num) (by norm_num)
    (fun x => by rw [mul_comm]; exact herr x) _ _ _ _ _ _ (by simpa using hbp) (by
      simp only [Option.getD_some, hsub a ha]
      rw [hdiv]
      calc _ ≤ 12 * (1 / 2 ^ 53) * (2 ^ 49 : ℚ) := by gcongr
        _ ≤ 1 := by norm_num)]
  simp only [Option.getD_some, hsub a ha]
  -- the exact run
  unfold seqRun
  simp only [Option.getD_some, if_neg hbp.ne']
  have hx : (c : ℚ) * 2 ^ k - a * 2 ^ k = ((c - a : ℤ) : ℚ) * 2 ^ k := by push_cast; ring
  rw [hx]
  have hceil : (if 0 < ((c - a : ℤ) : ℚ) * 2 ^ k -
      b * 2 ^ k * ⌊((c - a : ℤ) : ℚ) * 2 ^ k / (b * 2 ^ k)⌋ then
      ⌊((c - a : ℤ) : ℚ) * 2 ^ k / (b * 2 ^ k)⌋ + 1
      else ⌊((c - a : ℤ) : ℚ) * 2 ^ k / (b * 2 ^ k)⌋) =
      ⌈((c - a : ℤ) : ℚ) * 2 ^ k / (b * 2 ^ k)⌉ := by
    set x := ((c - a : ℤ) : ℚ) * 2 ^ k
    set D := (b : ℚ) * 2 ^ k
    have h1 := (le_div_iff₀ hbp).mp (Int.floor_le (x / D))
    have h2 := (div_lt_iff₀ hbp).mp (Int.lt_floor_add_one (x / D))
    symm
    rw [Int.ceil_eq_iff]
    split_ifs with h
    · constructor
      · rw [lt_div_iff₀ hbp]; push_cast; linarith
      · rw [div_le_iff₀ hbp]; push_cast; linarith
    · constructor
      · rw [lt_div_iff₀ hbp]; linarith
      · rw [div_le_iff₀ hbp]; linarith
  rw [hceil, Int.ceil_toNat]
  set n := ⌈((c - a : ℤ) : ℚ) * 2 ^ k / (b * 2 ^ k)⌉₊ with hnn
  -- the loop
  have key : ∀ (n : ℕ) (t : ℤ), -2 ^ 52 ≤ t → t ≤ c → ∀ w,
      (seqLoop (fun (d t : Rounded rnd) w => update d.val t.val w) ⟨b * 2 ^ k⟩ ⟨c * 2 ^ k⟩ n
        ⟨t * 2 ^ k⟩ w).map (fun x => (x.1.val, x.2)) =
      seqLoop update ((b : ℚ) * 2 ^ k) (c * 2 ^ k) n (t * 2 ^ k) w := by
    intro n
    induction n with
    | zero => intros; rfl
    | succ n ih =>
      intro t h1 h2 w
      have ht : |t| ≤ 2 ^ 52 := by rw [abs_le]; constructor <;> omega
      have hmin : min (⟨b * 2 ^ k⟩ : Rounded rnd) (⟨c * 2 ^ k⟩ - ⟨t * 2 ^ k⟩) =
          ⟨((min b (c - t) : ℤ) : ℚ) * 2 ^ k⟩ := by
        rw [hsub t ht]
        change (if ((c - t : ℤ) : ℚ) * 2 ^ k < b * 2 ^ k then _ else _) = _
        by_cases h : c - t < b
        · rw [if_pos ((mul_lt_mul_iff_left₀ hp).mpr (by exact_mod_cast h)), min_eq_right h.le]
        · rw [if_neg (fun h' => h (by exact_mod_cast (mul_lt_mul_iff_left₀ hp).mp h')),
            min_eq_left (not_lt.mp h)]
      have hmin' : min ((b : ℚ) * 2 ^ k) (c * 2 ^ k - t * 2 ^ k) =
          ((min b (c - t) : ℤ) : ℚ) * 2 ^ k := by
        rw [← sub_mul, ← min_mul_of_nonneg _ _ hp.le]
        push_cast
        rfl
      set d := min b (c - t) with hd
      have hd0 : 0 ≤ d := le_min hb.le (by omega)
      have hdc : t + d ≤ c := by have := min_le_right b (c - t); omega
      have hadd : ((⟨t * 2 ^ k⟩ + ⟨(d : ℚ) * 2 ^ k⟩ : Rounded rnd)) =
          ⟨((t + d : ℤ) : ℚ) * 2 ^ k⟩ := by
        refine Rounded.ext ?_
        change rnd ((t : ℚ) * 2 ^ k + d * 2 ^ k) = _
        rw [← hrnd (t + d) k (by rw [abs_le]; constructor <;> omega)]
        congr 1
        push_cast
        ring
      have hadd' : (t : ℚ) * 2 ^ k + (d : ℚ) * 2 ^ k = ((t + d : ℤ) : ℚ) * 2 ^ k := by
        push_cast; ring
      simp only [seqLoop, hmin, hmin', hadd, hadd']
      cases hu : update ((d : ℚ) * 2 ^ k) (((t + d : ℤ) : ℚ) * 2 ^ k) w with
      | error e => rfl
      | ok w' => exact ih (t + d) (by omega) hdc w'
  by_cases hac : a ≤ c
  · exact key n a (by omega) hac w
  · have h0 : n = 0 := by
      rw [hnn, hdiv, Nat.ceil_eq_zero]
      refine (div_neg_of_neg_of_pos ?_ (by exact_mod_cast hb)).le
      exact_mod_cast (by omega : c - a < 0)
    rw [h0]
    rfl

/-- C127, partial: in general a run to `until` (not in the past) makes as many updates as the
rounded difference has steps, none of them longer than `dt`, and ends within one rounding error per
update of `until`. `B` bounds the times and `ε` the rounding of numbers up to `B`. What is missing
in comparison with C13: the end is not `until` and the number of updates is not that of exact
arithmetic (next theorems). -/
theorem float_until_bounds_partial (rnd : ℚ → ℚ) (u B ε : ℚ) (hu0 : 0 ≤ u) (hu : u ≤ 1/12)
    (herr : ∀ x, |rnd x - x| ≤ u * |x|) (hε : ∀ x, |x| ≤ B → |rnd x - x| ≤ ε)
    (update : Rounded rnd → Rounded rnd → W → Except Err W)
    (f : Rounded rnd → Rounded rnd → W → W)
    (hf : ∀ d t w, update d t w = .ok (f d t w)) (timeStep time target : Rounded rnd)
    (dt : Option (Rounded rnd)) (w : W) (hle : time.val ≤ target.val)
    (hdt : ε ≤ (dt.getD timeStep).val) (hε0 : 0 < ε)
    (h1 : -(B / 3) ≤ time.val) (h2 : target.val ≤ B / 3) (hB : 9 * ε ≤ B)
    (hq : 12 * u * ((target - time).val / (dt.getD timeStep).val) ≤ 1) :
    ∃ ds : List (Rounded rnd),
      floatRun update timeStep time w (some target) dt =
        .ok (ds.foldl (fun s d => (s.1 + d, f d (s.1 + d) s.2)) (time, w)) ∧
      ds.length = ⌈(target - time).val / (dt.getD timeStep).val⌉₊ ∧
      (∀ d ∈ ds, -(3 * ε) ≤ d.val ∧ d.val ≤ (dt.getD timeStep).val) ∧
      |(ds.foldl (fun s d => (s.1 + d, f d (s.1 + d) s.2)) (time, w)).1.val - target.val| ≤
        (ds.length + 1) * ε := by
  set D := dt.getD timeStep with hD
  have hD0 : 0 < D.val := lt_of_lt_of_le hε0 hdt
  rw [floatRun_eq hu0 hu herr _ _ _ _ _ _ hD0 (by simpa using hq)]
  simp only [Option.getD_some, ← hD]
  have key : ∀ (n : ℕ) (t : Rounded rnd) (w : W), min time.val (target.val - 2 * ε) ≤ t.val →
      t.val ≤ target.val + 2 * ε →
      ∃ ds : List (Rounded rnd),
        seqLoop update D target n t w =
          .ok (ds.foldl (fun s d => (s.1 + d, f d (s.1 + d) s.2)) (t, w)) ∧
        ds.length = n ∧ (∀ d ∈ ds, -(3 * ε) ≤ d.val ∧ d.val ≤ D.val) ∧
        (ds.foldl (fun s d => (s.1 + d, f d (s.1 + d) s.2)) (t, w)).1.val ≤ target.val + 2 * ε ∧
        min (t.val + n * (D.val - ε)) (target.val - 2 * ε) ≤
          (ds.foldl (fun s d => (s.1 + d, f d (s.1 + d) s.2)) (t, w)).1.val := by
    intro n
    induction n with
    | zero =>
      intro t w ht1 ht2
      refine ⟨[], rfl, rfl, by simp, ht2, ?_⟩
      simp
    | succ n ih =>
      intro t w ht1 ht2
      have hm : min time.val (target.val - 2 * ε) ≥ time.val - 2 * ε := by
        rw [ge_iff_le, le_min_iff]; constructor <;> linarith
      have hs := abs_le.mp (hε (target.val - t.val) (by rw [abs_le]; constructor <;> linarith))
      set s : Rounded rnd := target - t with hsdef
      have hsv : s.val = rnd (target.val - t.val) := rfl
      rw [← hsv] at hs
      set d := min D s with hd
      have hdv : d.val = min D.val s.val := by
        change (if s.val < D.val then s else D).val = _
        split_ifs with h
        · rw [min_eq_right h.le]
        · rw [min_eq_left (not_lt.mp h)]
      have hd1 : d.val ≤ D.val := hdv ▸ min_le_left _ _
      have hd2 : d.val ≤ s.val := hdv ▸ min_le_right _ _
      have hd3 : min D.val (target.val - t.val - ε) ≤ d.val := by
        rw [hdv]; exact min_le_min le_rfl (by linarith)
      have hlow : min (t.val + D.val) (target.val - ε) ≤ t.val + d.val := by
        rcases min_le_iff.mp hd3 with h | h
        · exact min_le_iff.mpr (.inl (by linarith))
        · exact min_le_iff.mpr (.inr (by linarith))
      have hlow2 : min time.val (target.val - 2 * ε) ≤ t.val + d.val - ε ∧
          min (t.val + D.val) (target.val - ε) - ε ≤ t.val + d.val - ε := by
        refine ⟨?_, by linarith⟩
        rcases min_le_iff.mp hlow with h | h
        · linarith
        · exact (min_le_right _ _).trans (by linarith)
      have hr := abs_le.mp (hε (t.val + d.val) (by
        rw [abs_le]; constructor <;> linarith [hlow2.1]))
      have htv : (t + d).val = rnd (t.val + d.val) := rfl
      rw [← htv] at hr
      obtain ⟨ds, e1, e2, e3, e4, e5⟩ := ih (t + d) (f d (t + d) w)
        (by linarith [hlow2.1]) (by linarith)
      refine ⟨d :: ds, ?_, by simp [e2], ?_, e4, ?_⟩
      · simp only [seqLoop, ← hsdef, ← hd, hf, List.foldl_cons]
        exact e1
      · intro x hx
        rcases List.mem_cons.mp hx with rfl | hx
        · refine ⟨?_, hd1⟩
          rcases min_le_iff.mp hd3 with h | h <;> linarith
        · exact e3 x hx
      · simp only [List.foldl_cons]
        refine le_trans ?_ e5
        refine le_min ?_ (min_le_right _ _)
        have hn0 : (0 : ℚ) ≤ n * (D.val - ε) := by
          have : 0 ≤ D.val - ε := by linarith
          positivity
        rcases min_le_iff.mp (show min (t.val + D.val - ε) (target.val - 2 * ε) ≤ (t + d).val by
          rcases min_le_iff.mp hlow with h | h
          · exact min_le_iff.mpr (.inl (by linarith))
          · exact min_le_iff.mpr (.inr (by linarith))) with h | h
        · refine (min_le_left _ _).trans ?_
          push_cast
          linarith
        · refine (min_le_right _ _).trans ?_
          linarith
  obtain ⟨ds, e1, e2, e3, e4, e5⟩ := key ⌈(target - time).val / D.val⌉₊ time w (min_le_left _ _)
    (by linarith)
  refine ⟨ds, e1, e2, e3, ?_⟩
  set end_ := (ds.foldl (fun s d => (s.1 + d, f d (s.1 + d) s.2)) (time, w)).1.val
  have hx := abs_le.mp (hε (target.val - time.val) (by rw [abs_le]; constructor <;> linarith))
  have hxv : (target - time).val = rnd (target.val - time.val) := rfl
  rw [← hxv] at hx
  have hceil := Nat.le_ceil ((target - time).val / D.val)
  rw [← e2] at hceil e5
  rw [div_le_iff₀ hD0] at hceil
  rw [abs_le]
  by_cases hn : ds.length = 0
  · have hnil : ds = [] := List.eq_nil_of_length_eq_zero hn
    have hend : end_ = time.val := by
      change (ds.foldl (fun s d => (s.1 + d, f d (s.1 + d) s.2)) (time, w)).1.val = _
      rw [hnil]; rfl
    rw [hn] at hceil ⊢
    simp only [Nat.cast_zero, zero_mul] at hceil
    rw [hend]
    push_cast
    constructor <;> linarith
  · have hn1 : (1 : ℚ) ≤ ds.length := by exact_mod_cast Nat.one_le_iff_ne_zero.mpr hn
    constructor
    · rcases min_le_iff.mp e5 with h | h
      · nlinarith
      · nlinarith
    · nlinarith

/-- C127, partial: the number of updates is that of exact arithmetic if the time to go is not
within a rounding error of a multiple of the step. -/
theorem float_until_steps_partial (rnd : ℚ → ℚ) (u B ε : ℚ) (hu0 : 0 ≤ u) (hu : u ≤ 1/12)
    (herr : ∀ x, |rnd x - x| ≤ u * |x|) (hε : ∀ x, |x| ≤ B → |rnd x - x| ≤ ε)
    (timeStep time target : Rounded rnd) (dt : Option (Rounded rnd))
    (hle : time.val ≤ target.val) (hdt : ε ≤ (dt.getD timeStep).val) (hε0 : 0 < ε)
    (h1 : -(B / 3) ≤ time.val) (h2 : target.val ≤ B / 3) (hB : 9 * ε ≤ B)
    (hq : 12 * u * ((target - time).val / (dt.getD timeStep).val) ≤ 1) (N : ℕ)
    (hlow : N * (dt.getD timeStep).val + ε < target.val - time.val)
    (hhigh : target.val - time.val + ε ≤ (N + 1) * (dt.getD timeStep).val) :
    ∃ t, floatRun (fun _ _ (n : ℕ) => .ok (n + 1)) timeStep time 0 (some target) dt =
        .ok (t, N + 1) ∧
      ⌈(target.val - time.val) / (dt.getD timeStep).val⌉₊ = N + 1 := by
  obtain ⟨ds, e1, e2, -, -⟩ := float_until_bounds_partial rnd u B ε hu0 hu herr hε
    (fun _ _ (n : ℕ) => .ok (n + 1)) (fun _ _ n => n + 1) (fun _ _ _ => rfl) timeStep time target dt
    0 hle hdt hε0 h1 h2 hB hq
  have hD0 : 0 < (dt.getD timeStep).val := lt_of_lt_of_le hε0 hdt
  have hcount : ∀ (ds : List (Rounded rnd)) (s : Rounded rnd × ℕ),
      (ds.foldl (fun s d => (s.1 + d, s.2 + 1)) s).2 = s.2 + ds.length := by
    intro ds
    induction ds with
    | nil => simp
    | cons d ds ih =>
      intro s
      rw [List.foldl_cons, ih]
      simp only [List.length_cons]
      omega
  have hx := abs_le.mp (hε (target.val - time.val) (by rw [abs_le]; constructor <;> linarith))
  have hxv : (target - time).val = rnd (target.val - time.val) := rfl
  rw [← hxv] at hx
  have hlen : ds.length = N + 1 := by
    rw [e2, Nat.ceil_eq_iff (by omega)]
    constructor
    · rw [lt_div_iff₀ hD0]; simp only [Nat.add_sub_cancel]; linarith
    · rw [div_le_iff₀ hD0]; push_cast; linarith
  refine ⟨_, e1.trans (congrArg _ (Prod.ext rfl ((hcount ds (time, 0)).trans ?_))), ?_⟩
  · simp [hlen]
  · rw [Nat.ceil_eq_iff (by omega)]
    constructor
    · rw [lt_div_iff₀ hD0]; simp only [Nat.add_sub_cancel]; linarith
    · rw [div_le_iff₀ hD0]; push_cast; linarith

/-- C127 is false in general: `run(until=1.0, dt=0.1)` from 0 makes 10 updates and ends at
0.9999999999999999. -/
theorem float_until_short :
    (floatRun (fun (_ _ : Rounded binary64) (n : ℕ) => .ok (n + 1)) (pyFloat (1/10)) (pyFloat 0) 0
      (some (pyFloat 1)) none).toOption.map (fun x => (x.1.val, x.2)) =
      some (1 - 1 / 2 ^ 53, 10) := by
  decide +kernel

/-- C127 is false in general: `run(until=2.2, dt=0.1)` from 0 makes 23 updates, of which the last
has length zero, and in exact arithmetic 22. -/
theorem float_until_extra :
    (floatRun (fun (d _ : Rounded binary64) (l : List ℚ) => .ok (l ++ [d.val])) (pyFloat (1/10))
      (pyFloat 0) [] (some (pyFloat (22/10))) none).toOption.map
        (fun x => ((x.1.val, x.2.length), x.2.getLast?)) =
      some (((pyFloat (22/10)).val, 23), some 0) ∧
    (seqRun (fun (d _ : ℚ) (l : List ℚ) => .ok (l ++ [d])) (1/10) 0 [] (some (22/10))
      none).toOption.map (fun x => ((x.1, x.2.length), x.2.getLast?)) =
      some ((22/10, 22), some (1/10)) := by
  decide +kernel

/-- C127 is false in general: `run()`, which is to make a single time step, makes two updates at
time 0.2 with a time step of 0.1. The second has length zero. -/
theorem float_single_step_twice :
    (floatRun (fun (d _ : Rounded binary64) (l : List ℚ) => .ok (l ++ [d.val])) (pyFloat (1/10))
      (pyFloat (2/10)) [] none none).toOption.map (fun x => (x.1.val, x.2)) =
      some (binary64 (binary64 (2/10) + binary64 (1/10)), [binary64 (1/10), 0]) := by
  decide +kernel

/-- The assumptions of `float_until_bounds_partial` for python floats up to a billion years. -/
example : (∀ x, |binary64 x - x| ≤ 1 / 2 ^ 53 * |x|) ∧
    ∀ x, |x| ≤ 2 ^ 30 → |binary64 x - x| ≤ 1 / 2 ^ 23 := by
  refine ⟨fun x => by rw [mul_comm]; exact binary64_rounding.2 x, fun x hx => ?_⟩
  refine (binary64_rounding.2 x).trans ?_
  calc |x| * (1 / 2 ^ 53) ≤ 2 ^ 30 * (1 / 2 ^ 53) := by gcongr
    _ = 1 / 2 ^ 23 := by norm_num

/-- The other hypotheses of `float_until_steps_partial`: 0.1 year steps from 0.2 to 1.05 years,
9 updates. -/
example : 1 / 2 ^ 23 ≤ (pyFloat (1/10)).val ∧ -((2 : ℚ) ^ 30 / 3) ≤ (pyFloat (2/10)).val ∧
    (pyFloat (105/100)).val ≤ (2 : ℚ) ^ 30 / 3 ∧
    12 * (1 / 2 ^ 53) * ((pyFloat (105/100) - pyFloat (2/10)).val / (pyFloat (1/10)).val) ≤ 1 ∧
    (8 : ℕ) * (pyFloat (1/10)).val + 1 / 2 ^ 23 < (pyFloat (105/100)).val - (pyFloat (2/10)).val ∧
    (pyFloat (105/100)).val - (pyFloat (2/10)).val + 1 / 2 ^ 23 ≤
      ((8 : ℕ) + 1) * (pyFloat (1/10)).val := by
  decide +kernel

/-- A run of `float_until_exact`: quarters of a year from 1 to 100.5. -/
example : (floatRun (fun (_ _ : Rounded binary64) (n : ℕ) => .ok (n + 1)) (pyFloat 3) (pyFloat 1) 0
    (some (pyFloat (201/2))) (some (pyFloat (3/4)))).toOption.map (fun x => (x.1.val, x.2)) =
    some (201/2, 133) := by
  decide +kernel

end Verif.Props
