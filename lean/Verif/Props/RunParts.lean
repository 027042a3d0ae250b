import Verif.Props.Clock

/-!
# Running a `Sequence` in parts (C134)
-/

set_option autoImplicit false
set_option linter.unusedSectionVars false

namespace Verif.Props

variable {K W : Type*} [Field K] [LinearOrder K] [IsStrictOrderedRing K]

/-- With a positive step the number of updates is the time to go in steps, rounded up. -/
theorem seqRun_loop [FloorRing K] (update : K → K → W → Except Err W) (timeStep time : K) (w : W)
    (target : K) (dt : Option K) (hdt : 0 < dt.getD timeStep) :
    seqRun update timeStep time w (some target) dt =
      seqLoop update (dt.getD timeStep) target ⌈(target - time) / dt.getD timeStep⌉₊ time w := by
  unfold seqRun
  dsimp only [Option.getD_some]
  rw [if_neg hdt.ne']
  generalize dt.getD timeStep = D at hdt ⊢
  set x := target - time with hx
  have hfl1 : (⌊x / D⌋ : K) * D ≤ x := by
    have := Int.floor_le (x / D); rwa [le_div_iff₀ hdt] at this
  have hfl2 : x < ((⌊x / D⌋ : K) + 1) * D := by
    have := Int.lt_floor_add_one (x / D); rwa [div_lt_iff₀ hdt] at this
  have hceil : (if 0 < x - D * ⌊x / D⌋ then ⌊x / D⌋ + 1 else ⌊x / D⌋) = ⌈x / D⌉ := by
    rw [eq_comm, Int.ceil_eq_iff]
    split_ifs with h
    · constructor
      · rw [lt_div_iff₀ hdt]; push_cast; linarith
      · rw [div_le_iff₀ hdt]; push_cast; linarith
    · have hxe : x = ⌊x / D⌋ * D := by
        apply le_antisymm _ hfl1
        push Not at h; linarith
      constructor
      · rw [lt_div_iff₀ hdt]; linarith
      · rw [div_le_iff₀ hdt]; linarith
  rw [hceil]
  rfl

theorem seqLoop_add (update : K → K → W → Except Err W) (D T : K) (n m : ℕ) (t : K) (w : W) :
    seqLoop update D T (n + m) t w =
      (seqLoop update D T n t w).bind fun p => seqLoop update D T m p.1 p.2 := by
  induction n generalizing t w with
  | zero => rw [Nat.zero_add]; rfl
  | succ n ih =>
    rw [Nat.succ_add]
    simp only [seqLoop]
    cases update (min D (T - t)) (t + min D (T - t)) w with
    | error e => rfl
    | ok w' => exact ih _ _

/-- Full steps do not depend on where the run is to end. -/
theorem seqLoop_full (update : K → K → W → Except Err W) (D T T' : K) (hD : 0 < D) (n : ℕ) (t : K)
    (w : W) (h : t + n * D ≤ T) (h' : t + n * D ≤ T') :
    seqLoop update D T n t w = seqLoop update D T' n t w ∧
      ∀ p, seqLoop update D T n t w = .ok p → p.1 = t + n * D := by
  induction n generalizing t w with
  | zero => exact ⟨rfl, fun p hp => by cases hp; simp⟩
  | succ n ih =>
    push_cast at h h'
    have hn : (0 : K) ≤ n * D := mul_nonneg n.cast_nonneg hD.le
    have h1 : min D (T - t) = D := min_eq_left (by linarith)
    have h2 : min D (T' - t) = D := min_eq_left (by linarith)
    simp only [seqLoop, h1, h2]
    cases update D (t + D) w with
    | error e => exact ⟨rfl, fun p hp => by cases hp⟩
    | ok w' =>
      obtain ⟨i1, i2⟩ := ih (t + D) w' (by linarith) (by linarith)
      refine ⟨i1, fun p hp => ?_⟩
      rw [i2 p hp]
      push_cast
      ring

/-- C134: if `until` is a whole number of steps away, running there and then on is the same as
running on at once, whatever the components do and whether or not they fail. -/
theorem run_in_parts [FloorRing K] (update : K → K → W → Except Err W) (timeStep time : K) (w : W)
    (dt : Option K) (hdt : 0 < dt.getD timeStep) (k : ℕ) (first last : K)
    (hfirst : first = time + k * dt.getD timeStep) (hle : first ≤ last) :
    ((seqRun update timeStep time w (some first) dt).bind fun p =>
      seqRun update timeStep p.1 p.2 (some last) dt) =
      seqRun update timeStep time w (some last) dt := by
  rw [seqRun_loop _ _ _ _ _ _ hdt, seqRun_loop _ _ _ _ _ _ hdt]
  have hk : ⌈(first - time) / dt.getD timeStep⌉₊ = k := by
    rw [hfirst, add_sub_cancel_left, mul_div_cancel_right₀ _ hdt.ne', Nat.ceil_natCast]
  have hsum : ⌈(last - time) / dt.getD timeStep⌉₊ = k + ⌈(last - first) / dt.getD timeStep⌉₊ := by
    have : (last - time) / dt.getD timeStep = (last - first) / dt.getD timeStep + k := by
      rw [hfirst]
      field_simp
      ring
    rw [this, Nat.ceil_add_natCast (div_nonneg (by linarith) hdt.le), add_comm]
  obtain ⟨f1, f2⟩ := seqLoop_full update (dt.getD timeStep) first last hdt k time w
    (by rw [hfirst]) (by linarith)
  rw [hk, hsum, seqLoop_add, ← f1]
  cases hl : seqLoop update (dt.getD timeStep) first k time w with
  | error e => rfl
  | ok p =>
    simp only [Except.bind]
    rw [seqRun_loop _ _ _ _ _ _ hdt, f2 p hl, ← hfirst]

/-- C134: `run()` is one update of the time step of the model, so `k` of them are the same as
`run(until)` for `k` time steps. -/
theorem run_is_update [FloorRing K] (update : K → K → W → Except Err W) (timeStep time : K) (w : W)
    (hstep : 0 < timeStep) :
    seqRun update timeStep time w none none =
      (update timeStep (time + timeStep) w).map fun w' => (time + timeStep, w') := by
  have : seqRun update timeStep time w none none =
      seqRun update timeStep time w (some (time + timeStep)) none := rfl
  rw [this, seqRun_loop _ _ _ _ _ _ hstep]
  simp only [Option.getD_none]
  rw [add_sub_cancel_left, div_self hstep.ne', Nat.ceil_one]
  simp only [seqLoop, add_sub_cancel_left, min_self]
  cases update timeStep (time + timeStep) w <;> rfl

/-- What `run` does to the sizes of updates made so far. -/
theorem run_sizes [FloorRing K] (timeStep time : K) (l : List K) (target : K) (dt : Option K)
    (hdt : 0 < dt.getD timeStep) :
    ∃ ds : List K,
      seqRun (fun d _ l => .ok (l ++ [d])) timeStep time l (some target) dt =
        .ok (max time target, l ++ ds) ∧
      (∀ i (h : i < ds.length), i + 1 < ds.length → ds[i] = dt.getD timeStep) ∧
      ds.sum = max time target - time ∧ (ds = [] ↔ target ≤ time) := by
  obtain ⟨ds, h1, h2, h3, h4, h5⟩ := sequence_run (fun d _ (l : List K) => .ok (l ++ [d]))
    (fun d _ l => l ++ [d]) (fun _ _ _ => rfl) timeStep time l (some target) dt hdt
  have hfold : ∀ (ds : List K) (t : K) (l : List K),
      ds.foldl (fun (s : K × List K) d => (s.1 + d, s.2 ++ [d])) (t, l) = (t + ds.sum, l ++ ds) := by
    intro ds
    induction ds with
    | nil => intro t l; simp
    | cons d ds ih => intro t l; rw [List.foldl_cons, ih]; simp [add_assoc]
  rw [hfold] at h1 h5
  simp only [Option.getD_some] at h2 h5
  refine ⟨ds, by rw [h1, h5], h3, by rw [← h5]; ring, ?_⟩
  rw [← List.length_eq_zero_iff, h2, Nat.ceil_eq_zero, div_le_iff₀ hdt, zero_mul, sub_nonpos]

/-- C134 is false for other times: the sizes of the updates, and so the layers, are the same only
if the first run has nothing to do, goes all the way, or is a whole number of steps long. -/
theorem run_in_parts_iff [FloorRing K] (timeStep time : K) (dt : Option K)
    (hdt : 0 < dt.getD timeStep) (first last : K) :
    ((seqRun (fun d _ l => .ok (l ++ [d])) timeStep time [] (some first) dt).bind fun p =>
      seqRun (fun d _ l => .ok (l ++ [d])) timeStep p.1 p.2 (some last) dt) =
      seqRun (fun d _ l => .ok (l ++ [d])) timeStep time [] (some last) dt ↔
    first ≤ time ∨ first = last ∨ first ≤ last ∧ ∃ k : ℕ, first = time + k * dt.getD timeStep := by
  constructor
  · intro h
    by_contra hno
    push Not at hno
    obtain ⟨n1, n2, n3⟩ := hno
    obtain ⟨d1, a1, -, a3, a4⟩ := run_sizes timeStep time [] first dt hdt
    obtain ⟨d, b1, b2, b3, b4⟩ := run_sizes timeStep time [] last dt hdt
    rw [a1, b1, max_eq_right n1.le] at h
    simp only [Except.bind] at h
    obtain ⟨d2, c1, -, c3, c4⟩ := run_sizes timeStep first ([] ++ d1) last dt hdt
    rw [c1] at h
    simp only [List.nil_append, Except.ok.injEq, Prod.mk.injEq] at h
    obtain ⟨e1, e2⟩ := h
    have hlt : first < last := by
      rcases lt_or_ge first last with h | h
      · exact h
      · rw [max_eq_left h] at e1
        have : max time last ≤ first := max_le n1.le h
        rcases max_choice time last with hm | hm
        · rw [hm] at e1; exact absurd e1 n1.ne'
        · rw [hm] at e1; exact absurd e1 n2
    have hne : d2 ≠ [] := fun h0 => absurd (c4.mp h0) (not_le.mpr hlt)
    have hlen : d1.length < d.length := by
      rw [← e2, List.length_append]
      have := List.length_pos_of_ne_nil hne
      omega
    have hall : d1 = List.replicate d1.length (dt.getD timeStep) := by
      refine List.eq_replicate_of_mem fun x hx => ?_
      obtain ⟨i, hi, rfl⟩ := List.mem_iff_getElem.mp hx
      have := b2 i (by omega) (by omega)
      rw [← this]
      subst e2
      rw [List.getElem_append_left hi]
    have hs : d1.sum = d1.length * dt.getD timeStep := by
      rw [hall, List.sum_replicate, List.length_replicate, nsmul_eq_mul]
    rw [max_eq_right n1.le, hs] at a3
    exact n3 hlt.le d1.length (by linarith)
  · rintro (h | h | ⟨h, k, hk⟩)
    · obtain ⟨d1, a1, -, -, a4⟩ := run_sizes timeStep time [] first dt hdt
      rw [a1, a4.mpr h, max_eq_left h]
      rfl
    · subst h
      obtain ⟨d1, a1, -, -, -⟩ := run_sizes timeStep time [] first dt hdt
      rw [a1]
      simp only [Except.bind]
      obtain ⟨d2, c1, -, -, c4⟩ := run_sizes timeStep (max time first) ([] ++ d1) first dt hdt
      rw [c1, c4.mpr (le_max_right _ _)]
      simp
    · exact run_in_parts _ timeStep time [] dt hdt k first last hk h

/-- C134: 250 years in steps of 100, by way of year 200 or by way of year 150. -/
example : ((seqRun (fun d _ l => .ok (l ++ [d])) (100 : ℚ) 0 [] (some 200) none).bind fun p =>
      seqRun (fun d _ l => .ok (l ++ [d])) 100 p.1 p.2 (some 250) none) =
      seqRun (fun d _ l => .ok (l ++ [d])) 100 0 [] (some 250) none ∧
    ((seqRun (fun d _ l => .ok (l ++ [d])) (100 : ℚ) 0 [] (some 150) none).bind fun p =>
      seqRun (fun d _ l => .ok (l ++ [d])) 100 p.1 p.2 (some 250) none) ≠
      seqRun (fun d _ l => .ok (l ++ [d])) 100 0 [] (some 250) none := by
  constructor
  · exact run_in_parts _ 100 0 [] none (by norm_num) 2 200 250 (by norm_num) (by norm_num)
  · rw [Ne, run_in_parts_iff 100 0 none (by norm_num)]
    rintro (h | h | ⟨-, k, hk⟩)
    · norm_num at h
    · norm_num at h
    · simp only [Option.getD_none, zero_add] at hk
      have h1 : (1 : ℚ) < k := by linarith
      have h2 : (k : ℚ) < 2 := by linarith
      have h1' : 1 < k := by exact_mod_cast h1
      have h2' : k < 2 := by exact_mod_cast h2
      omega

end Verif.Props
