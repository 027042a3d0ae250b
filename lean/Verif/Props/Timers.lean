import Mathlib.Data.List.Perm.Basic
import Mathlib.Data.List.Sort
import Mathlib.Data.Rat.Floor
import Mathlib.Algebra.Order.Field.Rat
import Mathlib.Algebra.BigOperators.Group.List.Basic
import Mathlib.Algebra.Order.BigOperators.Group.List
import Mathlib.Tactic.Ring
import Mathlib.Tactic.Linarith
import Mathlib.Tactic.NormNum
import Verif.Model.Timers
import Verif.Spec.Timers

/-!
# The report of how long the components took (C148)
-/

set_option autoImplicit false
set_option linter.unusedSectionVars false

namespace Verif.Props

open Spec

variable {K : Type*} [Field K] [LinearOrder K] [IsStrictOrderedRing K]

theorem addDuration_names (name : String) (d : K) (t : List (String × K)) :
    (addDuration name d t).map Prod.fst =
      if name ∈ t.map Prod.fst then t.map Prod.fst else t.map Prod.fst ++ [name] := by
  induction t with
  | nil => simp [addDuration]
  | cons x t ih =>
    obtain ⟨n, v⟩ := x
    unfold addDuration
    by_cases h : n = name
    · subst h
      simp
    · have h' : ¬ name = n := fun e => h e.symm
      rw [if_neg h, List.map_cons, ih]
      by_cases hm : name ∈ t.map Prod.fst
      · rw [if_pos hm, if_pos (by simp only [List.map_cons, List.mem_cons]; exact Or.inr hm)]
        rfl
      · rw [if_neg hm, if_neg (by simp only [List.map_cons, List.mem_cons, not_or]; exact ⟨h', hm⟩)]
        rfl

theorem addDuration_nodup {name : String} {d : K} {t : List (String × K)}
    (h : (t.map Prod.fst).Nodup) : ((addDuration name d t).map Prod.fst).Nodup := by
  rw [addDuration_names]
  split_ifs with hm
  · exact h
  · rw [List.nodup_append]
    refine ⟨h, by simp, ?_⟩
    intro a ha b hb e
    simp only [List.mem_singleton] at hb
    subst hb
    subst e
    exact hm ha

theorem addDuration_sum (name : String) (d : K) (t : List (String × K)) :
    ((addDuration name d t).map Prod.snd).sum = (t.map Prod.snd).sum + d := by
  induction t with
  | nil => simp [addDuration]
  | cons x t ih =>
    obtain ⟨n, v⟩ := x
    unfold addDuration
    split_ifs
    · simp only [List.map_cons, List.sum_cons]; ring
    · simp only [List.map_cons, List.sum_cons, ih]; ring

/-- The value of a name. -/
def timeOf (name : String) (t : List (String × K)) : K :=
  ((t.filter fun p => p.1 = name).map Prod.snd).sum

theorem timeOf_addDuration (other name : String) (d : K) (t : List (String × K)) :
    timeOf other (addDuration name d t) = timeOf other t + if name = other then d else 0 := by
  induction t with
  | nil =>
    unfold timeOf addDuration
    by_cases h : name = other <;> simp [h]
  | cons x t ih =>
    obtain ⟨n, v⟩ := x
    unfold addDuration
    by_cases hn : n = name
    · subst hn
      rw [if_pos rfl]
      unfold timeOf
      by_cases h : n = other
      · simp [h]; ring
      · simp [h]
    · rw [if_neg hn]
      unfold timeOf at ih ⊢
      by_cases h : n = other
      · simp only [h, decide_true, List.filter_cons_of_pos, List.map_cons, List.sum_cons, ih]
        ring
      · simp only [h, decide_false, Bool.false_eq_true, not_false_iff, List.filter_cons_of_neg, ih]

theorem timers_facts (events : List (String × K × K)) (t : List (String × K))
    (h : (t.map Prod.fst).Nodup) :
    ((timers t events).map Prod.fst).Nodup ∧
    (∀ name, name ∈ (timers t events).map Prod.fst ↔
      name ∈ t.map Prod.fst ∨ name ∈ events.map Prod.fst) ∧
    (∀ name, timeOf name (timers t events) = timeOf name t + tookSeconds name events) ∧
    ((timers t events).map Prod.snd).sum = (t.map Prod.snd).sum + allSeconds events := by
  induction events generalizing t with
  | nil => exact ⟨h, by simp [timers], by simp [timers, tookSeconds], by simp [timers, allSeconds]⟩
  | cons e es ih =>
    obtain ⟨name, b, a⟩ := e
    obtain ⟨h1, h2, h3, h4⟩ := ih (addDuration name (a - b) t) (addDuration_nodup h)
    refine ⟨h1, fun other => ?_, fun other => ?_, ?_⟩
    · show other ∈ (timers (addDuration name (a - b) t) es).map Prod.fst ↔ _
      rw [h2, addDuration_names]
      split_ifs with hm
      · simp only [List.map_cons, List.mem_cons]
        constructor
        · rintro (h | h)
          · exact Or.inl h
          · exact Or.inr (Or.inr h)
        · rintro (h | rfl | h)
          · exact Or.inl h
          · exact Or.inl hm
          · exact Or.inr h
      · simp only [List.map_cons, List.mem_append, List.mem_cons, List.not_mem_nil, or_false]
        tauto
    · show timeOf other (timers (addDuration name (a - b) t) es) = _
      rw [h3, timeOf_addDuration]
      unfold tookSeconds
      by_cases hn : name = other
      · simp only [hn, decide_true, List.filter_cons_of_pos, List.map_cons, List.sum_cons, if_true]
        ring
      · simp only [hn, decide_false, Bool.false_eq_true, not_false_iff, List.filter_cons_of_neg,
          if_false, add_zero]
    · show ((timers (addDuration name (a - b) t) es).map Prod.snd).sum = _
      rw [h4, addDuration_sum]
      unfold allSeconds
      simp only [List.map_cons, List.sum_cons]
      ring

theorem insertTimed_perm (x : String × K) (l : List (String × K)) :
    (insertTimed x l).Perm (x :: l) := by
  induction l with
  | nil => exact List.Perm.refl _
  | cons y ys ih =>
    unfold insertTimed
    split_ifs
    · exact List.Perm.refl _
    · exact (ih.cons y).trans (List.Perm.swap ..)

theorem insertTimed_sorted {x : String × K} {l : List (String × K)}
    (h : l.Pairwise fun a b => a.2 ≤ b.2) :
    (insertTimed x l).Pairwise fun a b => a.2 ≤ b.2 := by
  induction l with
  | nil => simp [insertTimed]
  | cons y ys ih =>
    obtain ⟨h1, h2⟩ := List.pairwise_cons.1 h
    unfold insertTimed
    split_ifs with hxy
    · refine List.pairwise_cons.2 ⟨fun z hz => ?_, h⟩
      rcases List.mem_cons.1 hz with rfl | hz
      · exact hxy.le
      · exact hxy.le.trans (h1 z hz)
    · refine List.pairwise_cons.2 ⟨fun z hz => ?_, ih h2⟩
      rcases List.mem_cons.1 ((insertTimed_perm x ys).mem_iff.1 hz) with rfl | hz
      · exact not_lt.1 hxy
      · exact h1 z hz

theorem sortTimed_facts (t : List (String × K)) :
    (sortTimed t).Perm t ∧ (sortTimed t).Pairwise fun a b => a.2 ≤ b.2 := by
  have key : ∀ (t acc : List (String × K)), acc.Pairwise (fun a b => a.2 ≤ b.2) →
      (t.foldl (fun acc x => insertTimed x acc) acc).Perm (acc ++ t) ∧
      (t.foldl (fun acc x => insertTimed x acc) acc).Pairwise fun a b => a.2 ≤ b.2 := by
    intro t
    induction t with
    | nil => intro acc h; exact ⟨by simp, h⟩
    | cons x t ih =>
      intro acc h
      obtain ⟨h1, h2⟩ := ih (insertTimed x acc) (insertTimed_sorted h)
      refine ⟨h1.trans ?_, h2⟩
      exact ((insertTimed_perm x acc).append_right t).trans
        (List.perm_middle.symm)
  obtain ⟨h1, h2⟩ := key t [] List.Pairwise.nil
  rw [List.nil_append] at h1
  exact ⟨h1, h2⟩

theorem mapM_ok_map {α β : Type*} (f : α → β) (l : List α) :
    (l.mapM fun x => (Except.ok (f x) : Except Err β)) = .ok (l.map f) := by
  induction l with
  | nil => rfl
  | cons x l ih => simp only [List.mapM_cons, ih]; rfl

theorem mapM_error_cons {α β : Type*} (e : Err) (x : α) (l : List α) :
    ((x :: l).mapM fun _ => (Except.error e : Except Err β)) = .error e := by
  simp only [List.mapM_cons]
  rfl

theorem nodup_timeOf {t : List (String × K)} (h : (t.map Prod.fst).Nodup) {p : String × K}
    (hp : p ∈ t) : timeOf p.1 t = p.2 := by
  induction t with
  | nil => cases hp
  | cons x t ih =>
    rw [List.map_cons, List.nodup_cons] at h
    unfold timeOf
    rcases List.mem_cons.1 hp with rfl | hp
    · have : t.filter (fun q => q.1 = p.1) = [] := by
        rw [List.filter_eq_nil_iff]
        intro q hq
        simp only [decide_eq_true_eq]
        intro e
        exact h.1 (e ▸ List.mem_map_of_mem hq)
      simp [this]
    · have hx : ¬ x.1 = p.1 := fun e => h.1 (e ▸ List.mem_map_of_mem hp)
      simp only [hx, decide_false, Bool.false_eq_true, not_false_iff, List.filter_cons_of_neg]
      exact ih h.2 hp

/-- C148: if the components took any time at all, each component that ran is reported once, with the
seconds it took, the fastest first, and its share of the time in percent. -/
theorem timing_report (round2 : K → K) (events : List (String × K × K))
    (htime : allSeconds events ≠ 0) :
    ∃ names : List String, timingReport round2 (timers [] events) = .ok (names.map fun n =>
        (n, round2 (tookSeconds n events / allSeconds events * 100),
          round2 (tookSeconds n events))) ∧
      names.Nodup ∧ (∀ n, n ∈ names ↔ n ∈ events.map Prod.fst) ∧
      names.Pairwise (fun n m => tookSeconds n events ≤ tookSeconds m events) ∧
      (names.map fun n => tookSeconds n events / allSeconds events * 100).sum = 100 := by
  obtain ⟨h1, h2, h3, h4⟩ := timers_facts events [] (by simp)
  simp only [List.map_nil, List.sum_nil, zero_add] at h4
  obtain ⟨hp, hs⟩ := sortTimed_facts (timers [] events)
  have htook : ∀ p ∈ sortTimed (timers [] events), p.2 = tookSeconds p.1 events := by
    intro p hp'
    have := h3 p.1
    rw [nodup_timeOf h1 (hp.mem_iff.1 hp')] at this
    simpa [timeOf] using this
  refine ⟨(sortTimed (timers [] events)).map Prod.fst, ?_, ?_, ?_, ?_, ?_⟩
  · unfold timingReport
    simp only [h4, if_neg htime]
    rw [mapM_ok_map (fun p : String × K =>
      (p.1, round2 (p.2 / allSeconds events * 100), round2 p.2))]
    rw [List.map_map]
    congr 1
    refine List.map_congr_left fun p hp' => ?_
    simp only [Function.comp_apply]
    rw [← htook p hp']
  · exact (hp.map Prod.fst).nodup_iff.2 h1
  · intro n
    rw [(hp.map Prod.fst).mem_iff, h2]
    simp
  · rw [List.pairwise_map]
    refine hs.imp_of_mem fun {a b} ha hb hab => ?_
    rw [← htook a ha, ← htook b hb]
    exact hab
  · rw [List.map_map]
    have e : (sortTimed (timers [] events)).map
        ((fun n => tookSeconds n events / allSeconds events * 100) ∘ Prod.fst) =
        (sortTimed (timers [] events)).map fun p => p.2 * (100 / allSeconds events) := by
      refine List.map_congr_left fun p hp' => ?_
      simp only [Function.comp_apply]
      rw [← htook p hp']
      ring
    rw [e]
    have hsum : ((sortTimed (timers [] events)).map Prod.snd).sum = allSeconds events :=
      (hp.map Prod.snd).sum_eq.trans h4
    have : ((sortTimed (timers [] events)).map fun p => p.2 * (100 / allSeconds events)).sum =
        ((sortTimed (timers [] events)).map Prod.snd).sum * (100 / allSeconds events) := by
      generalize sortTimed (timers [] events) = l
      induction l with
      | nil => simp
      | cons p l ih => simp only [List.map_cons, List.sum_cons, ih]; ring
    rw [this, hsum]
    field_simp

/-- C148: with a clock that is not set back the shares are between 0 and 100 percent, and the
components took no longer than the run. -/
theorem timing_shares (events : List (String × K × K)) (hpos : ∀ e ∈ events, e.2.1 ≤ e.2.2)
    (htime : allSeconds events ≠ 0) (name : String) :
    0 ≤ tookSeconds name events / allSeconds events * 100 ∧
      tookSeconds name events / allSeconds events * 100 ≤ 100 := by
  have hnn : ∀ es : List (String × K × K), (∀ e ∈ es, e.2.1 ≤ e.2.2) →
      0 ≤ tookSeconds name es ∧ tookSeconds name es ≤ allSeconds es := by
    intro es
    induction es with
    | nil => intro _; simp [tookSeconds, allSeconds]
    | cons e es ih =>
      intro h
      obtain ⟨i1, i2⟩ := ih fun e he => h e (by simp [he])
      have he := h e (by simp)
      unfold tookSeconds at i1 i2 ⊢
      unfold allSeconds at i2 ⊢
      by_cases hn : e.1 = name
      · simp only [hn, decide_true, List.filter_cons_of_pos, List.map_cons, List.sum_cons]
        constructor <;> linarith
      · simp only [hn, decide_false, Bool.false_eq_true, not_false_iff, List.filter_cons_of_neg,
          List.map_cons, List.sum_cons]
        constructor <;> linarith
  obtain ⟨h1, h2⟩ := hnn events hpos
  have h3 : 0 < allSeconds events := lt_of_le_of_ne (h1.trans h2) (Ne.symm htime)
  constructor
  · positivity
  · have := (div_le_one h3).2 h2
    linarith

theorem readings_names (clock : ℕ → K) (names : List String) (k : ℕ) :
    (readings clock names k).map Prod.fst = names := by
  induction names generalizing k with
  | nil => rfl
  | cons n ns ih => simp only [readings, List.map_cons, ih]

theorem readings_took (clock : ℕ → K) (hclock : Monotone clock) (names : List String) (k : ℕ) :
    (∀ e ∈ readings clock names k, e.2.1 ≤ e.2.2) ∧
      allSeconds (readings clock names k) ≤ clock (k + 2 * names.length) - clock k := by
  induction names generalizing k with
  | nil => simp [readings, allSeconds]
  | cons n ns ih =>
    obtain ⟨i1, i2⟩ := ih (k + 2)
    refine ⟨?_, ?_⟩
    · intro e he
      simp only [readings, List.mem_cons] at he
      rcases he with rfl | he
      · exact hclock (by omega)
      · exact i1 e he
    · unfold allSeconds at i2 ⊢
      simp only [readings, List.map_cons, List.sum_cons, List.length_cons]
      have h1 : clock (k + 1) ≤ clock (k + 2) := hclock (by omega)
      have h2 : k + 2 + 2 * ns.length = k + 2 * (ns.length + 1) := by omega
      rw [h2] at i2
      linarith

/-- C148: in a run of at least one step exactly the components of the model are reported. -/
theorem timing_components (clock : ℕ → K) (hclock : Monotone clock) (names : List String)
    {steps : ℕ} (hsteps : steps ≠ 0) :
    (∀ n, n ∈ (runReadings clock names steps).map Prod.fst ↔ n ∈ names) ∧
      (∀ e ∈ runReadings clock names steps, e.2.1 ≤ e.2.2) ∧
      allSeconds (runReadings clock names steps) ≤
        clock (2 * (steps * names.length)) - clock 0 := by
  unfold runReadings
  obtain ⟨h1, h2⟩ := readings_took clock hclock (List.replicate steps names).flatten 0
  refine ⟨fun n => ?_, h1, ?_⟩
  · rw [readings_names]
    simp [hsteps]
  · have : (List.replicate steps names).flatten.length = steps * names.length := by simp
    rw [this] at h2
    simpa using h2

/-- C148: rounded to two digits, the shares add up to 100 up to half a hundredth for each
component. -/
theorem timing_rounded {round2 : K → K} (hround : RoundsTwo round2)
    (events : List (String × K × K)) (htime : allSeconds events ≠ 0)
    {lines : List (String × K × K)} (h : timingReport round2 (timers [] events) = .ok lines) :
    |(lines.map fun l => l.2.1).sum - 100| ≤ lines.length / 200 := by
  obtain ⟨names, h1, -, -, -, h5⟩ := timing_report round2 events htime
  rw [h] at h1
  cases h1
  rw [List.map_map, List.length_map]
  have key : ∀ l : List String,
      |(l.map ((fun l : String × K × K => l.2.1) ∘ fun n =>
          (n, round2 (tookSeconds n events / allSeconds events * 100),
            round2 (tookSeconds n events)))).sum -
        (l.map fun n => tookSeconds n events / allSeconds events * 100).sum| ≤ l.length / 200 := by
    intro l
    induction l with
    | nil => simp
    | cons n l ih =>
      simp only [List.map_cons, List.sum_cons, Function.comp_apply, List.length_cons, Nat.cast_add,
        Nat.cast_one]
      have hr := hround (tookSeconds n events / allSeconds events * 100)
      rw [abs_le] at hr ih ⊢
      simp only [Function.comp_def] at ih ⊢
      constructor <;> linarith [hr.1, hr.2, ih.1, ih.2]
  have hk := key names
  rw [h5] at hk
  exact hk

/-- C148: the report raises `ZeroDivisionError` exactly if something ran and no time was taken. -/
theorem timing_fails_iff (round2 : K → K) (events : List (String × K × K)) (e : Err) :
    timingReport round2 (timers [] events) = .error e ↔
      events ≠ [] ∧ allSeconds events = 0 ∧ e = .zeroDivision := by
  by_cases htime : allSeconds events = 0
  · obtain ⟨h1, h2, h3, h4⟩ := timers_facts events [] (by simp)
    simp only [List.map_nil, List.sum_nil, zero_add] at h4
    have hp := (sortTimed_facts (timers [] events)).1
    have hnil : sortTimed (timers [] events) = [] ↔ events = [] := by
      constructor
      · intro hs
        by_contra hne
        obtain ⟨x, xs, rfl⟩ := List.exists_cons_of_ne_nil hne
        have : x.1 ∈ (timers [] (x :: xs)).map Prod.fst := (h2 x.1).2 (Or.inr (by simp))
        rw [hs] at hp
        rw [← hp.nil_eq] at this
        simp at this
      · rintro rfl
        rfl
    unfold timingReport
    simp only [h4, htime, if_true]
    cases hs : sortTimed (timers [] events) with
    | nil =>
      have := hnil.1 hs
      subst this
      simp [pure, Except.pure]
    | cons p ps =>
      have hne : events ≠ [] := fun hn => by rw [hnil.2 hn] at hs; cases hs
      rw [mapM_error_cons]
      constructor
      · intro h
        cases h
        exact ⟨hne, trivial, rfl⟩
      · rintro ⟨-, -, rfl⟩
        rfl
  · obtain ⟨names, h, -⟩ := timing_report round2 events htime
    rw [h]
    simp [htime]

/-! ### Where the property fails -/

/-- C148, negation: a clock that shows the same time in a whole run (`time.time()` has a resolution of
16 ms on some systems): a run that is finished ends with `ZeroDivisionError`. -/
theorem timing_coarse_clock (clock : ℕ → K) (hclock : ∀ k, clock k = clock 0) (round2 : K → K)
    {names : List String} (hnames : names ≠ []) {steps : ℕ} (hsteps : steps ≠ 0) :
    timingReport round2 (timers [] (runReadings clock names steps)) = .error .zeroDivision := by
  rw [timing_fails_iff]
  refine ⟨?_, ?_, rfl⟩
  · intro h
    obtain ⟨n, ns, rfl⟩ := List.exists_cons_of_ne_nil hnames
    obtain ⟨m, rfl⟩ := Nat.exists_eq_succ_of_ne_zero hsteps
    simp [runReadings, List.replicate_succ, readings] at h
  · have : ∀ (l : List String) (k : ℕ), allSeconds (readings clock l k) = 0 := by
      intro l
      induction l with
      | nil => intro k; rfl
      | cons n l ih =>
        intro k
        have := ih (k + 2)
        unfold allSeconds at this ⊢
        simp only [readings, List.map_cons, List.sum_cons, this, hclock (k + 1), hclock k]
        ring
    exact this _ _

/-- C148, negation: a clock that is set back by 4 s while the model runs: one component is reported
with 200 %, the other with -100 %. -/
theorem timing_set_back : timingReport (fun x : ℚ => x)
    (timers [] [("fluvial", 0, 8), ("shoreline", 8, 4)]) =
    .ok [("shoreline", -100, -4), ("fluvial", 200, 8)] := by
  decide +kernel

/-! ### Concrete cases -/

/-- Two steps with two components. -/
example : timingReport (fun x : ℚ => x)
    (timers [] (runReadings (fun k => ([0, 1, 1, 2, 2, 3, 3, 5] : List ℚ).getD k 5)
       ["fluvial", "shoreline"] 2)) =
    .ok [("fluvial", 40, 2), ("shoreline", 60, 3)] := by
  decide +kernel

end Verif.Props
