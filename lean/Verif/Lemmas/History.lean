import Verif.Lemmas.Archive
import Mathlib.Order.Bounds.Basic
import Mathlib.Data.List.Induction

/-! Helper lemmas: what a history of events leaves in layers that are never archived. -/

set_option linter.unusedSectionVars false

set_option autoImplicit false

namespace Verif

open Spec

variable {ι K : Type*} [Field K] [LinearOrder K] [IsStrictOrderedRing K]

theorem foldl_addColumn_length (ds : List K) (col : List K) :
    (ds.foldl addColumn col).length = col.length + ds.length := by
  induction ds generalizing col with
  | nil => rfl
  | cons d ds ih => simp only [List.foldl_cons, ih, addColumn_length, List.length_cons]; omega

theorem foldl_addColumn_nonneg (ds : List K) (col : List K) (h : ∀ x ∈ col, 0 ≤ x) :
    ∀ x ∈ ds.foldl addColumn col, 0 ≤ x := by
  induction ds generalizing col with
  | nil => exact h
  | cons d ds ih => exact ih _ (addColumn_nonneg h d)

theorem surface_append (ds : List K) (d : K) : surface (ds ++ [d]) = max 0 (surface ds + d) := by
  simp [surface]

theorem foldl_addColumn_sum (ds : List K) : (ds.foldl addColumn []).sum = surface ds := by
  induction ds using List.reverseRecOn with
  | nil => simp [surface]
  | append_singleton ds d ih =>
    rw [List.foldl_append, List.foldl_cons, List.foldl_nil,
      addColumn_sum (foldl_addColumn_nonneg ds [] (by simp)), ih, surface_append]

theorem surfacesSince_append (ds : List K) (d : K) {i : ℕ} (hi : i ≤ ds.length) :
    surfacesSince (ds ++ [d]) i = insert (surface (ds ++ [d])) (surfacesSince ds i) := by
  ext h
  simp only [surfacesSince, Set.mem_ofPred_eq, Set.mem_insert_iff, List.length_append,
    List.length_singleton]
  constructor
  · rintro ⟨k, h1, h2, h3⟩
    by_cases hk : k ≤ ds.length
    · right; exact ⟨k, h1, hk, by rw [h3, List.take_append_of_le_length hk]⟩
    · left; rw [h3, List.take_of_length_le (by simp; omega)]
  · rintro (h1 | ⟨k, h1, h2, h3⟩)
    · exact ⟨ds.length + 1, by omega, le_refl _, by rw [h1, List.take_of_length_le (by simp)]⟩
    · exact ⟨k, h1, by omega, by rw [h3, List.take_append_of_le_length h2]⟩

theorem foldl_addColumn_isLeast (ds : List K) :
    ∀ i ≤ ds.length, IsLeast (surfacesSince ds i) (((ds.foldl addColumn []).take i).sum) := by
  induction ds using List.reverseRecOn with
  | nil =>
    intro i hi
    have : i = 0 := by simpa using hi
    subst this
    refine ⟨⟨0, le_refl _, by simp, by simp [surface]⟩, ?_⟩
    rintro h ⟨k, -, h2, h3⟩
    simp [surface] at h3 ⊢
    rw [h3]
  | append_singleton ds d ih =>
    intro i hi
    have hnn := foldl_addColumn_nonneg ds [] (by simp)
    rw [List.foldl_append, List.foldl_cons, List.foldl_nil]
    by_cases hi' : i ≤ ds.length
    · rw [addColumn_take_sum hnn d (by rw [foldl_addColumn_length]; simpa using hi'),
        foldl_addColumn_sum, surfacesSince_append ds d hi', ← surface_append, min_comm]
      exact (ih i hi').insert _
    · rw [List.take_of_length_le
        (by rw [addColumn_length, foldl_addColumn_length]; simp; omega), addColumn_sum hnn,
        foldl_addColumn_sum, ← surface_append]
      have hi2 : i = (ds ++ [d]).length := le_antisymm hi (by simp; omega)
      refine ⟨⟨i, le_refl _, hi, by rw [List.take_of_length_le (by omega)]⟩, ?_⟩
      rintro h ⟨k, h1, h2, h3⟩
      rw [h3, List.take_of_length_le (by omega)]

theorem run_dz {ev ev' : EventLayers ι K} (es : List (Event ι K)) (h : ev.run es = .ok ev')
    (s : ι) : ev'.dz s = (es.map (fun e => e.dz s)).foldl addColumn (ev.dz s) := by
  induction es generalizing ev with
  | nil => simp only [EventLayers.run] at h; rw [Except.ok.inj h]; rfl
  | cons e es ih =>
    simp only [EventLayers.run] at h
    cases hadd : ev.add e.dz e.kw with
    | error err => rw [hadd] at h; cases h
    | ok ev1 =>
      rw [hadd] at h
      rw [ih h, add_eq_ok hadd]; rfl

theorem recorded_eq (name : String) (s : ι) (e : Event ι K) :
    ((e.kw.get? name).map (fun v => v s)).getD 0 = recorded name s e := by
  unfold EventLayers.Kwds.get? recorded
  cases e.kw.find? (fun p => p.1 == name) <;> rfl

theorem run_tracking {ev ev' : EventLayers ι K} (es : List (Event ι K)) (hn : 0 < ev.n)
    (h : ev.run es = .ok ev') : ev'.tracking = ev.tracking ∧ ev'.n = ev.n + es.length := by
  induction es generalizing ev with
  | nil => simp only [EventLayers.run] at h; rw [← Except.ok.inj h]; exact ⟨rfl, rfl⟩
  | cons e es ih =>
    simp only [EventLayers.run] at h
    cases hadd : ev.add e.dz e.kw with
    | error err => rw [hadd] at h; cases h
    | ok ev1 =>
      rw [hadd] at h
      have h1 := add_eq_ok hadd
      obtain ⟨h2, h3⟩ := ih (by rw [h1]; exact Nat.succ_pos _) h
      rw [h2, h3, h1]
      refine ⟨?_, ?_⟩
      · show trackingAfter ev e.kw = _; unfold trackingAfter; rw [if_neg (by omega)]
      · show ev.n + 1 + es.length = _; simp only [List.length_cons]; omega

theorem run_prop {ev ev' : EventLayers ι K} (es : List (Event ι K)) (hn : 0 < ev.n)
    (h : ev.run es = .ok ev') (name : String) (hname : name ∈ ev.tracking) (s : ι) :
    ev'.prop name s = ev.prop name s ++ es.map (recorded name s) := by
  induction es generalizing ev with
  | nil => simp only [EventLayers.run] at h; rw [← Except.ok.inj h]; simp
  | cons e es ih =>
    simp only [EventLayers.run] at h
    cases hadd : ev.add e.dz e.kw with
    | error err => rw [hadd] at h; cases h
    | ok ev1 =>
      rw [hadd] at h
      have h1 := add_eq_ok hadd
      have htr : trackingAfter ev e.kw = ev.tracking := by
        unfold trackingAfter; rw [if_neg (by omega)]
      have h2 : ev1.prop name s = ev.prop name s ++ [recorded name s e] := by
        rw [h1]
        simp only [added, htr]
        rw [if_pos (by simpa using hname), recorded_eq]
      rw [ih (by rw [h1]; exact Nat.succ_pos _) h (by rw [h1]; show name ∈ trackingAfter ev e.kw
                                                      rw [htr]; exact hname), h2]
      simp

/-- From empty layers. -/
theorem run_empty_prop {ev : EventLayers ι K} (e : Event ι K) (es : List (Event ι K))
    (h : EventLayers.empty.run (e :: es) = .ok ev) :
    ev.tracking = e.kw.map (·.1) ∧ ev.n = es.length + 1 ∧
    ∀ name ∈ e.kw.map (·.1), ∀ s, ev.prop name s = (e :: es).map (recorded name s) := by
  simp only [EventLayers.run] at h
  cases hadd : EventLayers.empty.add e.dz e.kw with
  | error err => rw [hadd] at h; cases h
  | ok ev1 =>
    rw [hadd] at h
    have h1 := add_eq_ok hadd
    have htr : ev1.tracking = e.kw.map (·.1) := by rw [h1]; rfl
    have hn : ev1.n = 1 := by rw [h1]; rfl
    obtain ⟨h2, h3⟩ := run_tracking es (by omega) h
    refine ⟨by rw [h2, htr], by omega, ?_⟩
    intro name hname s
    rw [run_prop es (by omega) h name (by rw [htr]; exact hname) s]
    have : ev1.prop name s = [recorded name s e] := by
      rw [h1]
      simp only [added]
      rw [if_pos, recorded_eq]
      · rfl
      · show (List.map (·.1) e.kw).contains name = true
        simpa using hname
    rw [this]; simp

theorem run_empty_n {ev : EventLayers ι K} (es : List (Event ι K))
    (h : EventLayers.empty.run es = .ok ev) : ev.n = es.length := by
  cases es with
  | nil => simp only [EventLayers.run] at h; rw [← Except.ok.inj h]; rfl
  | cons e es => exact (run_empty_prop e es h).2.1

/-- When every event records the names of the first, nothing goes wrong. -/
theorem run_ok_of_same_names (names : List String) (es : List (Event ι K))
    (hes : ∀ e ∈ es, e.kw.map (·.1) = names) (ev : EventLayers ι K)
    (hev : ev.n = 0 ∨ ev.tracking = names) : ∃ ev', ev.run es = .ok ev' := by
  induction es generalizing ev with
  | nil => exact ⟨ev, rfl⟩
  | cons e es ih =>
    have he := hes e (by simp)
    have htr : trackingAfter ev e.kw = names := by
      unfold trackingAfter
      rcases hev with h | h
      · rw [if_pos h]; exact he
      · split_ifs
        · exact he
        · exact h
    have hall : e.kw.all (fun p => (trackingAfter ev e.kw).contains p.1) = true := by
      rw [htr, List.all_eq_true]
      intro p hp
      rw [← he]
      simpa using ⟨p.2, hp⟩
    have hadd : ev.add e.dz e.kw = .ok (added ev e.dz e.kw) := by rw [add_def, if_pos hall]
    obtain ⟨ev', h'⟩ := ih (fun e' he' => hes e' (by simp [he'])) (added ev e.dz e.kw)
      (.inr htr)
    exact ⟨ev', by simp only [EventLayers.run, hadd, h']⟩

/-- The archiving driver, from scratch, in terms of the driver that never archives. -/
theorem archive_run_rel (es : List (Event ι K))
    (hk : ∀ e ∈ es, ∀ p ∈ e.kw, p.1 ∈ knownProperties) {st : Archive ι K}
    (h : Archive.run ⟨EventLayers.empty, 0⟩ es = .ok st) :
    ∃ ev, EventLayers.empty.run es = .ok ev ∧ Rel st ev := by
  rcases Rel.run es hk (rel_empty (ι := ι) (K := K)) with ⟨st', ev', h1, h2, h3⟩ | ⟨h1, -⟩
  · rw [h] at h1; cases h1; exact ⟨ev', h2, h3⟩
  · rw [h] at h1; cases h1

theorem isMerge_max_pairwise {a : ℕ} {raw merged : List K} (h : IsMerge IsMaxOf a raw merged)
    (hraw : raw.Pairwise (· ≤ ·)) : merged.Pairwise (· ≤ ·) := by
  obtain ⟨hlen, h1, h2⟩ := h
  -- every merged element is an element of the raw list, at increasing positions
  have pos : ∀ i, i < merged.length → ∃ j, j < raw.length ∧ merged[i]? = raw[j]? ∧
      (i < a → 10 * i ≤ j ∧ j < 10 * i + 10) ∧ (a ≤ i → j = i + 9 * a) := by
    intro i hi
    by_cases hia : i < a
    · obtain ⟨hle, v, hv, hmem, -⟩ := h1 i hia
      obtain ⟨k, hk, hkv⟩ := List.mem_iff_getElem.mp hmem
      have hk10 : k < 10 := lt_of_lt_of_le hk (by simp)
      refine ⟨10 * i + k, by omega, ?_, fun _ => ⟨by omega, by omega⟩, fun h => by omega⟩
      rw [hv, ← hkv, List.getElem_take, List.getElem_drop, List.getElem?_eq_getElem]
    · refine ⟨i + 9 * a, by omega, h2 i (by omega), fun h => by omega, fun _ => rfl⟩
  rw [List.pairwise_iff_getElem]
  intro i j hi hj hij
  obtain ⟨i', hi', ei, ai, bi⟩ := pos i hi
  obtain ⟨j', hj', ej, aj, bj⟩ := pos j hj
  rw [List.getElem?_eq_getElem hi, List.getElem?_eq_getElem hi'] at ei
  rw [List.getElem?_eq_getElem hj, List.getElem?_eq_getElem hj'] at ej
  rw [Option.some.inj ei, Option.some.inj ej]
  have hlt : i' < j' := by
    by_cases h1 : i < a
    · obtain ⟨x1, x2⟩ := ai h1
      by_cases h2 : j < a
      · obtain ⟨y1, y2⟩ := aj h2; omega
      · have := bj (by omega); omega
    · have := bi (by omega)
      have := bj (by omega); omega
  exact List.pairwise_iff_getElem.mp hraw i' j' hi' hj' hlt

theorem isMerge_mean_range {a : ℕ} {raw merged : List K} {lo hi : K}
    (h : IsMerge IsMeanOf a raw merged) (hr : ∀ x ∈ raw, lo ≤ x ∧ x ≤ hi) :
    ∀ x ∈ merged, lo ≤ x ∧ x ≤ hi := by
  obtain ⟨hlen, h1, h2⟩ := h
  intro x hx
  obtain ⟨i, hix⟩ := List.mem_iff_getElem?.mp hx
  by_cases hia : i < a
  · obtain ⟨hle, v, hv, hm⟩ := h1 i hia
    rw [hix] at hv
    cases hv
    have hg : ((raw.drop (10 * i)).take 10).length = 10 := by simp; omega
    have hmem : ∀ y ∈ (raw.drop (10 * i)).take 10, lo ≤ y ∧ y ≤ hi := fun y hy =>
      hr y (List.mem_of_mem_drop (List.mem_of_mem_take hy))
    unfold IsMeanOf at hm
    rw [hg] at hm
    have hlo := List.card_nsmul_le_sum _ lo (fun y hy => (hmem y hy).1)
    have hhi := List.sum_le_card_nsmul _ hi (fun y hy => (hmem y hy).2)
    rw [hg, nsmul_eq_mul] at hlo hhi
    push_cast at *
    constructor <;> linarith
  · rw [h2 i (by omega)] at hix
    exact hr x (List.mem_iff_getElem?.mpr ⟨_, hix⟩)

theorem sum_zip_const_left (c : K) : ∀ (l m : List K), l.length = m.length → (∀ x ∈ l, x = c) →
    sandVolume l m = c * m.sum
  | [], [], _, _ => by simp [sandVolume]
  | x :: l, y :: m, hlen, h => by
    have ih := sum_zip_const_left c l m (by simpa using hlen) (fun z hz => h z (by simp [hz]))
    have hx := h x (by simp)
    unfold sandVolume at ih ⊢
    simp only [List.zip_cons_cons, List.map_cons, List.sum_cons, ih, hx]; ring

theorem sum_zip_const_right (c : K) : ∀ (l m : List K), l.length = m.length → (∀ x ∈ m, x = c) →
    sandVolume l m = l.sum * c
  | [], [], _, _ => by simp [sandVolume]
  | x :: l, y :: m, hlen, h => by
    have ih := sum_zip_const_right c l m (by simpa using hlen) (fun z hz => h z (by simp [hz]))
    have hy := h y (by simp)
    unfold sandVolume at ih ⊢
    simp only [List.zip_cons_cons, List.map_cons, List.sum_cons, ih, hy]; ring

theorem sandVolume_append {l l' m m' : List K} (h : l.length = m.length) :
    sandVolume (l ++ l') (m ++ m') = sandVolume l m + sandVolume l' m' := by
  unfold sandVolume
  rw [List.zip_append h, List.map_append, List.sum_append]

end Verif
