import Verif.Lemmas.Config

/-! # Dumping and loading configurations -/

set_option autoImplicit false

namespace Verif

open Spec

namespace Doc

theorem find?_erase {d : Doc} (h : DistinctKeys d) (k k' : String) :
    (d.erase k).find? k' = if k = k' then none else d.find? k' := by
  induction d with
  | nil => simp [erase, find?]
  | leaf a w r ih =>
    simp only [erase]
    by_cases ha : a = k
    · subst ha
      simp only [if_true, find?]
      split_ifs with h1
      · subst h1; exact (find?_eq_none_iff _ _).mpr h.1
      · rfl
    · simp only [ha, if_false, find?, ih h.2]
      by_cases h1 : k = k'
      · subst h1; simp [ha]
      · simp [h1]
  | sub a s r _ ih =>
    simp only [erase]
    by_cases ha : a = k
    · subst ha
      simp only [if_true, find?]
      split_ifs with h1
      · subst h1; exact (find?_eq_none_iff _ _).mpr h.1
      · rfl
    · simp only [ha, if_false, find?, ih h.2.2]
      by_cases h1 : k = k'
      · subst h1; simp [ha]
      · simp [h1]

theorem distinct_erase {d : Doc} (h : DistinctKeys d) (k : String) :
    DistinctKeys (d.erase k) := by
  induction d with
  | nil => trivial
  | leaf a w r ih =>
    simp only [erase]
    split_ifs with ha
    · exact h.2
    · refine ⟨?_, ih h.2⟩
      rw [← find?_eq_none_iff, find?_erase h.2]
      split_ifs
      · rfl
      · rw [find?_eq_none_iff]; exact h.1
  | sub a s r _ ih =>
    simp only [erase]
    split_ifs with ha
    · exact h.2.2
    · refine ⟨?_, h.2.1, ih h.2.2⟩
      rw [← find?_eq_none_iff, find?_erase h.2.2]
      split_ifs
      · rfl
      · rw [find?_eq_none_iff]; exact h.1

theorem valueAt_of_find?_none {d : Doc} {k : String} (h : d.find? k = none) (p : List String) :
    valueAt d (k :: p) = none := by
  cases p with
  | nil => rw [valueAt_single, h]
  | cons n p => rw [valueAt_cons, h]

/-- Setting and removing `_time` leaves the other parameters. -/
theorem valueAt_stamped {d : Doc} (h : DistinctKeys d) (t : Rat)
    (ht : ∀ p, valueAt d ("_time" :: p) = none) (p : List String) :
    valueAt ((d.setLeaf "_time" (.num t)).erase "_time") p = valueAt d p := by
  have hd := distinct_setLeaf h "_time" (.num t)
  cases p with
  | nil => rw [valueAt_nil, valueAt_nil]
  | cons k p =>
    by_cases hk : "_time" = k
    · subst hk
      rw [ht, valueAt_of_find?_none]
      rw [find?_erase hd, if_pos rfl]
    · apply valueAt_congr
      rw [find?_erase hd, if_neg hk, find?_setLeaf, if_neg hk]

end Doc

namespace Cfg

theorem load_stamp (times : List Rat) (docs : List Doc) (h : times.length = docs.length)
    (idx : Nat) :
    load idx (stamp times docs) =
      .ok (List.zipWith (fun t d => (t, (d.setLeaf "_time" (.num t)).erase "_time"))
        times docs) := by
  induction times generalizing docs idx with
  | nil =>
    have : docs = [] := by
      cases docs with
      | nil => rfl
      | cons d ds => simp at h
    subst this; rfl
  | cons t ts ih =>
    cases docs with
    | nil => simp at h
    | cons d ds =>
      simp only [stamp, load, List.zipWith_cons_cons]
      rw [ih ds (by simpa using h)]
      simp only [Doc.find?_setLeaf, if_true]

theorem dumpDiffs_spec {c : Cfg} {docs : List Doc} (hc : c.dicts = docs.map stored)
    (hd : ∀ d ∈ docs, DistinctKeys d) (hcons : Consistent docs) (hh : Hashable docs)
    (ts : List Rat) :
    ∃ es, c.dumpDiffs ts = .ok es ∧ es.length = ts.length - 1 ∧
      ∀ i (h : i < es.length) (h' : i + 1 < ts.length), ∃ f, c.diff ts[i] ts[i + 1] = .ok f ∧
        DistinctKeys es[i] ∧ ∀ q, valueAt es[i] q = (f.get? q).map Leaf.thaw := by
  induction ts with
  | nil => exact ⟨[], rfl, rfl, by simp⟩
  | cons t0 ts ih =>
    cases ts with
    | nil => exact ⟨[], rfl, rfl, by simp⟩
    | cons t1 ts =>
      obtain ⟨es, h1, h2, h3⟩ := ih
      obtain ⟨f, hf⟩ := diff_total hc hd hh t0 t1
      obtain ⟨e, he1, he2, he3⟩ := expand_diff hc hd hcons hf
      refine ⟨e :: es, by simp [dumpDiffs, hf, he1, h1], by simp [h2], ?_⟩
      intro i hi hi'
      cases i with
      | zero => exact ⟨f, hf, he2, he3⟩
      | succ i => exact h3 i (by simpa using hi) (by simpa using hi')

theorem valueAt_time_none {d : Doc} (h : "_time" ∉ d.keys) (p : List String) :
    valueAt d ("_time" :: p) = none :=
  Doc.valueAt_of_find?_none ((Doc.find?_eq_none_iff _ _).mpr h) p

theorem pairwise_le_of_lt {l : List Rat} (h : l.Pairwise (· < ·)) : l.Pairwise (· ≤ ·) :=
  h.imp fun h => le_of_lt h

theorem bisect_at (times : List Rat) (hs : times.Pairwise (· < ·)) (i : Nat)
    (hi : i < times.length) : bisectRight times times[i] = i + 1 := by
  have hs' := pairwise_le_of_lt hs
  have h1 := (bisectRight_lt_iff times times[i] hs' i hi).mpr le_rfl
  by_contra hne
  have h2 : i + 1 < bisectRight times times[i] := by omega
  have h3 : i + 1 < times.length := lt_of_lt_of_le h2 (bisectRight_spec times times[i] hs').1
  have h4 := (bisectRight_lt_iff times times[i] hs' (i + 1) h3).mp h2
  have h5 := List.pairwise_iff_getElem.mp hs i (i + 1) hi h3 (by omega)
  exact absurd h5 (not_lt.mpr h4)

theorem map_fst_zipWith {α β γ : Type*} (f : α → β → γ) (xs : List α) (ys : List β)
    (h : xs.length = ys.length) :
    (List.zipWith (fun x y => (x, f x y)) xs ys).map (·.1) = xs := by
  induction xs generalizing ys with
  | nil => rfl
  | cons x xs ih =>
    cases ys with
    | nil => simp at h
    | cons y ys =>
      simp only [List.zipWith_cons_cons, List.map_cons, ih ys (by simpa using h)]

/-- The configuration before section `n` starts. -/
def atPrev (c : Cfg) (times : List Rat) (p : List String) : Nat → Option Leaf
  | 0 => none
  | j + 1 => (c.call (times.getD j 0)).get? p

theorem dump_load {times : List Rat} {docs : List Doc} {c : Cfg}
    (hinit : init times docs = .ok c) (hs : times.Pairwise (· < ·)) (hne : times ≠ [])
    (hd : ∀ d ∈ docs, DistinctKeys d) (hcons : Consistent docs) (hh : Hashable docs)
    (ht : ∀ d ∈ docs, "_time" ∉ d.keys) :
    ∃ out c', c.dumpDocs = .ok out ∧ fromFile out = .ok c' ∧ c'.times = times ∧
      ∀ t p, (c'.call t).get? p = (c.call t).get? p := by
  obtain ⟨hT, hD, _, d0, ds, rfl, _⟩ := init_ok hinit
  have hs' := pairwise_le_of_lt hs
  have htime : ∀ t p, (c.call t).get? ("_time" :: p) = none := by
    intro t p
    cases h : (c.call t).get? ("_time" :: p) with
    | none => rfl
    | some v =>
      obtain ⟨d, hd', w, hw, _⟩ := mem_of_call hD hd h
      rw [valueAt_time_none (ht d hd')] at hw
      cases hw
  -- the first document
  obtain ⟨e0, he1, he2, he3⟩ := Doc.expand_spec (stored d0) (nodup_stored d0)
    (keys_ok hcons (f := stored d0) (by
      intro p hp
      refine ⟨d0, by simp, ?_⟩
      intro hv
      have := get?_stored (hd d0 (by simp)) p
      rw [hv, Option.map_none, PyDict.get?_eq_none_iff] at this
      exact this hp)).1
    (keys_ok hcons (f := stored d0) (by
      intro p hp
      refine ⟨d0, by simp, ?_⟩
      intro hv
      have := get?_stored (hd d0 (by simp)) p
      rw [hv, Option.map_none, PyDict.get?_eq_none_iff] at this
      exact this hp)).2
  obtain ⟨es, hes1, hes2, hes3⟩ := dumpDiffs_spec hD hd hcons hh times
  have hlen : times.length = (e0 :: es).length := by
    have : times.length ≠ 0 := by simpa using hne
    simp only [List.length_cons, hes2]; omega
  have hout : c.dumpDocs = .ok (stamp times (e0 :: es)) := by
    unfold dumpDocs
    rw [hD, hT]
    simp only [List.map_cons, he1, hes1]
  -- the documents read back
  set f : Rat → Doc → Doc := fun t d => (d.setLeaf "_time" (.num t)).erase "_time" with hfdef
  set back := List.zipWith f times (e0 :: es) with hback
  have hzip1 : (List.zipWith (fun t d => (t, f t d)) times (e0 :: es)).map (·.1) = times := by
    exact map_fst_zipWith f times (e0 :: es) hlen
  have hzip2 : (List.zipWith (fun t d => (t, f t d)) times (e0 :: es)).map (·.2) = back := by
    rw [List.map_zipWith]
  have hback_len : back.length = times.length := by
    rw [hback, List.length_zipWith, hlen]; simp
  obtain ⟨b0, bs, hb⟩ : ∃ b0 bs, back = b0 :: bs := by
    cases hb : back with
    | nil => rw [hb] at hback_len; simp at hback_len; exact absurd hback_len.symm (by simpa using hne)
    | cons b0 bs => exact ⟨b0, bs, rfl⟩
  have hfile : ∃ c', fromFile (stamp times (e0 :: es)) = .ok c' ∧ init times back = .ok c' := by
    unfold fromFile
    rw [load_stamp times _ hlen]
    have hne' : List.zipWith (fun t d => (t, f t d)) times (e0 :: es) ≠ [] := by
      intro h
      rw [h] at hzip1
      exact hne hzip1.symm
    obtain ⟨x, xs, hx⟩ := List.exists_cons_of_ne_nil hne'
    refine ⟨⟨times, back.map stored, 0, stored b0⟩, ?_, ?_⟩
    · rw [hx]
      simp only []
      rw [← hx, hzip1, hzip2, hb]
      rfl
    · rw [hb]; rfl
  obtain ⟨c', hc1, hc2⟩ := hfile
  refine ⟨_, c', hout, hc1, (init_ok hc2).1, ?_⟩
  obtain ⟨hT', hD', _, _⟩ := init_ok hc2
  -- each section read back holds the difference
  have hnodup : ∀ e ∈ c.dicts, e.keys.Nodup := by
    rw [hD]; intro e he; obtain ⟨d, _, rfl⟩ := List.mem_map.mp he; exact nodup_stored d
  have hbd : ∀ i (h : i < times.length) (h' : i < back.length), DistinctKeys back[i] ∧
      ∀ p, ((valueAt back[i] p).map Leaf.freeze).or
        (atPrev c times p i) =
          (c.call times[i]).get? p := by
    intro i h h'
    have hbi : back[i] = f times[i] ((e0 :: es)[i]'(by omega)) := by
      simp only [hback, List.getElem_zipWith]
    rw [hbi]
    cases i with
    | zero =>
      simp only [List.getElem_cons_zero, hfdef]
      refine ⟨Doc.distinct_erase (Doc.distinct_setLeaf he2 _ _) _, ?_⟩
      intro p
      rw [Doc.valueAt_stamped he2, he3, get?_stored (hd d0 (by simp)),
        get?_call_stored c _ hD hd, bisectTimes, hT, bisect_at times hs 0 h]
      · simp only [List.take_succ_cons, List.take_zero, List.reverse_singleton,
          List.findSome?_singleton]
        cases valueAt d0 p <;> simp [freeze_thaw_freeze, atPrev]
      · intro q
        rw [he3, get?_stored (hd d0 (by simp)), valueAt_time_none (ht d0 (by simp))]
        rfl
    | succ j =>
      have hj : j < es.length := by omega
      obtain ⟨g, hg1, hg2, hg3⟩ := hes3 j hj h
      simp only [List.getElem_cons_succ, hfdef]
      refine ⟨Doc.distinct_erase (Doc.distinct_setLeaf hg2 _ _) _, ?_⟩
      intro p
      have hgf : ∀ q v, g.get? q = some v → v.thaw.freeze = v := by
        intro q v hv
        obtain ⟨d, _, w, _, rfl⟩ := mem_of_call hD hd ((diff_ok hg1 q v).mp hv).1
        exact freeze_thaw_freeze w
      have hgt : ∀ q, g.get? ("_time" :: q) = none := by
        intro q
        cases hq : g.get? ("_time" :: q) with
        | none => rfl
        | some v =>
          have := ((diff_ok hg1 _ v).mp hq).1
          rw [htime] at this; cases this
      have hle : times[j] ≤ times[j + 1] :=
        le_of_lt (List.pairwise_iff_getElem.mp hs j (j + 1) (by omega) h (by omega))
      rw [Doc.valueAt_stamped hg2 _ (by intro q; rw [hg3, hgt]; rfl), hg3,
        ← diff_overlay (by rw [hT]; exact hs') hnodup hle hg1 p, atPrev,
        List.getD_eq_getElem _ _ (by omega)]
      cases hgp : g.get? p with
      | none => simp
      | some v => simp [hgf p v hgp]
  have hbd' : ∀ d ∈ back, DistinctKeys d := by
    intro d hd'
    obtain ⟨i, hi, rfl⟩ := List.getElem_of_mem hd'
    exact (hbd i (by omega) hi).1
  -- overlaying the first sections
  have key : ∀ n (hn : n ≤ times.length) (p : List String),
      ((back.take n).reverse.findSome? fun d => valueAt d p).map Leaf.freeze =
        atPrev c times p n := by
    intro n
    induction n with
    | zero => intro _ p; rfl
    | succ n ih =>
      intro hn p
      have hlt : n < back.length := by omega
      rw [← List.take_append_getElem hlt, List.reverse_append, List.reverse_singleton,
        List.singleton_append, List.findSome?_cons]
      have := (hbd n (by omega) hlt).2 p
      have ihp := ih (by omega) p
      simp only [atPrev]
      rw [List.getD_eq_getElem _ _ (by omega), ← this]
      cases hv : valueAt back[n] p with
      | none =>
        simp only [Option.map_none, Option.none_or]
        rw [ihp]
      | some v => simp
  intro t p
  rw [get?_call_stored c' back hD' hbd']
  have hn := (bisectRight_spec times t hs').1
  rw [bisectTimes, hT', key _ hn p]
  rw [get?_call_stored c _ hD hd t, bisectTimes, hT]
  cases hbt : bisectRight times t with
  | zero => simp [atPrev]
  | succ j =>
    simp only [atPrev]
    rw [get?_call_stored c _ hD hd, bisectTimes, hT, List.getD_eq_getElem _ _ (by omega),
      bisect_at times hs j (by omega)]

end Cfg

end Verif
