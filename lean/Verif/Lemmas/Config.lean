import Verif.Lemmas.Doc
import Verif.Lemmas.Search

/-! # Time-varying configurations -/

set_option autoImplicit false

namespace Verif

open Spec

mutual
  theorem hashable_iff : ∀ v : Leaf, v.hashable = true ↔ ¬ HoldsList v
    | .none => ⟨fun _ h => (by cases h), fun _ => rfl⟩
    | .num _ => ⟨fun _ h => (by cases h), fun _ => rfl⟩
    | .str _ => ⟨fun _ h => (by cases h), fun _ => rfl⟩
    | .list xs => ⟨fun h => (by cases h), fun h => absurd .here h⟩
    | .tup xs => by
      rw [Leaf.hashable, hashableAll_iff xs]
      constructor
      · intro h hl
        cases hl with
        | tup hx hl => exact h _ hx hl
      · exact fun h x hx hl => h (.tup hx hl)

  theorem hashableAll_iff : ∀ xs : List Leaf, Leaf.hashableAll xs = true ↔ ∀ x ∈ xs, ¬ HoldsList x
    | [] => by simp [Leaf.hashableAll]
    | v :: vs => by
      rw [Leaf.hashableAll, Bool.and_eq_true, hashable_iff v, hashableAll_iff vs]
      simp
end

theorem keys_freezeFlat (f : Flat) : (freezeFlat f).keys = f.keys := by
  simp [freezeFlat, PyDict.keys, Function.comp_def]

theorem get?_freezeFlat (f : Flat) (p : List String) :
    (freezeFlat f).get? p = (f.get? p).map Leaf.freeze := by
  induction f with
  | nil => rfl
  | cons x f ih =>
    simp only [freezeFlat, List.map_cons] at ih ⊢
    rw [PyDict.get?_cons, PyDict.get?_cons, ih]
    split_ifs <;> rfl

theorem freeze_freeze (v : Leaf) : v.freeze.freeze = v.freeze := by cases v <;> rfl

theorem freeze_thaw_freeze (v : Leaf) : v.freeze.thaw.freeze = v.freeze := by cases v <;> rfl

/-- The section of a document as it is stored. -/
def stored (d : Doc) : Flat := freezeFlat d.flatten

theorem nodup_stored (d : Doc) : (stored d).keys.Nodup := by
  rw [stored, keys_freezeFlat]; exact Doc.nodup_flatten d

theorem get?_stored {d : Doc} (h : DistinctKeys d) (p : List String) :
    (stored d).get? p = (valueAt d p).map Leaf.freeze := by
  rw [stored, get?_freezeFlat, Doc.get?_flatten h]

namespace Cfg

theorem init_ok {times : List Rat} {docs : List Doc} {c : Cfg} (h : init times docs = .ok c) :
    c.times = times ∧ c.dicts = docs.map stored ∧ c.time = 0 ∧
      ∃ d0 ds, docs = d0 :: ds ∧ c.current = stored d0 := by
  unfold init at h
  cases docs with
  | nil => simp at h
  | cons d0 ds =>
    simp only [List.map_cons, Except.ok.injEq] at h
    subst h
    exact ⟨rfl, rfl, rfl, d0, ds, rfl, rfl⟩

theorem get?_foldl_update {κ ν : Type*} [DecidableEq κ] (l : List (PyDict κ ν)) (d : PyDict κ ν)
    (hl : ∀ e ∈ l, e.keys.Nodup) (p : κ) :
    (l.foldl PyDict.update d).get? p = (l.reverse.findSome? fun e => e.get? p).or (d.get? p) := by
  induction l generalizing d with
  | nil => simp
  | cons e l ih =>
    rw [List.foldl_cons, ih _ (fun e he => hl e (List.mem_cons_of_mem _ he)), List.reverse_cons,
      List.findSome?_append, PyDict.get?_update, PyDict.get?_reverse (hl e (by simp))]
    cases List.findSome? (fun e => PyDict.get? e p) l.reverse <;> simp

theorem nodup_foldl_update {κ ν : Type*} [DecidableEq κ] (l : List (PyDict κ ν)) (d : PyDict κ ν)
    (hd : d.keys.Nodup) : (l.foldl PyDict.update d).keys.Nodup := by
  induction l generalizing d with
  | nil => exact hd
  | cons e l ih => exact ih _ (PyDict.nodup_update hd e)

theorem nodup_call (c : Cfg) (t : Rat) : (c.call t).keys.Nodup :=
  nodup_foldl_update _ _ (by simp [PyDict.keys])

theorem get?_call (c : Cfg) (hc : ∀ e ∈ c.dicts, e.keys.Nodup) (t : Rat) (p : List String) :
    (c.call t).get? p = (c.dicts.take (c.bisectTimes t)).reverse.findSome? fun e => e.get? p := by
  rw [call, get?_foldl_update _ _ (fun e he => hc e (List.mem_of_mem_take he))]
  simp

theorem map_snd_take_zip {α β : Type*} (xs : List α) (ys : List β) (n : Nat)
    (h : n ≤ xs.length) : ((xs.zip ys).take n).map (·.2) = ys.take n := by
  induction n generalizing xs ys with
  | zero => simp
  | succ n ih =>
    cases xs with
    | nil => simp at h
    | cons x xs =>
      cases ys with
      | nil => simp
      | cons y ys =>
        simp only [List.zip_cons_cons, List.take_succ_cons, List.map_cons]
        rw [ih xs ys (by simpa using h)]

theorem configAt_eq (times : List Rat) (docs : List Doc) (hs : times.Pairwise (· ≤ ·)) (t : Rat)
    (p : List String) :
    configAt (times.zip docs) t p =
      (docs.take (bisectRight times t)).reverse.findSome? fun d => valueAt d p := by
  unfold configAt
  rw [filter_zip_eq_take times docs t hs,
    ← map_snd_take_zip times docs _ (bisectRight_spec times t hs).1, ← List.map_reverse,
    List.findSome?_map]
  rfl

theorem findSome?_map_option {α β γ : Type*} (l : List α) (f : α → Option β) (g : β → γ) :
    (l.findSome? f).map g = l.findSome? fun x => (f x).map g := by
  induction l with
  | nil => rfl
  | cons x l ih =>
    simp only [List.findSome?_cons]
    cases f x <;> simp [ih]

theorem findSome?_congr' {α β : Type*} {l : List α} {f g : α → Option β}
    (h : ∀ x ∈ l, f x = g x) : l.findSome? f = l.findSome? g := by
  induction l with
  | nil => rfl
  | cons x l ih =>
    simp only [List.findSome?_cons]
    rw [h x (by simp), ih (fun y hy => h y (List.mem_cons_of_mem _ hy))]

theorem get?_call_stored (c : Cfg) (docs : List Doc) (hc : c.dicts = docs.map stored)
    (hd : ∀ d ∈ docs, DistinctKeys d) (t : Rat) (p : List String) :
    (c.call t).get? p =
      ((docs.take (c.bisectTimes t)).reverse.findSome? fun d => valueAt d p).map Leaf.freeze := by
  rw [get?_call c (by
    rw [hc]; intro e he; obtain ⟨d, _, rfl⟩ := List.mem_map.mp he; exact nodup_stored d), hc,
    ← List.map_take, ← List.map_reverse, List.findSome?_map, findSome?_map_option]
  exact findSome?_congr' fun d hd' => get?_stored
    (hd d (List.mem_of_mem_take (List.mem_reverse.mp hd'))) p

theorem call_eq_configAt {c : Cfg} {docs : List Doc} (hs : c.times.Pairwise (· ≤ ·))
    (hc : c.dicts = docs.map stored)
    (hd : ∀ d ∈ docs, DistinctKeys d) (t : Rat) (p : List String) :
    (c.call t).get? p = (configAt (c.times.zip docs) t p).map Leaf.freeze := by
  rw [get?_call_stored c docs hc hd, configAt_eq _ _ hs]
  rfl

/-! ### diff -/

theorem diff_ok {c : Cfg} {a b : Rat} {f : Flat} (h : c.diff a b = .ok f) (p : List String)
    (v : Leaf) : f.get? p = some v ↔ (c.call b).get? p = some v ∧ (c.call a).get? p ≠ some v := by
  unfold diff at h
  simp only [] at h
  split_ifs at h
  simp only [Except.ok.injEq] at h
  subst h
  have hn : PyDict.keys ((c.call b).filter fun p => !(c.call a).contains p) |>.Nodup :=
    (nodup_call c b).sublist (List.filter_sublist.map _)
  rw [← PyDict.mem_iff_get? hn, List.mem_filter, PyDict.mem_iff_get? (nodup_call c b)]
  simp only [Bool.not_eq_true', List.contains_eq_mem, decide_eq_false_iff_not]
  rw [PyDict.mem_iff_get? (nodup_call c a)]

theorem diff_keys {c : Cfg} {a b : Rat} {f : Flat} (h : c.diff a b = .ok f) :
    f.keys.Nodup ∧ ∀ p ∈ f.keys, p ∈ (c.call b).keys := by
  unfold diff at h
  simp only [] at h
  split_ifs at h
  simp only [Except.ok.injEq] at h
  subst h
  have := List.Sublist.map (fun p : List String × Leaf => p.1)
    (List.filter_sublist (p := fun p => !(c.call a).contains p) (l := c.call b))
  exact ⟨(nodup_call c b).sublist this, fun p hp => this.subset hp⟩

theorem all_hashable_iff (f : Flat) (hf : f.keys.Nodup) :
    f.all (fun p => p.2.hashable) = true ↔ ∀ p v, f.get? p = some v → v.hashable = true := by
  rw [List.all_eq_true]
  constructor
  · intro h p v hv; exact h (p, v) (PyDict.mem_of_get? hv)
  · intro h x hx; exact h x.1 x.2 (PyDict.get?_of_mem hf hx)

theorem diff_ok_iff (c : Cfg) (a b : Rat) :
    (∃ f, c.diff a b = .ok f) ↔
      ∀ p v, ((c.call a).get? p = some v ∨ (c.call b).get? p = some v) → v.hashable = true := by
  unfold diff
  simp only []
  split_ifs with h
  · simp only [Bool.and_eq_true] at h
    rw [all_hashable_iff _ (nodup_call c a), all_hashable_iff _ (nodup_call c b)] at h
    simp only [Except.ok.injEq, exists_eq', true_iff]
    rintro p v (hv | hv)
    · exact h.1 p v hv
    · exact h.2 p v hv
  · constructor
    · rintro ⟨f, hf⟩; cases hf
    · intro h'
      exfalso
      apply h
      rw [Bool.and_eq_true, all_hashable_iff _ (nodup_call c a),
        all_hashable_iff _ (nodup_call c b)]
      exact ⟨fun p v hv => h' p v (.inl hv), fun p v hv => h' p v (.inr hv)⟩

theorem diff_error {c : Cfg} {a b : Rat} {e : Err} (h : c.diff a b = .error e) :
    e = .typeError := by
  unfold diff at h
  simp only [] at h
  split_ifs at h
  cases h; rfl

/-- Parameters are never unset. -/
theorem call_mono (c : Cfg) (hs : c.times.Pairwise (· ≤ ·)) (hc : ∀ e ∈ c.dicts, e.keys.Nodup)
    {a b : Rat} (hab : a ≤ b) (p : List String) (h : (c.call b).get? p = none) :
    (c.call a).get? p = none := by
  rw [get?_call c hc, List.findSome?_eq_none_iff] at h ⊢
  intro e he
  apply h
  rw [List.mem_reverse] at he ⊢
  exact (List.take_sublist_take_left (bisectRight_mono c.times hs hab)).subset he

theorem diff_overlay {c : Cfg} (hs : c.times.Pairwise (· ≤ ·))
    (hc : ∀ e ∈ c.dicts, e.keys.Nodup) {a b : Rat} (hab : a ≤ b) {f : Flat}
    (h : c.diff a b = .ok f) (p : List String) :
    (f.get? p).or ((c.call a).get? p) = (c.call b).get? p := by
  cases hb : (c.call b).get? p with
  | none =>
    rw [call_mono c hs hc hab p hb, Option.or_none]
    cases hf : f.get? p with
    | none => rfl
    | some v => rw [diff_ok h, hb] at hf; cases hf.1
  | some v =>
    cases hf : f.get? p with
    | none =>
      rw [Option.none_or]
      by_contra hne
      have := (diff_ok h p v).mpr ⟨hb, hne⟩
      rw [hf] at this; cases this
    | some w =>
      rw [diff_ok h, hb] at hf
      rw [Option.some_or, hf.1]

/-! ### Consistent, hashable sections -/

theorem mem_of_call {c : Cfg} {docs : List Doc} (hc : c.dicts = docs.map stored)
    (hd : ∀ d ∈ docs, DistinctKeys d) {t : Rat} {p : List String} {v : Leaf}
    (h : (c.call t).get? p = some v) : ∃ d ∈ docs, ∃ w, valueAt d p = some w ∧ v = w.freeze := by
  rw [get?_call_stored c docs hc hd, Option.map_eq_some_iff] at h
  obtain ⟨w, hw, rfl⟩ := h
  obtain ⟨d, hd', hv⟩ := List.exists_of_findSome?_eq_some hw
  exact ⟨d, List.mem_of_mem_take (List.mem_reverse.mp hd'), w, hv, rfl⟩

theorem diff_total {c : Cfg} {docs : List Doc} (hc : c.dicts = docs.map stored)
    (hd : ∀ d ∈ docs, DistinctKeys d) (hh : Hashable docs) (a b : Rat) :
    ∃ f, c.diff a b = .ok f := by
  rw [diff_ok_iff]
  rintro p v (h | h)
  all_goals
    obtain ⟨d, hd', w, hw, rfl⟩ := mem_of_call hc hd h
    exact (hashable_iff _).mpr (hh d hd' p w hw)

theorem keys_ok {docs : List Doc} (hcons : Consistent docs) {f : Flat}
    (hf : ∀ p ∈ f.keys, ∃ d ∈ docs, valueAt d p ≠ none) :
    [] ∉ f.keys ∧ Doc.PrefixFree f := by
  constructor
  · intro h
    obtain ⟨d, _, h'⟩ := hf _ h
    exact h' (valueAt_nil d)
  · intro p hp q hq hpq
    obtain ⟨d, hd, h1⟩ := hf p hp
    obtain ⟨d', hd', h2⟩ := hf q hq
    exact hcons d hd d' hd' p q h1 h2 hpq

theorem call_keys_ok {c : Cfg} {docs : List Doc} (hc : c.dicts = docs.map stored)
    (hd : ∀ d ∈ docs, DistinctKeys d) (t : Rat) :
    ∀ p ∈ (c.call t).keys, ∃ d ∈ docs, valueAt d p ≠ none := by
  intro p hp
  have : (c.call t).get? p ≠ none := by
    rw [Ne, PyDict.get?_eq_none_iff, not_not]; exact hp
  obtain ⟨v, hv⟩ := Option.ne_none_iff_exists'.mp this
  obtain ⟨d, hd', w, hw, _⟩ := mem_of_call hc hd hv
  exact ⟨d, hd', by rw [hw]; simp⟩

theorem expand_diff {c : Cfg} {docs : List Doc} (hc : c.dicts = docs.map stored)
    (hd : ∀ d ∈ docs, DistinctKeys d) (hcons : Consistent docs) {a b : Rat} {f : Flat}
    (h : c.diff a b = .ok f) :
    ∃ e, Doc.expand f = .ok e ∧ DistinctKeys e ∧
      ∀ q, valueAt e q = (f.get? q).map Leaf.thaw := by
  obtain ⟨h1, h2⟩ := diff_keys h
  obtain ⟨h3, h4⟩ := keys_ok hcons (f := f) fun p hp => call_keys_ok hc hd b p (h2 p hp)
  exact Doc.expand_spec f h1 h3 h4

/-! ### update -/

theorem bisect_lt_iff (times : List Rat) (hs : times.Pairwise (· ≤ ·)) {a b : Rat} :
    bisectRight times a < bisectRight times b ↔ ∃ s ∈ times, a < s ∧ s ≤ b := by
  constructor
  · intro h
    have hl : bisectRight times a < times.length :=
      lt_of_lt_of_le h (bisectRight_spec times b hs).1
    exact ⟨times[bisectRight times a], List.getElem_mem hl,
      (bisectRight_spec times a hs).2.2 _ hl le_rfl, (bisectRight_lt_iff times b hs _ hl).mp h⟩
  · rintro ⟨s, hm, h1, h2⟩
    obtain ⟨i, hi, rfl⟩ := List.getElem_of_mem hm
    have h3 : i < bisectRight times b := (bisectRight_lt_iff times b hs i hi).mpr h2
    have h4 : ¬ i < bisectRight times a := by
      rw [bisectRight_lt_iff times a hs i hi]; exact not_le.mpr h1
    omega

theorem update_spec {c : Cfg} {docs : List Doc} (hs : c.times.Pairwise (· ≤ ·))
    (hc : c.dicts = docs.map stored)
    (hd : ∀ d ∈ docs, DistinctKeys d) (hcons : Consistent docs) (hh : Hashable docs) {inc : Rat}
    (hi : 0 ≤ inc) :
    ∃ d c', c.update inc = .ok (d, c') ∧ c'.times = c.times ∧ c'.dicts = c.dicts ∧
      c'.time = c.time + inc ∧
      (c'.current = if ∃ s ∈ c.times, c.time < s ∧ s ≤ c.time + inc then c.call (c.time + inc)
        else c.current) ∧
      (∀ p, (valueAt d p).or (((c.call c.time).get? p).map Leaf.thaw) =
        ((c.call (c.time + inc)).get? p).map Leaf.thaw) := by
  have hle : c.time ≤ c.time + inc := by linarith
  have hn : ∀ e ∈ c.dicts, e.keys.Nodup := by
    rw [hc]; intro e he; obtain ⟨d, _, rfl⟩ := List.mem_map.mp he; exact nodup_stored d
  unfold update
  dsimp only
  have hiff : c.bisectTimes c.time < c.bisectTimes (c.time + inc) ↔ _ :=
    bisect_lt_iff c.times hs
  by_cases hlt : c.bisectTimes c.time < c.bisectTimes (c.time + inc)
  · obtain ⟨f, hf⟩ := diff_total hc hd hh c.time (c.time + inc)
    obtain ⟨e, he1, he2, he3⟩ := expand_diff hc hd hcons hf
    rw [if_pos hlt, hf]
    simp only [he1]
    refine ⟨e, _, rfl, rfl, rfl, rfl, by rw [if_pos (hiff.mp hlt)], ?_⟩
    intro p
    rw [he3, ← diff_overlay hs hn hle hf p]
    cases f.get? p <;> simp
  · rw [if_neg hlt]
    refine ⟨.nil, _, rfl, rfl, rfl, rfl, by rw [if_neg (fun h => hlt (hiff.mpr h))], ?_⟩
    intro p
    have h1 : valueAt .nil p = none := by
      cases p with
      | nil => exact valueAt_nil _
      | cons k q =>
        cases q with
        | nil => rw [valueAt_single]; rfl
        | cons n q => rw [valueAt_cons]; rfl
    have h2 : bisectRight c.times c.time = bisectRight c.times (c.time + inc) :=
      le_antisymm (bisectRight_mono c.times hs hle) (not_lt.mp hlt)
    have h3 : c.call c.time = c.call (c.time + inc) := by
      unfold call bisectTimes; rw [h2]
    rw [h1, h3]; simp

theorem overlaid_cons (b : Option Leaf) (d : Doc) (ds : List Doc) (p : List String) :
    overlaid b (d :: ds) p = overlaid ((valueAt d p).or b) ds p := by
  unfold overlaid
  rw [List.reverse_cons, List.findSome?_append]
  cases List.findSome? (fun d => valueAt d p) ds.reverse <;> simp

theorem updates_spec {docs : List Doc} (hd : ∀ d ∈ docs, DistinctKeys d)
    (hcons : Consistent docs) (hh : Hashable docs) (incs : List Rat) (hi : ∀ i ∈ incs, 0 ≤ i)
    (c : Cfg) (hs : c.times.Pairwise (· ≤ ·)) (hc : c.dicts = docs.map stored) :
    ∃ ds c', c.updates incs = .ok (ds, c') ∧ c'.times = c.times ∧ c'.dicts = c.dicts ∧
      c'.time = c.time + incs.sum ∧
      (c'.current = if ∃ s ∈ c.times, c.time < s ∧ s ≤ c.time + incs.sum then
        c.call (c.time + incs.sum) else c.current) ∧
      (∀ p, overlaid (((c.call c.time).get? p).map Leaf.thaw) ds p =
        ((c.call (c.time + incs.sum)).get? p).map Leaf.thaw) := by
  induction incs generalizing c with
  | nil =>
    refine ⟨[], c, rfl, rfl, rfl, by simp, ?_, by intro p; simp [overlaid]⟩
    rw [if_neg]
    rintro ⟨s, _, h1, h2⟩
    simp only [List.sum_nil, add_zero] at h2
    linarith
  | cons inc incs ih =>
    obtain ⟨d, c1, h1, h2, h3, h4, h5, h6⟩ :=
      update_spec hs hc hd hcons hh (hi inc (by simp))
    obtain ⟨ds, c2, g1, g2, g3, g4, g5, g6⟩ := ih (fun i hi' => hi i (List.mem_cons_of_mem _ hi'))
      c1 (by rw [h2]; exact hs) (by rw [h3]; exact hc)
    have hcall : ∀ t, c1.call t = c.call t := by
      intro t; unfold call bisectTimes; rw [h2, h3]
    have hsum : c1.time + incs.sum = c.time + (inc :: incs).sum := by
      rw [h4, List.sum_cons]; ring
    have hpos : 0 ≤ incs.sum := List.sum_nonneg fun i hi' => hi i (List.mem_cons_of_mem _ hi')
    have hpos' : 0 ≤ inc := hi inc (by simp)
    refine ⟨d :: ds, c2, by simp [updates, h1, g1], by rw [g2, h2], by rw [g3, h3],
      by rw [g4, hsum], ?_, ?_⟩
    · rw [g5, hsum, hcall, h2, h4]
      by_cases hA : ∃ s ∈ c.times, c.time + inc < s ∧ s ≤ c.time + (inc :: incs).sum
      · rw [if_pos hA, if_pos]
        obtain ⟨s, ha, hb, hc'⟩ := hA
        exact ⟨s, ha, by linarith, hc'⟩
      · rw [if_neg hA, h5]
        by_cases hB : ∃ s ∈ c.times, c.time < s ∧ s ≤ c.time + inc
        · rw [if_pos hB, if_pos]
          · have : bisectRight c.times (c.time + inc)
                = bisectRight c.times (c.time + (inc :: incs).sum) := by
              have hle : c.time + inc ≤ c.time + (inc :: incs).sum := by
                rw [List.sum_cons]; linarith
              rw [← bisect_lt_iff c.times hs, not_lt] at hA
              exact le_antisymm (bisectRight_mono c.times hs hle) hA
            unfold call bisectTimes
            rw [this]
          · obtain ⟨s, ha, hb, hc'⟩ := hB
            exact ⟨s, ha, hb, by rw [List.sum_cons]; linarith⟩
        · rw [if_neg hB, if_neg]
          rintro ⟨s, ha, hb, hc'⟩
          by_cases hsle : s ≤ c.time + inc
          · exact hB ⟨s, ha, hb, hsle⟩
          · exact hA ⟨s, ha, not_le.mp hsle, hc'⟩
    · intro p
      rw [overlaid_cons, h6, ← h4, ← hcall, g6, hcall, hsum]

end Cfg

end Verif
