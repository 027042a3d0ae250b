import Verif.Lemmas.Prelude
import Verif.Lemmas.PyDict
import Verif.Spec.Config

/-! # Flattening and expanding nested dictionaries -/

set_option autoImplicit false

namespace Verif

open Spec

theorem valueAt_nil (d : Doc) : valueAt d [] = none := by unfold valueAt; rfl

theorem valueAt_single (d : Doc) (k : String) :
    valueAt d [k] = match d.find? k with
      | some (.inl v) => some v
      | _ => none := by
  rw [valueAt]
  rcases d.find? k with _ | (v | s) <;> rfl

theorem valueAt_cons (d : Doc) (k n : String) (p : List String) :
    valueAt d (k :: n :: p) = match d.find? k with
      | some (.inr s) => valueAt s (n :: p)
      | _ => none := by
  rw [valueAt]
  · rcases d.find? k with _ | (v | s) <;> rfl
  · simp

/-- Lookup only depends on what is found under the first key. -/
theorem valueAt_congr {d e : Doc} {k : String} (h : d.find? k = e.find? k) (p : List String) :
    valueAt d (k :: p) = valueAt e (k :: p) := by
  cases p with
  | nil => rw [valueAt_single, valueAt_single, h]
  | cons n p => rw [valueAt_cons, valueAt_cons, h]

namespace Doc

theorem find?_eq_none_iff (d : Doc) (k : String) : d.find? k = none ↔ k ∉ d.keys := by
  induction d with
  | nil => simp [find?, keys]
  | leaf k' v r ih =>
    simp only [find?, keys, List.mem_cons, not_or]
    split_ifs with h
    · simp [h]
    · rw [ih]; constructor
      · exact fun h' => ⟨fun e => h e.symm, h'⟩
      · exact fun h' => h'.2
  | sub k' s r _ ih =>
    simp only [find?, keys, List.mem_cons, not_or]
    split_ifs with h
    · simp [h]
    · rw [ih]; constructor
      · exact fun h' => ⟨fun e => h e.symm, h'⟩
      · exact fun h' => h'.2

theorem walk_eq_map (d : Doc) (prev : List String) :
    d.walk prev = (d.walk []).map fun q => (prev ++ q.1, q.2) := by
  induction d generalizing prev with
  | nil => rfl
  | leaf k v r ih => simp only [walk, List.map_cons, List.nil_append]; rw [ih]
  | sub k s r ihs ihr =>
    simp only [walk, List.map_append, List.nil_append]
    rw [ihs (prev ++ [k]), ihs [k], ihr prev, List.map_map]
    simp [Function.comp_def, List.append_assoc]

theorem walk_leaf (k : String) (v : Leaf) (r : Doc) :
    (leaf k v r).walk [] = ([k], v) :: r.walk [] := rfl

theorem walk_sub (k : String) (s r : Doc) :
    (sub k s r).walk [] = (s.walk []).map (fun q => (k :: q.1, q.2)) ++ r.walk [] := by
  simp only [walk, List.nil_append]
  rw [walk_eq_map s [k]]; rfl

theorem walk_head (d : Doc) : ∀ q ∈ d.walk [], ∃ k p, q.1 = k :: p ∧ k ∈ d.keys := by
  induction d with
  | nil => intro q hq; simp [walk] at hq
  | leaf k v r ih =>
    intro q hq
    rw [walk_leaf, List.mem_cons] at hq
    rcases hq with rfl | hq
    · exact ⟨k, [], rfl, by simp [keys]⟩
    · obtain ⟨k', p, h1, h2⟩ := ih q hq
      exact ⟨k', p, h1, by simp [keys, h2]⟩
  | sub k s r _ ih =>
    intro q hq
    rw [walk_sub, List.mem_append] at hq
    rcases hq with hq | hq
    · obtain ⟨q', _, rfl⟩ := List.mem_map.mp hq
      exact ⟨k, q'.1, rfl, by simp [keys]⟩
    · obtain ⟨k', p, h1, h2⟩ := ih q hq
      exact ⟨k', p, h1, by simp [keys, h2]⟩

theorem nodup_walk {d : Doc} (h : DistinctKeys d) : ((d.walk []).map (·.1)).Nodup := by
  induction d with
  | nil => simp [walk]
  | leaf k v r ih =>
    rw [walk_leaf, List.map_cons, List.nodup_cons]
    refine ⟨?_, ih h.2⟩
    intro hm
    obtain ⟨q, hq, he⟩ := List.mem_map.mp hm
    obtain ⟨k', p, h1, h2⟩ := walk_head r q hq
    rw [h1] at he
    cases he
    exact h.1 h2
  | sub k s r ihs ihr =>
    rw [walk_sub, List.map_append, List.nodup_append]
    refine ⟨?_, ihr h.2.2, ?_⟩
    · rw [List.map_map]
      have := (ihs h.2.1).map (f := fun p : List String => k :: p)
        (by intro a b e; exact (List.cons.inj e).2)
      rw [List.map_map] at this
      exact this
    · intro a ha b hb e
      subst e
      rw [List.map_map] at ha
      obtain ⟨q, _, rfl⟩ := List.mem_map.mp ha
      obtain ⟨q', hq', he⟩ := List.mem_map.mp hb
      obtain ⟨k', p, h1, h2⟩ := walk_head r q' hq'
      rw [h1] at he
      cases he
      exact h.1 h2

theorem flatten_eq {d : Doc} (h : DistinctKeys d) : d.flatten = d.walk [] :=
  PyDict.ofPairs_eq (nodup_walk h)

theorem nodup_flatten (d : Doc) : d.flatten.keys.Nodup := PyDict.nodup_ofPairs _

theorem get?_map_cons (l : Flat) (k : String) (p : List String) :
    PyDict.get? (l.map fun q => (k :: q.1, q.2)) p =
      match p with
      | [] => none
      | k' :: p' => if k = k' then PyDict.get? l p' else none := by
  induction l with
  | nil => cases p with
    | nil => rfl
    | cons k' p' => simp [PyDict.get?]
  | cons q l ih =>
    rw [List.map_cons, PyDict.get?_cons, ih]
    cases p with
    | nil => simp
    | cons k' p' =>
      simp only [PyDict.get?_cons, List.cons.injEq]
      by_cases h : k = k' <;> simp [h]

/-- Looking up a path in the flattened dictionary is looking it up in the nested one. -/
theorem get?_walk {d : Doc} (h : DistinctKeys d) (p : List String) :
    PyDict.get? (d.walk []) p = valueAt d p := by
  induction d generalizing p with
  | nil =>
    cases p with
    | nil => rw [valueAt_nil]; rfl
    | cons k p =>
      cases p with
      | nil => rw [valueAt_single]; rfl
      | cons n p => rw [valueAt_cons]; rfl
  | leaf k v r ih =>
    rw [walk_leaf, PyDict.get?_cons]
    cases p with
    | nil => simp [ih h.2, valueAt_nil]
    | cons k' p =>
      by_cases hk : k = k'
      · subst hk
        have hr : r.find? k = none := (find?_eq_none_iff r k).mpr h.1
        cases p with
        | nil => simp [valueAt_single, find?]
        | cons n p => simp [valueAt_cons, find?, ih h.2, hr]
      · rw [valueAt_congr (e := r) (by simp [find?, hk]), ← ih h.2]
        simp [hk]
  | sub k s r ihs ihr =>
    rw [walk_sub, PyDict.get?_append, get?_map_cons]
    cases p with
    | nil => simp [ihr h.2.2, valueAt_nil]
    | cons k' p =>
      by_cases hk : k = k'
      · subst hk
        have hr : r.find? k = none := (find?_eq_none_iff r k).mpr h.1
        have hv : valueAt r (k :: p) = none := by
          cases p with
          | nil => rw [valueAt_single, hr]
          | cons n p => rw [valueAt_cons, hr]
        simp only [ihr h.2.2, hv, if_true, ihs h.2.1, Option.or_none]
        cases p with
        | nil => simp [valueAt_single, valueAt_nil, find?]
        | cons n p => simp [valueAt_cons, find?]
      · rw [valueAt_congr (d := sub k s r) (e := r) (by simp [find?, hk]), ← ihr h.2.2]
        simp [hk]

theorem get?_flatten {d : Doc} (h : DistinctKeys d) (p : List String) :
    d.flatten.get? p = valueAt d p := by
  rw [flatten_eq h, get?_walk h]

/-! ### Expanding -/

theorem find?_setLeaf (d : Doc) (k : String) (v : Leaf) (k' : String) :
    (d.setLeaf k v).find? k' = if k = k' then some (.inl v) else d.find? k' := by
  induction d with
  | nil => simp [setLeaf, find?]
  | leaf a w r ih =>
    simp only [setLeaf]
    split_ifs with h1 h2 h2
    · subst h1; subst h2; simp [find?]
    · subst h1; simp [find?, h2]
    · subst h2; simp [find?, h1, ih]
    · simp [find?, ih, h2]
  | sub a s r _ ih =>
    simp only [setLeaf]
    split_ifs with h1 h2 h2
    · subst h1; subst h2; simp [find?]
    · subst h1; simp [find?, h2]
    · subst h2; simp [find?, h1, ih]
    · simp [find?, ih, h2]

theorem keys_setLeaf (d : Doc) (k : String) (v : Leaf) (k' : String) :
    k' ∈ (d.setLeaf k v).keys ↔ k' = k ∨ k' ∈ d.keys := by
  rw [← not_iff_not, ← find?_eq_none_iff, find?_setLeaf, not_or, ← find?_eq_none_iff]
  split_ifs with h
  · simp [h]
  · constructor
    · exact fun h' => ⟨fun e => h e.symm, h'⟩
    · exact fun h' => h'.2

theorem distinct_setLeaf {d : Doc} (h : DistinctKeys d) (k : String) (v : Leaf) :
    DistinctKeys (d.setLeaf k v) := by
  induction d with
  | nil => exact ⟨by simp [keys], trivial⟩
  | leaf a w r ih =>
    simp only [setLeaf]
    split_ifs with h1
    · exact ⟨h.1, h.2⟩
    · refine ⟨?_, ih h.2⟩
      rw [keys_setLeaf]; rintro (e | e)
      · exact h1 e
      · exact h.1 e
  | sub a s r _ ih =>
    simp only [setLeaf]
    split_ifs with h1
    · exact ⟨h.1, h.2.2⟩
    · refine ⟨?_, h.2.1, ih h.2.2⟩
      rw [keys_setLeaf]; rintro (e | e)
      · exact h1 e
      · exact h.1 e

/-- The dictionary that is changed when going down under `k`. -/
def subOrNil (d : Doc) (k : String) : Doc :=
  match d.find? k with
  | some (.inr s) => s
  | _ => nil

theorem inSub_ok (d : Doc) (k : String) (f : Doc → Except Err Doc) (s' : Doc)
    (hl : ∀ v, d.find? k ≠ some (.inl v)) (hf : f (d.subOrNil k) = .ok s') :
    ∃ e, d.inSub k f = .ok e ∧
      (∀ k', e.find? k' = if k = k' then some (.inr s') else d.find? k') ∧
      (DistinctKeys d → DistinctKeys s' → DistinctKeys e) := by
  induction d with
  | nil =>
    have hf' : f nil = .ok s' := hf
    refine ⟨sub k s' nil, by simp [inSub, hf'], by intro k'; simp [find?], ?_⟩
    intro _ h; exact ⟨by simp [keys], h, trivial⟩
  | leaf a w r ih =>
    by_cases ha : a = k
    · exfalso; exact hl w (by simp [find?, ha])
    · have h1 : (leaf a w r).find? k = r.find? k := by simp [find?, ha]
      obtain ⟨e, he1, he2, he3⟩ := ih (by rwa [h1] at hl)
        (by rw [← hf]; unfold subOrNil; rw [h1])
      refine ⟨leaf a w e, by simp [inSub, ha, he1], ?_, ?_⟩
      · intro k'
        simp only [find?, he2]
        split_ifs with h2 h3
        · exact absurd (h2.trans h3.symm) ha
        · rfl
        · rfl
        · rfl
      · intro hd hs
        refine ⟨?_, he3 hd.2 hs⟩
        rw [← find?_eq_none_iff, he2, if_neg (fun e => ha e.symm), find?_eq_none_iff]
        exact hd.1
  | sub a s r _ ih =>
    by_cases ha : a = k
    · subst ha
      have hf' : f s = .ok s' := by rw [← hf]; simp [subOrNil, find?]
      refine ⟨sub a s' r, by simp [inSub, hf'], ?_, ?_⟩
      · intro k'
        simp only [find?]
        split_ifs <;> rfl
      · intro hd hs; exact ⟨hd.1, hs, hd.2.2⟩
    · have h1 : (sub a s r).find? k = r.find? k := by simp [find?, ha]
      obtain ⟨e, he1, he2, he3⟩ := ih (by rwa [h1] at hl)
        (by rw [← hf]; unfold subOrNil; rw [h1])
      refine ⟨sub a s e, by simp [inSub, ha, he1], ?_, ?_⟩
      · intro k'
        simp only [find?, he2]
        split_ifs with h2 h3
        · exact absurd (h2.trans h3.symm) ha
        · rfl
        · rfl
        · rfl
      · intro hd hs
        refine ⟨?_, hd.2.1, he3 hd.2.2 hs⟩
        rw [← find?_eq_none_iff, he2, if_neg (fun e => ha e.symm), find?_eq_none_iff]
        exact hd.1

theorem valueAt_subOrNil (d : Doc) (k n : String) (p : List String) :
    valueAt d (k :: n :: p) = valueAt (d.subOrNil k) (n :: p) := by
  rw [valueAt_cons]
  unfold subOrNil
  split
  · rfl
  · cases p with
    | nil => rw [valueAt_single]; rfl
    | cons m p => rw [valueAt_cons]; rfl

theorem distinct_subOrNil {d : Doc} (h : DistinctKeys d) (k : String) :
    DistinctKeys (d.subOrNil k) := by
  induction d with
  | nil => trivial
  | leaf a w r ih =>
    unfold subOrNil
    simp only [find?]
    by_cases ha : a = k
    · simp [ha]; trivial
    · simp only [ha, if_false]; exact ih h.2
  | sub a s r _ ih =>
    unfold subOrNil
    simp only [find?]
    by_cases ha : a = k
    · simp [ha]; exact h.2.1
    · simp only [ha, if_false]; exact ih h.2.2

/-- Adding an item whose path is not comparable with those present changes that path only. -/
theorem addItem_spec (p : List String) (v : Leaf) (d : Doc) (hp : p ≠ [])
    (h1 : ∀ q, q <+: p → q ≠ p → valueAt d q = none)
    (h2 : ∀ q, p <+: q → q ≠ p → valueAt d q = none) :
    ∃ e, addItem p v d = .ok e ∧
      (∀ q, valueAt e q = if p = q then some v.thaw else valueAt d q) ∧
      (DistinctKeys d → DistinctKeys e) := by
  induction p generalizing d with
  | nil => exact absurd rfl hp
  | cons k p ih =>
    cases p with
    | nil =>
      refine ⟨d.setLeaf k v.thaw, rfl, ?_, fun h => distinct_setLeaf h k _⟩
      intro q
      cases q with
      | nil => simp [valueAt_nil]
      | cons k' q =>
        by_cases hk : k = k'
        · subst hk
          cases q with
          | nil => simp [valueAt_single, find?_setLeaf]
          | cons n q =>
            rw [valueAt_cons, find?_setLeaf]
            simp [h2 (k :: n :: q) (by simp) (by simp)]
        · rw [valueAt_congr (e := d) (by simp [find?_setLeaf, hk])]
          simp [hk]
    | cons n p =>
      obtain ⟨s', hs1, hs2, hs3⟩ := ih (d.subOrNil k) (by simp)
        (by
          intro q hq hne
          cases q with
          | nil => exact valueAt_nil _
          | cons m q =>
            rw [← valueAt_subOrNil]
            exact h1 _ (by simpa using hq) (by simpa using hne))
        (by
          intro q hq hne
          cases q with
          | nil => exact valueAt_nil _
          | cons m q =>
            rw [← valueAt_subOrNil]
            exact h2 _ (by simpa using hq) (by simpa using hne))
      obtain ⟨e, he1, he2, he3⟩ := inSub_ok d k (addItem (n :: p) v) s'
        (by
          intro w hw
          have := h1 [k] (by simp) (by simp)
          rw [valueAt_single, hw] at this
          cases this) hs1
      refine ⟨e, he1, ?_, fun hd => he3 hd (hs3 (distinct_subOrNil hd k))⟩
      intro q
      cases q with
      | nil => simp [valueAt_nil]
      | cons k' q =>
        by_cases hk : k = k'
        · subst hk
          cases q with
          | nil =>
            rw [valueAt_single, he2, h1 [k] (by simp) (by simp)]
            simp
          | cons m q =>
            rw [valueAt_cons, he2, valueAt_subOrNil]
            simp [hs2]
        · rw [valueAt_congr (e := d) (by rw [he2, if_neg hk])]
          simp [hk]

/-- No path is a proper prefix of another one. -/
def PrefixFree (f : Flat) : Prop :=
  ∀ p ∈ f.keys, ∀ q ∈ f.keys, p <+: q → p = q

theorem addItems_spec (f : Flat) (d : Doc) (hn : f.keys.Nodup) (h0 : [] ∉ f.keys)
    (hpf : PrefixFree f)
    (hd : ∀ p ∈ f.keys, ∀ q, (p <+: q ∨ q <+: p) → valueAt d q = none) :
    ∃ e, addItems f d = .ok e ∧
      (∀ q, valueAt e q = ((f.get? q).map Leaf.thaw).or (valueAt d q)) ∧
      (DistinctKeys d → DistinctKeys e) := by
  induction f generalizing d with
  | nil => exact ⟨d, rfl, by simp, id⟩
  | cons x f ih =>
    obtain ⟨p, v⟩ := x
    simp only [PyDict.keys, List.map_cons, List.nodup_cons, List.mem_cons, not_or] at hn h0
    obtain ⟨d1, h11, h12, h13⟩ := addItem_spec p v d (fun e => h0.1 e.symm)
      (fun q hq _ => hd p (by simp [PyDict.keys]) q (.inr hq))
      (fun q hq _ => hd p (by simp [PyDict.keys]) q (.inl hq))
    obtain ⟨e, he1, he2, he3⟩ := ih d1 hn.2 h0.2
      (fun a ha b hb => hpf a (List.mem_cons_of_mem _ ha) b (List.mem_cons_of_mem _ hb))
      (by
        intro a ha q hq
        rw [h12, if_neg, hd a (List.mem_cons_of_mem _ ha) q hq]
        intro e
        subst e
        rcases hq with hq | hq
        · have := hpf a (List.mem_cons_of_mem _ ha) p (by simp [PyDict.keys]) hq
          subst this; exact hn.1 ha
        · have := hpf p (by simp [PyDict.keys]) a (List.mem_cons_of_mem _ ha) hq
          subst this; exact hn.1 ha)
    refine ⟨e, by simp [addItems, h11, he1], ?_, fun hd => he3 (h13 hd)⟩
    intro q
    rw [he2, h12, PyDict.get?_cons]
    by_cases hq : p = q
    · subst hq
      have : PyDict.get? f p = none := (PyDict.get?_eq_none_iff f p).mpr hn.1
      simp [this]
    · simp [hq]

/-- Expanding a flat dictionary with incomparable paths keeps every value. -/
theorem expand_spec (f : Flat) (hn : f.keys.Nodup) (h0 : [] ∉ f.keys) (hpf : PrefixFree f) :
    ∃ e, expand f = .ok e ∧ DistinctKeys e ∧
      ∀ q, valueAt e q = (f.get? q).map Leaf.thaw := by
  have hv : ∀ q, valueAt nil q = none := by
    intro q
    cases q with
    | nil => exact valueAt_nil _
    | cons k q =>
      cases q with
      | nil => rw [valueAt_single]; rfl
      | cons n q => rw [valueAt_cons]; rfl
  obtain ⟨e, h1, h2, h3⟩ := addItems_spec f nil hn h0 hpf (by intro p _ q _; exact hv q)
  exact ⟨e, h1, h3 trivial, by intro q; rw [h2, hv]; simp⟩

/-! ### Round trip, order included -/

/-- One dictionary after another. -/
def append : Doc → Doc → Doc
  | nil, e => e
  | leaf k v r, e => leaf k v (r.append e)
  | sub k s r, e => sub k s (r.append e)

theorem append_nil (d : Doc) : d.append nil = d := by
  induction d with
  | nil => rfl
  | leaf k v r ih => simp [append, ih]
  | sub k s r _ ih => simp [append, ih]

theorem append_assoc (d e f : Doc) : (d.append e).append f = d.append (e.append f) := by
  induction d with
  | nil => rfl
  | leaf k v r ih => simp [append, ih]
  | sub k s r _ ih => simp [append, ih]

theorem keys_append (d e : Doc) : (d.append e).keys = d.keys ++ e.keys := by
  induction d with
  | nil => rfl
  | leaf k v r ih => simp [append, keys, ih]
  | sub k s r _ ih => simp [append, keys, ih]

theorem setLeaf_new {d : Doc} {k : String} (h : k ∉ d.keys) (v : Leaf) :
    d.setLeaf k v = d.append (leaf k v nil) := by
  induction d with
  | nil => rfl
  | leaf a w r ih =>
    simp only [keys, List.mem_cons, not_or] at h
    simp [setLeaf, append, ih h.2, Ne.symm h.1]
  | sub a s r _ ih =>
    simp only [keys, List.mem_cons, not_or] at h
    simp [setLeaf, append, ih h.2, Ne.symm h.1]

theorem inSub_new {d : Doc} {k : String} (h : k ∉ d.keys) (f : Doc → Except Err Doc) {s : Doc}
    (hs : f nil = .ok s) : d.inSub k f = .ok (d.append (sub k s nil)) := by
  induction d with
  | nil => simp [inSub, hs, append]
  | leaf a w r ih =>
    simp only [keys, List.mem_cons, not_or] at h
    simp [inSub, append, ih h.2, Ne.symm h.1]
  | sub a s' r _ ih =>
    simp only [keys, List.mem_cons, not_or] at h
    simp [inSub, append, ih h.2, Ne.symm h.1]

theorem inSub_last {d : Doc} {k : String} (h : k ∉ d.keys) (f : Doc → Except Err Doc) {s s' : Doc}
    (hs : f s = .ok s') :
    (d.append (sub k s nil)).inSub k f = .ok (d.append (sub k s' nil)) := by
  induction d with
  | nil => simp [inSub, hs, append]
  | leaf a w r ih =>
    simp only [keys, List.mem_cons, not_or] at h
    simp [inSub, append, ih h.2, Ne.symm h.1]
  | sub a s' r _ ih =>
    simp only [keys, List.mem_cons, not_or] at h
    simp [inSub, append, ih h.2, Ne.symm h.1]

theorem addItems_append (f g : Flat) (d : Doc) :
    addItems (f ++ g) d = match addItems f d with
      | .ok e => addItems g e
      | .error e => .error e := by
  induction f generalizing d with
  | nil => rfl
  | cons x f ih =>
    obtain ⟨p, v⟩ := x
    simp only [List.cons_append, addItems]
    cases h : addItem p v d with
    | ok e => exact ih e
    | error e => rfl

/-- Items below one last key. -/
theorem addItems_last (f : Flat) (hf : [] ∉ f.keys) (b : Doc) (k : String) (hb : k ∉ b.keys)
    (s s' : Doc) (h : addItems f s = .ok s') :
    addItems (f.map fun q => (k :: q.1, q.2)) (b.append (sub k s nil)) =
      .ok (b.append (sub k s' nil)) := by
  induction f generalizing s with
  | nil => simp only [addItems, Except.ok.injEq] at h; subst h; rfl
  | cons x f ih =>
    obtain ⟨p, v⟩ := x
    simp only [PyDict.keys, List.map_cons, List.mem_cons, not_or] at hf
    simp only [addItems] at h
    cases p with
    | nil => exact absurd rfl hf.1
    | cons n p =>
      cases h1 : addItem (n :: p) v s with
      | error e => rw [h1] at h; simp at h
      | ok s1 =>
        rw [h1] at h
        simp only [List.map_cons, addItems, addItem]
        rw [inSub_last hb _ h1]
        exact ih hf.2 s1 h

/-- The same below a key that is not there yet. -/
theorem addItems_new (f : Flat) (hf : [] ∉ f.keys) (hne : f ≠ []) (b : Doc) (k : String)
    (hb : k ∉ b.keys) (s' : Doc) (h : addItems f nil = .ok s') :
    addItems (f.map fun q => (k :: q.1, q.2)) b = .ok (b.append (sub k s' nil)) := by
  cases f with
  | nil => exact absurd rfl hne
  | cons x f =>
    obtain ⟨p, v⟩ := x
    simp only [PyDict.keys, List.map_cons, List.mem_cons, not_or] at hf
    simp only [addItems] at h
    cases p with
    | nil => exact absurd rfl hf.1
    | cons n p =>
      cases h1 : addItem (n :: p) v nil with
      | error e => rw [h1] at h; simp at h
      | ok s1 =>
        rw [h1] at h
        simp only [List.map_cons, addItems, addItem]
        rw [inSub_new hb _ h1]
        exact addItems_last f hf.2 b k hb s1 s' h

theorem nil_notMem_walk (d : Doc) : [] ∉ PyDict.keys (d.walk []) := by
  intro h
  obtain ⟨q, hq, he⟩ := List.mem_map.mp h
  obtain ⟨k, p, h1, _⟩ := walk_head d q hq
  rw [he] at h1
  cases h1

theorem prune_eq_nil_iff (d : Doc) : prune d = nil ↔ d.walk [] = [] := by
  induction d with
  | nil => simp [prune, walk]
  | leaf k v r _ => simp [prune, walk]
  | sub k s r ihs ihr =>
    rw [walk_sub, List.append_eq_nil_iff, List.map_eq_nil_iff, ← ihs, ← ihr]
    simp only [prune]
    cases h : prune s <;> simp

theorem prune_keys (d : Doc) : ∀ k ∈ (prune d).keys, k ∈ d.keys := by
  induction d with
  | nil => intro k h; exact h
  | leaf k v r ih =>
    intro a ha
    simp only [prune, keys, List.mem_cons] at ha ⊢
    exact ha.imp id (ih a)
  | sub k s r _ ihr =>
    intro a ha
    simp only [keys, List.mem_cons]
    simp only [prune] at ha
    split at ha
    · exact .inr (ihr a ha)
    · simp only [keys, List.mem_cons] at ha
      exact ha.imp id (ihr a)

/-- Replace lists by tuples everywhere. -/
def freezeWalk (l : List (List String × Leaf)) : List (List String × Leaf) :=
  l.map fun q => (q.1, q.2.freeze)

theorem addItems_walk (d b : Doc) (hd : DistinctKeys d) (ht : NoTuples d)
    (hb : ∀ k ∈ d.keys, k ∉ b.keys) :
    addItems (freezeWalk (d.walk [])) b = .ok (b.append (prune d)) := by
  induction d generalizing b with
  | nil => simp [walk, freezeWalk, addItems, prune, append_nil]
  | leaf k v r ih =>
    have hkb : k ∉ b.keys := hb k (by simp [keys])
    simp only [walk_leaf, freezeWalk, List.map_cons, addItems, addItem]
    have hv : v.freeze.thaw = v := by
      cases v with
      | tup xs => exact absurd rfl (ht.1 xs)
      | _ => rfl
    rw [hv, setLeaf_new hkb]
    have := ih (b.append (leaf k v nil)) hd.2 ht.2 (by
      intro a ha
      rw [keys_append]
      simp only [keys, List.mem_append, List.mem_singleton, not_or]
      exact ⟨hb a (by simp [keys, ha]), fun e => hd.1 (e ▸ ha)⟩)
    simp only [freezeWalk] at this
    rw [this, append_assoc]
    rfl
  | sub k s r ihs ihr =>
    have hkb : k ∉ b.keys := hb k (by simp [keys])
    have hw : freezeWalk ((sub k s r).walk []) =
        (freezeWalk (s.walk [])).map (fun q => (k :: q.1, q.2)) ++ freezeWalk (r.walk []) := by
      rw [walk_sub]; simp [freezeWalk, Function.comp_def]
    rw [hw, addItems_append]
    by_cases hs : s.walk [] = []
    · have hp : prune s = nil := (prune_eq_nil_iff s).mpr hs
      simp only [hs, freezeWalk, List.map_nil, addItems]
      have := ihr b hd.2.2 ht.2 (fun a ha => hb a (by simp [keys, ha]))
      simp only [freezeWalk] at this
      rw [this]
      simp [prune, hp]
    · have h1 := ihs nil hd.2.1 ht.1 (by simp [keys])
      have hp : prune s ≠ nil := fun e => hs ((prune_eq_nil_iff s).mp e)
      have h2 := addItems_new (freezeWalk (s.walk []))
        (by
          have := nil_notMem_walk s
          simpa [PyDict.keys, freezeWalk, Function.comp_def] using this)
        (by simpa [freezeWalk] using hs) b k hkb _ h1
      rw [h2]
      have := ihr (b.append (sub k (append nil (prune s)) nil)) hd.2.2 ht.2 (by
        intro a ha
        rw [keys_append]
        simp only [keys, List.mem_append, List.mem_singleton, not_or]
        exact ⟨hb a (by simp [keys, ha]), fun e => hd.1 (e ▸ ha)⟩)
      simp only []
      rw [this, append_assoc]
      have hps : prune (sub k s r) = sub k (prune s) (prune r) := by
        simp only [prune]
      rw [hps]
      rfl

theorem prune_eq_self {d : Doc} (h : NoEmptySub d) : prune d = d := by
  induction d with
  | nil => rfl
  | leaf k v r ih => simp [prune, ih h]
  | sub k s r ihs ihr =>
    simp only [prune, ihs h.2.1, ihr h.2.2]
    split
    · rename_i h'; exact absurd rfl h.1
    · rfl

end Doc

end Verif
