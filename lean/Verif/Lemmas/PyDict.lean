import Mathlib.Data.List.Basic
import Mathlib.Data.List.Nodup
import Mathlib.Tactic.SplitIfs
import Verif.Model.PyDict

/-! Helper lemmas about dictionaries. -/

set_option autoImplicit false

namespace Verif.PyDict

variable {κ ν : Type*} [DecidableEq κ]

@[simp] theorem get?_nil (k : κ) : get? ([] : PyDict κ ν) k = none := rfl

theorem get?_cons (p : κ × ν) (d : PyDict κ ν) (k : κ) :
    get? (p :: d) k = if p.1 = k then some p.2 else get? d k := rfl

theorem get?_set (d : PyDict κ ν) (k : κ) (v : ν) (k' : κ) :
    (d.set k v).get? k' = if k = k' then some v else d.get? k' := by
  induction d with
  | nil => simp [set, get?]
  | cons p d ih =>
    simp only [set]
    split_ifs with h1 h2 h2
    · simp [get?, ← h2, h1]
    · rw [get?_cons, get?_cons]; simp only
      rw [h1, if_neg h2, if_neg h2]
    · rw [get?_cons, if_neg (by rw [← h2]; exact h1), ih, if_pos h2]
    · rw [get?_cons, get?_cons, ih, if_neg h2]

theorem get?_append (d e : PyDict κ ν) (k : κ) : get? (d ++ e) k = (get? d k).or (get? e k) := by
  induction d with
  | nil => simp
  | cons p d ih =>
    rw [List.cons_append, get?_cons, get?_cons, ih]
    split_ifs <;> simp

theorem get?_update (d e : PyDict κ ν) (k : κ) :
    (d.update e).get? k = (get? e.reverse k).or (d.get? k) := by
  unfold update
  induction e generalizing d with
  | nil => simp
  | cons p e ih =>
    rw [List.foldl_cons, ih, List.reverse_cons, get?_append, get?_set, get?_cons]
    split_ifs <;> simp

theorem get?_eq_none_iff (d : PyDict κ ν) (k : κ) : get? d k = none ↔ k ∉ d.keys := by
  induction d with
  | nil => simp [keys]
  | cons p d ih =>
    rw [get?_cons]
    split_ifs with h
    · simp [keys, h]
    · rw [ih]; simp [keys]; intro _; exact fun h' => h h'.symm

theorem mem_of_get? {d : PyDict κ ν} {k : κ} {v : ν} (h : get? d k = some v) : (k, v) ∈ d := by
  induction d with
  | nil => simp at h
  | cons p d ih =>
    rw [get?_cons] at h
    split_ifs at h with h'
    · cases h; rw [← h']; simp
    · simp [ih h]

theorem get?_of_mem {d : PyDict κ ν} (hd : d.keys.Nodup) {k : κ} {v : ν} (h : (k, v) ∈ d) :
    get? d k = some v := by
  induction d with
  | nil => simp at h
  | cons p d ih =>
    simp only [keys, List.map_cons, List.nodup_cons] at hd
    rw [get?_cons]
    rcases List.mem_cons.mp h with h' | h'
    · rw [← h']; simp
    · have : p.1 ≠ k := by
        intro he; apply hd.1; rw [he]; exact List.mem_map.mpr ⟨_, h', rfl⟩
      rw [if_neg this]; exact ih hd.2 h'

theorem mem_iff_get? {d : PyDict κ ν} (hd : d.keys.Nodup) {k : κ} {v : ν} :
    (k, v) ∈ d ↔ get? d k = some v := ⟨get?_of_mem hd, mem_of_get?⟩

theorem get?_perm {d e : PyDict κ ν} (hd : d.keys.Nodup) (h : d.Perm e) (k : κ) :
    get? d k = get? e k := by
  have he : e.keys.Nodup := (h.map _).nodup_iff.mp hd
  cases hk : get? e k with
  | some v => exact get?_of_mem hd (h.mem_iff.mpr (mem_of_get? hk))
  | none =>
    rw [get?_eq_none_iff] at hk ⊢
    intro hmem
    exact hk ((h.map (·.1)).mem_iff.mp hmem)

theorem get?_reverse {d : PyDict κ ν} (hd : d.keys.Nodup) (k : κ) :
    get? d.reverse k = get? d k :=
  (get?_perm hd (List.reverse_perm d).symm k).symm

theorem keys_set (d : PyDict κ ν) (k : κ) (v : ν) :
    (d.set k v).keys = if k ∈ d.keys then d.keys else d.keys ++ [k] := by
  induction d with
  | nil => simp [set, keys]
  | cons p d ih =>
    simp only [set]
    by_cases h : p.1 = k
    · rw [if_pos h]; simp [keys, h]
    · rw [if_neg h]
      show p.1 :: (set d k v).keys = _
      rw [ih]
      have hk : k ∈ keys (p :: d) ↔ k ∈ keys d := by
        simp only [keys, List.map_cons, List.mem_cons]
        constructor
        · rintro (h' | h')
          · exact absurd h'.symm h
          · exact h'
        · exact .inr
      by_cases h2 : k ∈ keys d
      · rw [if_pos h2, if_pos (hk.mpr h2)]; rfl
      · rw [if_neg h2, if_neg (fun h' => h2 (hk.mp h'))]; rfl

theorem nodup_set {d : PyDict κ ν} (hd : d.keys.Nodup) (k : κ) (v : ν) :
    (d.set k v).keys.Nodup := by
  rw [keys_set]
  split_ifs with h
  · exact hd
  · rw [List.nodup_append]
    refine ⟨hd, by simp, ?_⟩
    intro a ha b hb
    simp at hb
    subst hb
    intro hab
    exact h (hab ▸ ha)

theorem nodup_update {d : PyDict κ ν} (hd : d.keys.Nodup) (e : PyDict κ ν) :
    (d.update e).keys.Nodup := by
  unfold update
  induction e generalizing d with
  | nil => exact hd
  | cons p e ih => exact ih (nodup_set hd p.1 p.2)

theorem set_append_of_not_mem {d : PyDict κ ν} {k : κ} (h : k ∉ d.keys) (v : ν) :
    d.set k v = d ++ [(k, v)] := by
  induction d with
  | nil => rfl
  | cons p d ih =>
    simp only [keys, List.map_cons, List.mem_cons, not_or] at h
    simp only [set]
    rw [if_neg (fun h' => h.1 h'.symm), ih h.2]; rfl

theorem update_eq_append {d e : PyDict κ ν} (he : e.keys.Nodup)
    (hde : ∀ k ∈ e.keys, k ∉ d.keys) : d.update e = d ++ e := by
  unfold update
  induction e generalizing d with
  | nil => simp
  | cons p e ih =>
    simp only [keys, List.map_cons, List.nodup_cons] at he
    rw [List.foldl_cons, set_append_of_not_mem (hde p.1 (by simp [keys])), ih he.2]
    · simp
    · intro k hk
      simp only [keys, List.map_append, List.map_cons, List.map_nil, List.mem_append,
        List.mem_singleton, not_or]
      refine ⟨hde k (by simp [keys] at hk ⊢; right; exact hk), ?_⟩
      intro h'
      exact he.1 (h' ▸ hk)

theorem ofPairs_eq {e : List (κ × ν)} (he : (e.map (·.1)).Nodup) : ofPairs e = e := by
  unfold ofPairs
  rw [update_eq_append he (by simp [keys])]; rfl

theorem nodup_ofPairs (e : List (κ × ν)) : (ofPairs e).keys.Nodup :=
  nodup_update (by simp [keys]) e

end Verif.PyDict
