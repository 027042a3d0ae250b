import Verif.Lemmas.Config
import Verif.Lemmas.Prelude
import Verif.Spec.Nulls

/-!
# Null in a value
-/

set_option autoImplicit false

namespace Verif

open Spec

mutual
  theorem hasNull_iff : ∀ v : Leaf, v.hasNull = true ↔ NullIn v
    | .none => ⟨fun _ => .here, fun _ => rfl⟩
    | .num _ => ⟨fun h => (by cases h), fun h => (by cases h)⟩
    | .str _ => ⟨fun h => (by cases h), fun h => (by cases h)⟩
    | .list xs => by
      rw [Leaf.hasNull, anyNull_iff xs]
      exact ⟨fun ⟨x, hx, h⟩ => .list hx h, fun h => by cases h with | list hx h => exact ⟨_, hx, h⟩⟩
    | .tup xs => by
      rw [Leaf.hasNull, anyNull_iff xs]
      exact ⟨fun ⟨x, hx, h⟩ => .tup hx h, fun h => by cases h with | tup hx h => exact ⟨_, hx, h⟩⟩

  theorem anyNull_iff : ∀ xs : List Leaf, Leaf.anyNull xs = true ↔ ∃ x ∈ xs, NullIn x
    | [] => by simp [Leaf.anyNull]
    | v :: vs => by
      rw [Leaf.anyNull, Bool.or_eq_true, hasNull_iff v, anyNull_iff vs]
      simp
end

theorem docHasNull_iff (d : Doc) : d.hasNull = true ↔ NullInDoc d := by
  induction d with
  | nil => exact ⟨fun h => (by cases h), fun h => (by cases h)⟩
  | leaf k v r ih =>
    rw [Doc.hasNull, Bool.or_eq_true, hasNull_iff, ih]
    constructor
    · rintro (h | h)
      · exact .value h
      · exact .afterValue h
    · intro h
      cases h with
      | value h => exact .inl h
      | afterValue h => exact .inr h
  | sub k s r ih1 ih2 =>
    rw [Doc.hasNull, Bool.or_eq_true, ih1, ih2]
    constructor
    · rintro (h | h)
      · exact .inner h
      · exact .afterInner h
    · intro h
      cases h with
      | inner h => exact .inl h
      | afterInner h => exact .inr h

/-- A null in a dictionary is in one of its values. -/
theorem docHasNull_find {d : Doc} (h : DistinctKeys d) :
    d.hasNull = true ↔ ∃ k, (∃ v, d.find? k = some (.inl v) ∧ v.hasNull = true) ∨
      ∃ s, d.find? k = some (.inr s) ∧ s.hasNull = true := by
  induction d with
  | nil => exact ⟨fun h => (by cases h), by rintro ⟨k, ⟨v, hv, -⟩ | ⟨s, hs, -⟩⟩ <;> contradiction⟩
  | leaf a w r ih =>
    rw [Doc.hasNull, Bool.or_eq_true, ih h.2]
    constructor
    · rintro (hw | ⟨k, hk⟩)
      · exact ⟨a, .inl ⟨w, by simp [Doc.find?], hw⟩⟩
      · have hne : a ≠ k := by
          rintro rfl
          have := (Doc.find?_eq_none_iff r a).mpr h.1
          rw [this] at hk
          rcases hk with ⟨v, hv, -⟩ | ⟨s, hs, -⟩ <;> contradiction
        exact ⟨k, by simpa [Doc.find?, hne] using hk⟩
    · rintro ⟨k, hk⟩
      by_cases hak : a = k
      · left
        simpa [Doc.find?, hak] using hk
      · exact .inr ⟨k, by simpa [Doc.find?, hak] using hk⟩
  | sub a s r _ ih =>
    rw [Doc.hasNull, Bool.or_eq_true, ih h.2.2]
    constructor
    · rintro (hw | ⟨k, hk⟩)
      · exact ⟨a, .inr ⟨s, by simp [Doc.find?], hw⟩⟩
      · have hne : a ≠ k := by
          rintro rfl
          have := (Doc.find?_eq_none_iff r a).mpr h.1
          rw [this] at hk
          rcases hk with ⟨v, hv, -⟩ | ⟨s, hs, -⟩ <;> contradiction
        exact ⟨k, by simpa [Doc.find?, hne] using hk⟩
    · rintro ⟨k, hk⟩
      by_cases hak : a = k
      · left
        simpa [Doc.find?, hak] using hk
      · exact .inr ⟨k, by simpa [Doc.find?, hak] using hk⟩

end Verif
