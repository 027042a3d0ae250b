import Verif.Model.VarNames
import Verif.Lemmas.Prelude

/-! # C135: different fields are different variables of a file -/

set_option autoImplicit false

namespace Verif.Props

open Verif

theorem split_at_colon : ∀ {a a' n n' : List Char}, ':' ∉ a → ':' ∉ a' →
    a ++ ':' :: n = a' ++ ':' :: n' → a = a' ∧ n = n' := by
  intro a
  induction a with
  | nil =>
    intro a' n n' _ h' he
    cases a' with
    | nil => simpa using he
    | cons c a' =>
      simp only [List.nil_append, List.cons_append, List.cons.injEq] at he
      exact absurd (he.1 ▸ List.mem_cons_self ..) h'
  | cons c a ih =>
    intro a' n n' h h' he
    cases a' with
    | nil =>
      simp only [List.nil_append, List.cons_append, List.cons.injEq] at he
      exact absurd (he.1 ▸ List.mem_cons_self ..) h
    | cons c' a' =>
      simp only [List.cons_append, List.cons.injEq] at he
      obtain ⟨h1, h2⟩ := ih (fun hm => h (List.mem_cons_of_mem _ hm))
        (fun hm => h' (List.mem_cons_of_mem _ hm)) he.2
      exact ⟨by rw [he.1, h1], h2⟩

/-- C135: the variables of a file for two fields are the same only if the fields are; the
locations, and `layer`, are words without a colon. The names of fields can be anything. -/
theorem var_names_distinct {at_ at' : String} (h : at_ ∈ "layer" :: knownLocations)
    (h' : at' ∈ "layer" :: knownLocations) {name name' : String}
    (he : netcdfVarName name at_ = netcdfVarName name' at') : at_ = at' ∧ name = name' := by
  have hc : ∀ l ∈ "layer" :: knownLocations, ':' ∉ l.toList := by decide +kernel
  have he' := congrArg String.toList he
  simp only [netcdfVarName, String.toList_append] at he'
  simp only [List.append_assoc] at he'
  have he2 := List.append_cancel_left he'
  obtain ⟨h1, h2⟩ := split_at_colon (hc _ h) (hc _ h') he2
  exact ⟨String.toList_inj.mp h1, String.toList_inj.mp h2⟩

/-- C135: no field has the name of the time or of a coordinate. -/
theorem var_names_not_coordinates (name at_ : String) :
    netcdfVarName name at_ ∉ coordinateNames ∧ netcdfVarName name at_ ≠ "time" ∧
      ∀ l, netcdfVarName name at_ ≠ "x_of_" ++ l ∧ netcdfVarName name at_ ≠ "y_of_" ++ l := by
  have hh : (netcdfVarName name at_).toList.head? = some 'a' := by
    simp only [netcdfVarName, String.toList_append]
    rfl
  have hc : ∀ c ∈ coordinateNames, c.toList.head? ≠ some 'a' := by decide +kernel
  refine ⟨fun hm => hc _ hm hh, fun h => ?_, fun l => ⟨fun h => ?_, fun h => ?_⟩⟩
  · rw [h] at hh
    exact absurd hh (by decide +kernel)
  all_goals
    rw [h, String.toList_append] at hh
    have : 'x' = 'a' ∨ 'y' = 'a' := by
      first
        | exact .inl (Option.some.inj hh)
        | exact .inr (Option.some.inj hh)
    revert this
    decide

/-- C135: the time and the two coordinates of every location are different variables. -/
theorem coordinate_names_distinct : coordinateNames.Nodup ∧ "time" ∈ coordinateNames ∧
    ∀ l ∈ knownLocations, "x_of_" ++ l ∈ coordinateNames ∧ "y_of_" ++ l ∈ coordinateNames := by
  refine ⟨by decide +kernel, by decide +kernel, by decide +kernel⟩

/-- A field whose name looks like that of another location. -/
example : netcdfVarName "x" "node" = "at_node:x" ∧
    netcdfVarName "cell:x" "node" ≠ netcdfVarName "x" "cell" := by decide +kernel

end Verif.Props
