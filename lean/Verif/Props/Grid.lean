import Verif.Lemmas.Grid

/-!
# Properties of the grid (C50, C51)
-/

set_option autoImplicit false

namespace Verif.Props

variable {K : Type*}

/-! ### C50 -/

/-- C50: a two-dimensional shape with two spacings gives `rows + 2` rows of nodes, of which the
first and the last are closed, and `rows` entries for row fields. -/
theorem grid_shape [One K] (rows cols : ℕ) (dy dx : K) :
    ∃ g, gridInit [rows, cols] [dy, dx] = .ok g ∧ g.nodeRows = rows + 2 ∧ g.nodeCols = cols ∧
      g.dx = dx ∧ g.dy = dy ∧ g.rowSize = rows ∧
      ∀ r < g.nodeRows, (g.status r = .open ↔ 1 ≤ r ∧ r ≤ rows) := by
  refine ⟨GridInfo.make rows cols dy dx, by simp [gridInit], rfl, rfl, rfl, rfl, rfl, ?_⟩
  intro r hr
  simp only [GridInfo.make] at hr ⊢
  split_ifs with h
  · simp; omega
  · simp; omega

/-- C50: a one-dimensional shape is one row with unit row spacing. -/
theorem grid_one_dimension [One K] (cols : ℕ) (dx : K) :
    gridInit [cols] [dx] = gridInit [1, cols] [1, dx] := by
  simp [gridInit]

/-- C50: every other combination of dimensions is rejected. -/
theorem grid_invalid [One K] (shape : List ℕ) (spacing : List K) :
    gridInit shape spacing = .error .valueError ↔
      ¬ ((shape.length = 1 ∨ shape.length = 2) ∧ spacing.length = shape.length) := by
  match shape, spacing with
  | [], [] => simp [gridInit]
  | [], _ :: _ => simp [gridInit]
  | [_], [] => simp [gridInit]
  | [_], [_] => simp [gridInit]
  | [_], _ :: _ :: _ => simp [gridInit]
  | [_, _], [] => simp [gridInit]
  | [_, _], [_] => simp [gridInit]
  | [_, _], [_, _] => simp [gridInit]
  | [_, _], _ :: _ :: _ :: _ => simp [gridInit]
  | _ :: _ :: _ :: _, spacing => simp [gridInit]

/-- C50: the dictionary form. `xy_spacing` is the spacing in the opposite order, `n_cols` is a
one-row shape; `shape` and `spacing` have precedence; something of each is required. -/
theorem grid_from_dict [One K] (params : GridParams K) :
    (∀ s d, params.shape = some s → params.spacing = some d →
      gridFromDict params = gridInit s d) ∧
    (∀ s a b, params.shape = some s → params.spacing = none → params.xySpacing = some [a, b] →
      gridFromDict params = gridInit s [b, a]) ∧
    (∀ n d, params.shape = none → params.nCols = some [n] → params.spacing = some [d] →
      gridFromDict params = gridInit [1, n] [1, d]) ∧
    (params.shape = none → params.nCols = none →
      gridFromDict params = .error (.keyError "shape")) ∧
    ((params.shape.isSome ∨ params.nCols.isSome) → params.spacing = none →
      params.xySpacing = none → gridFromDict params = .error (.keyError "spacing")) := by
  obtain ⟨sh, nc, sp, xy⟩ := params
  refine ⟨?_, ?_, ?_, ?_, ?_⟩
  · rintro s d rfl rfl; rfl
  · rintro s a b rfl rfl rfl; rfl
  · rintro n d rfl rfl rfl
    rw [← grid_one_dimension]; rfl
  · rintro rfl rfl; rfl
  · rintro h rfl rfl
    cases sh with
    | some s => rfl
    | none =>
      cases nc with
      | some n => rfl
      | none => simp at h

example : ∃ g, gridFromDict { shape := some [3, 5], xySpacing := some [10, 10000] } = .ok g ∧
    g.nodeRows = 5 ∧ g.dx = (10 : ℤ) ∧ g.dy = 10000 := ⟨_, rfl, rfl, rfl, rfl⟩

/-! ### C51 -/

/-- C51: the rows of a profile are exactly the node rows that are neither the first nor the last,
in order. -/
theorem profile_rows {R C : ℕ} (f : NodeField R C K) :
    (∀ (r : Fin R) (c : Fin C) (q : Fin (R + 2)), q.val = r.val + 1 →
      getProfile f r c = f (q, c)) ∧
    (∀ q : Fin (R + 2), (∃ r : Fin R, q.val = r.val + 1) ↔ q.val ≠ 0 ∧ q.val ≠ R + 1) := by
  constructor
  · intro r c q h
    have : q = activeRow r := Fin.ext h
    rw [this]; rfl
  · intro q
    constructor
    · rintro ⟨r, h⟩; have := r.isLt; omega
    · rintro ⟨h1, h2⟩
      have := q.isLt
      exact ⟨⟨q.val - 1, by omega⟩, by simp; omega⟩

/-- C51: writing through a profile gives its rows the new values and leaves the first and the
last row of nodes alone. -/
theorem profile_write {R C : ℕ} (f : NodeField R C K) (v : Fin R → Fin C → K) :
    (∀ (r : Fin R) (c : Fin C) (q : Fin (R + 2)), q.val = r.val + 1 →
      setProfile f v (q, c) = v r c) ∧
    (∀ (q : Fin (R + 2)) (c : Fin C), q.val = 0 ∨ q.val = R + 1 →
      setProfile f v (q, c) = f (q, c)) := by
  constructor
  · intro r c q h
    have : q = activeRow r := Fin.ext h
    subst this
    have := congrFun (congrFun (getProfile_setProfile f v) r) c
    exact this
  · intro q c h
    exact setProfile_other f v (q, c) h

example : setProfile (R := 1) (C := 2) (fun _ => (0 : ℤ)) (fun _ c => c.val + 5) (1, 1) = 6 ∧
    setProfile (R := 1) (C := 2) (fun _ => (0 : ℤ)) (fun _ c => c.val + 5) (2, 1) = 0 := by
  decide +kernel

end Verif.Props
