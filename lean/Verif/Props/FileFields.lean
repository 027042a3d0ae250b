import Verif.Spec.FileFields
import Verif.Props.PlotRun

/-!
# Every variable of an output file holds the quantity that it is named after (C133)
-/

set_option autoImplicit false
set_option linter.unusedSectionVars false

namespace Verif.Props

open Spec

variable {K σ : Type*} [Field K] [LinearOrder K] [IsStrictOrderedRing K] {R C : ℕ}

theorem find_optField (name n : String) (v : Option (List (Option K))) :
    ((optField name v).find? (fun p => p.1 == n)).map (·.2) = if name = n then v else none := by
  cases v <;> by_cases h : name = n <;> simp [optField, h]

/-- What is seen of a node field. -/
theorem worldView_node (geo : Geometry K) (w : World R C K) (name : String) :
    (worldView geo w).field "node" name = (nodeQuantity name w).map nodeList := by
  have hor : ∀ a b : Option (String × List (Option K)),
      (a.or b).map (·.2) = (a.map (·.2)).or (b.map (·.2)) := by
    intro a b; cases a <;> rfl
  obtain ⟨q, hq⟩ : ∃ q, nodeQuantity name w = q := ⟨_, rfl⟩
  rw [hq]
  unfold GridView.field worldView
  simp only [if_true, List.find?_append, hor, find_optField]
  unfold nodeQuantity at hq
  split at hq <;> subst hq
  · simp
  · simp
  · simp
  · simp
  · simp
  · simp
  · simp
  · simp
  · rename_i h1 h2 h3 h4 h5 h6 h7 h8
    simp [Ne.symm h1, Ne.symm h2, Ne.symm h3, Ne.symm h4, Ne.symm h5, Ne.symm h6, Ne.symm h7,
      Ne.symm h8]

/-- With a constant interval, write `q` is that of step `q * interval`, whatever the time steps. -/
theorem writesOf_at {A : Type*} (interval : ℕ) (hi : 0 < interval) (calls : List (Call K A))
    (hc : ∀ c ∈ calls, c.interval = interval) :
    (writesOf calls).length = (calls.length + interval - 1) / interval ∧
    ∀ q, (writesOf calls)[q]? = (calls[q * interval]?).map fun c =>
      ⟨elapsed (calls.take (q * interval)), c.fields, c.view⟩ := by
  induction calls using List.reverseRecOn with
  | nil =>
    refine ⟨?_, by simp [writesOf]⟩
    rw [Nat.div_eq_of_lt (by simp; omega)]
    rfl
  | append_singleton calls c ih =>
    obtain ⟨hlen', hget⟩ := ih fun c hm => hc c (List.mem_append_left _ hm)
    have hlt_iff : ∀ q, q < (writesOf calls).length ↔ q * interval < calls.length := by
      intro q
      rw [hlen', ← Nat.succ_le_iff, Nat.le_div_iff_mul_le hi, Nat.succ_mul]
      omega
    rw [writesOf_append, hc c (by simp)]
    constructor
    · rw [List.length_append, List.length_append, List.length_singleton, hlen']
      by_cases hd : interval ∣ calls.length
      · obtain ⟨m, hm⟩ := hd
        rw [if_pos ⟨m, hm⟩, hm, Nat.add_sub_assoc hi, Nat.mul_add_div hi, Nat.div_eq_of_lt (by omega),
          show interval * m + 1 + interval - 1 = interval * (m + 1) by rw [Nat.mul_succ]; omega,
          Nat.mul_div_cancel_left _ hi]
        rfl
      · rw [if_neg hd]
        have h1 : calls.length % interval ≠ 0 := fun h => hd (Nat.dvd_of_mod_eq_zero h)
        have h2 := Nat.div_add_mod calls.length interval
        have h3 := Nat.mod_lt calls.length hi
        rw [← h2]
        generalize calls.length % interval = r at *
        generalize calls.length / interval = q at *
        rw [show interval * q + r + 1 + interval - 1 = interval * (q + 1) + r by
            rw [Nat.mul_succ]; omega,
          show interval * q + r + interval - 1 = interval * (q + 1) + (r - 1) by
            rw [Nat.mul_succ]; omega,
          Nat.mul_add_div hi, Nat.mul_add_div hi, Nat.div_eq_of_lt h3, Nat.div_eq_of_lt (by omega)]
        rfl
    · intro q
      by_cases hq : q < (writesOf calls).length
      · have hlt := (hlt_iff q).mp hq
        rw [List.getElem?_append_left hq, hget, List.getElem?_append_left hlt,
          List.take_append_of_le_length hlt.le]
      · have hge : calls.length ≤ q * interval := not_lt.mp fun h => hq ((hlt_iff q).mpr h)
        rw [List.getElem?_append_right (not_lt.mp hq), List.getElem?_append_right hge]
        by_cases hd : interval ∣ calls.length
        · rw [if_pos hd]
          obtain ⟨m, hm⟩ := hd
          have e1 : (writesOf calls).length = m := by
            rw [hlen', hm, Nat.add_sub_assoc hi, Nat.mul_add_div hi, Nat.div_eq_of_lt (by omega),
              add_zero]
          rw [e1] at hq ⊢
          rcases (not_lt.mp hq).eq_or_lt with rfl | hlt
          · have e2 : m * interval - calls.length = 0 := by rw [hm, mul_comm]; omega
            have e3 : m * interval = calls.length := by rw [hm, mul_comm]
            rw [e2, Nat.sub_self, e3, List.take_left]
            rfl
          · have h3 : interval * (m + 1) ≤ interval * q := Nat.mul_le_mul_left _ hlt
            have e3 : [c].length ≤ q * interval - calls.length := by
              rw [List.length_singleton, hm, mul_comm q]
              rw [Nat.mul_succ] at h3
              omega
            rw [List.getElem?_eq_none e3, List.getElem?_eq_none (by simp; omega)]
            rfl
        · rw [if_neg hd]
          have hne : calls.length ≠ q * interval := fun h => hd ⟨q, by rw [h, mul_comm]⟩
          rw [List.getElem?_nil, List.getElem?_eq_none (by simp; omega)]
          rfl

/-- C133: the variable `name` at nodes holds at node `r * C + c` of slice `q` what the field of that
name was there in step `q * interval`; the same for the sea level and the shorelines, and every
layer variable holds the layers of the last write. There is one record for every `interval` steps,
and its time is the time that the steps before it took, whatever their lengths. -/
theorem file_holds_quantities {geo : Geometry K} {path : String} {interval : ℕ}
    {fields : List String} {start : K} {comps : List (Component σ R C K)}
    {porosity : σ × (Writer K × FileSystem K (Option K)) → K}
    {obs : List (Observation (σ × (Writer K × FileSystem K (Option K))) R C K)}
    {s s' : ModelState (σ × (Writer K × FileSystem K (Option K))) R C K}
    (hs : OutputSetup (fun _ w => worldView geo w) (geoSizes R C geo) path interval fields start s)
    (h : ModelHistory (withWriter (fun _ w => worldView geo w) comps) porosity s obs s')
    (hne : obs ≠ []) :
    ∃ d, s'.comps.2.2 path = .dataset d ∧
      d.times.length = (obs.length + interval - 1) / interval ∧
      (∀ (q : ℕ) o, obs[q * interval]? = some o →
        d.times[q]? = some ((obs.take (q * interval)).map (·.dt)).sum ∧
        (∀ name, fields = [] ∨ name ∈ fields → ∀ (r : Fin (R + 2)) (c : Fin C),
          fieldValueAt d "node" name q (r.val * C + c.val) =
            (nodeQuantity name o.world).map (· (r, c))) ∧
        fieldValueAt d "grid" "sea_level__elevation" q 0 = some o.world.seaLevel ∧
        fieldValueAt d "grid" "sea_level__increment_of_elevation" q 0 = o.world.seaIncr ∧
        (∀ r : Fin R, fieldValueAt d "row" "x_of_shore" q r.val = o.world.rowShore.bind (· r)) ∧
        ∀ r : Fin R, fieldValueAt d "row" "x_of_shelf_edge" q r.val =
          o.world.rowShelf.bind (· r)) ∧
      ∀ o, obs[lastWrite interval obs.length * interval]? = some o → ∀ k < o.world.layers.n,
        ∀ (r : Fin R) (c : Fin (C - 2)),
          layerValueAt d "thickness" k (r.val * (C - 2) + c.val) = (o.world.layers.dz (r, c))[k]? ∧
          ∀ name ∈ o.world.layers.tracking, name ≠ "thickness" →
            layerValueAt d name k (r.val * (C - 2) + c.val) =
              (o.world.layers.prop name (r, c))[k]? := by
  obtain ⟨d, hd, hrec, hlay⟩ := model_output hs comps porosity obs hne h
  have hpos := hs.positive
  set calls := callsOf (fun (_ : σ) (w : World R C K) => worldView geo w) interval fields obs
    with hcalls
  have hcc : ∀ c ∈ calls, c.interval = interval := by
    intro c hc
    obtain ⟨o, ho, rfl⟩ := List.mem_map.mp hc
    rfl
  obtain ⟨hwlen, hget⟩ := writesOf_at interval hpos calls hcc
  have hwget : ∀ q o, obs[q * interval]? = some o → (writesOf calls)[q]? =
      some ⟨elapsed (calls.take (q * interval)), fields, worldView geo o.world⟩ := by
    intro q o ho
    rw [hget, hcalls, callsOf, List.getElem?_map, ho]
    rfl
  refine ⟨d, hd, ?_, ?_, ?_⟩
  · rw [hrec.times, List.length_map, hwlen, hcalls, callsOf_get]
  · intro q o ho
    have hslice := hrec.requested q _ (hwget q o ho)
    refine ⟨?_, ?_, ?_, ?_, ?_, ?_⟩
    · rw [hrec.times, List.getElem?_map, hwget q o ho, Option.map_some, hcalls]
      unfold elapsed callsOf
      rw [← List.map_take, List.map_map]
      rfl
    · intro name hname r c
      unfold fieldValueAt
      rw [hslice "node" name (.inl ⟨rfl, hname⟩), worldView_node]
      cases nodeQuantity name o.world with
      | none => rfl
      | some f =>
        rw [Option.map_some, Option.bind_some, nodeList_get]
        rfl
    · unfold fieldValueAt
      rw [hslice "grid" _ (by unfold Requested; simp)]
      rfl
    · unfold fieldValueAt
      rw [hslice "grid" _ (by unfold Requested; simp)]
      cases hi : o.world.seaIncr <;> cases h1 : o.world.gridShore <;>
        cases h2 : o.world.gridShelf <;>
        simp [GridView.field, worldView, optField, hi, h1, h2]
    · intro r
      unfold fieldValueAt
      rw [hslice "row" _ (by unfold Requested; simp)]
      cases hw : o.world.rowShore <;> cases hw' : o.world.rowShelf <;>
        simp [GridView.field, worldView, optField, hw, hw']
    · intro r
      unfold fieldValueAt
      rw [hslice "row" _ (by unfold Requested; simp)]
      cases hw : o.world.rowShore <;> cases hw' : o.world.rowShelf <;>
        simp [GridView.field, worldView, optField, hw, hw']
  · intro o ho k hk r c
    have hlen : (writesOf calls).length = lastWrite interval obs.length + 1 := by
      have h0 : 0 < obs.length := List.length_pos_of_ne_nil hne
      have hl : calls.length = obs.length := by simp [hcalls, callsOf]
      rw [hwlen, hl]
      unfold lastWrite
      rw [show obs.length + interval - 1 = obs.length - 1 + interval by omega,
        Nat.add_div_right _ hpos]
    have hlast : (writesOf calls).getLast? =
        some ⟨elapsed (calls.take (lastWrite interval obs.length * interval)), fields,
          worldView geo o.world⟩ := by
      rw [List.getLast?_eq_getElem?, hlen, Nat.add_sub_cancel]
      exact hwget _ _ ho
    have hfind : ∀ P : Write K (Option K) → Bool,
        P ⟨elapsed (calls.take (lastWrite interval obs.length * interval)), fields,
          worldView geo o.world⟩ →
        (writesOf calls).reverse.find? P = 
          some ⟨elapsed (calls.take (lastWrite interval obs.length * interval)), fields,
            worldView geo o.world⟩ := by
      intro P hP
      obtain ⟨v, h1, -, -, h4⟩ := reverse_find (List.mem_of_getLast? hlast) hP
      rw [h1, h4 _ hlast hP]
    have hval : ∀ f : Cell R C → List K, (((List.range o.world.layers.n).map fun k =>
        cellList fun c => (f c)[k]?)[k]?.bind fun l => (l[r.val * (C - 2) + c.val]?).join) =
          (f (r, c))[k]? := by
      intro f
      rw [List.getElem?_map, List.getElem?_range hk, Option.map_some, Option.bind_some,
        cellList_get]
      rfl
    constructor
    · unfold layerValueAt
      rw [hlay.thickness, hfind _ (by simpa [worldView] using hk)]
      exact hval _
    · intro name hname hthick
      unfold layerValueAt
      rw [hlay.layer name hthick, hfind _ (by simpa [worldView] using ⟨hname, hk⟩)]
      exact hval _

/-- C133 for a run of 31 steps with output every 10 steps: slice 2 has the bedrock of step 21. -/
example : ∃ d : Dataset ℚ (Option ℚ), exOutput 0 10 31 = some (.dataset d) ∧
    fieldValueAt d "node" "bedrock_surface__elevation" 2 7 = some (-107) := by
  obtain ⟨s, s', obs, h1, h2, h3, h4⟩ := exMoveRun 0 10 31 (by norm_num) (by norm_num)
  obtain ⟨d, d1, -, d2, -⟩ := file_holds_quantities h1.setup h1.history h1.nonempty
  obtain ⟨o, ho⟩ : ∃ o, obs[2 * 10]? = some o :=
    ⟨_, List.getElem?_eq_getElem (by rw [h2]; norm_num)⟩
  refine ⟨d, by rw [h3, d1], ?_⟩
  have := (d2 2 o ho).2.1 "bedrock_surface__elevation" (.inl rfl) 2 1
  simp only [nodeQuantity, Option.map_some, h4 o (List.mem_of_getElem? ho)] at this
  exact this.trans (by norm_num)

end Verif.Props
