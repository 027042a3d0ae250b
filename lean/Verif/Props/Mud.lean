import Verif.Props.Rows
import Verif.Spec.Mud

/-!
# The rows beside the middle row

C138: rows other than the middle one never have any sand.
-/

set_option autoImplicit false
set_option linter.unusedSectionVars false

namespace Verif.Props

open Verif Verif.Spec

variable {K : Type*} {R C : ℕ} [Field K] [LinearOrder K] [IsStrictOrderedRing K] {r : Fin R}

theorem create_noSand {env : Env R C K} {p : Process K}
    {s s' : ProcState R C K × World R (C + 2) K}
    (h : p.create env s = .ok s') (hs : NoSandIn r s.2) : NoSandIn r s'.2 := by
  cases p with
  | seaLevel curve start => cases h; exact hs
  | compaction => cases h; exact hs
  | subsidence curve =>
    simp only [Process.create] at h
    split at h
    · cases h
    · cases h; exact hs
  | diffusion P =>
    simp only [Process.create, diffuserInit] at h
    split_ifs at h
    · cases h; exact hs
  | fluvial P =>
    cases h
    intro f hf c
    dsimp only at hf
    cases hw : s.2.sand with
    | none =>
      rw [hw] at hf
      cases hf
      rfl
    | some g =>
      rw [hw] at hf
      cases hf
      exact hs _ hw c
  | flexure t =>
    simp only [Process.create] at h
    split at h
    · cases h
    · cases h; exact hs
  | waterFlexure t =>
    simp only [Process.create] at h
    split at h
    · cases h
    · cases h; exact hs
  | shoreline alpha =>
    simp only [Process.create] at h
    split at h
    · cases h
    · rename_i w hw
      cases h
      obtain ⟨a, b, a', b', -, -, rfl⟩ := shorelineUpdate_world hw
      exact hs

theorem createAll_noSand {env : Env R C K} (ps : List (Process K))
    {s s' : ProcState R C K × World R (C + 2) K} (h : createAll env ps s = .ok s')
    (hs : NoSandIn r s.2) : NoSandIn r s'.2 := by
  induction ps generalizing s with
  | nil => cases h; exact hs
  | cons p ps ih =>
    rw [createAll] at h
    cases hc : p.create env s with
    | error e => rw [hc] at h; cases h
    | ok s1 => rw [hc] at h; exact ih h (create_noSand hc hs)

theorem fluvial_noSand (hr : r.val ≠ R / 2) (kind : InterpKind K) (xtol rtol : K)
    (expf sqrtf : K → K) {σ : Type*} (P : σ → FluvialParams K) (dx : K) (x : Fin C → K) :
    Spec.Maintains (fluvialComponent kind xtol rtol expf sqrtf P dx x : Component σ R C K)
      (NoSandIn r) := by
  intro dt p w p' w' hw h
  unfold fluvialComponent fluvialStep at h
  dsimp only at h
  cases hs : w.sand with
  | none => simp only [hs] at h; cases h
  | some sand =>
    cases hi : w.increment with
    | none => simp only [hs, hi] at h; cases h
    | some inc =>
      simp only [hs, hi] at h
      by_cases hR : R / 2 < R
      swap
      · simp only [dif_neg hR] at h; cases h
      simp only [dif_pos hR] at h
      cases hf : fluvialRow expf sqrtf (P p) dx dt x (getProfile w.topo ⟨R / 2, hR⟩)
          (getProfile w.deposit ⟨R / 2, hR⟩) (getProfile inc ⟨R / 2, hR⟩) w.seaLevel
          (shorelineRow kind xtol rtol (List.ofFn x) (rowList w.topo ⟨R / 2, hR⟩) w.seaLevel) with
      | error e => simp only [hf] at h; cases h
      | ok out =>
        obtain ⟨percent, dep⟩ := out
        simp only [hf] at h
        by_cases hall : ∀ c, (percent c).toNum ≠ none
        swap
        · rw [if_neg hall] at h; cases h
        rw [if_pos hall] at h
        cases h
        intro f hf' c
        cases hf'
        unfold getProfile setRow
        rw [if_neg]
        · exact hw sand hs c
        · intro he
          refine hr ?_
          have := congrArg Fin.val he
          simpa [activeRow] using this

theorem component_noSand (hr : r.val ≠ R / 2) {env : Env R C K} (p : Process K) :
    Maintains (p.component env) (NoSandIn r) := by
  intro dt q w q' w' hw h
  by_cases hp : p.name = "fluvial"
  · cases p <;> simp [Process.name] at hp
    rename_i P
    exact fluvial_noSand hr env.kind env.xtol env.rtol env.expf env.sqrtf (fun _ => P) env.dx
      env.x dt q w q' w' hw h
  · intro f hf
    rw [(component_frame h).sand hp] at hf
    exact hw f hf

/-- A group of ten zeros has the average zero. -/
theorem mean_zeros {g : List K} {v : K} (hl : g.length = 10) (hg : ∀ x ∈ g, x = 0)
    (h : IsMeanOf g v) : v = 0 := by
  unfold IsMeanOf at h
  rw [hl, List.sum_eq_zero hg] at h
  rcases mul_eq_zero.mp h with h | h
  · exact h
  · norm_num at h

/-- One value followed by zeros, merged by tens. -/
theorem isMerge_first {a : ℕ} {v : K} {rest merged : List K}
    (h : IsMerge IsMeanOf a (v :: rest) merged) (hz : ∀ x ∈ rest, x = 0) :
    merged = (if a = 0 then v else v / 10) :: List.replicate (merged.length - 1) 0 := by
  obtain ⟨hlen, h1, h2⟩ := h
  have hrest : ∀ i x, (v :: rest)[i + 1]? = some x → x = 0 := fun i x hx =>
    hz x (List.mem_iff_getElem?.mpr ⟨i, by simpa using hx⟩)
  have htail : ∀ i x, 0 < i → merged[i]? = some x → x = 0 := by
    intro i x hi hx
    by_cases hia : i < a
    · obtain ⟨hle, u, hu, hm⟩ := h1 i hia
      rw [hx] at hu
      cases hu
      refine mean_zeros (by simp at hle ⊢; omega) (fun y hy => ?_) hm
      obtain ⟨k, hk⟩ := List.mem_iff_getElem?.mp (List.mem_of_mem_take hy)
      rw [List.getElem?_drop] at hk
      exact hrest (10 * i + k - 1) y (by rw [← hk]; congr 1; omega)
    · rw [h2 i (by omega)] at hx
      exact hrest (i + 9 * a - 1) x (by rw [← hx]; congr 1; omega)
  have hne : merged ≠ [] := by
    rintro rfl
    by_cases ha : a = 0
    · subst ha; simp at hlen
    · obtain ⟨-, u, hu, -⟩ := h1 0 (by omega)
      simp at hu
  obtain ⟨m, ms, rfl⟩ := List.exists_cons_of_ne_nil hne
  congr 1
  · split_ifs with ha
    · subst ha
      have := h2 0 le_rfl
      simpa using this
    · obtain ⟨hle, u, hu, hm⟩ := h1 0 (by omega)
      simp only [List.getElem?_cons_zero, Option.some.injEq] at hu
      subst hu
      simp only [Nat.mul_zero, Nat.zero_add, List.drop_zero, List.length_cons] at hm hle
      rw [List.take_succ_cons] at hm
      unfold IsMeanOf at hm
      rw [List.sum_cons, List.sum_eq_zero fun x hx => hz x (List.mem_of_mem_take hx)] at hm
      have hl : (v :: rest.take 9).length = 10 := by simp; omega
      rw [hl] at hm
      push_cast at hm
      rw [eq_div_iff (by norm_num)]
      simpa using hm
  · simp only [List.length_cons, Nat.add_sub_cancel]
    refine List.eq_replicate_iff.mpr ⟨rfl, fun x hx => ?_⟩
    obtain ⟨i, hi⟩ := List.mem_iff_getElem?.mp hx
    exact htail (i + 1) x (by omega) (by simpa using hi)

/-- C138. The fluvial component writes the sand fraction of the middle row only. In every run of the
package's processes that begins without sand, the sand fraction in every other row is zero after
every step; and of the layers of that row all but the lowest have the sand fraction zero, while the
lowest one has that of the layer the model begins with, one half — or, once it has been combined
with the nine above it, one twentieth. -/
theorem other_rows_have_no_sand {env : Env R C K} {ps : List (Process K)} {start : K}
    {porosity : ProcState R C K → K} {q : ProcState R C K} {w : World R (C + 2) K}
    {s s' : ModelState (ProcState R C K) R (C + 2) K}
    {obs : List (Observation (ProcState R C K) R (C + 2) K)}
    (h : PackageRun env ps start porosity q w s obs s') (hcomp : CompactKeepsRecord env)
    (hr : r.val ≠ R / 2) (hw : NoSandIn r w) :
    NoSandIn r s'.world ∧ (∀ o ∈ obs, NoSandIn r o.world) ∧
    ∀ c, s'.world.layers.prop "percent_sand" (r, c) =
      (if obs.length < 19 then 1/2 else 1/20) :: List.replicate (s'.world.layers.n - 1) 0 := by
  obtain ⟨p, w1, hc, hm⟩ := packageInit_ok h.init
  have h0 : NoSandIn r s.world := by
    intro f hf
    rw [(modelInit_ok hm).choose_spec.2.2.2.2.2.2.2.1] at hf
    exact createAll_noSand _ hc hw f hf
  obtain ⟨h1, h2⟩ := history_maintains (NoSandIn r)
    (fun c hc => by
      obtain ⟨p, -, rfl⟩ := List.mem_map.mp hc
      exact component_noSand hr p)
    (fun w hw => hw) (fun w l hw => hw)
    (fun w w' hw hu f hf => hw f (by rw [← (updateFields_ok hu).2.2.2.1]; exact hf)) h.run h0
  refine ⟨h1, h2, fun c => ?_⟩
  have hl := (createAll_world _ hc).1
  obtain ⟨l, hrun, hl'⟩ := freshHistory_record (hl.trans h.fresh) hm _ porosity
    (fun c hc => by
      obtain ⟨p, -, rfl⟩ := List.mem_map.mp hc
      exact component_keepsRecord hcomp p) h.run
  have hk := freshEvents_names start w1 porosity obs
  have hmerge := (archive_properties _ _ hk hrun (r, c)).2.2 "percent_sand" (by simp)
    (by simp [initEvent])
  obtain ⟨n1, n2, n3, -⟩ := archive_count _ hk hrun
  have hfirst := isMerge_first hmerge (fun x hx => by
    obtain ⟨e, he, rfl⟩ := List.mem_map.mp hx
    obtain ⟨o, ho, rfl⟩ := List.mem_map.mp he
    have := h2 o ho
    cases hs : o.world.sand with
    | none => simp [recorded, modelEvent, layerProperties, hs]
    | some f =>
      have hf := this f hs ⟨c.val + 1, by omega⟩
      simpa [recorded, modelEvent, layerProperties, hs, atCells, nodeAtCell, getProfile] using hf)
  have hcount : (l.prop "percent_sand" (r, c)).length = l.n := by
    have := hmerge.1
    simp only [List.length_map, List.length_cons] at this n1 n2 n3
    by_cases h20 : obs.length + 1 < 20
    · obtain ⟨a1, a2⟩ := n1 h20
      omega
    · obtain ⟨a1, a2⟩ := n2 (by omega)
      omega
  rw [hl'.values "percent_sand" (by decide), hl'.count, hfirst, hcount]
  congr 1
  have hhalf : recorded "percent_sand" (r, c) (initEvent start w1) = 1/2 := by
    simp [recorded, initEvent]
  rw [hhalf]
  simp only [List.length_map, List.length_cons] at n1 n2
  by_cases h20 : obs.length < 19
  · rw [if_pos h20, if_pos (n1 (by omega)).2]
  · rw [if_neg h20, if_neg (by
      have h3 : s'.archived = _ := (n2 (by omega)).2
      intro h4
      have h5 : s'.archived = 0 := h4
      omega)]
    norm_num

/-- C138, the load. What is laid down in such a row weighs as much as mud, whatever the fraction of
sand in the settings. -/
theorem other_rows_weigh_as_mud {w w' : World R C K} (hw : NoSandIn r w)
    (h : updateFields w = .ok w') {load : NodeField R C K} (hload : w.sedLoad = some load)
    (c : Fin C) {dz z : K} (hdz : getProfile w.deposit r c = dz)
    (hz : getProfile w.topo r c - w.seaLevel = z) :
    ∃ load', w'.sedLoad = some load' ∧
      (0 < z → 0 ≤ z + dz → getProfile load' r c = getProfile load r c + mudLoad false dz) ∧
      (z ≤ 0 → z + dz ≤ 0 → getProfile load' r c = getProfile load r c + mudLoad true dz) := by
  unfold updateFields at h
  cases h1 : updateSedLoad w with
  | error e => rw [h1] at h; cases h
  | ok w1 =>
    rw [h1] at h
    dsimp only at h
    have hw1 : w'.sedLoad = w1.sedLoad := by
      cases h
      have : (resetTopo (updateBedrock w1)).sedLoad = w1.sedLoad := by
        unfold resetTopo updateBedrock
        split <;> rfl
      split
      · exact this
      · exact this
    unfold updateSedLoad at h1
    rw [hload] at h1
    dsimp only at h1
    cases hs : w.sand with
    | none => rw [hs] at h1; cases h1
    | some sand =>
      rw [hs] at h1
      dsimp only at h1
      cases h1
      refine ⟨_, hw1, fun hz0 hz1 => ?_, fun hz0 hz1 => ?_⟩
      · rw [getProfile_setProfile, hdz, hz, hw sand hs c]
        simp only [calcLoading, calcDensity, calcBulkDensity, mudLoad]
        rw [if_neg (by rintro ⟨h, -⟩; exact h ⟨hz0.le, hz1⟩),
          if_neg (by rintro ⟨h, -⟩; exact absurd hz0 (not_lt.mpr h))]
        norm_num
      · rw [getProfile_setProfile, hdz, hz, hw sand hs c]
        simp only [calcLoading, calcDensity, calcBulkDensity, mudLoad]
        rw [if_neg (by rintro ⟨-, h⟩; exact h ⟨hz0, hz1⟩), if_pos ⟨hz0, hz1⟩]
        norm_num

/-! ### Concrete cases -/

/-- The theorem applies to the run of three rows: nobody has set a sand fraction. -/
example : NoSandIn (0 : Fin 3) (exThreeRows ![0, 1, 2, 4, 0]) ∧ (0 : Fin 3).val ≠ 3 / 2 :=
  ⟨fun f hf => (by cases hf), by decide⟩

/-- An outer world in which diffusion lays down a metre everywhere. -/
def exEnvSpread : Env 3 1 ℚ :=
  { exEnvRows 3 with solve := fun _ _ z => .ok fun n => z n + 1 }

/-- Diffusion, sand, shorelines and the sediment load. -/
def exSpread : List (Process ℚ) :=
  [.seaLevel (fun _ => .ok 0) 0, .subsidence (fun _ => .ok (1/100)), .diffusion
    ⟨0, 1/1000, 60, 15, 1/2000, 1/1000, 3, 0, 500000⟩, .fluvial exFluvial, .shoreline 1]

/-- Two steps. -/
def exSpreadRun (z : Fin 5 → ℚ) : Except Err (ModelState (ProcState 3 1 ℚ) 3 3 ℚ) :=
  match packageInit exEnvSpread exSpread 0 (exThreeState, exThreeRows z) with
  | .error e => .error e
  | .ok m =>
    (runSteps (stepOf exEnvSpread exSpread fun _ => 1/2) (Clock.init 0 none 100) m
      [none, none]).2

/-- The thicknesses, the sand fractions and the load of the cell of every row. -/
def exSpreadView (m : ModelState (ProcState 3 1 ℚ) 3 3 ℚ) : List (List ℚ × List ℚ × Option ℚ) :=
  List.ofFn fun r : Fin 3 => (m.world.layers.dz (r, ⟨0, by omega⟩),
    m.world.layers.prop "percent_sand" (r, ⟨0, by omega⟩),
    m.world.sedLoad.map fun f => getProfile f r 1)

/-- A metre is laid down everywhere in each step. In the middle row half of it is sand, in the others
none, and the load of the others is larger. -/
example : (exSpreadRun fun _ => 25).toOption.map exSpreadView =
    some [([100, 1, 1], [1/2, 0, 0], some 2720), ([100, 1, 1], [1/2, 1/2, 1/2], some 2685),
      ([100, 1, 1], [1/2, 0, 0], some 2720)] := by decide +kernel

/-- The compaction of this outer world keeps the record. -/
example : CompactKeepsRecord exEnvSpread := by
  intro dt l l' h
  cases h
  exact ⟨rfl, rfl, fun s => by simp, fun _ _ => rfl, fun _ => rfl⟩

/-- A metre on land and a metre under water. -/
example : mudLoad false (1 : ℚ) = 1360 ∧ mudLoad true (1 : ℚ) = 1875 := by decide +kernel

end Verif.Props
