import Verif.Props.PlotFile

/-!
# C80 – C82: plots of the output of whole runs
-/

set_option autoImplicit false
set_option linter.unusedSectionVars false

namespace Verif.Props

open Verif Verif.Spec

variable {K σ A : Type*} {R C : ℕ} [Field K] [LinearOrder K] [IsStrictOrderedRing K]

/-! ## The grid while a model runs -/

/-- The layers seen by the components of a step are those that the steps before it left. -/
theorem observed_archive {start : K} {setTime : K → σ → σ} {p : σ} {w : World R C K}
    (hempty : w.layers = EventLayers.empty) {s s' : ModelState σ R C K}
    (hi : modelInit start setTime p w = .ok s) (comps : List (Component σ R C K))
    (porosity : σ → K) (hk : ∀ c ∈ comps, Keeps c World.layers)
    (obs : List (Observation σ R C K)) (h : ModelHistory comps porosity s obs s')
    (j : ℕ) (o : Observation σ R C K) (ho : obs[j]? = some o) :
    ∃ a, Archive.run ⟨EventLayers.empty, 0⟩
      (initEvent start w :: (obs.take j).map (modelEvent porosity)) = .ok ⟨o.world.layers, a⟩ := by
  obtain ⟨hlt, rfl⟩ := List.getElem?_eq_some_iff.mp ho
  have hsplit : obs = obs.take j ++ obs[j] :: obs.drop (j + 1) := by
    rw [List.getElem_cons_drop, List.take_append_drop]
  rw [hsplit] at h
  obtain ⟨s1, h1, h2⟩ := history_cut _ _ _ h
  have hl : obs[j].world.layers = s1.world.layers :=
    runComponents_keeps (w := clearDeposit s1.world) World.layers comps hk h2
  exact ⟨s1.archived, by rw [hl]; exact freshHistory_archive hempty hi comps porosity hk h1⟩

theorem events_ages (start : K) (w : World R C K) (porosity : σ → K)
    (obs : List (Observation σ R C K)) (c : Cell R C) :
    (initEvent start w :: obs.map (modelEvent porosity)).map (recorded "age" c) =
      start :: obs.map (·.time) := by
  rw [List.map_cons, List.map_map]
  exact congrArg₂ List.cons (by simp [recorded, initEvent])
    (List.map_congr_left fun o _ => recorded_age porosity o c)

/-- The ages of the layers seen in step `j`: the layer at the beginning and the steps before it,
with the groups of ten that have been merged represented by their last. -/
theorem observed_ages {start : K} {setTime : K → σ → σ} {p : σ} {w : World R C K}
    (hempty : w.layers = EventLayers.empty) {s s' : ModelState σ R C K}
    (hi : modelInit start setTime p w = .ok s) (comps : List (Component σ R C K))
    (porosity : σ → K) (hk : ∀ c ∈ comps, Keeps c World.layers)
    (obs : List (Observation σ R C K)) (h : ModelHistory comps porosity s obs s')
    (j : ℕ) (o : Observation σ R C K) (ho : obs[j]? = some o) (c : Cell R C) :
    "age" ∈ o.world.layers.tracking ∧ 0 < o.world.layers.n ∧
    IsMerge IsMaxOf (if j + 1 < 20 then 0 else (j + 1) / 10 - 1)
      (start :: (obs.take j).map (·.time)) (o.world.layers.prop "age" c) ∧
    (o.world.layers.prop "age" c).length = o.world.layers.n := by
  obtain ⟨a, ha⟩ := observed_archive hempty hi comps porosity hk obs h j o ho
  have hlt : j < obs.length := (List.getElem?_eq_some_iff.mp ho).1
  have hknown := freshEvents_names start w porosity (obs.take j)
  obtain ⟨ev, e1, e2⟩ := archive_run_rel _ hknown ha
  have htr : o.world.layers.tracking = ev.tracking := e2.2.tracking
  have hage : "age" ∈ (initEvent start w).kw.map (·.1) := by simp [initEvent]
  have hm := (archive_properties _ _ hknown ha c).1 hage
  rw [events_ages] at hm
  obtain ⟨c1, c2, -, -, -⟩ := archive_count _ hknown ha
  simp only [List.length_cons, List.length_map, List.length_take] at c1 c2
  have hlen := hm.1
  simp only [List.length_cons, List.length_map, List.length_take] at hlen
  have hmin : min j obs.length = j := by omega
  rw [hmin] at c1 c2 hlen
  refine ⟨?_, ?_, ?_, ?_⟩
  · rw [htr, (run_empty_prop _ _ e1).1]
    exact hage
  · by_cases h20 : j + 1 < 20
    · have := c1 h20; omega
    · have := c2 (by omega); omega
  · by_cases h20 : j + 1 < 20
    · rw [if_pos h20, ← (c1 h20).2]; exact hm
    · rw [if_neg h20, ← (c2 (by omega)).2]; exact hm
  · by_cases h20 : j + 1 < 20
    · have := c1 h20; omega
    · have := c2 (by omega); omega

/-- Something that the drivers themselves do not touch and that all components maintain. -/
theorem observed_maintains (P : World R C K → Prop) {comps : List (Component σ R C K)}
    {porosity : σ → K} (hk : ∀ c ∈ comps, Maintains c P)
    (hclear : ∀ w, P w → P (clearDeposit w)) (hlayers : ∀ w l, P w → P { w with layers := l })
    (hupdate : ∀ w w', P w → updateFields w = .ok w' → P w') {s s' : ModelState σ R C K}
    {obs : List (Observation σ R C K)} (h : ModelHistory comps porosity s obs s')
    (hs : P s.world) : ∀ o ∈ obs, P o.world := by
  induction h with
  | nil s => simp
  | step hc ha hr ih =>
    rename_i s s1 s2 time dt p w obs
    have hw : P w := runComponents_maintains P comps hk (hclear _ hs) hc
    intro o ho
    rcases List.mem_cons.mp ho with rfl | ho
    · exact hw
    · obtain ⟨p', w', ev, w3, a, h1, h2, h3, h4, rfl⟩ := advanceComponents_ok ha
      rw [hc] at h1
      cases h1
      exact ih (hlayers _ _ (hupdate _ _ (hlayers _ _ hw) h3)) o ho

theorem updateFields_rows {w w' : World R C K} (h : updateFields w = .ok w') :
    w'.rowShore = w.rowShore ∧ w'.rowShelf = w.rowShelf := by
  unfold updateFields at h
  cases h1 : updateSedLoad w with
  | error e => rw [h1] at h; cases h
  | ok w1 =>
    rw [h1] at h
    obtain ⟨-, -, -, -, -, -, -, -, e1, e2, -⟩ := updateSedLoad_ok h1
    dsimp only at h
    have hb : (resetTopo (updateBedrock w1)).rowShore = w.rowShore ∧
        (resetTopo (updateBedrock w1)).rowShelf = w.rowShelf := by
      unfold resetTopo updateBedrock
      cases w1.increment <;> exact ⟨e1, e2⟩
    cases hx : (resetTopo (updateBedrock w1)).waterIncr with
    | none => rw [hx] at h; cases h; exact hb
    | some f => rw [hx] at h; cases h; exact hb

/-- The grid has fields for the shoreline and the shelf edge. -/
def HasRowFields (w : World R C K) : Prop := w.rowShore.isSome ∧ w.rowShelf.isSome

theorem observed_rows {start : K} {setTime : K → σ → σ} {p : σ} {w : World R C K}
    {s s' : ModelState σ R C K} (hi : modelInit start setTime p w = .ok s)
    (comps : List (Component σ R C K)) (porosity : σ → K)
    (hk : ∀ c ∈ comps, Maintains c HasRowFields)
    (obs : List (Observation σ R C K)) (h : ModelHistory comps porosity s obs s') :
    ∀ o ∈ obs, HasRowFields o.world := by
  refine observed_maintains HasRowFields hk (fun _ h => h) (fun _ _ h => h) ?_ h ?_
  · intro w w' hw hu
    obtain ⟨h1, h2⟩ := updateFields_rows hu
    unfold HasRowFields
    rw [h1, h2]
    exact hw
  · unfold modelInit at hi
    split at hi
    · dsimp only at hi
      split at hi
      · cases hi
      · cases hi
        unfold HasRowFields
        split <;> exact ⟨rfl, rfl⟩
    · cases hi
    · cases hi

/-! ## The writes -/

theorem elapsed_const (interval : ℕ) (step : K) (calls : List (Call K A))
    (hc : ∀ c ∈ calls, c.interval = interval ∧ c.dt = some step) :
    elapsed calls = (calls.length : K) * step := by
  induction calls using List.reverseRecOn with
  | nil => simp [elapsed]
  | append_singleton cs c ih =>
    rw [elapsed_append, ih fun c hc' => hc c (List.mem_append_left _ hc'), (hc c (by simp)).2]
    simp only [Option.getD_some, List.length_append, List.length_singleton]
    push_cast
    ring

/-- With a constant interval, write `q` is that of step `q * interval`. -/
theorem writesOf_get (interval : ℕ) (hi : 0 < interval) (step : K)
    (calls : List (Call K A)) (hc : ∀ c ∈ calls, c.interval = interval ∧ c.dt = some step) (q : ℕ) :
    (writesOf calls)[q]? = (calls[q * interval]?).map fun c =>
      ⟨((q * interval : ℕ) : K) * step, c.fields, c.view⟩ := by
  induction calls using List.reverseRecOn generalizing q with
  | nil => simp [writesOf]
  | append_singleton calls c ih =>
    have hc' := fun c hm => hc c (List.mem_append_left _ hm)
    have htimes' := fixed_interval_times calls.length interval hi step calls rfl hc'
    have hlen' : (writesOf calls).length = (calls.length + interval - 1) / interval := by
      have := congrArg List.length htimes'
      simpa using this
    have hlt_iff : q < (writesOf calls).length ↔ q * interval < calls.length := by
      rw [hlen', ← Nat.succ_le_iff, Nat.le_div_iff_mul_le hi, Nat.succ_mul]
      omega
    rw [writesOf_append, (hc c (by simp)).1]
    by_cases hq : q < (writesOf calls).length
    · rw [List.getElem?_append_left hq, ih hc', List.getElem?_append_left (hlt_iff.mp hq)]
    · have hge : calls.length ≤ q * interval := not_lt.mp fun h => hq (hlt_iff.mpr h)
      rw [List.getElem?_append_right (not_lt.mp hq), List.getElem?_append_right hge]
      by_cases hd : interval ∣ calls.length
      · rw [if_pos hd]
        obtain ⟨m, hm⟩ := hd
        have e1 : (writesOf calls).length = m := by
          rw [hlen', hm, Nat.add_sub_assoc hi, Nat.mul_add_div hi, Nat.div_eq_of_lt (by omega),
            add_zero]
        rw [e1] at hq ⊢
        rcases (not_lt.mp hq).eq_or_lt with rfl | hlt
        · have e2 : m * interval - calls.length = 0 := by rw [hm, mul_comm]; omega
          rw [e2, Nat.sub_self, elapsed_const interval step calls hc', hm, mul_comm m interval]
          rfl
        · have h3 : interval * (m + 1) ≤ interval * q := Nat.mul_le_mul_left _ hlt
          have e3 : [c].length ≤ q * interval - calls.length := by
            rw [List.length_singleton, hm, mul_comm q]
            rw [Nat.mul_succ] at h3
            omega
          rw [List.getElem?_eq_none e3, List.getElem?_eq_none (by simp; omega)]
          rfl
      · rw [if_neg hd]
        have hne : calls.length ≠ q * interval := fun h => hd ⟨q, by rw [h, mul_comm]⟩
        rw [List.getElem?_nil, List.getElem?_eq_none (by simp; omega)]
        rfl

/-! ## The file of a run -/

theorem flatMap_get {α : Type*} {n m : ℕ} (f : Fin n → Fin m → α) (i : Fin n) (j : Fin m) :
    ((List.finRange n).flatMap fun r => (List.finRange m).map (f r))[i.val * m + j.val]? =
      some (f i j) := by
  induction n with
  | zero => exact i.elim0
  | succ n ih =>
    rw [List.finRange_succ, List.flatMap_cons, List.flatMap_map]
    refine Fin.cases ?_ (fun i => ?_) i
    · rw [List.getElem?_append_left (by simp)]
      simp
    · have e : (i.succ.val) * m + j.val = m + (i.val * m + j.val) := by
        rw [Fin.val_succ, Nat.succ_mul]
        omega
      rw [e, List.getElem?_append_right (by simp), List.length_map, List.length_finRange,
        Nat.add_sub_cancel_left]
      exact ih (fun r c => f r.succ c) i

theorem nodeList_get (f : NodeField R C K) (r : Fin (R + 2)) (c : Fin C) :
    (nodeList f)[r.val * C + c.val]? = some (some (f (r, c))) :=
  flatMap_get (fun r c => some (f (r, c))) r c

theorem cellList_get (f : Cell R C → Option K) (r : Fin R) (c : Fin (C - 2)) :
    (cellList f)[r.val * (C - 2) + c.val]? = some (f (r, c)) :=
  flatMap_get (fun r c => f (r, c)) r c

theorem reverse_find {α : Type*} {l : List α} {P : α → Bool} {u : α} (hu : u ∈ l) (hP : P u) :
    ∃ v, l.reverse.find? P = some v ∧ v ∈ l ∧ P v ∧ ∀ w, l.getLast? = some w → P w → v = w := by
  have : (l.reverse.find? P).isSome := by
    rw [List.find?_isSome]
    exact ⟨u, List.mem_reverse.mpr hu, hP⟩
  obtain ⟨v, hv⟩ := Option.isSome_iff_exists.mp this
  refine ⟨v, hv, List.mem_reverse.mp (List.mem_of_find?_eq_some hv), List.find?_some hv, ?_⟩
  intro w hw hPw
  obtain ⟨l', rfl⟩ : ∃ l', l = l' ++ [w] := by
    have hne : l ≠ [] := by rintro rfl; simp at hw
    refine ⟨l.dropLast, ?_⟩
    rw [List.getLast?_eq_some_getLast hne] at hw
    rw [← Option.some.inj hw, List.dropLast_append_getLast]
  rw [List.reverse_append, List.reverse_singleton, List.singleton_append,
    List.find?_cons_of_pos hPw] at hv
  exact (Option.some.inj hv).symm

theorem find_congr {α : Type*} {l : List α} {P Q : α → Bool} (h : ∀ a ∈ l, P a = Q a) :
    l.find? P = l.find? Q := by
  rw [← List.head?_filter, ← List.head?_filter, List.filter_congr h]

theorem foldl_max_le (l : List ℕ) (a : ℕ) : a ≤ l.foldl max a ∧ ∀ x ∈ l, x ≤ l.foldl max a := by
  induction l generalizing a with
  | nil => simp
  | cons x l ih =>
    rw [List.foldl_cons]
    refine ⟨le_trans (le_max_left _ _) (ih _).1, ?_⟩
    intro y hy
    rcases List.mem_cons.mp hy with rfl | hy
    · exact le_trans (le_max_right _ _) (ih _).1
    · exact (ih _).2 y hy

theorem lt_foldl_max {l : List ℕ} {a k : ℕ} (h : k < l.foldl max a) : k < a ∨ ∃ x ∈ l, k < x := by
  induction l generalizing a with
  | nil => exact .inl h
  | cons x l ih =>
    rcases ih h with h | ⟨y, hy, h⟩
    · rcases lt_max_iff.mp h with h | h
      · exact .inl h
      · exact .inr ⟨x, by simp, h⟩
    · exact .inr ⟨y, by simp [hy], h⟩

/-- The sizes that the writer sees. -/
def geoSizes (R C : ℕ) (geo : Geometry K) : Sizes := ⟨R, C, fun loc => (geo.xOf loc).length⟩

/-- A model with output has run for some steps of length `step`, with a clock that started at
`start`: the components have left the layers alone and the fields of the shoreline in place, and
the bedrock is among the fields to be written. -/
structure OutputRun (geo : Geometry K) (path : String) (interval : ℕ) (fields : List String)
    (start step : K) (comps : List (Component σ R C K))
    (porosity : σ × (Writer K × FileSystem K (Option K)) → K)
    (obs : List (Observation (σ × (Writer K × FileSystem K (Option K))) R C K))
    (s s' : ModelState (σ × (Writer K × FileSystem K (Option K))) R C K) : Prop where
  setup : OutputSetup (fun _ w => worldView geo w) (geoSizes R C geo) path interval fields start s
  history : ModelHistory (withWriter (fun _ w => worldView geo w) comps) porosity s obs s'
  nonempty : obs ≠ []
  columns : 3 ≤ C
  oneRow : 0 < R
  keeps : ∀ c ∈ comps, Keeps c World.layers
  rows : ∀ c ∈ comps, Maintains c HasRowFields
  bedrock : fields = [] ∨ "bedrock_surface__elevation" ∈ fields
  clock : ∀ (k : ℕ) o, obs[k]? = some o → o.time = start + (k + 1 : ℕ) * step ∧ o.dt = step
  positive : 0 < step

/-- Number of the last write. -/
def lastWrite (interval n : ℕ) : ℕ := (n - 1) / interval

/-- What is known about the file. -/
structure RunFile (geo : Geometry K) (interval : ℕ) (step : K)
    (obs : List (Observation (σ × (Writer K × FileSystem K (Option K))) R C K))
    (d : Dataset K (Option K)) : Prop where
  plottable : Plottable d
  sizes : FileSizes d R (C - 2)
  times : d.times = (List.range (lastWrite interval obs.length + 1)).map
    fun k => ((k * interval : ℕ) : K) * step
  /-- the bedrock and the shorelines in slice `q` are those of step `q * interval` -/
  bedrock : ∀ (q : ℕ) o, obs[q * interval]? = some o → ∀ (r : Fin (R + 2)) (c : Fin C),
    fieldValueAt d "node" "bedrock_surface__elevation" q (r.val * C + c.val) =
      some (o.world.bedrock (r, c))
  shore : ∀ (q : ℕ) o, obs[q * interval]? = some o → ∀ r : Fin R,
    fieldValueAt d "row" "x_of_shore" q r.val = o.world.rowShore.bind (· r)
  shelf : ∀ (q : ℕ) o, obs[q * interval]? = some o → ∀ r : Fin R,
    fieldValueAt d "row" "x_of_shelf_edge" q r.val = o.world.rowShelf.bind (· r)
  /-- every layer is that of the last write with so many layers -/
  layer : ∀ k < d.layerDim, ∃ q o, q ≤ lastWrite interval obs.length ∧
    obs[q * interval]? = some o ∧ k < o.world.layers.n ∧
    (∀ o', obs[lastWrite interval obs.length * interval]? = some o' → k < o'.world.layers.n →
      o = o') ∧
    ∀ (r : Fin R) (c : Fin (C - 2)),
      layerValueAt d "thickness" k (r.val * (C - 2) + c.val) = (o.world.layers.dz (r, c))[k]? ∧
      layerValueAt d "age" k (r.val * (C - 2) + c.val) = (o.world.layers.prop "age" (r, c))[k]?
  layers : ∀ o', obs[lastWrite interval obs.length * interval]? = some o' →
    o'.world.layers.n ≤ d.layerDim

theorem run_file {geo : Geometry K} {path : String} {interval : ℕ} {fields : List String}
    {start step : K} {comps : List (Component σ R C K)}
    {porosity : σ × (Writer K × FileSystem K (Option K)) → K}
    {obs : List (Observation (σ × (Writer K × FileSystem K (Option K))) R C K)}
    {s s' : ModelState (σ × (Writer K × FileSystem K (Option K))) R C K}
    (h : OutputRun geo path interval fields start step comps porosity obs s s') :
    ∃ d, s'.comps.2.2 path = .dataset d ∧ RunFile geo interval step obs d := by
  have hpos := h.setup.positive
  obtain ⟨clobber, fs, h1, h2, h3⟩ := setup_writer h.setup
  obtain ⟨-, -, fs0, w0, p0, setTime, w, -, -, hempty, hinit⟩ := h.setup.fresh
  have hrun := history_writerRun _ comps porosity h.history
  rw [h2, h3] at hrun
  obtain ⟨a1, a2, a3, a4, -, -, a5, -, -⟩ := writerInit_ok h1
  have hsizes := h.setup.sizes (s := s)
  set view : σ → World R C K → GridView (Option K) := fun _ w => worldView geo w with hview
  set calls := callsOf view interval fields obs with hcalls
  have hcc : ∀ c ∈ calls, c.interval = interval ∧ c.dt = some step := by
    intro c hc
    obtain ⟨o, ho, rfl⟩ := List.mem_map.mp hc
    obtain ⟨k, hk⟩ := List.getElem?_of_mem ho
    exact ⟨rfl, by rw [(h.clock k o hk).2]⟩
  have hlen : calls.length = obs.length := by simp [hcalls, callsOf]
  have hobs0 : 0 < obs.length := List.length_pos_of_ne_nil h.nonempty
  obtain ⟨w1, fs1, r1, r2⟩ := after_run (z := geoSizes R C geo) (fs0 := s.comps.2.2) (a5 rfl) a3 a4
    (by rw [a1, a2, Function.update_self]) calls (by
      intro c hc
      obtain ⟨o, ho, rfl⟩ := List.mem_map.mp hc
      exact ⟨hpos, hsizes s.comps.1 _⟩)
  rw [show s.comps.2 = (s.comps.2.1, s.comps.2.2) from rfl, r1] at hrun
  have hq : (w1, fs1) = s'.comps.2 := Except.ok.inj hrun
  have hfile : ∃ d, fs1 path = .dataset d ∧ Holds (geoSizes R C geo) d (writesOf calls) := by
    have := r2.file
    cases hc : calls with
    | nil => rw [hc] at hlen; simp at hlen; omega
    | cons c cs =>
      rw [hc] at this
      obtain ⟨d, f1, f2, -⟩ := this
      rw [a2] at f1
      exact ⟨d, f1, by rw [← hc] at f2 ⊢; exact f2⟩
  obtain ⟨d, d1, d2⟩ := hfile
  refine ⟨d, by rw [← hq]; exact d1, ?_⟩
  have hget := writesOf_get interval hpos step calls hcc
  have hN : (calls.length + interval - 1) / interval = lastWrite interval obs.length + 1 := by
    unfold lastWrite
    rw [hlen, show obs.length + interval - 1 = obs.length - 1 + interval by omega,
      Nat.add_div_right _ hpos]
  have htimes := fixed_interval_times calls.length interval hpos step calls rfl hcc
  have hwl : (writesOf calls).length = lastWrite interval obs.length + 1 := by
    have := congrArg List.length htimes
    simpa [hN] using this
  have hwget : ∀ q o, obs[q * interval]? = some o → (writesOf calls)[q]? =
      some ⟨((q * interval : ℕ) : K) * step, fields, worldView geo o.world⟩ := by
    intro q o ho
    rw [hget, hcalls, callsOf, List.getElem?_map, ho]
    rfl
  have hmem : ∀ v ∈ writesOf calls, ∃ q o, q ≤ lastWrite interval obs.length ∧
      obs[q * interval]? = some o ∧
      v = ⟨((q * interval : ℕ) : K) * step, fields, worldView geo o.world⟩ := by
    intro v hv
    obtain ⟨q, hq⟩ := List.getElem?_of_mem hv
    have hql : q < (writesOf calls).length := (List.getElem?_eq_some_iff.mp hq).1
    rw [hget, hcalls, callsOf, List.getElem?_map] at hq
    simp only [Option.map_map, Option.map_eq_some_iff, Function.comp] at hq
    obtain ⟨o, ho, rfl⟩ := hq
    exact ⟨q, o, by omega, ho, rfl⟩
  have hlast : lastWrite interval obs.length * interval < obs.length := by
    have := Nat.div_mul_le_self (obs.length - 1) interval
    unfold lastWrite
    omega
  obtain ⟨ol, hol⟩ : ∃ o, obs[lastWrite interval obs.length * interval]? = some o :=
    ⟨_, List.getElem?_eq_getElem hlast⟩
  have hlastw : (writesOf calls).getLast? =
      some ⟨((lastWrite interval obs.length * interval : ℕ) : K) * step, fields,
        worldView geo ol.world⟩ := by
    rw [List.getLast?_eq_getElem?, hwl, Nat.add_sub_cancel]
    exact hwget _ _ hol
  have hkeep := withWriter_keeps (A := Option K) view World.layers comps h.keeps
  have hcell : 0 < C - 2 := by have := h.columns; omega
  have hobs : ∀ (j : ℕ) o, obs[j]? = some o → "age" ∈ o.world.layers.tracking ∧
      0 < o.world.layers.n := by
    intro j o ho
    obtain ⟨k1, k2, -, -⟩ := observed_ages hempty hinit _ porosity hkeep obs h.history j o ho
      (⟨0, h.oneRow⟩, ⟨0, hcell⟩)
    exact ⟨k1, k2⟩
  have hrows := observed_rows hinit _ porosity
    (withWriter_maintains (A := Option K) view HasRowFields comps h.rows) obs h.history
  -- layers
  have hthick : ∀ k < d.layerDim, ∃ q o, q ≤ lastWrite interval obs.length ∧
      obs[q * interval]? = some o ∧ k < o.world.layers.n ∧
      (∀ o', obs[lastWrite interval obs.length * interval]? = some o' → k < o'.world.layers.n →
        o = o') ∧
      layerSlice d "thickness" k = (worldView geo o.world).dz[k]? ∧
      layerSlice d "age" k = ((worldView geo o.world).layer "age")[k]? := by
    intro k hk
    rw [d2.layers.dim] at hk
    rcases lt_foldl_max hk with hk | ⟨x, hx, hk⟩
    · omega
    obtain ⟨v, hv, rfl⟩ := List.mem_map.mp hx
    obtain ⟨u, u1, u2, u3, u4⟩ := reverse_find (P := fun w => decide (k < w.view.nLayers)) hv
      (by simpa using hk)
    obtain ⟨q, o, q1, q2, rfl⟩ := hmem u u2
    refine ⟨q, o, q1, q2, by simpa [worldView] using u3, ?_, ?_, ?_⟩
    · intro o' ho' hk'
      rw [hol] at ho'
      cases ho'
      have := congrArg Write.time (u4 _ hlastw (by simpa [worldView] using hk'))
      have := Nat.cast_injective (R := K) (mul_right_cancel₀ h.positive.ne' this)
      rw [this, hol] at q2
      exact (Option.some.inj q2).symm
    · rw [d2.layers.thickness, u1]
      rfl
    · rw [d2.layers.layer "age" (by decide), ← find_congr (P := fun w => decide (k < w.view.nLayers)),
        u1]
      · rfl
      · intro a ha
        obtain ⟨q', o', -, b2, rfl⟩ := hmem a (List.mem_reverse.mp ha)
        have : "age" ∈ (worldView geo o'.world).tracking := (hobs _ _ b2).1
        simp [this]
  have hlayers : ∀ o', obs[lastWrite interval obs.length * interval]? = some o' →
      o'.world.layers.n ≤ d.layerDim := by
    intro o' ho'
    rw [hol] at ho'
    cases ho'
    rw [d2.layers.dim]
    exact (foldl_max_le _ 0).2 _ (List.mem_map.mpr ⟨_, List.mem_of_getLast? hlastw, rfl⟩)
  have hdim0 : 0 < d.layerDim := lt_of_lt_of_le (hobs _ _ hol).2 (hlayers ol hol)
  have hz : ∀ o : World R C K, HasSizes (geoSizes R C geo) (worldView geo o) := hsizes s.comps.1
  have hnode : (geoSizes R C geo).at "node" = (R + 2) * C := by
    have := (hz s.world).fields "node" "topographic__elevation" (nodeList s.world.topo) rfl
    rw [nodeList_length] at this
    exact this.symm
  have hslice : ∀ q o, obs[q * interval]? = some o → ∀ loc name, Requested fields loc name →
      slice d loc name q = (worldView geo o.world).field loc name := by
    intro q o ho loc name hr
    exact d2.records.requested q _ (hwget q o ho) loc name hr
  have hbed : ∀ w : World R C K, (worldView geo w).field "node" "bedrock_surface__elevation" =
      some (nodeList w.bedrock) := fun w => rfl
  have hshore : ∀ w : World R C K, (worldView geo w).field "row" "x_of_shore" =
      w.rowShore.map List.ofFn := by
    intro w
    cases hw : w.rowShore <;> cases hw' : w.rowShelf <;>
      simp [GridView.field, worldView, optField, hw, hw']
  have hshelf : ∀ w : World R C K, (worldView geo w).field "row" "x_of_shelf_edge" =
      w.rowShelf.map List.ofFn := by
    intro w
    cases hw : w.rowShore <;> cases hw' : w.rowShelf <;>
      simp [GridView.field, worldView, optField, hw, hw']
  have hreqN : Requested fields "node" "bedrock_surface__elevation" := .inl ⟨rfl, h.bedrock⟩
  have hreqS : Requested fields "row" "x_of_shore" := by unfold Requested; simp
  have hreqE : Requested fields "row" "x_of_shelf_edge" := by unfold Requested; simp
  have hsome : ∀ loc name q l, slice d loc name q = some l → (d.vars (loc, name)).isSome := by
    intro loc name q l hl
    unfold slice at hl
    obtain ⟨f, hf, -⟩ := Option.bind_eq_some_iff.mp hl
    rw [hf]; rfl
  have hlsome : ∀ name k l, layerSlice d name k = some l → (d.layerVars name).isSome := by
    intro name k l hl
    unfold layerSlice at hl
    obtain ⟨f, hf, -⟩ := Option.bind_eq_some_iff.mp hl
    rw [hf]; rfl
  have hrow : d.dims "row" = some R := d2.fits.field "row" (by simp [locations])
  obtain ⟨q0, o0, -, -, b3, -, b5, b6⟩ := hthick 0 hdim0
  obtain ⟨rs1, rs2⟩ := hrows _ (List.mem_of_getElem? hol)
  obtain ⟨f1, hf1⟩ := Option.isSome_iff_exists.mp rs1
  obtain ⟨f2, hf2⟩ := Option.isSome_iff_exists.mp rs2
  have hC : C - 2 + 2 = C := by have := h.columns; omega
  refine ⟨⟨?_, ?_, ?_, ?_, ?_, ?_, ?_⟩, ⟨hrow, d2.fits.column, ?_, ?_, ?_⟩, ?_, ?_, ?_, ?_, ?_, hlayers⟩
  · rw [hrow]; rfl
  · rw [d2.fits.column]; rfl
  · refine hlsome _ 0 (cellList fun c => (o0.world.layers.dz c)[0]?) (b5.trans ?_)
    simp only [worldView, List.getElem?_map, List.getElem?_range b3, Option.map_some]
  · refine hlsome _ 0 (cellList fun c => (o0.world.layers.prop "age" c)[0]?) (b6.trans ?_)
    simp only [worldView, List.getElem?_map, List.getElem?_range b3, Option.map_some]
  · exact hsome _ _ _ _ ((hslice _ _ hol _ _ hreqS).trans (by rw [hshore, hf1]; rfl))
  · exact hsome _ _ _ _ ((hslice _ _ hol _ _ hreqE).trans (by rw [hshelf, hf2]; rfl))
  · exact hsome _ _ _ _ ((hslice _ _ hol _ _ hreqN).trans (hbed _))
  · rw [d2.fits.field "node" (by simp [locations]), hnode, hC]
  · intro name k l hl
    by_cases hn : name = "thickness"
    · subst hn
      rw [d2.layers.thickness] at hl
      obtain ⟨v, hv, hl⟩ := Option.bind_eq_some_iff.mp hl
      obtain ⟨q, o, -, -, rfl⟩ := hmem v (List.mem_reverse.mp (List.mem_of_find?_eq_some hv))
      exact (hz o.world).dz.2 l (List.mem_of_getElem? hl)
    · rw [d2.layers.layer name hn] at hl
      obtain ⟨v, hv, hl⟩ := Option.bind_eq_some_iff.mp hl
      obtain ⟨q, o, -, -, rfl⟩ := hmem v (List.mem_reverse.mp (List.mem_of_find?_eq_some hv))
      have ht := List.find?_some hv
      simp only [decide_eq_true_eq] at ht
      exact ((hz o.world).layer name ht.1).2 l (List.mem_of_getElem? hl)
  · intro i l hl
    by_cases hi : i < (writesOf calls).length
    · obtain ⟨q, o, -, -, hv⟩ := hmem _ (List.getElem_mem hi)
      have := d2.records.requested i _ (List.getElem?_eq_getElem hi) "node"
        "bedrock_surface__elevation" (by rw [hv]; exact hreqN)
      rw [hl, hv, hbed] at this
      rw [Option.some.inj this, nodeList_length, hC]
    · rw [d2.records.beyond i (not_lt.mp hi)] at hl
      cases hl
  · rw [d2.records.times, htimes, hN]
  · intro q o ho r c
    unfold fieldValueAt
    rw [hslice q o ho _ _ hreqN, hbed, Option.bind_some, nodeList_get]
    rfl
  · intro q o ho r
    unfold fieldValueAt
    rw [hslice q o ho _ _ hreqS, hshore]
    cases o.world.rowShore <;> simp
  · intro q o ho r
    unfold fieldValueAt
    rw [hslice q o ho _ _ hreqE, hshelf]
    cases o.world.rowShelf <;> simp
  · intro k hk
    obtain ⟨q, o, c1, c2, c3, c4, c5, c6⟩ := hthick k hk
    refine ⟨q, o, c1, c2, c3, c4, ?_⟩
    intro r c
    unfold layerValueAt
    rw [c5, c6]
    simp only [worldView, List.getElem?_map, List.getElem?_range c3, Option.map_some,
      Option.bind_some, cellList_get]
    exact ⟨rfl, rfl⟩

/-! ## The ages of the layers -/

/-- The last of the steps whose sediment is in layer `k`, if step `j` is the next; step 0 is the
beginning. -/
def stepOfLayer (j k : ℕ) : ℕ :=
  let merged := if j + 1 < 20 then 0 else (j + 1) / 10 - 1
  if k < merged then 10 * k + 9 else k + 9 * merged

theorem stepOfLayer_ge (j k : ℕ) : k ≤ stepOfLayer j k := by
  unfold stepOfLayer
  dsimp only
  split_ifs <;> omega

theorem layer_age {geo : Geometry K} {path : String} {interval : ℕ} {fields : List String}
    {start step : K} {comps : List (Component σ R C K)}
    {porosity : σ × (Writer K × FileSystem K (Option K)) → K}
    {obs : List (Observation (σ × (Writer K × FileSystem K (Option K))) R C K)}
    {s s' : ModelState (σ × (Writer K × FileSystem K (Option K))) R C K}
    (h : OutputRun geo path interval fields start step comps porosity obs s s')
    {j : ℕ} {o : Observation (σ × (Writer K × FileSystem K (Option K))) R C K}
    (ho : obs[j]? = some o) {k : ℕ} (hk : k < o.world.layers.n) (c : Cell R C) :
    stepOfLayer j k ≤ j ∧
    (o.world.layers.prop "age" c)[k]? = some (start + (stepOfLayer j k : ℕ) * step) := by
  obtain ⟨-, -, fs0, w0, p0, setTime, w, -, -, hempty, hinit⟩ := h.setup.fresh
  obtain ⟨-, -, hm, hl⟩ := observed_ages hempty hinit _ porosity
    (withWriter_keeps (A := Option K) _ World.layers comps h.keeps) obs h.history j o ho c
  have hjl : j < obs.length := (List.getElem?_eq_some_iff.mp ho).1
  have hraw : ∀ t ≤ j, (start :: (obs.take j).map (·.time))[t]? = some (start + (t : ℕ) * step) := by
    intro t ht
    cases t with
    | zero => simp
    | succ t =>
      rw [List.getElem?_cons_succ, List.getElem?_map, List.getElem?_take, if_pos (by omega),
        List.getElem?_eq_getElem (by omega), Option.map_some,
        (h.clock t _ (List.getElem?_eq_getElem (by omega))).1]
  have hrawlen : (start :: (obs.take j).map (·.time)).length = j + 1 := by
    rw [List.length_cons, List.length_map, List.length_take]
    omega
  generalize (start :: (obs.take j).map (·.time)) = raw at hm hraw hrawlen
  obtain ⟨m1, m2, m3⟩ := hm
  unfold stepOfLayer
  dsimp only
  generalize (if j + 1 < 20 then 0 else (j + 1) / 10 - 1) = a at m1 m2 m3 ⊢
  split_ifs with hka
  · obtain ⟨v1, v, v2, v3, v4⟩ := m2 k hka
    refine ⟨by omega, ?_⟩
    rw [v2]
    have hin : start + ((10 * k + 9 : ℕ) : K) * step ∈ (raw.drop (10 * k)).take 10 := by
      refine List.mem_of_getElem? (i := 9) ?_
      rw [List.getElem?_take, if_pos (by omega), List.getElem?_drop, hraw _ (by omega)]
    obtain ⟨u, hu⟩ := List.getElem?_of_mem v3
    rw [List.getElem?_take] at hu
    split_ifs at hu with hu10
    rw [List.getElem?_drop, hraw _ (by omega)] at hu
    have h1 := v4 _ hin
    rw [← Option.some.inj hu] at h1 ⊢
    refine congrArg some (le_antisymm ?_ h1)
    have : ((10 * k + u : ℕ) : K) ≤ ((10 * k + 9 : ℕ) : K) := Nat.cast_le.mpr (by omega)
    nlinarith [h.positive]
  · refine ⟨by omega, ?_⟩
    rw [m3 k (by omega), hraw _ (by omega)]

/-! ## C80 – C82 -/

/-- Something that was recorded in every step number `q * interval`, as it was at time `t`, with
straight lines in between. -/
def AtTime (interval : ℕ) (obs : List (Observation σ R C K))
    (f : Observation σ R C K → Option K) (t : K) (x : Option K) : Prop :=
  (∀ (q : ℕ) o, obs[q * interval]? = some o → o.time = t → x = f o) ∧
  ∀ (q : ℕ) o o', obs[q * interval]? = some o → obs[(q + 1) * interval]? = some o' →
    o.time < t → t < o'.time →
    x = (f o).bind fun a => (f o').map fun b => a + (b - a) * ((t - o.time) / (o'.time - o.time))

theorem atTime_of_interpolates {geo : Geometry K} {path : String} {interval : ℕ}
    {fields : List String} {start step : K} {comps : List (Component σ R C K)}
    {porosity : σ × (Writer K × FileSystem K (Option K)) → K}
    {obs : List (Observation (σ × (Writer K × FileSystem K (Option K))) R C K)}
    {s s' : ModelState (σ × (Writer K × FileSystem K (Option K))) R C K}
    (h : OutputRun geo path interval fields start step comps porosity obs s s')
    {times : List K} (htimes : times = (List.range (lastWrite interval obs.length + 1)).map
      fun k => ((k * interval : ℕ) : K) * step)
    {g : ℕ → Option K}
    {f : Observation (σ × (Writer K × FileSystem K (Option K))) R C K → Option K}
    (hg : ∀ (q : ℕ) o, obs[q * interval]? = some o → g q = f o) {a : K} {x : Option K}
    (hx : Interpolates times g a x) :
    AtTime interval obs f (a + (start + step)) x := by
  have hpos := h.setup.positive
  have hle : ∀ (q : ℕ) o, obs[q * interval]? = some o →
      times[q]? = some (o.time - (start + step)) := by
    intro q o ho
    have hlt : q * interval < obs.length := (List.getElem?_eq_some_iff.mp ho).1
    have hq : q < lastWrite interval obs.length + 1 := by
      unfold lastWrite
      rw [Nat.lt_succ_iff, Nat.le_div_iff_mul_le hpos]
      omega
    rw [htimes, List.getElem?_map, List.getElem?_range hq, Option.map_some, (h.clock _ o ho).1]
    congr 1
    push_cast
    ring
  refine ⟨?_, ?_⟩
  · intro q o ho ht
    rw [← hg q o ho]
    exact hx.1 q (by rw [hle q o ho, ht]; congr 1; ring)
  · intro q o o' ho ho' h1 h2
    rw [hx.2 q _ _ (hle q o ho) (hle (q + 1) o' ho') (by linarith) (by linarith), hg q o ho,
      hg (q + 1) o' ho']
    congr 1
    funext u
    congr 1
    funext v
    congr 2
    ring

/-- C80, C81 and C82: what `plot_file` does with the output of a run, where `o` is the last step
that was written.

* If there was only one write, it raises `IndexError`.
* Otherwise it works exactly if the clock started at zero, or before that but not so long before
  and so many steps ago that the first layer has been merged with later ones; else it raises
  `ValueError`.
* Every layer of the grid as it was in step `o` is drawn at its height, shifted by the difference
  between the bedrock in the row of nodes just in front of the row of stacks (behind it, for
  negative numbers of rows) and the bedrock below the stacks.
* The shoreline and the shelf edge drawn for a layer are those of the time `start + step` after the
  time of the layer. -/
theorem plot_of_run {geo : Geometry K} {path : String} {interval : ℕ} {fields : List String}
    {start step : K} {comps : List (Component σ R C K)}
    {porosity : σ × (Writer K × FileSystem K (Option K)) → K}
    {obs : List (Observation (σ × (Writer K × FileSystem K (Option K))) R C K)}
    {s s' : ModelState (σ × (Writer K × FileSystem K (Option K))) R C K}
    (h : OutputRun geo path interval fields start step comps porosity obs s s')
    {row : Option ℤ} {i : Fin R} (hrow : ChosenRow R row i) :
    ∃ d o, s'.comps.2.2 path = .dataset d ∧
      obs[lastWrite interval obs.length * interval]? = some o ∧
      (obs.length ≤ interval → plotFile d row = .error .indexError) ∧
      (interval < obs.length →
        ¬ (start ≤ 0 ∧ (start = 0 ∨ 19 ≤ lastWrite interval obs.length * interval ∧
          0 ≤ start + 9 * step)) → plotFile d row = .error .valueError) ∧
      (interval < obs.length → start ≤ 0 → (start = 0 ∨
          19 ≤ lastWrite interval obs.length * interval ∧ 0 ≤ start + 9 * step) →
        ∃ args, plotFile d row = .ok args ∧
          (∀ k < o.world.layers.n, ∀ c : Fin (C - 2),
            (args.elevation[k]?).bind (·[c.val]?) = some (some (layerTop o.world k i c +
              (o.world.bedrock (⟨if row.any (· < 0) then i + 2 else i, by split_ifs <;> omega⟩,
                  ⟨c.val + 1, by omega⟩) -
                o.world.bedrock (⟨i + 1, by omega⟩, ⟨c.val + 1, by omega⟩))))) ∧
          (∀ k a, k < o.world.layers.n → ∀ c,
            (o.world.layers.prop "age" (i, c))[k]? = some a →
            ∃ x y, args.shore[k]? = some x ∧ args.shelf[k]? = some y ∧
              AtTime interval obs (fun o => o.world.rowShore.bind (· i)) (a + (start + step)) x ∧
              AtTime interval obs (fun o => o.world.rowShelf.bind (· i)) (a + (start + step)) y)) := by
  obtain ⟨d, d1, d2⟩ := run_file h
  have hpos := h.setup.positive
  have hobs0 : 0 < obs.length := List.length_pos_of_ne_nil h.nonempty
  have hlast : lastWrite interval obs.length * interval < obs.length := by
    have := Nat.div_mul_le_self (obs.length - 1) interval
    unfold lastWrite
    omega
  have hcell : 0 < C - 2 := by have := h.columns; omega
  obtain ⟨o, ho⟩ : ∃ o, obs[lastWrite interval obs.length * interval]? = some o :=
    ⟨_, List.getElem?_eq_getElem hlast⟩
  refine ⟨d, o, d1, ho, ?_⟩
  have hinc : ∀ a b : ℕ, a < b → ((a * interval : ℕ) : K) * step < ((b * interval : ℕ) : K) * step := by
    intro a b hab
    exact mul_lt_mul_of_pos_right (Nat.cast_lt.mpr (Nat.mul_lt_mul_of_pos_right hab hpos)) h.positive
  have hpw : d.times.Pairwise (· < ·) := by
    rw [d2.times, List.pairwise_map]
    exact List.pairwise_lt_range.imp fun {a b} hab => hinc a b hab
  have hlen : d.times.length = lastWrite interval obs.length + 1 := by rw [d2.times]; simp
  obtain ⟨p1, p2⟩ := plotFile_spec d2.plottable d2.sizes hcell hrow hpw
  have hhead : d.times.head? = some 0 := by
    rw [d2.times, List.range_succ_eq_map]
    simp
  have hlastt : d.times.getLast? = some (((lastWrite interval obs.length * interval : ℕ) : K) * step) := by
    rw [d2.times, List.range_succ]
    simp
  have hone : interval < obs.length ↔ 2 ≤ d.times.length := by
    rw [hlen]
    unfold lastWrite
    have : 1 ≤ (obs.length - 1) / interval ↔ 1 * interval ≤ obs.length - 1 :=
      Nat.le_div_iff_mul_le hpos
    omega
  have hn0 : 0 < o.world.layers.n := by
    obtain ⟨-, -, fs0, w0, p0, setTime, w, -, -, hempty, hinit⟩ := h.setup.fresh
    exact (observed_ages hempty hinit _ porosity
      (withWriter_keeps (A := Option K) _ World.layers comps h.keeps) obs h.history _ o ho
      (i, ⟨0, hcell⟩)).2.1
  have hnl := d2.layers o ho
  have hage : ∀ k < d.layerDim, ∃ q o1, q ≤ lastWrite interval obs.length ∧
      obs[q * interval]? = some o1 ∧ k < o1.world.layers.n ∧ (k < o.world.layers.n → o1 = o) ∧
      layerValueAt d "age" k (i.val * (C - 2)) =
        some (start + (stepOfLayer (q * interval) k : ℕ) * step) ∧
      stepOfLayer (q * interval) k ≤ q * interval := by
    intro k hk
    obtain ⟨q, o1, q1, q2, q3, q4, q5⟩ := d2.layer k hk
    have := (q5 i ⟨0, hcell⟩).2
    obtain ⟨a1, a2⟩ := layer_age h q2 q3 (i, ⟨0, hcell⟩)
    rw [a2, add_zero] at this
    exact ⟨q, o1, q1, q2, q3, q4 o ho, this, a1⟩
  -- the layers of the last write
  have hnow : ∀ k < o.world.layers.n, ∀ c : Fin (C - 2),
      layerValueAt d "thickness" k (i.val * (C - 2) + c.val) = (o.world.layers.dz (i, c))[k]? ∧
      layerValueAt d "age" k (i.val * (C - 2) + c.val) =
        (o.world.layers.prop "age" (i, c))[k]? := by
    intro k hk c
    obtain ⟨q, o1, q1, q2, q3, q4, q5⟩ := d2.layer k (by omega)
    rw [← q4 o ho hk]
    exact q5 i c
  have hnowage : ∀ k < o.world.layers.n, layerValueAt d "age" k (i.val * (C - 2)) =
      some (start + (stepOfLayer (lastWrite interval obs.length * interval) k : ℕ) * step) := by
    intro k hk
    have := (hnow k hk ⟨0, hcell⟩).2
    rw [(layer_age h ho hk (i, ⟨0, hcell⟩)).2, add_zero] at this
    exact this
  have hcount : o.world.layers.n = layersAfter (lastWrite interval obs.length * interval) := by
    obtain ⟨-, -, fs0, w0, p0, setTime, w, -, -, hempty, hinit⟩ := h.setup.fresh
    exact observed_layers hempty hinit _ porosity
      (withWriter_keeps (A := Option K) _ World.layers comps h.keeps) obs h.history _ o ho
  refine ⟨fun hle => p1 (by by_contra hc; exact absurd (hone.mpr (by omega)) (by omega)), ?_, ?_⟩
  · intro hlt hbad
    obtain ⟨-, p4⟩ := p2 _ _ (hone.mp hlt) hhead hlastt
    rcases lt_trichotomy start 0 with hs | hs | hs
    · -- the first layer is too old
      refine p4 0 (by omega) _ (hnowage 0 hn0) (.inl ?_)
      have hbad' : ¬ (19 ≤ lastWrite interval obs.length * interval ∧ 0 ≤ start + 9 * step) :=
        fun hx => hbad ⟨hs.le, .inr hx⟩
      unfold stepOfLayer
      dsimp only
      generalize lastWrite interval obs.length * interval = j at hbad'
      by_cases hj : 19 ≤ j
      · have h9 : start + 9 * step < 0 := not_le.mp fun hx => hbad' ⟨hj, hx⟩
        rw [if_neg (by omega : ¬ j + 1 < 20), if_pos (by omega : 0 < (j + 1) / 10 - 1)]
        simpa using h9
      · rw [if_pos (by omega : j + 1 < 20), if_neg (by omega : ¬ 0 < 0)]
        simpa using hs
    · exact absurd ⟨hs.le, .inl hs⟩ hbad
    · -- the last layer is too young
      refine p4 (o.world.layers.n - 1) (by omega) _ (hnowage _ (by omega)) (.inr ?_)
      have : stepOfLayer (lastWrite interval obs.length * interval) (o.world.layers.n - 1) =
          lastWrite interval obs.length * interval := by
        rw [hcount]
        unfold stepOfLayer layersAfter
        dsimp only
        generalize lastWrite interval obs.length * interval = j
        split_ifs <;> omega
      rw [this]
      linarith
  · intro hlt hs hgood
    obtain ⟨p3, -⟩ := p2 _ _ (hone.mp hlt) hhead hlastt
    obtain ⟨args, g1, -, -, -, g5, g6, -⟩ := p3 (by
      intro k hk a ha
      obtain ⟨q, o1, q1, q2, q3, q4, q5, q6⟩ := hage k hk
      rw [q5] at ha
      rw [← Option.some.inj ha]
      have hst := h.positive
      constructor
      · rcases hgood with hgood | ⟨hg1, hg2⟩
        · rw [hgood, zero_add]
          exact mul_nonneg (Nat.cast_nonneg _) hst.le
        · have h9 : 9 ≤ stepOfLayer (q * interval) k := by
            by_cases hkn : k < o.world.layers.n
            · have e := q4 hkn
              subst e
              have hql : q * interval = lastWrite interval obs.length * interval := by
                have t1 := (h.clock _ _ q2).1
                have t2 := (h.clock _ _ ho).1
                rw [t1] at t2
                have t3 := mul_right_cancel₀ hst.ne' (add_left_cancel t2)
                have := Nat.cast_injective (R := K) t3
                omega
              rw [hql]
              unfold stepOfLayer
              dsimp only
              generalize lastWrite interval obs.length * interval = j at hg1
              rw [if_neg (by omega : ¬ j + 1 < 20)]
              split_ifs <;> omega
            · have := stepOfLayer_ge (q * interval) k
              rw [hcount] at hkn
              unfold layersAfter at hkn
              rw [if_neg (by omega : ¬ lastWrite interval obs.length * interval < 19)] at hkn
              omega
          have : ((9 : ℕ) : K) ≤ (stepOfLayer (q * interval) k : K) := Nat.cast_le.mpr h9
          push_cast at this
          nlinarith
      · have : (stepOfLayer (q * interval) k : K) ≤
            ((lastWrite interval obs.length * interval : ℕ) : K) :=
          Nat.cast_le.mpr (q6.trans (Nat.mul_le_mul_right _ q1))
        nlinarith)
    refine ⟨args, g1, ?_, ?_⟩
    · intro k hk c
      rw [g5 k (by omega) c c.isLt]
      have hC : C - 2 + 2 = C := by omega
      rw [hC, hlen, Nat.add_sub_cancel]
      have hb := d2.bedrock _ o ho
        ⟨if row.any (· < 0) then i + 2 else i, by split_ifs <;> omega⟩ ⟨c.val + 1, by omega⟩
      dsimp only at hb
      rw [hb, Option.map_some]
      congr 2
      unfold layerTop
      have hdz : (o.world.layers.dz (i, c)).length = o.world.layers.n := by
        obtain ⟨-, -, fs0, w0, p0, setTime, w, -, -, hempty, hinit⟩ := h.setup.fresh
        obtain ⟨b, hb⟩ := observed_archive hempty hinit _ porosity
          (withWriter_keeps (A := Option K) _ World.layers comps h.keeps) obs h.history _ o ho
        exact (archive_thickness _ (freshEvents_names start w porosity _) hb (i, c)).2.1
      have hsum : ((List.range (k + 1)).map fun j =>
          (layerValueAt d "thickness" j (i.val * (C - 2) + c.val)).getD 0) =
          (o.world.layers.dz (i, c)).take (k + 1) := by
        refine List.ext_getElem? fun j => ?_
        rw [List.getElem?_map, List.getElem?_take]
        by_cases hj : j < k + 1
        · rw [List.getElem?_range hj, if_pos hj, Option.map_some, (hnow j (by omega) c).1,
            List.getElem?_eq_getElem (by omega)]
          rfl
        · rw [List.getElem?_eq_none (by simp; omega), if_neg hj]
          rfl
      rw [hsum]
      ring
    · intro k a hk c ha
      have hak : layerValueAt d "age" k (i.val * (C - 2)) = some a := by
        rw [hnowage k hk, ← (layer_age h ho hk (i, c)).2, ha]
      obtain ⟨x, y, x1, x2, x3, x4⟩ := g6 k a hak (by omega)
      exact ⟨x, y, x1, x2, atTime_of_interpolates h d2.times (fun q o ho => d2.shore q o ho i) x3,
        atTime_of_interpolates h d2.times (fun q o ho => d2.shelf q o ho i) x4⟩

/-- C80, the part that holds: where the bedrock is the same in the row of nodes in front of the row
(or behind it, for negative numbers), the layers are drawn where they are. -/
theorem plot_in_place_partial {geo : Geometry K} {path : String} {interval : ℕ}
    {fields : List String} {start step : K} {comps : List (Component σ R C K)}
    {porosity : σ × (Writer K × FileSystem K (Option K)) → K}
    {obs : List (Observation (σ × (Writer K × FileSystem K (Option K))) R C K)}
    {s s' : ModelState (σ × (Writer K × FileSystem K (Option K))) R C K}
    (h : OutputRun geo path interval fields start step comps porosity obs s s')
    {row : Option ℤ} {i : Fin R} (hrow : ChosenRow R row i) {d : Dataset K (Option K)}
    {args : PlotArgs K} (hd : s'.comps.2.2 path = .dataset d) (hp : plotFile d row = .ok args)
    {o : Observation (σ × (Writer K × FileSystem K (Option K))) R C K}
    (ho : obs[lastWrite interval obs.length * interval]? = some o) (c : Fin (C - 2)) :
    (∀ k < o.world.layers.n,
      (args.elevation[k]?).bind (·[c.val]?) = some (some (layerTop o.world k i c))) ↔
    o.world.bedrock (⟨if row.any (· < 0) then i + 2 else i, by split_ifs <;> omega⟩,
        ⟨c.val + 1, by omega⟩) =
      o.world.bedrock (⟨i + 1, by omega⟩, ⟨c.val + 1, by omega⟩) := by
  obtain ⟨d', o', h1, h2, h3, h4, h5⟩ := plot_of_run h hrow
  rw [hd] at h1
  cases h1
  rw [ho] at h2
  cases h2
  have hlt : interval < obs.length := by
    by_contra hc
    rw [h3 (not_lt.mp hc)] at hp
    cases hp
  by_cases hg : start ≤ 0 ∧ (start = 0 ∨ 19 ≤ lastWrite interval obs.length * interval ∧
      0 ≤ start + 9 * step)
  · obtain ⟨args', a1, a2, -⟩ := h5 hlt hg.1 hg.2
    rw [hp] at a1
    cases a1
    constructor
    · intro hall
      have hn0 : 0 < o.world.layers.n := by
        obtain ⟨-, -, fs0, w0, p0, setTime, w, -, -, hempty, hinit⟩ := h.setup.fresh
        exact (observed_ages hempty hinit _ porosity
          (withWriter_keeps (A := Option K) _ World.layers comps h.keeps) obs h.history _ o ho
          (i, c)).2.1
      have := (a2 0 hn0 c).symm.trans (hall 0 hn0)
      have := Option.some.inj (Option.some.inj this)
      linear_combination this
    · intro hb k hk
      rw [a2 k hk c, hb, sub_self, add_zero]
  · rw [h4 hlt hg] at hp
    cases hp

/-- C82, the part that holds: in a run that starts at zero and in which the shoreline of the row
does not move, every layer is drawn with that shoreline. -/
theorem plot_fixed_shore_partial {geo : Geometry K} {path : String} {interval : ℕ}
    {fields : List String} {step : K} {comps : List (Component σ R C K)}
    {porosity : σ × (Writer K × FileSystem K (Option K)) → K}
    {obs : List (Observation (σ × (Writer K × FileSystem K (Option K))) R C K)}
    {s s' : ModelState (σ × (Writer K × FileSystem K (Option K))) R C K}
    (h : OutputRun geo path interval fields 0 step comps porosity obs s s')
    {row : Option ℤ} {i : Fin R} (hrow : ChosenRow R row i) {d : Dataset K (Option K)}
    {args : PlotArgs K} (hd : s'.comps.2.2 path = .dataset d) (hp : plotFile d row = .ok args)
    {x y : Option K} (hx : ∀ o ∈ obs, o.world.rowShore.bind (· i) = x)
    (hy : ∀ o ∈ obs, o.world.rowShelf.bind (· i) = y)
    {o : Observation (σ × (Writer K × FileSystem K (Option K))) R C K}
    (ho : obs[lastWrite interval obs.length * interval]? = some o) :
    ∀ k < o.world.layers.n, args.shore[k]? = some x ∧ args.shelf[k]? = some y := by
  obtain ⟨d', o', h1, h2, h3, h4, h5⟩ := plot_of_run h hrow
  rw [hd] at h1
  cases h1
  rw [ho] at h2
  cases h2
  have hpos := h.setup.positive
  have hlt : interval < obs.length := by
    by_contra hc
    rw [h3 (not_lt.mp hc)] at hp
    cases hp
  have hcell : 0 < C - 2 := by have := h.columns; omega
  obtain ⟨args', a1, -, a3⟩ := h5 hlt le_rfl (.inl rfl)
  rw [hp] at a1
  cases a1
  intro k hk
  obtain ⟨t1, t2⟩ := layer_age h ho hk (i, ⟨0, hcell⟩)
  obtain ⟨x', y', x1, y1, x2, y2⟩ := a3 k _ hk ⟨0, hcell⟩ t2
  generalize stepOfLayer (lastWrite interval obs.length * interval) k = t at t1 x2 y2
  have hjl : lastWrite interval obs.length * interval < obs.length :=
    (List.getElem?_eq_some_iff.mp ho).1
  have key : ∀ {f : Observation (σ × (Writer K × FileSystem K (Option K))) R C K → Option K}
      {x x' : Option K}, (∀ o ∈ obs, f o = x) →
      AtTime interval obs f (0 + (t : K) * step + (0 + step)) x' → x' = x := by
    intro f x x' hf hat
    have hdm := Nat.div_add_mod t interval
    rw [mul_comm] at hdm
    have hml := Nat.mod_lt t hpos
    have hq : t / interval * interval < obs.length := by omega
    have hqo := List.getElem?_eq_getElem hq
    have hqt := (h.clock _ _ hqo).1
    by_cases hm : t % interval = 0
    · rw [hat.1 _ _ hqo (by rw [hqt]; rw [hm, add_zero] at hdm; rw [hdm]; push_cast; ring)]
      exact hf _ (List.getElem_mem hq)
    · have hq1 : (t / interval + 1) * interval < obs.length := by
        refine lt_of_le_of_lt (Nat.mul_le_mul_right _ ?_) hjl
        by_contra hc
        have := Nat.mul_le_mul_right interval (Nat.lt_succ_iff.mp (not_le.mp hc))
        omega
      have hqo1 := List.getElem?_eq_getElem hq1
      have hqt1 := (h.clock _ _ hqo1).1
      have hst := h.positive
      have e1 : ((t / interval * interval : ℕ) : K) < (t : K) := Nat.cast_lt.mpr (by omega)
      have e2 : (t : K) < (((t / interval + 1) * interval : ℕ) : K) :=
        Nat.cast_lt.mpr (by rw [Nat.succ_mul]; omega)
      rw [hat.2 _ _ _ hqo hqo1 (by rw [hqt]; push_cast at e1 ⊢; nlinarith)
        (by rw [hqt1]; push_cast at e2 ⊢; nlinarith), hf _ (List.getElem_mem hq),
        hf _ (List.getElem_mem hq1)]
      cases x with
      | none => rfl
      | some x => simp
  rw [x1, y1, key hx x2, key hy y2]
  exact ⟨rfl, rfl⟩

/-! ## Concrete runs -/

/-- The grid of the other examples, with a bedrock that is lower in every further row. -/
def exTilted : World 1 3 ℚ := { exWorld with
  topo := fun n => -5 - n.1.val, bedrock := fun n => -105 - n.1.val }

/-- A component that moves the shoreline by 10 in every step, and the shelf edge with it. -/
def exMove : Component ℕ 1 3 ℚ := fun _ x =>
  .ok (x.1 + 1, { x.2 with
    deposit := fun n => x.2.deposit n + 2
    rowShore := some fun _ => some (10 * (x.1 + 1))
    rowShelf := some fun _ => some (10 * (x.1 + 1) + 1) })

/-- What the writer sees. -/
def exLook : ℕ → World 1 3 ℚ → GridView (Option ℚ) := fun _ w => worldView exGeo w

/-- The file after `n` steps of 100 years from `start`. -/
def exOutput (start : ℚ) (interval n : ℕ) : Option (Entry ℚ (Option ℚ)) :=
  match modelInit start (fun _ x => x)
      (0, (exWriter interval, (fun _ => .absent : FileSystem ℚ (Option ℚ)))) exTilted with
  | .error _ => none
  | .ok s =>
    match runLoop (advanceComponents (withWriter exLook [exMove]) fun _ => 1/2) (n + 1)
      (Clock.init start (some (start + n * 100)) 100) s with
    | some (_, .ok s') => some (s'.comps.2.2 "out.nc")
    | _ => none

/-- What `plot_file` makes of it. -/
def exPlot (start : ℚ) (interval n : ℕ) : Option (Except Err (PlotArgs ℚ)) :=
  match exOutput start interval n with
  | some (.dataset d) => some (plotFile d none)
  | _ => none

/-- These are runs in the sense of the theorems. -/
theorem exMoveRun (start : ℚ) (interval n : ℕ) (hi : 0 < interval) (hn : 0 < n) : ∃ s s' obs,
    OutputRun exGeo "out.nc" interval [] start 100 [exMove] (fun _ => 1/2) obs s s' ∧
    obs.length = n ∧ exOutput start interval n = some (s'.comps.2.2 "out.nc") ∧
    ∀ o ∈ obs, ∀ n, o.world.bedrock n = -105 - n.1.val := by
  have hN : ⌊((start + n * 100 : ℚ) - start) / 100⌋₊ = n := by
    rw [add_sub_cancel_left, mul_div_cancel_right₀ _ (by norm_num), Nat.floor_natCast]
  obtain ⟨s, hs⟩ : ∃ s, modelInit start (fun _ x => x)
      (0, (exWriter interval, (fun _ => .absent : FileSystem ℚ (Option ℚ)))) exTilted = .ok s :=
    ⟨_, rfl⟩
  have hkeep : ∀ c ∈ [exMove], Keeps c World.layers := by
    intro c hc dt p w p' w' h
    simp only [List.mem_singleton] at hc
    subst hc
    cases h
    rfl
  have hsize : ∀ (p : ℕ) (w : World 1 3 ℚ), HasSizes exGeoSizes (exLook p w) :=
    fun _ w => exSee_sizes () w
  obtain ⟨s', obs, h1, h2, h3, h4, -, -⟩ := run_with_output (σ := ℕ) (K := ℚ) start
    (start + n * 100) 100 (by norm_num) (view := exLook) (z := exGeoSizes) (exWriter_init interval)
    hi hsize (fun _ _ => rfl) (setTime := fun _ x => x) (w := exTilted) rfl hs (.inr ⟨_, rfl⟩)
    [exMove] (fun _ => 1/2) (fun _ => True) trivial (fun dt v _ => ⟨_, rfl⟩)
    (fun _ _ _ _ _ _ => trivial) hkeep
    (by
      intro c hc dt p w p' w' hw h
      simp only [List.mem_singleton] at hc
      subst hc
      cases h
      exact hw) (n + 1) (by rw [hN]; omega)
  rw [hN] at h1 h3
  have hlen : obs.length = n := by
    have := congrArg List.length h3
    simpa using this
  refine ⟨s, s', obs, ⟨⟨⟨true, _, _, _, 0, _, exTilted, exWriter_init interval, fun _ _ => rfl, rfl,
    hs⟩, hsize, fun _ _ => rfl, hi⟩, h2, ?_, le_rfl, by norm_num, hkeep, ?_, .inl rfl, ?_,
    by norm_num⟩, hlen, ?_, ?_⟩
  · exact List.ne_nil_of_length_pos (by omega)
  · intro c hc dt p w p' w' hw h
    simp only [List.mem_singleton] at hc
    subst hc
    cases h
    exact ⟨rfl, rfl⟩
  · intro k o ho
    refine ⟨?_, h4 o (List.mem_of_getElem? ho)⟩
    have hk : k < n := by rw [← hlen]; exact (List.getElem?_eq_some_iff.mp ho).1
    have := congrArg (fun l => l[k]?) h3
    simp only [List.getElem?_map, ho, Option.map_some, List.getElem?_range hk,
      Option.some.injEq] at this
    exact this
  · unfold exOutput
    rw [hs]
    dsimp only
    rw [h1]
  · have := observed_maintains
      (fun w : World 1 3 ℚ => (∀ n, w.bedrock n = -105 - n.1.val) ∧ w.increment = some fun _ => 0)
      (withWriter_maintains exLook _ [exMove] (by
        intro c hc dt p w p' w' hw h
        simp only [List.mem_singleton] at hc
        subst hc
        cases h
        exact hw)) (fun _ h => h) (fun _ _ h => h) (by
        intro w w' ⟨hw1, hw2⟩ hu
        obtain ⟨-, -, -, -, -, u1, u2, -⟩ := updateFields_ok hu
        refine ⟨fun n => ?_, by rw [u2, hw2]; rfl⟩
        rw [u1, hw2, hw1]
        simp) h2 (by
        cases hs
        exact ⟨fun n => rfl, rfl⟩)
    exact fun o ho => (this o ho).1

/-- C80 and C82: three steps from 0. The bedrock below the stack is at −106, so the layers reach up
to −6, −4 and −2; they are drawn up to −5, −3 and −1. The shoreline was at 10, 20 and 30 in the
steps that ended at 100, 200 and 300; the layers of time 100 and 200 are drawn with those of time
200 and 300. -/
theorem plot_three_steps : (exPlot 0 1 3).bind (·.toOption) =
    some ⟨[[some (-5)], [some (-3)], [some (-1)]], [some 1],
      [some 10, some 20, some 30], [some 11, some 21, some 31]⟩ := by decide +kernel

/-- C81: the clock starts at 50. -/
example : (exPlot 50 1 3).map (fun r => r.toOption.isNone) = some true := by decide +kernel

/-- C81: the clock starts at −50; the file cannot be plotted after three steps, but after
twenty. -/
example : (exPlot (-50) 1 3).map (fun r => r.toOption.isNone) = some true ∧
    (exPlot (-50) 1 20).map (fun r => r.toOption.isNone) = some false := by decide +kernel

/-- C81 is false: whenever the clock starts after zero, there are runs of any length, with output in
any interval, that cannot be plotted. -/
theorem run_not_plotted (start : ℚ) (hstart : 0 < start) (interval n : ℕ) (hi : 0 < interval)
    (hn : 0 < n) : ∃ s s' obs d,
    OutputRun exGeo "out.nc" interval [] start 100 [exMove] (fun _ => 1/2) obs s s' ∧
    obs.length = n ∧ s'.comps.2.2 "out.nc" = .dataset d ∧
    plotFile d none = .error (if n ≤ interval then .indexError else .valueError) := by
  obtain ⟨s, s', obs, h1, h2, -, -⟩ := exMoveRun start interval n hi hn
  obtain ⟨d, o, d1, -, d2, d3, -⟩ := plot_of_run h1 (row := none) (i := 0) ⟨rfl, by norm_num⟩
  refine ⟨s, s', obs, d, h1, h2, d1, ?_⟩
  by_cases hl : n ≤ interval
  · rw [if_pos hl]
    exact d2 (by omega)
  · rw [if_neg hl]
    exact d3 (by omega) fun h => absurd h.1 (not_le.mpr hstart)

/-- The concrete run of three steps and its plot. -/
theorem exThree : ∃ s s' obs d args,
    OutputRun exGeo "out.nc" 1 [] (0 : ℚ) 100 [exMove] (fun _ => 1/2) obs s s' ∧ obs.length = 3 ∧
    s'.comps.2.2 "out.nc" = .dataset d ∧ plotFile d none = .ok args ∧
    args.elevation = [[some (-5)], [some (-3)], [some (-1)]] ∧
    args.shore = [some 10, some 20, some 30] ∧
    ∀ o ∈ obs, ∀ n, o.world.bedrock n = -105 - n.1.val := by
  obtain ⟨s, s', obs, h1, h2, h3, h4⟩ := exMoveRun 0 1 3 (by norm_num) (by norm_num)
  obtain ⟨d, o, d1, -⟩ := plot_of_run h1 (row := none) (i := 0) ⟨rfl, by norm_num⟩
  have hp := plot_three_steps
  unfold exPlot at hp
  rw [h3, d1] at hp
  dsimp only [Option.bind_some] at hp
  cases hq : plotFile d none with
  | error e => rw [hq] at hp; cases hp
  | ok args =>
    rw [hq] at hp
    have := Option.some.inj hp
    subst this
    exact ⟨s, s', obs, d, _, h1, h2, d1, hq, rfl, rfl, h4⟩

/-- C80 is false: there is a run whose plot shows layers where they are not. -/
theorem plot_elevation_wrong : ∃ s s' obs d args o,
    OutputRun exGeo "out.nc" 1 [] (0 : ℚ) 100 [exMove] (fun _ => 1/2) obs s s' ∧
    s'.comps.2.2 "out.nc" = .dataset d ∧ plotFile d none = .ok args ∧
    obs[lastWrite 1 obs.length * 1]? = some o ∧
    ∃ k < o.world.layers.n,
      (args.elevation[k]?).bind (·[0]?) ≠ some (some (layerTop o.world k 0 ⟨0, by norm_num⟩)) := by
  obtain ⟨s, s', obs, d, args, h1, h2, h3, h4, -, -, h7⟩ := exThree
  have ho : obs[lastWrite 1 obs.length * 1]? = some obs[2] := by
    have e : lastWrite 1 obs.length * 1 = 2 := by rw [h2]; rfl
    rw [e]
    exact List.getElem?_eq_getElem _
  refine ⟨s, s', obs, d, args, _, h1, h3, h4, ho, ?_⟩
  by_contra hno
  push Not at hno
  have := (plot_in_place_partial h1 (row := none) (i := 0) ⟨rfl, by norm_num⟩ h3 h4 ho
    ⟨0, by norm_num⟩).mp hno
  have hm : obs[2] ∈ obs := List.getElem_mem _
  rw [h7 _ hm, h7 _ hm] at this
  norm_num at this

/-- C82 is false: there is a run whose plot shows a layer with another shoreline than the one that
was there at the time of the layer. -/
theorem plot_shore_wrong : ∃ s s' obs d args o,
    OutputRun exGeo "out.nc" 1 [] (0 : ℚ) 100 [exMove] (fun _ => 1/2) obs s s' ∧
    s'.comps.2.2 "out.nc" = .dataset d ∧ plotFile d none = .ok args ∧
    obs[lastWrite 1 obs.length * 1]? = some o ∧
    ∃ k a o', k < o.world.layers.n ∧
      (o.world.layers.prop "age" (0, ⟨0, by norm_num⟩))[k]? = some a ∧ o' ∈ obs ∧ o'.time = a ∧
      args.shore[k]? ≠ some (o'.world.rowShore.bind (· 0)) := by
  obtain ⟨s, s', obs, d, args, h1, h2, h3, h4, -, h6, -⟩ := exThree
  have ho : obs[lastWrite 1 obs.length * 1]? = some obs[2] := by
    have e : lastWrite 1 obs.length * 1 = 2 := by rw [h2]; rfl
    rw [e]
    exact List.getElem?_eq_getElem _
  have hn : obs[2].world.layers.n = 3 := by
    obtain ⟨-, -, fs0, w0, p0, setTime, w, -, -, hempty, hinit⟩ := h1.setup.fresh
    exact observed_layers hempty hinit _ _
      (withWriter_keeps (A := Option ℚ) _ World.layers _ h1.keeps) obs h1.history 2 _
      (List.getElem?_eq_getElem _)
  obtain ⟨d', o', k1, k2, -, -, k5⟩ := plot_of_run h1 (row := none) (i := 0) ⟨rfl, by norm_num⟩
  rw [h3] at k1
  cases k1
  rw [ho] at k2
  cases k2
  obtain ⟨args', a1, -, a3⟩ := k5 (by omega) le_rfl (.inl rfl)
  rw [h4] at a1
  cases a1
  have hage := fun k (hk : k < obs[2].world.layers.n) => (layer_age h1 (j := 2) (o := obs[2])
    (List.getElem?_eq_getElem (by omega)) (k := k)
    hk (0, ⟨0, by norm_num⟩)).2
  have h0 := hage 0 (by omega)
  obtain ⟨x, y, x1, -, x3, -⟩ := a3 0 _ (by omega) ⟨0, by norm_num⟩ h0
  have ht := (h1.clock 0 obs[0] (List.getElem?_eq_getElem _)).1
  have hx := x3.1 0 obs[0] (List.getElem?_eq_getElem _) (by rw [ht]; simp [stepOfLayer])
  rw [h6] at x1
  have hx10 : x = some 10 := (Option.some.inj x1).symm
  refine ⟨s, s', obs, d, args, _, h1, h3, h4, ho, 1, _, obs[0], by omega, hage 1 (by omega),
    List.getElem_mem _, by rw [ht]; simp [stepOfLayer], ?_⟩
  dsimp only at hx
  rw [← hx, hx10, h6]
  decide +kernel

/-- C79: the file of the concrete run can be plotted, row 0 is a row of it and row 1 is not, and
without the bedrock it cannot be plotted. -/
example : ∃ d : Dataset ℚ (Option ℚ), Plottable d ∧ (∃ args, plotFile d (some (-1)) = .ok args) ∧
    plotFile d (some 1) = .error .invalidRow ∧
    plotFile { d with vars := fun x => if x.1 = "node" then none else d.vars x } none =
      .error .missingVariable := by
  obtain ⟨s, s', obs, h1, h2, -, -⟩ := exMoveRun 0 1 3 (by norm_num) (by norm_num)
  obtain ⟨d, d1, d2⟩ := run_file h1
  obtain ⟨d', o, e1, -, -, -, e5⟩ := plot_of_run h1 (row := some (-1)) (i := 0)
    ⟨by norm_num, .inr rfl⟩
  rw [d1] at e1
  cases e1
  obtain ⟨args, a1, -⟩ := e5 (by omega) le_rfl (.inl rfl)
  refine ⟨d, d2.plottable, ⟨args, a1⟩, (plotFile_invalidRow_iff _ _).mpr
    ⟨1, 1, d2.sizes.rows, rfl, by unfold ValidRow; norm_num⟩, ?_⟩
  rw [plotFile_missing_iff]
  refine ⟨?_, by intro n r _ h; cases h⟩
  rintro ⟨-, -, -, -, -, -, h⟩
  simp at h

end Verif.Props
