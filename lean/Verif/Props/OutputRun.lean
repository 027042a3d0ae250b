import Verif.Model.OutputRun
import Verif.Props.Output
import Verif.Props.SeaLevel
import Verif.Props.DriverRun

/-!
# Output of a whole run: C45 and C47
-/

set_option autoImplicit false
set_option linter.unusedSectionVars false

namespace Verif.Props

open Verif Spec

variable {K A σ : Type*} {R C : ℕ} [Field K] [LinearOrder K] [IsStrictOrderedRing K]

/-! ## The writer among the other components -/

theorem besideWriter_run (comps : List (Component σ R C K)) (dt : K) (p : σ)
    (q : Writer K × FileSystem K A) (w : World R C K) :
    runComponents (comps.map besideWriter) dt ((p, q), w) =
      match runComponents comps dt (p, w) with
      | .error e => .error e
      | .ok (p', w') => .ok ((p', q), w') := by
  induction comps generalizing p w with
  | nil => rfl
  | cons c cs ih =>
    rw [List.map_cons, runComponents, runComponents]
    unfold besideWriter
    cases hc : c dt (p, w) with
    | error e => rfl
    | ok y => exact ih y.1 y.2

theorem withWriter_run_ok (view : σ → World R C K → GridView A) (comps : List (Component σ R C K))
    {dt : K} {p p' : σ} {q q' : Writer K × FileSystem K A} {w w' : World R C K}
    (h : runComponents (withWriter view comps) dt ((p, q), w) = .ok ((p', q'), w')) :
    runComponents comps dt (p, w) = .ok (p', w') ∧
      writerStep (view p' w') (some dt) q = .ok q' := by
  unfold withWriter at h
  rw [runComponents_append, besideWriter_run] at h
  cases hc : runComponents comps dt (p, w) with
  | error e => rw [hc] at h; cases h
  | ok y =>
    obtain ⟨p1, w1⟩ := y
    rw [hc] at h
    simp only [runComponents, writerComponent] at h
    cases hs : writerStep (view p1 w1) (some dt) q with
    | error e => rw [hs] at h; cases h
    | ok q1 =>
      rw [hs] at h
      cases h
      exact ⟨rfl, hs⟩

theorem withWriter_run_of (view : σ → World R C K → GridView A) (comps : List (Component σ R C K))
    {dt : K} {p p' : σ} {q q' : Writer K × FileSystem K A} {w w' : World R C K}
    (h1 : runComponents comps dt (p, w) = .ok (p', w'))
    (h2 : writerStep (view p' w') (some dt) q = .ok q') :
    runComponents (withWriter view comps) dt ((p, q), w) = .ok ((p', q'), w') := by
  unfold withWriter
  rw [runComponents_append, besideWriter_run, h1]
  simp only [runComponents, writerComponent, h2]

theorem withWriter_keeps {α : Type*} (view : σ → World R C K → GridView A) (f : World R C K → α)
    (comps : List (Component σ R C K)) (hk : ∀ c ∈ comps, Keeps c f) :
    ∀ c ∈ withWriter (A := A) view comps, Keeps c f := by
  intro c hc
  rcases List.mem_append.mp hc with hc | hc
  · obtain ⟨c, hm, rfl⟩ := List.mem_map.mp hc
    rintro dt ⟨p, q⟩ w ⟨p', q'⟩ w' h
    unfold besideWriter at h
    dsimp only at h
    cases hr : c dt (p, w) with
    | error e => rw [hr] at h; cases h
    | ok y =>
      rw [hr] at h
      cases h
      exact hk c hm _ _ _ _ _ hr
  · simp only [List.mem_singleton] at hc
    subst hc
    rintro dt ⟨p, q⟩ w ⟨p', q'⟩ w' h
    unfold writerComponent at h
    dsimp only at h
    cases hr : writerStep (view p w) (some dt) q with
    | error e => rw [hr] at h; cases h
    | ok y => rw [hr] at h; cases h; rfl

theorem withWriter_maintains (view : σ → World R C K → GridView A) (P : World R C K → Prop)
    (comps : List (Component σ R C K)) (hk : ∀ c ∈ comps, Maintains c P) :
    ∀ c ∈ withWriter (A := A) view comps, Maintains c P := by
  intro c hc
  rcases List.mem_append.mp hc with hc | hc
  · obtain ⟨c, hm, rfl⟩ := List.mem_map.mp hc
    rintro dt ⟨p, q⟩ w ⟨p', q'⟩ w' hp h
    unfold besideWriter at h
    dsimp only at h
    cases hr : c dt (p, w) with
    | error e => rw [hr] at h; cases h
    | ok y =>
      rw [hr] at h
      cases h
      exact hk c hm _ _ _ _ _ hp hr
  · simp only [List.mem_singleton] at hc
    subst hc
    rintro dt ⟨p, q⟩ w ⟨p', q'⟩ w' hp h
    unfold writerComponent at h
    dsimp only at h
    cases hr : writerStep (view p w) (some dt) q with
    | error e => rw [hr] at h; cases h
    | ok y => rw [hr] at h; cases h; exact hp

/-- The calls that a writer sees during a history. -/
def callsOf (view : σ → World R C K → GridView A) (interval : ℕ) (fields : List String)
    (obs : List (Observation (σ × (Writer K × FileSystem K A)) R C K)) : List (Call K A) :=
  obs.map fun o => ⟨interval, fields, view o.comps.1 o.world, some o.dt⟩

theorem writerStep_const {g : GridView A} {dt : Option K} {w w' : Writer K}
    {fs fs' : FileSystem K A} (h : writerStep g dt (w, fs) = .ok (w', fs')) :
    w'.interval = w.interval ∧ w'.fields = w.fields := by
  unfold writerStep at h
  dsimp only at h
  split_ifs at h
  · split at h
    · cases h
    · cases h
      exact ⟨rfl, rfl⟩
  · cases h
    exact ⟨rfl, rfl⟩

theorem call_ops_const (w : Writer K) (fs : FileSystem K A) (g : GridView A) (dt : Option K) :
    writerRun (w, fs) (Call.ops ⟨w.interval, w.fields, g, dt⟩) = writerStep g dt (w, fs) := by
  have hi : checkInterval (.int (w.interval : ℤ) : PyNumber K) = .ok w.interval :=
    interval_stored w.interval
  unfold Spec.Call.ops
  simp only [writerRun, writerOp, hi]
  cases writerStep g dt (w, fs) <;> rfl

/-- During a history of a model the writer runs once per step, behind all other components. -/
theorem history_writerRun (view : σ → World R C K → GridView A) (comps : List (Component σ R C K))
    (porosity : σ × (Writer K × FileSystem K A) → K)
    {s s' : ModelState (σ × (Writer K × FileSystem K A)) R C K}
    {obs : List (Observation (σ × (Writer K × FileSystem K A)) R C K)}
    (h : ModelHistory (withWriter view comps) porosity s obs s') :
    writerRun s.comps.2 ((callsOf view s.comps.2.1.interval s.comps.2.1.fields obs).flatMap Call.ops)
      = .ok s'.comps.2 := by
  induction h with
  | nil s => rfl
  | @step s s' s'' time dt p w obs hc ha hr ih =>
    obtain ⟨p1, w1, ev, w3, a, g1, -, -, -, g5⟩ := advanceComponents_ok ha
    rw [hc] at g1
    cases g1
    obtain ⟨p', q'⟩ := p
    obtain ⟨e1, e2⟩ := withWriter_run_ok (p := s.comps.1) (q := s.comps.2) view comps hc
    have hs' : s'.comps = (p', q') := by rw [g5]
    rw [hs'] at ih
    generalize s.comps.2 = q0 at e2 ⊢
    obtain ⟨wr, fs⟩ := q0
    obtain ⟨wr', fs'⟩ := q'
    obtain ⟨k1, k2⟩ := writerStep_const e2
    rw [k1, k2] at ih
    have : callsOf view wr.interval wr.fields (⟨time, dt, (p', (wr', fs')), w⟩ :: obs) =
        ⟨wr.interval, wr.fields, view p' w, some dt⟩ :: callsOf view wr.interval wr.fields obs := rfl
    dsimp only
    rw [this, List.flatMap_cons, writerRun_append, call_ops_const, e2]
    exact ih

/-- A history can be cut before any of its observations. -/
theorem history_cut {comps : List (Component σ R C K)} {porosity : σ → K}
    {s s' : ModelState σ R C K} (o : Observation σ R C K) (rest : List (Observation σ R C K)) :
    ∀ (obs : List (Observation σ R C K)), ModelHistory comps porosity s (obs ++ o :: rest) s' →
    ∃ s1, ModelHistory comps porosity s obs s1 ∧
      runComponents comps o.dt (s1.comps, clearDeposit s1.world) = .ok (o.comps, o.world) := by
  intro obs
  induction obs generalizing s with
  | nil =>
    intro h
    cases h with
    | step hc ha hr => exact ⟨s, .nil s, hc⟩
  | cons a obs ih =>
    intro h
    cases h with
    | step hc ha hr =>
      obtain ⟨s1, h1, h2⟩ := ih hr
      exact ⟨s1, .step hc ha h1, h2⟩

/-- The number of layers after `k` steps. -/
def layersAfter (k : ℕ) : ℕ := if k < 19 then k + 1 else k + 1 - 9 * ((k + 1) / 10 - 1)

/-- The number of layers that the components see in step `k` of a fresh model. -/
theorem observed_layers {start : K} {setTime : K → σ → σ} {p : σ} {w : World R C K}
    (hempty : w.layers = EventLayers.empty) {s s' : ModelState σ R C K}
    (hi : modelInit start setTime p w = .ok s) (comps : List (Component σ R C K))
    (porosity : σ → K) (hk : ∀ c ∈ comps, Keeps c World.layers)
    (obs : List (Observation σ R C K)) (h : ModelHistory comps porosity s obs s')
    (k : ℕ) (o : Observation σ R C K) (ho : obs[k]? = some o) :
    o.world.layers.n = layersAfter k := by
  obtain ⟨hlt, rfl⟩ := List.getElem?_eq_some_iff.mp ho
  have hsplit : obs = obs.take k ++ obs[k] :: obs.drop (k + 1) := by
    rw [List.getElem_cons_drop, List.take_append_drop]
  rw [hsplit] at h
  obtain ⟨s1, h1, h2⟩ := history_cut _ _ _ h
  have hl : obs[k].world.layers = s1.world.layers :=
    runComponents_keeps (w := clearDeposit s1.world) World.layers comps hk h2
  rw [hl, model_layer_count hempty hi comps porosity hk _ h1, List.length_take,
    min_eq_left hlt.le]
  rfl

/-! ## When the layer count drops -/

theorem layersAfter_eq (k : ℕ) :
    layersAfter k = if k + 1 < 10 then k + 1 else (k + 1) % 10 + (k + 1) / 10 + 9 := by
  unfold layersAfter
  split_ifs <;> omega

/-- The intervals for which the number of layers never drops between writes. -/
def SafeInterval (i : ℕ) : Prop := 10 ∣ i ∨ 9 ≤ i / 10 + i % 10

theorem safe_step {i : ℕ} (h : SafeInterval i) (n : ℕ) :
    layersAfter n ≤ layersAfter (n + i) := by
  rw [layersAfter_eq, layersAfter_eq]
  rcases h with h | h
  · obtain ⟨q, rfl⟩ := h
    split_ifs <;> omega
  · split_ifs <;> omega

theorem safe_mono {i : ℕ} (h : SafeInterval i) {a b : ℕ} (hab : a ≤ b) (ha : i ∣ a) (hb : i ∣ b) :
    layersAfter a ≤ layersAfter b := by
  obtain ⟨x, rfl⟩ := ha
  obtain ⟨y, rfl⟩ := hb
  rcases Nat.eq_zero_or_pos i with rfl | hi
  · simp
  have hxy : x ≤ y := Nat.le_of_mul_le_mul_left hab hi
  induction y, hxy using Nat.le_induction with
  | base => exact le_rfl
  | succ y hxy ih =>
    rw [Nat.mul_succ]
    exact (ih (Nat.mul_le_mul_left i hxy)).trans (safe_step h _)

theorem unsafe_drop {i : ℕ} (hi : 0 < i) (h : ¬ SafeInterval i) :
    ∃ k, layersAfter (i * (k + 1)) < layersAfter (i * k) := by
  unfold SafeInterval at h
  push Not at h
  obtain ⟨h1, h2⟩ := h
  have h3 : i % 10 ≠ 0 := fun e => h1 (Nat.dvd_of_mod_eq_zero e)
  by_contra hno
  push Not at hno
  -- without a drop the last digit of the number of layers keeps growing
  have hstep : ∀ k, 10 ≤ k → (i * (k + 1) + 1) % 10 = (i * k + 1) % 10 + i % 10 := by
    intro k hk
    have hn := hno k
    rw [layersAfter_eq, layersAfter_eq] at hn
    have hge : 10 ≤ i * k := le_trans hk (Nat.le_mul_of_pos_left k hi)
    rw [Nat.mul_succ] at hn ⊢
    generalize i * k = m at *
    split_ifs at hn <;> omega
  have hgrow : ∀ j, (i * (10 + j) + 1) % 10 = (i * 10 + 1) % 10 + j * (i % 10) := by
    intro j
    induction j with
    | zero => simp
    | succ j ih =>
      rw [← Nat.add_assoc, hstep (10 + j) (by omega), ih, Nat.succ_mul]
      omega
  have h10 := hgrow 10
  omega

/-! ## C47 -/

theorem callsOf_get (view : σ → World R C K → GridView A) (i : ℕ) (fields : List String)
    (obs : List (Observation (σ × (Writer K × FileSystem K A)) R C K)) :
    (callsOf view i fields obs).length = obs.length := by
  simp [callsOf]

/-- A writer that belongs to a model and all that is needed of the model for its output. -/
structure OutputSetup (view : σ → World R C K → GridView A) (z : Sizes) (path : String)
    (interval : ℕ) (fields : List String) (start : K)
    (s : ModelState (σ × (Writer K × FileSystem K A)) R C K) : Prop where
  /-- the grid is fresh and the writer has just been created for all rows -/
  fresh : ∃ (clobber : Bool) (fs fs0 : FileSystem K A) (w0 : Writer K) (p : σ)
    (setTime : K → σ × (Writer K × FileSystem K A) → σ × (Writer K × FileSystem K A))
    (w : World R C K),
    writerInit z.rows path (.int interval) fields clobber none fs = (fs0, .ok w0) ∧
    (∀ t x, (setTime t x).2 = x.2) ∧ w.layers = EventLayers.empty ∧
    modelInit start setTime (p, (w0, fs0)) w = .ok s
  /-- grids look as they should -/
  sizes : ∀ p w, HasSizes z (view p w)
  layers : ∀ p w, (view p w).nLayers = w.layers.n
  positive : 0 < interval

theorem setup_writer {view : σ → World R C K → GridView A} {z : Sizes} {path : String}
    {interval : ℕ} {fields : List String} {start : K}
    {s : ModelState (σ × (Writer K × FileSystem K A)) R C K}
    (hs : OutputSetup view z path interval fields start s) :
    ∃ (clobber : Bool) (fs : FileSystem K A),
      writerInit z.rows path (.int interval) fields clobber none fs =
        (s.comps.2.2, .ok s.comps.2.1) ∧
      s.comps.2.1.interval = interval ∧ s.comps.2.1.fields = fields := by
  obtain ⟨clobber, fs, fs0, w0, p, setTime, w, h1, h2, h3, h4⟩ := hs.fresh
  obtain ⟨ev, -, -, -, -, -, -, -, -, -, h⟩ := modelInit_ok h4
  have hc : s.comps.2 = (w0, fs0) := by
    unfold modelInit at h4
    split at h4
    · dsimp only at h4
      split at h4
      · cases h4
      · cases h4
        rw [h2]
    · cases h4
    · cases h4
  rw [hc]
  obtain ⟨-, -, -, -, k1, k2, -⟩ := writerInit_ok h1
  rw [interval_stored] at k2
  cases k2
  exact ⟨clobber, fs, h1, rfl, k1⟩

/-- What is in the file after a history of the model. -/
theorem model_output {view : σ → World R C K → GridView A} {z : Sizes} {path : String}
    {interval : ℕ} {fields : List String} {start : K}
    {s s' : ModelState (σ × (Writer K × FileSystem K A)) R C K}
    (hs : OutputSetup view z path interval fields start s)
    (comps : List (Component σ R C K)) (porosity : σ × (Writer K × FileSystem K A) → K)
    (obs : List (Observation (σ × (Writer K × FileSystem K A)) R C K)) (hne : obs ≠ [])
    (h : ModelHistory (withWriter view comps) porosity s obs s') :
    ∃ d, s'.comps.2.2 path = .dataset d ∧ Records d (writesOf (callsOf view interval fields obs)) ∧
      LayerRecords d (writesOf (callsOf view interval fields obs)) := by
  obtain ⟨clobber, fs, h1, h2, h3⟩ := setup_writer hs
  have hrun := history_writerRun view comps porosity h
  rw [h2, h3] at hrun
  obtain ⟨w, fs', d, g1, g2, g3, g4, -⟩ := writer_history h1 (callsOf view interval fields obs)
    (by simpa [callsOf] using hne) (by
      intro c hc
      obtain ⟨o, -, rfl⟩ := List.mem_map.mp hc
      exact ⟨hs.positive, hs.sizes _ _⟩)
  rw [show s.comps.2 = (s.comps.2.1, s.comps.2.2) from rfl, g1] at hrun
  have hq : (w, fs') = s'.comps.2 := Except.ok.inj hrun
  exact ⟨d, by rw [← hq]; exact g2, g3, g4⟩

/-- The number of layers in each write. -/
theorem writes_layers {view : σ → World R C K → GridView A} {z : Sizes} {path : String}
    {interval : ℕ} {fields : List String} {start : K}
    {s s' : ModelState (σ × (Writer K × FileSystem K A)) R C K}
    (hs : OutputSetup view z path interval fields start s)
    (comps : List (Component σ R C K)) (hk : ∀ c ∈ comps, Keeps c World.layers)
    (porosity : σ × (Writer K × FileSystem K A) → K)
    (obs : List (Observation (σ × (Writer K × FileSystem K A)) R C K))
    (h : ModelHistory (withWriter view comps) porosity s obs s') (v : Write K A) :
    v ∈ writesOf (callsOf view interval fields obs) →
    ∃ j, j < obs.length ∧ interval ∣ j ∧ v.view.nLayers = layersAfter j := by
  intro hv
  obtain ⟨clobber, fs, fs0, w0, p, setTime, w, -, -, h3, h4⟩ := hs.fresh
  unfold writesOf at hv
  obtain ⟨j, hj, hv⟩ := List.mem_filterMap.mp hv
  rw [List.mem_range, callsOf_get] at hj
  have ho : obs[j]? = some obs[j] := List.getElem?_eq_getElem hj
  have hc : (callsOf view interval fields obs)[j]? =
      some ⟨interval, fields, view obs[j].comps.1 obs[j].world, some obs[j].dt⟩ := by
    unfold callsOf
    rw [List.getElem?_map, ho]
    rfl
  rw [hc, Option.bind_some] at hv
  split_ifs at hv with hd
  cases hv
  refine ⟨j, hj, hd, ?_⟩
  rw [hs.layers]
  exact observed_layers h3 h4 _ porosity (withWriter_keeps view World.layers comps hk) obs h j _ ho

/-- The writes of a history that ends in a writing step. -/
theorem writes_last {view : σ → World R C K → GridView A} {interval : ℕ} {fields : List String}
    (obs : List (Observation (σ × (Writer K × FileSystem K A)) R C K))
    (o : Observation (σ × (Writer K × FileSystem K A)) R C K) (hd : interval ∣ obs.length) :
    writesOf (callsOf view interval fields (obs ++ [o])) =
      writesOf (callsOf view interval fields obs) ++
        [⟨elapsed (callsOf view interval fields obs), fields, view o.comps.1 o.world⟩] := by
  unfold callsOf
  rw [List.map_append, List.map_cons, List.map_nil, writesOf_append, if_pos (by simpa using hd)]

/-- C47, the part that holds: if the interval is a multiple of ten, or its last digit and the
number of tens add up to nine or more, then after every write of every run the layers in the file
are those of the model. -/
theorem file_layers_partial {view : σ → World R C K → GridView A} {z : Sizes} {path : String}
    {interval : ℕ} {fields : List String} {start : K}
    {s s' : ModelState (σ × (Writer K × FileSystem K A)) R C K}
    (hs : OutputSetup view z path interval fields start s)
    (comps : List (Component σ R C K)) (hk : ∀ c ∈ comps, Keeps c World.layers)
    (porosity : σ × (Writer K × FileSystem K A) → K)
    (obs : List (Observation (σ × (Writer K × FileSystem K A)) R C K))
    (o : Observation (σ × (Writer K × FileSystem K A)) R C K)
    (h : ModelHistory (withWriter view comps) porosity s (obs ++ [o]) s')
    (hw : interval ∣ obs.length) (hsafe : 10 ∣ interval ∨ 9 ≤ interval / 10 + interval % 10) :
    ∃ d, s'.comps.2.2 path = .dataset d ∧ LayersAre d (view o.comps.1 o.world) := by
  obtain ⟨d, h1, -, h3⟩ := model_output hs comps porosity (obs ++ [o]) (by simp) h
  refine ⟨d, h1, ?_⟩
  have hall := writes_layers hs comps hk porosity (obs ++ [o]) h
  rw [writes_last obs o hw] at h3 hall
  rw [layers_after_write_iff h3]
  obtain ⟨clobber, fs, fs0, w0, p, setTime, w, -, -, e3, e4⟩ := hs.fresh
  intro v hv
  obtain ⟨j, j1, j2, j3⟩ := hall v (List.mem_append_left _ hv)
  have hlast := observed_layers e3 e4 _ porosity (withWriter_keeps view World.layers comps hk)
    (obs ++ [o]) h obs.length o (by simp)
  rw [j3, hs.layers, hlast]
  refine safe_mono hsafe ?_ j2 hw
  rw [List.length_append, List.length_singleton] at j1
  omega

/-- C47 is false for every other interval: there is a write after which, in every run that gets so
far, the file has more layers than the model. -/
theorem file_layers_stale {interval : ℕ} (hi : 0 < interval)
    (hbad : ¬ (10 ∣ interval ∨ 9 ≤ interval / 10 + interval % 10)) :
    ∃ n, ∀ {view : σ → World R C K → GridView A} {z : Sizes} {path : String}
      {fields : List String} {start : K} {s s' : ModelState (σ × (Writer K × FileSystem K A)) R C K}
      (_ : OutputSetup view z path interval fields start s)
      (comps : List (Component σ R C K)) (_ : ∀ c ∈ comps, Keeps c World.layers)
      (porosity : σ × (Writer K × FileSystem K A) → K)
      (obs : List (Observation (σ × (Writer K × FileSystem K A)) R C K))
      (o : Observation (σ × (Writer K × FileSystem K A)) R C K)
      (_ : ModelHistory (withWriter view comps) porosity s (obs ++ [o]) s')
      (_ : obs.length = n),
      ∃ d, s'.comps.2.2 path = .dataset d ∧ (view o.comps.1 o.world).nLayers < d.layerDim := by
  obtain ⟨k, hk⟩ := unsafe_drop hi hbad
  refine ⟨interval * (k + 1), ?_⟩
  intro view z path fields start s s' hs comps hkeep porosity obs o h hlen
  obtain ⟨d, h1, -, h3⟩ := model_output hs comps porosity (obs ++ [o]) (by simp) h
  refine ⟨d, h1, ?_⟩
  obtain ⟨clobber, fs, fs0, w0, p, setTime, w, -, -, e3, e4⟩ := hs.fresh
  have hcount : ∀ j (q : Observation (σ × (Writer K × FileSystem K A)) R C K),
      (obs ++ [o])[j]? = some q → q.world.layers.n = layersAfter j := fun j q hq =>
    observed_layers e3 e4 _ porosity (withWriter_keeps view World.layers comps hkeep)
      (obs ++ [o]) h j q hq
  have hlt : interval * k < obs.length := by
    rw [hlen, Nat.mul_succ]
    omega
  have hq : (obs ++ [o])[interval * k]? = some obs[interval * k] := by
    rw [List.getElem?_append_left hlt, List.getElem?_eq_getElem hlt]
  have hlast : (obs ++ [o])[obs.length]? = some o := by simp
  rw [hs.layers, hcount _ _ hlast, hlen]
  refine lt_of_lt_of_le hk ?_
  rw [← hcount _ _ hq, h3.dim]
  -- the earlier write is one of the writes
  have hmem : (⟨elapsed ((callsOf view interval fields (obs ++ [o])).take (interval * k)), fields,
      view obs[interval * k].comps.1 obs[interval * k].world⟩ : Write K A) ∈
      writesOf (callsOf view interval fields (obs ++ [o])) := by
    unfold writesOf
    refine List.mem_filterMap.mpr ⟨interval * k, ?_, ?_⟩
    · rw [List.mem_range, callsOf_get, List.length_append]
      omega
    · have : (callsOf view interval fields (obs ++ [o]))[interval * k]? =
          some ⟨interval, fields, view obs[interval * k].comps.1 obs[interval * k].world,
            some obs[interval * k].dt⟩ := by
        unfold callsOf
        rw [List.getElem?_map, hq]
        rfl
      rw [this, Option.bind_some, if_pos (Nat.dvd_mul_right _ _)]
  have hle : ∀ (l : List ℕ) (a : ℕ), (a ≤ l.foldl max a) ∧ ∀ x ∈ l, x ≤ l.foldl max a := by
    intro l
    induction l with
    | nil => intro a; simp
    | cons x l ih =>
      intro a
      rw [List.foldl_cons]
      refine ⟨le_trans (le_max_left _ _) (ih _).1, ?_⟩
      intro y hy
      rcases List.mem_cons.mp hy with rfl | hy
      · exact le_trans (le_max_right _ _) (ih _).1
      · exact (ih _).2 y hy
  have := (hle ((writesOf (callsOf view interval fields (obs ++ [o]))).map (·.view.nLayers)) 0).2 _
    (List.mem_map_of_mem hmem)
  rw [hs.layers] at this
  exact this

/-! ## C45 -/

/-- C45 is false, and by how much: in a run with constant time step that started at `start`, the
label of every time slice is the clock of the step that wrote it minus `start + step`. -/
theorem labels_behind_clock {view : σ → World R C K → GridView A} {z : Sizes} {path : String}
    {interval : ℕ} {fields : List String} {start step : K}
    {s s' : ModelState (σ × (Writer K × FileSystem K A)) R C K}
    (hs : OutputSetup view z path interval fields start s)
    (comps : List (Component σ R C K)) (porosity : σ × (Writer K × FileSystem K A) → K)
    (obs : List (Observation (σ × (Writer K × FileSystem K A)) R C K)) (hne : obs ≠ [])
    (h : ModelHistory (withWriter view comps) porosity s obs s')
    (htime : obs.map (·.time) = (List.range obs.length).map fun k => start + (k + 1 : ℕ) * step)
    (hdt : ∀ o ∈ obs, o.dt = step) :
    ∃ d, s'.comps.2.2 path = .dataset d ∧
      d.times.length = (obs.length + interval - 1) / interval ∧
      ∀ k t, d.times[k]? = some t → ∃ o, obs[k * interval]? = some o ∧
        t = o.time - (start + step) := by
  obtain ⟨d, h1, h2, -⟩ := model_output hs comps porosity obs hne h
  have ht := fixed_interval_times obs.length interval hs.positive step
    (callsOf view interval fields obs) (callsOf_get ..) (by
      intro c hc
      obtain ⟨o, ho, rfl⟩ := List.mem_map.mp hc
      exact ⟨rfl, by rw [hdt o ho]⟩)
  rw [← h2.times] at ht
  refine ⟨d, h1, by rw [ht]; simp, ?_⟩
  intro k t hk
  rw [ht, List.getElem?_map] at hk
  obtain ⟨j, hj, rfl⟩ := Option.map_eq_some_iff.mp hk
  obtain ⟨hlt, hj⟩ := List.getElem?_eq_some_iff.mp hj
  rw [List.getElem_range] at hj
  subst hj
  rw [List.length_range] at hlt
  have hlt' : k * interval < obs.length := by
    have h3 : k + 1 ≤ (obs.length + interval - 1) / interval := hlt
    rw [Nat.le_div_iff_mul_le hs.positive, Nat.succ_mul] at h3
    have := hs.positive
    omega
  refine ⟨obs[k * interval], List.getElem?_eq_getElem hlt', ?_⟩
  have htm := congrArg (fun l => l[k * interval]?) htime
  simp only [List.getElem?_map, List.getElem?_eq_getElem hlt', Option.map_some,
    List.getElem?_range hlt', Option.some.injEq] at htm
  rw [htm]
  push_cast
  ring

/-- C45, the part that holds: the label is the clock exactly if the clock was at zero after the
first step. -/
theorem labels_are_clock_partial {view : σ → World R C K → GridView A} {z : Sizes} {path : String}
    {interval : ℕ} {fields : List String} {start step : K}
    {s s' : ModelState (σ × (Writer K × FileSystem K A)) R C K}
    (hs : OutputSetup view z path interval fields start s)
    (comps : List (Component σ R C K)) (porosity : σ × (Writer K × FileSystem K A) → K)
    (obs : List (Observation (σ × (Writer K × FileSystem K A)) R C K)) (hne : obs ≠ [])
    (h : ModelHistory (withWriter view comps) porosity s obs s')
    (htime : obs.map (·.time) = (List.range obs.length).map fun k => start + (k + 1 : ℕ) * step)
    (hdt : ∀ o ∈ obs, o.dt = step) :
    ∃ d, s'.comps.2.2 path = .dataset d ∧
      ((∀ k t o, d.times[k]? = some t → obs[k * interval]? = some o → t = o.time) ↔
        start + step = 0) := by
  obtain ⟨d, h1, h2, h3⟩ := labels_behind_clock hs comps porosity obs hne h htime hdt
  refine ⟨d, h1, ?_, ?_⟩
  · intro hall
    have hpos : 0 < d.times.length := by
      rw [h2]
      refine Nat.div_pos ?_ hs.positive
      have := List.length_pos_of_ne_nil hne
      omega
    obtain ⟨o, ho, e⟩ := h3 0 d.times[0] (List.getElem?_eq_getElem hpos)
    have := hall 0 d.times[0] o (List.getElem?_eq_getElem hpos) ho
    rw [e] at this
    linear_combination -this
  · intro h0 k t o hk ho
    obtain ⟨o', ho', e⟩ := h3 k t hk
    rw [ho] at ho'
    cases ho'
    rw [e, h0, sub_zero]

/-! ## C75: output does not influence the model -/

/-- The model without its writer. -/
def withoutWriter (s : ModelState (σ × (Writer K × FileSystem K A)) R C K) : ModelState σ R C K :=
  ⟨s.comps.1, s.world, s.archived⟩

/-- C75. A step of a model with output leaves components, grid and layers in exactly the state that
a step of the same model without output leaves them in. -/
theorem output_step_same (view : σ → World R C K → GridView A) (comps : List (Component σ R C K))
    (porosity : σ → K) (time dt : K) {s s' : ModelState (σ × (Writer K × FileSystem K A)) R C K}
    (h : advanceComponents (withWriter view comps) (fun x => porosity x.1) time dt s = .ok s') :
    advanceComponents comps porosity time dt (withoutWriter s) = .ok (withoutWriter s') := by
  obtain ⟨p, w, ev, w3, a, h1, h2, h3, h4, h5⟩ := advanceComponents_ok h
  obtain ⟨p', q'⟩ := p
  obtain ⟨e1, -⟩ := withWriter_run_ok (p := s.comps.1) (q := s.comps.2) view comps h1
  unfold advanceComponents withoutWriter
  dsimp only
  rw [e1]
  dsimp only at h2 ⊢
  rw [h2]
  dsimp only
  rw [h3]
  dsimp only
  have hl : w3.layers = ev := (updateFields_ok h3).2.1
  rw [hl, h4, h5]

/-- C75. The same for whole histories. -/
theorem output_history_same (view : σ → World R C K → GridView A)
    (comps : List (Component σ R C K)) (porosity : σ → K)
    {s s' : ModelState (σ × (Writer K × FileSystem K A)) R C K}
    {obs : List (Observation (σ × (Writer K × FileSystem K A)) R C K)}
    (h : ModelHistory (withWriter view comps) (fun x => porosity x.1) s obs s') :
    ModelHistory comps porosity (withoutWriter s)
      (obs.map fun o => ⟨o.time, o.dt, o.comps.1, o.world⟩) (withoutWriter s') := by
  induction h with
  | nil s => exact .nil _
  | @step s s' s'' time dt p w obs hc ha hr ih =>
    obtain ⟨p', q'⟩ := p
    exact .step (withWriter_run_ok (p := s.comps.1) (q := s.comps.2) view comps hc).1
      (output_step_same view comps porosity time dt ha) ih

/-! ## C76: a whole run with output -/

/-- The writer has been run for some calls since it was created, and can go on. -/
def WriterOk (z : Sizes) (w0 : Writer K) (fs0 : FileSystem K A) (interval : ℕ)
    (q : Writer K × FileSystem K A) : Prop :=
  q.1.interval = interval ∧ ∃ calls g0, After z w0 fs0 calls g0 q.1 q.2

theorem writerOk_step {z : Sizes} {w0 : Writer K} {fs0 : FileSystem K A} {interval : ℕ}
    (hpos : 0 < interval) (hrows : w0.rows = allRows z.rows) {q : Writer K × FileSystem K A}
    (h : WriterOk z w0 fs0 interval q) {g : GridView A} (hg : HasSizes z g) (dt : K) :
    ∃ q', writerStep g (some dt) q = .ok q' ∧ WriterOk z w0 fs0 interval q' := by
  obtain ⟨h1, calls, g0, h2⟩ := h
  obtain ⟨w, fs⟩ := q
  obtain ⟨w', fs', h3, h4⟩ := after_step hrows h2 ⟨w.interval, w.fields, g, some dt⟩
    (by rw [← h1] at hpos; exact hpos) hg
  rw [call_ops_const] at h3
  exact ⟨(w', fs'), h3, (writerStep_const h3).1.trans h1, _, _, h4⟩

/-- C76: a complete run with output. On a fresh grid, with components that leave the layers alone,
provide a sand fraction wherever there is a sediment load and do not fail in states that can be
reached, and with a new writer with a positive interval, `SequenceModel.run` does not fail. It
executes `⌊(stop - start) / step⌋` steps. If there is a step, the file then holds one time slice
for every interval that was started, labelled `0, interval * step, 2 * interval * step, ...`. -/
theorem run_with_output [FloorRing K] (start stop step : K) (hstep : 0 < step)
    {view : σ → World R C K → GridView A} {z : Sizes} {path : String}
    {interval : ℕ} {fields : List String} {clobber : Bool} {fs fs0 : FileSystem K A} {w0 : Writer K}
    (hw : writerInit z.rows path (.int interval) fields clobber none fs = (fs0, .ok w0))
    (hpos : 0 < interval) (hsizes : ∀ p w, HasSizes z (view p w))
    (hlayers : ∀ p w, (view p w).nLayers = w.layers.n)
    {setTime : K → σ → σ} {p : σ} {w : World R C K} (hempty : w.layers = EventLayers.empty)
    {s : ModelState (σ × (Writer K × FileSystem K A)) R C K}
    (hi : modelInit start (fun t x => (setTime t x.1, x.2)) (p, (w0, fs0)) w = .ok s)
    (hsand0 : w.sedLoad = none ∨ ∃ f, w.sand = some f)
    (comps : List (Component σ R C K)) (porosity : σ → K)
    (I : ModelState σ R C K → Prop) (hI0 : I (withoutWriter s))
    (htotal : ∀ dt v, I v → ∃ y, runComponents comps dt (v.comps, clearDeposit v.world) = .ok y)
    (hI : ∀ time dt v v', I v → advanceComponents comps porosity time dt v = .ok v' → I v')
    (hk : ∀ c ∈ comps, Keeps c World.layers)
    (hsand : ∀ c ∈ comps, Maintains c fun w => w.sedLoad = none ∨ ∃ f, w.sand = some f)
    (fuel : ℕ) (hfuel : ⌊(stop - start) / step⌋₊ < fuel) :
    ∃ s' obs, runLoop (advanceComponents (withWriter view comps) fun x => porosity x.1) fuel
        (Clock.init start (some stop) step) s =
        some (⟨start, some stop, step, start + (⌊(stop - start) / step⌋₊ + 1 : ℕ) * step⟩,
          .ok s') ∧
      ModelHistory (withWriter view comps) (fun x => porosity x.1) s obs s' ∧
      (obs.map fun o => o.time) =
        (List.range ⌊(stop - start) / step⌋₊).map (fun k => start + (k + 1 : ℕ) * step) ∧
      (∀ o ∈ obs, o.dt = step) ∧
      (∀ f, f ≠ path → s'.comps.2.2 f = fs f) ∧
      (⌊(stop - start) / step⌋₊ = 0 ∧ s'.comps.2.2 path = .absent ∨
      0 < ⌊(stop - start) / step⌋₊ ∧ ∃ d, s'.comps.2.2 path = .dataset d ∧
        d.times = (List.range ((⌊(stop - start) / step⌋₊ + interval - 1) / interval)).map
          fun k => ((k * interval : ℕ) : K) * step) := by
  obtain ⟨e1, e2, e3, e4, -, e6, e7, -, -⟩ := writerInit_ok hw
  have hrows : w0.rows = allRows z.rows := e7 rfl
  rw [interval_stored] at e6
  have hint : w0.interval = interval := (Except.ok.inj e6).symm
  have habs : fs0 w0.filepath = .absent := by rw [e1, e2, Function.update_self]
  have hsw : s.comps.2 = (w0, fs0) := by
    unfold modelInit at hi
    split at hi
    · dsimp only at hi
      split at hi
      · cases hi
      · cases hi
        rfl
    · cases hi
    · cases hi
  have hset : OutputSetup view z path interval fields start s :=
    ⟨⟨clobber, fs, fs0, w0, p, fun t x => (setTime t x.1, x.2), w, hw, fun _ _ => rfl, hempty, hi⟩,
      hsizes, hlayers, hpos⟩
  obtain ⟨s', obs, r1, r2, r3, r4, -, -⟩ := model_run_completes_inv start stop step hstep hempty hi
    hsand0 (withWriter view comps) (fun x => porosity x.1)
    (fun v => I (withoutWriter v) ∧ WriterOk z w0 fs0 interval v.comps.2)
    ⟨hI0, by
      rw [hsw]
      exact ⟨hint, [], none, rfl, rfl, rfl, e3, e4, fun _ _ => rfl, habs, rfl⟩⟩
    (by
      rintro dt v ⟨v1, v2⟩
      obtain ⟨⟨p', w'⟩, hy⟩ := htotal dt _ v1
      obtain ⟨q', hq, -⟩ := writerOk_step hpos hrows v2 (hsizes p' w') dt
      exact ⟨_, withWriter_run_of (p := v.comps.1) (q := v.comps.2) view comps hy hq⟩)
    (by
      rintro time dt v v' ⟨v1, v2⟩ hv
      refine ⟨hI time dt _ _ v1 (output_step_same view comps porosity time dt hv), ?_⟩
      obtain ⟨⟨p', q'⟩, w', ev, w3, a, g1, -, -, -, g5⟩ := advanceComponents_ok hv
      obtain ⟨-, k2⟩ := withWriter_run_ok (p := v.comps.1) (q := v.comps.2) view comps g1
      obtain ⟨q1, l1, l2⟩ := writerOk_step hpos hrows v2 (hsizes p' w') dt
      rw [k2] at l1
      cases l1
      rw [g5]
      exact l2)
    (withWriter_keeps view World.layers comps hk) (withWriter_maintains view _ comps hsand)
    fuel hfuel
  have hlen : obs.length = ⌊(stop - start) / step⌋₊ := by
    have := congrArg List.length r3
    simpa using this
  rw [← hlen]
  rw [← hlen] at r1 r3
  have hrun := history_writerRun view comps _ r2
  rw [hsw] at hrun
  have hcalls : ∀ c ∈ callsOf view w0.interval w0.fields obs,
      0 < c.interval ∧ HasSizes z c.view := by
    intro c hc
    obtain ⟨o, -, rfl⟩ := List.mem_map.mp hc
    exact ⟨by rw [hint]; exact hpos, hsizes _ _⟩
  obtain ⟨w1, fs1, k1, k2⟩ := after_run hrows e3 e4 habs (callsOf view w0.interval w0.fields obs)
    hcalls
  dsimp only at hrun
  rw [k1] at hrun
  have hq : (w1, fs1) = s'.comps.2 := Except.ok.inj hrun
  refine ⟨s', obs, r1, r2, r3, r4, ?_, ?_⟩
  · intro f hf
    rw [← hq]
    dsimp only
    rw [k2.others f (by rw [e2]; exact hf), e1, Function.update_of_ne hf]
  · rcases Nat.eq_zero_or_pos obs.length with h0 | h0
    · left
      refine ⟨h0, ?_⟩
      have hnil : obs = [] := List.length_eq_zero_iff.mp h0
      have := k2.file
      rw [hnil] at this
      rw [← hq, ← e2]
      exact this.1
    · right
      refine ⟨h0, ?_⟩
      have hne : obs ≠ [] := List.ne_nil_of_length_pos h0
      obtain ⟨d, d1, d2, -⟩ := model_output hset comps _ obs hne r2
      refine ⟨d, d1, ?_⟩
      rw [d2.times]
      exact fixed_interval_times obs.length interval hpos step _ (callsOf_get ..) (by
        intro c hc
        obtain ⟨o, ho, rfl⟩ := List.mem_map.mp hc
        exact ⟨rfl, by rw [r4 o ho]⟩)

/-! ## The view of a world -/

theorem nodeList_length (f : NodeField R C K) : (nodeList f).length = (R + 2) * C := by
  simp [nodeList, List.length_flatMap]

theorem cellList_length (f : Cell R C → Option K) : (cellList f).length = R * (C - 2) := by
  simp [cellList, List.length_flatMap]

theorem field_mem {g : GridView A} {loc name : String} {v : List A}
    (h : g.field loc name = some v) : ∃ n, (n, v) ∈ g.fields loc := by
  unfold GridView.field at h
  obtain ⟨p, hp, rfl⟩ := Option.map_eq_some_iff.mp h
  exact ⟨p.1, List.mem_of_find?_eq_some hp⟩

/-- The view of a grid has the sizes of the grid, if its coordinates have. -/
theorem worldView_sizes (geo : Geometry K)
    (hxy : ∀ loc ∈ ["node", "link", "face", "cell"], (geo.yOf loc).length = (geo.xOf loc).length)
    (hnode : (geo.xOf "node").length = (R + 2) * C)
    (hrow : (geo.yOf "row").length = R + 2) (hcol : (geo.xOf "column").length = C)
    (w : World R C K) :
    HasSizes ⟨R, C, fun loc => (geo.xOf loc).length⟩ (worldView geo w) where
  rows := rfl
  cols := rfl
  x := fun loc _ => by simp [worldView]
  y := fun loc hl => by simp [worldView, hxy loc hl]
  yRow := by simp [worldView, hrow]
  xCol := by simp [worldView, hcol]
  fields := by
    intro loc name v hv
    obtain ⟨n, hn⟩ := field_mem hv
    have hopt : ∀ {nm : String} {o : Option (List (Option K))} {x : String × List (Option K)} {m : ℕ},
        (∀ l, o = some l → l.length = m) → x ∈ optField nm o → x.2.length = m := by
      intro nm o x m hm hx
      unfold optField at hx
      cases o with
      | none => simp at hx
      | some l =>
        simp only [List.mem_singleton] at hx
        rw [hx]
        exact hm l rfl
    have hmap : ∀ {f : Option (NodeField R C K)} (l : List (Option K)), f.map nodeList = some l →
        l.length = (R + 2) * C := by
      intro f l hl
      obtain ⟨a, -, rfl⟩ := Option.map_eq_some_iff.mp hl
      exact nodeList_length a
    simp only [worldView] at hn
    by_cases h1 : loc = "node"
    · subst h1
      have hz : Sizes.at ⟨R, C, fun loc => (geo.xOf loc).length⟩ "node" = (R + 2) * C := by
        simp [Sizes.at, hnode]
      rw [hz]
      rw [if_pos rfl] at hn
      simp only [List.mem_append] at hn
      rcases hn with ((((hn | hn) | hn) | hn) | hn) | hn
      · simp only [List.mem_cons, Prod.mk.injEq, List.not_mem_nil, or_false] at hn
        rcases hn with ⟨-, rfl⟩ | ⟨-, rfl⟩ | ⟨-, rfl⟩ <;> exact nodeList_length _
      all_goals exact hopt hmap hn
    · rw [if_neg h1] at hn
      by_cases h2 : loc = "row"
      · subst h2
        rw [if_pos rfl] at hn
        have hz : Sizes.at ⟨R, C, fun loc => (geo.xOf loc).length⟩ "row" = R := by simp [Sizes.at]
        rw [hz]
        have hm : ∀ {f : Option (Fin R → Option K)} (l : List (Option K)),
            f.map List.ofFn = some l → l.length = R := by
          intro f l hl
          obtain ⟨a, -, rfl⟩ := Option.map_eq_some_iff.mp hl
          exact List.length_ofFn
        simp only [List.mem_append] at hn
        rcases hn with hn | hn <;> exact hopt hm hn
      · rw [if_neg h2] at hn
        by_cases h3 : loc = "grid"
        · subst h3
          rw [if_pos rfl] at hn
          have hz : Sizes.at ⟨R, C, fun loc => (geo.xOf loc).length⟩ "grid" = 1 := by
            simp [Sizes.at]
          rw [hz]
          simp only [List.mem_append] at hn
          rcases hn with ((hn | hn) | hn) | hn
          · simp only [List.mem_singleton, Prod.mk.injEq] at hn
            rw [hn.2]
            rfl
          all_goals
            refine hopt ?_ hn
            intro l hl
            obtain ⟨a, -, rfl⟩ := Option.map_eq_some_iff.mp hl
            rfl
        · rw [if_neg h3] at hn
          simp at hn
  layer := by
    intro name _
    refine ⟨by simp [worldView], ?_⟩
    intro l hl
    simp only [worldView, List.mem_map] at hl
    obtain ⟨k, -, rfl⟩ := hl
    exact cellList_length _
  dz := by
    refine ⟨by simp [worldView], ?_⟩
    intro l hl
    simp only [worldView, List.mem_map] at hl
    obtain ⟨k, -, rfl⟩ := hl
    exact cellList_length _

/-! ## Concrete cases -/

/-- The coordinates of a grid with one active row of three nodes; links and faces left out. -/
def exGeo : Geometry ℚ where
  xOf := fun loc => if loc = "node" then [0, 1, 2, 0, 1, 2, 0, 1, 2] else if loc = "cell" then [1]
    else if loc = "column" then [0, 1, 2] else []
  yOf := fun loc => if loc = "node" then [0, 0, 0, 1, 1, 1, 2, 2, 2] else if loc = "cell" then [1]
    else if loc = "row" then [0, 1, 2] else []

/-- Its sizes. -/
def exGeoSizes : Sizes := ⟨1, 3, fun loc => (exGeo.xOf loc).length⟩

/-- What the writer sees. -/
def exSee : Unit → World 1 3 ℚ → GridView (Option ℚ) := fun _ w => worldView exGeo w

theorem exSee_sizes (p : Unit) (w : World 1 3 ℚ) : HasSizes exGeoSizes (exSee p w) := by
  refine worldView_sizes exGeo ?_ rfl rfl rfl w
  intro loc hl
  simp only [List.mem_cons, List.not_mem_nil, or_false] at hl
  rcases hl with rfl | rfl | rfl | rfl <;> rfl

/-- A new writer with the given interval. -/
def exWriter (interval : ℕ) : Writer ℚ := ⟨true, interval, [], "out.nc", [0], 0, 0⟩

theorem exWriter_init (interval : ℕ) :
    writerInit (K := ℚ) (A := Option ℚ) 1 "out.nc" (.int interval) [] true none (fun _ => .absent) =
      (fun _ => .absent, .ok (exWriter interval)) := by
  simp [writerInit, interval_stored, setFilepath, Entry.isFile, exWriter]

/-- A run of the concrete model with output every `interval` steps, for `n` steps of 100 years. -/
theorem exRun (interval n : ℕ) (hi : 0 < interval) : ∃ s s' obs,
    OutputSetup exSee exGeoSizes "out.nc" interval [] (0 : ℚ) s ∧
    runLoop (advanceComponents (withWriter exSee [exComp]) fun _ => 1/2) (n + 1)
      (Clock.init 0 (some (n * 100)) 100) s =
      some (⟨0, some (n * 100), 100, (n + 1 : ℕ) * 100⟩, .ok s') ∧
    ModelHistory (withWriter exSee [exComp]) (fun _ => 1/2) s obs s' ∧ obs.length = n ∧
    (0 < n → ∃ d, s'.comps.2.2 "out.nc" = .dataset d ∧
      d.times = (List.range ((n + interval - 1) / interval)).map
        fun k => ((k * interval : ℕ) : ℚ) * 100) := by
  have hN : ⌊((n * 100 : ℚ) - 0) / 100⌋₊ = n := by
    rw [sub_zero, mul_div_cancel_right₀ _ (by norm_num), Nat.floor_natCast]
  have hinit : ∃ s, modelInit (0 : ℚ) (fun _ x => ((), x.2))
      ((), (exWriter interval, (fun _ => .absent : FileSystem ℚ (Option ℚ)))) exWorld = .ok s :=
    ⟨_, rfl⟩
  obtain ⟨s, hs⟩ := hinit
  have hkeep : ∀ c ∈ [exComp], Keeps c World.layers := by
    intro c hc dt p w p' w' h
    simp only [List.mem_singleton] at hc
    subst hc
    cases h
    rfl
  obtain ⟨s', obs, h1, h2, h3, -, -, h6⟩ := run_with_output (σ := Unit) (K := ℚ) 0 (n * 100) 100
    (by norm_num)
    (view := exSee) (z := exGeoSizes) (exWriter_init interval) hi exSee_sizes (fun _ _ => rfl)
    (setTime := fun _ _ => ()) (w := exWorld) rfl hs (.inr ⟨_, rfl⟩) [exComp] (fun _ => 1/2)
    (fun _ => True) trivial (fun dt v _ => ⟨_, rfl⟩) (fun _ _ _ _ _ _ => trivial) hkeep
    (by
      intro c hc dt p w p' w' hw h
      simp only [List.mem_singleton] at hc
      subst hc
      cases h
      exact hw) (n + 1) (by rw [hN]; omega)
  rw [hN] at h1 h3 h6
  have hlen : obs.length = n := by
    have := congrArg List.length h3
    simpa using this
  refine ⟨s, s', obs, ⟨⟨true, _, _, _, (), _, exWorld, exWriter_init interval, ?_, rfl, hs⟩,
    exSee_sizes, fun _ _ => rfl, hi⟩, ?_, h2, hlen, ?_⟩
  · intro t x
    rfl
  · rw [h1, zero_add]
  · intro hn
    rcases h6 with ⟨h0, -⟩ | ⟨-, h⟩
    · omega
    · exact h

/-- C47 with the default interval of 10: after the write of step 31 the file is right. -/
example : ∃ (s' : ModelState (Unit × (Writer ℚ × FileSystem ℚ (Option ℚ))) 1 3 ℚ)
    (o : Observation (Unit × (Writer ℚ × FileSystem ℚ (Option ℚ))) 1 3 ℚ) (d : Dataset ℚ (Option ℚ)),
    s'.comps.2.2 "out.nc" = .dataset d ∧ LayersAre d (exSee () o.world) := by
  obtain ⟨s, s', obs, h1, -, h3, h4, -⟩ := exRun 10 31 (by norm_num)
  obtain ⟨obs', o, rfl⟩ : ∃ obs' o, obs = obs' ++ [o] :=
    ⟨_, _, (List.dropLast_append_getLast (List.ne_nil_of_length_pos (by omega))).symm⟩
  have hlen : obs'.length = 30 := by simpa using h4
  obtain ⟨d, d1, d2⟩ := file_layers_partial h1 [exComp] (by
    intro c hc dt p w p' w' h
    simp only [List.mem_singleton] at hc
    subst hc
    cases h
    rfl) _ obs' o h3 (by rw [hlen]; decide) (.inl (dvd_refl _))
  exact ⟨s', o, d, d1, d2⟩

/-- C47 with an interval of 1: there is a run after which it is wrong. -/
example : ∃ (s' : ModelState (Unit × (Writer ℚ × FileSystem ℚ (Option ℚ))) 1 3 ℚ)
    (o : Observation (Unit × (Writer ℚ × FileSystem ℚ (Option ℚ))) 1 3 ℚ) (d : Dataset ℚ (Option ℚ)),
    s'.comps.2.2 "out.nc" = .dataset d ∧ (exSee () o.world).nLayers < d.layerDim := by
  obtain ⟨n, hn⟩ := file_layers_stale (K := ℚ) (A := Option ℚ) (σ := Unit) (R := 1) (C := 3)
    (interval := 1) (by norm_num) (by decide)
  obtain ⟨s, s', obs, h1, -, h3, h4, -⟩ := exRun 1 (n + 1) (by norm_num)
  obtain ⟨obs', o, rfl⟩ : ∃ obs' o, obs = obs' ++ [o] :=
    ⟨_, _, (List.dropLast_append_getLast (List.ne_nil_of_length_pos (by omega))).symm⟩
  obtain ⟨d, d1, d2⟩ := hn h1 [exComp] (by
    intro c hc dt p w p' w' h
    simp only [List.mem_singleton] at hc
    subst hc
    cases h
    rfl) _ obs' o h3 (by simpa using h4)
  exact ⟨s', o, d, d1, d2⟩

end Verif.Props
