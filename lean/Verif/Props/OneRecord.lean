import Verif.Spec.OneRecord
import Verif.Props.ShoreLag
import Verif.Props.FileFields

/-!
# C150 and C151: the records of an output file by themselves
-/

set_option autoImplicit false
set_option linter.unusedSectionVars false

namespace Verif.Props

open Verif Verif.Spec

variable {K : Type*} {R C : ℕ} [Field K] [LinearOrder K] [IsStrictOrderedRing K]

/-- What the components of the model have done before the writer. -/
theorem observed_components {σ A : Type*} {D : ℕ} {view : σ → World R D K → GridView A}
    {comps : List (Component σ R D K)} {porosity : σ × (Writer K × FileSystem K A) → K}
    {obs : List (Observation (σ × (Writer K × FileSystem K A)) R D K)}
    {s s' : ModelState (σ × (Writer K × FileSystem K A)) R D K}
    (h : ModelHistory (withWriter view comps) porosity s obs s') {k : ℕ}
    {o : Observation (σ × (Writer K × FileSystem K A)) R D K} (ho : obs[k]? = some o) :
    ∃ s1, ModelHistory (withWriter view comps) porosity s (obs.take k) s1 ∧
      runComponents comps o.dt (s1.comps.1, clearDeposit s1.world) = .ok (o.comps.1, o.world) := by
  obtain ⟨hlt, rfl⟩ := List.getElem?_eq_some_iff.mp ho
  have hsplit : obs = obs.take k ++ obs[k] :: obs.drop (k + 1) := by
    rw [List.getElem_cons_drop, List.take_append_drop]
  rw [hsplit] at h
  obtain ⟨s1, h1, h2⟩ := history_cut _ _ _ h
  refine ⟨s1, h1, ?_⟩
  exact (withWriter_run_ok (p := s1.comps.1) (q := s1.comps.2) view comps h2).1

/-- C45 is false, and by how much with steps of any lengths: `run_one_step(dt)` moves the clock by its
own step and the labels by `dt`. The label of a record is the time that the components had been advanced
by before the step that wrote it, which differs from the clock by `start + step` and by what the steps
before were longer or shorter than that of the clock. -/
theorem labels_any_steps {σ : Type*} {D : ℕ} {geo : Geometry K} {path : String} {interval : ℕ}
    {fields : List String} {start step : K} {comps : List (Component σ R D K)}
    {porosity : σ × (Writer K × FileSystem K (Option K)) → K}
    {obs : List (Observation (σ × (Writer K × FileSystem K (Option K))) R D K)}
    {s s' : ModelState (σ × (Writer K × FileSystem K (Option K))) R D K}
    (hs : OutputSetup (fun _ w => worldView geo w) (geoSizes R D geo) path interval fields start s)
    (h : ModelHistory (withWriter (fun _ w => worldView geo w) comps) porosity s obs s')
    (hne : obs ≠ [])
    (htime : obs.map (·.time) = (List.range obs.length).map fun k => start + (k + 1 : ℕ) * step) :
    ∃ d, s'.comps.2.2 path = .dataset d ∧
      d.times.length = (obs.length + interval - 1) / interval ∧
      ∀ q o, obs[q * interval]? = some o → ∃ t, d.times[q]? = some t ∧
        t = ((obs.take (q * interval)).map (·.dt)).sum ∧
        o.time - t = start + step - ((obs.take (q * interval)).map fun o => o.dt - step).sum := by
  obtain ⟨d, hd, hlen, hrec, -⟩ := file_holds_quantities hs h hne
  refine ⟨d, hd, hlen, fun q o ho => ?_⟩
  obtain ⟨ht, -⟩ := hrec q o ho
  refine ⟨_, ht, rfl, ?_⟩
  obtain ⟨hlt, -⟩ := List.getElem?_eq_some_iff.mp ho
  have htm := congrArg (fun l => l[q * interval]?) htime
  simp only [List.getElem?_map, ho, Option.map_some, List.getElem?_range hlt, Option.some.injEq] at htm
  have hsum : ∀ l : List (Observation (σ × (Writer K × FileSystem K (Option K))) R D K),
      (l.map fun o => o.dt - step).sum = (l.map (·.dt)).sum - l.length * step := by
    intro l
    induction l with
    | nil => simp
    | cons a l ih =>
      simp only [List.map_cons, List.sum_cons, List.length_cons, ih]
      push_cast
      ring
  rw [hsum, htm, List.length_take, min_eq_left hlt.le]
  push_cast
  ring

/-- C150: in every record of the output of a run the shoreline of every row is there, and it is the
shoreline of the topography of the same record under the sea level of the same record. -/
theorem record_shorelines {geo : Geometry K} {path : String} {interval : ℕ} {fields : List String}
    {start : K} {env : Env R C K} {ps : List (Process K)} (hps : ShoreLast ps)
    {porosity : ProcState R C K × (Writer K × FileSystem K (Option K)) → K}
    {obs : List (Observation (ProcState R C K × (Writer K × FileSystem K (Option K))) R (C + 2) K)}
    {s s' : ModelState (ProcState R C K × (Writer K × FileSystem K (Option K))) R (C + 2) K}
    (hs : OutputSetup (fun _ w => worldView geo w) (geoSizes R (C + 2) geo) path interval fields start
      s)
    (h : ModelHistory (withWriter (fun _ w => worldView geo w) (ps.map (Process.component env)))
      porosity s obs s')
    (hne : obs ≠ [])
    (hf : fields = [] ∨ "topographic__elevation" ∈ fields) :
    ∃ d, s'.comps.2.2 path = .dataset d ∧
      ∀ q, q * interval < obs.length → ∀ r : Fin R, ∃ (z : Fin (C + 2) → K) (sea shore : K),
        RecordShore d q r.val z sea shore ∧
        shorelineRow env.kind env.xtol env.rtol (List.ofFn env.x) (List.ofFn z) sea = .ok shore := by
  obtain ⟨d, hd, -, hrec, -⟩ := file_holds_quantities hs h hne
  refine ⟨d, hd, fun q hq r => ?_⟩
  have ho := List.getElem?_eq_getElem hq
  obtain ⟨-, hn, hsea, -, hsh, -⟩ := hrec q _ ho
  obtain ⟨s1, -, hrun⟩ := observed_components h ho
  obtain ⟨a, ha, hrow⟩ := shore_of_components hps hrun
  refine ⟨fun c => getProfile obs[q * interval].world.topo r c, obs[q * interval].world.seaLevel, a r,
    ⟨fun c => ?_, hsea, ?_⟩, hrow r⟩
  · have := hn "topographic__elevation" hf ⟨r.val + 1, by omega⟩ c
    rw [this]
    rfl
  · rw [hsh r, ha]
    rfl

/-- C150, what this means with linear interpolation: whoever reads a record in which a row begins
with land and has its first node below sea level at `i` finds the shoreline where the line between
the nodes `i - 1` and `i` of that record meets the sea level of that record, up to the tolerance of
the root finding. -/
theorem record_coast {geo : Geometry K} {path : String} {interval : ℕ} {fields : List String}
    {start : K} {env : Env R C K} {ps : List (Process K)} (hps : ShoreLast ps)
    (hkind : env.kind = linearKind) (hx : (List.ofFn env.x).Pairwise (· < ·)) (ht : 0 < env.xtol)
    (hr : 0 ≤ env.rtol)
    {porosity : ProcState R C K × (Writer K × FileSystem K (Option K)) → K}
    {obs : List (Observation (ProcState R C K × (Writer K × FileSystem K (Option K))) R (C + 2) K)}
    {s s' : ModelState (ProcState R C K × (Writer K × FileSystem K (Option K))) R (C + 2) K}
    (hs : OutputSetup (fun _ w => worldView geo w) (geoSizes R (C + 2) geo) path interval fields start
      s)
    (h : ModelHistory (withWriter (fun _ w => worldView geo w) (ps.map (Process.component env)))
      porosity s obs s')
    (hne : obs ≠ [])
    (hf : fields = [] ∨ "topographic__elevation" ∈ fields) :
    ∃ d, s'.comps.2.2 path = .dataset d ∧
      ∀ q, q * interval < obs.length → ∀ r : Fin R, ∀ (z : Fin (C + 2) → K) (sea shore : K),
        RecordShore d q r.val z sea shore → sea ≤ z 0 → ∀ i j : Fin (C + 2), j.val + 1 = i.val →
        z i < sea → (∀ k, k < i → sea ≤ z k) → env.x i - env.x j < env.xtol * 2 ^ 100 →
        env.x j ≤ shore ∧ shore ≤ env.x i ∧
        |shore - (env.x j + (z j - sea) / (z j - z i) * (env.x i - env.x j))| ≤
          env.xtol + env.rtol * |shore| := by
  obtain ⟨d, hd, hall⟩ := record_shorelines hps hs h hne hf
  refine ⟨d, hd, fun q hq r z sea shore hz h0 i j hij hwet hfirst hspace => ?_⟩
  obtain ⟨z', sea', shore', hz', hrow⟩ := hall q hq r
  have e1 : z' = z := by
    funext c
    exact Option.some.inj ((hz'.topo c).symm.trans (hz.topo c))
  have e2 : sea' = sea := Option.some.inj (hz'.sea.symm.trans hz.sea)
  have e3 : shore' = shore := Option.some.inj (hz'.shore.symm.trans hz.shore)
  subst e1 e2 e3
  have hi0 : i.val - 1 = j.val := by omega
  obtain ⟨v, g1, g2, g3, g4⟩ := shoreline_linear env.xtol env.rtol (List.ofFn env.x) (List.ofFn z')
    sea' hx (by simp) ht hr (z' 0) (by simp [List.ofFn_succ]) h0 i.val (by rw [List.length_ofFn]; exact i.isLt)
    (by rw [List.getElem_ofFn]; exact hwet)
    (fun k hk hki => by
      have := hfirst ⟨k, by rw [List.length_ofFn] at hk; exact hk⟩ hki
      rw [List.getElem_ofFn]; exact this) (by
      simp only [List.getElem_ofFn, hi0]; exact hspace)
  rw [hkind, g1] at hrow
  cases hrow
  simp only [List.getElem_ofFn, hi0] at g2 g3 g4
  exact ⟨g2, g3, g4⟩

/-! ## The layers -/

theorem components_layers {env : Env R C K} {ps : List (Process K)}
    (hps : "compaction" ∉ ps.map Process.name) {dt : K} {q q' : ProcState R C K}
    {w w' : World R (C + 2) K}
    (h : runComponents (ps.map (Process.component env)) dt (q, w) = .ok (q', w')) :
    w'.layers = w.layers ∧ w'.bedrock = w.bedrock := by
  induction ps generalizing q w with
  | nil => cases h; exact ⟨rfl, rfl⟩
  | cons p ps ih =>
    rw [List.map_cons, runComponents] at h
    cases h1 : p.component env dt (q, w) with
    | error e => rw [h1] at h; cases h
    | ok s =>
      obtain ⟨q1, w1⟩ := s
      rw [h1] at h
      simp only [List.map_cons, List.mem_cons, not_or] at hps
      have hf := component_frame h1
      obtain ⟨ha, hb⟩ := ih hps.2 h
      exact ⟨ha.trans (hf.layers (Ne.symm hps.1)), hb.trans hf.bedrock⟩

theorem history_consistent {σ : Type*} {D : ℕ} {comps : List (Component σ R D K)} {porosity : σ → K}
    {obs : List (Observation σ R D K)} {s s' : ModelState σ R D K}
    (h : ModelHistory comps porosity s obs s') (hs : TopoConsistent s.world) :
    TopoConsistent s'.world := by
  induction h with
  | nil s => exact hs
  | step hc ha hr ih => exact ih (model_step_topo _ _ _ _ _ _ ha)

/-- C151, partial: in the output of a run without compaction, when a record has just been written,
all layers in the file together fill the space between the bedrock and the topography of that
record, if the interval is one of those of C47. Missing: other intervals (`layers_overfill`) and
compaction (`layers_compacted`), for which it is false. -/
theorem layers_fill_partial {geo : Geometry K} {path : String} {interval : ℕ} {fields : List String}
    {start : K} {env : Env R C K} {ps : List (Process K)}
    (hps : "compaction" ∉ ps.map Process.name)
    {porosity : ProcState R C K × (Writer K × FileSystem K (Option K)) → K}
    {obs : List (Observation (ProcState R C K × (Writer K × FileSystem K (Option K))) R (C + 2) K)}
    {o : Observation (ProcState R C K × (Writer K × FileSystem K (Option K))) R (C + 2) K}
    {s s' : ModelState (ProcState R C K × (Writer K × FileSystem K (Option K))) R (C + 2) K}
    (hs : OutputSetup (fun _ w => worldView geo w) (geoSizes R (C + 2) geo) path interval fields start
      s)
    (hcons : TopoConsistent s.world)
    (h : ModelHistory (withWriter (fun _ w => worldView geo w) (ps.map (Process.component env)))
      porosity s (obs ++ [o]) s')
    (hf : fields = [] ∨ ("topographic__elevation" ∈ fields ∧ "bedrock_surface__elevation" ∈ fields))
    (hw : interval ∣ obs.length) (hsafe : 10 ∣ interval ∨ 9 ≤ interval / 10 + interval % 10) :
    ∃ d, s'.comps.2.2 path = .dataset d ∧
      ∀ (r : Fin R) (c : Fin C), LayersFill (C + 2) d (obs.length / interval) r.val c.val := by
  have hkeep : ∀ c ∈ ps.map (Process.component env), Keeps c World.layers := by
    intro c hc dt p w p' w' hcw
    obtain ⟨p0, hp0, rfl⟩ := List.mem_map.mp hc
    exact (component_frame hcw).layers fun he => hps (he ▸ List.mem_map_of_mem hp0)
  obtain ⟨d, hd, -, hrec, -⟩ := file_holds_quantities hs h (by simp)
  obtain ⟨d', hd', hlay⟩ := file_layers_partial hs _ hkeep porosity obs o h hw hsafe
  rw [hd] at hd'
  cases hd'
  refine ⟨d, hd, fun r c => ?_⟩
  have hqi : obs.length / interval * interval = obs.length := Nat.div_mul_cancel hw
  have ho : (obs ++ [o])[obs.length / interval * interval]? = some o := by rw [hqi]; simp
  obtain ⟨-, hn, -⟩ := hrec _ _ ho
  obtain ⟨s1, hh, hrun⟩ := observed_components h ho
  obtain ⟨hl, hb⟩ := components_layers hps hrun
  obtain ⟨htopo, -⟩ := components_topo hrun
  have hs1 := history_consistent hh hcons
  set q : Fin (R + 2) := ⟨r.val + 1, by omega⟩ with hq
  set e : Fin (C + 2) := ⟨c.val + 1, by omega⟩ with he
  have h1 := hn "topographic__elevation" (hf.imp id And.left) q e
  have h2 := hn "bedrock_surface__elevation" (hf.imp id And.right) q e
  simp only [nodeQuantity, Option.map_some] at h1 h2
  set l := o.world.layers.dz (r, c) with hldef
  have hdz : l.length = o.world.layers.n := by
    obtain ⟨-, -, fs0, w0, p0, setTime, w, -, -, hempty, hinit⟩ := hs.fresh
    obtain ⟨b, hb⟩ := observed_archive hempty hinit _ porosity
      (withWriter_keeps (A := Option K) _ World.layers _ hkeep) (obs ++ [o]) h _ o ho
    exact (archive_thickness _ (freshEvents_names start w porosity _) hb (r, c)).2.1
  have hdim : d.layerDim = o.world.layers.n := hlay.count
  refine ⟨o.world.topo (q, e), o.world.bedrock (q, e), fun k => l.getD k 0, h1, h2, ?_, ?_⟩
  · intro k hk
    rw [hdim] at hk
    unfold layerValueAt
    rw [hlay.thickness k hk]
    simp only [worldView]
    rw [List.getElem?_map, List.getElem?_range hk, Option.map_some, Option.bind_some]
    have := cellList_get (C := C + 2) (fun c => (o.world.layers.dz c)[k]?) r c
    simp only [Nat.add_sub_cancel] at this ⊢
    rw [this, List.getD_eq_getElem?_getD, ← hldef, List.getElem?_eq_getElem (by omega)]
    rfl
  · have hsum : (List.range d.layerDim).map (fun k => l.getD k 0) = l := by
      refine List.ext_getElem (by simp [hdim, hdz]) fun k hk1 hk2 => ?_
      simp [hk2]
    rw [hsum, htopo _ (by simp [e, Fin.ext_iff]), hb]
    show s1.world.topo (q, e) = s1.world.bedrock (q, e) + _
    rw [hs1 r q c e rfl rfl, hldef, hl]
    rfl

/-! ## Concrete cases -/

/-- A new model of the concrete grid with an output writer. -/
def exRecordInit (interval : ℕ) (ps : List (Process ℚ)) :
    Except Err (ModelState (ProcState 1 1 ℚ × (Writer ℚ × FileSystem ℚ (Option ℚ))) 1 3 ℚ) :=
  match createAll exEnv ps (exProcState, exBeach) with
  | .error e => .error e
  | .ok (p, w) => modelInit 0 (fun t x => ({ x.1 with seaTime := t }, x.2))
      (p, (exWriter interval, fun _ => .absent)) w

/-- The same after `n` steps of 100 years. -/
def exRecordSteps (interval : ℕ) (ps : List (Process ℚ)) :
    ℕ → Except Err (ModelState (ProcState 1 1 ℚ × (Writer ℚ × FileSystem ℚ (Option ℚ))) 1 3 ℚ)
  | 0 => exRecordInit interval ps
  | n + 1 =>
    match exRecordSteps interval ps n with
    | .error e => .error e
    | .ok s => advanceComponents (withWriter (fun _ w => worldView exGeo w)
        (ps.map (Process.component exEnv))) (fun _ => 1/2) ((n + 1) * 100) 100 s

/-- What record `q` of the file says: the topography of the row, the bedrock of its stack, the sea
level, the shoreline and the thicknesses of all layers. -/
def exRecord (interval : ℕ) (ps : List (Process ℚ)) (n q : ℕ) :
    Option (List (Option ℚ) × Option ℚ × Option ℚ × Option ℚ × List (Option ℚ)) :=
  match exRecordSteps interval ps n with
  | .error _ => none
  | .ok s =>
    match s.comps.2.2 "out.nc" with
    | .dataset d => some
      ((List.range 3).map fun c => fieldValueAt d "node" "topographic__elevation" q (3 + c),
      fieldValueAt d "node" "bedrock_surface__elevation" q 4,
      fieldValueAt d "grid" "sea_level__elevation" q 0,
      fieldValueAt d "row" "x_of_shore" q 0,
      (List.range d.layerDim).map fun k => layerValueAt d "thickness" k 0)
    | _ => none

/-- These are runs in the sense of the theorems. -/
theorem exRecord_run (interval : ℕ) (hi : 0 < interval) (ps : List (Process ℚ))
    (hps : (exRecordSteps interval ps 1).toOption.isSome) : ∃ s s' o,
    OutputSetup (fun _ w => worldView exGeo w) (geoSizes 1 3 exGeo) "out.nc" interval [] (0 : ℚ) s ∧
    exRecordInit interval ps = .ok s ∧ exRecordSteps interval ps 1 = .ok s' ∧
    ModelHistory (withWriter (fun _ w => worldView exGeo w) (ps.map (Process.component exEnv)))
      (fun _ => 1/2) s [o] s' ∧ o.dt = 100 := by
  unfold exRecordSteps exRecordSteps at hps ⊢
  cases h0 : exRecordInit interval ps with
  | error e => rw [h0] at hps; cases hps
  | ok s =>
    rw [h0] at hps
    dsimp only at hps ⊢
    cases ha : advanceComponents (withWriter (fun _ w => worldView exGeo w)
        (ps.map (Process.component exEnv))) (fun _ => 1/2) (((0 : ℕ) + 1) * 100) 100 s with
    | error e => rw [ha] at hps; cases hps
    | ok s' =>
      obtain ⟨p, w, ev, w3, a, h1, -⟩ := advanceComponents_ok ha
      refine ⟨s, s', ⟨_, 100, p, w⟩, ⟨?_, fun _ w => exSee_sizes () w, fun _ _ => rfl, hi⟩, rfl, rfl,
        .step h1 ha (.nil s'), rfl⟩
      unfold exRecordInit at h0
      cases hc : createAll exEnv ps (exProcState, exBeach) with
      | error e => rw [hc] at h0; cases h0
      | ok q =>
        rw [hc] at h0
        obtain ⟨q, w0⟩ := q
        dsimp only at h0
        refine ⟨true, fun _ => .absent, fun _ => .absent, exWriter interval, q,
          fun t x => ({ x.1 with seaTime := t }, x.2), w0, exWriter_init interval, fun _ _ => rfl,
          (createAll_world _ hc).1, h0⟩

/-- C150: a sea that falls from 2/5 to 3/10 over a land that sinks. The shoreline is at 3/5 in the
first record and at 7/20 in the second, as the topography and the sea level of these records have
it. -/
example : exRecord 1 exProcs 2 0 = some ([some 1, some 0, some (-1)], some (-100), some (2/5),
      some (329853488333/549755813888), [some 100, some 0]) ∧
    exRecord 1 exProcs 2 1 = some ([some 1, some (-1), some (-1)], some (-101), some (3/10),
      some (192414534861/549755813888), [some 100, some 0]) ∧
    |(329853488333/549755813888 : ℚ) - 3/5| < 1/10^11 ∧
    |(192414534861/549755813888 : ℚ) - 7/20| < 1/10^11 := by
  refine ⟨by decide +kernel, by decide +kernel, ?_, ?_⟩ <;> rw [abs_lt] <;> norm_num

/-- The hypotheses of `record_shorelines`, `record_coast` and `layers_fill_partial` are met. -/
example : ShoreLast exProcs ∧ "compaction" ∉ exProcs.map Process.name ∧
    (exRecordSteps 1 exProcs 1).toOption.isSome ∧ (exRecordSteps 10 exProcs 1).toOption.isSome ∧
    exEnv.kind = linearKind ∧ (List.ofFn exEnv.x).Pairwise (· < ·) ∧ 0 < exEnv.xtol ∧
    0 ≤ exEnv.rtol := by
  refine ⟨shore_last_unless_listed _ _ _ rfl (by simp [Process.name]), ?_, by decide +kernel,
    by decide +kernel, rfl, by decide +kernel, by decide +kernel, by decide +kernel⟩
  decide +kernel

example : ∃ d s', exRecordSteps 10 exProcs 1 = .ok s' ∧ s'.comps.2.2 "out.nc" = .dataset d ∧
    LayersFill 3 d 0 0 0 := by
  obtain ⟨s, s', o, h1, h2, h3, h4, h5⟩ := exRecord_run 10 (by norm_num) exProcs (by decide +kernel)
  have hcons : TopoConsistent s.world := by
    have : (exRecordInit 10 exProcs).toOption.map
        (fun s => (s.world.topo (1, 1), s.world.bedrock (1, 1), s.world.layers.dz (0, 0))) =
        some (0, -100, [100]) := by decide +kernel
    rw [h2] at this
    simp only [Except.toOption, Option.map_some, Option.some.injEq, Prod.mk.injEq] at this
    intro r q c d hq hd
    have e1 : r = 0 := by omega
    have e2 : c = 0 := by omega
    subst e1 e2
    have e3 : q = 1 := Fin.ext hq
    have e4 : d = 1 := Fin.ext hd
    subst e3 e4
    rw [this.1, this.2.1, this.2.2]
    norm_num
  obtain ⟨d, hd, hall⟩ := layers_fill_partial (obs := []) (o := o) (by decide +kernel) h1 hcons h4
    (.inl rfl) (by simp) (by norm_num)
  exact ⟨d, s', h3, hd, hall 0 0⟩

/-! ## Where C151 fails -/

/-- What the file of the run of `exOutput` says about its stack in record `q`: topography, bedrock
and the sum of all layers. -/
def exFill (interval n q : ℕ) : Option (Option ℚ × Option ℚ × ℚ) :=
  match exOutput 0 interval n with
  | some (.dataset d) => some
      (fieldValueAt d "node" "topographic__elevation" q 4,
      fieldValueAt d "node" "bedrock_surface__elevation" q 4,
      ((List.range d.layerDim).map fun k => (layerValueAt d "thickness" k 0).getD 0).sum)
  | _ => none

/-- C151, negation: with output in every step, the 20th record has 138 m of sediment between bedrock
and topography and 154 m of layers, since eight of the layers of the 19th record are still
there. -/
theorem layers_overfill : exFill 1 19 18 = some (some 30, some (-106), 136) ∧
    exFill 1 20 19 = some (some 32, some (-106), 154) := by decide +kernel

/-- C151, negation: with compaction the layers have been compacted and the surface has not yet
followed. -/
theorem layers_compacted : exRecord 10 (.compaction :: exProcs) 1 0 =
    some ([some 1, some 0, some (-1)], some (-100), some (2/5),
      some (329853488333/549755813888), [some 50]) := by decide +kernel

/-- C45: three steps of 100, 30 and 30 years under a clock with steps of 100 years from 50: the clock
shows 150, 250 and 350, the labels are 0, 100 and 130. -/
example : (match modelInit (50 : ℚ) (fun _ x => x)
      (0, (exWriter 1, (fun _ => .absent : FileSystem ℚ (Option ℚ)))) exTilted with
    | .error _ => none
    | .ok s =>
      match runSteps (advanceComponents (withWriter exLook [exMove]) fun _ => 1/2)
        (Clock.init 50 none 100) s [none, some 30, some 30] with
      | (c, .ok s') =>
        match s'.comps.2.2 "out.nc" with
        | .dataset d => some (c.time, d.times)
        | _ => none
      | _ => none) = some (350, [0, 100, 130]) := by decide +kernel

end Verif.Props
