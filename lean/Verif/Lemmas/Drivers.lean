import Verif.Lemmas.Symmetry
import Verif.Lemmas.DriverRun
import Verif.Spec.Drivers

/-! Helper lemmas: both drivers side by side. -/

set_option autoImplicit false
set_option linter.unusedSectionVars false

namespace Verif

open Verif.Spec

variable {ι K : Type*} {R C : ℕ} [Field K] [LinearOrder K] [IsStrictOrderedRing K]

/-! ## Layers -/

/-- The names that both drivers record. -/
def recordedNames : List String := ["age", "water_depth", "t0", "percent_sand", "porosity"]

/-- Layers that agree, with what is needed to go on. -/
structure LayersBeside (l l' : EventLayers ι K) : Prop extends LayersAgree l l' where
  pos : 0 < l.n
  tracks : ∀ k, k ∈ l.tracking ↔ k ∈ recordedNames
  tracks' : ∀ k, k ∈ l'.tracking ↔ k ∈ recordedNames
  full : ∀ k ∈ recordedNames, ∀ s, (l.prop k s).length = l.n
  full' : ∀ k ∈ recordedNames, ∀ s, (l'.prop k s).length = l.n

theorem tail_append_of_pos {α : Type*} {a b : List α} (h : 0 < a.length) : (a ++ b).tail = a.tail ++ b := by
  cases a with
  | nil => simp at h
  | cons x a => rfl

theorem reduceColumn_tail {α : Type*} {a b : ℕ} (hab : a < b) (f : List α → α) {c c' : List α}
    (hlen : c'.length = c.length) (h : c'.tail = c.tail) :
    (reduceColumn a b f c').tail = (reduceColumn a b f c).tail := by
  obtain ⟨b, rfl⟩ : ∃ b', b = b' + 1 := ⟨b - 1, by omega⟩
  cases c with
  | nil =>
    cases c' with
    | nil => rfl
    | cons x t => simp at hlen
  | cons x t =>
    cases c' with
    | nil => simp at hlen
    | cons x' t' =>
      simp only [List.tail_cons] at h
      subst h
      cases a with
      | zero => simp [reduceColumn]
      | succ a => simp [reduceColumn]

theorem add_beside {l l' : EventLayers ι K} (hl : LayersBeside l l') {dz : ι → K}
    {kw kw' : EventLayers.Kwds ι K} (hn : ∀ p ∈ kw, p.1 ∈ recordedNames)
    (hn' : ∀ p ∈ kw', p.1 ∈ recordedNames)
    (hget : ∀ k, k ≠ "water_depth" → kw'.get? k = kw.get? k) :
    ∃ ev ev', l.add dz kw = .ok ev ∧ l'.add dz kw' = .ok ev' ∧ LayersBeside ev ev' := by
  have h0 : ¬ l.n = 0 := by have := hl.pos; omega
  have h0' : ¬ l'.n = 0 := by rw [hl.n]; exact h0
  have hc : (kw.all fun p => l.tracking.contains p.1) = true :=
    List.all_eq_true.2 fun p hp => List.contains_iff_mem.2 ((hl.tracks _).2 (hn p hp))
  have hc' : (kw'.all fun p => l'.tracking.contains p.1) = true :=
    List.all_eq_true.2 fun p hp => List.contains_iff_mem.2 ((hl.tracks' _).2 (hn' p hp))
  have ht : ∀ k ∈ recordedNames, l.tracking.contains k = true :=
    fun k hk => List.contains_iff_mem.2 ((hl.tracks k).2 hk)
  have ht' : ∀ k ∈ recordedNames, l'.tracking.contains k = true :=
    fun k hk => List.contains_iff_mem.2 ((hl.tracks' k).2 hk)
  unfold EventLayers.add
  dsimp only
  rw [if_neg h0, if_neg h0', if_pos hc, if_pos hc']
  refine ⟨_, _, rfl, rfl, ⟨⟨?_, ?_, ?_, ?_⟩, ?_, hl.tracks, hl.tracks', ?_, ?_⟩⟩
  · dsimp only; rw [hl.n]
  · dsimp only; rw [hl.dz]
  · funext s
    dsimp only
    rw [if_pos (ht _ (by simp [recordedNames])), if_pos (ht' _ (by simp [recordedNames])), hl.age,
      hget _ (by decide)]
  · intro k hk s
    have hk' : k ∈ recordedNames := by
      simp only [List.mem_cons, List.not_mem_nil, or_false, recordedNames] at hk ⊢
      tauto
    have hne : k ≠ "water_depth" := by
      rintro rfl
      simp at hk
    dsimp only
    rw [if_pos (ht _ hk'), if_pos (ht' _ hk'), hget _ hne,
      tail_append_of_pos (by rw [hl.full' k hk' s]; exact hl.pos),
      tail_append_of_pos (by rw [hl.full k hk' s]; exact hl.pos), hl.later k hk s]
  · dsimp only; omega
  · intro k hk s
    dsimp only
    rw [if_pos (ht _ hk), List.length_append, hl.full k hk s]
    rfl
  · intro k hk s
    dsimp only
    rw [if_pos (ht' _ hk), List.length_append, hl.full' k hk s]
    rfl

theorem archiveOld_beside {l l' : EventLayers ι K} (hl : LayersBeside l l') (a : ℕ) :
    Alike (fun st st' : Archive ι K => LayersBeside st.layers st'.layers ∧
        st'.archived = st.archived)
      (Archive.archiveOld ⟨l, a⟩) (Archive.archiveOld ⟨l', a⟩) := by
  have hred : ∀ t : List String, (∀ k, k ∈ t ↔ k ∈ recordedNames) →
      layerReducers (K := K) t = layerReducers recordedNames := by
    intro t ht
    funext k
    have h1 : (t.contains "percent_sand" = true) ↔
        (recordedNames.contains "percent_sand" = true) := by
      rw [List.contains_iff_mem, List.contains_iff_mem, ht]
    unfold layerReducers
    simp only [h1]
  have hall : ∀ t : List String, (∀ k, k ∈ t ↔ k ∈ recordedNames) →
      (t.all fun name => (layerReducers (K := K) t name).isSome) = true := by
    intro t ht
    rw [hred t ht]
    refine List.all_eq_true.2 fun k hk => ?_
    have := (ht k).1 hk
    simp only [recordedNames, List.mem_cons, List.not_mem_nil, or_false] at this
    rcases this with rfl | rfl | rfl | rfl | rfl <;> rfl
  have ht : ∀ k ∈ recordedNames, l.tracking.contains k = true :=
    fun k hk => List.contains_iff_mem.2 ((hl.tracks k).2 hk)
  have ht' : ∀ k ∈ recordedNames, l'.tracking.contains k = true :=
    fun k hk => List.contains_iff_mem.2 ((hl.tracks' k).2 hk)
  unfold Archive.archiveOld
  dsimp only
  rw [hl.n]
  by_cases hm : ((l.n : ℤ) - (a : ℤ)) % 20 = 0
  swap
  · rw [if_neg hm, if_neg hm]
    exact .ok ⟨hl, rfl⟩
  rw [if_pos hm, if_pos hm]
  unfold EventLayers.reduce
  rw [hl.n]
  by_cases hr : a < a + 10 ∧ a + 10 ≤ l.n
  swap
  · rw [if_pos hr, if_pos hr]
    exact .error _
  rw [if_neg (not_not.2 hr), if_neg (not_not.2 hr), if_pos (hall _ hl.tracks),
    if_pos (hall _ hl.tracks'), hred _ hl.tracks, hred _ hl.tracks']
  refine .ok ⟨⟨⟨rfl, ?_, ?_, ?_⟩, ?_, hl.tracks, hl.tracks', ?_, ?_⟩, rfl⟩
  · dsimp only; rw [hl.dz]
  · funext s
    dsimp only
    rw [if_pos (ht _ (by simp [recordedNames])), if_pos (ht' _ (by simp [recordedNames])), hl.age]
  · intro k hk s
    have hk' : k ∈ recordedNames := by
      simp only [List.mem_cons, List.not_mem_nil, or_false, recordedNames] at hk ⊢
      tauto
    dsimp only
    rw [if_pos (ht _ hk'), if_pos (ht' _ hk')]
    exact reduceColumn_tail hr.1 _ (by rw [hl.full k hk' s, hl.full' k hk' s]) (hl.later k hk s)
  · dsimp only; omega
  · intro k hk s
    dsimp only
    rw [if_pos (ht _ hk), reduceColumn_length _ _ _ _ hr.1 (by rw [hl.full k hk s]; exact hr.2),
      hl.full k hk s]
  · intro k hk s
    dsimp only
    rw [if_pos (ht' _ hk), reduceColumn_length _ _ _ _ hr.1 (by rw [hl.full' k hk s]; exact hr.2),
      hl.full' k hk s]

/-! ## Components -/

/-- Grids that agree, as components see them. -/
structure WorldBeside (shores : Prop) (w w' : World R C K) : Prop where
  rest : w' = { w with
    waterLoad := w'.waterLoad, waterIncr := w'.waterIncr, rowShore := w'.rowShore,
    rowShelf := w'.rowShelf, layers := w'.layers }
  rowShore : shores → w'.rowShore = w.rowShore
  rowShelf : shores → w'.rowShelf = w.rowShelf
  rows : (∃ f, w.rowShore = some f) ∧ (∃ f, w.rowShelf = some f) ∧
    (∃ f, w'.rowShore = some f) ∧ ∃ f, w'.rowShelf = some f
  noLoad : w.sedLoad = none
  increment : ∀ f, w.increment = some f → ∀ n, f n = 0
  sand : ∃ f, w.sand = some f
  layers : LayersBeside w.layers w'.layers

theorem calcDiffusionCoef_beside (expf : K → K) (dx : K) (x : Fin C → K) (shore : Fin R → K)
    {w w' : World R C K} (ht : w'.topo = w.topo) (hsl : w'.seaLevel = w.seaLevel)
    (s : Diffuser R C K) :
    calcDiffusionCoef expf dx x shore w' s = calcDiffusionCoef expf dx x shore w s := by
  have : ∀ (rs : List (Fin R)) (s : Diffuser R C K),
      diffusivityLoop expf dx x shore w' rs s = diffusivityLoop expf dx x shore w rs s := by
    intro rs
    induction rs with
    | nil => intro s; rfl
    | cons r rs ih =>
      intro s
      simp only [diffusivityLoop, ht, hsl]
      exact ih _
  unfold calcDiffusionCoef
  rw [this]

/-- A step of a component in both drivers. -/
theorem component_beside {env : Env R C K} {p : Process K} (hp : OnTheSurface p) (dt : K)
    {shores : Prop} {q : ProcState R C K} {w w' : World R (C + 2) K}
    (hw : WorldBeside shores w w') :
    Alike (fun s s' => s'.1 = s.1 ∧ WorldBeside (shores ∨ p.name = "shoreline") s.2 s'.2)
      (p.component env dt (q, w)) (p.component env dt (q, w')) := by
  obtain ⟨hr, h1, h2, h3, h4, h5, h6, h7⟩ := hw
  generalize w'.waterLoad = load at hr
  generalize w'.waterIncr = incr at hr
  generalize w'.rowShore = rs at hr h1 h3
  generalize w'.rowShelf = re at hr h2 h3
  generalize w'.layers = l' at hr h7
  subst hr
  cases p with
  | seaLevel curve start =>
    simp only [Process.component, seaComponent, seaStep]
    cases curve (q.seaTime + dt) with
    | error e => exact .error e
    | ok v =>
      refine .ok ⟨rfl, ⟨rfl, ?_, ?_, h3, h4, h5, h6, h7⟩⟩
      · rintro (h | h)
        · exact h1 h
        · exact absurd h (by simp [Process.name])
      · rintro (h | h)
        · exact h2 h
        · exact absurd h (by simp [Process.name])
  | subsidence curve => exact hp.elim
  | compaction => exact hp.elim
  | diffusion P =>
    simp only [Process.component, diffuserComponent, diffuserStep]
    cases overRows (fun r => shorelineRow env.kind env.xtol env.rtol (List.ofFn env.x)
        (rowList w.topo r) w.seaLevel) with
    | error e => exact .error e
    | ok shore =>
      dsimp only
      have hco := calcDiffusionCoef_beside (w := w)
        (w' := { w with
          waterLoad := load, waterIncr := incr, rowShore := rs, rowShelf := re, layers := l' })
        env.expf env.dx env.x shore rfl rfl q.diffuser
      rw [hco]
      have hreg : q.diffuser.Regular env.dx { w with
          waterLoad := load, waterIncr := incr, rowShore := rs, rowShelf := re, layers := l' } ↔
          q.diffuser.Regular env.dx w := Iff.rfl
      by_cases hd : q.diffuser.Regular env.dx w
      swap
      · rw [if_neg hd, if_neg fun h => hd (hreg.1 h)]
        exact .error _
      rw [if_pos hd, if_pos (hreg.2 hd)]
      generalize calcDiffusionCoef env.expf env.dx env.x shore w q.diffuser = d
      cases env.solve d.kd dt (setUpstream d.plainSlope env.x w.topo) with
      | error e => exact .error e
      | ok after =>
        refine .ok ⟨rfl, ⟨rfl, ?_, ?_, h3, h4, h5, h6, h7⟩⟩
        · rintro (h | h)
          · exact h1 h
          · exact absurd h (by simp [Process.name])
        · rintro (h | h)
          · exact h2 h
          · exact absurd h (by simp [Process.name])
  | fluvial P =>
    obtain ⟨sand, hsand⟩ := h6
    simp only [Process.component, fluvialComponent, fluvialStep, hsand]
    cases hinc : w.increment with
    | none => exact .error _
    | some inc =>
      dsimp only
      by_cases hR : R / 2 < R
      · rw [dif_pos hR, dif_pos hR]
        cases fluvialRow env.expf env.sqrtf P env.dx dt env.x (getProfile w.topo ⟨R / 2, hR⟩)
            (getProfile w.deposit ⟨R / 2, hR⟩) (getProfile inc ⟨R / 2, hR⟩) w.seaLevel
            (shorelineRow env.kind env.xtol env.rtol (List.ofFn env.x)
              (rowList w.topo ⟨R / 2, hR⟩) w.seaLevel) with
        | error e => exact .error e
        | ok v =>
          dsimp only
          by_cases hv : ∀ c, (v.1 c).toNum ≠ none
          · rw [if_pos hv, if_pos hv]
            refine .ok ⟨rfl, ⟨rfl, ?_, ?_, h3, h4, ?_, ⟨_, rfl⟩, h7⟩⟩
            · rintro (h | h)
              · exact h1 h
              · exact absurd h (by simp [Process.name])
            · rintro (h | h)
              · exact h2 h
              · exact absurd h (by simp [Process.name])
            · intro f hf
              exact h5 f (by rw [hinc]; exact hf)
          · rw [if_neg hv, if_neg hv]
            exact .error _
      · rw [dif_neg hR, dif_neg hR]
        exact .error _
  | flexure t => exact hp.elim
  | waterFlexure t => exact hp.elim
  | shoreline alpha =>
    obtain ⟨⟨a, ha⟩, ⟨b, hb⟩, ⟨a', ha'⟩, ⟨b', hb'⟩⟩ := h3
    simp only [Process.component, shorelineComponent, shorelineUpdate, ha, hb, ha', hb']
    cases overRows (fun r => shorelineFinderRow env.kind env.xtol env.rtol alpha true
        (List.ofFn env.x) (rowList w.topo r) (rowList w.deposit r) w.seaLevel) with
    | error e => exact .error e
    | ok res =>
      exact .ok ⟨rfl, ⟨rfl, fun _ => rfl, fun _ => rfl, ⟨⟨_, rfl⟩, ⟨_, rfl⟩, ⟨_, rfl⟩, ⟨_, rfl⟩⟩, h4,
        h5, h6, h7⟩⟩

theorem runComponents_beside {env : Env R C K} (dt : K) :
    ∀ (ps : List (Process K)), (∀ p ∈ ps, OnTheSurface p) → ∀ {shores : Prop}
      {q : ProcState R C K} {w w' : World R (C + 2) K}, WorldBeside shores w w' →
      Alike (fun s s' => s'.1 = s.1 ∧
          WorldBeside (shores ∨ "shoreline" ∈ ps.map Process.name) s.2 s'.2)
        (runComponents (ps.map (Process.component env)) dt (q, w))
        (runComponents (ps.map (Process.component env)) dt (q, w')) := by
  intro ps
  induction ps with
  | nil =>
    intro _ shores q w w' hw
    refine .ok ⟨rfl, ?_⟩
    simpa using hw
  | cons p ps ih =>
    intro hall shores q w w' hw
    have hc := component_beside (env := env) (q := q) (hall p List.mem_cons_self) dt hw
    simp only [List.map_cons, runComponents]
    generalize p.component env dt (q, w) = a at hc
    generalize p.component env dt (q, w') = b at hc
    cases hc with
    | error e => exact .error e
    | @ok s s' hs =>
      obtain ⟨q1, w1⟩ := s
      obtain ⟨q1', w1'⟩ := s'
      obtain ⟨e, hs⟩ := hs
      dsimp only at e hs
      subst e
      dsimp only
      have := ih (fun p hp => hall p (List.mem_cons_of_mem _ hp)) (q := q1') hs
      have hiff : (shores ∨ "shoreline" ∈ p.name :: ps.map Process.name) =
          ((shores ∨ p.name = "shoreline") ∨ "shoreline" ∈ ps.map Process.name) := by
        rw [List.mem_cons, ← or_assoc, eq_comm (a := "shoreline")]
      rw [hiff]
      exact this

/-! ## Steps -/

theorem setCells_setCells (f : NodeField R C K) (u v : Cell R C → K) :
    setCells (setCells f u) v = setCells f v := by
  funext n
  unfold setCells
  cases cellOf n <;> rfl

theorem layerProperties_recorded {w : World R C K} {time por : K} :
    ∀ p ∈ layerProperties time por w, p.1 ∈ recordedNames := by
  intro p hp
  unfold layerProperties at hp
  rw [List.mem_append] at hp
  rcases hp with hp | hp
  · simp only [List.mem_cons, List.not_mem_nil, or_false] at hp
    rcases hp with rfl | rfl | rfl | rfl <;> simp [recordedNames]
  · cases hs : w.sand with
    | none => rw [hs] at hp; simp at hp
    | some f =>
      rw [hs] at hp
      simp only [List.mem_singleton] at hp
      subst hp
      simp [recordedNames]

theorem layerProperties_get? {w w' : World R C K} (hd : w'.deposit = w.deposit)
    (hs : w'.sand = w.sand) (time por : K) (k : String) (hk : k ≠ "water_depth") :
    (layerProperties time por w').get? k = (layerProperties time por w).get? k := by
  unfold layerProperties EventLayers.Kwds.get?
  rw [hd, hs]
  have : ("water_depth" == k) = false := by
    rw [beq_eq_false_iff_ne]
    exact fun h => hk h.symm
  simp only [List.cons_append, List.find?_cons, this]

theorem rowLayers_fit {rl : RowLayers R K} (h : rl.shapes = some (.vector R, .vector R))
    (age sl : K) (a b : Fin R → Option K) :
    ∃ rl', rl.add age sl (List.ofFn a) (List.ofFn b) = .ok rl' ∧
      rl'.shapes = some (.vector R, .vector R) := by
  unfold RowLayers.add rowValues
  simp only [h, Option.getD_some, List.length_ofFn, if_true]
  exact ⟨_, rfl, rfl⟩

theorem updateFields_idle {w : World R C K} (h : w.sedLoad = none)
    (hi : ∀ f, w.increment = some f → ∀ n, f n = 0) :
    ∃ X, updateFields w = .ok { resetTopo w with waterIncr := X } := by
  have hub : updateBedrock w = w := by
    obtain ⟨topo, bedrock, deposit, increment, sand, sedLoad, waterLoad, waterIncr, seaLevel,
      seaIncr, rowShore, rowShelf, gridShore, gridShelf, layers⟩ := w
    cases increment with
    | none => rfl
    | some f =>
      have hf : f = fun _ => 0 := funext (hi f rfl)
      subst hf
      simp [updateBedrock]
  have hus : updateSedLoad w = .ok w := by
    unfold updateSedLoad
    rw [h]
  unfold updateFields
  rw [hus]
  dsimp only
  rw [hub]
  cases hw : (resetTopo w).waterIncr with
  | none =>
    refine ⟨(resetTopo w).waterIncr, rfl⟩
  | some f => exact ⟨_, rfl⟩

/-- Both drivers between two steps. -/
structure DriversBeside {σ : Type*} (shores : Prop) (m : ModelState σ R C K)
    (s : SeqState σ R C K) : Prop where
  comps : s.comps = m.comps
  archived : s.archived = m.archived
  world : WorldBeside shores (clearDeposit m.world) s.world
  shapes : s.rowLayers.shapes = some (.vector R, .vector R)

theorem DriversBeside.agree {σ : Type*} {shores : Prop} {m : ModelState σ R C K}
    {s : SeqState σ R C K} (h : DriversBeside shores m s) : DriversAgree shores m s := by
  have hr := h.world.rest
  refine ⟨h.comps, ⟨?_, ?_, ?_, ?_, ?_, h.world.rowShore, h.world.rowShelf,
    h.world.layers.toLayersAgree⟩⟩ <;> rw [hr] <;> rfl

theorem step_beside {env : Env R C K} {ps : List (Process K)} (hps : ∀ p ∈ ps, OnTheSurface p)
    (time dt : K) {shores : Prop} {m : ModelState (ProcState R C K) R (C + 2) K}
    {s : SeqState (ProcState R C K) R (C + 2) K} (h : DriversBeside shores m s) :
    Alike (DriversBeside (shores ∨ "shoreline" ∈ ps.map Process.name))
      (advanceComponents (ps.map (Process.component env)) (fun _ => 1/2) time dt m)
      (seqUpdate (ps.map (Process.component env)) dt time s) := by
  unfold advanceComponents seqUpdate
  have hc := runComponents_beside (env := env) dt ps hps (q := m.comps) h.world
  rw [h.comps]
  generalize runComponents (ps.map (Process.component env)) dt (m.comps, clearDeposit m.world) = a
    at hc
  generalize runComponents (ps.map (Process.component env)) dt (m.comps, s.world) = b at hc
  cases hc with
  | error e => exact .error e
  | @ok x y hxy =>
    obtain ⟨p, w⟩ := x
    obtain ⟨p', w'⟩ := y
    obtain ⟨e, hw⟩ := hxy
    dsimp only at e hw
    subst e
    dsimp only
    obtain ⟨hr, h1, h2, h3, h4, h5, h6, h7⟩ := hw
    generalize w'.waterLoad = load at hr
    generalize w'.waterIncr = incr at hr
    generalize w'.rowShore = rs at hr h1 h3
    generalize w'.rowShelf = re at hr h2 h3
    generalize w'.layers = l' at hr h7
    subst hr
    obtain ⟨⟨a, ha⟩, ⟨b, hb⟩, ⟨a', ha'⟩, ⟨b', hb'⟩⟩ := h3
    subst ha' hb'
    unfold seqAddLayer
    dsimp only
    obtain ⟨ev, ev', he, he', hev⟩ := add_beside h7 (dz := atCells w.deposit)
      (kw := layerProperties time (1/2) w)
      (kw' := layerProperties time (1/2)
        { w with
          topo := setCells w.topo fun c => atCells w.topo c + atCells w.deposit c
          waterLoad := load, waterIncr := incr, rowShore := some a', rowShelf := some b'
          layers := l' })
      layerProperties_recorded layerProperties_recorded
      (fun k hk => layerProperties_get? (w := w) (w' := _) (by rfl) (by rfl) time (1/2) k hk)
    rw [he, he']
    dsimp only
    obtain ⟨rl, hrl, hsh⟩ := rowLayers_fit (rl := s.rowLayers) h.shapes time w.seaLevel a' b'
    simp only [rowArgument, hrl]
    obtain ⟨X, hX⟩ := updateFields_idle (w := { w with layers := ev }) h4 h5
    rw [hX]
    have har := archiveOld_beside hev m.archived
    unfold resetTopo
    dsimp only
    rw [h.archived]
    generalize hA : Archive.archiveOld ⟨ev, m.archived⟩ = A at har
    generalize hB : Archive.archiveOld ⟨ev', m.archived⟩ = B at har
    cases har with
    | error e => exact .error e
    | @ok st st' hst =>
      obtain ⟨hst, hst'⟩ := hst
      refine .ok ⟨rfl, hst', ⟨?_, h1, h2, ⟨⟨a, ha⟩, ⟨b, hb⟩, ⟨a', rfl⟩, ⟨b', rfl⟩⟩, h4, h5, h6,
        hst⟩, hsh⟩
      have hth : ∀ c, st'.layers.thickness c = ev.thickness c := by
        intro c
        unfold EventLayers.thickness
        rw [archiveOld_sum hB, hev.dz]
      simp only [clearDeposit, setCells_setCells, hth]

end Verif
