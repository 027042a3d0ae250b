import Mathlib.Logic.Equiv.Basic
import Verif.Lemmas.Rows
import Verif.Props.Symmetry

/-!
# The rows of a model

C137: what happens in a row does not depend on where the row is, except for the middle row.
-/

set_option autoImplicit false
set_option linter.unusedSectionVars false

namespace Verif.Props

open Verif Verif.Spec

variable {K : Type*} {R R' C : ℕ} [Field K] [LinearOrder K] [IsStrictOrderedRing K]
  {f : Fin R' → Fin R}

theorem runSteps_carries {W W' : Type*} {r : W → W' → Prop} {advance : K → K → W → Except Err W}
    {advance' : K → K → W' → Except Err W'}
    (hstep : ∀ time dt w w', r w w' → Carries r (advance time dt w) (advance' time dt w')) :
    ∀ (dts : List (Option K)) (c : Clock K) {w : W} {w' : W'}, r w w' → ∀ c2 a,
      runSteps advance c w dts = (c2, .ok a) →
      ∃ b, runSteps advance' c w' dts = (c2, .ok b) ∧ r a b := by
  intro dts
  induction dts with
  | nil =>
    intro c w w' hw c2 a ha
    simp only [runSteps, Prod.mk.injEq, Except.ok.injEq] at ha ⊢
    obtain ⟨rfl, rfl⟩ := ha
    exact ⟨w', ⟨rfl, rfl⟩, hw⟩
  | cons dt dts ih =>
    intro c w w' hw c2 a ha
    simp only [runSteps, runOneStep] at ha ⊢
    generalize c.advance = adv at ha ⊢
    obtain ⟨c1, res⟩ := adv
    cases res with
    | error e => simp at ha
    | ok u =>
      dsimp only at ha ⊢
      cases h1 : advance c1.time (effectiveStep c.step dt) w with
      | error e => rw [h1] at ha; simp at ha
      | ok v =>
        obtain ⟨v', h1', hv⟩ := hstep _ _ _ _ hw v h1
        rw [h1] at ha
        rw [h1']
        exact ih c1 hv c2 a ha

/-- C137. The rows of a grid may be reordered, left out or repeated, as long as the middle row, and
only it, stays in the middle: if the model can be created and run, the model of the chosen rows can
too, at the same times, and it is the chosen rows of the first in every respect — topography,
bedrock, every layer, shorelines, and all attributes of the processes. If the sediment load depends
on the sea level the first row must stay first as well, and with flexure the number of rows must
stay the same. -/
theorem rows_chosen {env : Env R C K} {env' : Env R' C K} {ps : List (Process K)}
    (hm : SameMiddle f) (hR : 0 < R') (he : EnvChosen f ps env env') (hf : RowsFree f ps)
    {porosity : ProcState R C K → K} {porosity' : ProcState R' C K → K}
    (hpor : ∀ p p', ProcChosen f p p' → porosity' p' = porosity p) {start : K}
    {s : ProcState R C K × World R (C + 2) K} {s' : ProcState R' C K × World R' (C + 2) K}
    (hs : StateChosen f s s') {m : ModelState (ProcState R C K) R (C + 2) K}
    (hmade : packageInit env ps start s = .ok m) :
    ∃ m', packageInit env' ps start s' = .ok m' ∧ ModelChosen f m m' ∧
      ∀ (c : Clock K) (dts : List (Option K)) c2 n,
        runSteps (stepOf env ps porosity) c m dts = (c2, .ok n) →
        ∃ n', runSteps (stepOf env' ps porosity') c m' dts = (c2, .ok n') ∧ ModelChosen f n n' := by
  obtain ⟨m', h1, h2, h3⟩ := packageInit_chosen he hf hs m hmade
  refine ⟨m', h1, h2, fun c dts c2 n hn => ?_⟩
  obtain ⟨n', hn', hnn, -⟩ := runSteps_carries (r := fun a b => ModelChosen f a b ∧
      ((∃ P, Process.diffusion P ∈ ps) → SteadyLoad f a.comps))
    (advance := stepOf env ps porosity) (advance' := stepOf env' ps porosity')
    (fun time dt w w' hw => advance_chosen hm hR he hf hpor hw) dts c ⟨h2, h3⟩ c2 n hn
  exact ⟨n', hn', hnn⟩

/-! ## Reordering -/

theorem optRel_symm {α β : Type*} {r : α → β → Prop} {r' : β → α → Prop} {a : Option α}
    {b : Option β} (h : Option.Rel r a b) (hr : ∀ x y, r x y → r' y x) : Option.Rel r' b a := by
  cases h with
  | some h => exact .some (hr _ _ h)
  | none => exact .none

theorem fieldChosen_symm {σ : Equiv.Perm (Fin R)} {a b : NodeField R C K}
    (h : FieldChosen σ a b) : FieldChosen σ.symm b a := fun r c => by
  rw [h, Equiv.apply_symm_apply]

theorem layersChosen_symm {σ : Equiv.Perm (Fin R)} {a b : EventLayers (Cell R C) K}
    (h : LayersChosen (chosenCell σ) a b) : LayersChosen (chosenCell σ.symm) b a where
  n := h.n.symm
  tracking := h.tracking.symm
  dz := fun s => by rw [h.dz]; simp [chosenCell]
  prop := fun k s => by rw [h.prop]; simp [chosenCell]

theorem worldChosen_symm {σ : Equiv.Perm (Fin R)} {a b : World R C K}
    (h : WorldChosen σ a b) : WorldChosen σ.symm b a where
  topo := fieldChosen_symm h.topo
  bedrock := fieldChosen_symm h.bedrock
  deposit := fieldChosen_symm h.deposit
  increment := optRel_symm h.increment fun _ _ => fieldChosen_symm
  sand := optRel_symm h.sand fun _ _ => fieldChosen_symm
  sedLoad := optRel_symm h.sedLoad fun _ _ => fieldChosen_symm
  waterLoad := optRel_symm h.waterLoad fun _ _ => fieldChosen_symm
  waterIncr := optRel_symm h.waterIncr fun _ _ => fieldChosen_symm
  seaLevel := h.seaLevel.symm
  seaIncr := h.seaIncr.symm
  rowShore := optRel_symm h.rowShore fun _ _ h r => by rw [h, Equiv.apply_symm_apply]
  rowShelf := optRel_symm h.rowShelf fun _ _ h r => by rw [h, Equiv.apply_symm_apply]
  gridShore := h.gridShore.symm
  gridShelf := h.gridShelf.symm
  layers := layersChosen_symm h.layers

theorem poolChosen_symm {σ : Equiv.Perm (Fin R)} {a b : FlexPool R C K}
    (h : PoolChosen σ a b) : PoolChosen σ.symm b a :=
  ⟨h.isoTime.symm, fun r c => by rw [h.pool, Equiv.apply_symm_apply]⟩

theorem procChosen_symm {σ : Equiv.Perm (Fin R)} {a b : ProcState R C K}
    (h : ProcChosen σ a b) : ProcChosen σ.symm b a where
  seaTime := h.seaTime.symm
  rate := h.rate.symm
  diffuser := ⟨h.diffuser.plainSlope.symm, h.diffuser.waveBase.symm,
    h.diffuser.shorefaceHeight.symm, h.diffuser.alpha.symm, h.diffuser.shelfSlope.symm,
    h.diffuser.load0.symm, h.diffuser.loadSl.symm, h.diffuser.basinWidth.symm,
    h.diffuser.load.symm, h.diffuser.ksh.symm, h.diffuser.seaLevel0.symm, h.diffuser.time.symm,
    fieldChosen_symm h.diffuser.kd, h.diffuser.gridLoad.symm⟩
  sed := poolChosen_symm h.sed
  lastLoad := fun r c => by rw [h.lastLoad, Equiv.apply_symm_apply]
  water := poolChosen_symm h.water
  pressure := fieldChosen_symm h.pressure
  litho := fieldChosen_symm h.litho

theorem sameMiddle_symm {σ : Equiv.Perm (Fin R)} (h : SameMiddle σ) : SameMiddle σ.symm := by
  intro r
  have := h (σ.symm r)
  rw [Equiv.apply_symm_apply] at this
  exact this.symm

theorem sameFirst_symm {σ : Equiv.Perm (Fin R)} (h : SameFirst σ) : SameFirst σ.symm := by
  intro r
  have := h (σ.symm r)
  rw [Equiv.apply_symm_apply] at this
  exact this.symm

/-- C137, reordering. A model whose rows are in another order — the middle row in its place — can be
created if and only if the model can, and a history of steps succeeds in both or in neither; the
results are the same rows in the other order. -/
theorem rows_reordered {σ : Equiv.Perm (Fin R)} {env : Env R C K} {ps : List (Process K)}
    (hm : SameMiddle σ) (hR : 0 < R) (he : EnvChosen σ ps env env)
    (he' : EnvChosen σ.symm ps env env)
    (hload : ∀ P, Process.diffusion P ∈ ps → P.loadSeaLevel = 0 ∨ SameFirst σ)
    {porosity : ProcState R C K → K} (hpor : ∀ p p', ProcChosen σ p p' → porosity p' = porosity p)
    {start : K} {s s' : ProcState R C K × World R (C + 2) K} (hs : StateChosen σ s s') :
    ((∃ m, packageInit env ps start s = .ok m) ↔ ∃ m', packageInit env ps start s' = .ok m') ∧
    ∀ m m', packageInit env ps start s = .ok m → packageInit env ps start s' = .ok m' →
      ModelChosen σ m m' ∧
      ∀ (c : Clock K) (dts : List (Option K)) c2,
        ((∃ n, runSteps (stepOf env ps porosity) c m dts = (c2, .ok n)) ↔
          ∃ n', runSteps (stepOf env ps porosity) c m' dts = (c2, .ok n')) ∧
        ∀ n n', runSteps (stepOf env ps porosity) c m dts = (c2, .ok n) →
          runSteps (stepOf env ps porosity) c m' dts = (c2, .ok n') → ModelChosen σ n n' := by
  have hf : RowsFree σ ps := ⟨hload, fun _ _ => rfl⟩
  have hf' : RowsFree σ.symm ps := ⟨fun P hP => (hload P hP).imp id sameFirst_symm, fun _ _ => rfl⟩
  have hs' : StateChosen σ.symm s' s := ⟨procChosen_symm hs.1, worldChosen_symm hs.2⟩
  have hpor' : ∀ p p', ProcChosen σ.symm p p' → porosity p' = porosity p := fun p p' h =>
    (hpor p' p (by have := procChosen_symm h; rwa [Equiv.symm_symm] at this)).symm
  refine ⟨⟨fun ⟨m, h⟩ => ?_, fun ⟨m', h⟩ => ?_⟩, fun m m' h h' => ?_⟩
  · obtain ⟨m', h1, -⟩ := rows_chosen hm hR he hf hpor hs h
    exact ⟨m', h1⟩
  · obtain ⟨m, h1, -⟩ := rows_chosen (sameMiddle_symm hm) hR he' hf' hpor' hs' h
    exact ⟨m, h1⟩
  · obtain ⟨a, h1, h2, h3⟩ := rows_chosen hm hR he hf hpor hs h
    obtain ⟨b, h4, h5, h6⟩ := rows_chosen (sameMiddle_symm hm) hR he' hf' hpor' hs' h'
    rw [h'] at h1
    rw [h] at h4
    cases h1
    cases h4
    refine ⟨h2, fun c dts c2 => ⟨⟨fun ⟨n, hn⟩ => ?_, fun ⟨n', hn'⟩ => ?_⟩, fun n n' hn hn' => ?_⟩⟩
    · obtain ⟨n', hn', -⟩ := h3 c dts c2 n hn
      exact ⟨n', hn'⟩
    · obtain ⟨n, hn, -⟩ := h6 c dts c2 n' hn'
      exact ⟨n, hn⟩
    · obtain ⟨b, hb, hnb⟩ := h3 c dts c2 n hn
      rw [hn'] at hb
      simp only [Prod.mk.injEq, Except.ok.injEq, true_and] at hb
      subst hb
      exact hnb

/-- Two rows of a grid that look the same. -/
structure RowsAlike (i j : Fin R) (w : World R C K) : Prop where
  topo : ∀ c, getProfile w.topo i c = getProfile w.topo j c
  bedrock : ∀ c, getProfile w.bedrock i c = getProfile w.bedrock j c
  thickness : ∀ c, w.layers.dz (i, c) = w.layers.dz (j, c)
  layers : ∀ k c, w.layers.prop k (i, c) = w.layers.prop k (j, c)
  shore : ∀ v, w.rowShore = some v → v i = v j
  shelf : ∀ v, w.rowShelf = some v → v i = v j

theorem rowsAlike_of_chosen {i j : Fin R} {w : World R C K}
    (h : WorldChosen (Equiv.swap i j) w w) : RowsAlike i j w where
  topo := fun c => by rw [h.topo i c, Equiv.swap_apply_left]
  bedrock := fun c => by rw [h.bedrock i c, Equiv.swap_apply_left]
  thickness := fun c => by
    have := h.layers.dz (i, c)
    simpa [chosenCell] using this
  layers := fun k c => by
    have := h.layers.prop k (i, c)
    simpa [chosenCell] using this
  shore := fun v hv => by
    obtain ⟨u, hu, h⟩ := optRel_some h.rowShore hv
    rw [hv] at hu
    cases hu
    rw [h i, Equiv.swap_apply_left]
  shelf := fun v hv => by
    obtain ⟨u, hu, h⟩ := optRel_some h.rowShelf hv
    rw [hv] at hu
    cases hu
    rw [h i, Equiv.swap_apply_left]

/-- C137, rows that are alike. Two rows, neither of them the middle one, that are alike at the
beginning are alike whenever the model has taken its steps. -/
theorem alike_rows_stay_alike {i j : Fin R} (hi : i.val ≠ R / 2) (hj : j.val ≠ R / 2)
    {env : Env R C K} {ps : List (Process K)} (he : EnvChosen (Equiv.swap i j) ps env env)
    (hload : ∀ P, Process.diffusion P ∈ ps → P.loadSeaLevel = 0 ∨ (i.val ≠ 0 ∧ j.val ≠ 0))
    {porosity : ProcState R C K → K}
    (hpor : ∀ p p', ProcChosen (Equiv.swap i j) p p' → porosity p' = porosity p) {start : K}
    {s : ProcState R C K × World R (C + 2) K} (hs : StateChosen (Equiv.swap i j) s s)
    {m n : ModelState (ProcState R C K) R (C + 2) K} (hmade : packageInit env ps start s = .ok m)
    {c c2 : Clock K} {dts : List (Option K)}
    (hrun : runSteps (stepOf env ps porosity) c m dts = (c2, .ok n)) :
    RowsAlike i j n.world := by
  have hfix : ∀ v : ℕ, i.val ≠ v → j.val ≠ v → ∀ r : Fin R,
      r.val = v ↔ (Equiv.swap i j r).val = v := by
    intro v h1 h2 r
    by_cases hri : r = i
    · subst hri
      rw [Equiv.swap_apply_left]
      exact ⟨fun h => absurd h h1, fun h => absurd h h2⟩
    · by_cases hrj : r = j
      · subst hrj
        rw [Equiv.swap_apply_right]
        exact ⟨fun h => absurd h h2, fun h => absurd h h1⟩
      · rw [Equiv.swap_apply_of_ne_of_ne hri hrj]
  obtain ⟨m', h1, -, h3⟩ := rows_chosen (f := Equiv.swap i j) (hfix _ hi hj) i.pos he
    ⟨fun P hP => (hload P hP).imp id fun h => hfix 0 h.1 h.2, fun _ _ => rfl⟩ hpor hs hmade
  rw [hmade] at h1
  cases h1
  obtain ⟨n', h4, h5⟩ := h3 c dts c2 n hrun
  rw [hrun] at h4
  simp only [Prod.mk.injEq, Except.ok.injEq, true_and] at h4
  subst h4
  exact rowsAlike_of_chosen h5.world

/-! ## The middle row alone -/

/-- The rows chosen from a field; 0 at the edges of the grid. -/
def chooseField (f : Fin R' → Fin R) (a : NodeField R C K) : NodeField R' C K :=
  setProfile (fun _ => 0) fun r => getProfile a (f r)

/-- The rows chosen from a grid. -/
def chooseWorld (f : Fin R' → Fin R) (w : World R C K) : World R' C K where
  topo := chooseField f w.topo
  bedrock := chooseField f w.bedrock
  deposit := chooseField f w.deposit
  increment := w.increment.map (chooseField f)
  sand := w.sand.map (chooseField f)
  sedLoad := w.sedLoad.map (chooseField f)
  waterLoad := w.waterLoad.map (chooseField f)
  waterIncr := w.waterIncr.map (chooseField f)
  seaLevel := w.seaLevel
  seaIncr := w.seaIncr
  rowShore := w.rowShore.map fun v r => v (f r)
  rowShelf := w.rowShelf.map fun v r => v (f r)
  gridShore := w.gridShore
  gridShelf := w.gridShelf
  layers :=
    { n := w.layers.n
      tracking := w.layers.tracking
      dz := fun c => w.layers.dz (chosenCell f c)
      prop := fun k c => w.layers.prop k (chosenCell f c) }

/-- The rows chosen from the attributes of the processes. -/
def chooseProc (f : Fin R' → Fin R) (p : ProcState R C K) : ProcState R' C K where
  seaTime := p.seaTime
  rate := p.rate
  diffuser :=
    { plainSlope := p.diffuser.plainSlope, waveBase := p.diffuser.waveBase
      shorefaceHeight := p.diffuser.shorefaceHeight, alpha := p.diffuser.alpha
      shelfSlope := p.diffuser.shelfSlope, load0 := p.diffuser.load0
      loadSl := p.diffuser.loadSl, basinWidth := p.diffuser.basinWidth, load := p.diffuser.load
      ksh := p.diffuser.ksh, seaLevel0 := p.diffuser.seaLevel0, time := p.diffuser.time
      kd := chooseField f p.diffuser.kd, gridLoad := p.diffuser.gridLoad }
  flex :=
    { sed := ⟨p.flex.sed.isoTime, fun r => p.flex.sed.pool (f r)⟩
      lastLoad := fun r => p.flex.lastLoad (f r)
      water := ⟨p.flex.water.isoTime, fun r => p.flex.water.pool (f r)⟩
      pressure := chooseField f p.flex.pressure
      litho := chooseField f p.flex.litho }

theorem chooseField_chosen (f : Fin R' → Fin R) (a : NodeField R C K) :
    FieldChosen f a (chooseField f a) := by
  intro r c
  unfold chooseField
  rw [getProfile_setProfile]

theorem optRel_map {α β : Type*} {r : α → β → Prop} {g : α → β} (h : ∀ x, r x (g x))
    (a : Option α) : Option.Rel r a (a.map g) := by
  cases a with
  | none => exact .none
  | some x => exact .some (h x)

theorem chooseWorld_chosen (f : Fin R' → Fin R) (w : World R C K) :
    WorldChosen f w (chooseWorld f w) where
  topo := chooseField_chosen f _
  bedrock := chooseField_chosen f _
  deposit := chooseField_chosen f _
  increment := optRel_map (chooseField_chosen f) _
  sand := optRel_map (chooseField_chosen f) _
  sedLoad := optRel_map (chooseField_chosen f) _
  waterLoad := optRel_map (chooseField_chosen f) _
  waterIncr := optRel_map (chooseField_chosen f) _
  seaLevel := rfl
  seaIncr := rfl
  rowShore := optRel_map (fun _ _ => rfl) _
  rowShelf := optRel_map (fun _ _ => rfl) _
  gridShore := rfl
  gridShelf := rfl
  layers := ⟨rfl, rfl, fun _ => rfl, fun _ _ => rfl⟩

theorem chooseProc_chosen (f : Fin R' → Fin R) (p : ProcState R C K) :
    ProcChosen f p (chooseProc f p) where
  seaTime := rfl
  rate := rfl
  diffuser := ⟨rfl, rfl, rfl, rfl, rfl, rfl, rfl, rfl, rfl, rfl, rfl, rfl, chooseField_chosen f _,
    rfl⟩
  sed := ⟨rfl, fun _ _ => rfl⟩
  lastLoad := fun _ _ => rfl
  water := ⟨rfl, fun _ _ => rfl⟩
  pressure := chooseField_chosen f _
  litho := chooseField_chosen f _

/-- The middle row of a grid, as a choice of one row. -/
def middleRow (hR : 0 < R) : Fin 1 → Fin R := fun _ => ⟨R / 2, Nat.div_lt_self hR (by norm_num)⟩

/-- C137, one row. Without diffusion and flexure the middle row of a model is what a model of that
row alone computes: topography, bedrock, layers and shorelines of the middle row are those of the
model with one row. The other rows make no difference to it. -/
theorem middle_row_alone (hR : 0 < R) {env : Env R C K} {env1 : Env 1 C K} {ps : List (Process K)}
    (hps : ∀ p ∈ ps, (∀ P, p ≠ .diffusion P) ∧ (∀ t, p ≠ .flexure t) ∧ ∀ t, p ≠ .waterFlexure t)
    (he : EnvChosen (middleRow hR) ps env env1) (porosity : K) {start : K}
    {s : ProcState R C K × World R (C + 2) K} {m n : ModelState (ProcState R C K) R (C + 2) K}
    (hmade : packageInit env ps start s = .ok m) {c c2 : Clock K} {dts : List (Option K)}
    (hrun : runSteps (stepOf env ps fun _ => porosity) c m dts = (c2, .ok n)) :
    ∃ m1 n1, packageInit env1 ps start (chooseProc (middleRow hR) s.1,
        chooseWorld (middleRow hR) s.2) = .ok m1 ∧
      runSteps (stepOf env1 ps fun _ => porosity) c m1 dts = (c2, .ok n1) ∧
      WorldChosen (middleRow hR) n.world n1.world := by
  have hm : SameMiddle (middleRow hR) := by
    intro r
    simp [middleRow]
  have hf : RowsFree (middleRow hR) ps :=
    ⟨fun P hP => absurd rfl ((hps _ hP).1 P), fun t ht => by
      rcases ht with ht | ht
      · exact absurd rfl ((hps _ ht).2.1 t)
      · exact absurd rfl ((hps _ ht).2.2 t)⟩
  obtain ⟨m1, h1, -, h2⟩ := rows_chosen (porosity := fun _ => porosity)
    (porosity' := fun _ => porosity) hm Nat.one_pos he hf (fun _ _ _ => rfl)
    (s := s) (s' := (chooseProc (middleRow hR) s.1, chooseWorld (middleRow hR) s.2))
    ⟨chooseProc_chosen _ _, chooseWorld_chosen _ _⟩ hmade
  obtain ⟨n1, h3, h4⟩ := h2 c dts c2 n hrun
  exact ⟨m1, n1, h1, h3, h4.world⟩

/-- The package's own response to water treats every row alike. -/
theorem flexureDueToWater_rows (expf cosf : K → K) (flex : (Fin C → K) → Fin C → K)
    (rhoWater gravity dx alpha gammaMantle xEnd : K) (x : Fin C → K) (d : Profile R C K) (s : K)
    (r : Fin R') (c : Fin C) :
    flexureDueToWater expf cosf flex rhoWater gravity dx alpha gammaMantle xEnd x
        (fun r => d (f r)) s r c =
      flexureDueToWater expf cosf flex rhoWater gravity dx alpha gammaMantle xEnd x d s (f r) c :=
  rfl

/-! ### Concrete cases -/

/-- The outer world of a model of `R` rows like that of `exEnv`. -/
def exEnvRows (R : ℕ) : Env R 1 ℚ where
  kind := linearKind
  xtol := 2/10^12
  rtol := 1/10^15
  expf := fun _ => 1/2
  sqrtf := fun _ => 4
  solve := fun _ _ z => .ok z
  flex := fun load c => load c / 1000000
  flexWater := fun load _ r c => load r c / 1000000
  compact := fun _ l => .ok { l with dz := fun c => (l.dz c).map (· / 2) }
  gravity := 10
  dx := 1
  x := fun c => c.val

/-- Three rows that descend into the sea; `z r` is how high row `r` lies. -/
def exThreeRows (z : Fin 5 → ℚ) : World 3 3 ℚ where
  topo := fun n => z n.1 + 1 - 20 * (n.2.val : ℚ)
  bedrock := fun n => z n.1 - 99 - 20 * (n.2.val : ℚ)
  deposit := fun _ => 0
  increment := some fun _ => 0
  sand := none
  sedLoad := some fun _ => 0
  waterLoad := none
  waterIncr := none
  seaLevel := 0
  seaIncr := none
  rowShore := some fun _ => none
  rowShelf := some fun _ => none
  gridShore := none
  gridShelf := none
  layers := EventLayers.empty

/-- Attributes before the constructors. -/
def exThreeState : ProcState 3 1 ℚ where
  seaTime := 0
  rate := fun _ => 0
  diffuser := ⟨0, 0, 0, 0, 0, 0, 0, 0, 0, 0, 0, 0, fun _ => 0, 0⟩
  flex := ⟨⟨none, fun _ _ => 0⟩, fun _ _ => 0, ⟨none, fun _ _ => 0⟩, fun _ => 0, fun _ => 0⟩

/-- Subsidence, a falling sea, sand and shorelines. -/
def exRowProcs : List (Process ℚ) :=
  [.seaLevel (fun t => .ok (1/2 - t / 1000)) 0, .subsidence fun _ => .ok (-1/100),
    .fluvial exFluvial, .shoreline 1]

/-- Two steps. -/
def exThreeRun (w : World 3 3 ℚ) : Except Err (ModelState (ProcState 3 1 ℚ) 3 3 ℚ) :=
  match packageInit (exEnvRows 3) exRowProcs 0 (exThreeState, w) with
  | .error e => .error e
  | .ok m =>
    (runSteps (stepOf (exEnvRows 3) exRowProcs fun _ => 1/2) (Clock.init 0 none 100) m
      [none, none]).2

/-- What is shown of a run: topography and layers of the cell of every row. -/
def exThreeView (m : ModelState (ProcState 3 1 ℚ) 3 3 ℚ) : List (ℚ × List ℚ × List ℚ) :=
  List.ofFn fun r : Fin 3 => (getProfile m.world.topo r 1, m.world.layers.dz (r, ⟨0, by omega⟩),
    m.world.layers.prop "water_depth" (r, ⟨0, by omega⟩))

theorem exEnvRows_chosen {R R' : ℕ} (f : Fin R' → Fin R) (ps : List (Process ℚ)) :
    EnvChosen f ps (exEnvRows R) (exEnvRows R') where
  kind := rfl
  xtol := rfl
  rtol := rfl
  expf := rfl
  sqrtf := rfl
  flex := rfl
  gravity := rfl
  dx := rfl
  x := rfl
  solve := fun _ kd kd' dt z z' _ hz a ha => by
    cases ha
    exact ⟨_, rfl, hz⟩
  flexWater := fun _ _ _ _ _ => rfl
  compact := fun _ dt l l' hl a ha => by
    cases ha
    refine ⟨_, rfl, { hl with dz := fun s => ?_ }⟩
    dsimp only
    rw [hl.dz]

/-- First and last row exchanged. -/
def swapRows : Equiv.Perm (Fin 3) := Equiv.swap 0 2

theorem swapRows_middle : SameMiddle swapRows := by
  intro r
  revert r
  decide

theorem exThree_chosen (f : Fin 3 → Fin 3) {z z' : Fin 5 → ℚ}
    (h : ∀ r, z' (activeRow r) = z (activeRow (f r))) :
    StateChosen f (exThreeState, exThreeRows z) (exThreeState, exThreeRows z') where
  left := ⟨rfl, rfl, ⟨rfl, rfl, rfl, rfl, rfl, rfl, rfl, rfl, rfl, rfl, rfl, rfl,
    fun _ _ => rfl, rfl⟩, ⟨rfl, fun _ _ => rfl⟩, fun _ _ => rfl, ⟨rfl, fun _ _ => rfl⟩,
    fun _ _ => rfl, fun _ _ => rfl⟩
  right :=
    { topo := fun r c => by simp only [getProfile, exThreeRows, h]
      bedrock := fun r c => by simp only [getProfile, exThreeRows, h]
      deposit := fun _ _ => rfl
      increment := .some fun _ _ => rfl
      sand := .none
      sedLoad := .some fun _ _ => rfl
      waterLoad := .none
      waterIncr := .none
      seaLevel := rfl
      seaIncr := rfl
      rowShore := .some fun _ => rfl
      rowShelf := .some fun _ => rfl
      gridShore := rfl
      gridShelf := rfl
      layers := ⟨rfl, rfl, fun _ => rfl, fun _ _ => rfl⟩ }

theorem exRowProcs_free (f : Fin 3 → Fin 3) : RowsFree f exRowProcs where
  load := fun P h => by simp [exRowProcs] at h
  count := fun _ _ => rfl

/-- Both models can be run, so the theorems speak about them. -/
example : (exThreeRun (exThreeRows ![0, 1, 2, 4, 0])).toOption.map exThreeView =
    some [(-20, [100, 0, 0], [118, 92/5, 193/10]),
      (-2188/125, [100, 37/50, 189/250], [117, 87/5, 439/25]),
      (-17, [100, 0, 0], [115, 77/5, 163/10])] := by decide +kernel

example : (exThreeRun (exThreeRows ![0, 4, 2, 1, 0])).toOption.map exThreeView =
    some [(-17, [100, 0, 0], [115, 77/5, 163/10]),
      (-2188/125, [100, 37/50, 189/250], [117, 87/5, 439/25]),
      (-20, [100, 0, 0], [118, 92/5, 193/10])] := by decide +kernel

/-- `rows_chosen` and `rows_reordered` apply to the two. -/
example : SameMiddle swapRows ∧ EnvChosen swapRows exRowProcs (exEnvRows 3) (exEnvRows 3) ∧
    EnvChosen swapRows.symm exRowProcs (exEnvRows 3) (exEnvRows 3) ∧
    RowsFree swapRows exRowProcs ∧
    StateChosen swapRows (exThreeState, exThreeRows ![0, 1, 2, 4, 0])
      (exThreeState, exThreeRows ![0, 4, 2, 1, 0]) :=
  ⟨swapRows_middle, exEnvRows_chosen _ _, exEnvRows_chosen _ _, exRowProcs_free _,
    exThree_chosen _ (by decide)⟩

/-- `alike_rows_stay_alike` applies to the first and the last row if they are alike. -/
example : (0 : Fin 3).val ≠ 3 / 2 ∧ (2 : Fin 3).val ≠ 3 / 2 ∧
    StateChosen (Equiv.swap 0 2) (exThreeState, exThreeRows ![0, 1, 2, 1, 0])
      (exThreeState, exThreeRows ![0, 1, 2, 1, 0]) ∧
    (exThreeRun (exThreeRows ![0, 1, 2, 1, 0])).toOption.isSome :=
  ⟨by decide, by decide, exThree_chosen _ (by decide), by decide +kernel⟩

/-- `middle_row_alone` applies to all of them. -/
example : (∀ p ∈ exRowProcs,
      (∀ P, p ≠ .diffusion P) ∧ (∀ t, p ≠ .flexure t) ∧ ∀ t, p ≠ .waterFlexure t) ∧
    EnvChosen (middleRow (R := 3) (by decide)) exRowProcs (exEnvRows 3) (exEnvRows 1) := by
  refine ⟨fun p hp => ?_, exEnvRows_chosen _ _⟩
  simp only [exRowProcs, List.mem_cons, List.not_mem_nil, or_false] at hp
  rcases hp with rfl | rfl | rfl | rfl <;> exact ⟨by simp, by simp, by simp⟩

/-- The middle row is an exception: a model all of whose rows are alike — whichever rows are put in
place of others, nothing changes — whose rows are not alike after two steps. Mud from the water is
laid down in the middle row only. -/
theorem middle_row_differs : ∃ (env : Env 3 1 ℚ) (ps : List (Process ℚ))
    (s : ProcState 3 1 ℚ × World 3 3 ℚ) (m n : ModelState (ProcState 3 1 ℚ) 3 3 ℚ) (c2 : Clock ℚ),
    (∀ f : Fin 3 → Fin 3, StateChosen f s s ∧ EnvChosen f ps env env ∧ RowsFree f ps) ∧
    packageInit env ps 0 s = .ok m ∧
    runSteps (stepOf env ps fun _ => 1/2) (Clock.init 0 none 100) m [none, none] = (c2, .ok n) ∧
    getProfile n.world.topo 0 1 = -20 ∧ getProfile n.world.topo 1 1 = -9157/500 ∧
    n.world.layers.dz (0, 0) = [100, 0, 0] ∧ n.world.layers.dz (1, 0) = [100, 21/25, 423/500] := by
  have key : (exThreeRun (exThreeRows fun _ => 1)).toOption.map exThreeView =
      some [(-20, [100, 0, 0], [118, 92/5, 193/10]),
        (-9157/500, [100, 21/25, 423/500], [118, 92/5, 923/50]),
        (-20, [100, 0, 0], [118, 92/5, 193/10])] := by decide +kernel
  unfold exThreeRun at key
  cases hm : packageInit (exEnvRows 3) exRowProcs 0 (exThreeState, exThreeRows fun _ => 1) with
  | error e => rw [hm] at key; cases key
  | ok m =>
    rw [hm] at key
    dsimp only at key
    obtain ⟨c2, x, hx⟩ : ∃ c2 x, runSteps (stepOf (exEnvRows 3) exRowProcs fun _ => 1/2)
      (Clock.init 0 none 100) m [none, none] = (c2, x) := ⟨_, _, rfl⟩
    rw [hx] at key
    cases x with
    | error e => cases key
    | ok n =>
      simp only [Except.toOption, Option.map_some, exThreeView, List.ofFn_succ, List.ofFn_zero,
        Option.some.injEq, List.cons.injEq, Prod.mk.injEq, and_true] at key
      exact ⟨_, _, _, m, n, c2, fun f => ⟨exThree_chosen f fun _ => rfl, exEnvRows_chosen _ _,
        exRowProcs_free _⟩, hm, hx, key.1.1, key.2.1.1, key.1.2.1, key.2.1.2.1⟩

end Verif.Props
