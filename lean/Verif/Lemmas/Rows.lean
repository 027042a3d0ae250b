import Verif.Lemmas.Prelude
import Verif.Lemmas.Grid
import Verif.Lemmas.Shoreline
import Verif.Lemmas.Submarine
import Verif.Spec.Rows

/-! Helper lemmas: the steps of the model on a choice of the rows of a grid. -/

set_option autoImplicit false
set_option linter.unusedSectionVars false

namespace Verif

open Verif.Spec

variable {ι ι' K : Type*} {R R' C : ℕ} [Field K] [LinearOrder K] [IsStrictOrderedRing K]
  {f : Fin R' → Fin R}

theorem optRel_some {α β : Type*} {r : α → β → Prop} {a : Option α} {b : Option β} {x : α}
    (h : Option.Rel r a b) (ha : a = some x) : ∃ y, b = some y ∧ r x y := by
  cases h with
  | some h => cases ha; exact ⟨_, rfl, h⟩
  | none => cases ha

theorem optRel_none {α β : Type*} {r : α → β → Prop} {a : Option α} {b : Option β}
    (h : Option.Rel r a b) (ha : a = none) : b = none := by
  cases h with
  | some h => cases ha
  | none => rfl

theorem optRel_addZeros {a : Option (NodeField R C K)} {b : Option (NodeField R' C K)}
    (h : Option.Rel (FieldChosen f) a b) :
    Option.Rel (FieldChosen f) (addZeros a) (addZeros b) := by
  cases h with
  | some h => exact .some h
  | none => exact .some fun _ _ => rfl

theorem fieldChosen_set {a : NodeField R C K} {b : NodeField R' C K}
    {v : Profile R C K} {v' : Profile R' C K} (h : ∀ r c, v' r c = v (f r) c) :
    FieldChosen f (setProfile a v) (setProfile b v') := by
  intro r c
  rw [getProfile_setProfile, getProfile_setProfile, h]

theorem rowList_chosen {a : NodeField R C K} {b : NodeField R' C K} (h : FieldChosen f a b)
    (r : Fin R') : rowList b r = rowList a (f r) := by
  unfold rowList
  congr 1
  funext c
  exact h r c

theorem atCells_chosen {a : NodeField R C K} {b : NodeField R' C K} (h : FieldChosen f a b)
    (c : Cell R' C) : atCells b c = atCells a (chosenCell f c) := h c.1 _

theorem overRows_chosen {α : Type*} {g : Fin R → Except Err α} {g' : Fin R' → Except Err α}
    (h : ∀ r, g' r = g (f r)) {a : Fin R → α} (ha : overRows g = .ok a) :
    overRows g' = .ok fun r => a (f r) :=
  overRows_of_all fun r => by rw [h, overRows_ok ha]

/-! ## Layers -/

theorem add_chosen {g : ι' → ι} {l : EventLayers ι K} {l' : EventLayers ι' K}
    (hl : LayersChosen g l l') {dz : ι → K} {dz' : ι' → K} (hdz : ∀ s, dz' s = dz (g s))
    {kw : EventLayers.Kwds ι K} {kw' : EventLayers.Kwds ι' K}
    (hkw : kw' = kw.map fun p => (p.1, fun s => p.2 (g s))) :
    Carries (LayersChosen g) (l.add dz kw) (l'.add dz' kw') := by
  subst hkw
  have hnames : (kw.map fun p : String × (ι → K) => (p.1, fun s => p.2 (g s))).map (·.1) =
      kw.map (·.1) := by
    rw [List.map_map]; rfl
  have hget : ∀ k s, ((EventLayers.Kwds.get?
      (kw.map fun p : String × (ι → K) => (p.1, fun s => p.2 (g s))) k).map fun v => v s).getD 0 =
      ((kw.get? k).map fun v => v (g s)).getD 0 := by
    intro k s
    unfold EventLayers.Kwds.get?
    rw [List.find?_map]
    change (Option.map _ (Option.map _ (Option.map _ (kw.find? fun p => p.1 == k)))).getD 0 = _
    cases kw.find? fun p => p.1 == k <;> rfl
  intro a ha
  unfold EventLayers.add at ha ⊢
  dsimp only at ha ⊢
  rw [hnames, hl.n, hl.tracking]
  have hall : ∀ t : List String,
      ((kw.map fun p : String × (ι → K) => (p.1, fun s => p.2 (g s))).all
        fun p => t.contains p.1) = kw.all fun p => t.contains p.1 := by
    intro t; rw [List.all_map]; rfl
  rw [hall]
  by_cases hc : (kw.all fun p =>
      (if l.n = 0 then kw.map (·.1) else l.tracking).contains p.1) = true
  · rw [if_pos hc] at ha ⊢
    cases ha
    refine ⟨_, rfl, rfl, rfl, fun s => ?_, fun k s => ?_⟩
    · dsimp only; rw [hl.dz, hdz]
    · dsimp only; rw [hl.prop, hget]
  · rw [if_neg hc] at ha; cases ha

theorem archiveOld_chosen {g : ι' → ι} {l : EventLayers ι K} {l' : EventLayers ι' K}
    (hl : LayersChosen g l l') (n : ℕ) :
    Carries (fun (st : Archive ι K) (st' : Archive ι' K) => LayersChosen g st.layers st'.layers ∧
        st'.archived = st.archived) (Archive.archiveOld ⟨l, n⟩) (Archive.archiveOld ⟨l', n⟩) := by
  intro a ha
  unfold Archive.archiveOld at ha ⊢
  dsimp only at ha ⊢
  rw [hl.n]
  by_cases hm : ((l.n : ℤ) - (n : ℤ)) % 20 = 0
  · rw [if_pos hm] at ha ⊢
    unfold EventLayers.reduce at ha ⊢
    rw [hl.n, hl.tracking]
    by_cases hr : n < n + 10 ∧ n + 10 ≤ l.n
    · rw [if_neg (not_not.2 hr)] at ha ⊢
      by_cases ht : (l.tracking.all fun name =>
          (layerReducers (K := K) l.tracking name).isSome) = true
      · rw [if_pos ht] at ha ⊢
        cases ha
        refine ⟨_, rfl, ⟨rfl, rfl, fun s => ?_, fun k s => ?_⟩, rfl⟩
        · dsimp only; rw [hl.dz]
        · dsimp only; rw [hl.prop]
      · rw [if_neg ht] at ha; cases ha
    · rw [if_pos hr] at ha; cases ha
  · rw [if_neg hm] at ha ⊢
    cases ha
    exact ⟨_, rfl, hl, rfl⟩

/-! ## Components -/

/-- The load does not depend on the row. -/
def SteadyLoad (f : Fin R' → Fin R) (p : ProcState R C K) : Prop :=
  SameFirst f ∨ (p.diffuser.loadSl = 0 ∧ p.diffuser.load = p.diffuser.load0)

/-- What the components keep. -/
def KeptChosen (f : Fin R' → Fin R) (ps : List (Process K))
    (s : ProcState R C K × World R (C + 2) K) (s' : ProcState R' C K × World R' (C + 2) K) :
    Prop :=
  StateChosen f s s' ∧ ((∃ P, Process.diffusion P ∈ ps) → SteadyLoad f s.1)

theorem dynamicDeflection_chosen (hR : R' = R) {expf : K → K} {p : FlexPool R C K}
    {p' : FlexPool R' C K} (hp : PoolChosen f p p') {d : Profile R C K} {d' : Profile R' C K}
    (hd : ∀ r c, d' r c = d (f r) c) (dt : K) :
    (∀ r c, (dynamicDeflection expf p' d' dt).1 r c = (dynamicDeflection expf p d dt).1 (f r) c) ∧
    PoolChosen f (dynamicDeflection expf p d dt).2 (dynamicDeflection expf p' d' dt).2 := by
  have hc : (R' : K) = R := by rw [hR]
  unfold dynamicDeflection
  dsimp only
  refine ⟨fun r c => ?_, hp.isoTime, fun r c => ?_⟩
  · rw [hp.isoTime, hp.pool, hd, hc]
  · dsimp only; rw [hp.isoTime, hp.pool, hd, hc]

theorem subtractDeflection_chosen {w : World R C K} {w' : World R' C K} (hw : WorldChosen f w w')
    {d : Profile R C K} {d' : Profile R' C K} (hd : ∀ r c, d' r c = d (f r) c) :
    Carries (WorldChosen f) (subtractDeflection d w) (subtractDeflection d' w') := by
  intro a ha
  unfold subtractDeflection at ha ⊢
  cases hi : w.increment with
  | none => rw [hi] at ha; cases ha
  | some g =>
    obtain ⟨g', hg', hg⟩ := optRel_some hw.increment hi
    rw [hi] at ha
    rw [hg']
    cases ha
    exact ⟨_, rfl, { hw with
      increment := .some (fieldChosen_set fun r c => by rw [hg r c, hd r c]) }⟩

theorem coef_chosen (hm : SameMiddle f) (hR : 0 < R') {expf : K → K} {dx : K} {x : Fin C → K}
    {shore : Fin R → K} {shore' : Fin R' → K} (hshore : ∀ r, shore' r = shore (f r))
    {w : World R C K} {w' : World R' C K} (hw : WorldChosen f w w') {d : Diffuser R C K}
    {d' : Diffuser R' C K} (hd : DiffuserChosen f d d')
    (hsteady : SameFirst f ∨ (d.loadSl = 0 ∧ d.load = d.load0)) :
    DiffuserChosen f (calcDiffusionCoef expf dx x shore w d)
        (calcDiffusionCoef expf dx x shore' w' d') ∧
      (SameFirst f ∨ ((calcDiffusionCoef expf dx x shore w d).loadSl = 0 ∧
        (calcDiffusionCoef expf dx x shore w d).load =
          (calcDiffusionCoef expf dx x shore w d).load0)) := by
  obtain ⟨⟨a1, a2, a3, a4, a5, a6, a7, a8, a9, a10, a11⟩, aload, akd, -, -⟩ :=
    calcDiffusionCoef_spec expf dx x shore w d
  obtain ⟨⟨b1, b2, b3, b4, b5, b6, b7, b8, b9, b10, b11⟩, bload, bkd, -, -⟩ :=
    calcDiffusionCoef_spec expf dx x shore' w' d'
  have hRpos : 0 < R := (f ⟨0, hR⟩).pos
  have hnew : d'.newLoad w'.seaLevel = d.newLoad w.seaLevel := by
    unfold Diffuser.newLoad
    rw [hd.load0, hd.loadSl, hw.seaLevel]
  have hnew2 : d'.newLoad w.seaLevel = d.newLoad w.seaLevel := by rw [← hw.seaLevel, hnew, hw.seaLevel]
  refine ⟨⟨by rw [a1, b1, hd.plainSlope], by rw [a2, b2, hd.waveBase],
    by rw [a3, b3, hd.shorefaceHeight], by rw [a4, b4, hd.alpha], by rw [a5, b5, hd.shelfSlope],
    by rw [a6, b6, hd.load0], by rw [a7, b7, hd.loadSl], by rw [a8, b8, hd.basinWidth],
    by rw [(aload hRpos).1, (bload hR).1, hnew],
    by rw [(aload hRpos).2, (bload hR).2, hnew, hd.plainSlope], by rw [a9, b9, hd.seaLevel0],
    by rw [a10, b10, hd.time], fun r c => ?_, by rw [a11, b11, hd.gridLoad]⟩, ?_⟩
  · have hloadrow : (if r.val = 0 then d'.load else d'.newLoad w'.seaLevel) =
        (if (f r).val = 0 then d.load else d.newLoad w.seaLevel) := by
      rw [hnew, hd.load]
      rcases hsteady with h | ⟨h1, h2⟩
      · simp only [h r]
      · have : d.load = d.newLoad w.seaLevel := by
          unfold Diffuser.newLoad
          rw [h1, h2, mul_zero, add_zero, mul_one]
        simp only [this, ite_self]
    have hch : decide (r.val = R' / 2) = decide ((f r).val = R / 2) := by
      rw [decide_eq_decide]; exact hm r
    unfold getProfile
    rw [akd, bkd, hloadrow]
    unfold nodeDiffusivity
    dsimp only
    rw [hw.seaLevel, hw.topo r c, hch, hshore, hnew2, hd.plainSlope]
    unfold wetDiffusivity landDiffusivity
    dsimp only
    rw [hd.shorefaceHeight, hd.alpha, hd.shelfSlope, hd.waveBase, hd.basinWidth]
  · rcases hsteady with h | ⟨h1, h2⟩
    · exact Or.inl h
    · refine Or.inr ⟨by rw [a7, h1], ?_⟩
      rw [(aload hRpos).1, a6]
      unfold Diffuser.newLoad
      rw [h1, mul_zero, add_zero, mul_one]

theorem setUpstream_chosen {slope : K} {x : Fin (C + 2) → K} {z : NodeField R (C + 2) K}
    {z' : NodeField R' (C + 2) K} (hz : FieldChosen f z z') :
    FieldChosen f (setUpstream slope x z) (setUpstream slope x z') := by
  intro r c
  unfold setUpstream getProfile
  simp only [activeIndex_activeRow]
  by_cases hc : c = 0
  · rw [if_pos hc, if_pos hc]
    have := hz r 1
    unfold getProfile at this
    rw [this]
  · rw [if_neg hc, if_neg hc]
    exact hz r c

theorem regular_chosen {w : World R C K} {w' : World R' C K} (hw : WorldChosen f w w')
    {d : Diffuser R C K} {d' : Diffuser R' C K} (hd : DiffuserChosen f d d') {dx : K}
    (h : d.Regular dx w) : d'.Regular dx w' := by
  obtain ⟨h1, h2⟩ := h
  refine ⟨by rw [hd.plainSlope]; exact h1, fun r c => ?_⟩
  have := h2 (f r) c
  rw [hw.seaLevel, hw.topo r c, hd.shorefaceHeight, hd.alpha, hd.shelfSlope]
  exact this

theorem diffuser_chosen {env : Env R C K} {env' : Env R' C K} {all : List (Process K)}
    (hm : SameMiddle f) (hR : 0 < R') (he : EnvChosen f all env env') {P : DiffuserParams K}
    (hP : Process.diffusion P ∈ all) {dt : K} {s : ProcState R C K × World R (C + 2) K}
    {s' : ProcState R' C K × World R' (C + 2) K} (hs : KeptChosen f all s s') :
    Carries (KeptChosen f all) ((Process.diffusion P).component env dt s)
      ((Process.diffusion P).component env' dt s') := by
  obtain ⟨⟨hp, hw⟩, hst⟩ := hs
  have hst := hst ⟨P, hP⟩
  intro a ha
  simp only [Process.component, diffuserComponent, diffuserStep] at ha ⊢
  cases ho : overRows (fun r => shorelineRow env.kind env.xtol env.rtol (List.ofFn env.x)
      (rowList s.2.topo r) s.2.seaLevel) with
  | error e => rw [ho] at ha; cases ha
  | ok shore =>
    have ho' := overRows_chosen (f := f) (g' := fun r => shorelineRow env'.kind env'.xtol env'.rtol
      (List.ofFn env'.x) (rowList s'.2.topo r) s'.2.seaLevel) (fun r => by
        rw [he.kind, he.xtol, he.rtol, he.x, rowList_chosen hw.topo, hw.seaLevel]) ho
    rw [ho] at ha
    rw [ho']
    dsimp only at ha ⊢
    by_cases hreg : s.1.diffuser.Regular env.dx s.2
    swap
    · rw [if_neg hreg] at ha; cases ha
    have hreg' : s'.1.diffuser.Regular env'.dx s'.2 := by
      rw [he.dx]; exact regular_chosen hw hp.diffuser hreg
    rw [if_pos hreg] at ha
    rw [if_pos hreg', he.expf, he.dx, he.x]
    obtain ⟨hc, hst2⟩ := coef_chosen hm hR (expf := env.expf) (dx := env.dx) (x := env.x)
      (shore := shore) (shore' := fun r => shore (f r)) (fun _ => rfl) hw hp.diffuser hst
    generalize calcDiffusionCoef env.expf env.dx env.x shore s.2 s.1.diffuser = d at ha hc hst2
    generalize calcDiffusionCoef env.expf env.dx env.x (fun r => shore (f r)) s'.2
      s'.1.diffuser = d' at hc
    have hup := setUpstream_chosen (slope := d.plainSlope) (x := env.x) hw.topo
    have hup2 : FieldChosen f (setUpstream d.plainSlope env.x s.2.topo)
        (setUpstream d'.plainSlope env.x s'.2.topo) := by rw [hc.plainSlope]; exact hup
    cases hsolve : env.solve d.kd dt (setUpstream d.plainSlope env.x s.2.topo) with
    | error e => rw [hsolve] at ha; cases ha
    | ok after =>
      obtain ⟨after', hsolve', hafter⟩ := he.solve ⟨P, hP⟩ _ _ dt _ _ hc.kd hup2 after hsolve
      rw [hsolve] at ha
      rw [hsolve']
      cases ha
      refine ⟨_, rfl, ⟨⟨hp.seaTime, hp.rate, { hc with time := ?_ }, hp.sed, hp.lastLoad, hp.water,
        hp.pressure, hp.litho⟩, { hw with topo := hup2, deposit := fun r c => ?_ }⟩, fun _ => hst2⟩
      · dsimp only; rw [hc.time]
      · have h1 := hw.deposit r c
        have h2 := hafter r c
        have h3 := hup2 r c
        unfold getProfile at h1 h2 h3 ⊢
        dsimp only
        rw [h1, h2, h3]

theorem fluvial_chosen {env : Env R C K} {env' : Env R' C K} {all : List (Process K)}
    (hm : SameMiddle f) (hR : 0 < R') (he : EnvChosen f all env env') {P : FluvialParams K}
    {dt : K} {s : ProcState R C K × World R (C + 2) K}
    {s' : ProcState R' C K × World R' (C + 2) K} (hs : KeptChosen f all s s') :
    Carries (KeptChosen f all) ((Process.fluvial P).component env dt s)
      ((Process.fluvial P).component env' dt s') := by
  obtain ⟨⟨hp, hw⟩, hst⟩ := hs
  intro a ha
  simp only [Process.component, fluvialComponent, fluvialStep] at ha ⊢
  cases hsand : s.2.sand with
  | none => rw [hsand] at ha; cases ha
  | some sand =>
    cases hinc : s.2.increment with
    | none => rw [hsand, hinc] at ha; cases ha
    | some inc =>
      obtain ⟨sand', hsand', hsd⟩ := optRel_some hw.sand hsand
      obtain ⟨inc', hinc', hic⟩ := optRel_some hw.increment hinc
      rw [hsand, hinc] at ha
      rw [hsand', hinc']
      dsimp only at ha ⊢
      have hh' : R' / 2 < R' := Nat.div_lt_self hR (by norm_num)
      by_cases hh : R / 2 < R
      swap
      · rw [dif_neg hh] at ha; cases ha
      have hmid : f ⟨R' / 2, hh'⟩ = ⟨R / 2, hh⟩ := Fin.ext ((hm ⟨R' / 2, hh'⟩).1 rfl)
      have hrow : ∀ {a : NodeField R (C + 2) K} {b : NodeField R' (C + 2) K}, FieldChosen f a b →
          getProfile b ⟨R' / 2, hh'⟩ = getProfile a ⟨R / 2, hh⟩ := by
        intro a b h
        funext c
        rw [h, hmid]
      rw [dif_pos hh] at ha
      rw [dif_pos hh', he.expf, he.sqrtf, he.dx, he.x, he.kind, he.xtol, he.rtol, hrow hw.topo,
        hrow hw.deposit, hrow hic, hw.seaLevel, rowList_chosen hw.topo, hmid]
      cases hv : fluvialRow env.expf env.sqrtf P env.dx dt env.x
          (getProfile s.2.topo ⟨R / 2, hh⟩) (getProfile s.2.deposit ⟨R / 2, hh⟩)
          (getProfile inc ⟨R / 2, hh⟩) s.2.seaLevel
          (shorelineRow env.kind env.xtol env.rtol (List.ofFn env.x)
            (rowList s.2.topo ⟨R / 2, hh⟩) s.2.seaLevel) with
      | error e => rw [hv] at ha; cases ha
      | ok v =>
        rw [hv] at ha
        dsimp only at ha ⊢
        by_cases hfin : ∀ c, (v.1 c).toNum ≠ none
        swap
        · rw [if_neg hfin] at ha; cases ha
        rw [if_pos hfin] at ha ⊢
        cases ha
        have hset : ∀ {a : NodeField R (C + 2) K} {b : NodeField R' (C + 2) K}
            (u : Fin (C + 2) → K), FieldChosen f a b →
            FieldChosen f (setRow a ⟨R / 2, hh⟩ u) (setRow b ⟨R' / 2, hh'⟩ u) := by
          intro a b u h r c
          unfold setRow getProfile
          dsimp only
          by_cases hr : r.val = R' / 2
          · have h1 : activeRow r = activeRow (⟨R' / 2, hh'⟩ : Fin R') := by
              congr 1; exact Fin.ext hr
            have h2 : activeRow (f r) = activeRow (⟨R / 2, hh⟩ : Fin R) := by
              congr 1; exact Fin.ext ((hm r).1 hr)
            rw [if_pos h1, if_pos h2]
          · have h1 : activeRow r ≠ activeRow (⟨R' / 2, hh'⟩ : Fin R') := fun h =>
              hr (congrArg Fin.val (activeRow_injective h))
            have h2 : activeRow (f r) ≠ activeRow (⟨R / 2, hh⟩ : Fin R) := fun h =>
              hr ((hm r).2 (congrArg Fin.val (activeRow_injective h)))
            rw [if_neg h1, if_neg h2]
            exact h r c
        exact ⟨_, rfl, ⟨hp, { hw with
          sand := .some (hset _ hsd)
          deposit := hset _ hw.deposit
          increment := .some hic
          seaLevel := rfl }⟩, hst⟩

theorem shoreline_chosen {kind : InterpKind K} {xtol rtol alpha : K} {asserting : Bool}
    {x : Fin C → K} {w : World R C K} {w' : World R' C K} (hw : WorldChosen f w w') :
    Carries (WorldChosen f) (shorelineUpdate kind xtol rtol alpha asserting x w)
      (shorelineUpdate kind xtol rtol alpha asserting x w') := by
  intro a ha
  unfold shorelineUpdate at ha ⊢
  cases ho : overRows (fun r => shorelineFinderRow kind xtol rtol alpha asserting (List.ofFn x)
      (rowList w.topo r) (rowList w.deposit r) w.seaLevel) with
  | error e => rw [ho] at ha; cases ha
  | ok res =>
    have ho' := overRows_chosen (f := f) (g' := fun r => shorelineFinderRow kind xtol rtol alpha
      asserting (List.ofFn x) (rowList w'.topo r) (rowList w'.deposit r) w'.seaLevel) (fun r => by
        rw [rowList_chosen hw.topo, rowList_chosen hw.deposit, hw.seaLevel]) ho
    rw [ho] at ha
    rw [ho']
    cases h1 : w.rowShore with
    | none => rw [h1] at ha; cases ha
    | some b1 =>
      cases h2 : w.rowShelf with
      | none => rw [h1, h2] at ha; cases ha
      | some b2 =>
        obtain ⟨c1, hc1, -⟩ := optRel_some hw.rowShore h1
        obtain ⟨c2, hc2, -⟩ := optRel_some hw.rowShelf h2
        rw [h1, h2] at ha
        rw [hc1, hc2]
        cases ha
        exact ⟨_, rfl, { hw with rowShore := .some fun _ => rfl, rowShelf := .some fun _ => rfl }⟩

theorem component_chosen {env : Env R C K} {env' : Env R' C K} {all : List (Process K)}
    (hm : SameMiddle f) (hR : 0 < R') (he : EnvChosen f all env env') (hf : RowsFree f all)
    {p : Process K} (hp : p ∈ all) {dt : K} {s : ProcState R C K × World R (C + 2) K}
    {s' : ProcState R' C K × World R' (C + 2) K} (hs : KeptChosen f all s s') :
    Carries (KeptChosen f all) (p.component env dt s) (p.component env' dt s') := by
  cases p with
  | seaLevel curve start =>
    obtain ⟨⟨hp, hw⟩, hst⟩ := hs
    intro a ha
    simp only [Process.component, seaComponent, seaStep] at ha ⊢
    rw [hp.seaTime, hw.seaLevel]
    cases hc : curve (s.1.seaTime + dt) with
    | error e => rw [hc] at ha; cases ha
    | ok v =>
      rw [hc] at ha
      cases ha
      exact ⟨_, rfl, ⟨{ hp with seaTime := rfl }, { hw with seaLevel := rfl, seaIncr := rfl }⟩, hst⟩
  | subsidence curve =>
    obtain ⟨⟨hp, hw⟩, hst⟩ := hs
    intro a ha
    simp only [Process.component, subsidenceComponent, subsidenceStep] at ha ⊢
    cases hi : s.2.increment with
    | none => rw [hi] at ha; cases ha
    | some g =>
      obtain ⟨g', hg', hg⟩ := optRel_some hw.increment hi
      rw [hi] at ha
      rw [hg']
      cases ha
      refine ⟨_, rfl, ⟨hp, { hw with
        increment := .some (fieldChosen_set fun r c => ?_) }⟩, hst⟩
      rw [hg r c, hp.rate]
  | compaction =>
    obtain ⟨⟨hp', hw⟩, hst⟩ := hs
    intro a ha
    simp only [Process.component] at ha ⊢
    cases hc : env.compact dt s.2.layers with
    | error e => rw [hc] at ha; cases ha
    | ok ev =>
      obtain ⟨ev', hc', hev⟩ := he.compact hp dt _ _ hw.layers ev hc
      rw [hc] at ha
      rw [hc']
      cases ha
      exact ⟨_, rfl, ⟨hp', { hw with layers := hev }⟩, hst⟩
  | diffusion P => exact diffuser_chosen hm hR he hp hs
  | fluvial P => exact fluvial_chosen hm hR he hs
  | flexure t =>
    have hRR := hf.count t (Or.inl hp)
    obtain ⟨⟨hp, hw⟩, hst⟩ := hs
    intro a ha
    simp only [Process.component, flexComponent, sedFlexStep] at ha ⊢
    cases hl : s.2.sedLoad with
    | none => rw [hl] at ha; cases ha
    | some total =>
      obtain ⟨total', hl', htot⟩ := optRel_some hw.sedLoad hl
      rw [hl] at ha
      rw [hl', he.expf, he.flex, he.gravity, he.dx]
      dsimp only at ha ⊢
      simp only [getProfile_setProfile] at ha ⊢
      have hload : ∀ r c, (getProfile total' r c - s'.1.flex.lastLoad r c) * env.gravity * env.dx =
          (getProfile total (f r) c - s.1.flex.lastLoad (f r) c) * env.gravity * env.dx := by
        intro r c
        rw [htot r c, hp.lastLoad]
      have hflex : ∀ r c, env.flex (fun c => (getProfile total' r c - s'.1.flex.lastLoad r c) *
          env.gravity * env.dx) c = env.flex (fun c => (getProfile total (f r) c -
            s.1.flex.lastLoad (f r) c) * env.gravity * env.dx) c := by
        intro r c
        congr 1
        funext c
        exact hload r c
      have hd := dynamicDeflection_chosen hRR (expf := env.expf) hp.sed
        (d := fun r => env.flex fun c => (getProfile total r c - s.1.flex.lastLoad r c) *
          env.gravity * env.dx)
        (d' := fun r => env.flex fun c => (getProfile total' r c - s'.1.flex.lastLoad r c) *
          env.gravity * env.dx) hflex dt
      have hsub := subtractDeflection_chosen hw hd.1
      cases hx : subtractDeflection (dynamicDeflection env.expf s.1.flex.sed (fun r => env.flex
          fun c => (getProfile total r c - s.1.flex.lastLoad r c) * env.gravity * env.dx) dt).1
          s.2 with
      | error e => rw [hx] at ha; cases ha
      | ok w1 =>
        obtain ⟨w1', hx', hw1⟩ := hsub w1 hx
        rw [hx] at ha
        rw [hx']
        cases ha
        exact ⟨_, rfl, ⟨{ hp with
          sed := hd.2
          lastLoad := fun r c => htot r c
          pressure := fieldChosen_set (f := f) (v := fun r c =>
            (getProfile total r c - s.1.flex.lastLoad r c) * env.gravity * env.dx)
            (v' := fun r c => (getProfile total' r c - s'.1.flex.lastLoad r c) * env.gravity *
              env.dx) hload
          litho := fieldChosen_set (f := f) (v := fun r => env.flex fun c =>
            (getProfile total r c - s.1.flex.lastLoad r c) * env.gravity * env.dx)
            (v' := fun r => env.flex fun c => (getProfile total' r c - s'.1.flex.lastLoad r c) *
              env.gravity * env.dx) hflex }, hw1⟩, hst⟩
  | waterFlexure t =>
    have hRR := hf.count t (Or.inr hp)
    have hwat := he.flexWater ⟨t, hp⟩
    obtain ⟨⟨hp, hw⟩, hst⟩ := hs
    intro a ha
    simp only [Process.component, flexComponent, waterFlexStep] at ha ⊢
    rw [hw.seaIncr]
    cases hi : s.2.seaIncr with
    | none => rw [hi] at ha; cases ha
    | some dsl =>
      cases hx0 : s.2.waterIncr with
      | none => rw [hi, hx0] at ha; cases ha
      | some depth =>
        obtain ⟨depth', hx0', hdep⟩ := optRel_some hw.waterIncr hx0
        rw [hi, hx0] at ha
        rw [hx0', he.expf]
        dsimp only at ha ⊢
        have hprof : getProfile depth' = fun r => getProfile depth (f r) := by
          funext r c; exact hdep r c
        rw [hprof]
        have hd := dynamicDeflection_chosen hRR (expf := env.expf) hp.water
          (d := env.flexWater (getProfile depth) dsl)
          (d' := env'.flexWater (fun r => getProfile depth (f r)) dsl)
          (fun r c => hwat _ _ r c) dt
        have hsub := subtractDeflection_chosen hw hd.1
        cases hx : subtractDeflection (dynamicDeflection env.expf s.1.flex.water
            (env.flexWater (getProfile depth) dsl) dt).1 s.2 with
        | error e => rw [hx] at ha; cases ha
        | ok w1 =>
          obtain ⟨w1', hx', hw1⟩ := hsub w1 hx
          rw [hx] at ha
          rw [hx']
          cases ha
          exact ⟨_, rfl, ⟨{ hp with
            water := hd.2
            litho := fieldChosen_set (f := f) (v := fun _ _ => 0) (v' := fun _ _ => 0)
              fun _ _ => rfl }, hw1⟩, hst⟩
  | shoreline alpha =>
    obtain ⟨⟨hp, hw⟩, hst⟩ := hs
    intro a ha
    simp only [Process.component, shorelineComponent] at ha ⊢
    rw [he.kind, he.xtol, he.rtol, he.x]
    cases hx : shorelineUpdate env.kind env.xtol env.rtol alpha true env.x s.2 with
    | error e => rw [hx] at ha; cases ha
    | ok w1 =>
      obtain ⟨w1', hx', hw1⟩ := shoreline_chosen hw w1 hx
      rw [hx] at ha
      rw [hx']
      cases ha
      exact ⟨_, rfl, ⟨hp, hw1⟩, hst⟩

theorem runComponents_chosen {env : Env R C K} {env' : Env R' C K} {all : List (Process K)}
    (hm : SameMiddle f) (hR : 0 < R') (he : EnvChosen f all env env') (hf : RowsFree f all)
    {dt : K} : ∀ (ps : List (Process K)), (∀ p ∈ ps, p ∈ all) →
      ∀ {s : ProcState R C K × World R (C + 2) K} {s' : ProcState R' C K × World R' (C + 2) K},
      KeptChosen f all s s' →
      Carries (KeptChosen f all) (runComponents (ps.map (Process.component env)) dt s)
        (runComponents (ps.map (Process.component env')) dt s') := by
  intro ps
  induction ps with
  | nil =>
    intro _ s s' hs a ha
    simp only [List.map_nil, runComponents] at ha ⊢
    cases ha
    exact ⟨_, rfl, hs⟩
  | cons p ps ih =>
    intro hall s s' hs a ha
    simp only [List.map_cons, runComponents] at ha ⊢
    cases h1 : p.component env dt s with
    | error e => rw [h1] at ha; cases ha
    | ok t =>
      obtain ⟨t', h1', ht⟩ := component_chosen hm hR he hf (hall p List.mem_cons_self) hs t h1
      rw [h1] at ha
      rw [h1']
      exact ih (fun q hq => hall q (List.mem_cons_of_mem _ hq)) ht a ha

/-! ## A step of the driver -/

theorem layerProperties_chosen {w : World R C K} {w' : World R' C K} (hw : WorldChosen f w w')
    (time porosity : K) :
    layerProperties time porosity w' = (layerProperties time porosity w).map
      fun p => (p.1, fun s => p.2 (chosenCell f s)) := by
  have hd : (fun c => w'.seaLevel - atCells w'.topo c) =
      fun c => w.seaLevel - atCells w.topo (chosenCell f c) := by
    funext c; rw [hw.seaLevel, atCells_chosen hw.topo]
  have ht : (fun c => clip0 (atCells w'.deposit c)) =
      fun c => clip0 (atCells w.deposit (chosenCell f c)) := by
    funext c; rw [atCells_chosen hw.deposit]
  unfold layerProperties
  rw [hd, ht]
  cases hs : w.sand with
  | none => rw [optRel_none hw.sand hs]; rfl
  | some a =>
    obtain ⟨b, hb, hab⟩ := optRel_some hw.sand hs
    have : atCells b = fun c => atCells a (chosenCell f c) := by
      funext c; rw [atCells_chosen hab]
    rw [hb]
    dsimp only
    rw [this]
    rfl

theorem updateSedLoad_chosen {w : World R C K} {w' : World R' C K} (hw : WorldChosen f w w') :
    Carries (WorldChosen f) (updateSedLoad w) (updateSedLoad w') := by
  intro a ha
  unfold updateSedLoad at ha ⊢
  cases hl : w.sedLoad with
  | none =>
    rw [hl] at ha
    rw [optRel_none hw.sedLoad hl]
    cases ha
    exact ⟨_, rfl, hw⟩
  | some load =>
    cases hs : w.sand with
    | none => rw [hl, hs] at ha; cases ha
    | some sand =>
      obtain ⟨load', hl', hload⟩ := optRel_some hw.sedLoad hl
      obtain ⟨sand', hs', hsand⟩ := optRel_some hw.sand hs
      rw [hl, hs] at ha
      rw [hl', hs']
      cases ha
      refine ⟨_, rfl, { hw with
        sedLoad := .some (fieldChosen_set fun r c => ?_)
        sand := .some hsand }⟩
      rw [hload r c, hw.deposit r c, hw.topo r c, hw.seaLevel, hsand r c]

theorem updateBedrock_chosen {w : World R C K} {w' : World R' C K} (hw : WorldChosen f w w') :
    WorldChosen f (updateBedrock w) (updateBedrock w') := by
  unfold updateBedrock
  cases hi : w.increment with
  | none => rw [optRel_none hw.increment hi]; exact hw
  | some inc =>
    obtain ⟨inc', hi', hinc⟩ := optRel_some hw.increment hi
    rw [hi']
    refine { hw with
      bedrock := fun r c => ?_
      increment := .some fun _ _ => rfl }
    have h1 := hw.bedrock r c
    have h2 := hinc r c
    unfold getProfile at h1 h2 ⊢
    dsimp only
    rw [h1, h2]

theorem resetTopo_chosen {w : World R C K} {w' : World R' C K} (hw : WorldChosen f w w') :
    WorldChosen f (resetTopo w) (resetTopo w') := by
  unfold resetTopo
  refine { hw with topo := fun r c => ?_ }
  unfold getProfile setCells cellOf
  dsimp only
  simp only [activeIndex_activeRow]
  by_cases hc : 0 < c.val ∧ c.val + 1 < C
  · rw [dif_pos hc, dif_pos hc]
    dsimp only
    rw [atCells_chosen hw.bedrock]
    unfold EventLayers.thickness
    rw [hw.layers.dz]
    rfl
  · rw [dif_neg hc, dif_neg hc]
    exact hw.topo r c

theorem waterDepth_chosen {w : World R C K} {w' : World R' C K} (hw : WorldChosen f w w')
    (r : Fin R') (c : Fin C) : waterDepth w' r c = waterDepth w (f r) c := by
  unfold waterDepth
  rw [hw.seaLevel, hw.topo r c]

theorem updateFields_chosen {w : World R C K} {w' : World R' C K} (hw : WorldChosen f w w') :
    Carries (WorldChosen f) (updateFields w) (updateFields w') := by
  intro a ha
  unfold updateFields at ha ⊢
  dsimp only at ha ⊢
  cases h1 : updateSedLoad w with
  | error e => rw [h1] at ha; cases ha
  | ok w1 =>
    obtain ⟨w1', h1', hw1⟩ := updateSedLoad_chosen hw w1 h1
    have hw2 := resetTopo_chosen (updateBedrock_chosen hw1)
    rw [h1] at ha
    rw [h1']
    dsimp only at ha ⊢
    cases ha
    refine ⟨_, rfl, ?_⟩
    cases hi : (resetTopo (updateBedrock w1)).waterIncr with
    | none => rw [optRel_none hw2.waterIncr hi]; exact hw2
    | some g =>
      obtain ⟨g', hi', hg⟩ := optRel_some hw2.waterIncr hi
      rw [hi']
      exact { hw2 with
        waterIncr := .some (fieldChosen_set fun r c => by
          rw [waterDepth_chosen hw2, waterDepth_chosen hw]) }

theorem clearDeposit_chosen {w : World R C K} {w' : World R' C K} (hw : WorldChosen f w w') :
    WorldChosen f (clearDeposit w) (clearDeposit w') := by
  unfold clearDeposit
  exact { hw with deposit := fun _ _ => rfl }

theorem advance_chosen {env : Env R C K} {env' : Env R' C K} {all : List (Process K)}
    (hm : SameMiddle f) (hR : 0 < R') (he : EnvChosen f all env env') (hf : RowsFree f all)
    {porosity : ProcState R C K → K} {porosity' : ProcState R' C K → K}
    (hpor : ∀ p p', ProcChosen f p p' → porosity' p' = porosity p) {time dt : K}
    {m : ModelState (ProcState R C K) R (C + 2) K} {m' : ModelState (ProcState R' C K) R' (C + 2) K}
    (hmm : ModelChosen f m m' ∧ ((∃ P, Process.diffusion P ∈ all) → SteadyLoad f m.comps)) :
    Carries (fun a b => ModelChosen f a b ∧
        ((∃ P, Process.diffusion P ∈ all) → SteadyLoad f a.comps))
      (advanceComponents (all.map (Process.component env)) porosity time dt m)
      (advanceComponents (all.map (Process.component env')) porosity' time dt m') := by
  obtain ⟨⟨hp, hw, har⟩, hst⟩ := hmm
  have hrun := runComponents_chosen hm hR he hf (dt := dt) all (fun _ h => h)
    (s := (m.comps, clearDeposit m.world)) (s' := (m'.comps, clearDeposit m'.world))
    ⟨⟨hp, clearDeposit_chosen hw⟩, hst⟩
  intro a ha
  unfold advanceComponents at ha ⊢
  cases h1 : runComponents (all.map (Process.component env)) dt (m.comps, clearDeposit m.world) with
  | error e => rw [h1] at ha; cases ha
  | ok t =>
    obtain ⟨t', h1', ⟨hp1, hw1⟩, hst1⟩ := hrun t h1
    obtain ⟨p1, w1⟩ := t
    obtain ⟨p1', w1'⟩ := t'
    rw [h1] at ha
    rw [h1']
    dsimp only at ha hp1 hw1 hst1 ⊢
    have hadd := add_chosen hw1.layers (atCells_chosen hw1.deposit)
      (layerProperties_chosen hw1 time (porosity p1))
    rw [hpor p1 p1' hp1]
    cases h2 : w1.layers.add (atCells w1.deposit) (layerProperties time (porosity p1) w1) with
    | error e => rw [h2] at ha; cases ha
    | ok ev =>
      obtain ⟨ev', h2', hev⟩ := hadd ev h2
      rw [h2] at ha
      rw [h2']
      dsimp only at ha ⊢
      have hw2 : WorldChosen f { w1 with layers := ev } { w1' with layers := ev' } :=
        { hw1 with layers := hev }
      cases h3 : updateFields { w1 with layers := ev } with
      | error e => rw [h3] at ha; cases ha
      | ok w3 =>
        obtain ⟨w3', h3', hw3⟩ := updateFields_chosen hw2 w3 h3
        rw [h3] at ha
        rw [h3']
        dsimp only at ha ⊢
        rw [har]
        cases h4 : Archive.archiveOld ⟨w3.layers, m.archived⟩ with
        | error e => rw [h4] at ha; cases ha
        | ok st =>
          obtain ⟨st', h4', hl, harch⟩ := archiveOld_chosen hw3.layers m.archived st h4
          rw [h4] at ha
          rw [h4']
          cases ha
          exact ⟨_, rfl, ⟨hp1, { hw3 with layers := hl }, harch⟩, hst1⟩

/-! ## The constructors -/

theorem create_chosen {env : Env R C K} {env' : Env R' C K} {all : List (Process K)}
    (he : EnvChosen f all env env') (hf : RowsFree f all) {p : Process K} (hp : p ∈ all)
    {s : ProcState R C K × World R (C + 2) K} {s' : ProcState R' C K × World R' (C + 2) K}
    (hs : StateChosen f s s') :
    Carries (fun t t' => StateChosen f t t' ∧ ((SteadyLoad f s.1 ∨ ∃ P, p = .diffusion P) →
      SteadyLoad f t.1)) (p.create env s) (p.create env' s') := by
  obtain ⟨hp', hw⟩ := hs
  intro a ha
  cases p with
  | seaLevel curve start =>
    simp only [Process.create] at ha ⊢
    cases ha
    refine ⟨_, rfl, ⟨{ hp' with seaTime := rfl }, hw⟩, fun h => ?_⟩
    rcases h with h | ⟨P, h⟩
    · exact h
    · cases h
  | subsidence curve =>
    simp only [Process.create] at ha ⊢
    rw [he.x]
    cases hc : subsidenceRate curve env.x with
    | error e => rw [hc] at ha; cases ha
    | ok rate =>
      rw [hc] at ha
      cases ha
      refine ⟨_, rfl, ⟨{ hp' with rate := rfl }, { hw with
        increment := optRel_addZeros hw.increment }⟩, fun h => ?_⟩
      rcases h with h | ⟨P, h⟩
      · exact h
      · cases h
  | compaction =>
    simp only [Process.create] at ha ⊢
    cases ha
    refine ⟨_, rfl, ⟨hp', hw⟩, fun h => ?_⟩
    rcases h with h | ⟨P, h⟩
    · exact h
    · cases h
  | diffusion P =>
    simp only [Process.create, diffuserInit] at ha ⊢
    by_cases h0 : P.plainSlope = 0
    · rw [if_pos h0] at ha; cases ha
    · rw [if_neg h0] at ha ⊢
      cases ha
      refine ⟨_, rfl, ⟨{ hp' with
        diffuser := ⟨rfl, rfl, rfl, rfl, rfl, rfl, rfl, rfl, rfl, rfl, rfl, rfl, fun _ _ => rfl,
          rfl⟩ }, { hw with seaLevel := rfl }⟩, fun _ => ?_⟩
      rcases hf.load P hp with h | h
      · refine Or.inr ⟨h, ?_⟩
        dsimp only
        rw [h, mul_zero, add_zero, mul_one]
      · exact Or.inl h
  | fluvial P =>
    simp only [Process.create] at ha ⊢
    cases ha
    refine ⟨_, rfl, ⟨hp', { hw with
      sand := optRel_addZeros hw.sand, increment := optRel_addZeros hw.increment }⟩, fun h => ?_⟩
    rcases h with h | ⟨P, h⟩
    · exact h
    · cases h
  | flexure t =>
    simp only [Process.create, flexPoolInit] at ha ⊢
    cases hc : isostasyTime t with
    | error e => rw [hc] at ha; cases ha
    | ok iso =>
      rw [hc] at ha
      cases ha
      have hsed := optRel_addZeros hw.sedLoad
      refine ⟨_, rfl, ⟨{ hp' with
        sed := ⟨rfl, fun _ _ => rfl⟩
        lastLoad := fun r c => ?_ }, { hw with
        sedLoad := hsed, increment := optRel_addZeros hw.increment }⟩, fun h => ?_⟩
      · dsimp only
        generalize addZeros s.2.sedLoad = u at hsed
        generalize addZeros s'.2.sedLoad = u' at hsed
        cases hsed with
        | some h => exact h r c
        | none => rfl
      rcases h with h | ⟨P, h⟩
      · exact h
      · cases h
  | waterFlexure t =>
    simp only [Process.create, flexPoolInit] at ha ⊢
    cases hc : isostasyTime t with
    | error e => rw [hc] at ha; cases ha
    | ok iso =>
      rw [hc] at ha
      cases ha
      refine ⟨_, rfl, ⟨{ hp' with
        water := ⟨rfl, fun _ _ => rfl⟩ }, { hw with
        waterIncr := optRel_addZeros hw.waterIncr
        seaIncr := by dsimp only; rw [hw.seaIncr]
        increment := optRel_addZeros hw.increment }⟩, fun h => ?_⟩
      rcases h with h | ⟨P, h⟩
      · exact h
      · cases h
  | shoreline alpha =>
    simp only [Process.create, shorelineInit] at ha ⊢
    rw [he.kind, he.xtol, he.rtol, he.x]
    have hw1 : WorldChosen f
        { s.2 with rowShore := some fun _ => some 0, rowShelf := some fun _ => some 0 }
        { s'.2 with rowShore := some fun _ => some 0, rowShelf := some fun _ => some 0 } :=
      { hw with rowShore := .some fun _ => rfl, rowShelf := .some fun _ => rfl }
    cases hx : shorelineUpdate env.kind env.xtol env.rtol alpha false env.x
        { s.2 with rowShore := some fun _ => some 0, rowShelf := some fun _ => some 0 } with
    | error e => rw [hx] at ha; cases ha
    | ok w1 =>
      obtain ⟨w1', hx', hw2⟩ := shoreline_chosen hw1 w1 hx
      rw [hx] at ha
      rw [hx']
      cases ha
      refine ⟨_, rfl, ⟨hp', hw2⟩, fun h => ?_⟩
      rcases h with h | ⟨P, h⟩
      · exact h
      · cases h

theorem createAll_chosen {env : Env R C K} {env' : Env R' C K} {all : List (Process K)}
    (he : EnvChosen f all env env') (hf : RowsFree f all) :
    ∀ (ps : List (Process K)), (∀ p ∈ ps, p ∈ all) →
      ∀ {s : ProcState R C K × World R (C + 2) K} {s' : ProcState R' C K × World R' (C + 2) K},
      StateChosen f s s' →
      Carries (fun t t' => StateChosen f t t' ∧
          ((SteadyLoad f s.1 ∨ ∃ P, Process.diffusion P ∈ ps) → SteadyLoad f t.1))
        (createAll env ps s) (createAll env' ps s') := by
  intro ps
  induction ps with
  | nil =>
    intro _ s s' hs a ha
    simp only [createAll] at ha ⊢
    cases ha
    refine ⟨_, rfl, hs, fun h => ?_⟩
    rcases h with h | ⟨P, h⟩
    · exact h
    · cases h
  | cons p ps ih =>
    intro hall s s' hs a ha
    simp only [createAll] at ha ⊢
    cases h1 : p.create env s with
    | error e => rw [h1] at ha; cases ha
    | ok t =>
      obtain ⟨t', h1', ht, hst⟩ := create_chosen he hf (hall p List.mem_cons_self) hs t h1
      rw [h1] at ha
      rw [h1']
      obtain ⟨b, hb, hab, hst2⟩ := ih (fun q hq => hall q (List.mem_cons_of_mem _ hq)) ht a ha
      refine ⟨b, hb, hab, fun h => hst2 ?_⟩
      rcases h with h | ⟨P, h⟩
      · exact Or.inl (hst (Or.inl h))
      · rcases List.mem_cons.1 h with h | h
        · exact Or.inl (hst (Or.inr ⟨P, h.symm⟩))
        · exact Or.inr ⟨P, h⟩

theorem packageInit_chosen {env : Env R C K} {env' : Env R' C K} {all : List (Process K)}
    (he : EnvChosen f all env env') (hf : RowsFree f all) {start : K}
    {s : ProcState R C K × World R (C + 2) K} {s' : ProcState R' C K × World R' (C + 2) K}
    (hs : StateChosen f s s') :
    Carries (fun a b => ModelChosen f a b ∧
        ((∃ P, Process.diffusion P ∈ all) → SteadyLoad f a.comps))
      (packageInit env all start s) (packageInit env' all start s') := by
  intro a ha
  unfold packageInit at ha ⊢
  cases h1 : createAll env all s with
  | error e => rw [h1] at ha; cases ha
  | ok t =>
    obtain ⟨t', h1', ⟨hp, hw⟩, hst⟩ := createAll_chosen he hf all (fun _ h => h) hs t h1
    obtain ⟨p, w⟩ := t
    obtain ⟨p', w'⟩ := t'
    rw [h1] at ha
    rw [h1']
    dsimp only at ha hp hw hst ⊢
    unfold modelInit at ha ⊢
    cases e1 : w.rowShore with
    | none => rw [e1] at ha; cases ha
    | some b1 =>
      cases e2 : w.rowShelf with
      | none => rw [e1, e2] at ha; cases ha
      | some b2 =>
        obtain ⟨c1, hc1, -⟩ := optRel_some hw.rowShore e1
        obtain ⟨c2, hc2, -⟩ := optRel_some hw.rowShelf e2
        rw [e1, e2] at ha
        rw [hc1, hc2]
        dsimp only at ha ⊢
        have hadd := add_chosen hw.layers (dz := fun _ => 100) (dz' := fun _ => 100)
          (fun _ => rfl)
          (kw := [("age", fun _ => start), ("water_depth", fun c => -atCells w.bedrock c),
            ("t0", fun _ => 10), ("percent_sand", fun _ => 1/2), ("porosity", fun _ => 1/2)])
          (kw' := [("age", fun _ => start), ("water_depth", fun c => -atCells w'.bedrock c),
            ("t0", fun _ => 10), ("percent_sand", fun _ => 1/2), ("porosity", fun _ => 1/2)])
          (by
            have : (fun c => -atCells w'.bedrock c) =
                fun c => -atCells w.bedrock (chosenCell f c) := by
              funext c; rw [atCells_chosen hw.bedrock]
            rw [this]
            rfl)
        cases h2 : w.layers.add (fun _ => 100)
            [("age", fun _ => start), ("water_depth", fun c => -atCells w.bedrock c),
              ("t0", fun _ => 10), ("percent_sand", fun _ => 1/2), ("porosity", fun _ => 1/2)] with
        | error e => rw [h2] at ha; cases ha
        | ok ev =>
          obtain ⟨ev', h2', hev⟩ := hadd ev h2
          rw [h2] at ha
          rw [h2']
          cases ha
          refine ⟨_, rfl, ⟨{ hp with seaTime := rfl }, ?_, rfl⟩, fun h => hst (Or.inr h)⟩
          have hbase : WorldChosen f
              { w with rowShore := some fun _ => none, rowShelf := some fun _ => none,
                       seaLevel := 0, layers := ev }
              { w' with rowShore := some fun _ => none, rowShelf := some fun _ => none,
                        seaLevel := 0, layers := ev' } :=
            { hw with
              rowShore := .some fun _ => rfl
              rowShelf := .some fun _ => rfl
              seaLevel := rfl
              layers := hev }
          dsimp only
          cases e3 : w.waterLoad with
          | none =>
            rw [optRel_none hw.waterLoad e3]
            exact { hbase with waterLoad := .none }
          | some g =>
            obtain ⟨g', e3', hg⟩ := optRel_some hw.waterLoad e3
            rw [e3']
            exact { hbase with waterLoad := .some (fieldChosen_set fun r c => by rw [hw.topo r c]) }

end Verif
