import Verif.Lemmas.Symmetry
import Verif.Spec.TimeUnit

/-! Helper lemmas: what the steps of the model do to numbers in another unit of time. -/

set_option autoImplicit false
set_option linter.unusedSectionVars false

namespace Verif

open Verif.Spec

variable {ι K : Type*} {R C : ℕ} [Field K] [LinearOrder K] [IsStrictOrderedRing K]

/-! ## Layers -/

theorem foldl_max_mul {u : K} (hu : 0 < u) (l : List K) : ∀ x : K,
    (l.map (· * u)).foldl max (x * u) = l.foldl max x * u := by
  induction l with
  | nil => intro x; rfl
  | cons a l ih =>
    intro x
    simp only [List.map_cons, List.foldl_cons]
    rw [← max_mul_of_nonneg _ _ hu.le, ih]

theorem listMax_mul {u : K} (hu : 0 < u) {l : List K} (h : l ≠ []) :
    listMax (l.map (· * u)) = listMax l * u := by
  cases l with
  | nil => exact absurd rfl h
  | cons a l => exact foldl_max_mul hu l a

theorem layersTimed_empty (u : K) :
    LayersTimed u (EventLayers.empty : EventLayers ι K) EventLayers.empty where
  n := rfl
  tracking := rfl
  dz := rfl
  age := fun _ => rfl
  others := fun _ _ => rfl
  full := fun _ => rfl
  tracked := fun h => absurd rfl h

/-- Two layers to be added that correspond. -/
structure KwdsTimed (u : K) (kw kw' : EventLayers.Kwds ι K) : Prop where
  names : kw'.map (·.1) = kw.map (·.1)
  age : ∃ v, kw.get? "age" = some v ∧ kw'.get? "age" = some fun s => v s * u
  others : ∀ k, k ≠ "age" → kw'.get? k = kw.get? k

theorem add_timed {u : K} {l l' : EventLayers ι K} (hl : LayersTimed u l l')
    {dz : ι → K} {kw kw' : EventLayers.Kwds ι K} (hkw : KwdsTimed u kw kw') :
    Alike (LayersTimed u) (l.add dz kw) (l'.add dz kw') := by
  have htr : (if l'.n = 0 then kw'.map (·.1) else l'.tracking) =
      (if l.n = 0 then kw.map (·.1) else l.tracking) := by
    rw [hl.n, hl.tracking, hkw.names]
  have hall : ∀ t : List String, (kw'.all fun p => t.contains p.1) =
      (kw.all fun p => t.contains p.1) := by
    intro t
    have h1 : ∀ q : EventLayers.Kwds ι K, (q.all fun p => t.contains p.1) =
        (q.map (·.1)).all fun k => t.contains k := by
      intro q; rw [List.all_map]; rfl
    rw [h1, h1, hkw.names]
  obtain ⟨v, hv, hv'⟩ := hkw.age
  unfold EventLayers.add
  dsimp only
  rw [htr]
  generalize ht : (if l.n = 0 then kw.map (·.1) else l.tracking) = t
  rw [hall t]
  by_cases hc : (kw.all fun p => t.contains p.1) = true
  · rw [if_pos hc, if_pos hc]
    have hage : "age" ∈ t := by
      have := kwds_mem_of_get? hv
      obtain ⟨p, hp, hpe⟩ := List.mem_map.1 this
      have := List.all_eq_true.1 hc p hp
      rw [hpe] at this
      exact List.contains_iff_mem.1 this
    have hcon : t.contains "age" = true := List.contains_iff_mem.2 hage
    refine .ok ⟨by rw [hl.n], rfl, by dsimp only; rw [hl.dz], fun s => ?_,
      fun k h1 => ?_, fun s => ?_, fun _ => hage⟩
    · dsimp only
      rw [if_pos hcon, if_pos hcon, hl.age, hv, hv']
      simp
    · dsimp only
      rw [hl.others k h1, hkw.others k h1]
    · dsimp only
      rw [if_pos hcon]
      simp [hl.full s]
  · rw [if_neg hc, if_neg hc]
    exact .error _

theorem archiveOld_timed {u : K} (hu : 0 < u) {l l' : EventLayers ι K} (hl : LayersTimed u l l')
    (a : ℕ) :
    Alike (fun st st' : Archive ι K => LayersTimed u st.layers st'.layers ∧
        st'.archived = st.archived)
      (Archive.archiveOld ⟨l, a⟩) (Archive.archiveOld ⟨l', a⟩) := by
  unfold Archive.archiveOld
  dsimp only
  rw [hl.n]
  by_cases hm : ((l.n : ℤ) - (a : ℤ)) % 20 = 0
  · rw [if_pos hm, if_pos hm]
    unfold EventLayers.reduce
    rw [hl.n, hl.tracking]
    by_cases hr : a < a + 10 ∧ a + 10 ≤ l.n
    · rw [if_neg (not_not.2 hr), if_neg (not_not.2 hr)]
      by_cases ht : (l.tracking.all fun name =>
          (layerReducers (K := K) l.tracking name).isSome) = true
      · rw [if_pos ht, if_pos ht]
        dsimp only
        have hage : "age" ∈ l.tracking := hl.tracked (by omega)
        have hcon : l.tracking.contains "age" = true := List.contains_iff_mem.2 hage
        have hred : layerReducers (K := K) l.tracking "age" = some listMax := by
          unfold layerReducers; rw [if_pos rfl]
        refine .ok ⟨⟨rfl, rfl, by dsimp only; rw [hl.dz], fun s => ?_,
          fun k h1 => ?_, fun s => ?_, fun _ => hage⟩, rfl⟩
        · dsimp only
          rw [if_pos hcon, if_pos hcon, hred, hl.age]
          refine reduceColumn_map _ _ _ _ _ _ ?_
          refine listMax_mul hu ?_
          intro h0
          have := congrArg List.length h0
          simp only [List.length_take, List.length_drop, List.length_nil] at this
          have := hl.full s
          omega
        · dsimp only
          rw [hl.others k h1]
        · dsimp only
          rw [if_pos hcon, reduceColumn_length _ _ _ _ hr.1 (by rw [hl.full s]; exact hr.2),
            hl.full s]
      · rw [if_neg ht, if_neg ht]
        exact .error _
    · rw [if_pos hr, if_pos hr]
      exact .error _
  · rw [if_neg hm, if_neg hm]
    exact .ok ⟨hl, rfl⟩

/-! ## The river -/

namespace XNum

/-- A rate in the other unit. -/
def per (u : K) : XNum K → XNum K
  | num a => num (a / u)
  | inf s => inf s
  | nan => nan

theorem per_sub (u : K) (x y : XNum K) : per u (x - y) = per u x - per u y := by
  have hsub : ∀ a b : XNum K, a - b = add a (neg b) := fun _ _ => rfl
  rw [hsub, hsub]
  cases x with
  | num a =>
    cases y with
    | num b => simp only [neg, add, per]; congr 1; ring
    | inf t => rfl
    | nan => rfl
  | inf s =>
    cases y with
    | num b => rfl
    | inf t => simp only [neg, add, per]; split_ifs <;> rfl
    | nan => rfl
  | nan => cases y <;> rfl

theorem per_div_per {u : K} (hu : 0 < u) (x : XNum K) (q : K) :
    per u x / num (q / u) = x / num q := by
  have hdiv : ∀ a b : XNum K, a / b = div a b := fun _ _ => rfl
  have h0 : ∀ a : K, a / u = 0 ↔ a = 0 := fun a => by
    rw [div_eq_zero_iff]; exact or_iff_left hu.ne'
  have hneg : ∀ a : K, a / u < 0 ↔ a < 0 := fun a => by
    rw [div_lt_iff₀ hu, zero_mul]
  rw [hdiv, hdiv]
  cases x with
  | num a =>
    simp only [per, div, h0, hneg]
    by_cases hq : q = 0
    · simp only [hq, if_true]
    · rw [if_neg hq, if_neg hq, div_div_div_cancel_right₀ hu.ne']
  | inf s => simp only [per, div, hneg]
  | nan => rfl

theorem div_time {u : K} (hu : 0 < u) (x : XNum K) (dt : K) :
    x / num (dt * u) = per u (x / num dt) := by
  have hdiv : ∀ a b : XNum K, a / b = div a b := fun _ _ => rfl
  have hneg : dt * u < 0 ↔ dt < 0 := by
    constructor
    · intro h
      by_contra hn
      exact absurd (mul_nonneg (not_lt.1 hn) hu.le) (not_le.2 h)
    · exact fun h => mul_neg_of_neg_of_pos h hu
  rw [hdiv, hdiv]
  cases x with
  | num a =>
    simp only [div, mul_eq_zero, hu.ne', or_false]
    by_cases h : dt = 0
    · rw [if_pos h, if_pos h]
      split_ifs <;> rfl
    · rw [if_neg h, if_neg h]
      simp only [per]
      rw [div_div]
  | inf s => simp only [per, div, hneg]
  | nan => rfl

end XNum

open XNum in
theorem channelWidth_timed {u : K} (hu : 0 < u) {sqrtf sqrtf' : K → K}
    (h : ∀ v, sqrtf' v = sqrtf v / u) (P : FluvialParams K) :
    channelWidth sqrtf' { P with load := P.load / u, hemi := P.hemi / u } =
      channelWidth sqrtf P := by
  unfold channelWidth
  dsimp only
  have hq : num 10 * XNum.sqrt sqrtf' (num (98/10 * (P.sandDensity / 1000 - 1))) * num (1/1000) =
      per u (num 10 * XNum.sqrt sqrtf (num (98/10 * (P.sandDensity / 1000 - 1))) *
        num (1/1000)) := by
    unfold XNum.sqrt
    dsimp only
    split_ifs
    · rfl
    · rw [h]
      show num _ = num _
      congr 1
      ring
  rw [hq]
  have h1 : ∃ q, num 10 * XNum.sqrt sqrtf (num (98/10 * (P.sandDensity / 1000 - 1))) *
      num (1/1000) = num q ∨ num 10 * XNum.sqrt sqrtf (num (98/10 * (P.sandDensity / 1000 - 1))) *
      num (1/1000) = (nan : XNum K) := by
    unfold XNum.sqrt
    dsimp only
    split_ifs
    · exact ⟨0, Or.inr rfl⟩
    · exact ⟨_, Or.inl rfl⟩
  obtain ⟨q, hq | hq⟩ := h1
  · rw [hq]
    exact per_div_per hu (num P.load) q
  · rw [hq]
    rfl

open XNum in
theorem fluvialLoop_timed {u : K} (hu : 0 < u) (expf : K → K) (P : FluvialParams K)
    (width epsilon0 : XNum K) (dx dt qw : K) (slope deposit dz : Fin C → K) :
    ∀ (l : List (Fin C)) (mud : XNum K) (conc percent : Fin C → XNum K),
      fluvialLoop expf { P with load := P.load / u, hemi := P.hemi / u } width epsilon0 dx (dt * u)
          (qw / u) slope deposit dz l (per u mud) conc percent =
        fluvialLoop expf P width epsilon0 dx dt qw slope deposit dz l mud conc percent := by
  intro l
  induction l with
  | nil => intro mud conc percent; rfl
  | cons i rest ih =>
    intro mud conc percent
    simp only [fluvialLoop]
    by_cases h : i.val + 1 < C
    · rw [dif_pos h, dif_pos h]
      have hdepth : channelDepth { P with load := P.load / u, hemi := P.hemi / u } (slope i) =
          channelDepth P (slope i) := rfl
      rw [hdepth]
      generalize nodeSand expf width (channelDepth P (slope i)) (conc i) epsilon0 (deposit i) = p
      by_cases hz : 0 < dz i
      · rw [if_pos hz, if_pos hz, div_time hu, ← per_sub, ih, per_div_per hu]
      · rw [if_neg hz, if_neg hz, ih, per_div_per hu]
    · rw [dif_neg h, dif_neg h]

theorem hemipelagicLoop_timed {u : K} (hu : 0 < u) (P : FluvialParams K) (dt : K)
    (x depth : Fin C → K) : ∀ (l : List (Fin C)) (taper : Fin C) (mud : Fin C → K),
      hemipelagicLoop { P with load := P.load / u, hemi := P.hemi / u } (dt * u) x depth l taper
        mud = hemipelagicLoop P dt x depth l taper mud := by
  have hm : P.hemi / u * (dt * u) = P.hemi * dt := by field_simp
  intro l
  induction l with
  | nil => intro taper mud; rfl
  | cons i rest ih =>
    intro taper mud
    simp only [hemipelagicLoop]
    have : hemipelagicNode { P with load := P.load / u, hemi := P.hemi / u } (dt * u) x depth taper
        i = hemipelagicNode P dt x depth taper i := by
      unfold hemipelagicNode
      dsimp only
      rw [hm]
    rw [this, ih]

open XNum in
theorem fluvialRow_timed {u : K} (hu : 0 < u) (expf : K → K) {sqrtf sqrtf' : K → K}
    (hs : ∀ v, sqrtf' v = sqrtf v / u) (P : FluvialParams K) (dx dt : K)
    (x z deposit dz : Fin C → K) (sl : K) (shore : Except Err K) :
    fluvialRow expf sqrtf' { P with load := P.load / u, hemi := P.hemi / u } dx (dt * u) x z
        deposit dz sl shore =
      fluvialRow expf sqrtf P dx dt x z deposit dz sl shore := by
  have hmud : P.load / u * (1 - P.sandFrac) / P.sandFrac =
      P.load * (1 - P.sandFrac) / P.sandFrac / u := by ring
  have hqw : P.load / u / P.plainSlope / (61/100) = P.load / P.plainSlope / (61/100) / u := by ring
  have h0 : P.load / P.plainSlope / (61/100) / u = 0 ↔ P.load / P.plainSlope / (61/100) = 0 := by
    rw [div_eq_zero_iff]; exact or_iff_left hu.ne'
  unfold fluvialRow
  dsimp only
  rw [hmud, hqw, channelWidth_timed hu hs]
  by_cases h1 : P.sandFrac = 0 ∨ P.plainSlope = 0
  · rw [if_pos h1, if_pos h1]
  rw [if_neg h1, if_neg h1]
  by_cases h2 : P.load / P.plainSlope / (61/100) = 0
  · rw [if_pos h2, if_pos (h0.2 h2)]
  rw [if_neg h2, if_neg fun h => h2 (h0.1 h)]
  cases shore with
  | error e => rfl
  | ok shore =>
    dsimp only
    by_cases hC : 1 < C
    swap
    · rw [dif_neg hC, dif_neg hC]
    rw [dif_pos hC, dif_pos hC]
    have hdepth : ∀ s, channelDepth { P with load := P.load / u, hemi := P.hemi / u } s =
        channelDepth P s := fun _ => rfl
    have hper : num (P.load * (1 - P.sandFrac) / P.sandFrac / u) =
        per u (num (P.load * (1 - P.sandFrac) / P.sandFrac)) := rfl
    rw [hdepth, hper, fluvialLoop_timed hu, div_div_div_cancel_right₀ hu.ne',
      hemipelagicLoop_timed hu]

/-! ## The other components -/

theorem wetDiffusivity_timed {u : K} (expf : K → K) (s : Diffuser R C K) (load dx x shore depth : K) :
    wetDiffusivity expf (timedDiffuser u s) (load / u) dx x shore depth =
      wetDiffusivity expf s load dx x shore depth / u := by
  unfold wetDiffusivity timedDiffuser
  dsimp only
  split_ifs
  · rw [zero_div]
  · ring
  · ring

theorem landDiffusivity_timed {u : K} (s : Diffuser R C K) (ksh x : K) (channel : Bool) :
    landDiffusivity (timedDiffuser u s) (ksh / u) x channel =
      landDiffusivity s ksh x channel / u := by
  unfold landDiffusivity timedDiffuser
  dsimp only
  split_ifs <;> ring

theorem diffusivityLoop_timed {u : K} (expf : K → K) (dx : K) (x : Fin C → K) (shore : Fin R → K)
    (w : World R C K) : ∀ (rs : List (Fin R)) (s : Diffuser R C K),
      diffusivityLoop expf dx x shore w rs (timedDiffuser u s) =
        timedDiffuser u (diffusivityLoop expf dx x shore w rs s) := by
  intro rs
  induction rs with
  | nil => intro s; rfl
  | cons r rs ih =>
    intro s
    have hload : (timedDiffuser u s).newLoad w.seaLevel = s.newLoad w.seaLevel / u := by
      unfold Diffuser.newLoad timedDiffuser
      dsimp only
      ring
    have hksh : s.newLoad w.seaLevel / u / s.plainSlope =
        s.newLoad w.seaLevel / s.plainSlope / u := by ring
    have hslope : (timedDiffuser u s).plainSlope = s.plainSlope := rfl
    have hl : (timedDiffuser u s).load = s.load / u := rfl
    simp only [diffusivityLoop]
    rw [hload, hslope, hksh, hl, ← ih]
    congr 1
    unfold timedDiffuser
    dsimp only
    congr 1
    funext n
    by_cases hn : n.1 = activeRow r
    · rw [if_pos hn, if_pos hn]
      by_cases hd : 0 < w.seaLevel - getProfile w.topo r n.2
      · rw [if_pos hd, if_pos hd]
        exact wetDiffusivity_timed expf s s.load dx _ _ _
      · rw [if_neg hd, if_neg hd]
        exact landDiffusivity_timed s _ _ _
    · rw [if_neg hn, if_neg hn]

theorem calcDiffusionCoef_timed {u : K} (expf : K → K) (dx : K) (x : Fin C → K) (shore : Fin R → K)
    (w : World R C K) (s : Diffuser R C K) :
    calcDiffusionCoef expf dx x shore w (timedDiffuser u s) =
      timedDiffuser u (calcDiffusionCoef expf dx x shore w s) := by
  unfold calcDiffusionCoef
  dsimp only
  rw [diffusivityLoop_timed]
  unfold timedDiffuser
  dsimp only
  congr 1
  funext n
  split_ifs <;> rfl

theorem diffusivityLoop_layers (expf : K → K) (dx : K) (x : Fin C → K) (shore : Fin R → K)
    (w : World R C K) (l : EventLayers (Cell R C) K) : ∀ (rs : List (Fin R)) (s : Diffuser R C K),
      diffusivityLoop expf dx x shore { w with layers := l } rs s =
        diffusivityLoop expf dx x shore w rs s := by
  intro rs
  induction rs with
  | nil => intro s; rfl
  | cons r rs ih =>
    intro s
    simp only [diffusivityLoop]
    exact ih _

theorem calcDiffusionCoef_layers (expf : K → K) (dx : K) (x : Fin C → K) (shore : Fin R → K)
    (w : World R C K) (l : EventLayers (Cell R C) K) (s : Diffuser R C K) :
    calcDiffusionCoef expf dx x shore { w with layers := l } s =
      calcDiffusionCoef expf dx x shore w s := by
  unfold calcDiffusionCoef
  rw [diffusivityLoop_layers]

theorem isostasyFraction_timed {u : K} (hu : 0 < u) (expf : K → K) (t : Option K) (dt : K) :
    isostasyFraction expf (t.map (· * u)) (dt * u) = isostasyFraction expf t dt := by
  cases t with
  | none => rfl
  | some t =>
    simp only [Option.map_some, isostasyFraction]
    rw [← neg_mul, mul_div_mul_right _ _ hu.ne']

theorem dynamicDeflection_timed {u : K} (hu : 0 < u) (expf : K → K) (p : FlexPool R C K)
    (isostatic : Profile R C K) (dt : K) :
    dynamicDeflection expf { p with isoTime := p.isoTime.map (· * u) } isostatic (dt * u) =
      ((dynamicDeflection expf p isostatic dt).1,
        { (dynamicDeflection expf p isostatic dt).2 with isoTime := p.isoTime.map (· * u) }) := by
  unfold dynamicDeflection
  dsimp only
  rw [isostasyFraction_timed hu]

theorem isostasyTime_timed {u : K} (hu : 0 < u) (t : Option K)
    (h : ∀ s, t = some s → (|s * u| ≤ 1 / 10 ^ 8 ↔ |s| ≤ 1 / 10 ^ 8)) :
    isostasyTime (t.map (· * u)) = (isostasyTime t).map fun t => t.map (· * u) := by
  cases t with
  | none => rfl
  | some s =>
    have h1 := h s rfl
    have h2 : s * u < 0 ↔ s < 0 := by
      constructor
      · intro h
        by_contra hn
        exact absurd (mul_nonneg (not_lt.1 hn) hu.le) (not_le.2 h)
      · exact fun h => mul_neg_of_neg_of_pos h hu
    simp only [Option.map_some, isostasyTime]
    by_cases hz : |s| ≤ 1 / 10 ^ 8
    · rw [if_pos hz, if_pos (h1.2 hz)]; rfl
    · rw [if_neg hz, if_neg fun h => hz (h1.1 h)]
      by_cases hs : s < 0
      · rw [if_pos hs, if_pos (h2.2 hs)]; rfl
      · rw [if_neg hs, if_neg fun h => hs (h2.1 h)]; rfl

theorem flexPoolInit_timed {u : K} (hu : 0 < u) (t : Option K)
    (h : ∀ s, t = some s → (|s * u| ≤ 1 / 10 ^ 8 ↔ |s| ≤ 1 / 10 ^ 8)) :
    flexPoolInit R C (t.map (· * u)) = (flexPoolInit R C t).map fun p =>
      { p with isoTime := p.isoTime.map (· * u) } := by
  unfold flexPoolInit
  rw [isostasyTime_timed hu t h]
  cases isostasyTime t <;> rfl

theorem worldTimed_layers {u : K} (w : World R C K) {l' : EventLayers (Cell R C) K}
    (h : LayersTimed u w.layers l') : WorldTimed u w { w with layers := l' } := ⟨rfl, h⟩

theorem subtractDeflection_timed {u : K} {w : World R C K} {l' : EventLayers (Cell R C) K}
    (hl : LayersTimed u w.layers l') (d : Profile R C K) :
    Alike (WorldTimed u) (subtractDeflection d w)
      (subtractDeflection d { w with layers := l' }) := by
  unfold subtractDeflection
  dsimp only
  cases w.increment with
  | none => exact .error _
  | some f => exact .ok ⟨rfl, hl⟩

/-- A step of a component in the other unit. -/
theorem component_timed {u : K} (hu : 0 < u) {ps : List (Process K)} {env env' : Env R C K}
    (hfree : UnitFree u ps env env') {p : Process K} (hmem : p ∈ ps) {dt : K}
    {s s' : ProcState R C K × World R (C + 2) K} (hs : StateTimed u s s') :
    Alike (StateTimed u) (p.component env dt s)
      ((timedProcess u p).component env' (dt * u) s') := by
  obtain ⟨q, w⟩ := s
  obtain ⟨q', w'⟩ := s'
  obtain ⟨hp, hr, hl⟩ := hs
  have hsame := hfree.same
  have hcap := hfree.capacity
  have hsolve := hfree.solve
  have hcomp := hfree.compact
  generalize env'.sqrtf = g at hsame hcap
  subst hsame
  dsimp only at hp hr hl
  generalize w'.layers = l' at hr hl
  subst hr
  cases p with
  | seaLevel curve start =>
    have ht : (q.seaTime * u + dt * u) / u = q.seaTime + dt := by
      field_simp
    simp only [timedProcess, Process.component, seaComponent, seaStep, hp.seaTime, ht]
    cases curve (q.seaTime + dt) with
    | error e => exact .error e
    | ok v =>
      exact .ok ⟨⟨by dsimp only; ring, hp.rate, hp.diffuser, hp.flex⟩, worldTimed_layers _ hl⟩
  | subsidence curve =>
    have hrate : ∀ c, q'.rate c * (dt * u) = q.rate c * dt := by
      intro c
      rw [hp.rate]
      field_simp
    simp only [timedProcess, Process.component, subsidenceComponent, subsidenceStep, hrate]
    cases w.increment with
    | none => exact .error _
    | some f => exact .ok ⟨hp, worldTimed_layers _ hl⟩
  | compaction =>
    simp only [timedProcess, Process.component]
    have := hcomp hmem dt _ _ hl
    generalize env.compact dt w.layers = a at this
    generalize env.compact (dt * u) l' = b at this
    cases this with
    | error e => exact .error e
    | ok hl => exact .ok ⟨hp, ⟨rfl, hl⟩⟩
  | diffusion P =>
    simp only [timedProcess, Process.component, diffuserComponent, diffuserStep, hp.diffuser,
      calcDiffusionCoef_layers, calcDiffusionCoef_timed]
    cases overRows (fun r => shorelineRow env.kind env.xtol env.rtol (List.ofFn env.x)
        (rowList w.topo r) w.seaLevel) with
    | error e => exact .error e
    | ok shore =>
      dsimp only
      have hreg : (timedDiffuser u q.diffuser).Regular env.dx { w with layers := l' } ↔
          q.diffuser.Regular env.dx w := Iff.rfl
      by_cases hd : q.diffuser.Regular env.dx w
      swap
      · rw [if_neg hd, if_neg fun h => hd (hreg.1 h)]
        exact .error _
      rw [if_pos hd, if_pos (hreg.2 hd)]
      generalize calcDiffusionCoef env.expf env.dx env.x shore w q.diffuser = d
      have hk : (timedDiffuser u d).kd = fun n => d.kd n / u := rfl
      have hslope : (timedDiffuser u d).plainSlope = d.plainSlope := rfl
      rw [hk, hslope, hsolve ⟨P, hmem⟩]
      cases env.solve d.kd dt (setUpstream d.plainSlope env.x w.topo) with
      | error e => exact .error e
      | ok after =>
        refine .ok ⟨⟨hp.seaTime, hp.rate, ?_, hp.flex⟩, ⟨rfl, hl⟩⟩
        unfold timedDiffuser
        dsimp only
        congr 1
        ring
  | fluvial P =>
    simp only [timedProcess, Process.component, fluvialComponent, fluvialStep]
    cases w.sand with
    | none => exact .error _
    | some sand =>
      cases w.increment with
      | none => exact .error _
      | some inc =>
        dsimp only
        by_cases hR : R / 2 < R
        · rw [dif_pos hR, dif_pos hR, fluvialRow_timed hu env.expf (hcap ⟨P, hmem⟩)]
          cases fluvialRow env.expf env.sqrtf P env.dx dt env.x (getProfile w.topo ⟨R / 2, hR⟩)
              (getProfile w.deposit ⟨R / 2, hR⟩) (getProfile inc ⟨R / 2, hR⟩) w.seaLevel
              (shorelineRow env.kind env.xtol env.rtol (List.ofFn env.x)
                (rowList w.topo ⟨R / 2, hR⟩) w.seaLevel) with
          | error e => exact .error e
          | ok v =>
            dsimp only
            by_cases hv : ∀ c, (v.1 c).toNum ≠ none
            · rw [if_pos hv, if_pos hv]
              exact .ok ⟨hp, ⟨rfl, hl⟩⟩
            · rw [if_neg hv, if_neg hv]
              exact .error _
        · rw [dif_neg hR, dif_neg hR]
          exact .error _
  | flexure t =>
    have hsed : q'.flex.sed = { q.flex.sed with isoTime := q.flex.sed.isoTime.map (· * u) } := by
      rw [hp.flex]; rfl
    have h1 : q'.flex.lastLoad = q.flex.lastLoad := by rw [hp.flex]; rfl
    have h2 : q'.flex.pressure = q.flex.pressure := by rw [hp.flex]; rfl
    have h3 : q'.flex.litho = q.flex.litho := by rw [hp.flex]; rfl
    simp only [timedProcess, Process.component, flexComponent, sedFlexStep]
    obtain ⟨topo, bedrock, deposit, increment, sand, sedLoad, waterLoad, waterIncr, seaLevel, seaIncr,
      rowShore, rowShelf, gridShore, gridShelf, layers⟩ := w
    dsimp only at hl ⊢
    cases sedLoad with
    | none => exact .error _
    | some total =>
      dsimp only
      rw [hsed, h1, h2, h3, dynamicDeflection_timed hu]
      generalize hd : dynamicDeflection env.expf q.flex.sed _ dt = d
      have hiso : d.2.isoTime = q.flex.sed.isoTime := by rw [← hd]; rfl
      have := subtractDeflection_timed (w := ⟨topo, bedrock, deposit, increment, sand, some total,
        waterLoad, waterIncr, seaLevel, seaIncr, rowShore, rowShelf, gridShore, gridShelf, layers⟩) hl d.1
      dsimp only at this
      generalize subtractDeflection d.1 _ = a at this ⊢
      generalize subtractDeflection d.1 _ = b at this ⊢
      cases this with
      | error e => exact .error e
      | ok hw =>
        refine .ok ⟨⟨hp.seaTime, hp.rate, hp.diffuser, ?_⟩, hw⟩
        dsimp only
        rw [hp.flex]
        unfold timedFlex
        dsimp only
        rw [hiso]
  | waterFlexure t =>
    have hwat : q'.flex.water =
        { q.flex.water with isoTime := q.flex.water.isoTime.map (· * u) } := by
      rw [hp.flex]; rfl
    have h3 : q'.flex.litho = q.flex.litho := by rw [hp.flex]; rfl
    simp only [timedProcess, Process.component, flexComponent, waterFlexStep]
    obtain ⟨topo, bedrock, deposit, increment, sand, sedLoad, waterLoad, waterIncr, seaLevel, seaIncr,
      rowShore, rowShelf, gridShore, gridShelf, layers⟩ := w
    dsimp only at hl ⊢
    cases seaIncr with
    | none => exact .error _
    | some dsl =>
      cases waterIncr with
      | none => exact .error _
      | some depth =>
        dsimp only
        rw [hwat, h3, dynamicDeflection_timed hu]
        generalize hd : dynamicDeflection env.expf q.flex.water _ dt = d
        have hiso : d.2.isoTime = q.flex.water.isoTime := by rw [← hd]; rfl
        have := subtractDeflection_timed (w := ⟨topo, bedrock, deposit, increment, sand, sedLoad,
          waterLoad, some depth, seaLevel, some dsl, rowShore, rowShelf, gridShore, gridShelf, layers⟩) hl d.1
        dsimp only at this
        generalize subtractDeflection d.1 _ = a at this ⊢
        generalize subtractDeflection d.1 _ = b at this ⊢
        cases this with
        | error e => exact .error e
        | ok hw =>
          refine .ok ⟨⟨hp.seaTime, hp.rate, hp.diffuser, ?_⟩, hw⟩
          dsimp only
          rw [hp.flex]
          unfold timedFlex
          dsimp only
          rw [hiso]
  | shoreline alpha =>
    simp only [timedProcess, Process.component, shorelineComponent, shorelineUpdate]
    cases overRows (fun r => shorelineFinderRow env.kind env.xtol env.rtol alpha true
        (List.ofFn env.x) (rowList w.topo r) (rowList w.deposit r) w.seaLevel) with
    | error e => exact .error e
    | ok res =>
      cases w.rowShore with
      | none => exact .error _
      | some a =>
        cases w.rowShelf with
        | none => exact .error _
        | some b => exact .ok ⟨hp, ⟨rfl, hl⟩⟩

theorem runComponents_timed {u : K} (hu : 0 < u) {all : List (Process K)} {env env' : Env R C K}
    (hfree : UnitFree u all env env') {dt : K} :
    ∀ (ps : List (Process K)), (∀ p ∈ ps, p ∈ all) →
      ∀ {s s' : ProcState R C K × World R (C + 2) K}, StateTimed u s s' →
      Alike (StateTimed u) (runComponents (ps.map (Process.component env)) dt s)
        (runComponents ((ps.map (timedProcess u)).map (Process.component env')) (dt * u) s') := by
  intro ps
  induction ps with
  | nil => intro _ s s' hs; exact .ok hs
  | cons p ps ih =>
    intro hall s s' hs
    have h1 := component_timed hu hfree (hall p List.mem_cons_self) (dt := dt) hs
    simp only [List.map_cons, runComponents]
    generalize p.component env dt s = a at h1
    generalize (timedProcess u p).component env' (dt * u) s' = b at h1
    cases h1 with
    | error e => exact .error e
    | ok hl => exact ih (fun q hq => hall q (List.mem_cons_of_mem _ hq)) hl

/-! ## A step of the driver -/

theorem layerProperties_timed {u : K} (w : World R C K) (l' : EventLayers (Cell R C) K)
    (time porosity : K) :
    KwdsTimed u (layerProperties time porosity w)
      (layerProperties (time * u) porosity { w with layers := l' }) := by
  refine ⟨?_, ⟨fun _ => time, rfl, rfl⟩, fun n h1 => ?_⟩
  · unfold layerProperties
    dsimp only
    cases w.sand <;> rfl
  · unfold layerProperties
    dsimp only
    have : ("age" == n) = false := by simpa using fun h => h1 h.symm
    simp only [EventLayers.Kwds.get?, List.cons_append, List.find?_cons, this]

theorem updateFields_timed {u : K} {w : World R C K} {l' : EventLayers (Cell R C) K}
    (hl : LayersTimed u w.layers l') :
    Alike (WorldTimed u) (updateFields w) (updateFields { w with layers := l' }) := by
  have hth : l'.thickness = w.layers.thickness := by
    funext c
    unfold EventLayers.thickness
    rw [hl.dz]
  have hrest : ∀ v : World R C K, v.layers = w.layers →
      WorldTimed u (resetTopo (updateBedrock v))
        (resetTopo (updateBedrock { v with layers := l' })) := by
    intro v hv
    unfold updateBedrock
    obtain ⟨topo, bedrock, deposit, increment, sand, sedLoad, waterLoad, waterIncr, seaLevel, seaIncr,
      rowShore, rowShelf, gridShore, gridShelf, layers⟩ := v
    dsimp only at hv ⊢
    cases increment with
    | none =>
      dsimp only
      unfold resetTopo
      dsimp only
      rw [hth, hv]
      exact ⟨rfl, hl⟩
    | some inc =>
      dsimp only
      unfold resetTopo
      dsimp only
      rw [hth, hv]
      exact ⟨rfl, hl⟩
  have hload : (∃ e, updateSedLoad w = .error e ∧
        updateSedLoad { w with layers := l' } = .error e) ∨
      ∃ v, v.layers = w.layers ∧ updateSedLoad w = .ok v ∧
        updateSedLoad { w with layers := l' } = .ok { v with layers := l' } := by
    unfold updateSedLoad
    obtain ⟨topo, bedrock, deposit, increment, sand, sedLoad, waterLoad, waterIncr, seaLevel, seaIncr,
      rowShore, rowShelf, gridShore, gridShelf, layers⟩ := w
    dsimp only
    cases sedLoad with
    | none => exact Or.inr ⟨_, rfl, rfl, rfl⟩
    | some load =>
      cases sand with
      | none => exact Or.inl ⟨_, rfl, rfl⟩
      | some sand => exact Or.inr ⟨_, rfl, rfl, rfl⟩
  unfold updateFields
  dsimp only
  rcases hload with ⟨e, h1, h2⟩ | ⟨v, hv, h1, h2⟩
  · rw [h1, h2]
    exact .error e
  · rw [h1, h2]
    dsimp only
    have hw := hrest v hv
    generalize resetTopo (updateBedrock v) = a at hw
    generalize resetTopo (updateBedrock { v with layers := l' }) = b at hw
    obtain ⟨hb, hab⟩ := hw
    generalize b.layers = lb at hb hab
    subst hb
    have hd : waterDepth { a with layers := lb } = waterDepth a := rfl
    have hd' : waterDepth { w with layers := l' } = waterDepth w := rfl
    rw [hd, hd']
    generalize waterDepth a = da
    obtain ⟨topo, bedrock, deposit, increment, sand, sedLoad, waterLoad, waterIncr, seaLevel, seaIncr,
      rowShore, rowShelf, gridShore, gridShelf, layers⟩ := a
    dsimp only
    cases waterIncr with
    | none => exact .ok ⟨rfl, hab⟩
    | some f => exact .ok ⟨rfl, hab⟩

theorem advance_timed {u : K} (hu : 0 < u)
    {comps comps' : List (Component (ProcState R C K) R (C + 2) K)} {porosity : ProcState R C K → K}
    (hpor : ∀ p p', ProcTimed u p p' → porosity p' = porosity p) {time dt : K}
    {m m' : ModelState (ProcState R C K) R (C + 2) K} (ha : m'.archived = m.archived)
    (hrun : Alike (StateTimed u) (runComponents comps dt (m.comps, clearDeposit m.world))
      (runComponents comps' (dt * u) (m'.comps, clearDeposit m'.world))) :
    Alike (ModelTimed u) (advanceComponents comps porosity time dt m)
      (advanceComponents comps' porosity (time * u) (dt * u) m') := by
  unfold advanceComponents
  generalize runComponents comps dt (m.comps, clearDeposit m.world) = a at hrun
  generalize runComponents comps' (dt * u) (m'.comps, clearDeposit m'.world) = b at hrun
  cases hrun with
  | error e => exact .error e
  | @ok a b hab =>
    obtain ⟨p, w⟩ := a
    obtain ⟨p', w'⟩ := b
    obtain ⟨hp, hr, hl⟩ := hab
    dsimp only at hp hr hl ⊢
    generalize w'.layers = l' at hr hl
    subst hr
    have hadd := add_timed hl (dz := atCells w.deposit)
      (layerProperties_timed w l' time (porosity p))
    rw [hpor p p' hp]
    dsimp only
    generalize w.layers.add (atCells w.deposit) (layerProperties time (porosity p) w) = a at hadd
    generalize l'.add (atCells w.deposit)
      (layerProperties (time * u) (porosity p) { w with layers := l' }) = b at hadd
    cases hadd with
    | error e => exact .error e
    | @ok ev ev' hl =>
      dsimp only
      have hup := updateFields_timed (w := { w with layers := ev }) (l' := ev') hl
      dsimp only at hup
      generalize updateFields { w with layers := ev } = a at hup
      generalize updateFields { w with layers := ev' } = b at hup
      cases hup with
      | error e => exact .error e
      | @ok w3 w3' hw3 =>
        dsimp only
        have harch := archiveOld_timed hu hw3.layers m.archived
        rw [ha]
        generalize Archive.archiveOld ⟨w3.layers, m.archived⟩ = a at harch
        generalize Archive.archiveOld ⟨w3'.layers, m.archived⟩ = b at harch
        cases harch with
        | error e => exact .error e
        | ok hl =>
          refine .ok ⟨hp, ⟨?_, hl.1⟩, hl.2⟩
          dsimp only
          rw [hw3.rest]

/-! ## The constructors -/

theorem subsidenceRate_timed (u : K) (curve : Curve K) (x : Fin C → K) :
    subsidenceRate (fun v => (curve v).map (· / u)) x =
      (subsidenceRate curve x).map fun rate c => rate c / u := by
  have hfind : ∀ {g g' : K → Option Err} (_ : ∀ v, g' v = g v) {A : Err → Except Err (Fin C → K)}
      {B B' : Except Err (Fin C → K)} (_ : ∀ e, (A e).map (fun rate c => rate c / u) = A e)
      (_ : List.findSome? g (List.ofFn x) = none → B' = B.map fun rate c => rate c / u),
      ((List.findSome? g' (List.ofFn x)).elim B' A) =
        ((List.findSome? g (List.ofFn x)).elim B A).map fun rate c => rate c / u := by
    intro g g' hg A B B' hA hB
    rw [funext hg]
    cases h : List.findSome? g (List.ofFn x) with
    | none => exact hB h
    | some e => exact (hA e).symm
  have hu : ∀ f : Curve K, f.atColumns x = ((List.ofFn x).findSome? fun v => match f v with
      | .error e => some e
      | .ok _ => none).elim (.ok fun c => match f (x c) with
        | .ok v => v
        | .error _ => 0) fun e => .error e := by
    intro f
    unfold Curve.atColumns
    generalize List.findSome? _ _ = o
    cases o <;> rfl
  unfold subsidenceRate
  rw [hu, hu]
  refine hfind (fun v => ?_) (fun _ => rfl) fun h => ?_
  · cases curve v <;> rfl
  · show Except.ok _ = Except.ok _
    congr 1
    funext c
    dsimp only
    cases curve (x c) with
    | ok v => rfl
    | error e => exact (zero_div u).symm

theorem create_timed {u : K} (hu : 0 < u) {ps : List (Process K)} {env env' : Env R C K}
    (hfree : UnitFree u ps env env') {p : Process K} (hmem : p ∈ ps)
    {s s' : ProcState R C K × World R (C + 2) K} (hs : StateTimed u s s') :
    Alike (StateTimed u) (p.create env s) ((timedProcess u p).create env' s') := by
  obtain ⟨q, w⟩ := s
  obtain ⟨q', w'⟩ := s'
  obtain ⟨hp, hr, hl⟩ := hs
  have hsame := hfree.same
  have hiso := hfree.isostasy
  generalize env'.sqrtf = g at hsame
  subst hsame
  dsimp only at hp hr hl
  generalize w'.layers = l' at hr hl
  subst hr
  cases p with
  | seaLevel curve start =>
    exact .ok ⟨⟨rfl, hp.rate, hp.diffuser, hp.flex⟩, ⟨rfl, hl⟩⟩
  | subsidence curve =>
    simp only [timedProcess, Process.create, subsidenceRate_timed]
    cases hr : subsidenceRate curve env.x with
    | error e => exact .error e
    | ok rate => exact .ok ⟨⟨hp.seaTime, fun _ => rfl, hp.diffuser, hp.flex⟩, ⟨rfl, hl⟩⟩
  | compaction => exact .ok ⟨hp, ⟨rfl, hl⟩⟩
  | diffusion P =>
    simp only [timedProcess, Process.create, diffuserInit]
    by_cases h0 : P.plainSlope = 0
    · rw [if_pos h0, if_pos h0]; exact .error _
    · rw [if_neg h0, if_neg h0]
      refine .ok ⟨⟨hp.seaTime, hp.rate, ?_, hp.flex⟩, ⟨rfl, hl⟩⟩
      have h1 : P.sedimentLoad / u * (1 + P.seaLevel * P.loadSeaLevel) =
          P.sedimentLoad * (1 + P.seaLevel * P.loadSeaLevel) / u := by ring
      have h2 : P.sedimentLoad * (1 + P.seaLevel * P.loadSeaLevel) / u / P.plainSlope =
          P.sedimentLoad * (1 + P.seaLevel * P.loadSeaLevel) / P.plainSlope / u := by ring
      unfold timedDiffuser
      simp only [Option.getD_none, zero_mul, zero_div, h1, h2]
  | fluvial P => exact .ok ⟨hp, ⟨rfl, hl⟩⟩
  | flexure t =>
    have ht := flexPoolInit_timed (R := R) (C := C + 2) hu t
      fun v hv => hiso v (Or.inl (hv ▸ hmem))
    simp only [timedProcess, Process.create, ht]
    cases flexPoolInit R (C + 2) t with
    | error e => exact .error e
    | ok pool =>
      refine .ok ⟨⟨hp.seaTime, hp.rate, hp.diffuser, ?_⟩, ⟨rfl, hl⟩⟩
      dsimp only
      rw [hp.flex]
      rfl
  | waterFlexure t =>
    have ht := flexPoolInit_timed (R := R) (C := C + 2) hu t
      fun v hv => hiso v (Or.inr (hv ▸ hmem))
    simp only [timedProcess, Process.create, ht]
    cases flexPoolInit R (C + 2) t with
    | error e => exact .error e
    | ok pool =>
      refine .ok ⟨⟨hp.seaTime, hp.rate, hp.diffuser, ?_⟩, ⟨rfl, hl⟩⟩
      dsimp only
      rw [hp.flex]
      rfl
  | shoreline alpha =>
    simp only [timedProcess, Process.create, shorelineInit, shorelineUpdate]
    cases overRows (fun r => shorelineFinderRow env.kind env.xtol env.rtol alpha false
        (List.ofFn env.x) (rowList w.topo r) (rowList w.deposit r) w.seaLevel) with
    | error e => exact .error e
    | ok res => exact .ok ⟨hp, ⟨rfl, hl⟩⟩

theorem createAll_timed {u : K} (hu : 0 < u) {all : List (Process K)} {env env' : Env R C K}
    (hfree : UnitFree u all env env') :
    ∀ (ps : List (Process K)), (∀ p ∈ ps, p ∈ all) →
    ∀ {s s' : ProcState R C K × World R (C + 2) K}, StateTimed u s s' →
    Alike (StateTimed u) (createAll env ps s) (createAll env' (ps.map (timedProcess u)) s') := by
  intro ps
  induction ps with
  | nil => intro _ s s' hs; exact .ok hs
  | cons p ps ih =>
    intro hall s s' hs
    have h1 := create_timed hu hfree (hall p List.mem_cons_self) hs
    simp only [List.map_cons, createAll]
    generalize p.create env s = a at h1
    generalize (timedProcess u p).create env' s' = b at h1
    cases h1 with
    | error e => exact .error e
    | ok hab => exact ih (fun q hq => hall q (List.mem_cons_of_mem _ hq)) hab

theorem modelInit_timed {u : K} {start : K} {p p' : ProcState R C K} {w w' : World R (C + 2) K}
    (hp : ProcTimed u p p') (hw : WorldTimed u w w') :
    Alike (ModelTimed u)
      (modelInit start (fun (t : K) (q : ProcState R C K) => { q with seaTime := t }) p w)
      (modelInit (start * u) (fun (t : K) (q : ProcState R C K) => { q with seaTime := t }) p' w') := by
  obtain ⟨hr, hl⟩ := hw
  generalize w'.layers = l' at hr hl
  subst hr
  unfold modelInit
  dsimp only
  cases w.rowShore with
  | none => exact .error _
  | some a =>
    cases w.rowShelf with
    | none => exact .error _
    | some b =>
      dsimp only
      have hkw : KwdsTimed u
          [("age", fun _ : Cell R (C + 2) => start),
            ("water_depth", fun c => -atCells w.bedrock c),
            ("t0", fun _ => 10), ("percent_sand", fun _ => 1/2), ("porosity", fun _ => 1/2)]
          [("age", fun _ => start * u), ("water_depth", fun c => -atCells w.bedrock c),
            ("t0", fun _ => 10), ("percent_sand", fun _ => 1/2),
            ("porosity", fun _ => 1/2)] := by
        refine ⟨rfl, ⟨_, rfl, rfl⟩, fun k hk1 => ?_⟩
        have e1 : ("age" == k) = false := by simpa using fun h => hk1 h.symm
        simp only [EventLayers.Kwds.get?, List.find?_cons, e1]
      have hadd := add_timed hl (dz := fun _ => 100) hkw
      generalize w.layers.add _ _ = x at hadd
      generalize l'.add _ _ = x' at hadd
      cases hadd with
      | error e => exact .error e
      | @ok ev ev' hl =>
        dsimp only
        refine .ok ⟨⟨rfl, hp.rate, hp.diffuser, hp.flex⟩, ?_, rfl⟩
        cases w.waterLoad with
        | none => exact ⟨rfl, hl⟩
        | some f => exact ⟨rfl, hl⟩

end Verif
