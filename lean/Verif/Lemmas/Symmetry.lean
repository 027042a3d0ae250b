import Verif.Lemmas.Prelude
import Verif.Lemmas.Driver
import Verif.Lemmas.DriverRun
import Verif.Spec.Symmetry

/-! Helper lemmas: what the steps of the model do to a grid that has been raised and to a clock that
has been shifted. -/

set_option autoImplicit false
set_option linter.unusedSectionVars false

namespace Verif

open Verif.Spec

variable {ι K : Type*} {R C : ℕ} [Field K] [LinearOrder K] [IsStrictOrderedRing K]

/-! ## Layers -/

theorem foldl_max_add (τ : K) (l : List K) : ∀ x : K,
    (l.map (· + τ)).foldl max (x + τ) = l.foldl max x + τ := by
  induction l with
  | nil => intro x; rfl
  | cons a l ih =>
    intro x
    simp only [List.map_cons, List.foldl_cons]
    rw [max_add_add_right, ih]

theorem listMax_add (τ : K) {l : List K} (h : l ≠ []) :
    listMax (l.map (· + τ)) = listMax l + τ := by
  cases l with
  | nil => exact absurd rfl h
  | cons a l => exact foldl_max_add τ l a

theorem layersMoved_empty (τ : K) (d : Prop) :
    LayersMoved τ d (EventLayers.empty : EventLayers ι K) EventLayers.empty where
  n := rfl
  tracking := rfl
  dz := fun _ => rfl
  age := fun _ => rfl
  depths := fun _ _ => rfl
  others := fun _ _ _ _ => rfl
  full := fun _ => rfl
  tracked := fun h => absurd rfl h

/-- Two layers to be added that correspond. -/
structure KwdsMoved (τ : K) (depth : Prop) (kw kw' : EventLayers.Kwds ι K) : Prop where
  names : kw'.map (·.1) = kw.map (·.1)
  age : ∃ v, kw.get? "age" = some v ∧ kw'.get? "age" = some fun s => v s + τ
  depths : depth → kw'.get? "water_depth" = kw.get? "water_depth"
  others : ∀ k, k ≠ "age" → k ≠ "water_depth" → kw'.get? k = kw.get? k

theorem kwds_mem_of_get? {kw : EventLayers.Kwds ι K} {k : String} {v : ι → K}
    (h : kw.get? k = some v) : k ∈ kw.map (·.1) := by
  unfold EventLayers.Kwds.get? at h
  cases hf : kw.find? (fun p => p.1 == k) with
  | none => rw [hf] at h; cases h
  | some p =>
    have h1 := List.find?_some hf
    have h2 := List.mem_of_find?_eq_some hf
    have : p.1 = k := by simpa using h1
    exact this ▸ List.mem_map_of_mem h2

theorem add_moved {τ : K} {d : Prop} {l l' : EventLayers ι K} (hl : LayersMoved τ d l l')
    {dz : ι → K} {kw kw' : EventLayers.Kwds ι K} (hkw : KwdsMoved τ d kw kw') :
    Alike (LayersMoved τ d) (l.add dz kw) (l'.add dz kw') := by
  have htr : (if l'.n = 0 then kw'.map (·.1) else l'.tracking) =
      (if l.n = 0 then kw.map (·.1) else l.tracking) := by
    rw [hl.n, hl.tracking, hkw.names]
  have hall : ∀ t : List String, (kw'.all fun p => t.contains p.1) =
      (kw.all fun p => t.contains p.1) := by
    intro t
    have h1 : ∀ q : EventLayers.Kwds ι K, (q.all fun p => t.contains p.1) =
        (q.map (·.1)).all fun k => t.contains k := by
      intro q; rw [List.all_map]; rfl
    rw [h1, h1, hkw.names]
  obtain ⟨v, hv, hv'⟩ := hkw.age
  unfold EventLayers.add
  dsimp only
  rw [htr]
  generalize ht : (if l.n = 0 then kw.map (·.1) else l.tracking) = t
  rw [hall t]
  by_cases hc : (kw.all fun p => t.contains p.1) = true
  · rw [if_pos hc, if_pos hc]
    have hage : "age" ∈ t := by
      have := kwds_mem_of_get? hv
      obtain ⟨p, hp, hpe⟩ := List.mem_map.1 this
      have := List.all_eq_true.1 hc p hp
      rw [hpe] at this
      exact List.contains_iff_mem.1 this
    have hcon : t.contains "age" = true := List.contains_iff_mem.2 hage
    refine .ok ⟨by rw [hl.n], rfl, fun s => by dsimp only; rw [hl.dz], fun s => ?_, fun hd s => ?_,
      fun k h1 h2 s => ?_, fun s => ?_, fun _ => hage⟩
    · dsimp only
      rw [if_pos hcon, if_pos hcon, hl.age, hv, hv']
      simp
    · dsimp only
      rw [hl.depths hd, hkw.depths hd]
    · dsimp only
      rw [hl.others k h1 h2, hkw.others k h1 h2]
    · dsimp only
      rw [if_pos hcon]
      simp [hl.full s]
  · rw [if_neg hc, if_neg hc]
    exact .error _

theorem reduceColumn_map {α β : Type*} (start stop : ℕ) (f : List α → α) (f' : List β → β)
    (g : α → β) (col : List α)
    (h : f' (((col.drop start).take (stop - start)).map g) =
      g (f ((col.drop start).take (stop - start)))) :
    reduceColumn start stop f' (col.map g) = (reduceColumn start stop f col).map g := by
  unfold reduceColumn
  rw [← List.map_take, ← List.map_drop, ← List.map_drop, ← List.map_take, h]
  simp

theorem reduceColumn_length (start stop : ℕ) (f : List K → K) (col : List K)
    (h : start < stop) (h2 : stop ≤ col.length) :
    (reduceColumn start stop f col).length = col.length - (stop - start) + 1 := by
  unfold reduceColumn
  simp only [List.length_append, List.length_take, List.length_drop, List.length_cons,
    List.length_nil]
  omega

theorem archiveOld_moved {τ : K} {d : Prop} {l l' : EventLayers ι K} (hl : LayersMoved τ d l l')
    (a : ℕ) :
    Alike (fun st st' : Archive ι K => LayersMoved τ d st.layers st'.layers ∧
        st'.archived = st.archived)
      (Archive.archiveOld ⟨l, a⟩) (Archive.archiveOld ⟨l', a⟩) := by
  unfold Archive.archiveOld
  dsimp only
  rw [hl.n]
  by_cases hm : ((l.n : ℤ) - (a : ℤ)) % 20 = 0
  · rw [if_pos hm, if_pos hm]
    unfold EventLayers.reduce
    rw [hl.n, hl.tracking]
    by_cases hr : a < a + 10 ∧ a + 10 ≤ l.n
    · rw [if_neg (not_not.2 hr), if_neg (not_not.2 hr)]
      by_cases ht : (l.tracking.all fun name =>
          (layerReducers (K := K) l.tracking name).isSome) = true
      · rw [if_pos ht, if_pos ht]
        dsimp only
        have hage : "age" ∈ l.tracking := hl.tracked (by omega)
        have hcon : l.tracking.contains "age" = true := List.contains_iff_mem.2 hage
        have hred : layerReducers (K := K) l.tracking "age" = some listMax := by
          unfold layerReducers; rw [if_pos rfl]
        refine .ok ⟨⟨rfl, rfl, fun s => by dsimp only; rw [hl.dz], fun s => ?_, fun hd s => ?_,
          fun k h1 h2 s => ?_, fun s => ?_, fun _ => hage⟩, rfl⟩
        · dsimp only
          rw [if_pos hcon, if_pos hcon, hred, hl.age]
          refine reduceColumn_map _ _ _ _ _ _ ?_
          refine listMax_add τ ?_
          intro h0
          have := congrArg List.length h0
          simp only [List.length_take, List.length_drop, List.length_nil] at this
          have := hl.full s
          omega
        · dsimp only
          rw [hl.depths hd]
        · dsimp only
          rw [hl.others k h1 h2]
        · dsimp only
          rw [if_pos hcon, reduceColumn_length _ _ _ _ hr.1 (by rw [hl.full s]; exact hr.2),
            hl.full s]
      · rw [if_neg ht, if_neg ht]
        exact .error _
    · rw [if_pos hr, if_pos hr]
      exact .error _
  · rw [if_neg hm, if_neg hm]
    exact .ok ⟨hl, rfl⟩

/-! ## Rows -/

theorem shorelineIndexRow_raise (nx : ℕ) (z : List K) (sl h : K) :
    shorelineIndexRow nx (z.map (· + h)) (sl + h) = shorelineIndexRow nx z sl := by
  unfold shorelineIndexRow
  simp only [List.length_map]
  have : ((List.range z.length).filter fun i =>
      ((z.map (· + h))[i]?.map fun v => decide (v < sl + h)).getD false) =
      ((List.range z.length).filter fun i => (z[i]?.map fun v => decide (v < sl)).getD false) := by
    refine List.filter_congr fun i _ => ?_
    rw [List.getElem?_map]
    cases z[i]? <;> simp
  rw [this]

theorem shorelineRow_raise (kind : InterpKind K) (xtol rtol : K) (x z : List K) (sl h : K) :
    shorelineRow kind xtol rtol x (z.map (· + h)) (sl + h) = shorelineRow kind xtol rtol x z sl := by
  unfold shorelineRow
  rw [shorelineIndexRow_raise]
  have h1 : ((z.map (· + h)).map fun v => v - (sl + h)) = z.map fun v => v - sl := by
    rw [List.map_map]
    refine List.map_congr_left fun v _ => ?_
    simp only [Function.comp]
    ring
  rw [h1]
  cases shorelineIndexRow x.length z sl with
  | ok i => rfl
  | error e =>
    cases e <;> try rfl
    cases z with
    | nil => rfl
    | cons a z => simp

theorem rowList_raise {f f' : NodeField R C K} {h : K} (hf : ∀ n, f' n = f n + h) (r : Fin R) :
    rowList f' r = (rowList f r).map (· + h) := by
  unfold rowList getProfile
  rw [List.map_ofFn]
  congr 1
  funext c
  exact hf _

theorem npGradient_raise (z : Fin C → K) (h : K) (i : Fin C) :
    npGradient (fun j => z j + h) i = npGradient z i := by
  unfold npGradient
  split_ifs <;> ring

theorem fluvialRow_raise (expf sqrtf : K → K) (P : FluvialParams K) (dx dt : K)
    (x z deposit dz : Fin C → K) (sl h : K) (shore : Except Err K) :
    fluvialRow expf sqrtf P dx dt x (fun c => z c + h) deposit dz (sl + h) shore =
      fluvialRow expf sqrtf P dx dt x z deposit dz sl shore := by
  have h1 : (fun i => npGradient (fun c => z c + h) i / dx) = fun i => npGradient z i / dx := by
    funext i; rw [npGradient_raise]
  have h2 : (fun i => sl + h - (z i + h)) = fun i => sl - z i := by
    funext i; ring
  unfold fluvialRow
  rw [h1, h2]

theorem overRows_congr {α : Type*} {n : ℕ} {g g' : Fin n → Except Err α} (h : ∀ i, g' i = g i) :
    overRows g' = overRows g := by
  rw [funext h]

/-! ## Components -/

theorem worldMoved_mono {h τ : K} {k k' : Known} {w w' : World R C K} (hw : WorldMoved h τ k w w')
    (h1 : k'.depth → k.depth) (h2 : k'.incr → k.incr) (h3 : k'.level → k.level)
    (h4 : k'.rows → k.rows) : WorldMoved h τ k' w w' :=
  { hw with
    waterLoad := fun h => hw.waterLoad (h1 h)
    seaIncr := fun h => hw.seaIncr (h2 h)
    seaLevel := fun h => hw.seaLevel (h3 h)
    rowShore := fun h => hw.rowShore (h4 h)
    rowShelf := fun h => hw.rowShelf (h4 h)
    layers := { hw.layers with depths := fun h => hw.layers.depths (h1 h) } }

theorem alike_mono {α β : Type*} {r r' : α → β → Prop} {x : Except Err α} {y : Except Err β}
    (h : Alike r x y) (hr : ∀ a b, r a b → r' a b) : Alike r' x y := by
  cases h with
  | ok h => exact .ok (hr _ _ h)
  | error e => exact .error e

/-- The sea level of a step does not depend on the sea level before it; only the increment does. -/
theorem sea_moved {env : Env R C K} {h τ : K} {k : Known} {curve : Curve K} {start dt : K}
    {s s' : ProcState R C K × World R (C + 2) K} (hs : StateMoved h τ k s s') :
    Alike (StateMoved h τ ⟨k.depth, k.level, True, k.rows⟩)
      ((Process.seaLevel curve start).component env dt s)
      ((movedProcess h τ (.seaLevel curve start)).component env dt s') := by
  obtain ⟨hp, hw⟩ := hs
  have ht : s'.1.seaTime + dt - τ = s.1.seaTime + dt := by rw [hp.seaTime]; ring
  simp only [movedProcess, Process.component, seaComponent, seaStep]
  rw [ht]
  cases hc : curve (s.1.seaTime + dt) with
  | error e => exact .error e
  | ok v =>
    refine .ok ⟨⟨?_, hp.rate, hp.flex, hp.diffuser, hp.load⟩, ?_⟩
    · dsimp only
      rw [hp.seaTime]; ring
    · exact { hw with
        seaLevel := fun _ => rfl
        seaIncr := fun hl => by
          dsimp only
          rw [hw.seaLevel hl]
          congr 1
          ring }

theorem subtractDeflection_moved {h τ : K} {k : Known} {w w' : World R C K}
    (hw : WorldMoved h τ k w w') (d : Profile R C K) :
    Alike (WorldMoved h τ k) (subtractDeflection d w) (subtractDeflection d w') := by
  unfold subtractDeflection
  rw [hw.increment]
  cases w.increment with
  | none => exact .error _
  | some f => exact .ok { hw with increment := rfl }

theorem diffusivityLoop_moved {h τ : K} {k : Known} (hk : k.level) {w w' : World R C K}
    (hw : WorldMoved h τ k w w') (expf : K → K) (dx : K) (x : Fin C → K) (shore : Fin R → K) :
    ∀ (rs : List (Fin R)) (s : Diffuser R C K) (c : K), h * s.loadSl = 0 →
      diffusivityLoop expf dx x shore w' rs { s with seaLevel0 := c } =
        { diffusivityLoop expf dx x shore w rs s with seaLevel0 := c } ∧
      (diffusivityLoop expf dx x shore w rs s).loadSl = s.loadSl ∧
      (diffusivityLoop expf dx x shore w rs s).seaLevel0 = s.seaLevel0 := by
  intro rs
  induction rs with
  | nil => intro s c _; exact ⟨rfl, rfl, rfl⟩
  | cons r rs ih =>
    intro s c hl
    have hload : Diffuser.newLoad { s with seaLevel0 := c } w'.seaLevel =
        s.newLoad w.seaLevel := by
      unfold Diffuser.newLoad
      dsimp only
      rw [hw.seaLevel hk, add_mul, hl, add_zero]
    have hdepth : ∀ c, w'.seaLevel - getProfile w'.topo r c =
        w.seaLevel - getProfile w.topo r c := by
      intro c
      unfold getProfile
      rw [hw.seaLevel hk, hw.topo]
      ring
    simp only [diffusivityLoop]
    rw [hload]
    simp only [hdepth]
    have := ih { s with
      load := s.newLoad w.seaLevel
      ksh := s.newLoad w.seaLevel / s.plainSlope
      kd := fun n => if n.1 = activeRow r then
          (if 0 < w.seaLevel - getProfile w.topo r n.2 then
            wetDiffusivity expf s s.load dx (x n.2) (shore r)
              (w.seaLevel - getProfile w.topo r n.2)
          else landDiffusivity s (s.newLoad w.seaLevel / s.plainSlope) (x n.2)
            (decide (r.val = R / 2))) else s.kd n } c hl
    exact ⟨this.1, this.2.1, this.2.2⟩

theorem setUpstream_raise (slope : K) (x : Fin (C + 2) → K) {z z' : NodeField R (C + 2) K} {h : K}
    (hz : ∀ n, z' n = z n + h) :
    setUpstream slope x z' = fun n => setUpstream slope x z n + h := by
  funext n
  unfold setUpstream
  split
  · split_ifs
    · rw [hz]; ring
    · exact hz n
  · exact hz n

theorem diffuser_moved {env : Env R C K} {h τ : K} {k : Known} (hk : k.level)
    (hsolve : ∀ kd dt z, env.solve kd dt (fun n => z n + h) =
      (env.solve kd dt z).map fun y n => y n + h) {P P' : DiffuserParams K} {dt : K}
    {s s' : ProcState R C K × World R (C + 2) K} (hs : StateMoved h τ k s s') :
    Alike (StateMoved h τ k) ((Process.diffusion P).component env dt s)
      ((Process.diffusion P').component env dt s') := by
  obtain ⟨hp, hw⟩ := hs
  have hshore : overRows (fun r => shorelineRow env.kind env.xtol env.rtol (List.ofFn env.x)
      (rowList s'.2.topo r) s'.2.seaLevel) =
      overRows (fun r => shorelineRow env.kind env.xtol env.rtol (List.ofFn env.x)
        (rowList s.2.topo r) s.2.seaLevel) := by
    refine overRows_congr fun r => ?_
    rw [rowList_raise hw.topo, hw.seaLevel hk, shorelineRow_raise]
  simp only [Process.component, diffuserComponent, diffuserStep]
  rw [hshore]
  cases overRows (fun r => shorelineRow env.kind env.xtol env.rtol (List.ofFn env.x)
      (rowList s.2.topo r) s.2.seaLevel) with
  | error e => exact .error e
  | ok shore =>
    dsimp only
    have hreg : s'.1.diffuser.Regular env.dx s'.2 ↔ s.1.diffuser.Regular env.dx s.2 := by
      have hdepth : ∀ r c, s'.2.seaLevel - getProfile s'.2.topo r c =
          s.2.seaLevel - getProfile s.2.topo r c := by
        intro r c
        unfold getProfile
        rw [hw.seaLevel hk, hw.topo]
        ring
      unfold Diffuser.Regular
      rw [hp.diffuser]
      simp only [hdepth]
    by_cases hd : s.1.diffuser.Regular env.dx s.2
    swap
    · rw [if_neg hd, if_neg (fun h' => hd (hreg.mp h'))]
      exact .error _
    rw [if_pos hd, if_pos (hreg.mpr hd)]
    have hloop := diffusivityLoop_moved hk hw env.expf env.dx env.x shore (List.finRange R)
      s.1.diffuser (s.1.diffuser.seaLevel0 + h) hp.load
    have hcoef : calcDiffusionCoef env.expf env.dx env.x shore s'.2 s'.1.diffuser =
        { calcDiffusionCoef env.expf env.dx env.x shore s.2 s.1.diffuser with
          seaLevel0 := (calcDiffusionCoef env.expf env.dx env.x shore s.2 s.1.diffuser).seaLevel0
            + h } := by
      rw [hp.diffuser]
      unfold calcDiffusionCoef
      rw [hloop.1, hloop.2.2]
    have hsl : (calcDiffusionCoef env.expf env.dx env.x shore s.2 s.1.diffuser).loadSl =
        s.1.diffuser.loadSl := hloop.2.1
    rw [hcoef]
    dsimp only
    rw [setUpstream_raise _ _ hw.topo, hsolve]
    cases env.solve (calcDiffusionCoef env.expf env.dx env.x shore s.2 s.1.diffuser).kd dt
        (setUpstream (calcDiffusionCoef env.expf env.dx env.x shore s.2 s.1.diffuser).plainSlope
          env.x s.2.topo) with
    | error e => exact .error e
    | ok after =>
      refine .ok ⟨⟨hp.seaTime, hp.rate, hp.flex, rfl, ?_⟩, ?_⟩
      · dsimp only
        rw [hsl]
        exact hp.load
      · exact { hw with
          topo := fun n => rfl
          deposit := by
            dsimp only
            funext n
            rw [hw.deposit]
            ring }

theorem component_moved {env : Env R C K} {h τ : K} {ps : List (Process K)}
    (hext : ExternalsMove env h τ ps) {p : Process K} (hp : p ∈ ps) {k : Known}
    (hlevel : k.level) (hrows : k.rows) (hwater : k.incr ∨ ∀ t, p ≠ .waterFlexure t) {dt : K}
    {s s' : ProcState R C K × World R (C + 2) K} (hs : StateMoved h τ k s s') :
    Alike (StateMoved h τ k) (p.component env dt s)
      ((movedProcess h τ p).component env dt s') := by
  cases p with
  | seaLevel curve start =>
    exact alike_mono (sea_moved hs) fun a b hab =>
      ⟨hab.1, worldMoved_mono hab.2 id (fun _ => hlevel) (fun _ => trivial) id⟩
  | subsidence curve =>
    obtain ⟨hp, hw⟩ := hs
    simp only [movedProcess, Process.component, subsidenceComponent, subsidenceStep]
    rw [hw.increment, hp.rate]
    cases s.2.increment with
    | none => exact .error _
    | some f => exact .ok ⟨hp, { hw with increment := rfl }⟩
  | compaction =>
    obtain ⟨hp', hw⟩ := hs
    simp only [movedProcess, Process.component]
    have := hext.compact hp dt k.depth _ _ hw.layers
    generalize env.compact dt s.2.layers = a at this
    generalize env.compact dt s'.2.layers = b at this
    cases this with
    | error e => exact .error e
    | ok hl => exact .ok ⟨hp', { hw with layers := hl }⟩
  | diffusion P => exact diffuser_moved hlevel (hext.solve ⟨P, hp⟩) hs
  | fluvial P =>
    obtain ⟨hp, hw⟩ := hs
    simp only [movedProcess, Process.component, fluvialComponent, fluvialStep]
    rw [hw.sand, hw.increment]
    cases s.2.sand with
    | none => exact .error _
    | some sand =>
      cases s.2.increment with
      | none => exact .error _
      | some inc =>
        dsimp only
        by_cases hR : R / 2 < R
        · rw [dif_pos hR, dif_pos hR]
          have hz : getProfile s'.2.topo ⟨R / 2, hR⟩ =
              fun c => getProfile s.2.topo ⟨R / 2, hR⟩ c + h := by
            funext c; exact hw.topo _
          rw [hz, hw.deposit, rowList_raise hw.topo, hw.seaLevel hlevel, shorelineRow_raise,
            fluvialRow_raise]
          cases fluvialRow env.expf env.sqrtf P env.dx dt env.x (getProfile s.2.topo ⟨R / 2, hR⟩)
              (getProfile s.2.deposit ⟨R / 2, hR⟩) (getProfile inc ⟨R / 2, hR⟩) s.2.seaLevel
              (shorelineRow env.kind env.xtol env.rtol (List.ofFn env.x)
                (rowList s.2.topo ⟨R / 2, hR⟩) s.2.seaLevel) with
          | error e => exact .error e
          | ok v =>
            dsimp only
            by_cases hv : ∀ c, (v.1 c).toNum ≠ none
            · rw [if_pos hv, if_pos hv]
              exact .ok ⟨hp, { hw with
                sand := rfl, deposit := rfl, increment := rfl, seaLevel := fun _ => rfl }⟩
            · rw [if_neg hv, if_neg hv]
              exact .error _
        · rw [dif_neg hR, dif_neg hR]
          exact .error _
  | flexure t =>
    obtain ⟨hp, hw⟩ := hs
    simp only [movedProcess, Process.component, flexComponent, sedFlexStep]
    rw [hw.sedLoad, hp.flex]
    cases s.2.sedLoad with
    | none => exact .error _
    | some total =>
      dsimp only
      generalize hd : dynamicDeflection env.expf s.1.flex.sed _ dt = d
      have := subtractDeflection_moved hw d.1
      generalize subtractDeflection d.1 s.2 = a at this
      generalize subtractDeflection d.1 s'.2 = b at this
      cases this with
      | error e => exact .error e
      | ok hl => exact .ok ⟨⟨hp.seaTime, hp.rate, rfl, hp.diffuser, hp.load⟩, hl⟩
  | waterFlexure t =>
    obtain ⟨hp, hw⟩ := hs
    have hi : k.incr := hwater.resolve_right fun h => h t rfl
    simp only [movedProcess, Process.component, flexComponent, waterFlexStep]
    rw [hw.seaIncr hi, hw.waterIncr, hp.flex]
    cases s.2.seaIncr with
    | none => exact .error _
    | some dsl =>
      cases s.2.waterIncr with
      | none => exact .error _
      | some depth =>
        dsimp only
        generalize hd : dynamicDeflection env.expf s.1.flex.water _ dt = d
        have := subtractDeflection_moved hw d.1
        generalize subtractDeflection d.1 s.2 = a at this
        generalize subtractDeflection d.1 s'.2 = b at this
        cases this with
        | error e => exact .error e
        | ok hl => exact .ok ⟨⟨hp.seaTime, hp.rate, rfl, hp.diffuser, hp.load⟩, hl⟩
  | shoreline alpha =>
    obtain ⟨hp, hw⟩ := hs
    have hrow : overRows (fun r => shorelineFinderRow env.kind env.xtol env.rtol alpha true
        (List.ofFn env.x) (rowList s'.2.topo r) (rowList s'.2.deposit r) s'.2.seaLevel) =
        overRows (fun r => shorelineFinderRow env.kind env.xtol env.rtol alpha true
          (List.ofFn env.x) (rowList s.2.topo r) (rowList s.2.deposit r) s.2.seaLevel) := by
      refine overRows_congr fun r => ?_
      unfold shorelineFinderRow
      rw [rowList_raise hw.topo, hw.seaLevel hlevel, shorelineRow_raise, hw.deposit]
    simp only [movedProcess, Process.component, shorelineComponent, shorelineUpdate]
    rw [hrow, hw.rowShore hrows, hw.rowShelf hrows]
    cases overRows (fun r => shorelineFinderRow env.kind env.xtol env.rtol alpha true
        (List.ofFn env.x) (rowList s.2.topo r) (rowList s.2.deposit r) s.2.seaLevel) with
    | error e => exact .error e
    | ok res =>
      cases s.2.rowShore with
      | none => exact .error _
      | some a =>
        cases s.2.rowShelf with
        | none => exact .error _
        | some b => exact .ok ⟨hp, { hw with rowShore := fun _ => rfl, rowShelf := fun _ => rfl }⟩

theorem runComponents_moved {env : Env R C K} {h τ : K} {all : List (Process K)}
    (hext : ExternalsMove env h τ all) {k : Known} (hlevel : k.level) (hrows : k.rows) {dt : K} :
    ∀ (ps : List (Process K)), (∀ p ∈ ps, p ∈ all) →
      (k.incr ∨ ∀ t, Process.waterFlexure t ∉ ps) →
      ∀ {s s' : ProcState R C K × World R (C + 2) K}, StateMoved h τ k s s' →
      Alike (StateMoved h τ k) (runComponents (ps.map (Process.component env)) dt s)
        (runComponents ((ps.map (movedProcess h τ)).map (Process.component env)) dt s') := by
  intro ps
  induction ps with
  | nil => intro _ _ s s' hs; exact .ok hs
  | cons p ps ih =>
    intro hall hwater s s' hs
    have h1 := component_moved hext (hall p List.mem_cons_self) hlevel hrows (dt := dt)
      (hwater.imp id fun h t ht => h t (ht ▸ List.mem_cons_self)) hs
    simp only [List.map_cons, runComponents]
    generalize p.component env dt s = a at h1
    generalize (movedProcess h τ p).component env dt s' = b at h1
    cases h1 with
    | error e => exact .error e
    | ok hl =>
      exact ih (fun q hq => hall q (List.mem_cons_of_mem _ hq))
        (hwater.imp id fun h t ht => h t (List.mem_cons_of_mem _ ht)) hl

/-! ## A step of the driver -/

theorem atCells_raise {f f' : NodeField R C K} {h : K} (hf : ∀ n, f' n = f n + h) (c : Cell R C) :
    atCells f' c = atCells f c + h := hf _

theorem layerProperties_moved {h τ : K} {k : Known} (hk : k.level) {w w' : World R C K}
    (hw : WorldMoved h τ k w w') (time porosity : K) :
    KwdsMoved τ k.depth (layerProperties time porosity w)
      (layerProperties (time + τ) porosity w') := by
  have hd : (fun c => w'.seaLevel - atCells w'.topo c) = fun c => w.seaLevel - atCells w.topo c := by
    funext c
    rw [hw.seaLevel hk, atCells_raise hw.topo]
    ring
  refine ⟨?_, ⟨fun _ => time, rfl, rfl⟩, fun _ => ?_, fun n h1 h2 => ?_⟩
  · unfold layerProperties
    rw [hw.sand]
    cases w.sand <;> rfl
  · unfold layerProperties
    rw [hd, hw.deposit, hw.sand]
    rfl
  · unfold layerProperties
    rw [hd, hw.deposit, hw.sand]
    have : ("age" == n) = false := by simpa using fun h => h1 h.symm
    simp only [EventLayers.Kwds.get?, List.cons_append, List.find?_cons, this]

theorem updateSedLoad_moved {h τ : K} {k : Known} (hk : k.level) {w w' : World R C K}
    (hw : WorldMoved h τ k w w') :
    Alike (WorldMoved h τ k) (updateSedLoad w) (updateSedLoad w') := by
  have hd : ∀ r c, getProfile w'.topo r c - w'.seaLevel = getProfile w.topo r c - w.seaLevel := by
    intro r c
    unfold getProfile
    rw [hw.seaLevel hk, hw.topo]
    ring
  unfold updateSedLoad
  rw [hw.sedLoad, hw.sand]
  cases w.sedLoad with
  | none => exact .ok hw
  | some load =>
    cases hsand : w.sand with
    | none => exact .error _
    | some sand =>
      simp only [hd, hw.deposit]
      exact .ok { hw with sedLoad := rfl, deposit := rfl, sand := rfl }

theorem updateBedrock_moved {h τ : K} {k : Known} {w w' : World R C K}
    (hw : WorldMoved h τ k w w') : WorldMoved h τ k (updateBedrock w) (updateBedrock w') := by
  unfold updateBedrock
  rw [hw.increment]
  cases w.increment with
  | none => exact hw
  | some inc =>
    exact { hw with
      bedrock := fun n => by dsimp only; rw [hw.bedrock]; ring
      increment := rfl }

theorem resetTopo_moved {h τ : K} {k : Known} {w w' : World R C K}
    (hw : WorldMoved h τ k w w') : WorldMoved h τ k (resetTopo w) (resetTopo w') := by
  unfold resetTopo
  exact { hw with
    topo := fun n => by
      dsimp only
      unfold setCells
      cases cellOf n with
      | none => exact hw.topo n
      | some c =>
        dsimp only
        unfold EventLayers.thickness
        rw [atCells_raise hw.bedrock, hw.layers.dz]
        ring }

theorem waterDepth_moved {h τ : K} {k : Known} (hk : k.level) {w w' : World R C K}
    (hw : WorldMoved h τ k w w') : waterDepth w' = waterDepth w := by
  funext r c
  unfold waterDepth getProfile
  rw [hw.seaLevel hk, hw.topo]
  congr 1
  ring

theorem updateFields_moved {h τ : K} {k : Known} (hk : k.level) {w w' : World R C K}
    (hw : WorldMoved h τ k w w') :
    Alike (WorldMoved h τ k) (updateFields w) (updateFields w') := by
  have hold := waterDepth_moved hk hw
  have h1 := updateSedLoad_moved hk hw
  unfold updateFields
  dsimp only
  rw [hold]
  generalize updateSedLoad w = a at h1
  generalize updateSedLoad w' = b at h1
  cases h1 with
  | error e => exact .error e
  | @ok a b h1 =>
    have h2 := resetTopo_moved (updateBedrock_moved h1)
    have hnew := waterDepth_moved hk h2
    dsimp only
    rw [hnew, h2.waterIncr]
    cases hi : (resetTopo (updateBedrock a)).waterIncr with
    | none => exact .ok h2
    | some f => exact .ok { h2 with waterIncr := rfl }

theorem advance_moved {h τ : K} {k : Known} (hk : k.level)
    {comps comps' : List (Component (ProcState R C K) R (C + 2) K)} {porosity : ProcState R C K → K}
    (hpor : ∀ p p', ProcMoved h τ p p' → porosity p' = porosity p) {time dt : K}
    {m m' : ModelState (ProcState R C K) R (C + 2) K} (ha : m'.archived = m.archived)
    (hrun : Alike (StateMoved h τ k) (runComponents comps dt (m.comps, clearDeposit m.world))
      (runComponents comps' dt (m'.comps, clearDeposit m'.world))) :
    Alike (ModelMoved h τ k) (advanceComponents comps porosity time dt m)
      (advanceComponents comps' porosity (time + τ) dt m') := by
  unfold advanceComponents
  generalize runComponents comps dt (m.comps, clearDeposit m.world) = a at hrun
  generalize runComponents comps' dt (m'.comps, clearDeposit m'.world) = b at hrun
  cases hrun with
  | error e => exact .error e
  | @ok a b hab =>
    obtain ⟨p, w⟩ := a
    obtain ⟨p', w'⟩ := b
    obtain ⟨hp, hw⟩ := hab
    dsimp only at hp hw ⊢
    have hadd := add_moved hw.layers (dz := atCells w.deposit)
      (layerProperties_moved hk hw time (porosity p))
    have hcells : atCells w'.deposit = atCells w.deposit := by rw [hw.deposit]
    rw [hpor p p' hp, hcells]
    generalize w.layers.add (atCells w.deposit) (layerProperties time (porosity p) w) = a at hadd
    generalize w'.layers.add (atCells w.deposit)
      (layerProperties (time + τ) (porosity p) w') = b at hadd
    cases hadd with
    | error e => exact .error e
    | @ok ev ev' hl =>
      dsimp only
      have hw2 : WorldMoved h τ k { w with layers := ev } { w' with layers := ev' } :=
        { hw with layers := hl }
      have hup := updateFields_moved hk hw2
      generalize updateFields { w with layers := ev } = a at hup
      generalize updateFields { w' with layers := ev' } = b at hup
      cases hup with
      | error e => exact .error e
      | @ok w3 w3' hw3 =>
        dsimp only
        have harch := archiveOld_moved hw3.layers m.archived
        rw [ha]
        generalize Archive.archiveOld ⟨w3.layers, m.archived⟩ = a at harch
        generalize Archive.archiveOld ⟨w3'.layers, m.archived⟩ = b at harch
        cases harch with
        | error e => exact .error e
        | ok hl => exact .ok ⟨hp, { hw3 with layers := hl.1 }, hl.2⟩

theorem clearDeposit_moved {h τ : K} {k : Known} {w w' : World R C K}
    (hw : WorldMoved h τ k w w') : WorldMoved h τ k (clearDeposit w) (clearDeposit w') := by
  unfold clearDeposit
  exact { hw with deposit := rfl }

/-! ## The constructors -/

theorem create_moved {env : Env R C K} {h τ : K} {p : Process K} {d i : Prop}
    (hload : ∀ P, p = .diffusion P → h * P.loadSeaLevel = 0)
    {s s' t t' : ProcState R C K × World R (C + 2) K} (hs : StateMoved h τ ⟨d, i, False, False⟩ s s')
    (ht : p.create env s = .ok t) (ht' : (movedProcess h τ p).create env s' = .ok t') :
    StateMoved h τ ⟨d, i, False, False⟩ t t' := by
  obtain ⟨hp, hw⟩ := hs
  cases p with
  | seaLevel curve start =>
    simp only [movedProcess, Process.create, Except.ok.injEq] at ht ht'
    subst ht ht'
    exact ⟨⟨rfl, hp.rate, hp.flex, hp.diffuser, hp.load⟩, hw⟩
  | subsidence curve =>
    simp only [movedProcess, Process.create] at ht ht'
    cases hr : subsidenceRate curve env.x with
    | error e => rw [hr] at ht; cases ht
    | ok rate =>
      rw [hr] at ht ht'
      simp only [Except.ok.injEq] at ht ht'
      subst ht ht'
      exact ⟨⟨hp.seaTime, rfl, hp.flex, hp.diffuser, hp.load⟩,
        { hw with increment := by dsimp only; rw [hw.increment] }⟩
  | compaction =>
    simp only [movedProcess, Process.create, Except.ok.injEq] at ht ht'
    subst ht ht'
    exact ⟨hp, hw⟩
  | diffusion P =>
    have hl := hload P rfl
    simp only [movedProcess, Process.create, diffuserInit] at ht ht'
    by_cases h0 : P.plainSlope = 0
    · rw [if_pos h0] at ht; cases ht
    · rw [if_neg h0] at ht ht'
      simp only [Except.ok.injEq] at ht ht'
      subst ht ht'
      have : P.sedimentLoad * (1 + (P.seaLevel + h) * P.loadSeaLevel) =
          P.sedimentLoad * (1 + P.seaLevel * P.loadSeaLevel) := by
        rw [add_mul, hl, add_zero]
      refine ⟨⟨hp.seaTime, hp.rate, hp.flex, ?_, hl⟩, { hw with seaLevel := fun h => h.elim }⟩
      dsimp only
      rw [this]
  | fluvial P =>
    simp only [movedProcess, Process.create, Except.ok.injEq] at ht ht'
    subst ht ht'
    exact ⟨hp, { hw with
      sand := by dsimp only; rw [hw.sand]
      increment := by dsimp only; rw [hw.increment] }⟩
  | flexure iso =>
    simp only [movedProcess, Process.create] at ht ht'
    cases hr : flexPoolInit R (C + 2) iso with
    | error e => rw [hr] at ht; cases ht
    | ok pool =>
      rw [hr] at ht ht'
      simp only [Except.ok.injEq] at ht ht'
      subst ht ht'
      refine ⟨⟨hp.seaTime, hp.rate, ?_, hp.diffuser, hp.load⟩, { hw with
        sedLoad := by dsimp only; rw [hw.sedLoad]
        increment := by dsimp only; rw [hw.increment] }⟩
      dsimp only
      rw [hp.flex, hw.sedLoad]
  | waterFlexure iso =>
    simp only [movedProcess, Process.create] at ht ht'
    cases hr : flexPoolInit R (C + 2) iso with
    | error e => rw [hr] at ht; cases ht
    | ok pool =>
      rw [hr] at ht ht'
      simp only [Except.ok.injEq] at ht ht'
      subst ht ht'
      refine ⟨⟨hp.seaTime, hp.rate, ?_, hp.diffuser, hp.load⟩, { hw with
        waterIncr := by dsimp only; rw [hw.waterIncr]
        seaIncr := fun hi => by dsimp only; rw [hw.seaIncr hi]
        increment := by dsimp only; rw [hw.increment] }⟩
      dsimp only
      rw [hp.flex]
  | shoreline alpha =>
    simp only [movedProcess, Process.create, shorelineInit, shorelineUpdate] at ht ht'
    cases hr : overRows (fun r => shorelineFinderRow env.kind env.xtol env.rtol alpha false
        (List.ofFn env.x) (rowList s.2.topo r) (rowList s.2.deposit r) s.2.seaLevel) with
    | error e => rw [hr] at ht; cases ht
    | ok res =>
      cases hr' : overRows (fun r => shorelineFinderRow env.kind env.xtol env.rtol alpha false
          (List.ofFn env.x) (rowList s'.2.topo r) (rowList s'.2.deposit r) s'.2.seaLevel) with
      | error e => rw [hr'] at ht'; cases ht'
      | ok res' =>
        rw [hr] at ht
        rw [hr'] at ht'
        simp only [Except.ok.injEq] at ht ht'
        subst ht ht'
        exact ⟨hp, { hw with rowShore := fun h => h.elim, rowShelf := fun h => h.elim }⟩

/-- A constructor on a grid whose sea level corresponds. -/
theorem create_alike {env : Env R C K} {h τ : K} {p : Process K} {k : Known} (hk : k.level)
    (hload : ∀ P, p = .diffusion P → h * P.loadSeaLevel = 0)
    {s s' : ProcState R C K × World R (C + 2) K} (hs : StateMoved h τ k s s') :
    Alike (StateMoved h τ k) (p.create env s) ((movedProcess h τ p).create env s') := by
  obtain ⟨hp, hw⟩ := hs
  cases p with
  | seaLevel curve start =>
    exact .ok ⟨⟨rfl, hp.rate, hp.flex, hp.diffuser, hp.load⟩, hw⟩
  | subsidence curve =>
    simp only [movedProcess, Process.create]
    cases hr : subsidenceRate curve env.x with
    | error e => exact .error e
    | ok rate =>
      exact .ok ⟨⟨hp.seaTime, rfl, hp.flex, hp.diffuser, hp.load⟩,
        { hw with increment := by dsimp only; rw [hw.increment] }⟩
  | compaction => exact .ok ⟨hp, hw⟩
  | diffusion P =>
    have hl := hload P rfl
    simp only [movedProcess, Process.create, diffuserInit]
    by_cases h0 : P.plainSlope = 0
    · rw [if_pos h0, if_pos h0]; exact .error _
    · rw [if_neg h0, if_neg h0]
      have : P.sedimentLoad * (1 + (P.seaLevel + h) * P.loadSeaLevel) =
          P.sedimentLoad * (1 + P.seaLevel * P.loadSeaLevel) := by
        rw [add_mul, hl, add_zero]
      refine .ok ⟨⟨hp.seaTime, hp.rate, hp.flex, ?_, hl⟩, { hw with seaLevel := fun _ => rfl }⟩
      dsimp only
      rw [this]
  | fluvial P =>
    exact .ok ⟨hp, { hw with
      sand := by dsimp only; rw [hw.sand]
      increment := by dsimp only; rw [hw.increment] }⟩
  | flexure iso =>
    simp only [movedProcess, Process.create]
    cases hr : flexPoolInit R (C + 2) iso with
    | error e => exact .error e
    | ok pool =>
      refine .ok ⟨⟨hp.seaTime, hp.rate, ?_, hp.diffuser, hp.load⟩, { hw with
        sedLoad := by dsimp only; rw [hw.sedLoad]
        increment := by dsimp only; rw [hw.increment] }⟩
      dsimp only
      rw [hp.flex, hw.sedLoad]
  | waterFlexure iso =>
    simp only [movedProcess, Process.create]
    cases hr : flexPoolInit R (C + 2) iso with
    | error e => exact .error e
    | ok pool =>
      refine .ok ⟨⟨hp.seaTime, hp.rate, ?_, hp.diffuser, hp.load⟩, { hw with
        waterIncr := by dsimp only; rw [hw.waterIncr]
        seaIncr := fun hi => by dsimp only; rw [hw.seaIncr hi]
        increment := by dsimp only; rw [hw.increment] }⟩
      dsimp only
      rw [hp.flex]
  | shoreline alpha =>
    have hrow : overRows (fun r => shorelineFinderRow env.kind env.xtol env.rtol alpha false
        (List.ofFn env.x) (rowList s'.2.topo r) (rowList s'.2.deposit r) s'.2.seaLevel) =
        overRows (fun r => shorelineFinderRow env.kind env.xtol env.rtol alpha false
          (List.ofFn env.x) (rowList s.2.topo r) (rowList s.2.deposit r) s.2.seaLevel) := by
      refine overRows_congr fun r => ?_
      unfold shorelineFinderRow
      rw [rowList_raise hw.topo, hw.seaLevel hk, shorelineRow_raise, hw.deposit]
    simp only [movedProcess, Process.create, shorelineInit, shorelineUpdate]
    rw [hrow]
    cases overRows (fun r => shorelineFinderRow env.kind env.xtol env.rtol alpha false
        (List.ofFn env.x) (rowList s.2.topo r) (rowList s.2.deposit r) s.2.seaLevel) with
    | error e => exact .error e
    | ok res => exact .ok ⟨hp, { hw with rowShore := fun _ => rfl, rowShelf := fun _ => rfl }⟩

theorem createAll_alike {env : Env R C K} {h τ : K} {k : Known} (hk : k.level) :
    ∀ (ps : List (Process K)), (∀ P, .diffusion P ∈ ps → h * P.loadSeaLevel = 0) →
    ∀ {s s' : ProcState R C K × World R (C + 2) K}, StateMoved h τ k s s' →
    Alike (StateMoved h τ k) (createAll env ps s)
      (createAll env (ps.map (movedProcess h τ)) s') := by
  intro ps
  induction ps with
  | nil => intro _ s s' hs; exact .ok hs
  | cons p ps ih =>
    intro hload s s' hs
    have h1 := create_alike (env := env) (p := p) hk
      (fun P hP => hload P (hP ▸ List.mem_cons_self)) hs
    simp only [List.map_cons, createAll]
    generalize p.create env s = a at h1
    generalize (movedProcess h τ p).create env s' = b at h1
    cases h1 with
    | error e => exact .error e
    | ok hab => exact ih (fun P hP => hload P (List.mem_cons_of_mem _ hP)) hab

theorem createAll_moved {env : Env R C K} {h τ : K} {d i : Prop} : ∀ (ps : List (Process K)),
    (∀ P, .diffusion P ∈ ps → h * P.loadSeaLevel = 0) →
    ∀ {s s' t t' : ProcState R C K × World R (C + 2) K},
    StateMoved h τ ⟨d, i, False, False⟩ s s' → createAll env ps s = .ok t →
    createAll env (ps.map (movedProcess h τ)) s' = .ok t' →
    StateMoved h τ ⟨d, i, False, False⟩ t t' := by
  intro ps
  induction ps with
  | nil =>
    intro _ s s' t t' hs ht ht'
    cases ht
    cases ht'
    exact hs
  | cons p ps ih =>
    intro hload s s' t t' hs ht ht'
    simp only [List.map_cons, createAll] at ht ht'
    cases h1 : p.create env s with
    | error e => rw [h1] at ht; cases ht
    | ok u =>
      cases h2 : (movedProcess h τ p).create env s' with
      | error e => rw [h2] at ht'; cases ht'
      | ok u' =>
        rw [h1] at ht
        rw [h2] at ht'
        exact ih (fun P hP => hload P (List.mem_cons_of_mem _ hP))
          (create_moved (fun P hP => hload P (hP ▸ List.mem_cons_self)) hs h1 h2) ht ht'

end Verif
