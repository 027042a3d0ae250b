import Verif.Lemmas.Prelude
import Verif.Lemmas.Grid
import Verif.Lemmas.Processes
import Verif.Spec.Order

/-!
# Processes that can be exchanged

Every process is written as: look at part of the state, compute an outcome, apply the outcome.
-/

set_option autoImplicit false
set_option linter.unusedSectionVars false

namespace Verif

open Spec

section
variable {K : Type*} {S : Type*}

/-- A step as a view, a computation on the view, and a change. -/
structure Viewed (f : S → Except Err S) where
  V : Type*
  O : Type*
  view : S → V
  compute : V → Except Err O
  apply : O → S → S
  eq : ∀ x, f x = (compute (view x)).map fun o => apply o x

/-- One step after the other. -/
def andThen (f g : S → Except Err S) (x : S) : Except Err S :=
  match f x with
  | .error e => .error e
  | .ok y => g y

theorem viewed_comm {f g : S → Except Err S} (F : Viewed f) (G : Viewed g)
    (h1 : ∀ o x, F.view (G.apply o x) = F.view x) (h2 : ∀ o x, G.view (F.apply o x) = G.view x)
    (h3 : ∀ o o' x, F.apply o (G.apply o' x) = G.apply o' (F.apply o x)) (x z : S) :
    andThen f g x = .ok z ↔ andThen g f x = .ok z := by
  unfold andThen
  rw [F.eq, G.eq]
  cases hF : F.compute (F.view x) with
  | error e =>
    cases hG : G.compute (G.view x) with
    | error e' => simp [Except.map]
    | ok o' => simp [Except.map, F.eq, h1, hF]
  | ok o =>
    cases hG : G.compute (G.view x) with
    | error e' => simp [Except.map, G.eq, h2, hG]
    | ok o' => simp [Except.map, F.eq, G.eq, h1, h2, hF, hG, h3]

end

variable {K : Type*} {R C : ℕ} [Field K] [LinearOrder K] [IsStrictOrderedRing K]

/-- Add to the increment of the bedrock, where there is one. -/
def addIncrement (d : Profile R C K) (w : World R C K) : World R C K :=
  { w with increment := w.increment.map fun f => setProfile f fun r c => getProfile f r c + d r c }

theorem setProfile_setProfile (f : NodeField R C K) (v v' : Profile R C K) :
    setProfile (setProfile f v) v' = setProfile f v' := by
  funext n
  unfold setProfile
  split <;> rfl

theorem addIncrement_comm (d d' : Profile R C K) (w : World R C K) :
    addIncrement d (addIncrement d' w) = addIncrement d' (addIncrement d w) := by
  unfold addIncrement
  cases hi : w.increment with
  | none => rfl
  | some f =>
    simp only [Option.map_some, World.mk.injEq, getProfile_setProfile, setProfile_setProfile]
    simp only [true_and, and_true]
    congr 2
    funext r c
    ring

theorem addIncrement_isSome (d : Profile R C K) (w : World R C K) :
    (addIncrement d w).increment.isSome = w.increment.isSome := by
  unfold addIncrement
  simp

theorem subtractDeflection_eq (d : Profile R C K) (w : World R C K) :
    subtractDeflection d w = if w.increment.isSome then
      .ok (addIncrement (fun r c => -d r c) w)
    else .error (.keyError "bedrock_surface__increment_of_elevation") := by
  unfold subtractDeflection addIncrement
  cases hi : w.increment with
  | none => rfl
  | some f => simp [sub_eq_add_neg]

theorem diffusivityLoop_congr (expf : K → K) (dx : K) (x : Fin C → K) (shore : Fin R → K)
    (w w' : World R C K) (h1 : w'.topo = w.topo) (h2 : w'.seaLevel = w.seaLevel)
    (rows : List (Fin R)) (s : Diffuser R C K) :
    diffusivityLoop expf dx x shore w' rows s = diffusivityLoop expf dx x shore w rows s := by
  induction rows generalizing s with
  | nil => rfl
  | cons r rows ih =>
    simp only [diffusivityLoop, h1, h2]
    exact ih _

theorem calcDiffusionCoef_congr (expf : K → K) (dx : K) (x : Fin C → K) (shore : Fin R → K)
    (w w' : World R C K) (h1 : w'.topo = w.topo) (h2 : w'.seaLevel = w.seaLevel)
    (s : Diffuser R C K) :
    calcDiffusionCoef expf dx x shore w' s = calcDiffusionCoef expf dx x shore w s := by
  unfold calcDiffusionCoef
  rw [diffusivityLoop_congr expf dx x shore w w' h1 h2]

variable (env : Env R C K) (dt : K)

/-- What the processes compute with and change is in a pair of attributes and grid. -/
abbrev Whole (R C : ℕ) (K : Type*) := ProcState R C K × World R (C + 2) K

def viewSea (curve : Curve K) (start : K) :
    Viewed (S := Whole R C K) ((Process.seaLevel curve start).component env dt) where
  V := SeaState K
  O := SeaState K
  view := fun x => ⟨x.1.seaTime, x.2.seaLevel, x.2.seaIncr⟩
  compute := fun v => match seaStep curve dt v with
    | (_, some e) => .error e
    | (s, none) => .ok s
  apply := fun s x => ({ x.1 with seaTime := s.time },
    { x.2 with seaLevel := s.level, seaIncr := s.incr })
  eq := fun x => by
    simp only [Process.component, seaComponent]
    split <;> rename_i h <;> simp [h, Except.map]

def viewSubsidence (curve : Curve K) :
    Viewed (S := Whole R C K) ((Process.subsidence curve).component env dt) where
  V := Bool × (Fin (C + 2) → K)
  O := Fin (C + 2) → K
  view := fun x => (x.2.increment.isSome, x.1.rate)
  compute := fun v => if v.1 then .ok v.2 else
    .error (.keyError "bedrock_surface__increment_of_elevation")
  apply := fun rate x => (x.1, addIncrement (fun _ c => rate c * dt) x.2)
  eq := fun x => by
    simp only [Process.component, subsidenceComponent, subsidenceStep]
    cases hi : x.2.increment with
    | none => simp [Except.map]
    | some f => simp [Except.map, addIncrement, hi]

def viewCompaction : Viewed (S := Whole R C K) ((Process.compaction).component env dt) where
  V := EventLayers (Cell R (C + 2)) K
  O := EventLayers (Cell R (C + 2)) K
  view := fun x => x.2.layers
  compute := env.compact dt
  apply := fun l x => (x.1, { x.2 with layers := l })
  eq := fun x => by
    simp only [Process.component]
    split <;> rename_i h <;> simp [h, Except.map]

def viewDiffusion (P : DiffuserParams K) :
    Viewed (S := Whole R C K) ((Process.diffusion P).component env dt) where
  V := Diffuser R (C + 2) K × World R (C + 2) K
  O := Diffuser R (C + 2) K × NodeField R (C + 2) K × NodeField R (C + 2) K
  view := fun x => (x.1.diffuser, { x.2 with
    increment := none, layers := EventLayers.empty })
  compute := fun v =>
    (diffuserStep env.kind env.xtol env.rtol env.expf env.solve env.dx env.x dt v.1 v.2).map
      fun y => (y.1, y.2.topo, y.2.deposit)
  apply := fun o x => ({ x.1 with diffuser := o.1 }, { x.2 with topo := o.2.1, deposit := o.2.2 })
  eq := fun x => by
    simp only [Process.component, diffuserComponent, diffuserStep]
    cases h1 : overRows (fun r => shorelineRow env.kind env.xtol env.rtol (List.ofFn env.x)
      (rowList x.2.topo r) x.2.seaLevel) with
    | error e => rfl
    | ok shore =>
      dsimp only
      have e : calcDiffusionCoef env.expf env.dx env.x shore { x.2 with
          increment := none, layers := EventLayers.empty } x.1.diffuser =
        calcDiffusionCoef env.expf env.dx env.x shore x.2 x.1.diffuser := by
        apply calcDiffusionCoef_congr <;> rfl
      rw [e]
      by_cases hreg : x.1.diffuser.Regular env.dx x.2
      swap
      · rw [if_neg hreg, if_neg (show ¬ x.1.diffuser.Regular env.dx { x.2 with
          increment := none, layers := EventLayers.empty } from hreg)]
        rfl
      rw [if_pos hreg, if_pos (show x.1.diffuser.Regular env.dx { x.2 with
          increment := none, layers := EventLayers.empty } from hreg)]
      cases h2 : env.solve (calcDiffusionCoef env.expf env.dx env.x shore x.2 x.1.diffuser).kd dt
        (setUpstream (calcDiffusionCoef env.expf env.dx env.x shore x.2 x.1.diffuser).plainSlope
          env.x x.2.topo) with
      | error e => rfl
      | ok after => rfl

def viewFluvial (P : FluvialParams K) :
    Viewed (S := Whole R C K) ((Process.fluvial P).component env dt) where
  V := World R (C + 2) K
  O := Option (NodeField R (C + 2) K) × NodeField R (C + 2) K
  view := fun x => { x.2 with layers := EventLayers.empty }
  compute := fun v =>
    (fluvialStep env.kind env.xtol env.rtol env.expf env.sqrtf P env.dx dt env.x v).map
      fun y => (y.sand, y.deposit)
  apply := fun o x => (x.1, { x.2 with sand := o.1, deposit := o.2 })
  eq := fun x => by
    simp only [Process.component, fluvialComponent, fluvialStep]
    cases hs : x.2.sand with
    | none => rfl
    | some sand =>
      cases hi : x.2.increment with
      | none => rfl
      | some inc =>
        dsimp only
        by_cases hR : R / 2 < R
        swap
        · simp only [dif_neg hR]; rfl
        simp only [dif_pos hR]
        cases hf : fluvialRow env.expf env.sqrtf P env.dx dt env.x
          (getProfile x.2.topo ⟨R / 2, hR⟩) (getProfile x.2.deposit ⟨R / 2, hR⟩)
          (getProfile inc ⟨R / 2, hR⟩) x.2.seaLevel
          (shorelineRow env.kind env.xtol env.rtol (List.ofFn env.x)
            (rowList x.2.topo ⟨R / 2, hR⟩) x.2.seaLevel) with
        | error e => rfl
        | ok out =>
          dsimp only
          by_cases ht : ∀ c, (out.1 c).toNum ≠ none
          · simp only [if_pos ht]; rfl
          · simp only [if_neg ht]; rfl

def viewFlexure (t : Option K) :
    Viewed (S := Whole R C K) ((Process.flexure t).component env dt) where
  V := Bool × FlexState R (C + 2) K × Option (NodeField R (C + 2) K)
  O := FlexState R (C + 2) K × Profile R (C + 2) K
  view := fun x => (x.2.increment.isSome, x.1.flex, x.2.sedLoad)
  compute := fun v => match v.2.2 with
    | none => .error (.keyError "sediment__total_of_loading")
    | some total =>
      let s := v.2.1
      let pressure := setProfile s.pressure fun r c =>
        (getProfile total r c - s.lastLoad r c) * env.gravity * env.dx
      let litho := setProfile s.litho fun r => env.flex (getProfile pressure r)
      let d := dynamicDeflection env.expf s.sed (getProfile litho) dt
      if v.1 then .ok ({ s with
        sed := d.2
        lastLoad := getProfile total
        pressure := pressure
        litho := litho }, fun r c => -d.1 r c)
      else .error (.keyError "bedrock_surface__increment_of_elevation")
  apply := fun o x => ({ x.1 with flex := o.1 }, addIncrement o.2 x.2)
  eq := fun x => by
    simp only [Process.component, flexComponent, sedFlexStep, subtractDeflection_eq]
    cases hl : x.2.sedLoad with
    | none => rfl
    | some total =>
      cases hi : x.2.increment.isSome with
      | false => simp [Except.map]
      | true => simp [Except.map]

def viewWaterFlexure (t : Option K) :
    Viewed (S := Whole R C K) ((Process.waterFlexure t).component env dt) where
  V := Bool × FlexState R (C + 2) K × Option K × Option (NodeField R (C + 2) K)
  O := FlexState R (C + 2) K × Profile R (C + 2) K
  view := fun x => (x.2.increment.isSome, x.1.flex, x.2.seaIncr, x.2.waterIncr)
  compute := fun v => match v.2.2.1 with
    | none => .error (.keyError "sea_level__increment_of_elevation")
    | some dsl => match v.2.2.2 with
      | none => .error (.keyError "water__increment_of_depth")
      | some depth =>
        let s := v.2.1
        let d := dynamicDeflection env.expf s.water (env.flexWater (getProfile depth) dsl) dt
        if v.1 then .ok ({ s with
          water := d.2
          litho := setProfile s.litho fun _ _ => 0 }, fun r c => -d.1 r c)
        else .error (.keyError "bedrock_surface__increment_of_elevation")
  apply := fun o x => ({ x.1 with flex := o.1 }, addIncrement o.2 x.2)
  eq := fun x => by
    simp only [Process.component, flexComponent, waterFlexStep, subtractDeflection_eq]
    cases hl : x.2.seaIncr with
    | none => rfl
    | some dsl =>
      cases hw : x.2.waterIncr with
      | none => rfl
      | some depth =>
        cases hi : x.2.increment.isSome with
        | false => simp [Except.map]
        | true => simp [Except.map]

def viewShoreline (alpha : K) :
    Viewed (S := Whole R C K) ((Process.shoreline alpha).component env dt) where
  V := World R (C + 2) K
  O := Option (Fin R → Option K) × Option (Fin R → Option K)
  view := fun x => { x.2 with increment := none, layers := EventLayers.empty }
  compute := fun v => (shorelineUpdate env.kind env.xtol env.rtol alpha true env.x v).map
    fun y => (y.rowShore, y.rowShelf)
  apply := fun o x => (x.1, { x.2 with rowShore := o.1, rowShelf := o.2 })
  eq := fun x => by
    simp only [Process.component, shorelineComponent, shorelineUpdate]
    cases h1 : overRows (fun r => shorelineFinderRow env.kind env.xtol env.rtol alpha true
      (List.ofFn env.x) (rowList x.2.topo r) (rowList x.2.deposit r) x.2.seaLevel) with
    | error e => rfl
    | ok res =>
      dsimp only
      cases ha : x.2.rowShore with
      | none => rfl
      | some a =>
        cases hb : x.2.rowShelf with
        | none => rfl
        | some b => rfl

/-- Exchange two processes, given how they look at the state and change it. -/
def Exchange (env : Env R C K) (dt : K) (p q : Process K) : Prop :=
  ∀ x z : Whole R C K, andThen (p.component env dt) (q.component env dt) x = .ok z ↔
    andThen (q.component env dt) (p.component env dt) x = .ok z

theorem exchange_symm {p q : Process K} (h : Exchange env dt p q) : Exchange env dt q p :=
  fun x z => (h x z).symm

theorem exchange_sea_sub (f : Curve K) (t : K) (g : Curve K) :
    Exchange env dt (.seaLevel f t) (.subsidence g) :=
  viewed_comm (viewSea env dt f t) (viewSubsidence env dt g)
    (fun _ _ => rfl) (fun _ _ => rfl) (fun _ _ _ => rfl)

theorem exchange_sea_flex (f : Curve K) (t : K) (u : Option K) :
    Exchange env dt (.seaLevel f t) (.flexure u) :=
  viewed_comm (viewSea env dt f t) (viewFlexure env dt u)
    (fun _ _ => rfl) (fun _ _ => rfl) (fun _ _ _ => rfl)

theorem exchange_comp (p : Process K) (hp : p.name ≠ "compaction") :
    Exchange env dt .compaction p := by
  cases p with
  | seaLevel f t =>
    exact viewed_comm (viewCompaction env dt) (viewSea env dt f t)
      (fun _ _ => rfl) (fun _ _ => rfl) (fun _ _ _ => rfl)
  | subsidence f =>
    exact viewed_comm (viewCompaction env dt) (viewSubsidence env dt f)
      (fun _ _ => rfl) (fun _ _ => rfl) (fun _ _ _ => rfl)
  | compaction => exact absurd rfl hp
  | diffusion P =>
    exact viewed_comm (viewCompaction env dt) (viewDiffusion env dt P)
      (fun _ _ => rfl) (fun _ _ => rfl) (fun _ _ _ => rfl)
  | fluvial P =>
    exact viewed_comm (viewCompaction env dt) (viewFluvial env dt P)
      (fun _ _ => rfl) (fun _ _ => rfl) (fun _ _ _ => rfl)
  | flexure t =>
    exact viewed_comm (viewCompaction env dt) (viewFlexure env dt t)
      (fun _ _ => rfl) (fun _ _ => rfl) (fun _ _ _ => rfl)
  | waterFlexure t =>
    exact viewed_comm (viewCompaction env dt) (viewWaterFlexure env dt t)
      (fun _ _ => rfl) (fun _ _ => rfl) (fun _ _ _ => rfl)
  | shoreline a =>
    exact viewed_comm (viewCompaction env dt) (viewShoreline env dt a)
      (fun _ _ => rfl) (fun _ _ => rfl) (fun _ _ _ => rfl)

theorem exchange_sub_diff (f : Curve K) (P : DiffuserParams K) :
    Exchange env dt (.subsidence f) (.diffusion P) :=
  viewed_comm (viewSubsidence env dt f) (viewDiffusion env dt P)
    (fun _ _ => rfl) (fun _ _ => rfl) (fun _ _ _ => rfl)

theorem exchange_sub_flex (f : Curve K) (t : Option K) :
    Exchange env dt (.subsidence f) (.flexure t) :=
  viewed_comm (viewSubsidence env dt f) (viewFlexure env dt t)
    (fun _ _ => Prod.ext (addIncrement_isSome _ _) rfl)
    (fun _ _ => Prod.ext (addIncrement_isSome _ _) rfl)
    (fun _ _ _ => Prod.ext rfl (addIncrement_comm _ _ _))

theorem exchange_sub_water (f : Curve K) (t : Option K) :
    Exchange env dt (.subsidence f) (.waterFlexure t) :=
  viewed_comm (viewSubsidence env dt f) (viewWaterFlexure env dt t)
    (fun _ _ => Prod.ext (addIncrement_isSome _ _) rfl)
    (fun _ _ => Prod.ext (addIncrement_isSome _ _) rfl)
    (fun _ _ _ => Prod.ext rfl (addIncrement_comm _ _ _))

theorem exchange_shore_sub (a : K) (f : Curve K) :
    Exchange env dt (.shoreline a) (.subsidence f) :=
  viewed_comm (viewShoreline env dt a) (viewSubsidence env dt f)
    (fun _ _ => rfl) (fun _ _ => rfl) (fun _ _ _ => rfl)

theorem exchange_shore_flex (a : K) (t : Option K) :
    Exchange env dt (.shoreline a) (.flexure t) :=
  viewed_comm (viewShoreline env dt a) (viewFlexure env dt t)
    (fun _ _ => rfl) (fun _ _ => rfl) (fun _ _ _ => rfl)

theorem exchange_shore_water (a : K) (t : Option K) :
    Exchange env dt (.shoreline a) (.waterFlexure t) :=
  viewed_comm (viewShoreline env dt a) (viewWaterFlexure env dt t)
    (fun _ _ => rfl) (fun _ _ => rfl) (fun _ _ _ => rfl)

theorem exchange_diff_flex (P : DiffuserParams K) (t : Option K) :
    Exchange env dt (.diffusion P) (.flexure t) :=
  viewed_comm (viewDiffusion env dt P) (viewFlexure env dt t)
    (fun _ _ => rfl) (fun _ _ => rfl) (fun _ _ _ => rfl)

theorem exchange_diff_water (P : DiffuserParams K) (t : Option K) :
    Exchange env dt (.diffusion P) (.waterFlexure t) :=
  viewed_comm (viewDiffusion env dt P) (viewWaterFlexure env dt t)
    (fun _ _ => rfl) (fun _ _ => rfl) (fun _ _ _ => rfl)

theorem independent_exchange (p q : Process K) (h : Independent p q) : Exchange env dt p q := by
  by_cases hp : p.name = "compaction"
  · cases p <;> simp [Process.name] at hp
    refine exchange_comp env dt q fun hq => ?_
    cases q <;> simp [Process.name] at hq
    exact h.1 rfl
  by_cases hq : q.name = "compaction"
  · cases q <;> simp [Process.name] at hq
    exact exchange_symm env dt (exchange_comp env dt p hp)
  cases p <;> cases q <;>
    first
    | exact absurd rfl hp
    | exact absurd rfl hq
    | exact exchange_sea_sub env dt _ _ _
    | exact exchange_symm env dt (exchange_sea_sub env dt _ _ _)
    | exact exchange_sea_flex env dt _ _ _
    | exact exchange_symm env dt (exchange_sea_flex env dt _ _ _)
    | exact absurd rfl h.1
    | exact exchange_sub_diff env dt _ _
    | exact exchange_symm env dt (exchange_sub_diff env dt _ _)
    | exact exchange_sub_flex env dt _ _
    | exact exchange_symm env dt (exchange_sub_flex env dt _ _)
    | exact exchange_sub_water env dt _ _
    | exact exchange_symm env dt (exchange_sub_water env dt _ _)
    | exact exchange_shore_sub env dt _ _
    | exact exchange_symm env dt (exchange_shore_sub env dt _ _)
    | exact exchange_shore_flex env dt _ _
    | exact exchange_symm env dt (exchange_shore_flex env dt _ _)
    | exact exchange_shore_water env dt _ _
    | exact exchange_symm env dt (exchange_shore_water env dt _ _)
    | exact exchange_diff_flex env dt _ _
    | exact exchange_symm env dt (exchange_diff_flex env dt _ _)
    | exact exchange_diff_water env dt _ _
    | exact exchange_symm env dt (exchange_diff_water env dt _ _)
    | (exfalso; simp [Independent, Process.name, fieldsSet, fieldsRead, fieldsAdded] at h; done)

/-! ### The constructors -/

def newSubsidence (curve : Curve K) :
    Viewed (S := Whole R C K) ((Process.subsidence curve).create env) where
  V := PUnit
  O := Fin (C + 2) → K
  view := fun _ => ⟨⟩
  compute := fun _ => subsidenceRate curve env.x
  apply := fun rate x =>
    ({ x.1 with rate := rate }, { x.2 with increment := addZeros x.2.increment })
  eq := fun x => by
    simp only [Process.create]
    split <;> rename_i h <;> simp [h, Except.map]

def newSea (curve : Curve K) (start : K) :
    Viewed (S := Whole R C K) ((Process.seaLevel curve start).create env) where
  V := PUnit
  O := PUnit
  view := fun _ => ⟨⟩
  compute := fun _ => .ok ⟨⟩
  apply := fun _ x => ({ x.1 with seaTime := start }, x.2)
  eq := fun x => rfl

def newCompaction : Viewed (S := Whole R C K) ((Process.compaction).create env) where
  V := PUnit
  O := PUnit
  view := fun _ => ⟨⟩
  compute := fun _ => .ok ⟨⟩
  apply := fun _ x => x
  eq := fun x => rfl

def newFluvial (P : FluvialParams K) :
    Viewed (S := Whole R C K) ((Process.fluvial P).create env) where
  V := PUnit
  O := PUnit
  view := fun _ => ⟨⟩
  compute := fun _ => .ok ⟨⟩
  apply := fun _ x =>
    (x.1, { x.2 with sand := addZeros x.2.sand, increment := addZeros x.2.increment })
  eq := fun x => rfl

def newDiffusion (P : DiffuserParams K) :
    Viewed (S := Whole R C K) ((Process.diffusion P).create env) where
  V := PUnit
  O := Diffuser R (C + 2) K
  view := fun _ => ⟨⟩
  compute := fun _ => if P.plainSlope = 0 then .error .zeroDivision else .ok
    { plainSlope := P.plainSlope, waveBase := P.waveBase, shorefaceHeight := P.shorefaceHeight
      alpha := P.alpha, shelfSlope := P.shelfSlope, load0 := P.sedimentLoad
      loadSl := P.loadSeaLevel, basinWidth := P.basinWidth
      load := P.sedimentLoad * (1 + P.seaLevel * P.loadSeaLevel)
      ksh := P.sedimentLoad * (1 + P.seaLevel * P.loadSeaLevel) / P.plainSlope
      seaLevel0 := P.seaLevel, time := 0, kd := fun _ => 0
      gridLoad := P.sedimentLoad * (1 + P.seaLevel * P.loadSeaLevel) }
  apply := fun d x => ({ x.1 with diffuser := d }, { x.2 with seaLevel := P.seaLevel })
  eq := fun x => by
    simp only [Process.create, diffuserInit]
    by_cases h : P.plainSlope = 0
    · simp [h, Except.map]
    · simp [h, Except.map]

def newFlexure (t : Option K) : Viewed (S := Whole R C K) ((Process.flexure t).create env) where
  V := PUnit
  O := FlexPool R (C + 2) K
  view := fun _ => ⟨⟩
  compute := fun _ => flexPoolInit R (C + 2) t
  apply := fun pool x =>
    ({ x.1 with flex := { x.1.flex with
        sed := pool
        lastLoad := getProfile ((addZeros x.2.sedLoad).getD fun _ => 0) } },
      { x.2 with sedLoad := addZeros x.2.sedLoad, increment := addZeros x.2.increment })
  eq := fun x => by
    simp only [Process.create]
    split <;> rename_i h <;> simp [h, Except.map]

def newWaterFlexure (t : Option K) :
    Viewed (S := Whole R C K) ((Process.waterFlexure t).create env) where
  V := PUnit
  O := FlexPool R (C + 2) K
  view := fun _ => ⟨⟩
  compute := fun _ => flexPoolInit R (C + 2) t
  apply := fun pool x =>
    ({ x.1 with flex := { x.1.flex with water := pool } },
      { x.2 with
        waterIncr := addZeros x.2.waterIncr
        seaIncr := some (x.2.seaIncr.getD 0)
        increment := addZeros x.2.increment })
  eq := fun x => by
    simp only [Process.create]
    split <;> rename_i h <;> simp [h, Except.map]

def newShoreline (alpha : K) :
    Viewed (S := Whole R C K) ((Process.shoreline alpha).create env) where
  V := NodeField R (C + 2) K × NodeField R (C + 2) K × K
  O := Fin R → K × Option K
  view := fun x => (x.2.topo, x.2.deposit, x.2.seaLevel)
  compute := fun v => overRows (fun r => shorelineFinderRow env.kind env.xtol env.rtol alpha false
    (List.ofFn env.x) (rowList v.1 r) (rowList v.2.1 r) v.2.2)
  apply := fun res x => (x.1, { x.2 with
    rowShore := some fun r => some (res r).1, rowShelf := some fun r => (res r).2 })
  eq := fun x => by
    simp only [Process.create, shorelineInit, shorelineUpdate]
    cases h1 : overRows (fun r => shorelineFinderRow env.kind env.xtol env.rtol alpha false
      (List.ofFn env.x) (rowList x.2.topo r) (rowList x.2.deposit r) x.2.seaLevel) with
    | error e => rfl
    | ok res => rfl

/-- Exchange two constructors. -/
def ExchangeNew (env : Env R C K) (p q : Process K) : Prop :=
  ∀ x z : Whole R C K, andThen (p.create env) (q.create env) x = .ok z ↔
    andThen (q.create env) (p.create env) x = .ok z

/-- How each constructor looks at the state. -/
def newView (env : Env R C K) (p : Process K) : Viewed (S := Whole R C K) (p.create env) :=
  match p with
  | .seaLevel f t => newSea env f t
  | .subsidence f => newSubsidence env f
  | .compaction => newCompaction env
  | .diffusion P => newDiffusion env P
  | .fluvial P => newFluvial env P
  | .flexure t => newFlexure env t
  | .waterFlexure t => newWaterFlexure env t
  | .shoreline a => newShoreline env a

theorem independent_exchangeNew (p q : Process K) (h : Independent p q) : ExchangeNew env p q := by
  cases p <;> cases q <;>
    first
    | exact absurd rfl h.1
    | exact viewed_comm (newView env _) (newView env _)
        (fun _ _ => rfl) (fun _ _ => rfl) (fun _ _ _ => rfl)
    | (exfalso; simp [Independent, Process.name, fieldsSet, fieldsRead, fieldsAdded] at h; done)

end Verif
