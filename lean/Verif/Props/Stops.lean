import Verif.Lemmas.Stops
import Verif.Spec.Stops
import Verif.Props.Package
import Verif.Props.FluvialFlat

/-!
# What can stop a simulation

C117: exactly when `find_shoreline` fails, exactly when a process of the package cannot take a step,
and what it means for a model made of these processes.
-/

set_option autoImplicit false
set_option linter.unusedSectionVars false

namespace Verif.Props

open Spec

variable {K : Type*} {R C : ℕ} [Field K] [LinearOrder K] [IsStrictOrderedRing K]

/-- What is assumed of the grid and of the external functions: increasing node positions, an
interpolation of any profile, tolerances as scipy has them, a grid short enough for 100 halvings
(2.5e18 m), a solver and a square root that work. -/
structure Usable (env : Env R C K) : Prop where
  x : ∀ i j, i < j → env.x i < env.x j
  kind : ∀ (z : Fin (C + 2) → K) sl, ∃ f,
    Interpolates env.kind (profileTable (List.ofFn env.x) (List.ofFn z) sl) f
  xtol : 0 < env.xtol
  rtol : 0 ≤ env.rtol
  span : env.x (Fin.last (C + 1)) - env.x 0 < env.xtol * 2 ^ 100
  dx : env.dx ≠ 0
  solve : ∀ kd dt z, ∃ z', env.solve kd dt z = .ok z'
  sqrt : ∀ a, 0 < a → 0 < env.sqrtf a

/-- C117: `find_shoreline` fails exactly on an island: water at both ends and land in between. It
raises `ValueError` then. Otherwise the shoreline is on the grid. -/
theorem shoreline_found {env : Env R C K} (hu : Usable env) (z : Fin (C + 2) → K) (sl : K) :
    (Island z sl → shorelineRow env.kind env.xtol env.rtol (List.ofFn env.x) (List.ofFn z) sl =
      .error .valueError) ∧
    (¬ Island z sl → ∃ s, shorelineRow env.kind env.xtol env.rtol (List.ofFn env.x) (List.ofFn z)
      sl = .ok s ∧ env.x 0 ≤ s ∧ s ≤ env.x (Fin.last (C + 1))) := by
  obtain ⟨f, hf⟩ := hu.kind z sl
  have hlx : (List.ofFn env.x).length = C + 2 := List.length_ofFn
  have hlz : (List.ofFn z).length = C + 2 := List.length_ofFn
  have hlen : (List.ofFn env.x).length = (List.ofFn z).length := by rw [hlx, hlz]
  have hgx : ∀ (i : ℕ) (hi : i < (List.ofFn env.x).length),
      (List.ofFn env.x)[i] = env.x ⟨i, by omega⟩ := fun i hi => by rw [List.getElem_ofFn]
  have hgz : ∀ (i : ℕ) (hi : i < (List.ofFn z).length),
      (List.ofFn z)[i] = z ⟨i, by omega⟩ := fun i hi => by rw [List.getElem_ofFn]
  have h0 : (List.ofFn z).head? = some (z 0) := by
    rw [List.head?_eq_getElem?, List.getElem?_eq_getElem (by omega), hgz]; rfl
  have hn : (List.ofFn z).getLast? = some (z (Fin.last (C + 1))) := by
    rw [List.getLast?_eq_getElem?, List.getElem?_eq_getElem (by omega), hgz]
    congr 2
    exact Fin.ext (by dsimp only [Fin.last]; omega)
  have hx0 : (List.ofFn env.x).head? = some (env.x 0) := by
    rw [List.head?_eq_getElem?, List.getElem?_eq_getElem (by omega), hgx]; rfl
  have hxn : (List.ofFn env.x).getLast? = some (env.x (Fin.last (C + 1))) := by
    rw [List.getLast?_eq_getElem?, List.getElem?_eq_getElem (by omega), hgx]
    congr 2
    exact Fin.ext (by dsimp only [Fin.last]; omega)
  have hmono : ∀ i j : Fin (C + 2), i ≤ j → env.x i ≤ env.x j := by
    intro i j hij
    rcases lt_or_eq_of_le hij with h | h
    · exact (hu.x _ _ h).le
    · rw [h]
  have hne : List.ofFn z ≠ [] := by intro h; rw [h] at hlz; simp at hlz
  have hpw : (List.ofFn env.x).Pairwise (· < ·) := List.pairwise_ofFn.mpr fun i j hij => hu.x i j hij
  have hall := shoreline_all env.kind env.xtol env.rtol (List.ofFn env.x) (List.ofFn z) sl hlen hne
  have hspan0 : env.x 0 ≤ env.x (Fin.last (C + 1)) := hmono _ _ (Fin.zero_le _)
  refine ⟨fun ⟨h1, h2, c, h3⟩ => shoreline_barrier_fails _ _ _ _ _ sl hlen f hf _ _ h0 hn h1 h2
    ⟨z c, List.mem_ofFn.mpr ⟨c, rfl⟩, h3⟩, fun hisl => ?_⟩
  by_cases hdry : ∀ v ∈ List.ofFn z, sl ≤ v
  · obtain ⟨s, h1, h2⟩ := hall.2 hdry
    rw [hxn] at h1
    cases h1
    exact ⟨_, h2, hspan0, le_rfl⟩
  by_cases hwet : ∀ v ∈ List.ofFn z, v < sl
  · obtain ⟨s, h1, h2⟩ := hall.1 hwet
    rw [hx0] at h1
    cases h1
    exact ⟨_, h2, le_rfl, hspan0⟩
  cases hidx : shorelineIndexRow (List.ofFn z).length (List.ofFn z) sl with
  | error e =>
    have h1 := shoreline_index_error_iff (List.ofFn z) sl
    have := h1.2 e hidx
    subst this
    rcases h1.1.mp hidx with h | h
    · exact absurd h hdry
    · exact absurd h hwet
  | ok i =>
    obtain ⟨⟨g1, g2⟩, g3, g4⟩ := (shoreline_index_iff (List.ofFn z) sl i).mp hidx
    have hiC : i < C + 2 := by omega
    by_cases hi0 : i = 0
    · subst hi0
      have hw0 : z 0 < sl := by rw [hgz] at g2; exact g2
      have hdn : sl ≤ z (Fin.last (C + 1)) := by
        by_contra hcon
        push Not at hwet
        obtain ⟨v, hv, hsv⟩ := hwet
        obtain ⟨c, rfl⟩ := List.mem_ofFn.mp hv
        exact hisl ⟨hw0, not_le.mp hcon, c, hsv⟩
      have hi1 : C + 1 < (List.ofFn env.x).length := by omega
      have hi2 : C + 1 < (List.ofFn z).length := by omega
      have m0 := mem_profileTable (x := List.ofFn env.x) (z := List.ofFn z) (sl := sl) (i := 0)
        (by omega) (by omega)
      have m1 := mem_profileTable (x := List.ofFn env.x) (z := List.ofFn z) (sl := sl) hi1 hi2
      rw [hgx, hgz] at m0 m1
      have hfb := hf.nodes _ m0
      have hfa := hf.nodes _ m1
      have hdef := hf.defined _ m0 _ m1
      have hmade : env.kind ((List.ofFn env.x).zip ((List.ofFn z).map fun v => v - sl)) = .ok f :=
        hf.made
      have hp : pyPrev (List.ofFn env.x) 0 = some (env.x (Fin.last (C + 1))) := by
        unfold pyPrev
        rw [if_pos rfl, hxn]
      have hb : (List.ofFn env.x)[0]? = some (env.x 0) := by
        rw [← List.head?_eq_getElem?, hx0]
      unfold shorelineRow
      rw [hlen, hidx]
      dsimp only
      rw [hmade]
      dsimp only
      rw [hp, hb]
      dsimp only
      unfold scipyBisect
      change f (env.x (Fin.last (C + 1))) = .ok (z (Fin.last (C + 1)) - sl) at hfa
      change f (env.x 0) = .ok (z 0 - sl) at hfb
      change DefinedOn f (env.x 0) (env.x (Fin.last (C + 1))) at hdef
      rw [hfa, hfb]
      dsimp only
      by_cases hz1 : z (Fin.last (C + 1)) - sl = 0
      · rw [if_pos hz1]
        exact ⟨_, rfl, hspan0, le_rfl⟩
      · rw [if_neg hz1, if_neg (sub_neg.mpr hw0).ne, if_neg]
        · exact scipyBisectLoop_back f _ _ _ _ _ hu.xtol hu.rtol hdef 99 _ _ le_rfl (by linarith)
            (by linarith) (by rw [neg_sub]; exact hu.span)
        · have h1 : ¬ (z (Fin.last (C + 1)) - sl < 0) := by linarith
          have h2 : z 0 - sl < 0 := by linarith
          simp [signbit, h1, h2]
    · have hd0 : sl ≤ z 0 := by
        have := g3 0 (by omega) (by omega)
        rw [hgz] at this
        exact this
      obtain ⟨s, s1, s2, s3⟩ := shoreline_bracket_partial env.kind env.xtol env.rtol _ _ sl hpw hlen
        f hf hu.xtol hu.rtol _ h0 hd0 i g1 g2 g3 (by
          rw [hgx, hgx]
          have ha := hmono ⟨i, hiC⟩ (Fin.last (C + 1)) (Fin.le_last _)
          have hb := hmono 0 ⟨i - 1, by omega⟩ (Fin.zero_le _)
          have := hu.span
          linarith)
      rw [hgx] at s2 s3
      exact ⟨s, s1, (hmono 0 _ (Fin.zero_le _)).trans s2, s3.trans (hmono _ _ (Fin.le_last _))⟩

/-- A step over all rows fails with `ValueError` exactly if some row is an island. -/
theorem overRows_island {α : Type*} {env : Env R C K} (hu : Usable env) (w : World R (C + 2) K)
    (g : K → Fin R → α) (e : Err)
    (h : Fin R → Except Err α)
    (hh : ∀ r, (∀ e, shorelineRow env.kind env.xtol env.rtol (List.ofFn env.x) (rowList w.topo r)
        w.seaLevel = .error e → h r = .error e) ∧
      ∀ s, shorelineRow env.kind env.xtol env.rtol (List.ofFn env.x) (rowList w.topo r)
        w.seaLevel = .ok s → h r = .ok (g s r)) :
    overRows h = .error e ↔ e = .valueError ∧ ∃ r, Island (rowOf w r) w.seaLevel := by
  have hrow : ∀ r, rowList w.topo r = List.ofFn (rowOf w r) := fun _ => rfl
  constructor
  · intro h1
    obtain ⟨r, hr, -⟩ := overRows_error h1
    by_cases hi : Island (rowOf w r) w.seaLevel
    · have := (hh r).1 _ (by rw [hrow]; exact (shoreline_found hu _ _).1 hi)
      rw [this] at hr
      cases hr
      exact ⟨rfl, r, hi⟩
    · obtain ⟨s, hs, -⟩ := (shoreline_found hu _ _).2 hi
      rw [(hh r).2 s (by rw [hrow]; exact hs)] at hr
      cases hr
  · rintro ⟨rfl, r, hi⟩
    have hr := (hh r).1 _ (by rw [hrow]; exact (shoreline_found hu _ _).1 hi)
    cases h1 : overRows h with
    | ok res =>
      have := overRows_ok h1 r
      rw [hr] at this
      cases this
    | error e =>
      obtain ⟨r', hr', -⟩ := overRows_error h1
      by_cases hi' : Island (rowOf w r') w.seaLevel
      · have := (hh r').1 _ (by rw [hrow]; exact (shoreline_found hu _ _).1 hi')
        rw [this] at hr'
        cases hr'
        rfl
      · obtain ⟨s, hs, -⟩ := (shoreline_found hu _ _).2 hi'
        rw [(hh r').2 s (by rw [hrow]; exact hs)] at hr'
        cases hr'

theorem npGradient_ne (z : Fin (C + 2) → K) (c : Fin (C + 2)) (h : ¬ FlatAt z c) :
    npGradient z c ≠ 0 := by
  unfold FlatAt at h
  unfold npGradient
  by_cases h1 : c.val + 1 < C + 2
  · rw [dif_pos h1]
    have hm : (⟨min (c.val + 1) (C + 1), by omega⟩ : Fin (C + 2)) = ⟨c.val + 1, h1⟩ :=
      Fin.ext (by dsimp only; omega)
    rw [hm] at h
    by_cases h0 : c.val = 0
    · rw [if_pos h0]
      have : (⟨c.val - 1, by omega⟩ : Fin (C + 2)) = c := Fin.ext (by dsimp only; omega)
      rw [this] at h
      exact sub_ne_zero.mpr h
    · rw [if_neg h0]
      exact div_ne_zero (sub_ne_zero.mpr h) two_ne_zero
  · have hm : (⟨min (c.val + 1) (C + 1), by omega⟩ : Fin (C + 2)) = c :=
      Fin.ext (by dsimp only; omega)
    rw [hm] at h
    rw [dif_neg h1, dif_pos (by omega)]
    exact sub_ne_zero.mpr h

/-- The fluvial process. -/
theorem fluvial_stops {env : Env R C K} (hu : Usable env) (hR : 0 < R) (dt : K) (hdt : dt ≠ 0)
    (P : FluvialParams K) (hP : 1000 < P.sandDensity) (q : ProcState R C K)
    (w : World R (C + 2) K) (hn : Needs (.fluvial P) w) (e : Err) :
    (Stops env dt q w e (.fluvial P) → (Process.fluvial P).component env dt (q, w) = .error e) ∧
    ((Process.fluvial P).component env dt (q, w) = .error e → Stops env dt q w e (.fluvial P) ∨
      e = .runtimeError ∧ FlatRow w) := by
  obtain ⟨sand, hsand⟩ := Option.isSome_iff_exists.mp hn.1
  obtain ⟨inc, hinc⟩ := Option.isSome_iff_exists.mp hn.2
  have hR2 : R / 2 < R := by omega
  have hrow : ∀ r, rowList w.topo r = List.ofFn (rowOf w r) := fun _ => rfl
  have hcomp : ∀ res, fluvialRow env.expf env.sqrtf P env.dx dt env.x (getProfile w.topo ⟨R / 2, hR2⟩)
      (getProfile w.deposit ⟨R / 2, hR2⟩) (getProfile inc ⟨R / 2, hR2⟩) w.seaLevel
      (shorelineRow env.kind env.xtol env.rtol (List.ofFn env.x) (rowList w.topo ⟨R / 2, hR2⟩)
        w.seaLevel) = .error res →
      (Process.fluvial P).component env dt (q, w) = .error res := by
    intro res h
    simp only [Process.component, fluvialComponent, fluvialStep, hsand, hinc, dif_pos hR2, h]
  by_cases hpar : P.sandFrac = 0 ∨ P.plainSlope = 0 ∨ P.load = 0
  · have h1 := hcomp _ (fluvial_zero_parameter env.expf env.sqrtf P env.dx dt env.x _ _ _ _ _ hpar)
    constructor
    · rintro (⟨rfl, -⟩ | ⟨-, a, b, c, -⟩)
      · exact h1
      · tauto
    · intro h
      rw [h1] at h
      cases h
      exact .inl (.inl ⟨rfl, hpar⟩)
  · have hpar' := hpar
    push Not at hpar'
    obtain ⟨p1, p2, p3⟩ := hpar'
    by_cases hi : Island (rowOf w ⟨R / 2, hR2⟩) w.seaLevel
    · have h1 : (Process.fluvial P).component env dt (q, w) = .error .valueError := by
        apply hcomp
        rw [hrow, (shoreline_found hu _ _).1 hi]
        unfold fluvialRow
        rw [if_neg (by tauto)]
        dsimp only
        rw [if_neg (div_ne_zero (div_ne_zero p3 p2) (by norm_num))]
      constructor
      · rintro (⟨-, h⟩ | ⟨rfl, -⟩)
        · exact absurd h hpar
        · exact h1
      · intro h
        rw [h1] at h
        cases h
        exact .inl (.inr ⟨rfl, p1, p2, p3, _, rfl, hi⟩)
    · obtain ⟨s, hs, hs0, hsn⟩ := (shoreline_found hu _ _).2 hi
      obtain ⟨⟨percent, dep⟩, hout⟩ := fluvial_in_range env.expf env.sqrtf P env.dx dt env.x
        (getProfile w.topo ⟨R / 2, hR2⟩) (getProfile w.deposit ⟨R / 2, hR2⟩)
        (getProfile inc ⟨R / 2, hR2⟩) w.seaLevel s (by omega) p1 p2 p3 (by
          intro c hc
          have : c = Fin.last (C + 1) := Fin.ext (by dsimp only [Fin.last]; omega)
          rw [this]
          exact hsn)
      constructor
      · rintro (⟨-, h⟩ | ⟨-, -, -, -, r, hr, h⟩)
        · exact absurd h hpar
        · have : r = ⟨R / 2, hR2⟩ := Fin.ext hr
          rw [this] at h
          exact absurd h hi
      · intro h
        refine .inr ?_
        by_cases hflat : FlatRow w
        · refine ⟨?_, hflat⟩
          simp only [Process.component, fluvialComponent, fluvialStep, hsand, hinc, dif_pos hR2,
            hrow, hs, hout] at h
          by_cases hall : ∀ c, (percent c).toNum ≠ none
          · rw [if_pos hall] at h; cases h
          · rw [if_neg hall] at h; cases h; rfl
        · exfalso
          have hfin := sand_fraction_finite env.expf env.sqrtf hu.sqrt P hP env.dx dt hdt env.x
            (getProfile w.topo ⟨R / 2, hR2⟩) (getProfile w.deposit ⟨R / 2, hR2⟩)
            (getProfile inc ⟨R / 2, hR2⟩) w.seaLevel s percent dep
            (fun c _ => div_ne_zero (npGradient_ne _ _ fun hf => hflat ⟨⟨R / 2, hR2⟩, rfl, c, hf⟩) hu.dx) hout
          have hall : ∀ c, (percent c).toNum ≠ none := by
            intro c
            obtain ⟨v, hv, -⟩ := hfin c
            rw [hv]
            exact fun h => by cases h
          simp only [Process.component, fluvialComponent, fluvialStep, hsand, hinc, dif_pos hR2,
            hrow, hs, hout, if_pos hall] at h
          cases h

/-- C117: a process of the package fails exactly for one of these reasons. Sea level: the curve is
not defined at the new time. Compaction: the package `compaction` raises. Diffusion and shoreline:
a row is an island. Fluvial: a parameter is 0, or the middle row is an island. Subsidence and the
two flexures never fail. (The model also stops where the code would go on with an infinity or NaN:
a sand fraction, which needs a flat node, or a diffusivity, which needs a divisor of 0.) -/
theorem process_stops {env : Env R C K} (hu : Usable env) (hR : 0 < R) (dt : K) (hdt : dt ≠ 0)
    (p : Process K) (hp : Sensible p) (q : ProcState R C K)
    (w : World R (C + 2) K) (hn : Needs p w) (e : Err) :
    (Stops env dt q w e p → p.component env dt (q, w) = .error e) ∧
    (p.component env dt (q, w) = .error e → Stops env dt q w e p ∨
      e = .runtimeError ∧ Undefined env q w p) := by
  cases p with
  | fluvial P =>
    obtain ⟨h1, h2⟩ := fluvial_stops hu hR dt hdt P hp q w hn e
    exact ⟨h1, h2⟩
  | seaLevel curve t =>
    cases hc : curve (q.seaTime + dt) with
    | error e' =>
      simp only [Process.component, seaComponent, seaStep, Stops, hc]
      exact ⟨fun h => (by cases h; rfl), fun h => (by cases h; exact .inl rfl)⟩
    | ok v =>
      simp only [Process.component, seaComponent, seaStep, Stops, hc]
      exact ⟨fun h => (by cases h), fun h => (by cases h)⟩
  | compaction =>
    cases hc : env.compact dt w.layers with
    | error e' =>
      simp only [Process.component, Stops, hc]
      exact ⟨fun h => (by cases h; rfl), fun h => (by cases h; exact .inl rfl)⟩
    | ok v =>
      simp only [Process.component, Stops, hc]
      exact ⟨fun h => (by cases h), fun h => (by cases h)⟩
  | subsidence curve =>
    obtain ⟨f, hf⟩ := Option.isSome_iff_exists.mp hn
    simp only [Process.component, subsidenceComponent, subsidenceStep, Stops, hf]
    exact ⟨fun h => (by cases h), fun h => (by cases h)⟩
  | flexure t =>
    obtain ⟨f, hf⟩ := Option.isSome_iff_exists.mp hn.1
    obtain ⟨g, hg⟩ := Option.isSome_iff_exists.mp hn.2
    simp only [Process.component, flexComponent, sedFlexStep, subtractDeflection, Stops, hf, hg]
    exact ⟨fun h => (by cases h), fun h => (by cases h)⟩
  | waterFlexure t =>
    obtain ⟨f, hf⟩ := Option.isSome_iff_exists.mp hn.1
    obtain ⟨f2, hf2⟩ := Option.isSome_iff_exists.mp hn.2.1
    obtain ⟨g, hg⟩ := Option.isSome_iff_exists.mp hn.2.2
    simp only [Process.component, flexComponent, waterFlexStep, subtractDeflection, Stops, hf, hf2,
      hg]
    exact ⟨fun h => (by cases h), fun h => (by cases h)⟩
  | diffusion P =>
    have hiff := overRows_island hu w (fun s _ => s) e (fun r => shorelineRow env.kind env.xtol
      env.rtol (List.ofFn env.x) (rowList w.topo r) w.seaLevel) fun r => ⟨fun _ h => h, fun _ h => h⟩
    simp only [Process.component, diffuserComponent, diffuserStep, Stops]
    rw [← hiff]
    cases hc : overRows (fun r => shorelineRow env.kind env.xtol env.rtol (List.ofFn env.x)
        (rowList w.topo r) w.seaLevel) with
    | error e' => exact ⟨fun h => (by cases h; rfl), fun h => (by cases h; exact .inl rfl)⟩
    | ok shore =>
      obtain ⟨z', hz⟩ := hu.solve (calcDiffusionCoef env.expf env.dx env.x shore w q.diffuser).kd dt
        (setUpstream (calcDiffusionCoef env.expf env.dx env.x shore w q.diffuser).plainSlope env.x
          w.topo)
      dsimp only
      by_cases hreg : q.diffuser.Regular env.dx w
      · rw [if_pos hreg, hz]
        exact ⟨fun h => (by cases h), fun h => (by cases h)⟩
      · rw [if_neg hreg]
        refine ⟨fun h => (by cases h), fun h => .inr ?_⟩
        cases h
        refine ⟨rfl, ?_⟩
        by_contra hcon
        refine hreg ⟨fun h0 => hcon (.inl h0), fun r c hpos h0 => hcon (.inr ⟨r, c, ?_, h0⟩)⟩
        exact sub_pos.mp hpos
  | shoreline alpha =>
    obtain ⟨a, ha⟩ := Option.isSome_iff_exists.mp hn.1
    obtain ⟨b, hb⟩ := Option.isSome_iff_exists.mp hn.2
    have hpos : 0 < alpha := hp
    have hpw : (List.ofFn env.x).Pairwise (· ≤ ·) :=
      List.pairwise_ofFn.mpr fun i j hij => (hu.x i j hij).le
    have hfind : ∀ r s, ∃ edge, shorelineRow env.kind env.xtol env.rtol (List.ofFn env.x)
        (rowList w.topo r) w.seaLevel = .ok s →
        shorelineFinderRow env.kind env.xtol env.rtol alpha true (List.ofFn env.x)
          (rowList w.topo r) (rowList w.deposit r) w.seaLevel = .ok (s, edge) := by
      intro r s
      obtain ⟨-, -, h3⟩ := shelf_edge_spec (List.ofFn env.x) (rowList w.deposit r) hpw
        (by simp [rowList]) s alpha hpos.ne'
      cases he : shelfEdge (List.ofFn env.x) (rowList w.deposit r) s alpha with
      | error e' =>
        have := h3 e' he
        subst this
        refine ⟨none, fun h => ?_⟩
        unfold shorelineFinderRow
        rw [h]
        dsimp only
        rw [he]
      | ok edge =>
        refine ⟨some edge, fun h => ?_⟩
        rw [shelf_edge_seaward env.kind env.xtol env.rtol alpha hpos _ _ _ hpw (by simp [rowList])]
        unfold shorelineFinderRow
        rw [h]
        dsimp only
        rw [he]
        rfl
    choose edge hedge using hfind
    have hiff := overRows_island hu w (fun s r => (s, edge r s)) e (fun r => shorelineFinderRow
      env.kind env.xtol env.rtol alpha true (List.ofFn env.x) (rowList w.topo r)
      (rowList w.deposit r) w.seaLevel) fun r => ⟨fun e h => by
        unfold shorelineFinderRow
        rw [h], fun s h => hedge r s h⟩
    simp only [Process.component, shorelineComponent, shorelineUpdate, Stops]
    rw [← hiff]
    cases hc : overRows (fun r => shorelineFinderRow env.kind env.xtol env.rtol alpha true
        (List.ofFn env.x) (rowList w.topo r) (rowList w.deposit r) w.seaLevel) with
    | error e' => exact ⟨fun h => (by cases h; rfl), fun h => (by cases h; exact .inl rfl)⟩
    | ok res =>
      simp only [ha, hb]
      exact ⟨fun h => (by cases h), fun h => (by cases h)⟩

/-- C117: a flat node is no trouble where the bedrock of the middle row does not rise and the river
carries both sand and mud: the fluvial process then fails for the reasons given by `Stops` only. -/
theorem flat_land_goes_on {env : Env R C K} (hu : Usable env) (hexp : env.expf 0 = 1) (hR : 0 < R)
    (dt : K) (hdt : dt ≠ 0) (P : FluvialParams K) (hP : 1000 < P.sandDensity) (hload : 0 < P.load)
    (hslope : 0 < P.plainSlope) (hsf : 0 < P.sandFrac) (hsf1 : P.sandFrac < 1)
    (q : ProcState R C K) (w : World R (C + 2) K) (hn : Needs (.fluvial P) w)
    (hdz : ∀ inc, w.increment = some inc → ∀ r : Fin R, r.val = R / 2 →
      ∀ c, inc ((⟨r.val + 1, by omega⟩ : Fin (R + 2)), c) ≤ 0) (e : Err) :
    (Process.fluvial P).component env dt (q, w) = .error e ↔ Stops env dt q w e (.fluvial P) := by
  obtain ⟨h1, h2⟩ := fluvial_stops hu hR dt hdt P hP q w hn e
  refine ⟨fun h => ?_, h1⟩
  rcases h2 h with hst | ⟨rfl, -⟩
  · exact hst
  exfalso
  obtain ⟨sand, hsand⟩ := Option.isSome_iff_exists.mp hn.1
  obtain ⟨inc, hinc⟩ := Option.isSome_iff_exists.mp hn.2
  have hR2 : R / 2 < R := by omega
  simp only [Process.component, fluvialComponent, fluvialStep, hsand, hinc, dif_pos hR2] at h
  generalize hf : fluvialRow env.expf env.sqrtf P env.dx dt env.x (getProfile w.topo ⟨R / 2, hR2⟩)
      (getProfile w.deposit ⟨R / 2, hR2⟩) (getProfile inc ⟨R / 2, hR2⟩) w.seaLevel
      (shorelineRow env.kind env.xtol env.rtol (List.ofFn env.x) (rowList w.topo ⟨R / 2, hR2⟩)
        w.seaLevel) = res at h
  cases hs : shorelineRow env.kind env.xtol env.rtol (List.ofFn env.x) (rowList w.topo ⟨R / 2, hR2⟩)
      w.seaLevel with
  | error e' =>
    have hsh := shoreline_found hu (rowOf w ⟨R / 2, hR2⟩) w.seaLevel
    have he' : e' = .valueError := by
      by_cases hi : Island (rowOf w ⟨R / 2, hR2⟩) w.seaLevel
      · have := hsh.1 hi
        rw [show List.ofFn (rowOf w ⟨R / 2, hR2⟩) = rowList w.topo ⟨R / 2, hR2⟩ from rfl, hs] at this
        cases this
        rfl
      · obtain ⟨s, h3, -⟩ := hsh.2 hi
        rw [show List.ofFn (rowOf w ⟨R / 2, hR2⟩) = rowList w.topo ⟨R / 2, hR2⟩ from rfl, hs] at h3
        cases h3
    rw [hs, he'] at hf
    unfold fluvialRow at hf
    rw [if_neg (by rintro (h | h); exacts [hsf.ne' h, hslope.ne' h])] at hf
    dsimp only at hf
    rw [if_neg (div_ne_zero (div_ne_zero hload.ne' hslope.ne') (by norm_num))] at hf
    subst hf
    cases h
  | ok s =>
    rw [hs] at hf
    obtain ⟨s', hsh, hs0, hsn⟩ := (shoreline_found hu (rowOf w ⟨R / 2, hR2⟩) w.seaLevel).2 (by
      intro hi
      have := (shoreline_found hu (rowOf w ⟨R / 2, hR2⟩) w.seaLevel).1 hi
      rw [show List.ofFn (rowOf w ⟨R / 2, hR2⟩) = rowList w.topo ⟨R / 2, hR2⟩ from rfl, hs] at this
      cases this)
    rw [show List.ofFn (rowOf w ⟨R / 2, hR2⟩) = rowList w.topo ⟨R / 2, hR2⟩ from rfl, hs] at hsh
    cases hsh
    obtain ⟨⟨percent, dep⟩, hout⟩ := fluvial_in_range env.expf env.sqrtf P env.dx dt env.x
      (getProfile w.topo ⟨R / 2, hR2⟩) (getProfile w.deposit ⟨R / 2, hR2⟩)
      (getProfile inc ⟨R / 2, hR2⟩) w.seaLevel s (by omega) hsf.ne' hslope.ne' hload.ne' (by
        intro c hc
        have : c = Fin.last (C + 1) := Fin.ext (by dsimp only [Fin.last]; omega)
        rw [this]
        exact hsn)
    rw [hout] at hf
    subst hf
    have hall : ∀ c, (percent c).toNum ≠ none := by
      intro c
      obtain ⟨v, hv, -⟩ := sand_fraction_number env.expf env.sqrtf hexp hu.sqrt P hP hload hslope hsf
        hsf1 env.dx dt env.x _ _ _
        (fun i j hij => by
          rcases eq_or_lt_of_le hij with rfl | hlt
          · exact le_rfl
          · exact (hu.x i j hlt).le) _ s percent dep
        (fun c _ => hdz inc hinc ⟨R / 2, hR2⟩ rfl c) hout c
      rw [hv]
      exact fun h => by cases h
    simp only [if_pos hall] at h
    cases h

/-- C117: with a slope of the plain and positive constants no divisor is 0. -/
theorem no_zero_divisor (env : Env R C K) (hdx : 0 < env.dx) (d : Diffuser R (C + 2) K)
    (hslope : d.plainSlope ≠ 0) (hb : 0 ≤ d.shorefaceHeight * d.alpha + d.shelfSlope)
    (w : World R (C + 2) K) : ¬ ZeroDivisor env d w := by
  rintro (h | ⟨r, c, h1, h2⟩)
  · exact hslope h
  · have := mul_nonneg hb hdx.le
    linarith

/-- A list of processes fails where one of them does. -/
theorem runComponents_error {σ : Type*} {R C : ℕ} {α : Type*} (f : α → Component σ R C K)
    (ps : List α) (dt : K) (x : σ × World R C K) (e : Err) :
    runComponents (ps.map f) dt x = .error e ↔ ∃ pre p post y, ps = pre ++ p :: post ∧
      runComponents (pre.map f) dt x = .ok y ∧ f p dt y = .error e := by
  constructor
  · intro h
    induction ps generalizing x with
    | nil => cases h
    | cons p ps ih =>
      rw [List.map_cons, runComponents] at h
      cases hc : f p dt x with
      | error e' =>
        rw [hc] at h
        cases h
        exact ⟨[], p, ps, x, rfl, rfl, hc⟩
      | ok y =>
        rw [hc] at h
        obtain ⟨pre, p', post, z, rfl, h2, h3⟩ := ih y h
        refine ⟨p :: pre, p', post, z, rfl, ?_, h3⟩
        rw [List.map_cons, runComponents, hc]
        exact h2
  · rintro ⟨pre, p, post, y, rfl, h2, h3⟩
    rw [List.map_append, runComponents_append, h2, List.map_cons]
    dsimp only
    rw [runComponents, h3]

/-- C117: the next step of a model fails exactly if, when its turn comes, one of the processes
cannot take its step (apart from infinities and NaN). -/
theorem step_stops_partial {env : Env R C K} (hu : Usable env) (hR : 0 < R) (ps : List (Process K))
    (fl sh : Process K) (hfl : fl.name = "fluvial") (hsh : sh.name = "shoreline")
    (hsens : ∀ p ∈ requiredToo fl sh ps, Sensible p)
    (henv : ExternalsFine env (requiredToo fl sh ps)) (hcomp : CompactKeepsRecord env) (start : K)
    (q : ProcState R C K) (w : World R (C + 2) K) (porosity : ProcState R C K → K)
    (s : ModelState (ProcState R C K) R (C + 2) K)
    (obs : List (Observation (ProcState R C K) R (C + 2) K))
    (s' : ModelState (ProcState R C K) R (C + 2) K)
    (hrun : PackageRun env (requiredToo fl sh ps) start porosity q w s obs s') (time dt : K)
    (hdt : dt ≠ 0) (e : Err) :
    ((∃ pre p post q1 w1, requiredToo fl sh ps = pre ++ p :: post ∧
        runComponents (pre.map (Process.component env)) dt (s'.comps, clearDeposit s'.world) =
          .ok (q1, w1) ∧ Stops env dt q1 w1 e p) →
      advanceComponents ((requiredToo fl sh ps).map (Process.component env)) porosity time dt s' =
        .error e) ∧
    (advanceComponents ((requiredToo fl sh ps).map (Process.component env)) porosity time dt s' =
        .error e →
      ∃ pre p post q1 w1, requiredToo fl sh ps = pre ++ p :: post ∧
        runComponents (pre.map (Process.component env)) dt (s'.comps, clearDeposit s'.world) =
          .ok (q1, w1) ∧
        (Stops env dt q1 w1 e p ∨ e = .runtimeError ∧ Undefined env q1 w1 p)) := by
  have hfields := (package_fields env ps fl sh hfl hsh henv hcomp start q w hrun.fresh).2 porosity s
    obs s' hrun
  have hneed : ∀ p ∈ requiredToo fl sh ps, Needs p s'.world := by
    obtain ⟨p1, w1, hc, hm⟩ := packageInit_ok hrun.init
    obtain ⟨h1, -⟩ := createAll_provides _ hc
    exact fun p hp => needs_mono (provides_trans (modelInit_provides hm) (history_provides hrun.run))
      (h1 p hp)
  have hiff := (hfields.2 time dt).2 e
  have hat : ∀ pre p post q1 w1, requiredToo fl sh ps = pre ++ p :: post →
      runComponents (pre.map (Process.component env)) dt (s'.comps, clearDeposit s'.world) =
          .ok (q1, w1) →
      p ∈ requiredToo fl sh ps ∧ Needs p w1 := by
    intro pre p post q1 w1 heq hr
    have hmem : p ∈ requiredToo fl sh ps := by rw [heq]; simp
    exact ⟨hmem, needs_mono (runComponents_provides pre hr)
      (needs_mono (w := s'.world) ⟨id, id, id, id, id, id, id⟩ (hneed p hmem))⟩
  rw [hiff, runComponents_error]
  constructor
  · rintro ⟨pre, p, post, q1, w1, heq, hr, hst⟩
    obtain ⟨m1, m2⟩ := hat pre p post q1 w1 heq hr
    exact ⟨pre, p, post, (q1, w1), heq, hr,
      (process_stops hu hR dt hdt p (hsens p m1) q1 w1 m2 e).1 hst⟩
  · rintro ⟨pre, p, post, ⟨q1, w1⟩, heq, hr, hst⟩
    obtain ⟨m1, m2⟩ := hat pre p post q1 w1 heq hr
    exact ⟨pre, p, post, q1, w1, heq, hr,
      (process_stops hu hR dt hdt p (hsens p m1) q1 w1 m2 e).2 hst⟩

/-! ### Concrete cases -/

/-- The assumptions on the outer world hold of the example of C91. -/
theorem exEnv_usable : Usable exEnv where
  x := fun i j hij => by
    show ((i.val : ℚ)) < j.val
    exact_mod_cast hij
  kind := fun z sl => ⟨_, linear_interpolates _ (by simp [profileTable]) (by
    unfold profileTable
    rw [List.map_fst_zip (by simp)]
    refine List.pairwise_ofFn.mpr fun i j hij => ?_
    show ((i.val : ℚ)) < j.val
    exact_mod_cast hij)⟩
  xtol := by decide +kernel
  rtol := by decide +kernel
  span := by decide +kernel
  dx := by decide +kernel
  solve := fun _ _ z => ⟨z, rfl⟩
  sqrt := fun _ _ => by
    show (0 : ℚ) < 4
    norm_num

/-- A low coast with a dune. -/
def exDune : World 1 3 ℚ := { exBeach with
  topo := fun n => if n.2.val = 0 then 1 else if n.2.val = 1 then 2 else -1 }

/-- A sea that rises by 1 m in 100 years, and the processes that are always there. -/
def exRising : List (Process ℚ) :=
  requiredToo (.fluvial exFluvial) (.shoreline 1) [.seaLevel (fun t => .ok (1/2 + t / 100)) 0]

/-- C117: such a simulation begins, and its first step raises `ValueError`: the sea has come in
behind the dune. -/
theorem rising_sea_stops :
    (packageInit exEnv exRising 0 (exProcState, exDune)).toOption.isSome ∧
    (match packageInit exEnv exRising 0 (exProcState, exDune) with
      | .error _ => none
      | .ok s => match advanceComponents (exRising.map (Process.component exEnv)) (fun _ => 1/2) 100
          100 s with
        | .error e => some e
        | .ok _ => none) = some .valueError ∧
    Island (rowOf { exDune with seaLevel := 3/2 } 0) (3/2 : ℚ) ∧
    ¬ Island (rowOf exDune 0) exDune.seaLevel := by
  refine ⟨by decide +kernel, by decide +kernel, ⟨by decide +kernel, by decide +kernel, 1,
    by decide +kernel⟩, fun h => absurd h.1 (by decide +kernel)⟩

/-- The parameters of the example are as they should be. -/
example : ∀ p ∈ exRising, Sensible p := by
  intro p hp
  simp [exRising, requiredToo, Process.name] at hp
  rcases hp with rfl | rfl | rfl
  · trivial
  · show (1000 : ℚ) < exFluvial.sandDensity
    decide +kernel
  · show (0 : ℚ) < 1
    decide +kernel

/-- The other way round (water, then land to the end) there is a shoreline, found backwards. -/
example : shorelineRow linearKind (2/10^12) (1/10^15) [0, 1, 2] [-1, 1, (3 : ℚ)] 0 = .ok (1/2) := by
  decide +kernel

/-- A flat node. -/
example : FlatAt (rowOf exDune 0) 0 = False ∧ FlatRow exWorld := by
  refine ⟨eq_false (by unfold FlatAt; decide +kernel), 0, rfl, 1, rfl⟩

/-- The hypotheses of `flat_land_goes_on`: flat land with the given environment. -/
example : 0 < exFluvial.load ∧ 0 < exFluvial.plainSlope ∧ 0 < exFluvial.sandFrac ∧
    exFluvial.sandFrac < 1 ∧ Needs (.fluvial exFluvial) { exWorld with seaLevel := -6 } ∧
    FlatRow { exWorld with seaLevel := -6 } ∧
    ((Process.fluvial exFluvial).component { exEnv with expf := fun a => if a = 0 then 1 else 1/2 } 100
      (exProcState, { exWorld with seaLevel := -6, deposit := fun _ => 1 })).toOption.map
        (fun s => s.2.sand.map fun f => List.ofFn fun c => f (1, c)) = some (some [0, 0, 0]) := by
  refine ⟨by decide +kernel, by decide +kernel, by decide +kernel, by decide +kernel, ⟨rfl, rfl⟩,
    ⟨0, rfl, 1, rfl⟩, by decide +kernel⟩

end Verif.Props
