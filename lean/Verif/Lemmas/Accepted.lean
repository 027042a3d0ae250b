import Verif.Lemmas.Prelude
import Verif.Spec.Accepted
import Verif.Props.Setup
import Verif.Props.Causality
import Verif.Props.Shoreline

/-! # Accepting a configuration -/

set_option autoImplicit false
set_option linter.unusedSectionVars false

namespace Verif

open Spec Props

variable {K : Type} [Field K] [LinearOrder K] [IsStrictOrderedRing K]

/-! ### Arguments -/

theorem checkKeywords_iff {known : List String} {kwds : Kwargs} :
    (∃ u, checkKeywords known kwds = .ok u) ↔ ∀ k v, kwds.get? k = some v → k ∈ known := by
  constructor
  · rintro ⟨u, hu⟩ k v hk
    exact checkKeywords_ok hu (by rw [hk]; simp)
  · intro h
    refine ⟨(), ?_⟩
    unfold checkKeywords
    rw [if_pos]
    intro k hk
    cases hv : kwds.get? k with
    | none => exact absurd hk ((PyDict.get?_eq_none_iff _ _).mp hv)
    | some v => exact h k v hv

theorem floatArg_of {kwds : Kwargs} {name : String} {default : K}
    (h : ∀ v, kwds.get? name = some v → ∃ q : ℚ, v = .inl (.num q)) :
    ∃ x, floatArg kwds name default = .ok x := by
  unfold floatArg
  cases hv : kwds.get? name with
  | none => exact ⟨_, rfl⟩
  | some v =>
    obtain ⟨q, rfl⟩ := h v hv
    exact ⟨_, rfl⟩

theorem optFloatArg_of {kwds : Kwargs} {name : String} {default : K}
    (h : ∀ v, kwds.get? name = some v → v = .inl .none ∨ ∃ q : ℚ, v = .inl (.num q)) :
    ∃ x, optFloatArg kwds name default = .ok x := by
  unfold optFloatArg
  cases hv : kwds.get? name with
  | none => exact ⟨_, rfl⟩
  | some v =>
    rcases h v hv with rfl | ⟨q, rfl⟩ <;> exact ⟨_, rfl⟩

theorem stopArg_of {kwds : Kwargs}
    (h : ∀ v, kwds.get? "stop" = some v → v = .inl .none ∨ ∃ q : ℚ, v = .inl (.num q)) :
    ∃ x : Option K, stopArg kwds = .ok x := by
  unfold stopArg
  cases hv : kwds.get? "stop" with
  | none => exact ⟨_, rfl⟩
  | some v =>
    rcases h v hv with rfl | ⟨q, rfl⟩ <;> exact ⟨_, rfl⟩

theorem textArg_of {kwds : Kwargs} {name s : String} {default : Option String}
    (h : kwds.get? name = some (.inl (.str s))) : textArg kwds name default = .ok s := by
  unfold textArg
  rw [h]

theorem textArg_isText {kwds : Kwargs} {name s t : String} (h : IsText (kwds.get? name) t s) :
    textArg kwds name (some t) = .ok s := by
  unfold textArg
  rcases h with ⟨h, rfl⟩ | h <;> rw [h]

theorem gridEntry_of {kwds : Kwargs} {name : String}
    (h : ∀ v, kwds.get? name = some v → ∃ qs, IsNumbers (some v) qs) :
    ∃ r, gridEntry kwds name = .ok r := by
  unfold gridEntry
  cases hv : kwds.get? name with
  | none => exact ⟨_, rfl⟩
  | some v =>
    obtain ⟨qs, hq⟩ := h v hv
    dsimp only
    rw [pyToNumbers_of hq]
    exact ⟨_, rfl⟩

theorem isNumbers_unique {v : Option PyValue} {p q : List ℚ} (hp : IsNumbers v p)
    (hq : IsNumbers v q) : p = q := by
  cases v with
  | none => rcases hp with ⟨_, h, -⟩ | h | h <;> cases h
  | some v =>
    have h1 := pyToNumbers_of hp
    rw [pyToNumbers_of hq] at h1
    exact (Except.ok.inj h1).symm

/-! ### The grid -/

theorem gridInit_of {sizes gaps : List ℚ} {rows cols : ℕ} {dx : K}
    (h : IsGrid sizes gaps rows cols dx) :
    ∃ info : GridInfo K, gridInit (sizes.map fun q => (Int.tdiv q.num q.den).toNat)
      (gaps.map fun q : ℚ => (q : K)) = .ok info ∧ info.nodeRows - 2 = rows ∧
      info.nodeCols = cols ∧ info.dx = dx := by
  rcases h with ⟨c, x, rfl, rfl, rfl, rfl, rfl⟩ | ⟨r, c, y, x, rfl, rfl, rfl, rfl, rfl⟩
  · exact ⟨GridInfo.make 1 (Int.tdiv c.num c.den).toNat 1 (x : K), by simp [gridInit], rfl,
      tdiv_toNat c, rfl⟩
  · refine ⟨GridInfo.make (Int.tdiv r.num r.den).toNat (Int.tdiv c.num c.den).toNat (y : K) (x : K),
      by simp [gridInit], ?_, tdiv_toNat c, rfl⟩
    rw [← tdiv_toNat r]
    rfl

theorem loadGrid_of {kwds : Kwargs} {sizes gaps : List ℚ} {rows cols : ℕ} {dx : K}
    (hk : ∀ key ∈ ["shape", "n_cols", "spacing", "xy_spacing"],
      ∀ v, kwds.get? key = some v → ∃ qs, IsNumbers (some v) qs)
    (hs : IsNumbers (kwds.get? "shape") sizes ∨
      (kwds.get? "shape" = none ∧ IsNumbers (kwds.get? "n_cols") sizes))
    (hg : IsNumbers (kwds.get? "spacing") gaps ∨
      (kwds.get? "spacing" = none ∧ IsNumbers (kwds.get? "xy_spacing") gaps.reverse))
    (h : IsGrid sizes gaps rows (cols + 2) dx) :
    ∃ info : GridInfo K, loadGrid kwds = .ok (rows, cols, info) ∧ info.dx = dx := by
  have some_of : ∀ {key qs}, IsNumbers (kwds.get? key) qs → gridEntry kwds key = .ok (some qs) := by
    intro key qs hq
    unfold gridEntry
    cases hv : kwds.get? key with
    | none => rw [hv] at hq; rcases hq with ⟨_, h, -⟩ | h | h <;> cases h
    | some v => rw [hv] at hq; dsimp only; rw [pyToNumbers_of hq]
  have none_of : ∀ {key}, kwds.get? key = none → gridEntry kwds key = .ok none := by
    intro key hq
    unfold gridEntry
    rw [hq]
  obtain ⟨r1, e1⟩ := gridEntry_of (hk "shape" (by simp))
  obtain ⟨r2, e2⟩ := gridEntry_of (hk "n_cols" (by simp))
  obtain ⟨r3, e3⟩ := gridEntry_of (hk "spacing" (by simp))
  obtain ⟨r4, e4⟩ := gridEntry_of (hk "xy_spacing" (by simp))
  obtain ⟨info, i1, i2, i3, i4⟩ := gridInit_of h
  refine ⟨info, ?_, i4⟩
  have hfrom : gridFromDict ⟨r1.map (·.map fun q : ℚ => (Int.tdiv q.num q.den).toNat),
      r2.map (·.map fun q : ℚ => (Int.tdiv q.num q.den).toNat),
      r3.map (·.map fun q : ℚ => (q : K)), r4.map (·.map fun q : ℚ => (q : K))⟩ = .ok info := by
    have h1 : (r1.map (·.map fun q : ℚ => (Int.tdiv q.num q.den).toNat)).orElse
        (fun _ => r2.map (·.map fun q : ℚ => (Int.tdiv q.num q.den).toNat)) =
        some (sizes.map fun q => (Int.tdiv q.num q.den).toNat) := by
      rcases hs with hs | ⟨h0, hs⟩
      · rw [some_of hs] at e1; cases e1; rfl
      · rw [none_of h0] at e1; rw [some_of hs] at e2; cases e1; cases e2; rfl
    have h2 : (r3.map (·.map fun q : ℚ => (q : K))).orElse
        (fun _ => (r4.map (·.map fun q : ℚ => (q : K))).map List.reverse) =
        some (gaps.map fun q : ℚ => (q : K)) := by
      rcases hg with hs | ⟨h0, hs⟩
      · rw [some_of hs] at e3; cases e3; rfl
      · rw [none_of h0] at e3; rw [some_of hs] at e4; cases e3; cases e4; simp
    unfold gridFromDict
    dsimp only
    rw [h1]
    dsimp only
    rw [h2]
    exact i1
  unfold loadGrid
  rw [e1, e2, e3, e4]
  simp only [bind, Except.bind]
  rw [hfrom]
  dsimp only
  rw [if_neg (by omega), i2, i3]
  rfl

/-! ### The shore -/

theorem shelfEdge_only {x dz : List K} (hlen : x.length = dz.length) {shore alpha : K}
    (ha : alpha ≠ 0) {e : Err} (h : shelfEdge x dz shore alpha = .error e) :
    e = .shelfEdgeError := by
  letI : Inhabited K := ⟨0⟩
  unfold shelfEdge at h
  rw [if_neg ha] at h
  dsimp only at h
  split_ifs at h with hl
  · cases h; rfl
  · obtain ⟨k, b, hm, hb, -⟩ := argmax_spec (dz.drop (bisectRight x (shore + 3 / alpha)))
      fun hd => hl (List.drop_eq_nil_iff.mp hd)
    obtain ⟨hk, -⟩ := List.getElem?_eq_some_iff.mp hb
    rw [hm] at h
    dsimp only at h
    rw [List.length_drop] at hk
    rw [List.getElem?_eq_getElem (by omega)] at h
    cases h

theorem shorelineInit_iff {R C : ℕ} (kind : InterpKind K) (xtol rtol alpha : K) (x : Fin C → K)
    (z : List K) (w : World (R + 1) C K) (hz : ∀ r, rowList w.topo r = z) :
    (∃ w', shorelineInit kind xtol rtol alpha x w = .ok w') ↔
      alpha ≠ 0 ∧ ∃ shore, shorelineRow kind xtol rtol (List.ofFn x) z w.seaLevel = .ok shore := by
  unfold shorelineInit shorelineUpdate
  dsimp only
  constructor
  · rintro ⟨w', h⟩
    split at h
    · cases h
    rename_i res hres
    have h0 := overRows_ok hres 0
    unfold shorelineFinderRow at h0
    rw [hz] at h0
    split at h0
    · cases h0
    rename_i shore hs
    refine ⟨?_, shore, hs⟩
    rintro rfl
    unfold shelfEdge at h0
    simp only [if_true] at h0
    cases h0
  · rintro ⟨ha, shore, hs⟩
    have hrow : ∀ r : Fin (R + 1), ∃ p, shorelineFinderRow kind xtol rtol alpha false (List.ofFn x)
        (rowList w.topo r) (rowList w.deposit r) w.seaLevel = .ok p := by
      intro r
      unfold shorelineFinderRow
      rw [hz, hs]
      dsimp only
      cases he : shelfEdge (List.ofFn x) (rowList w.deposit r) shore alpha with
      | error e =>
        have := shelfEdge_only (by simp [rowList]) ha he
        subst this
        exact ⟨_, rfl⟩
      | ok v => exact ⟨_, by simp; rfl⟩
    choose res hres using hrow
    rw [overRows_of_all hres]
    exact ⟨_, rfl⟩

/-! ### Settings -/

theorem isSetting_unique {d : Doc} {sec key : String} {v w : Option PyValue}
    (hv : IsSetting d sec key v) (hw : IsSetting d sec key w) : v = w := by
  rcases hv with ⟨h1, h2⟩ | ⟨h1, o, hb, h2⟩ | ⟨h1, hb, h2⟩ <;>
    rcases hw with ⟨g1, g2⟩ | ⟨g1, o', gb, g2⟩ | ⟨g1, gb, g2⟩
  · rw [h2, g2]
  · exact absurd g1 h1
  · exact absurd g1 h1
  · exact absurd h1 g1
  · obtain ⟨k1, a1, b1, -⟩ := hb
    obtain ⟨k2, a2, b2, -⟩ := gb
    have := sharing_unique _ a1 _ a2 rfl _ b1 b2
    simp only [Prod.mk.injEq, true_and] at this
    rw [h2, g2, this.1]
  · exact absurd ⟨o, hb⟩ gb
  · exact absurd h1 g1
  · exact absurd ⟨o', gb⟩ hb
  · rw [h2, g2]

/-- The arguments that the constructors take. -/
theorem hasParameter_args {po : String → List String} {name key : String}
    (h : HasParameter po name key) :
    (name = "sea_level" ∧ key ∈ ["filepath", "kind", "start", "wave_length", "amplitude", "phase",
      "mean", "linear"]) ∨
    (name = "subsidence" ∧ key ∈ ["filepath", "kind"]) ∨
    (name = "compaction" ∧ key ∈ po "Compact") ∨
    (name = "submarine_diffusion" ∧ key ∈ ["sea_level", "plain_slope", "wave_base",
      "shoreface_height", "alpha", "shelf_slope", "sediment_load", "load_sealevel", "basin_width"] ++
      po "SubmarineDiffuser") ∨
    (name = "fluvial" ∧ key ∈ ["sand_frac", "wave_base", "sediment_load", "sand_density",
      "plain_slope", "hemipelagic", "sea_level"]) ∨
    (name = "flexure" ∧ key ∈ ["sand_density", "mud_density", "isostasytime", "water_density"] ++
      po "SedimentFlexure") ∨
    (name = "water_flexure" ∧ key ∈ "isostasytime" :: po "WaterFlexure") ∨
    (name = "shoreline" ∧ key ∈ ["alpha"]) ∨ name = "output" := by
  rcases h with ⟨q, hq, rfl, hk⟩ | ⟨q, hq, rfl, hk⟩
  · simp only [constructorArguments, List.mem_cons, List.not_mem_nil, or_false] at hq
    rcases hq with rfl | rfl | rfl | rfl | rfl | rfl | rfl | rfl
    · exact .inl ⟨rfl, hk⟩
    · exact .inr (.inl ⟨rfl, hk⟩)
    · exact .inr (.inr (.inr (.inl ⟨rfl, List.mem_append_left _ hk⟩)))
    · exact .inr (.inr (.inr (.inr (.inl ⟨rfl, hk⟩))))
    · exact .inr (.inr (.inr (.inr (.inr (.inl ⟨rfl, List.mem_append_left _ hk⟩)))))
    · exact .inr (.inr (.inr (.inr (.inr (.inr (.inl ⟨rfl, by
        rw [List.mem_singleton] at hk; rw [hk]; exact List.mem_cons_self ..⟩))))))
    · exact .inr (.inr (.inr (.inr (.inr (.inr (.inr (.inl ⟨rfl, hk⟩)))))))
    · exact .inr (.inr (.inr (.inr (.inr (.inr (.inr (.inr rfl)))))))
  · simp only [wrappers, List.mem_cons, List.not_mem_nil, or_false] at hq
    rcases hq with rfl | rfl | rfl | rfl
    · exact .inr (.inr (.inl ⟨rfl, hk⟩))
    · exact .inr (.inr (.inr (.inl ⟨rfl, List.mem_append_right _ hk⟩)))
    · exact .inr (.inr (.inr (.inr (.inr (.inl ⟨rfl, List.mem_append_right _ hk⟩)))))
    · exact .inr (.inr (.inr (.inr (.inr (.inr (.inl ⟨rfl, List.mem_cons_of_mem _ hk⟩))))))

/-! ### Creating one component -/

/-- The constructor of a process succeeds. -/
def Creates {R C : ℕ} (ext : Externals K) (env : Env R C K) (cls : String) (g : Kwargs)
    (s : ProcState R C K × World R (C + 2) K) : Prop :=
  ∃ p, Process.ofKwargs ext cls g = .ok p ∧ ∃ s1, p.create env s = .ok s1

section Creates

variable {R C : ℕ} {ext : Externals K} {env : Env R C K} {g : Kwargs}
  {s : ProcState R C K × World R (C + 2) K}

/-- A numerical argument is a number. -/
def NumberAt (g : Kwargs) (key : String) : Prop :=
  ∀ v, g.get? key = some v → ∃ q : ℚ, v = .inl (.num q)

theorem creates_seaFile (hn : NumberAt g "start") :
    Creates ext env "SeaLevelTimeSeries" g s ↔
      (∀ k v, g.get? k = some v → k ∈ ["filepath", "kind", "start"]) ∧
      ∃ path kind curve, g.get? "filepath" = some (.inl (.str path)) ∧
        IsText (g.get? "kind") "linear" kind ∧ ext.readCurve path kind = .ok curve := by
  unfold Creates Process.ofKwargs
  simp only [String.reduceEq, if_true, if_false]
  constructor
  · rintro ⟨p, h, -⟩
    simp only [bind_eq_ok] at h
    obtain ⟨u, h0, path, h1, kind, h2, a, h3, curve, h4, -⟩ := h
    exact ⟨checkKeywords_iff.mp ⟨u, h0⟩, path, kind, curve, textArg_none h1, textArg_some h2, h4⟩
  · rintro ⟨h0, path, kind, curve, h1, h2, h4⟩
    obtain ⟨u, h0⟩ := checkKeywords_iff.mpr h0
    obtain ⟨a, h3⟩ := floatArg_of (K := K) (default := 0) hn
    rw [h0, textArg_of h1, textArg_isText h2, h3]
    simp only [bind, Except.bind]
    rw [h4]
    exact ⟨_, rfl, _, rfl⟩

theorem creates_seaSine (hn : ∀ key ∈ ["wave_length", "amplitude", "phase", "mean", "start",
      "linear"], NumberAt g key) :
    Creates ext env "SinusoidalSeaLevel" g s ↔
      ∀ k v, g.get? k = some v → k ∈ ["wave_length", "amplitude", "phase", "mean", "start",
        "linear"] := by
  unfold Creates Process.ofKwargs
  simp only [String.reduceEq, if_true, if_false]
  constructor
  · rintro ⟨p, h, -⟩
    simp only [bind_eq_ok] at h
    obtain ⟨u, h0, -⟩ := h
    exact checkKeywords_iff.mp ⟨u, h0⟩
  · intro h0
    obtain ⟨u, h0⟩ := checkKeywords_iff.mpr h0
    obtain ⟨_, h1⟩ := floatArg_of (K := K) (default := 1) (hn "wave_length" (by simp))
    obtain ⟨_, h2⟩ := floatArg_of (K := K) (default := 1) (hn "amplitude" (by simp))
    obtain ⟨_, h3⟩ := floatArg_of (K := K) (default := 0) (hn "phase" (by simp))
    obtain ⟨_, h4⟩ := floatArg_of (K := K) (default := 0) (hn "mean" (by simp))
    obtain ⟨_, h5⟩ := floatArg_of (K := K) (default := 0) (hn "start" (by simp))
    obtain ⟨_, h6⟩ := floatArg_of (K := K) (default := 0) (hn "linear" (by simp))
    rw [h0, h1, h2, h3, h4, h5, h6]
    exact ⟨_, rfl, _, rfl⟩

theorem creates_subsidence : Creates ext env "SubsidenceTimeSeries" g s ↔
      (∀ k v, g.get? k = some v → k ∈ ["filepath", "kind"]) ∧
      ∃ path kind curve, g.get? "filepath" = some (.inl (.str path)) ∧
        IsText (g.get? "kind") "linear" kind ∧ ext.readCurve path kind = .ok curve ∧
        ∀ c, ∃ v, curve (env.x c) = .ok v := by
  unfold Creates Process.ofKwargs
  simp only [String.reduceEq, if_true, if_false]
  constructor
  · rintro ⟨p, h, s1, hc⟩
    simp only [bind_eq_ok] at h
    obtain ⟨u, h0, path, h1, kind, h2, curve, h4, h5⟩ := h
    cases h5
    refine ⟨checkKeywords_iff.mp ⟨u, h0⟩, path, kind, curve, textArg_none h1, textArg_some h2, h4, ?_⟩
    rw [Process.create] at hc
    split at hc
    · cases hc
    rename_i rate hr
    exact (atColumns_ok_iff curve env.x).1.mp ⟨rate, hr⟩
  · rintro ⟨h0, path, kind, curve, h1, h2, h4, h5⟩
    obtain ⟨u, h0⟩ := checkKeywords_iff.mpr h0
    obtain ⟨rate, hr⟩ := (atColumns_ok_iff curve env.x).1.mpr h5
    rw [h0, textArg_of h1, textArg_isText h2]
    simp only [bind, Except.bind]
    rw [h4]
    refine ⟨_, rfl, ?_⟩
    rw [Process.create, subsidenceRate, hr]
    exact ⟨_, rfl⟩

theorem creates_compaction : Creates ext env "Compact" g s ↔
      ∀ k v, g.get? k = some v → k ∈ ext.passedOn "Compact" := by
  unfold Creates Process.ofKwargs
  simp only [String.reduceEq, if_true, if_false]
  constructor
  · rintro ⟨p, h, -⟩
    simp only [bind_eq_ok] at h
    obtain ⟨u, h0, -⟩ := h
    exact checkKeywords_iff.mp ⟨u, h0⟩
  · intro h0
    obtain ⟨u, h0⟩ := checkKeywords_iff.mpr h0
    rw [h0]
    exact ⟨_, rfl, _, rfl⟩

theorem cast_ne {q : ℚ} : (q : K) ≠ 0 ↔ q ≠ 0 := by
  rw [Ne, Rat.cast_eq_zero]

/-- A number that is given, or the default, is not 0. -/
theorem isNumber_ne {v : Option PyValue} {a x : K} (h : IsNumber v a x) (ha : a ≠ 0) :
    x ≠ 0 ↔ v ≠ some (.inl (.num 0)) := by
  rcases h with ⟨rfl, rfl⟩ | ⟨q, rfl, rfl⟩
  · simp [ha]
  · rw [cast_ne]; simp

theorem creates_diffusion (hn : ∀ key ∈ ["sea_level", "plain_slope", "wave_base",
      "shoreface_height", "alpha", "shelf_slope", "sediment_load", "load_sealevel", "basin_width"],
      NumberAt g key) :
    Creates ext env "SubmarineDiffuser" g s ↔
      (∀ k v, g.get? k = some v → k ∈ ["sea_level", "plain_slope", "wave_base",
        "shoreface_height", "alpha", "shelf_slope", "sediment_load", "load_sealevel",
        "basin_width"] ++ ext.passedOn "SubmarineDiffuser") ∧
      g.get? "plain_slope" ≠ some (.inl (.num 0)) := by
  unfold Creates Process.ofKwargs
  simp only [String.reduceEq, if_true, if_false]
  have hdef : (8 / 10000 : K) ≠ 0 := by norm_num
  constructor
  · rintro ⟨p, h, s1, hc⟩
    simp only [bind_eq_ok] at h
    obtain ⟨u, h0, a1, e1, a2, e2, a3, e3, a4, e4, a5, e5, a6, e6, a7, e7, a8, e8, a9, e9, h⟩ := h
    cases h
    refine ⟨checkKeywords_iff.mp ⟨u, h0⟩, (isNumber_ne (floatArg_ok e2) hdef).mp ?_⟩
    rintro rfl
    rw [Process.create] at hc
    simp only [diffuserInit, if_true] at hc
    cases hc
  · rintro ⟨h0, hslope⟩
    obtain ⟨u, h0⟩ := checkKeywords_iff.mpr h0
    obtain ⟨_, h1⟩ := floatArg_of (K := K) (default := 0) (hn "sea_level" (by simp))
    obtain ⟨a, h2⟩ := floatArg_of (K := K) (default := 8 / 10000) (hn "plain_slope" (by simp))
    obtain ⟨_, h3⟩ := floatArg_of (K := K) (default := 60) (hn "wave_base" (by simp))
    obtain ⟨_, h4⟩ := floatArg_of (K := K) (default := 15) (hn "shoreface_height" (by simp))
    obtain ⟨_, h5⟩ := floatArg_of (K := K) (default := 5 / 10000) (hn "alpha" (by simp))
    obtain ⟨_, h6⟩ := floatArg_of (K := K) (default := 1 / 1000) (hn "shelf_slope" (by simp))
    obtain ⟨_, h7⟩ := floatArg_of (K := K) (default := 3) (hn "sediment_load" (by simp))
    obtain ⟨_, h8⟩ := floatArg_of (K := K) (default := 0) (hn "load_sealevel" (by simp))
    obtain ⟨_, h9⟩ := floatArg_of (K := K) (default := 500000) (hn "basin_width" (by simp))
    have ha := (isNumber_ne (floatArg_ok h2) hdef).mpr hslope
    rw [h0, h1, h2, h3, h4, h5, h6, h7, h8, h9]
    refine ⟨_, rfl, ?_⟩
    rw [Process.create]
    simp only [diffuserInit, if_neg ha]
    exact ⟨_, rfl⟩

theorem creates_fluvial (hn : ∀ key ∈ ["sand_frac", "wave_base", "sediment_load", "sand_density",
      "plain_slope", "hemipelagic"], NumberAt g key) :
    Creates ext env "Fluvial" g s ↔
      ∀ k v, g.get? k = some v → k ∈ ["sand_frac", "wave_base", "sediment_load", "sand_density",
        "plain_slope", "hemipelagic", "sea_level"] := by
  unfold Creates Process.ofKwargs
  simp only [String.reduceEq, if_true, if_false]
  constructor
  · rintro ⟨p, h, -⟩
    simp only [bind_eq_ok] at h
    obtain ⟨u, h0, -⟩ := h
    exact checkKeywords_iff.mp ⟨u, h0⟩
  · intro h0
    obtain ⟨u, h0⟩ := checkKeywords_iff.mpr h0
    obtain ⟨_, h1⟩ := floatArg_of (K := K) (default := 1 / 2) (hn "sand_frac" (by simp))
    obtain ⟨_, h2⟩ := floatArg_of (K := K) (default := 60) (hn "wave_base" (by simp))
    obtain ⟨_, h3⟩ := floatArg_of (K := K) (default := 3) (hn "sediment_load" (by simp))
    obtain ⟨_, h4⟩ := floatArg_of (K := K) (default := 2650) (hn "sand_density" (by simp))
    obtain ⟨_, h5⟩ := floatArg_of (K := K) (default := 8 / 10000) (hn "plain_slope" (by simp))
    obtain ⟨_, h6⟩ := floatArg_of (K := K) (default := 0) (hn "hemipelagic" (by simp))
    rw [h0, h1, h2, h3, h4, h5, h6]
    exact ⟨_, rfl, _, rfl⟩

theorem isNumber_pos {v : Option PyValue} {a x : K} (h : IsNumber v a x) (ha : 0 < a) :
    0 < x ↔ ∀ q : ℚ, v = some (.inl (.num q)) → 0 < q := by
  rcases h with ⟨rfl, rfl⟩ | ⟨q, rfl, rfl⟩
  · simp [ha]
  · rw [Rat.cast_pos]
    simp

theorem validateDensity_iff {x : K} : (∃ y, validateDensity x = .ok y) ↔ 0 < x := by
  unfold validateDensity
  split_ifs with h
  · simp [not_lt.mpr h]
  · simp [not_le.mp h]

theorem flexPool_iff (R C : ℕ) {v : Option PyValue} {t : Option K} (h : IsOptNumber v (some 7000) t) :
    (∃ pool, flexPoolInit R C t = .ok pool) ↔
      ∀ q : ℚ, v = some (.inl (.num q)) → -(1 / 10 ^ 8) ≤ q := by
  unfold flexPoolInit isostasyTime
  rcases h with ⟨rfl, rfl⟩ | ⟨rfl, rfl⟩ | ⟨q, rfl, rfl⟩
  · have h1 : ¬ |(7000 : K)| ≤ 1 / 10 ^ 8 := by rw [abs_of_pos (by norm_num)]; norm_num
    have h2 : ¬ (7000 : K) < 0 := by norm_num
    simp only [if_neg h1, if_neg h2]
    simp
  · simp
  · have hc : ((1 / 10 ^ 8 : ℚ) : K) = 1 / 10 ^ 8 := by norm_num
    have h1 : |(q : K)| ≤ 1 / 10 ^ 8 ↔ |q| ≤ 1 / 10 ^ 8 := by
      rw [← hc, ← Rat.cast_abs, Rat.cast_le]
    have h2 : (q : K) < 0 ↔ q < 0 := Rat.cast_lt_zero
    simp only [h1, h2]
    constructor
    · rintro ⟨pool, h⟩ p hp
      cases hp
      by_contra hlt
      rw [not_le] at hlt
      have hq : q < 0 := hlt.trans (by norm_num)
      rw [if_neg (by rw [abs_of_neg hq]; linarith), if_pos hq] at h
      cases h
    · intro h
      have := h q rfl
      by_cases ha : |q| ≤ 1 / 10 ^ 8
      · rw [if_pos ha]; exact ⟨_, rfl⟩
      · have hq : ¬ q < 0 := fun hq => ha (by rw [abs_of_neg hq]; linarith)
        rw [if_neg ha, if_neg hq]
        exact ⟨_, rfl⟩

theorem creates_flexure (hn : ∀ key ∈ ["water_density", "sand_density", "mud_density"],
      NumberAt g key)
    (ht : ∀ v, g.get? "isostasytime" = some v → v = .inl .none ∨ ∃ q : ℚ, v = .inl (.num q)) :
    Creates ext env "SedimentFlexure" g s ↔
      (∀ k v, g.get? k = some v → k ∈ ["sand_density", "mud_density", "isostasytime",
        "water_density"] ++ ext.passedOn "SedimentFlexure") ∧
      (∀ key ∈ ["water_density", "sand_density", "mud_density"], ∀ q : ℚ,
        g.get? key = some (.inl (.num q)) → 0 < q) ∧
      ∀ q : ℚ, g.get? "isostasytime" = some (.inl (.num q)) → -(1 / 10 ^ 8) ≤ q := by
  unfold Creates Process.ofKwargs
  simp only [String.reduceEq, if_true, if_false]
  have d1 : (0 : K) < 1030 := by norm_num
  have d2 : (0 : K) < 2650 := by norm_num
  have d3 : (0 : K) < 2720 := by norm_num
  simp only [List.forall_mem_cons, List.not_mem_nil, false_imp_iff, implies_true, and_true] at hn ⊢
  constructor
  · rintro ⟨p, h, s1, hc⟩
    simp only [bind_eq_ok] at h
    obtain ⟨u, h0, a1, e1, y1, v1, a2, e2, y2, v2, a3, e3, y3, v3, t, e4, h⟩ := h
    cases h
    refine ⟨checkKeywords_iff.mp ⟨u, h0⟩,
      ⟨(isNumber_pos (floatArg_ok e1) d1).mp (validateDensity_iff.mp ⟨_, v1⟩),
        (isNumber_pos (floatArg_ok e2) d2).mp (validateDensity_iff.mp ⟨_, v2⟩),
        (isNumber_pos (floatArg_ok e3) d3).mp (validateDensity_iff.mp ⟨_, v3⟩)⟩,
      (flexPool_iff R (C + 2) (optFloatArg_ok e4)).mp ?_⟩
    rw [Process.create] at hc
    split at hc
    · cases hc
    · rename_i pool hp
      exact ⟨pool, hp⟩
  · rintro ⟨h0, ⟨w1, w2, w3⟩, w4⟩
    obtain ⟨u, h0⟩ := checkKeywords_iff.mpr h0
    obtain ⟨a1, e1⟩ := floatArg_of (K := K) (default := 1030) hn.1
    obtain ⟨a2, e2⟩ := floatArg_of (K := K) (default := 2650) hn.2.1
    obtain ⟨a3, e3⟩ := floatArg_of (K := K) (default := 2720) hn.2.2
    obtain ⟨t, e4⟩ := optFloatArg_of (K := K) (default := 7000) ht
    obtain ⟨y1, v1⟩ := validateDensity_iff.mpr ((isNumber_pos (floatArg_ok e1) d1).mpr w1)
    obtain ⟨y2, v2⟩ := validateDensity_iff.mpr ((isNumber_pos (floatArg_ok e2) d2).mpr w2)
    obtain ⟨y3, v3⟩ := validateDensity_iff.mpr ((isNumber_pos (floatArg_ok e3) d3).mpr w3)
    obtain ⟨pool, hp⟩ := (flexPool_iff R (C + 2) (optFloatArg_ok e4)).mpr w4
    rw [h0, e1, e2, e3, e4]
    simp only [bind, Except.bind, v1, v2, v3]
    refine ⟨_, rfl, ?_⟩
    rw [Process.create, hp]
    exact ⟨_, rfl⟩

theorem creates_waterFlexure
    (ht : ∀ v, g.get? "isostasytime" = some v → v = .inl .none ∨ ∃ q : ℚ, v = .inl (.num q)) :
    Creates ext env "WaterFlexure" g s ↔
      (∀ k v, g.get? k = some v → k ∈ "isostasytime" :: ext.passedOn "WaterFlexure") ∧
      ∀ q : ℚ, g.get? "isostasytime" = some (.inl (.num q)) → -(1 / 10 ^ 8) ≤ q := by
  unfold Creates Process.ofKwargs
  simp only [String.reduceEq, if_true, if_false]
  constructor
  · rintro ⟨p, h, s1, hc⟩
    simp only [bind_eq_ok] at h
    obtain ⟨u, h0, t, e4, h⟩ := h
    cases h
    refine ⟨checkKeywords_iff.mp ⟨u, h0⟩, (flexPool_iff R (C + 2) (optFloatArg_ok e4)).mp ?_⟩
    rw [Process.create] at hc
    split at hc
    · cases hc
    · rename_i pool hp
      exact ⟨pool, hp⟩
  · rintro ⟨h0, w4⟩
    obtain ⟨u, h0⟩ := checkKeywords_iff.mpr h0
    obtain ⟨t, e4⟩ := optFloatArg_of (K := K) (default := 7000) ht
    obtain ⟨pool, hp⟩ := (flexPool_iff R (C + 2) (optFloatArg_ok e4)).mpr w4
    rw [h0, e4]
    refine ⟨_, rfl, ?_⟩
    rw [Process.create, hp]
    exact ⟨_, rfl⟩

end Creates

theorem creates_shoreline {R C : ℕ} {ext : Externals K} {env : Env (R + 1) C K} {g : Kwargs}
    {s : ProcState (R + 1) C K × World (R + 1) (C + 2) K} {z : List K}
    (hz : ∀ r, rowList s.2.topo r = z) (hn : NumberAt g "alpha") :
    Creates ext env "ShorelineFinder" g s ↔
      (∀ k v, g.get? k = some v → k ∈ ["alpha"]) ∧ g.get? "alpha" ≠ some (.inl (.num 0)) ∧
      ∃ shore, shorelineRow env.kind env.xtol env.rtol (List.ofFn env.x) z s.2.seaLevel =
        .ok shore := by
  unfold Creates Process.ofKwargs
  simp only [String.reduceEq, if_true, if_false]
  have hdef : (5 / 10000 : K) ≠ 0 := by norm_num
  constructor
  · rintro ⟨p, h, s1, hc⟩
    simp only [bind_eq_ok] at h
    obtain ⟨u, h0, a, e, h⟩ := h
    cases h
    rw [Process.create] at hc
    split at hc
    · cases hc
    rename_i w hw
    obtain ⟨h1, h2⟩ := (shorelineInit_iff env.kind env.xtol env.rtol a env.x z s.2 hz).mp ⟨w, hw⟩
    exact ⟨checkKeywords_iff.mp ⟨u, h0⟩, (isNumber_ne (floatArg_ok e) hdef).mp h1, h2⟩
  · rintro ⟨h0, h1, h2⟩
    obtain ⟨u, h0⟩ := checkKeywords_iff.mpr h0
    obtain ⟨a, e⟩ := floatArg_of (K := K) (default := 5 / 10000) hn
    obtain ⟨w, hw⟩ := (shorelineInit_iff env.kind env.xtol env.rtol a env.x z s.2 hz).mpr
      ⟨(isNumber_ne (floatArg_ok e) hdef).mpr h1, h2⟩
    rw [h0, e]
    refine ⟨_, rfl, ?_⟩
    rw [Process.create, hw]
    exact ⟨_, rfl⟩

theorem hasParameter_own {po : String → List String} {name key : String} {l : List String}
    (h : (name, l) ∈ constructorArguments) (hk : key ∈ l) : HasParameter po name key :=
  .inl ⟨_, h, rfl, hk⟩

theorem hasParameter_on {po : String → List String} {name cls key : String}
    (h : (name, cls) ∈ wrappers) (hk : key ∈ po cls) : HasParameter po name key :=
  .inr ⟨_, h, rfl, hk⟩

/-- A process is created exactly if its part of the configuration is fine. -/
theorem component_iff {R C : ℕ} {ext : Externals K} {env : Env (R + 1) C K} {d : Doc}
    {params : PyDict String Kwargs} {name : String}
    (hg : ∀ key, IsSetting d name key ((groupOf params name).get? key)) (hrk : RightKind d)
    (hen : Enabled d name) {dx : K} (hx : env.x = fun c => c.val * dx)
    {s : ProcState (R + 1) C K × World (R + 1) (C + 2) K} {z : List K}
    (hz : ∀ r, rowList s.2.topo r = z) :
    (∃ cls, processClass params name = some cls ∧ Creates ext env cls (groupOf params name) s) ↔
      ComponentFine ext d (C + 2) dx name ∧ (name = "shoreline" →
        ∃ shore, shorelineRow env.kind env.xtol env.rtol (List.ofFn env.x) z s.2.seaLevel =
          .ok shore) := by
  have hset : ∀ key v, IsSetting d name key v ↔ (groupOf params name).get? key = v := fun key v =>
    ⟨fun h => isSetting_unique (hg key) h, fun h => h ▸ hg key⟩
  have hnum : ∀ key, (name, key) ∈ numberKeys → NumberAt (groupOf params name) key :=
    fun key hk v hv => hrk.numbers _ hk hen v ((hset key _).mpr hv)
  have hiso : name ∈ ["flexure", "water_flexure"] → ∀ v, (groupOf params name).get? "isostasytime" =
      some v → v = .inl .none ∨ ∃ q : ℚ, v = .inl (.num q) :=
    fun hm v hv => hrk.isostasy name hm hen v ((hset _ _).mpr hv)
  have hown : (∀ q ∈ sharing, q.1 ≠ name) → ∀ key, (groupOf params name).get? key =
      entry d name key := fun h key => isSetting_own (hg key) h
  have hkeys : ∀ {po : String → List String} {l : List String},
      (∀ key, TakesParameter po d name key → key ∈ l) →
      (∀ key v, IsSetting d name key (some v) → TakesParameter po d name key) →
      ∀ key v, (groupOf params name).get? key = some v → key ∈ l :=
    fun h1 h2 key v hv => h1 _ (h2 key v ((hset _ _).mpr hv))
  have hkeys' : ∀ {po : String → List String} {l : List String},
      (∀ key v, (groupOf params name).get? key = some v → key ∈ l) →
      (∀ key ∈ l, HasParameter po name key) → name ≠ "sea_level" →
      ∀ key v, IsSetting d name key (some v) → TakesParameter po d name key :=
    fun h1 h2 h3 key v hv => ⟨h2 _ (h1 _ _ ((hset _ _).mp hv)), fun h => absurd h h3,
      fun h => absurd h h3⟩
  by_cases hknown : name ∈ knownProcesses
  swap
  · refine ⟨?_, fun h => absurd h.1.known hknown⟩
    rintro ⟨cls, hc, -⟩
    simp only [knownProcesses, List.mem_cons, List.not_mem_nil, or_false, not_or] at hknown
    simp only [processClass, hknown, if_false] at hc
    cases hc
  simp only [knownProcesses, List.mem_cons, List.not_mem_nil, or_false] at hknown
  rcases hknown with rfl | rfl | rfl | rfl | rfl | rfl | rfl | rfl
  · -- sea level
    have hown := hown (by decide)
    cases hf : entry d "sea_level" "filepath" with
    | none =>
      have hcls : processClass params "sea_level" = some "SinusoidalSeaLevel" := by
        simp only [processClass, String.reduceEq, if_false, if_true, hown, hf]
      simp only [hcls, Option.some.injEq, exists_eq_left']
      rw [creates_seaSine (fun key hk => hnum key (by
        simp only [List.mem_cons, List.not_mem_nil, or_false] at hk
        rcases hk with rfl | rfl | rfl | rfl | rfl | rfl <;> decide))]
      constructor
      · intro h
        refine ⟨⟨by decide, ?_, ?_, ?_, ?_, ?_, ?_, ?_⟩, fun h => absurd h (by decide)⟩
        · intro key v hv
          have hk := h key v ((hset _ _).mp hv)
          refine ⟨hasParameter_own (List.mem_cons_self ..) ?_, ?_, fun _ h0 => absurd hf h0⟩
          · simp only [List.mem_cons, List.not_mem_nil, or_false] at hk ⊢
            tauto
          · rintro - - rfl
            exact absurd hk (by decide)
        · intro _ h0; exact absurd hf h0
        all_goals (intro h; exact absurd h (by decide))
      · rintro ⟨h, -⟩
        intro key v hv
        have hk := h.keys key v ((hset _ _).mpr hv)
        have h2 := hk.2.1 rfl hf
        have h3 : key ≠ "filepath" := by
          rintro rfl
          rw [hown, hf] at hv
          cases hv
        rcases hasParameter_args hk.1 with h1 | h1 | h1 | h1 | h1 | h1 | h1 | h1 | h1
        · have := h1.2
          simp only [List.mem_cons, List.not_mem_nil, or_false] at this ⊢
          tauto
        all_goals first | exact absurd h1.1 (by decide) | exact absurd h1 (by decide)
    | some v0 =>
      have hcls : processClass params "sea_level" = some "SeaLevelTimeSeries" := by
        simp only [processClass, String.reduceEq, if_false, if_true, hown, hf]
      have hne : entry d "sea_level" "filepath" ≠ none := by rw [hf]; simp
      simp only [hcls, Option.some.injEq, exists_eq_left']
      rw [creates_seaFile (hnum "start" (by decide))]
      constructor
      · rintro ⟨h, path, kind, curve, h1, h2, h3⟩
        refine ⟨⟨by decide, ?_, ?_, ?_, ?_, ?_, ?_, ?_⟩, fun h => absurd h (by decide)⟩
        · intro key v hv
          have hk := h key v ((hset _ _).mp hv)
          refine ⟨hasParameter_own (List.mem_cons_self ..) ?_, fun _ h0 => absurd h0 hne,
            fun _ _ => hk⟩
          simp only [List.mem_cons, List.not_mem_nil, or_false] at hk ⊢
          tauto
        · rw [hown] at h1 h2
          exact fun _ _ => ⟨curve, path, kind, h1, h2, h3⟩
        all_goals (intro h; exact absurd h (by decide))
      · rintro ⟨h, -⟩
        obtain ⟨curve, path, kind, h1, h2, h3⟩ := h.seaLevel rfl hne
        refine ⟨fun key v hv => (h.keys key v ((hset _ _).mpr hv)).2.2 rfl hne, path, kind, curve,
          ?_, ?_, h3⟩
        · rw [hown]; exact h1
        · rw [hown]; exact h2
  · -- subsidence
    have hown := hown (by decide)
    have hcls : processClass params "subsidence" = some "SubsidenceTimeSeries" := by
      simp only [processClass, if_true]
    simp only [hcls, Option.some.injEq, exists_eq_left']
    rw [creates_subsidence]
    constructor
    · rintro ⟨h, path, kind, curve, h1, h2, h3, h4⟩
      refine ⟨⟨by decide, ?_, ?_, ?_, ?_, ?_, ?_, ?_⟩, fun h => absurd h (by decide)⟩
      · exact hkeys' h (fun key hk => hasParameter_own (by decide) hk) (by decide)
      · intro h; exact absurd h (by decide)
      · rw [hown] at h1 h2
        refine fun _ => ⟨curve, ⟨path, kind, h1, h2, h3⟩, fun c hc => ?_⟩
        have := h4 ⟨c, hc⟩
        rwa [hx] at this
      all_goals (intro h; exact absurd h (by decide))
    · rintro ⟨h, -⟩
      obtain ⟨curve, ⟨path, kind, h1, h2, h3⟩, h4⟩ := h.subsidence rfl
      refine ⟨hkeys (fun key hk => ?_) h.keys, path, kind, curve, by rw [hown]; exact h1,
        by rw [hown]; exact h2, h3, fun c => ?_⟩
      · rcases hasParameter_args hk.1 with h1 | h1 | h1 | h1 | h1 | h1 | h1 | h1 | h1
        all_goals first | exact h1.2 | exact absurd h1.1 (by decide) | exact absurd h1 (by decide)
      · rw [hx]
        exact h4 c.val c.isLt
  · -- compaction
    have hcls : processClass params "compaction" = some "Compact" := by
      simp only [processClass, String.reduceEq, if_false, if_true]
    simp only [hcls, Option.some.injEq, exists_eq_left']
    rw [creates_compaction]
    constructor
    · intro h
      refine ⟨⟨by decide, ?_, ?_, ?_, ?_, ?_, ?_, ?_⟩, fun h => absurd h (by decide)⟩
      · exact hkeys' h (fun key hk => hasParameter_on (cls := "Compact") (by decide) hk) (by decide)
      all_goals (intro h; exact absurd h (by decide))
    · rintro ⟨h, -⟩
      refine hkeys (fun key hk => ?_) h.keys
      rcases hasParameter_args hk.1 with h1 | h1 | h1 | h1 | h1 | h1 | h1 | h1 | h1
      all_goals first | exact h1.2 | exact absurd h1.1 (by decide) | exact absurd h1 (by decide)
  · -- submarine diffusion
    have hcls : processClass params "submarine_diffusion" = some "SubmarineDiffuser" := by
      simp only [processClass, String.reduceEq, if_false, if_true]
    simp only [hcls, Option.some.injEq, exists_eq_left']
    rw [creates_diffusion (fun key hk => hnum key (by
        simp only [List.mem_cons, List.not_mem_nil, or_false] at hk
        rcases hk with rfl | rfl | rfl | rfl | rfl | rfl | rfl | rfl | rfl <;> decide))]
    constructor
    · rintro ⟨h, h1⟩
      refine ⟨⟨by decide, ?_, ?_, ?_, ?_, ?_, ?_, ?_⟩, fun h => absurd h (by decide)⟩
      · refine hkeys' h (fun key hk => ?_) (by decide)
        rcases List.mem_append.mp hk with hk | hk
        · exact hasParameter_own (by decide) hk
        · exact hasParameter_on (cls := "SubmarineDiffuser") (by decide) hk
      · intro h; exact absurd h (by decide)
      · intro h; exact absurd h (by decide)
      · intro _ h2
        exact h1 ((hset _ _).mp h2)
      all_goals (intro h; exact absurd h (by decide))
    · rintro ⟨h, -⟩
      refine ⟨hkeys (fun key hk => ?_) h.keys, fun h1 => h.slope rfl ((hset _ _).mpr h1)⟩
      rcases hasParameter_args hk.1 with h1 | h1 | h1 | h1 | h1 | h1 | h1 | h1 | h1
      all_goals first | exact h1.2 | exact absurd h1.1 (by decide) | exact absurd h1 (by decide)
  · -- fluvial
    have hcls : processClass params "fluvial" = some "Fluvial" := by
      simp only [processClass, String.reduceEq, if_false, if_true]
    simp only [hcls, Option.some.injEq, exists_eq_left']
    rw [creates_fluvial (fun key hk => hnum key (by
        simp only [List.mem_cons, List.not_mem_nil, or_false] at hk
        rcases hk with rfl | rfl | rfl | rfl | rfl | rfl <;> decide))]
    constructor
    · intro h
      refine ⟨⟨by decide, ?_, ?_, ?_, ?_, ?_, ?_, ?_⟩, fun h => absurd h (by decide)⟩
      · exact hkeys' h (fun key hk => hasParameter_own (by decide) hk) (by decide)
      all_goals (intro h; exact absurd h (by decide))
    · rintro ⟨h, -⟩
      refine hkeys (fun key hk => ?_) h.keys
      rcases hasParameter_args hk.1 with h1 | h1 | h1 | h1 | h1 | h1 | h1 | h1 | h1
      all_goals first | exact h1.2 | exact absurd h1.1 (by decide) | exact absurd h1 (by decide)
  · -- flexure
    have hcls : processClass params "flexure" = some "SedimentFlexure" := by
      simp only [processClass, String.reduceEq, if_false, if_true]
    simp only [hcls, Option.some.injEq, exists_eq_left']
    rw [creates_flexure (fun key hk => hnum key (by
        simp only [List.mem_cons, List.not_mem_nil, or_false] at hk
        rcases hk with rfl | rfl | rfl <;> decide)) (hiso (by decide))]
    constructor
    · rintro ⟨h, h1, h2⟩
      refine ⟨⟨by decide, ?_, ?_, ?_, ?_, ?_, ?_, ?_⟩, fun h => absurd h (by decide)⟩
      · refine hkeys' h (fun key hk => ?_) (by decide)
        rcases List.mem_append.mp hk with hk | hk
        · exact hasParameter_own (by decide) hk
        · exact hasParameter_on (cls := "SedimentFlexure") (by decide) hk
      · intro h; exact absurd h (by decide)
      · intro h; exact absurd h (by decide)
      · intro h; exact absurd h (by decide)
      · intro h; exact absurd h (by decide)
      · exact fun _ key hk q hq => h1 key hk q ((hset _ _).mp hq)
      · exact fun _ q hq => h2 q ((hset _ _).mp hq)
    · rintro ⟨h, -⟩
      refine ⟨hkeys (fun key hk => ?_) h.keys,
        fun key hk q hq => h.density rfl key hk q ((hset _ _).mpr hq),
        fun q hq => h.isostasy (by decide) q ((hset _ _).mpr hq)⟩
      rcases hasParameter_args hk.1 with h1 | h1 | h1 | h1 | h1 | h1 | h1 | h1 | h1
      all_goals first | exact h1.2 | exact absurd h1.1 (by decide) | exact absurd h1 (by decide)
  · -- shoreline
    have hcls : processClass params "shoreline" = some "ShorelineFinder" := by
      simp only [processClass, String.reduceEq, if_false, if_true]
    simp only [hcls, Option.some.injEq, exists_eq_left']
    rw [creates_shoreline hz (hnum "alpha" (by decide))]
    constructor
    · rintro ⟨h, h1, h2⟩
      refine ⟨⟨by decide, ?_, ?_, ?_, ?_, ?_, ?_, ?_⟩, fun _ => h2⟩
      · exact hkeys' h (fun key hk => hasParameter_own (by decide) hk) (by decide)
      · intro h; exact absurd h (by decide)
      · intro h; exact absurd h (by decide)
      · intro h; exact absurd h (by decide)
      · intro _ h2
        exact h1 ((hset _ _).mp h2)
      all_goals (intro h; exact absurd h (by decide))
    · rintro ⟨h, h2⟩
      refine ⟨hkeys (fun key hk => ?_) h.keys, fun h1 => h.alpha rfl ((hset _ _).mpr h1), h2 trivial⟩
      rcases hasParameter_args hk.1 with h1 | h1 | h1 | h1 | h1 | h1 | h1 | h1 | h1
      all_goals first | exact h1.2 | exact absurd h1.1 (by decide) | exact absurd h1 (by decide)
  · -- water flexure
    have hcls : processClass params "water_flexure" = some "WaterFlexure" := by
      simp only [processClass, String.reduceEq, if_false, if_true]
    simp only [hcls, Option.some.injEq, exists_eq_left']
    rw [creates_waterFlexure (hiso (by decide))]
    constructor
    · rintro ⟨h, h2⟩
      refine ⟨⟨by decide, ?_, ?_, ?_, ?_, ?_, ?_, ?_⟩, fun h => absurd h (by decide)⟩
      · refine hkeys' h (fun key hk => ?_) (by decide)
        rcases List.mem_cons.mp hk with rfl | hk
        · exact hasParameter_own (l := ["isostasytime"]) (by decide) (by decide)
        · exact hasParameter_on (cls := "WaterFlexure") (by decide) hk
      · intro h; exact absurd h (by decide)
      · intro h; exact absurd h (by decide)
      · intro h; exact absurd h (by decide)
      · intro h; exact absurd h (by decide)
      · intro h; exact absurd h (by decide)
      · exact fun _ q hq => h2 q ((hset _ _).mp hq)
    · rintro ⟨h, -⟩
      refine ⟨hkeys (fun key hk => ?_) h.keys,
        fun q hq => h.isostasy (by decide) q ((hset _ _).mpr hq)⟩
      rcases hasParameter_args hk.1 with h1 | h1 | h1 | h1 | h1 | h1 | h1 | h1 | h1
      all_goals first | exact h1.2 | exact absurd h1.1 (by decide) | exact absurd h1 (by decide)

/-! ### Creating all components -/

theorem isNumber_unique {v : Option PyValue} {a x y : K} (hx : IsNumber v a x)
    (hy : IsNumber v a y) : x = y := by
  rcases hx with ⟨h1, rfl⟩ | ⟨q, h1, rfl⟩ <;> rcases hy with ⟨h2, rfl⟩ | ⟨q', h2, rfl⟩
  · rfl
  · rw [h1] at h2; cases h2
  · rw [h1] at h2; cases h2
  · rw [h1] at h2; cases h2; rfl

/-- Only the diffuser sets the sea level. -/
theorem create_seaLevel {R C : ℕ} {env : Env R C K} {p : Process K}
    {s s1 : ProcState R C K × World R (C + 2) K} (h : p.create env s = .ok s1) :
    s1.2.seaLevel = match p with
      | .diffusion P => P.seaLevel
      | _ => s.2.seaLevel := by
  cases p with
  | seaLevel curve start => cases h; rfl
  | subsidence curve =>
    rw [Process.create] at h
    split at h <;> cases h
    rfl
  | compaction => cases h; rfl
  | diffusion P =>
    rw [Process.create] at h
    unfold diffuserInit at h
    dsimp only at h
    by_cases h0 : P.plainSlope = 0
    · rw [if_pos h0] at h; cases h
    · rw [if_neg h0] at h; cases h; rfl
  | fluvial P => cases h; rfl
  | flexure t =>
    rw [Process.create] at h
    split at h <;> cases h
    rfl
  | waterFlexure t =>
    rw [Process.create] at h
    split at h <;> cases h
    rfl
  | shoreline alpha =>
    rw [Process.create] at h
    split at h
    · cases h
    rename_i w hw
    cases h
    unfold shorelineInit shorelineUpdate at hw
    dsimp only at hw
    split at hw <;> cases hw
    rfl

theorem createNamed_cons {R C : ℕ} {ext : Externals K} {env : Env R C K}
    {params : PyDict String Kwargs} {n : String} {names : List String}
    {s : ProcState R C K × World R (C + 2) K} :
    (∃ r, createNamed ext env params (n :: names) s = .ok r) ↔
      ∃ cls p s1, processClass params n = some cls ∧
        Process.ofKwargs ext cls (groupOf params n) = .ok p ∧ p.create env s = .ok s1 ∧
        ∃ r, createNamed ext env params names s1 = .ok r := by
  rw [createNamed]
  constructor
  · rintro ⟨r, h⟩
    split at h
    · cases h
    rename_i cls hcls
    split at h
    · cases h
    rename_i p hp
    split at h
    · cases h
    rename_i s1 hs
    split at h
    · cases h
    rename_i ps s2 hr
    exact ⟨cls, p, s1, hcls, hp, hs, _, hr⟩
  · rintro ⟨cls, p, s1, h1, h2, h3, r, h4⟩
    rw [h1]
    dsimp only
    rw [h2]
    dsimp only
    rw [h3]
    dsimp only
    rw [h4]
    exact ⟨_, rfl⟩

theorem createNamed_iff {R C : ℕ} {ext : Externals K} {env : Env (R + 1) C K} {d : Doc}
    {params : PyDict String Kwargs} {names : List String}
    (hg : ∀ n ∈ names, ∀ key, IsSetting d n key ((groupOf params n).get? key))
    (hrk : RightKind d) (hen : ∀ n ∈ names, Enabled d n) {dx : K}
    (hx : env.x = fun c => c.val * dx) {L : K}
    (hL : "submarine_diffusion" ∈ names → ∀ v, IsSetting d "submarine_diffusion" "sea_level" v →
      IsNumber v 0 L) (before : List String)
    {s : ProcState (R + 1) C K × World (R + 1) (C + 2) K} {z : List K}
    (hz : ∀ r, rowList s.2.topo r = z)
    (hs : s.2.seaLevel = if "submarine_diffusion" ∈ before then L else 0) :
    (∃ r, createNamed ext env params names s = .ok r) ↔
      (∀ n ∈ names, ComponentFine ext d (C + 2) dx n) ∧
      ∀ p q, names = p ++ "shoreline" :: q → ∃ shore, shorelineRow env.kind env.xtol env.rtol
        (List.ofFn env.x) z (if "submarine_diffusion" ∈ before ++ p then L else 0) = .ok shore := by
  induction names generalizing before s with
  | nil =>
    refine ⟨fun _ => ⟨by simp, fun p q h => ?_⟩, fun _ => ⟨_, rfl⟩⟩
    have := congrArg List.length h
    simp at this
  | cons n names ih =>
    have hcomp := component_iff (s := s) (ext := ext) (hg n (List.mem_cons_self ..)) hrk
      (hen n (List.mem_cons_self ..)) hx hz
    rw [createNamed_cons]
    -- the state after the first process
    have hafter : ∀ {cls p s1}, processClass params n = some cls →
        Process.ofKwargs ext cls (groupOf params n) = .ok p → p.create env s = .ok s1 →
        ((∃ r, createNamed ext env params names s1 = .ok r) ↔
          (∀ n ∈ names, ComponentFine ext d (C + 2) dx n) ∧
          ∀ p q, names = p ++ "shoreline" :: q → ∃ shore, shorelineRow env.kind env.xtol env.rtol
            (List.ofFn env.x) z (if "submarine_diffusion" ∈ (before ++ [n]) ++ p then L else 0) =
              .ok shore) := by
      intro cls p s1 h1 h2 h3
      obtain ⟨s1, w1⟩ := s1
      obtain ⟨s0, w0⟩ := s
      refine ih (fun m hm => hg m (List.mem_cons_of_mem _ hm))
        (fun m hm => hen m (List.mem_cons_of_mem _ hm))
        (fun hm => hL (List.mem_cons_of_mem _ hm)) (before ++ [n]) ?_ ?_
      · intro r
        have := (create_world h3).2.1
        dsimp only at this ⊢
        rw [this]
        exact hz r
      · have hsl := create_seaLevel h3
        obtain ⟨hname, hpar, -⟩ := ofKwargs_ok h1 h2
        by_cases hn : n = "submarine_diffusion"
        · subst hn
          rw [if_pos (by simp)]
          cases p with
          | diffusion P =>
            dsimp only at hsl
            rw [hsl]
            obtain ⟨dflt, hm, hp⟩ := hpar ("sea_level", P.seaLevel) (by simp [numericParameters])
            have h0 : dflt = 0 := by
              simp only [numericDefaults, List.mem_cons, Prod.mk.injEq, String.reduceEq, false_and,
                and_false, true_and, List.not_mem_nil, or_false, false_or] at hm
              exact hm
            subst h0
            dsimp only at hp
            rw [Rat.cast_zero] at hp
            exact isNumber_unique hp (hL (List.mem_cons_self ..) _
              (hg _ (List.mem_cons_self ..) "sea_level"))
          | _ => exact absurd hname (by simp only [Process.name]; decide)
        · have hif : "submarine_diffusion" ∈ before ++ [n] ↔ "submarine_diffusion" ∈ before := by
            simp only [List.mem_append, List.mem_singleton, or_iff_left_iff_imp]
            exact fun h => absurd h.symm hn
          simp only [hif]
          dsimp only at hs
          rw [← hs]
          cases p with
          | diffusion P => exact absurd hname.symm hn
          | _ => exact hsl
    constructor
    · rintro ⟨cls, p, s1, h1, h2, h3, h4⟩
      obtain ⟨f1, f2⟩ := hcomp.mp ⟨cls, h1, p, h2, s1, h3⟩
      obtain ⟨g1, g2⟩ := (hafter h1 h2 h3).mp h4
      refine ⟨List.forall_mem_cons.mpr ⟨f1, g1⟩, ?_⟩
      intro p q hpq
      cases p with
      | nil =>
        simp only [List.nil_append, List.cons.injEq] at hpq
        have := f2 hpq.1
        rw [hs] at this
        rwa [List.append_nil]
      | cons a p =>
        simp only [List.cons_append, List.cons.injEq] at hpq
        have := g2 p q hpq.2
        rw [List.append_assoc] at this
        rw [← hpq.1]
        exact this
    · rintro ⟨g1, g2⟩
      obtain ⟨f1, g1⟩ := List.forall_mem_cons.mp g1
      obtain ⟨cls, h1, p, h2, s1, h3⟩ := hcomp.mpr ⟨f1, fun hn => by
        have := g2 [] names (by rw [hn]; rfl)
        rw [List.append_nil, ← hs] at this
        exact this⟩
      refine ⟨cls, p, s1, h1, h2, h3, (hafter h1 h2 h3).mpr ⟨g1, fun p q hpq => ?_⟩⟩
      have := g2 (n :: p) q (by rw [hpq]; rfl)
      rw [List.append_assoc]
      exact this

end Verif
