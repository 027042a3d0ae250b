import Verif.Lemmas.RunParams
import Verif.Props.Config

/-!
# Properties of process parameters (C08–C10, C55)
-/

set_option autoImplicit false

namespace Verif.Props

open Spec

variable {ν : Type*} [DecidableEq ν]

/-! ### C08 -/

/-- C08: matching fails exactly when some listed key is defined by both groups with different
values, and the error names exactly those keys, in order. -/
theorem match_fails_iff (d1 d2 : PyDict String ν) (keys : List String) (e : Err) :
    matchValues d1 d2 keys = .error e ↔
      ∃ bad, e = .parameterMismatch bad ∧ bad ≠ [] ∧ bad.Sublist keys ∧
        (∀ k ∈ bad, Conflict d1 d2 k) ∧ bad.length = keys.countP (fun k => Conflict d1 d2 k) := by
  constructor
  · intro h
    obtain ⟨⟨k, hk, hc⟩, rfl⟩ := matchValues_error h
    refine ⟨_, rfl, ?_, List.filter_sublist, ?_, (List.countP_eq_length_filter).symm⟩
    · exact List.ne_nil_of_mem (List.mem_filter.mpr ⟨hk, by simpa using hc⟩)
    · intro k hk; simpa using (List.mem_filter.mp hk).2
  · rintro ⟨bad, rfl, hne, hsub, hall, hlen⟩
    have hbad : bad = keys.filter (fun k => Conflict d1 d2 k) := by
      have h1 : bad.filter (fun k => Conflict d1 d2 k) = bad :=
        List.filter_eq_self.mpr fun k hk => by simpa using hall k hk
      have h2 := hsub.filter (fun k => decide (Conflict d1 d2 k))
      rw [h1] at h2
      exact h2.eq_of_length (by rw [hlen, List.countP_eq_length_filter])
    cases hm : matchValues d1 d2 keys with
    | error e => rw [(matchValues_error hm).2, hbad]
    | ok m =>
      exfalso
      obtain ⟨k, hk⟩ := List.exists_mem_of_ne_nil _ hne
      exact (matchValues_ok hm).1 k (hsub.subset hk) (hall k hk)

/-- C08: otherwise the result maps exactly the listed keys that either group defines to their
value. -/
theorem match_value (d1 d2 : PyDict String ν) (keys : List String) (m : PyDict String ν)
    (h : matchValues d1 d2 keys = .ok m) (key : String) (v : ν) :
    m.get? key = some v ↔ key ∈ keys ∧ (d1.get? key = some v ∨ d2.get? key = some v) := by
  obtain ⟨h1, h2⟩ := matchValues_ok h
  rw [h2]
  by_cases hk : key ∈ keys
  · rw [if_pos hk]
    have hc := h1 key hk
    cases e1 : d1.get? key with
    | none => simp [hk]
    | some a =>
      cases e2 : d2.get? key with
      | none => simp [hk]
      | some b =>
        have hab : a = b := by
          by_contra hne
          exact hc ⟨a, b, e1, e2, hne⟩
        subst hab
        simp [hk]
  · simp [hk]

example : matchValues [("foo", (0 : Rat)), ("bar", 1)] [("baz", 2), ("bar", 3), ("foo", 0)]
    ["baz", "bar", "foo"] = .error (.parameterMismatch ["bar"]) := by decide +kernel

example : matchValues [("foo", (0 : Rat)), ("bar", 1)] [("baz", 2), ("foo", 0)]
    ["baz", "bar", "foo"] = .ok [("baz", 2), ("bar", 1), ("foo", 0)] := by decide +kernel

/-! ### C09 -/

theorem paramsToMatch_ne : ∀ m ∈ paramsToMatch, m.1 ≠ m.2.1 := by decide

theorem paramsToMatch_disjoint :
    paramsToMatch.Pairwise fun m m' => ∀ k ∈ m.2.2, k ∉ m'.2.2 := by decide

theorem withRequired_mem (ps : List String) (n : String) :
    n ∈ withRequired ps ↔ n ∈ allProcesses ps := by
  have hc : ∀ (l : List String) (x : String),
      n ∈ (if l.contains x then l else l ++ [x]) ↔ n ∈ l ++ [x] := by
    intro l x
    by_cases hx : x ∈ l
    · have : l.contains x = true := by simpa using hx
      rw [if_pos this, List.mem_append, List.mem_singleton]
      exact ⟨Or.inl, fun h => h.elim id fun e => e ▸ hx⟩
    · have : l.contains x = false := by simpa using hx
      rw [this]; simp
  have : withRequired ps = (if (if ps.contains "fluvial" then ps
      else ps ++ ["fluvial"]).contains "shoreline" then _ else _ ++ ["shoreline"]) := rfl
  rw [this, hc, List.mem_append, hc]
  simp [allProcesses]
  tauto

theorem given_congr {ps qs : List String} (h : ∀ n, n ∈ ps ↔ n ∈ qs)
    (ctx : PyDict String (Group ν)) (name : String) : given ps ctx name = given qs ctx name := by
  unfold given; simp only [h]

theorem loaded_kwds {processes : List String} {ctx : PyDict String (Group ν)}
    {comps : PyDict String (Built ν)} (h : loadProcesses processes ctx = .ok comps) {name : String}
    {b : Built ν} (hb : comps.get? name = some b) :
    b.kwds = groupOf (matchedParams (withRequired processes) ctx) name ∧
      processClass (matchedParams (withRequired processes) ctx) name = some b.cls := by
  unfold loadProcesses at h
  dsimp only at h
  split at h
  · cases h
  · rename_i bs hbs
    cases h
    rw [PyDict.ofPairs, PyDict.get?_update] at hb
    simp only [PyDict.get?, Option.or_none] at hb
    have := PyDict.mem_of_get? hb
    exact (buildAll_ok hbs).2.2 (name, b) (List.mem_reverse.mp this)

/-- C09, false: `hemipelagic` given in the `sediments` section does not reach the fluvial
component. -/
theorem hemipelagic_not_shared :
    ∃ (processes : List String) (ctx : PyDict String (Group Rat))
      (comps : PyDict String (Built Rat)) (b : Built Rat),
      loadProcesses processes ctx = .ok comps ∧ comps.get? "fluvial" = some b ∧
      (groupOf ctx "sediments").get? "hemipelagic" = some 5 ∧
      b.kwds.get? "hemipelagic" = none :=
  ⟨["sea_level", "fluvial"], [("sediments", [("hemipelagic", 5)]), ("fluvial", [("sand_frac", 1)])],
    [("sea_level", ⟨"SinusoidalSeaLevel", []⟩), ("fluvial", ⟨"Fluvial", [("sand_frac", 1)]⟩),
      ("shoreline", ⟨"ShorelineFinder", []⟩)], ⟨"Fluvial", [("sand_frac", 1)]⟩, rfl, rfl, rfl, rfl⟩

/-- C09, partial: for every pair of groups with shared parameters, if the enabled groups do not
conflict on any of their shared keys, the constructors of both receive the same value for each
shared key, the one defined by either group. Missing: `sediments.hemipelagic`, which is not
shared (previous theorem). -/
theorem shared_parameters_partial (processes : List String) (ctx : PyDict String (Group ν))
    (comps : PyDict String (Built ν)) (h : loadProcesses processes ctx = .ok comps)
    (a b : String) (keys : List String) (hm : (a, b, keys) ∈ sharedParameters)
    (hc : ∀ k ∈ keys, ¬ Conflict (given (allProcesses processes) ctx a)
      (given (allProcesses processes) ctx b) k)
    (name : String) (hn : name = a ∨ name = b) (c : Built ν) (hcomp : comps.get? name = some c)
    (key : String) (hk : key ∈ keys) (v : ν) :
    c.kwds.get? key = some v ↔
      (given (allProcesses processes) ctx a).get? key = some v ∨
      (given (allProcesses processes) ctx b).get? key = some v := by
  have hm' : (a, b, keys) ∈ paramsToMatch := by
    revert hm; unfold sharedParameters paramsToMatch
    simp only [List.mem_cons, List.not_mem_nil, or_false]
    tauto
  rw [(loaded_kwds h hcomp).1, matchedParams]
  have hg : ∀ n, groupOf (initialParams (withRequired processes) ctx) n =
      given (allProcesses processes) ctx n := by
    intro n
    rw [groupOf_initialParams, given_congr (withRequired_mem processes)]
  have := (get?_matchPairs paramsToMatch paramsToMatch_ne paramsToMatch_disjoint
    (initialParams (withRequired processes) ctx) name key).1 (a, b, keys) hm' hk hn
    (by simpa only [hg] using hc)
  rw [this]
  simp only [hg]
  cases e1 : (given (allProcesses processes) ctx a).get? key with
  | none => simp
  | some x =>
    cases e2 : (given (allProcesses processes) ctx b).get? key with
    | none => simp
    | some y =>
      have hxy : x = y := by
        by_contra hne
        exact hc key hk ⟨x, y, e1, e2, hne⟩
      subst hxy; simp

/-- C09: all other parameters reach the constructors as given. -/
theorem unshared_parameters (processes : List String) (ctx : PyDict String (Group ν))
    (comps : PyDict String (Built ν)) (h : loadProcesses processes ctx = .ok comps)
    (name : String) (c : Built ν) (hcomp : comps.get? name = some c) (key : String)
    (hk : key ∉ ["sediment_load", "plain_slope", "hemipelagic", "alpha", "isostasytime", "eet"]) :
    c.kwds.get? key = (given (allProcesses processes) ctx name).get? key := by
  rw [(loaded_kwds h hcomp).1, matchedParams]
  have := (get?_matchPairs paramsToMatch paramsToMatch_ne paramsToMatch_disjoint
    (initialParams (withRequired processes) ctx) name key).2 (by
      intro m hm hkm _
      exfalso
      apply hk
      revert hm hkm
      unfold paramsToMatch
      simp only [List.mem_cons, List.not_mem_nil, or_false]
      rintro (rfl | rfl | rfl | rfl) <;> simp <;> tauto)
  rw [this, groupOf_initialParams, given_congr (withRequired_mem processes)]

/-- Two processes with shared parameters, used in the examples. -/
def someContext : PyDict String (Group Rat) :=
  [("submarine_diffusion", [("sediment_load", 3), ("alpha", 1 / 2000)]),
    ("fluvial", [("plain_slope", 1 / 1000), ("sand_frac", 1 / 2)])]

example : ∃ comps b, loadProcesses ["submarine_diffusion"] someContext = .ok comps ∧
    comps.get? "fluvial" = some b ∧ b.kwds.get? "sediment_load" = some 3 := by
  refine ⟨_, _, rfl, rfl, ?_⟩
  exact (shared_parameters_partial ["submarine_diffusion"] someContext _ rfl "fluvial"
    "submarine_diffusion" _ (by simp [sharedParameters]; rfl) (by decide +kernel) "fluvial"
    (.inl rfl) _ rfl "sediment_load" (by simp) 3).mpr (.inr (by decide +kernel))

/-! ### C10 -/

theorem firstAppearances_append_of_mem (l : List String) (x : String) (h : x ∈ l) :
    firstAppearances (l ++ [x]) = firstAppearances l := by
  induction l with
  | nil => simp at h
  | cons y l ih =>
    simp only [List.cons_append, firstAppearances, List.cons_inj_right]
    by_cases hx : x ∈ l
    · rw [ih hx]
    · have hxy : x = y := by simpa [hx] using h
      subst hxy
      have hfa : ∀ l : List String, x ∉ l → firstAppearances (l ++ [x]) =
          firstAppearances l ++ [x] := by
        intro l
        induction l with
        | nil => intro _; rfl
        | cons z l ih =>
          intro hz
          simp only [List.mem_cons, not_or] at hz
          simp only [List.cons_append, firstAppearances, ih hz.2, List.filter_append]
          have : x ≠ z := hz.1
          simp [this]
      rw [hfa l hx, List.filter_append]
      simp

theorem firstAppearances_withRequired (ps : List String) :
    firstAppearances (withRequired ps) = firstAppearances (allProcesses ps) := by
  have hc : ∀ (l : List String) (x : String),
      firstAppearances (if l.contains x then l else l ++ [x]) = firstAppearances (l ++ [x]) := by
    intro l x
    by_cases hx : x ∈ l
    · rw [if_pos (by simpa using hx), firstAppearances_append_of_mem l x hx]
    · have : l.contains x = false := by simpa using hx
      rw [this]; simp
  unfold withRequired allProcesses
  dsimp only
  rw [hc]
  have hcong : ∀ (l m : List String), firstAppearances l = firstAppearances m →
      (∀ n, n ∈ l ↔ n ∈ m) → ∀ x, firstAppearances (l ++ [x]) = firstAppearances (m ++ [x]) := by
    have hsnoc : ∀ (l : List String) (x : String), firstAppearances (l ++ [x]) =
        if x ∈ l then firstAppearances l else firstAppearances l ++ [x] := by
      intro l x
      by_cases hx : x ∈ l
      · rw [if_pos hx, firstAppearances_append_of_mem l x hx]
      · rw [if_neg hx]
        induction l with
        | nil => rfl
        | cons z l ih =>
          simp only [List.mem_cons, not_or] at hx
          simp only [List.cons_append, firstAppearances, ih hx.2, List.filter_append]
          have : x ≠ z := hx.1
          simp [this]
    intro l m h1 h2 x
    rw [hsnoc, hsnoc, h1]
    simp only [h2]
  rw [hcong _ (ps ++ ["fluvial"]) (hc ps "fluvial") ?_ "shoreline"]
  · simp
  · intro n
    by_cases hx : "fluvial" ∈ ps
    · rw [if_pos (by simpa using hx), List.mem_append, List.mem_singleton]
      exact ⟨Or.inl, fun h => h.elim id fun e => e ▸ hx⟩
    · have : ps.contains "fluvial" = false := by simpa using hx
      rw [this]; simp

/-- C10: the components are the distinct listed processes in order of first appearance, followed
by fluvial and shoreline if not listed. -/
theorem components_order (processes : List String) (ctx : PyDict String (Group ν))
    (comps : PyDict String (Built ν)) (h : loadProcesses processes ctx = .ok comps) :
    comps.map (·.1) = firstAppearances (processes ++ ["fluvial", "shoreline"]) := by
  unfold loadProcesses at h
  dsimp only at h
  split at h
  · cases h
  · rename_i bs hbs
    cases h
    have := keys_ofPairs bs
    rw [(buildAll_ok hbs).1, firstAppearances_withRequired] at this
    exact this

/-- C10: loading fails exactly when an unknown process is listed, with `KeyError` naming the first
one. -/
theorem components_fail_iff (processes : List String) (ctx : PyDict String (Group ν)) (e : Err) :
    loadProcesses processes ctx = .error e ↔
      ∃ pre name post, processes = pre ++ name :: post ∧ name ∉ knownProcesses ∧
        (∀ n ∈ pre, n ∈ knownProcesses) ∧ e = .keyError name := by
  have hwr : ∃ ex, withRequired processes = processes ++ ex ∧ ∀ n ∈ ex, n ∈ knownProcesses := by
    unfold withRequired
    dsimp only
    by_cases h1 : processes.contains "fluvial" = true <;>
    by_cases h2 : (if processes.contains "fluvial" = true then processes
        else processes ++ ["fluvial"]).contains "shoreline" = true
    · rw [if_pos h2, if_pos h1]; exact ⟨[], by simp, by simp⟩
    · rw [if_neg h2, if_pos h1]; exact ⟨_, rfl, by simp [knownProcesses]⟩
    · rw [if_pos h2, if_neg h1]; exact ⟨_, rfl, by simp [knownProcesses]⟩
    · rw [if_neg h2, if_neg h1, List.append_assoc]; exact ⟨_, rfl, by simp [knownProcesses]⟩
  obtain ⟨ex, hex, hexk⟩ := hwr
  constructor
  · intro h
    unfold loadProcesses at h
    dsimp only at h
    split at h
    · rename_i e' he'
      cases h
      obtain ⟨pre, n, post, h1, h2, h3, h4⟩ := buildAll_error he'
      have hn : n ∉ knownProcesses := fun hk => (processClass_ne_none _ n).mpr hk h2
      rw [hex] at h1
      have hnex : n ∉ ex := fun hm => hn (hexk n hm)
      rcases List.append_eq_append_iff.mp h1 with ⟨as, hp, hx⟩ | ⟨cs, hp, hx⟩
      · exfalso; apply hnex; rw [hx]; simp
      · cases cs with
        | nil =>
          exfalso; apply hnex; rw [List.nil_append] at hx; rw [← hx]; simp
        | cons c cs =>
          simp only [List.cons_append, List.cons.injEq] at hx
          obtain ⟨rfl, _⟩ := hx
          exact ⟨pre, n, cs, hp, hn, fun m hm => (processClass_ne_none _ m).mp (h4 m hm), h3⟩
    · cases h
  · rintro ⟨pre, n, post, rfl, hn, hpre, rfl⟩
    unfold loadProcesses
    dsimp only
    cases hb : buildAll (matchedParams (withRequired (pre ++ n :: post)) ctx)
        (withRequired (pre ++ n :: post)) with
    | ok bs =>
      exfalso
      have := (buildAll_ok hb).2.1 n (by rw [hex]; simp)
      exact hn ((processClass_ne_none _ n).mp this)
    | error e =>
      obtain ⟨pre', n', post', h1, h2, h3, h4⟩ := buildAll_error hb
      have hn' : n' ∉ knownProcesses := fun hk => (processClass_ne_none _ n').mpr hk h2
      have hpre' : ∀ m ∈ pre', m ∈ knownProcesses :=
        fun m hm => (processClass_ne_none _ m).mp (h4 m hm)
      have h1' : pre ++ n :: (post ++ ex) = pre' ++ n' :: post' := by
        rw [← h1, hex]; simp
      have : n = n' := by
        rcases List.append_eq_append_iff.mp h1' with ⟨as, hp, hx⟩ | ⟨cs, hp, hx⟩
        · cases as with
          | nil => simp only [List.nil_append, List.cons.injEq] at hx; exact hx.1
          | cons a as =>
            simp only [List.cons_append, List.cons.injEq] at hx
            exfalso; apply hn; rw [hx.1]; apply hpre'; rw [hp]; simp
        · cases cs with
          | nil => simp only [List.nil_append, List.cons.injEq] at hx; exact hx.1.symm
          | cons a as =>
            simp only [List.cons_append, List.cons.injEq] at hx
            exfalso; apply hn'; rw [hx.1]; apply hpre; rw [hp]; simp
      subst this
      simp only [h3]

/-- C10: the sea-level component reads a file exactly when a `filepath` is configured. -/
theorem sea_level_class (processes : List String) (ctx : PyDict String (Group ν))
    (comps : PyDict String (Built ν)) (h : loadProcesses processes ctx = .ok comps)
    (b : Built ν) (hb : comps.get? "sea_level" = some b) :
    b.cls = if ((given (allProcesses processes) ctx "sea_level").get? "filepath").isSome then
      "SeaLevelTimeSeries" else "SinusoidalSeaLevel" := by
  have h1 := unshared_parameters processes ctx comps h "sea_level" b hb "filepath" (by decide)
  obtain ⟨h2, h3⟩ := loaded_kwds h hb
  rw [← h1, h2]
  have : processClass (matchedParams (withRequired processes) ctx) "sea_level" =
      match (groupOf (matchedParams (withRequired processes) ctx) "sea_level").get? "filepath" with
      | none => some "SinusoidalSeaLevel"
      | some _ => some "SeaLevelTimeSeries" := by
    unfold processClass
    simp only [reduceCtorEq, String.reduceEq, if_false, if_true]
    cases (groupOf (matchedParams (withRequired processes) ctx) "sea_level").get? "filepath" <;>
      rfl
  rw [this] at h3
  cases hf : (groupOf (matchedParams (withRequired processes) ctx) "sea_level").get? "filepath" with
  | none => rw [hf] at h3; simp only [Option.some.injEq] at h3; simp [h3]
  | some x => rw [hf] at h3; simp only [Option.some.injEq] at h3; simp [h3]

/-- C10: the output writer runs after all processes. -/
theorem output_last (processes : List String) (ctx : PyDict String (Group ν))
    (comps : PyDict String (Built ν)) (h : loadProcesses processes ctx = .ok comps)
    (output : Built ν) :
    (modelComponents comps (some output)).map (·.1) =
      firstAppearances (processes ++ ["fluvial", "shoreline"]) ++ ["output"] := by
  have hk := components_order processes ctx comps h
  have hn : (PyDict.keys comps).Nodup := by
    unfold loadProcesses at h
    dsimp only at h
    split at h
    · cases h
    · cases h; exact PyDict.nodup_ofPairs _
  have hout : "output" ∉ PyDict.keys comps := by
    intro hm
    have hmem : ∀ (l : List String) x, x ∈ firstAppearances l → x ∈ l := by
      intro l x
      induction l with
      | nil => exact id
      | cons y l ih =>
        intro hx
        simp only [firstAppearances, List.mem_cons, List.mem_filter] at hx
        rcases hx with rfl | hx
        · simp
        · exact List.mem_cons_of_mem _ (ih hx.1)
    have h1 : "output" ∈ processes ++ ["fluvial", "shoreline"] :=
      hmem _ _ (by rw [← hk]; exact hm)
    have h2 : "output" ∈ processes := by simpa using h1
    obtain ⟨pre, post, hsp⟩ := List.append_of_mem h2
    have herr : ∃ e, loadProcesses processes ctx = .error e := by
      by_contra hne
      unfold loadProcesses at h
      dsimp only at h
      split at h
      · cases h
      · rename_i bs hbs
        have := (buildAll_ok hbs).2.1 "output" ((withRequired_mem processes _).mpr h1)
        rw [processClass_ne_none] at this
        simp [knownProcesses] at this
    obtain ⟨e, he⟩ := herr
    rw [h] at he; cases he
  unfold modelComponents
  dsimp only
  rw [PyDict.ofPairs_eq hn, PyDict.set_append_of_not_mem hout, List.map_append, hk]
  rfl

example : ∃ comps, loadProcesses ["flexure", "sea_level", "flexure"] someContext = .ok comps ∧
    comps.map (·.1) = ["flexure", "sea_level", "fluvial", "shoreline"] := by
  cases h : loadProcesses ["flexure", "sea_level", "flexure"] someContext with
  | error e =>
    obtain ⟨pre, n, post, h1, h2, _⟩ := (components_fail_iff _ _ _).mp h
    have : n ∈ ["flexure", "sea_level", "flexure"] := by rw [h1]; simp
    exfalso; apply h2
    simp only [List.mem_cons, List.not_mem_nil, or_false] at this
    rcases this with rfl | rfl | rfl <;> decide
  | ok comps => exact ⟨comps, rfl, (components_order _ _ _ h).trans (by decide +kernel)⟩

example : loadProcesses ["flexure", "tides", "output"] someContext = .error (.keyError "tides") :=
  (components_fail_iff _ _ _).mpr ⟨["flexure"], "tides", ["output"], rfl, by decide, by decide, rfl⟩

/-! ### C55 -/

/-- C55: if the first section is in force at time 0 and the others later, and the attributes of
the enabled components agree with the first section, then step `k + 1` of `sequence run` is run
with the parameters of the configuration at time `k`. -/
theorem run_parameters (reject : String → String → Leaf ⊕ Doc → Option Err) (t0 : Rat)
    (times : List Rat) (d0 : Doc) (docs : List Doc) (c : Cfg)
    (hinit : Cfg.init (t0 :: times) (d0 :: docs) = .ok c)
    (hs : (t0 :: times).Pairwise (· ≤ ·)) (h0 : t0 ≤ 0) (hpos : ∀ t ∈ times, 0 < t)
    (hd : ∀ d ∈ d0 :: docs, DistinctKeys d) (ht : ∀ d ∈ d0 :: docs, NoTuples d)
    (hcons : Consistent (d0 :: docs)) (s : Store)
    (hstart : ∀ comp param v, comp ∈ s.map (·.1) → valueAt d0 [comp, param] = some v →
      attributeOf s comp param = some (.inl v))
    (n : Nat) (c' : Cfg) (s' : Store) (hrun : (cliRun reject c s n).2 = .ok (c', s')) :
    (cliRun reject c s n).1.length = n ∧
    ∀ k (h : k < (cliRun reject c s n).1.length) comp param v, comp ∈ s.map (·.1) →
      configAt ((t0 :: times).zip (d0 :: docs)) k [comp, param] = some v →
      attributeOf (cliRun reject c s n).1[k] comp param = some (.inl v) := by
  obtain ⟨hT, hD, hz, _⟩ := Cfg.init_ok hinit
  have hs' : c.times.Pairwise (· ≤ ·) := by rw [hT]; exact hs
  have hcall : ∀ t p, ((c.call t).get? p).map Leaf.thaw =
      configAt ((t0 :: times).zip (d0 :: docs)) t p := by
    intro t p
    rw [Cfg.call_eq_configAt hs' hD hd, hT, configAt_thaw ht]
  have hfirst : ∀ p, configAt ((t0 :: times).zip (d0 :: docs)) 0 p = valueAt d0 p := by
    intro p
    unfold configAt
    rw [List.zip_cons_cons, List.filter_cons_of_pos (by simpa using h0)]
    have : (times.zip docs).filter (fun s => decide (s.1 ≤ 0)) = [] := by
      rw [List.filter_eq_nil_iff]
      intro x hx
      simpa using hpos x.1 (List.of_mem_zip hx).1
    rw [this]
    simp
  have key := cliRun_spec (reject := reject) hd hcons n c s hs' hD (by
    intro comp param v hk hv
    rw [hz] at hv
    apply hstart comp param _ hk
    rw [← hfirst, ← hcall, hv]; rfl) c' s' hrun
  refine ⟨key.1, ?_⟩
  intro k hk comp param v hc hv
  rw [← hcall, Option.map_eq_some_iff] at hv
  obtain ⟨w, hw, rfl⟩ := hv
  exact (key.2 k hk).1 comp param w hc (by rw [hz, zero_add]; exact hw)

/-- C55: if the run gets through `n` rounds, every parameter that changed up to then belongs to an
enabled component; so a change in any other section stops the run. -/
theorem run_changes_only_components (reject : String → String → Leaf ⊕ Doc → Option Err)
    (times : List Rat) (docs : List Doc) (c : Cfg)
    (hinit : Cfg.init times docs = .ok c) (hs : times.Pairwise (· ≤ ·))
    (hd : ∀ d ∈ docs, DistinctKeys d) (ht : ∀ d ∈ docs, NoTuples d) (hcons : Consistent docs)
    (s : Store) (n : Nat) (c' : Cfg) (s' : Store) (hrun : (cliRun reject c s n).2 = .ok (c', s'))
    (k : Nat) (hk : k < n) (comp : String) (path : List String)
    (hch : configAt (times.zip docs) (k + 1) (comp :: path) ≠
      configAt (times.zip docs) k (comp :: path)) :
    comp ∈ s.map (·.1) := by
  obtain ⟨hT, hD, hz, _⟩ := Cfg.init_ok hinit
  have hs' : c.times.Pairwise (· ≤ ·) := by rw [hT]; exact hs
  have hn : ∀ e ∈ c.dicts, e.keys.Nodup := by
    rw [hD]; intro e he; obtain ⟨d, _, rfl⟩ := List.mem_map.mp he; exact nodup_stored d
  -- without assumptions on the attributes, only the part about the changed sections is needed
  have key : ∀ (n : Nat) (c : Cfg) (s : Store), c.times.Pairwise (· ≤ ·) →
      c.dicts = docs.map stored → (∃ c' s', (cliRun reject c s n).2 = .ok (c', s')) →
      ∀ k < n, ∀ comp p v, (c.call (c.time + k + 1)).get? (comp :: p) = some v →
        (c.call (c.time + k)).get? (comp :: p) ≠ some v → comp ∈ s.keys := by
    intro n
    induction n with
    | zero => intro c s _ _ _ k hk; omega
    | succ n ih =>
      rintro c s hs hc ⟨c', s', hrun⟩ k hk comp p v hv hne
      rcases hu : c.update 1 with e | ⟨d, c1⟩
      · simp only [cliRun, hu] at hrun; cases hrun
      · rcases hp : setParams reject s d with e | s1
        · simp only [cliRun, hu, hp] at hrun; cases hrun
        · have hunf : cliRun reject c s (n + 1) =
              (s :: (cliRun reject c1 s1 n).1, (cliRun reject c1 s1 n).2) := by
            simp only [cliRun, hu, hp]
          rw [hunf] at hrun
          obtain ⟨e1, e2, e3, e4, e5, _⟩ := round_spec hs hc hd hcons hu hp
          cases k with
          | zero =>
            simp only [Nat.cast_zero, add_zero] at hv hne
            exact e5 comp p v _ hv rfl hne
          | succ k =>
            have hcall : ∀ t, c1.call t = c.call t := by
              intro t; unfold Cfg.call Cfg.bisectTimes; rw [e1, e2]
            have ht : c1.time + (k : ℚ) = c.time + ((k + 1 : ℕ) : ℚ) := by
              rw [e3]; push_cast; ring
            apply (e4 comp).mp
            apply ih c1 s1 (by rw [e1]; exact hs) (by rw [e2]; exact hc) ⟨c', s', hrun⟩ k
              (by omega) comp p v
            · rw [hcall, ht]; exact hv
            · rw [hcall, ht]; exact hne
  have hle : c.time + (k : ℚ) ≤ c.time + (k : ℚ) + 1 := by linarith
  cases hv : (c.call (c.time + k + 1)).get? (comp :: path) with
  | none =>
    exfalso
    apply hch
    have h1 := Cfg.call_mono c hs' hn hle (comp :: path) hv
    have hconv : ∀ t, (c.call t).get? (comp :: path) = none →
        configAt (times.zip docs) t (comp :: path) = none := by
      intro t ht
      rw [Cfg.call_eq_configAt hs' hD hd, hT, Option.map_eq_none_iff] at ht
      exact ht
    rw [hconv k (by rw [hz, zero_add] at h1; exact h1),
      hconv (k + 1) (by rw [hz, zero_add] at hv; exact hv)]
  | some v =>
    apply key n c s hs' hD ⟨c', s', hrun⟩ k hk comp path v hv
    intro hsame
    apply hch
    have hcall : ∀ t p, ((c.call t).get? p).map Leaf.thaw = configAt (times.zip docs) t p := by
      intro t p
      rw [Cfg.call_eq_configAt hs' hD hd, hT, configAt_thaw ht]
    rw [hz, zero_add] at hv hsame
    rw [← hcall, ← hcall, hv, hsame]

/-- Two sections that change a parameter of the fluvial component at time 2. -/
def runDoc (v : Rat) : Doc := .sub "fluvial" (.leaf "sand_frac" (.num v) .nil) .nil

def runDocs : List Doc := [runDoc (1 / 2), runDoc 1]

def runCfg : Cfg := ⟨[0, 2], runDocs.map stored, 0, stored (runDoc (1 / 2))⟩

def runStore : Store := [("fluvial", [("sand_frac", .inl (.num (1 / 2)))]), ("shoreline", [])]

theorem runDocs_paths {d : Doc} (hd : d ∈ runDocs) {p : List String} {v : Leaf}
    (h : valueAt d p = some v) : p = ["fluvial", "sand_frac"] := by
  have hk : ∀ d ∈ runDocs, DistinctKeys d := by simp [runDocs, runDoc, DistinctKeys, Doc.keys]
  rw [← Doc.get?_walk (hk d hd)] at h
  have key : ∀ d ∈ runDocs, ∀ x ∈ d.walk [], x.1 = ["fluvial", "sand_frac"] := by decide +kernel
  exact key d hd _ (PyDict.mem_of_get? h)

example : attributeOf ((cliRun (fun _ _ _ => none) runCfg runStore 4).1.getD 2 []) "fluvial"
    "sand_frac" = some (.inl (.num 1)) := by
  cases hrun : (cliRun (fun _ _ _ => none) runCfg runStore 4).2 with
  | error e =>
    exfalso
    have : (match (cliRun (fun _ _ _ => none) runCfg runStore 4).2 with
      | .ok _ => true | .error _ => false) = true := by decide +kernel
    rw [hrun] at this; cases this
  | ok r =>
    obtain ⟨c', s'⟩ := r
    have h := run_parameters (fun _ _ _ => none) 0 [2] (runDoc (1 / 2)) [runDoc 1] runCfg rfl
      (by simp) le_rfl (by simp) (by simp [runDocs, runDoc, DistinctKeys, Doc.keys])
      (by simp [runDocs, runDoc, NoTuples]) (by
        intro d hd d' hd' p q hp hq _
        obtain ⟨v, hv⟩ := Option.ne_none_iff_exists'.mp hp
        obtain ⟨w, hw⟩ := Option.ne_none_iff_exists'.mp hq
        rw [runDocs_paths hd hv, runDocs_paths hd' hw]) runStore (by
        intro comp param v _ hv
        have := runDocs_paths (d := (runDoc (1 / 2))) (by simp [runDocs]) hv
        simp only [List.cons.injEq, and_true] at this
        obtain ⟨rfl, rfl⟩ := this
        have h0 : valueAt (runDoc (1 / 2)) ["fluvial", "sand_frac"] = some (.num (1 / 2)) := by
          decide +kernel
        rw [h0] at hv
        cases hv; rfl) 4 c' s' hrun
    have hlt : 2 < (cliRun (fun _ _ _ => none) runCfg runStore 4).1.length := by rw [h.1]; omega
    rw [List.getD_eq_getElem _ _ hlt]
    exact h.2 2 hlt "fluvial" "sand_frac" (.num 1) (by simp [runStore]) (by decide +kernel)

end Verif.Props
