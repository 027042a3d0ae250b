import Mathlib.Tactic.FieldSimp
import Verif.Lemmas.History

/-!
# Properties of the stored layers (C14 - C17, C19, C20)

`Archive.run ⟨EventLayers.empty, 0⟩ es` is what either driver has stored after the events `es`.
-/

set_option linter.unusedSectionVars false

set_option autoImplicit false

namespace Verif.Props

open Verif Spec

variable {ι K : Type*} [Field K] [LinearOrder K] [IsStrictOrderedRing K]

/-! ## C14: adding one layer -/

/-- C14. Adding a layer to a column without negative layers: the thickness is clipped at zero, a
deposit is put on top of an unchanged column, and whatever is added the top of every older layer
ends up where it was or at the new surface, whichever is lower. -/
theorem add_layer_column {ev ev' : EventLayers ι K} {dz : ι → K} {kw : EventLayers.Kwds ι K}
    (hnn : ∀ s, ∀ x ∈ ev.dz s, 0 ≤ x) (h : ev.add dz kw = .ok ev') (s : ι) :
    ev'.thickness s = max 0 (ev.thickness s + dz s) ∧
    ev'.n = ev.n + 1 ∧
    (ev'.dz s).length = (ev.dz s).length + 1 ∧
    (∀ x ∈ ev'.dz s, 0 ≤ x) ∧
    (0 ≤ dz s → ev'.dz s = ev.dz s ++ [dz s]) ∧
    (∀ k ≤ (ev.dz s).length,
      ((ev'.dz s).take k).sum = min ((ev.dz s).take k).sum (ev'.thickness s)) := by
  have e := add_eq_ok h
  subst e
  refine ⟨addColumn_sum (hnn s) _, rfl, addColumn_length _ _, addColumn_nonneg (hnn s) _,
    fun hd => addColumn_nonneg_eq _ hd, ?_⟩
  intro k hk
  show ((addColumn (ev.dz s) (dz s)).take k).sum = min _ (addColumn (ev.dz s) (dz s)).sum
  rw [addColumn_sum (hnn s), addColumn_take_sum (hnn s) _ hk]

example : ∃ ev' : EventLayers Unit ℚ,
    (EventLayers.mk 2 ["age"] (fun _ => [3, 2]) (fun _ _ => [0, 1])).add (fun _ => -4)
      [("age", fun _ => 2)] = .ok ev' ∧ ev'.dz () = [1, 0, 0] := ⟨_, rfl, by decide +kernel⟩

/-- C14. `add` fails exactly when a name is given that the first layer did not record. -/
theorem add_layer_fails_iff (ev : EventLayers ι K) (dz : ι → K) (kw : EventLayers.Kwds ι K) :
    ev.add dz kw = .error .valueError ↔ 0 < ev.n ∧ ∃ p ∈ kw, p.1 ∉ ev.tracking := by
  rw [add_def]
  unfold trackingAfter
  by_cases hn : ev.n = 0
  · have : kw.all (fun p => (kw.map (·.1)).contains p.1) = true := by
      rw [List.all_eq_true]; intro p hp; simpa using ⟨p.2, hp⟩
    simp only [hn, if_true, this]
    constructor
    · intro h; cases h
    · intro h; omega
  · simp only [hn, if_false]
    constructor
    · intro h
      refine ⟨by omega, ?_⟩
      by_contra hcon
      push Not at hcon
      rw [if_pos] at h
      · cases h
      · rw [List.all_eq_true]; intro p hp; simpa using hcon p hp
    · rintro ⟨-, p, hp, hp'⟩
      rw [if_neg]
      intro hall
      rw [List.all_eq_true] at hall
      have := hall p hp
      simp at this
      exact hp' this

example : (EventLayers.mk 1 ["age"] (fun _ => [3]) (fun _ _ => [0]) : EventLayers Unit ℚ).add
    (fun _ => 1) [("percent_sand", fun _ => 1)] = .error .valueError := by rfl

/-- C14, over whole histories. The top of layer `i` is the lowest surface there has been since it
was laid down (layers that are never archived). -/
theorem layer_tops_are_lowest_surfaces {ev : EventLayers ι K} (es : List (Event ι K))
    (h : EventLayers.empty.run es = .ok ev) (s : ι) :
    (ev.dz s).length = es.length ∧ (∀ x ∈ ev.dz s, 0 ≤ x) ∧
    ∀ i ≤ es.length,
      IsLeast (surfacesSince (es.map fun e => e.dz s) i) ((ev.dz s).take i).sum := by
  have e := run_dz es h s
  have e' : ev.dz s = (es.map fun e => e.dz s).foldl addColumn [] := e
  rw [e']
  refine ⟨by rw [foldl_addColumn_length]; simp, foldl_addColumn_nonneg _ _ (by simp), ?_⟩
  intro i hi
  exact foldl_addColumn_isLeast _ i (by simpa using hi)

/-- A concrete history used by the examples: 25 events, every fifth erodes. -/
def someEvents : List (Event Unit ℚ) :=
  (List.range 25).map fun (i : ℕ) =>
    ⟨fun _ => if i % 5 = 4 then -3 else 1 + i,
      [("age", fun _ => i), ("water_depth", fun _ => 10 - i), ("t0", fun _ => 1),
       ("porosity", fun _ => 1/2), ("percent_sand", fun _ => i / 25)]⟩

theorem someEvents_known : ∀ e ∈ someEvents, ∀ p ∈ e.kw, p.1 ∈ knownProperties := by
  intro e he p hp
  obtain ⟨i, -, rfl⟩ := List.mem_map.mp he
  simp only [List.mem_cons, List.not_mem_nil, or_false] at hp
  rcases hp with rfl | rfl | rfl | rfl | rfl <;> simp [knownProperties]

theorem someEvents_names : ∀ e ∈ someEvents, e.kw.map (·.1) = knownProperties := by
  intro e he
  obtain ⟨i, -, rfl⟩ := List.mem_map.mp he
  rfl

example : ∃ ev, (EventLayers.empty : EventLayers Unit ℚ).run someEvents = .ok ev :=
  run_ok_of_same_names _ _ someEvents_names _ (.inl rfl)

/-! ## C15: archiving -/

/-- C15. A driver that archives stores a history exactly when layers that are never archived do,
and fails with the same error. -/
theorem archive_ok_iff (es : List (Event ι K))
    (hk : ∀ e ∈ es, ∀ p ∈ e.kw, p.1 ∈ knownProperties) :
    ((∃ st, Archive.run ⟨EventLayers.empty, 0⟩ es = .ok st) ↔
      ∃ ev, (EventLayers.empty : EventLayers ι K).run es = .ok ev) ∧
    (∀ err, Archive.run ⟨EventLayers.empty, 0⟩ es = .error err ↔
      (EventLayers.empty : EventLayers ι K).run es = .error err) := by
  rcases Rel.run es hk (rel_empty (ι := ι) (K := K)) with ⟨st', ev', h1, h2, h3⟩ | ⟨h1, h2⟩
  · rw [h1, h2]
    exact ⟨⟨fun _ => ⟨_, rfl⟩, fun _ => ⟨_, rfl⟩⟩, fun err => ⟨fun h => (by cases h), fun h => (by cases h)⟩⟩
  · rw [h1, h2]
    exact ⟨⟨fun ⟨_, h⟩ => (by cases h), fun ⟨_, h⟩ => (by cases h)⟩, fun err => ⟨fun h => (by cases h; rfl), fun h => (by cases h; rfl)⟩⟩

/-- C15. A history whose events all record the same known names is stored without error. -/
theorem archive_ok_of_same_names (names : List String) (hnames : ∀ n ∈ names, n ∈ knownProperties)
    (es : List (Event ι K)) (hes : ∀ e ∈ es, e.kw.map (·.1) = names) :
    ∃ st, Archive.run ⟨EventLayers.empty, 0⟩ es = .ok st := by
  have hk : ∀ e ∈ es, ∀ p ∈ e.kw, p.1 ∈ knownProperties := by
    intro e he p hp
    refine hnames _ ?_
    rw [← hes e he]
    exact List.mem_map.mpr ⟨p, hp, rfl⟩
  exact (archive_ok_iff es hk).1.mpr (run_ok_of_same_names names es hes _ (.inl rfl))

example : ∃ st, Archive.run ⟨(EventLayers.empty : EventLayers Unit ℚ), 0⟩ someEvents = .ok st :=
  archive_ok_of_same_names _ (fun _ h => h) _ someEvents_names

/-- C15. No layer boundary that is kept is ever moved by archiving: boundary `k` of the archived
column is the boundary `10 k` (in the archived part) or `k + 9 a` (above it) of the column without
archiving, which is the lowest surface since that event, whatever deposition and erosion came
before or after the archiving. -/
theorem archive_keeps_boundaries {st : Archive ι K} (es : List (Event ι K))
    (hk : ∀ e ∈ es, ∀ p ∈ e.kw, p.1 ∈ knownProperties)
    (h : Archive.run ⟨EventLayers.empty, 0⟩ es = .ok st) (s : ι) :
    (∀ k ≤ st.archived, IsLeast (surfacesSince (es.map fun e => e.dz s) (10 * k))
      ((st.layers.dz s).take k).sum) ∧
    (∀ k, st.archived ≤ k → k ≤ st.layers.n →
      IsLeast (surfacesSince (es.map fun e => e.dz s) (k + 9 * st.archived))
      ((st.layers.dz s).take k).sum) := by
  obtain ⟨ev, h1, h2, h3⟩ := archive_run_rel es hk h
  have hn := run_empty_n es h1
  have hle := h3.le
  have hc := h3.count
  have main := (layer_tops_are_lowest_surfaces es h1 s).2.2
  refine ⟨?_, ?_⟩
  · intro k hk'
    rw [h3.dz, mergeTens_take_sum _ _ _ (by rw [h3.len]; exact hle)]
    unfold boundary
    rw [if_pos hk']
    exact main _ (by omega)
  · intro k hk1 hk2
    rw [h3.dz, mergeTens_take_sum _ _ _ (by rw [h3.len]; exact hle)]
    have : boundary st.archived k = k + 9 * st.archived := by
      unfold boundary; split_ifs <;> omega
    rw [this]
    exact main _ (by omega)

/-- C15. The stored thickness is the surface of the history: deposits and erosion add up, clipped
at bedrock, and archiving changes nothing; every column has `n` non-negative layers. -/
theorem archive_thickness {st : Archive ι K} (es : List (Event ι K))
    (hk : ∀ e ∈ es, ∀ p ∈ e.kw, p.1 ∈ knownProperties)
    (h : Archive.run ⟨EventLayers.empty, 0⟩ es = .ok st) (s : ι) :
    st.layers.thickness s = surface (es.map fun e => e.dz s) ∧
    (st.layers.dz s).length = st.layers.n ∧ ∀ x ∈ st.layers.dz s, 0 ≤ x := by
  obtain ⟨ev, h1, h2, h3⟩ := archive_run_rel es hk h
  have hle := h3.le
  have hc := h3.count
  have e' : ev.dz s = (es.map fun e => e.dz s).foldl addColumn [] := run_dz es h1 s
  refine ⟨?_, ?_, ?_⟩
  · show (st.layers.dz s).sum = _
    rw [h3.dz, mergeTens_sum _ _ (by rw [h3.len]; exact hle), e', foldl_addColumn_sum]
  · rw [h3.dz, mergeTens_length _ _ _ (by rw [h3.len]; exact hle), h3.len]; omega
  · rw [h3.dz]; exact mergeTens_sum_nonneg _ _ (h3.nonneg s)

/-- C15. The stored properties are those recorded by the events, the archived groups being
combined: the age by the maximum, `t0` by the sum, the others by the mean. -/
theorem archive_properties {st : Archive ι K} (e : Event ι K) (es : List (Event ι K))
    (hk : ∀ e' ∈ e :: es, ∀ p ∈ e'.kw, p.1 ∈ knownProperties)
    (h : Archive.run ⟨EventLayers.empty, 0⟩ (e :: es) = .ok st) (s : ι) :
    ("age" ∈ e.kw.map (·.1) →
      IsMerge IsMaxOf st.archived ((e :: es).map (recorded "age" s)) (st.layers.prop "age" s)) ∧
    ("t0" ∈ e.kw.map (·.1) →
      IsMerge IsSumOf st.archived ((e :: es).map (recorded "t0" s)) (st.layers.prop "t0" s)) ∧
    (∀ name ∈ ["water_depth", "porosity", "percent_sand"], name ∈ e.kw.map (·.1) →
      IsMerge IsMeanOf st.archived ((e :: es).map (recorded name s)) (st.layers.prop name s)) := by
  obtain ⟨ev, h1, h2, h3⟩ := archive_run_rel (e :: es) hk h
  obtain ⟨t1, t2, t3⟩ := run_empty_prop e es h1
  have hle := h3.le
  have ne : ∀ g : List K, g.length = 10 → g ≠ [] := by intro g hg h0; rw [h0] at hg; simp at hg
  have key : ∀ name ∈ e.kw.map (·.1), ∀ (R : List K → K → Prop) (f : List K → K),
      layerReducers ev.tracking name = some f → (∀ g, g.length = 10 → R g (f g)) →
      IsMerge R st.archived ((e :: es).map (recorded name s)) (st.layers.prop name s) := by
    intro name hname R f hf hR
    rw [h3.prop name (by rw [t1]; exact hname), hf, ← t3 name hname s]
    exact isMerge_mergeTens hR _ _ (by rw [h3.plen name (by rw [t1]; exact hname)]; exact hle)
  refine ⟨?_, ?_, ?_⟩
  · intro hname
    exact key _ hname _ listMax (by simp [layerReducers]) (fun g hg => listMax_isMaxOf g (ne g hg))
  · intro hname
    exact key _ hname _ List.sum (by simp [layerReducers]) (fun g _ => rfl)
  · intro name hmem hname
    refine key _ hname _ listMean ?_ (fun g hg => listMean_isMeanOf g (ne g hg))
    simp only [List.mem_cons, List.not_mem_nil, or_false] at hmem
    have hps : name = "percent_sand" → ev.tracking.contains "percent_sand" = true := by
      intro h0; rw [t1, ← h0]; simpa using hname
    rcases hmem with h0 | h0 | h0
    · subst h0; simp [layerReducers]
    · subst h0; simp [layerReducers]
    · have := hps h0
      subst h0
      unfold layerReducers
      rw [if_neg (by decide), if_neg (by decide), if_neg (by decide), if_neg (by decide),
        if_pos ⟨rfl, this⟩]

/-- The concrete history above is archived once and keeps 16 layers, the ages of which are those
expected. -/
example : ∃ st, Archive.run ⟨(EventLayers.empty : EventLayers Unit ℚ), 0⟩ someEvents = .ok st ∧
    st.archived = 1 ∧ st.layers.n = 16 ∧
    st.layers.prop "age" () = [9, 10, 11, 12, 13, 14, 15, 16, 17, 18, 19, 20, 21, 22, 23, 24] := by
  refine ⟨_, rfl, ?_, ?_, ?_⟩ <;> decide +kernel

/-! ## C16: the number of layers -/

/-- C16. The number of stored layers after `N` additions. -/
theorem archive_count {st : Archive ι K} (es : List (Event ι K))
    (hk : ∀ e ∈ es, ∀ p ∈ e.kw, p.1 ∈ knownProperties)
    (h : Archive.run ⟨EventLayers.empty, 0⟩ es = .ok st) :
    (es.length < 20 → st.layers.n = es.length ∧ st.archived = 0) ∧
    (20 ≤ es.length → st.layers.n = es.length - 9 * (es.length / 10 - 1) ∧
      st.archived = es.length / 10 - 1) ∧
    st.archived ≤ st.layers.n ∧ st.layers.n - st.archived < 20 ∧
    (0 < st.archived → 10 ≤ st.layers.n - st.archived) := by
  obtain ⟨ev, h1, h2, h3⟩ := archive_run_rel es hk h
  have hn := run_empty_n es h1
  have hc := h3.count
  unfold archivedAfter at h2
  rw [hn] at h2 hc
  split_ifs at h2 <;> omega

/-! ## C17: ages -/

/-- C17. If the recorded ages never decrease, the stored ages never decrease upward, archived
layers included, and the top layer has the last recorded age. -/
theorem archive_ages_sorted {st : Archive ι K} (e : Event ι K) (es : List (Event ι K))
    (hk : ∀ e' ∈ e :: es, ∀ p ∈ e'.kw, p.1 ∈ knownProperties)
    (hage : "age" ∈ e.kw.map (·.1))
    (h : Archive.run ⟨EventLayers.empty, 0⟩ (e :: es) = .ok st) (s : ι)
    (hmono : ((e :: es).map (recorded "age" s)).Pairwise (· ≤ ·)) :
    (st.layers.prop "age" s).Pairwise (· ≤ ·) ∧
    (st.layers.prop "age" s).getLast? = ((e :: es).map (recorded "age" s)).getLast? := by
  have hm := (archive_properties e es hk h s).1 hage
  refine ⟨isMerge_max_pairwise hm hmono, ?_⟩
  obtain ⟨-, -, h4, h5, h6⟩ := archive_count (e :: es) hk h
  obtain ⟨hlen, -, h2⟩ := hm
  have hcnt := archive_count (e :: es) hk h
  rw [List.getLast?_eq_getElem?, List.getLast?_eq_getElem?]
  have hl : ((e :: es).map (recorded "age" s)).length = es.length + 1 := by simp
  rw [hl] at hlen
  have hlt : st.archived + 10 ≤ (st.layers.prop "age" s).length ∨ st.archived = 0 := by
    by_cases h0 : st.archived = 0
    · right; exact h0
    · left
      have := hcnt.1; have := hcnt.2.1
      simp only [List.length_cons] at *
      omega
  rw [h2 _ (by omega), hl]
  congr 1; omega

/-! ## C19: properties stay in range -/

/-- C19. A property that is averaged stays in any range that contains all recorded values:
sand fractions stay in `[0, 1]`, porosities in `[0, porosity_max]`. -/
theorem archive_range {st : Archive ι K} (e : Event ι K) (es : List (Event ι K))
    (hk : ∀ e' ∈ e :: es, ∀ p ∈ e'.kw, p.1 ∈ knownProperties)
    (h : Archive.run ⟨EventLayers.empty, 0⟩ (e :: es) = .ok st) (s : ι) (name : String)
    (hmem : name ∈ ["water_depth", "porosity", "percent_sand"]) (hname : name ∈ e.kw.map (·.1))
    {lo hi : K} (hr : ∀ e' ∈ e :: es, lo ≤ recorded name s e' ∧ recorded name s e' ≤ hi) :
    ∀ x ∈ st.layers.prop name s, lo ≤ x ∧ x ≤ hi := by
  refine isMerge_mean_range ((archive_properties e es hk h s).2.2 name hmem hname) ?_
  intro x hx
  obtain ⟨e', he', rfl⟩ := List.mem_map.mp hx
  exact hr e' he'

/-- C19. The total of `t0` in a column is the total ever recorded, and it stays non-negative. -/
theorem archive_t0_conserved {st : Archive ι K} (e : Event ι K) (es : List (Event ι K))
    (hk : ∀ e' ∈ e :: es, ∀ p ∈ e'.kw, p.1 ∈ knownProperties)
    (h : Archive.run ⟨EventLayers.empty, 0⟩ (e :: es) = .ok st) (s : ι)
    (hname : "t0" ∈ e.kw.map (·.1)) :
    (st.layers.prop "t0" s).sum = ((e :: es).map (recorded "t0" s)).sum ∧
    ((∀ e' ∈ e :: es, 0 ≤ recorded "t0" s e') → ∀ x ∈ st.layers.prop "t0" s, 0 ≤ x) := by
  obtain ⟨ev, h1, h2, h3⟩ := archive_run_rel (e :: es) hk h
  obtain ⟨t1, t2, t3⟩ := run_empty_prop e es h1
  have hf : layerReducers (K := K) ev.tracking "t0" = some List.sum := by simp [layerReducers]
  have hp := h3.prop "t0" (by rw [t1]; exact hname) s
  rw [hf, Option.getD_some] at hp
  have hl := h3.plen "t0" (by rw [t1]; exact hname) s
  rw [hp, ← t3 "t0" hname s]
  refine ⟨mergeTens_sum _ _ (by rw [hl]; exact h3.le), fun hnn => mergeTens_sum_nonneg _ _ ?_⟩
  rw [t3 "t0" hname s]
  intro x hx
  obtain ⟨e', he', rfl⟩ := List.mem_map.mp hx
  exact hnn e' he'

example : ∃ st, Archive.run ⟨(EventLayers.empty : EventLayers Unit ℚ), 0⟩ someEvents = .ok st ∧
    (st.layers.prop "t0" ()).sum = 25 ∧
    ∀ x ∈ st.layers.prop "percent_sand" (), 0 ≤ x ∧ x ≤ 1 := by
  refine ⟨_, rfl, ?_, ?_⟩ <;> decide +kernel

/-! ## C20: the volume of sand -/

/-- C20 is false: archiving one concrete column changes its volume of sand. -/
theorem archive_sand_volume_not_conserved :
    ∃ (ev ev' : EventLayers Unit ℚ), ev.reduce 0 10 (layerReducers ev.tracking) = .ok ev' ∧
      sandVolume (ev'.dz ()) (ev'.prop "percent_sand" ()) ≠
        sandVolume (ev.dz ()) (ev.prop "percent_sand" ()) := by
  refine ⟨⟨10, ["percent_sand"], fun _ => [10, 0, 0, 0, 0, 0, 0, 0, 0, 0],
    fun _ _ => [1, 0, 0, 0, 0, 0, 0, 0, 0, 0]⟩, _, rfl, ?_⟩
  decide +kernel

/-- C20, exactly: merging ten layers replaces their sand by their total thickness times the plain
average of their sand fractions. -/
theorem archive_sand_volume_change {ev ev' : EventLayers ι K} {a : ℕ} (s : ι)
    (htr : "percent_sand" ∈ ev.tracking)
    (hl : (ev.dz s).length = ev.n) (hp : (ev.prop "percent_sand" s).length = ev.n)
    (h : ev.reduce a (a + 10) (layerReducers ev.tracking) = .ok ev') :
    sandVolume (ev'.dz s) (ev'.prop "percent_sand" s) -
        sandVolume (ev.dz s) (ev.prop "percent_sand" s) =
      (((ev.dz s).drop a).take 10).sum * ((((ev.prop "percent_sand" s).drop a).take 10).sum / 10) -
        sandVolume (((ev.dz s).drop a).take 10) (((ev.prop "percent_sand" s).drop a).take 10) := by
  unfold EventLayers.reduce at h
  split_ifs at h with h1 h2
  have hred : layerReducers (K := K) ev.tracking "percent_sand" = some listMean := by
    unfold layerReducers
    rw [if_neg (by decide), if_neg (by decide), if_neg (by decide), if_neg (by decide),
      if_pos ⟨rfl, by simpa using htr⟩]
  cases h
  simp only [hred, Option.getD_some]
  rw [if_pos (by simpa using htr)]
  have h1 : a + 10 ≤ ev.n := by omega
  have e10 : a + 10 - a = 10 := by omega
  generalize hDe : ev.dz s = D at hl ⊢
  generalize hPe : ev.prop "percent_sand" s = P at hp ⊢
  have hpl : ((P.drop a).take 10).length = 10 := by simp [hp]; omega
  have hlhs : sandVolume [((D.drop a).take 10).sum] [listMean ((P.drop a).take 10)] =
      ((D.drop a).take 10).sum * (((P.drop a).take 10).sum / 10) := by
    simp [sandVolume, listMean, hpl]
  have hvol : sandVolume D P = sandVolume (D.take a) (P.take a) +
      sandVolume ((D.drop a).take 10) ((P.drop a).take 10) +
      sandVolume (D.drop (a + 10)) (P.drop (a + 10)) := by
    rw [← sandVolume_append (by simp [hl, hp]), ← sandVolume_append (by simp [hl, hp]),
      ← List.take_add, ← List.take_add, List.take_append_drop, List.take_append_drop]
  unfold reduceColumn
  rw [e10, sandVolume_append (by simp [hl, hp]), sandVolume_append (by simp [hl, hp]), hlhs, hvol]
  ring

example : ∃ ev' : EventLayers Unit ℚ,
    (⟨11, ["percent_sand"], fun _ => [5, 10, 0, 0, 0, 0, 0, 0, 0, 0, 2],
      fun _ _ => [1/2, 1, 0, 0, 0, 0, 0, 0, 0, 0, 1/4]⟩ : EventLayers Unit ℚ).reduce 1 (1 + 10)
        (layerReducers ["percent_sand"]) = .ok ev' ∧
      ev'.dz () = [5, 12] ∧ ev'.prop "percent_sand" () = [1/2, 1/8] := by
  refine ⟨_, rfl, ?_, ?_⟩ <;> decide +kernel

/-- C20, when it holds: the volume of sand is kept exactly if the sand in the ten layers that are
merged is their total thickness times the average of their sand fractions. -/
theorem archive_sand_volume_iff {ev ev' : EventLayers ι K} {a : ℕ} (s : ι)
    (htr : "percent_sand" ∈ ev.tracking)
    (hl : (ev.dz s).length = ev.n) (hp : (ev.prop "percent_sand" s).length = ev.n)
    (h : ev.reduce a (a + 10) (layerReducers ev.tracking) = .ok ev') :
    sandVolume (ev'.dz s) (ev'.prop "percent_sand" s) =
        sandVolume (ev.dz s) (ev.prop "percent_sand" s) ↔
      sandVolume (((ev.dz s).drop a).take 10) (((ev.prop "percent_sand" s).drop a).take 10) =
        (((ev.dz s).drop a).take 10).sum *
          ((((ev.prop "percent_sand" s).drop a).take 10).sum / 10) := by
  rw [← sub_eq_zero, archive_sand_volume_change s htr hl hp h, sub_eq_zero]
  exact eq_comm

/-- C20, what holds: the volume of sand is kept when the ten layers that are merged are equally
thick or equally sandy. Missing: other columns, for which the volume changes except by chance (see
`archive_sand_volume_iff` and `archive_sand_volume_not_conserved`). -/
theorem archive_sand_volume_partial {ev ev' : EventLayers ι K} {a : ℕ} (s : ι)
    (htr : "percent_sand" ∈ ev.tracking)
    (hl : (ev.dz s).length = ev.n) (hp : (ev.prop "percent_sand" s).length = ev.n)
    (h : ev.reduce a (a + 10) (layerReducers ev.tracking) = .ok ev')
    (hc : (∃ c, ∀ x ∈ ((ev.dz s).drop a).take 10, x = c) ∨
      (∃ c, ∀ x ∈ ((ev.prop "percent_sand" s).drop a).take 10, x = c)) :
    sandVolume (ev'.dz s) (ev'.prop "percent_sand" s) =
      sandVolume (ev.dz s) (ev.prop "percent_sand" s) := by
  rw [archive_sand_volume_iff s htr hl hp h]
  have hn : a + 10 ≤ ev.n := by
    unfold EventLayers.reduce at h
    split_ifs at h
    omega
  have hdl : (((ev.dz s).drop a).take 10).length = 10 := by simp [hl]; omega
  have hpl : (((ev.prop "percent_sand" s).drop a).take 10).length = 10 := by simp [hp]; omega
  rcases hc with ⟨c, hc⟩ | ⟨c, hc⟩
  · rw [sum_zip_const_left c _ _ (by rw [hdl, hpl]) hc]
    have := List.sum_eq_card_nsmul _ c hc
    rw [this, hdl, nsmul_eq_mul]
    push_cast; field_simp
  · rw [sum_zip_const_right c _ _ (by rw [hdl, hpl]) hc]
    have := List.sum_eq_card_nsmul _ c hc
    rw [this, hpl, nsmul_eq_mul]
    push_cast; field_simp

example : ∃ c : ℚ, ∀ x ∈ (([1, 1, 1, 1, 1, 1, 1, 1, 1, 1, 3] : List ℚ).drop 0).take 10, x = c :=
  ⟨1, by decide +kernel⟩

end Verif.Props
