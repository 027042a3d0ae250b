import Verif.Lemmas.Layers
import Verif.Spec.Layers

/-! Helper lemmas relating an archiving driver to one that never archives. -/

set_option linter.unusedSectionVars false

set_option autoImplicit false

namespace Verif

open Spec

variable {ι K : Type*} [Field K] [LinearOrder K] [IsStrictOrderedRing K]

theorem isMerge_mergeTens {α : Type*} {R : List α → α → Prop} {f : List α → α}
    (hf : ∀ g, g.length = 10 → R g (f g)) :
    ∀ (a : ℕ) (l : List α), 10 * a ≤ l.length → IsMerge R a l (mergeTens f a l)
  | 0, l, _ => ⟨by simp [mergeTens], by simp, by simp [mergeTens]⟩
  | a + 1, l, h => by
    have hd : 10 * a ≤ (l.drop 10).length := by rw [List.length_drop]; omega
    obtain ⟨h1, h2, h3⟩ := isMerge_mergeTens hf a (l.drop 10) hd
    refine ⟨?_, ?_, ?_⟩
    · rw [List.length_drop] at h1
      simp only [mergeTens, List.length_cons]; omega
    · intro i hi
      cases i with
      | zero =>
        refine ⟨by omega, f (l.take 10), by simp [mergeTens], ?_⟩
        have := hf (l.take 10) (by simp; omega)
        simpa using this
      | succ i =>
        obtain ⟨h4, v, h5, h6⟩ := h2 i (by omega)
        rw [List.length_drop] at h4
        refine ⟨by omega, v, by simpa [mergeTens] using h5, ?_⟩
        rw [List.drop_drop] at h6
        rwa [show 10 * (i + 1) = 10 + 10 * i by ring]
    · intro i hi
      cases i with
      | zero => omega
      | succ i =>
        have := h3 i (by omega)
        simp only [mergeTens, List.getElem?_cons_succ]
        rw [this, List.getElem?_drop]
        congr 1; omega

theorem listMax_isMaxOf (g : List K) (h : g ≠ []) : IsMaxOf g (listMax g) := by
  cases g with
  | nil => exact absurd rfl h
  | cons x xs =>
    clear h
    simp only [listMax, IsMaxOf]
    induction xs generalizing x with
    | nil => simp
    | cons y ys ih =>
      have := ih (max x y)
      simp only [List.foldl_cons]
      obtain ⟨h1, h2⟩ := this
      refine ⟨?_, ?_⟩
      · rcases List.mem_cons.mp h1 with h | h
        · rcases max_choice x y with h' | h'
          · rw [h, h']; simp
          · rw [h, h']; simp
        · simp [h]
      · intro z hz
        have hm := h2 (max x y) (by simp)
        rcases List.mem_cons.mp hz with h | h
        · rw [h]; exact le_trans (le_max_left x y) hm
        · rcases List.mem_cons.mp h with h | h
          · rw [h]; exact le_trans (le_max_right x y) hm
          · exact h2 z (by simp [h])

theorem listMean_isMeanOf (g : List K) (h : g ≠ []) : IsMeanOf g (listMean g) := by
  unfold IsMeanOf listMean
  have hl : (g.length : K) ≠ 0 := by
    rw [Nat.cast_ne_zero]; exact fun h0 => h (List.length_eq_zero_iff.mp h0)
  exact div_mul_cancel₀ _ hl

/-- The tracked names after a call of `add`. -/
def trackingAfter (ev : EventLayers ι K) (kw : EventLayers.Kwds ι K) : List String :=
  if ev.n = 0 then kw.map (·.1) else ev.tracking

/-- The layers after a successful call of `add`. -/
def added (ev : EventLayers ι K) (dz : ι → K) (kw : EventLayers.Kwds ι K) : EventLayers ι K :=
  { n := ev.n + 1
    tracking := trackingAfter ev kw
    dz := fun s => addColumn (ev.dz s) (dz s)
    prop := fun name s =>
      if (trackingAfter ev kw).contains name then
        ev.prop name s ++ [((kw.get? name).map (fun v => v s)).getD 0]
      else [] }

theorem add_def (ev : EventLayers ι K) (dz : ι → K) (kw : EventLayers.Kwds ι K) :
    ev.add dz kw = if kw.all (fun p => (trackingAfter ev kw).contains p.1) then
      .ok (added ev dz kw) else .error .valueError := rfl

theorem add_eq_ok {ev ev' : EventLayers ι K} {dz : ι → K} {kw : EventLayers.Kwds ι K}
    (h : ev.add dz kw = .ok ev') : ev' = added ev dz kw := by
  rw [add_def] at h
  split_ifs at h
  exact (Except.ok.inj h).symm

/-- The relation kept between layers `st`, the first `a` groups of which are archived, and layers
that are never archived. -/
structure Core (a : ℕ) (st ev : EventLayers ι K) : Prop where
  le : 10 * a ≤ ev.n
  count : st.n + 9 * a = ev.n
  tracking : st.tracking = ev.tracking
  zero : ev.n = 0 → ev.tracking = []
  known : ∀ name ∈ ev.tracking, name ∈ knownProperties
  len : ∀ s, (ev.dz s).length = ev.n
  nonneg : ∀ s, ∀ x ∈ ev.dz s, 0 ≤ x
  plen : ∀ name ∈ ev.tracking, ∀ s, (ev.prop name s).length = ev.n
  untracked : ∀ name, name ∉ ev.tracking → ∀ s, ev.prop name s = [] ∧ st.prop name s = []
  dz : ∀ s, st.dz s = mergeTens List.sum a (ev.dz s)
  prop : ∀ name ∈ ev.tracking, ∀ s, st.prop name s =
    mergeTens ((layerReducers ev.tracking name).getD fun _ => 0) a (ev.prop name s)

theorem core_empty : Core 0 (EventLayers.empty : EventLayers ι K) EventLayers.empty where
  le := by simp [EventLayers.empty]
  count := rfl
  tracking := rfl
  zero := fun _ => rfl
  known := by simp [EventLayers.empty]
  len := by simp [EventLayers.empty]
  nonneg := by simp [EventLayers.empty]
  plen := by simp [EventLayers.empty]
  untracked := by simp [EventLayers.empty]
  dz := by simp [EventLayers.empty, mergeTens]
  prop := by simp [EventLayers.empty]

theorem Core.trackingAfter_eq {a : ℕ} {st ev : EventLayers ι K} (h : Core a st ev)
    (kw : EventLayers.Kwds ι K) : trackingAfter st kw = trackingAfter ev kw := by
  have hn0 : st.n = 0 ↔ ev.n = 0 := by
    have := h.le; have := h.count; omega
  unfold trackingAfter
  rw [h.tracking]; simp only [hn0]

theorem Core.added {a : ℕ} {st ev : EventLayers ι K} (h : Core a st ev) (dz : ι → K)
    (kw : EventLayers.Kwds ι K) (hk : ∀ p ∈ kw, p.1 ∈ knownProperties) :
    Core a (added st dz kw) (added ev dz kw) := by
  have hle := h.le
  have hcount := h.count
  have htr := h.trackingAfter_eq kw
  -- the property lists of the two before the call, for names tracked afterwards
  have key : ∀ name ∈ trackingAfter ev kw, ∀ s, (ev.prop name s).length = ev.n ∧
      (∀ f : List K → K, ev.n = 0 → st.prop name s = mergeTens f a (ev.prop name s)) ∧
      (0 < ev.n → name ∈ ev.tracking) := by
    intro name hname s
    by_cases hn : ev.n = 0
    · have hnot : name ∉ ev.tracking := by rw [h.zero hn]; simp
      obtain ⟨h1, h2⟩ := h.untracked name hnot s
      have ha : a = 0 := by omega
      subst ha
      exact ⟨by rw [h1, hn]; rfl, fun f _ => by rw [h1, h2]; rfl, fun h => absurd hn (by omega)⟩
    · have : name ∈ ev.tracking := by
        unfold trackingAfter at hname; rwa [if_neg hn] at hname
      exact ⟨h.plen name this s, fun f h0 => absurd h0 hn, fun _ => this⟩
  have htrpos : 0 < ev.n → trackingAfter ev kw = ev.tracking := by
    intro hn; unfold trackingAfter; rw [if_neg (by omega)]
  constructor
  · show 10 * a ≤ ev.n + 1; omega
  · show st.n + 1 + 9 * a = ev.n + 1; omega
  · exact htr
  · intro h0; exact absurd h0 (by show ev.n + 1 ≠ 0; omega)
  · intro name hname
    change name ∈ trackingAfter ev kw at hname
    unfold trackingAfter at hname
    split_ifs at hname
    · obtain ⟨p, hp, rfl⟩ := List.mem_map.mp hname; exact hk p hp
    · exact h.known name hname
  · intro s; show (addColumn (ev.dz s) (dz s)).length = ev.n + 1
    rw [addColumn_length, h.len]
  · intro s; exact addColumn_nonneg (h.nonneg s) _
  · intro name hname s
    change name ∈ trackingAfter ev kw at hname
    simp only [Verif.added]
    rw [if_pos (by simpa using hname)]
    simp [(key name hname s).1]
  · intro name hname s
    change name ∉ trackingAfter ev kw at hname
    simp only [Verif.added, htr]
    have hc : ¬ (trackingAfter ev kw).contains name = true := by simpa using hname
    exact ⟨if_neg hc, if_neg hc⟩
  · intro s
    show addColumn (st.dz s) (dz s) = mergeTens List.sum a (addColumn (ev.dz s) (dz s))
    rw [h.dz, addColumn_mergeTens (h.nonneg s) (by rw [h.len]; exact hle)]
  · intro name hname s
    change name ∈ trackingAfter ev kw at hname
    obtain ⟨k1, k2, k3⟩ := key name hname s
    show (if (trackingAfter st kw).contains name then _ else _) = mergeTens
      ((layerReducers (trackingAfter ev kw) name).getD fun _ => 0) a
      (if (trackingAfter ev kw).contains name then _ else _)
    rw [htr, if_pos (by simpa using hname), if_pos (by simpa using hname),
      mergeTens_append _ _ _ _ (by rw [k1]; exact hle)]
    congr 1
    by_cases hn : ev.n = 0
    · exact k2 _ hn
    · rw [htrpos (by omega)]
      exact h.prop name (k3 (by omega)) s

theorem layerReducers_isSome {tracking : List String} {name : String}
    (hk : name ∈ knownProperties) (ht : name ∈ tracking) :
    (layerReducers (K := K) tracking name).isSome := by
  simp only [knownProperties, List.mem_cons, List.not_mem_nil, or_false] at hk
  unfold layerReducers
  rcases hk with h | h | h | h | h <;> subst h <;> simp [ht]

theorem Core.reduce {a : ℕ} {st ev : EventLayers ι K} (h : Core a st ev)
    (hn : 10 * a + 10 ≤ ev.n) :
    ∃ st', st.reduce a (a + 10) (layerReducers st.tracking) = .ok st' ∧ Core (a + 1) st' ev := by
  have hle := h.le
  have hcount := h.count
  have hall : st.tracking.all
      (fun name => (layerReducers (K := K) st.tracking name).isSome) = true := by
    rw [h.tracking, List.all_eq_true]
    intro name hname
    exact layerReducers_isSome (h.known name hname) hname
  unfold EventLayers.reduce
  rw [if_neg (by push Not; exact ⟨by omega, by omega⟩), if_pos hall]
  refine ⟨_, rfl, ?_⟩
  constructor
  · omega
  · simp only; omega
  · exact h.tracking
  · exact h.zero
  · exact h.known
  · exact h.len
  · exact h.nonneg
  · exact h.plen
  · intro name hname s
    refine ⟨(h.untracked name hname s).1, ?_⟩
    simp only
    rw [h.tracking, if_neg (by simpa using hname)]
  · intro s
    simp only
    rw [h.dz, reduceColumn_mergeTens]
  · intro name hname s
    simp only
    rw [h.tracking, if_pos (by simpa using hname), h.prop name hname, reduceColumn_mergeTens]

/-- `Core` with the number of archived layers that the policy gives. -/
def Rel (st : Archive ι K) (ev : EventLayers ι K) : Prop :=
  st.archived = archivedAfter ev.n ∧ Core st.archived st.layers ev

/-- One step of the two drivers. -/
theorem Rel.step {st : Archive ι K} {ev : EventLayers ι K} (h : Rel st ev) (e : Event ι K)
    (hk : ∀ p ∈ e.kw, p.1 ∈ knownProperties) :
    (∃ st' ev', st.addLayer e.dz e.kw = .ok st' ∧ ev.add e.dz e.kw = .ok ev' ∧ Rel st' ev') ∨
    (st.addLayer e.dz e.kw = .error .valueError ∧ ev.add e.dz e.kw = .error .valueError) := by
  obtain ⟨harch, hcore⟩ := h
  have htr := hcore.trackingAfter_eq e.kw
  have hA := hcore.added e.dz e.kw hk
  have hcount : st.layers.n + 9 * st.archived = ev.n := hcore.count
  by_cases hall : e.kw.all (fun p => (trackingAfter ev e.kw).contains p.1) = true
  · left
    have e1 : ev.add e.dz e.kw = .ok (added ev e.dz e.kw) := by rw [add_def, if_pos hall]
    have e2 : st.layers.add e.dz e.kw = .ok (added st.layers e.dz e.kw) := by
      rw [add_def, htr, if_pos hall]
    unfold Archive.addLayer
    rw [e2, e1]
    simp only [Archive.archiveOld]
    have n1 : (added st.layers e.dz e.kw).n = st.layers.n + 1 := rfl
    have n2 : (added ev e.dz e.kw).n = ev.n + 1 := rfl
    unfold archivedAfter at harch
    by_cases hc : (((added st.layers e.dz e.kw).n : ℤ) - (st.archived : ℤ)) % 20 = 0
    · rw [if_pos hc]
      rw [n1] at hc
      have hn : 10 * st.archived + 10 ≤ ev.n + 1 ∧ archivedAfter (ev.n + 1) = st.archived + 1 := by
        unfold archivedAfter
        push_cast at hc
        split_ifs at harch ⊢ <;> omega
      obtain ⟨st', h1, h2⟩ := hA.reduce (by rw [n2]; exact hn.1)
      rw [h1]
      exact ⟨_, _, rfl, rfl, by
        show st.archived + 1 = archivedAfter (added ev e.dz e.kw).n
        rw [n2]; exact hn.2.symm, h2⟩
    · rw [if_neg hc]
      refine ⟨_, _, rfl, rfl, ?_, hA⟩
      rw [n1] at hc
      show st.archived = archivedAfter (added ev e.dz e.kw).n
      rw [n2]
      unfold archivedAfter
      push_cast at hc
      split_ifs at harch ⊢ <;> omega
  · right
    have e1 : ev.add e.dz e.kw = .error .valueError := by rw [add_def, if_neg hall]
    have e2 : st.layers.add e.dz e.kw = .error .valueError := by rw [add_def, htr, if_neg hall]
    exact ⟨by unfold Archive.addLayer; rw [e2], e1⟩

theorem Rel.run {st : Archive ι K} {ev : EventLayers ι K} (es : List (Event ι K))
    (hk : ∀ e ∈ es, ∀ p ∈ e.kw, p.1 ∈ knownProperties) (h : Rel st ev) :
    (∃ st' ev', st.run es = .ok st' ∧ ev.run es = .ok ev' ∧ Rel st' ev') ∨
    (st.run es = .error .valueError ∧ ev.run es = .error .valueError) := by
  induction es generalizing st ev with
  | nil => exact .inl ⟨st, ev, rfl, rfl, h⟩
  | cons e es ih =>
    rcases h.step e (hk e (by simp)) with ⟨st', ev', h1, h2, h3⟩ | ⟨h1, h2⟩
    · rcases ih (fun e' he' => hk e' (by simp [he'])) h3 with ⟨st'', ev'', h4, h5, h6⟩ | ⟨h4, h5⟩
      · left
        refine ⟨st'', ev'', ?_, ?_, h6⟩
        · simp only [Archive.run, h1, h4]
        · simp only [EventLayers.run, h2, h5]
      · right
        exact ⟨by simp only [Archive.run, h1, h4], by simp only [EventLayers.run, h2, h5]⟩
    · right
      exact ⟨by simp only [Archive.run, h1], by simp only [EventLayers.run, h2]⟩

theorem rel_empty : Rel (⟨EventLayers.empty, 0⟩ : Archive ι K) EventLayers.empty :=
  ⟨rfl, core_empty⟩

end Verif
