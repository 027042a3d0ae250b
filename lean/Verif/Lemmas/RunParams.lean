import Verif.Lemmas.Params

/-! # Changing parameters while running -/

set_option autoImplicit false

namespace Verif

open Spec

namespace Doc

theorem setLeaf_ne_nil (d : Doc) (k : String) (v : Leaf) : d.setLeaf k v ≠ nil := by
  cases d with
  | nil => simp [setLeaf]
  | leaf a w r => simp only [setLeaf]; split_ifs <;> simp
  | sub a s r => simp only [setLeaf]; split_ifs <;> simp

theorem noEmpty_setLeaf {d : Doc} (h : NoEmptySub d) (k : String) (v : Leaf) :
    NoEmptySub (d.setLeaf k v) := by
  induction d with
  | nil => trivial
  | leaf a w r ih => simp only [setLeaf]; split_ifs; exacts [h, ih h]
  | sub a s r _ ih =>
    simp only [setLeaf]
    split_ifs
    · exact h.2.2
    · exact ⟨h.1, h.2.1, ih h.2.2⟩

theorem noEmpty_inSub {d : Doc} {k : String} {f : Doc → Except Err Doc}
    (hf : ∀ s s', NoEmptySub s → f s = .ok s' → NoEmptySub s' ∧ s' ≠ nil) {e : Doc}
    (hd : NoEmptySub d) (h : d.inSub k f = .ok e) : NoEmptySub e ∧ e ≠ nil := by
  induction d generalizing e with
  | nil =>
    simp only [inSub] at h
    split at h
    · rename_i s' hs
      cases h
      have := hf nil s' trivial hs
      exact ⟨⟨this.2, this.1, trivial⟩, by simp⟩
    · cases h
  | leaf a w r ih =>
    simp only [inSub] at h
    split_ifs at h
    split at h
    · rename_i r' hr
      cases h
      exact ⟨(ih hd hr).1, by simp⟩
    · cases h
  | sub a s r _ ih =>
    simp only [inSub] at h
    split_ifs at h
    · split at h
      · rename_i s' hs
        cases h
        have := hf s s' hd.2.1 hs
        exact ⟨⟨this.2, this.1, hd.2.2⟩, by simp⟩
      · cases h
    · split at h
      · rename_i r' hr
        cases h
        exact ⟨⟨hd.1, hd.2.1, (ih hd.2.2 hr).1⟩, by simp⟩
      · cases h

theorem noEmpty_addItem (p : List String) (v : Leaf) :
    ∀ d e, NoEmptySub d → addItem p v d = .ok e → NoEmptySub e ∧ e ≠ nil := by
  induction p with
  | nil => intro d e _ h; simp [addItem] at h
  | cons k p ih =>
    intro d e hd h
    cases p with
    | nil =>
      simp only [addItem, Except.ok.injEq] at h
      subst h
      exact ⟨noEmpty_setLeaf hd _ _, setLeaf_ne_nil _ _ _⟩
    | cons n p =>
      simp only [addItem] at h
      exact noEmpty_inSub (fun s s' hs hs' => ih s s' hs hs') hd h

theorem noEmpty_addItems (f : Flat) :
    ∀ d e, NoEmptySub d → addItems f d = .ok e → NoEmptySub e := by
  induction f with
  | nil => intro d e hd h; simp only [addItems, Except.ok.injEq] at h; subst h; exact hd
  | cons x f ih =>
    obtain ⟨p, v⟩ := x
    intro d e hd h
    simp only [addItems] at h
    split at h
    · rename_i d' hd'
      exact ih d' e (noEmpty_addItem p v d d' hd hd').1 h
    · cases h

/-- A dictionary without empty dictionaries holds some value. -/
theorem exists_value {d : Doc} (h : NoEmptySub d) (hn : d ≠ nil) : ∃ p, valueAt d p ≠ none := by
  induction d with
  | nil => exact absurd rfl hn
  | leaf k v r _ => exact ⟨[k], by rw [valueAt_single]; simp [find?]⟩
  | sub k s r ih _ =>
    obtain ⟨p, hp⟩ := ih h.2.1 h.1
    cases p with
    | nil => rw [valueAt_nil] at hp; exact absurd rfl hp
    | cons n p => exact ⟨k :: n :: p, by rw [valueAt_cons]; simpa [find?] using hp⟩

theorem noEmpty_find? {d : Doc} (h : NoEmptySub d) {k : String} {s : Doc}
    (hs : d.find? k = some (.inr s)) : NoEmptySub s ∧ s ≠ nil := by
  induction d with
  | nil => simp [find?] at hs
  | leaf a w r ih =>
    simp only [find?] at hs
    split_ifs at hs
    · cases hs
    · exact ih h hs
  | sub a s' r _ ih =>
    simp only [find?] at hs
    split_ifs at hs
    · cases hs; exact ⟨h.2.1, h.1⟩
    · exact ih h.2.2 hs

theorem distinct_find? {d : Doc} (h : DistinctKeys d) {k : String} {s : Doc}
    (hs : d.find? k = some (.inr s)) : DistinctKeys s := by
  have := distinct_subOrNil h k
  unfold subOrNil at this
  rw [hs] at this
  exact this

end Doc

theorem setAttrs_ok {reject : String → Leaf ⊕ Doc → Option Err} {d : Doc}
    (hd : DistinctKeys d) {a a' : PyDict String (Leaf ⊕ Doc)} (h : setAttrs reject a d = .ok a')
    (k : String) : a'.get? k = (d.find? k).or (a.get? k) := by
  induction d generalizing a with
  | nil => simp only [setAttrs, Except.ok.injEq] at h; subst h; simp [Doc.find?]
  | leaf x v r ih =>
    simp only [setAttrs] at h
    split at h
    · cases h
    · rw [ih hd.2 h, PyDict.get?_set]
      simp only [Doc.find?]
      split_ifs with hx
      · subst hx; rw [(Doc.find?_eq_none_iff r x).mpr hd.1]; simp
      · rfl
  | sub x s r _ ih =>
    simp only [setAttrs] at h
    split at h
    · cases h
    · rw [ih hd.2.2 h, PyDict.get?_set]
      simp only [Doc.find?]
      split_ifs with hx
      · subst hx; rw [(Doc.find?_eq_none_iff r x).mpr hd.1]; simp
      · rfl

theorem setParams_ok {reject : String → String → Leaf ⊕ Doc → Option Err} {d : Doc}
    (hd : DistinctKeys d) {s s' : Store} (h : setParams reject s d = .ok s') :
    (∀ k ∈ d.keys, k ∈ s.keys) ∧ (∀ k, k ∈ s'.keys ↔ k ∈ s.keys) ∧
      ∀ k p, attributeOf s' k p =
        (match d.find? k with
          | some (.inr e) => e.find? p
          | _ => none).or (attributeOf s k p) := by
  induction d generalizing s with
  | nil =>
    simp only [setParams, Except.ok.injEq] at h
    subst h
    refine ⟨by simp [Doc.keys], by simp, ?_⟩
    intro k p; simp [Doc.find?]
  | leaf x v r _ =>
    simp only [setParams] at h
    split at h <;> cases h
  | sub x e r _ ih =>
    simp only [setParams] at h
    split at h
    · cases h
    · rename_i a ha
      split at h
      · cases h
      · rename_i a' ha'
        obtain ⟨h1, h2, h3⟩ := ih hd.2.2 h
        have hx : x ∈ s.keys := by
          by_contra hn
          rw [← PyDict.get?_eq_none_iff, ha] at hn; cases hn
        have hkeys : ∀ k, k ∈ (s.set x a').keys ↔ k ∈ s.keys := by
          intro k; rw [PyDict.keys_set, if_pos hx]
        refine ⟨?_, fun k => (h2 k).trans (hkeys k), ?_⟩
        · intro k hk
          simp only [Doc.keys, List.mem_cons] at hk
          rcases hk with rfl | hk
          · exact hx
          · exact (hkeys k).mp (h1 k hk)
        · intro k p
          rw [h3]
          simp only [Doc.find?]
          unfold attributeOf
          rw [PyDict.get?_set]
          split_ifs with hk
          · subst hk
            rw [(Doc.find?_eq_none_iff r x).mpr hd.1, ha]
            simp only [Option.none_or, Option.bind_some]
            exact setAttrs_ok hd.2.1 ha' p
          · rfl

/-- One round of the run loop for parameters at depth two. -/
theorem round_spec {reject : String → String → Leaf ⊕ Doc → Option Err} {c : Cfg}
    {docs : List Doc} (hs : c.times.Pairwise (· ≤ ·)) (hc : c.dicts = docs.map stored)
    (hd : ∀ d ∈ docs, DistinctKeys d) (hcons : Consistent docs) {s s' : Store} {d : Doc} {c' : Cfg}
    (hu : c.update 1 = .ok (d, c')) (hp : setParams reject s d = .ok s') :
    c'.times = c.times ∧ c'.dicts = c.dicts ∧ c'.time = c.time + 1 ∧
      (∀ k, k ∈ s'.keys ↔ k ∈ s.keys) ∧
      (∀ comp p v w, (c.call (c.time + 1)).get? (comp :: p) = some v →
        (c.call c.time).get? (comp :: p) = w → w ≠ some v → comp ∈ s.keys) ∧
      (∀ comp param v, (c.call (c.time + 1)).get? [comp, param] = some v →
        ((c.call c.time).get? [comp, param] = some v →
          attributeOf s comp param = some (.inl v.thaw)) →
        attributeOf s' comp param = some (.inl v.thaw)) := by
  have hle : c.time ≤ c.time + 1 := by linarith
  have hn : ∀ e ∈ c.dicts, e.keys.Nodup := by
    rw [hc]; intro e he; obtain ⟨d, _, rfl⟩ := List.mem_map.mp he; exact nodup_stored d
  unfold Cfg.update at hu
  dsimp only at hu
  split_ifs at hu with hlt
  · split at hu
    · cases hu
    · rename_i f hf
      split at hu
      · cases hu
      · rename_i e he
        cases hu
        obtain ⟨e', he1, he2, he3⟩ := Cfg.expand_diff hc hd hcons hf
        rw [he] at he1
        cases he1
        have hne := Doc.noEmpty_addItems f .nil d trivial he
        obtain ⟨h1, h2, h3⟩ := setParams_ok he2 hp
        refine ⟨rfl, rfl, rfl, h2, ?_, ?_⟩
        · intro comp p v w hv hw hwv
          have hfp : f.get? (comp :: p) = some v := (Cfg.diff_ok hf _ _).mpr ⟨hv, hw ▸ hwv⟩
          apply h1
          by_contra hk
          rw [← Doc.find?_eq_none_iff] at hk
          have := he3 (comp :: p)
          rw [hfp] at this
          cases p with
          | nil => rw [valueAt_single, hk] at this; cases this
          | cons m p => rw [valueAt_cons, hk] at this; cases this
        · intro comp param v hv hold
          rw [h3]
          by_cases hch : (c.call c.time).get? [comp, param] = some v
          · have hfn : f.get? [comp, param] = none := by
              cases hfv : f.get? [comp, param] with
              | none => rfl
              | some w =>
                obtain ⟨hw1, hw2⟩ := (Cfg.diff_ok hf _ _).mp hfv
                rw [hv] at hw1; cases hw1
                exact absurd hch hw2
            rw [hold hch]
            have hva := he3 [comp, param]
            rw [hfn, Option.map_none, valueAt_cons] at hva
            cases hfc : d.find? comp with
            | none => simp
            | some x =>
              cases x with
              | inl l => simp
              | inr sd =>
                simp only
                cases hfp : sd.find? param with
                | none => simp
                | some y =>
                  cases y with
                  | inl l => rw [hfc] at hva; simp only [] at hva; rw [valueAt_single, hfp] at hva; cases hva
                  | inr sd2 =>
                    exfalso
                    obtain ⟨g1, g2⟩ := Doc.noEmpty_find? hne hfc
                    obtain ⟨g3, g4⟩ := Doc.noEmpty_find? g1 hfp
                    obtain ⟨q, hq⟩ := Doc.exists_value g3 g4
                    cases q with
                    | nil => rw [valueAt_nil] at hq; exact hq rfl
                    | cons m q =>
                      have hlong : valueAt d (comp :: param :: m :: q) ≠ none := by
                        rw [valueAt_cons, hfc]; simp only []; rw [valueAt_cons, hfp]
                        exact hq
                      rw [he3] at hlong
                      have hfl : f.get? (comp :: param :: m :: q) ≠ none := by
                        intro e; rw [e] at hlong; exact hlong rfl
                      rw [Ne, PyDict.get?_eq_none_iff, not_not] at hfl
                      have hk1 := (Cfg.diff_keys hf).2 _ hfl
                      have hk2 : [comp, param] ∈ (c.call (c.time + 1)).keys := by
                        by_contra hn'
                        rw [← PyDict.get?_eq_none_iff, hv] at hn'; cases hn'
                      have := (Cfg.keys_ok hcons (Cfg.call_keys_ok hc hd (c.time + 1))).2
                        _ hk2 _ hk1 (by simp)
                      simp at this
          · have hfv : f.get? [comp, param] = some v := (Cfg.diff_ok hf _ _).mpr ⟨hv, hch⟩
            have hva := he3 [comp, param]
            rw [hfv, Option.map_some, valueAt_cons] at hva
            cases hfc : d.find? comp with
            | none => rw [hfc] at hva; cases hva
            | some x =>
              cases x with
              | inl l => rw [hfc] at hva; cases hva
              | inr sd =>
                rw [hfc] at hva
                simp only [] at hva ⊢
                rw [valueAt_single] at hva
                cases hfp : sd.find? param with
                | none => rw [hfp] at hva; cases hva
                | some y =>
                  cases y with
                  | inl l => rw [hfp] at hva; simp only [Option.some.injEq] at hva; simp [hva]
                  | inr sd2 => rw [hfp] at hva; cases hva
  · cases hu
    simp only [setParams, Except.ok.injEq] at hp
    subst hp
    have h2 : bisectRight c.times c.time = bisectRight c.times (c.time + 1) :=
      le_antisymm (bisectRight_mono c.times hs hle) (not_lt.mp hlt)
    have h3 : c.call c.time = c.call (c.time + 1) := by
      unfold Cfg.call Cfg.bisectTimes; rw [h2]
    refine ⟨rfl, rfl, rfl, by simp, ?_, ?_⟩
    · intro comp p v w hv hw hwv
      rw [h3, hv] at hw; exact absurd hw.symm hwv
    · intro comp param v hv hold
      exact hold (h3 ▸ hv)

/-- The run loop: attributes follow the configuration. -/
theorem cliRun_spec {reject : String → String → Leaf ⊕ Doc → Option Err} {docs : List Doc}
    (hd : ∀ d ∈ docs, DistinctKeys d) (hcons : Consistent docs) (n : Nat) :
    ∀ (c : Cfg) (s : Store), c.times.Pairwise (· ≤ ·) → c.dicts = docs.map stored →
      (∀ comp param v, comp ∈ s.keys → (c.call c.time).get? [comp, param] = some v →
        attributeOf s comp param = some (.inl v.thaw)) →
      ∀ c' s', (cliRun reject c s n).2 = .ok (c', s') →
        (cliRun reject c s n).1.length = n ∧
        ∀ k (h : k < (cliRun reject c s n).1.length),
          (∀ comp param v, comp ∈ s.keys → (c.call (c.time + k)).get? [comp, param] = some v →
            attributeOf (cliRun reject c s n).1[k] comp param = some (.inl v.thaw)) ∧
          (∀ comp p v, (c.call (c.time + k + 1)).get? (comp :: p) = some v →
            (c.call (c.time + k)).get? (comp :: p) ≠ some v → comp ∈ s.keys) := by
  induction n with
  | zero => intro c s _ _ _ c' s' _; simp [cliRun]
  | succ n ih =>
    intro c s hs hc hinit c' s' hrun
    rcases hu : c.update 1 with e | ⟨d, c1⟩
    · simp only [cliRun, hu] at hrun; cases hrun
    · rcases hp : setParams reject s d with e | s1
      · simp only [cliRun, hu, hp] at hrun; cases hrun
      · have hunf : cliRun reject c s (n + 1) =
            (s :: (cliRun reject c1 s1 n).1, (cliRun reject c1 s1 n).2) := by
          simp only [cliRun, hu, hp]
        rw [hunf] at hrun
        simp only [hunf]
        obtain ⟨e1, e2, e3, e4, e5, e6⟩ := round_spec hs hc hd hcons hu hp
        have hcall : ∀ t, c1.call t = c.call t := by
          intro t; unfold Cfg.call Cfg.bisectTimes; rw [e1, e2]
        have hinit1 : ∀ comp param v, comp ∈ s1.keys →
            (c1.call c1.time).get? [comp, param] = some v →
            attributeOf s1 comp param = some (.inl v.thaw) := by
          intro comp param v hk hv
          rw [hcall, e3] at hv
          exact e6 comp param v hv (hinit comp param v ((e4 comp).mp hk))
        obtain ⟨i1, i2⟩ := ih c1 s1 (by rw [e1]; exact hs) (by rw [e2]; exact hc) hinit1 c' s' hrun
        refine ⟨by simp [i1], ?_⟩
        intro k hk
        cases k with
        | zero =>
          simp only [Nat.cast_zero, add_zero, List.getElem_cons_zero]
          exact ⟨hinit, fun comp p v hv hne => e5 comp p v _ hv rfl hne⟩
        | succ k =>
          have hk' : k < (cliRun reject c1 s1 n).1.length := by simpa using hk
          obtain ⟨j1, j2⟩ := i2 k hk'
          have ht : c1.time + (k : ℚ) = c.time + ((k + 1 : ℕ) : ℚ) := by
            rw [e3]; push_cast; ring
          simp only [List.getElem_cons_succ]
          rw [ht] at j1 j2
          refine ⟨fun comp param v hk hv => j1 comp param v ((e4 comp).mpr hk) (by rw [hcall]; exact hv),
            fun comp p v hv hne => (e4 comp).mp (j2 comp p v (by rw [hcall]; exact hv)
              (by rw [hcall]; exact hne))⟩

end Verif
