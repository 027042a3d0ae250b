import Verif.Lemmas.Config
import Verif.Spec.Params

/-! # Parameters of the processes -/

set_option autoImplicit false
set_option linter.unusedSectionVars false

namespace Verif

open Spec

section Match

variable {ν : Type*} [DecidableEq ν]

instance (d1 d2 : PyDict String ν) : DecidablePred (Conflict d1 d2) := fun key =>
  match h1 : d1.get? key, h2 : d2.get? key with
  | some v, some w =>
    if h : v = w then isFalse (by
      rintro ⟨a, b, ha, hb, hab⟩
      rw [h1] at ha; rw [h2] at hb; cases ha; cases hb; exact hab h)
    else isTrue ⟨v, w, h1, h2, h⟩
  | none, _ => isFalse (by rintro ⟨a, b, ha, _⟩; rw [h1] at ha; cases ha)
  | some _, none => isFalse (by rintro ⟨a, b, _, hb, _⟩; rw [h2] at hb; cases hb)

theorem matchStep_spec (d1 d2 : PyDict String ν) (st : PyDict String ν × List String)
    (done : List String)
    (h1 : ∀ k, st.1.get? k = if k ∈ done then (d2.get? k).or (d1.get? k) else none)
    (h2 : st.2 = done.filter (Conflict d1 d2)) (key : String) :
    (∀ k, (matchStep d1 d2 st key).1.get? k =
      if k ∈ done ++ [key] then (d2.get? k).or (d1.get? k) else none) ∧
    (matchStep d1 d2 st key).2 = (done ++ [key]).filter (Conflict d1 d2) := by
  unfold matchStep
  rw [List.filter_append, ← h2]
  have hmem : ∀ k, (k ∈ done ++ [key]) ↔ (k ∈ done ∨ k = key) := by simp
  cases e2 : d2.get? key with
  | none =>
    have hc : ¬ Conflict d1 d2 key := by rintro ⟨a, b, _, hb, _⟩; rw [e2] at hb; cases hb
    have hf : List.filter (fun k => decide (Conflict d1 d2 k)) [key] = [] := by simp [hc]
    rw [hf, List.append_nil]
    cases e1 : d1.get? key with
    | none =>
      refine ⟨?_, rfl⟩
      intro k
      simp only [hmem, h1]
      by_cases hk : k = key
      · subst hk; simp [e1, e2]
      · simp [hk]
    | some v =>
      simp only []
      cases e3 : st.1.get? key with
      | none =>
        have hg : (st.1.set key v).get? key = some v := by simp [PyDict.get?_set]
        simp only []
        rw [if_pos hg]
        refine ⟨?_, rfl⟩
        intro k
        simp only [hmem, PyDict.get?_set, h1]
        by_cases hk : key = k
        · subst hk; simp [e1, e2]
        · have : k ≠ key := fun e => hk e.symm
          simp [hk, this]
      | some w =>
        have hin : key ∈ done := by
          by_contra hn
          have := h1 key
          rw [if_neg hn, e3] at this; cases this
        have hw : w = v := by
          have := h1 key
          rw [if_pos hin, e3, e2, e1] at this; simpa using this
        simp only []
        rw [if_pos (by rw [e3, hw])]
        refine ⟨?_, rfl⟩
        intro k
        simp only [hmem, h1]
        by_cases hk : k = key
        · subst hk; simp [hin]
        · simp [hk]
  | some w =>
    simp only []
    have hg : (st.1.set key w).get? key = some w := by simp [PyDict.get?_set]
    have hall : ∀ k, (st.1.set key w).get? k =
        if k ∈ done ++ [key] then (d2.get? k).or (d1.get? k) else none := by
      intro k
      simp only [hmem, PyDict.get?_set, h1]
      by_cases hk : key = k
      · subst hk; simp [e2]
      · have : k ≠ key := fun e => hk e.symm
        simp [hk, this]
    cases e1 : d1.get? key with
    | none =>
      have hc : ¬ Conflict d1 d2 key := by rintro ⟨a, b, ha, _, _⟩; rw [e1] at ha; cases ha
      have hf : List.filter (fun k => decide (Conflict d1 d2 k)) [key] = [] := by simp [hc]
      rw [hf, List.append_nil]
      exact ⟨hall, rfl⟩
    | some v =>
      simp only [hg]
      by_cases hvw : v = w
      · subst hvw
        have hc : ¬ Conflict d1 d2 key := by
          rintro ⟨a, b, ha, hb, hab⟩
          rw [e1] at ha; rw [e2] at hb; cases ha; cases hb; exact hab rfl
        have hf : List.filter (fun k => decide (Conflict d1 d2 k)) [key] = [] := by simp [hc]
        rw [hf, List.append_nil, if_pos rfl]
        exact ⟨hall, rfl⟩
      · have hc : Conflict d1 d2 key := ⟨v, w, e1, e2, hvw⟩
        have hf : List.filter (fun k => decide (Conflict d1 d2 k)) [key] = [key] := by simp [hc]
        rw [hf, if_neg (by simpa using fun e => hvw e.symm)]
        exact ⟨hall, rfl⟩

theorem matchFold_spec (d1 d2 : PyDict String ν) (keys : List String) :
    ∀ (done : List String) (st : PyDict String ν × List String),
    (∀ k, st.1.get? k = if k ∈ done then (d2.get? k).or (d1.get? k) else none) →
    st.2 = done.filter (Conflict d1 d2) →
    (∀ k, (keys.foldl (matchStep d1 d2) st).1.get? k =
      if k ∈ done ++ keys then (d2.get? k).or (d1.get? k) else none) ∧
    (keys.foldl (matchStep d1 d2) st).2 = (done ++ keys).filter (Conflict d1 d2) := by
  induction keys with
  | nil => intro done st h1 h2; simpa using ⟨h1, h2⟩
  | cons key keys ih =>
    intro done st h1 h2
    obtain ⟨g1, g2⟩ := matchStep_spec d1 d2 st done h1 h2 key
    have := ih (done ++ [key]) _ g1 g2
    simpa [List.append_assoc] using this

theorem matchValues_ok {d1 d2 : PyDict String ν} {keys : List String} {m : PyDict String ν}
    (h : matchValues d1 d2 keys = .ok m) :
    (∀ k ∈ keys, ¬ Conflict d1 d2 k) ∧
      ∀ k, m.get? k = if k ∈ keys then (d2.get? k).or (d1.get? k) else none := by
  obtain ⟨g1, g2⟩ := matchFold_spec d1 d2 keys [] ([], []) (by simp) (by simp)
  unfold matchValues at h
  simp only [] at h
  split_ifs at h with h'
  cases h
  rw [g2] at h'
  simp only [List.nil_append] at g1 h'
  rw [List.filter_eq_nil_iff] at h'
  exact ⟨fun k hk => by simpa using h' k hk, g1⟩

theorem matchValues_error {d1 d2 : PyDict String ν} {keys : List String} {e : Err}
    (h : matchValues d1 d2 keys = .error e) :
    (∃ k ∈ keys, Conflict d1 d2 k) ∧
      e = .parameterMismatch (keys.filter (Conflict d1 d2)) := by
  obtain ⟨g1, g2⟩ := matchFold_spec d1 d2 keys [] ([], []) (by simp) (by simp)
  unfold matchValues at h
  simp only [] at h
  split_ifs at h with h'
  cases h
  rw [g2] at h' ⊢
  simp only [List.nil_append] at h' ⊢
  refine ⟨?_, trivial⟩
  by_contra hn
  push Not at hn
  apply h'
  rw [List.filter_eq_nil_iff]
  intro k hk
  simpa using hn k hk

/-! ### Matching the groups -/

theorem groupOf_set (params : PyDict String (Group ν)) (a : String) (g : Group ν) (n : String) :
    groupOf (params.set a g) n = if a = n then g else groupOf params n := by
  unfold groupOf
  rw [PyDict.get?_set]
  split_ifs <;> rfl

theorem nodup_matchStep {d1 d2 : PyDict String ν} {st : PyDict String ν × List String}
    (h : st.1.keys.Nodup) (key : String) : (matchStep d1 d2 st key).1.keys.Nodup := by
  unfold matchStep
  cases d2.get? key <;> cases d1.get? key <;> dsimp only <;> (repeat' split) <;>
    first
      | exact h
      | exact PyDict.nodup_set h _ _
      | exact PyDict.nodup_set (PyDict.nodup_set h _ _) _ _

theorem nodup_matchValues {d1 d2 : PyDict String ν} {keys : List String} {m : PyDict String ν}
    (h : matchValues d1 d2 keys = .ok m) : m.keys.Nodup := by
  unfold matchValues at h
  simp only [] at h
  split_ifs at h
  cases h
  have : ∀ (ks : List String) (st : PyDict String ν × List String), st.1.keys.Nodup →
      (ks.foldl (matchStep d1 d2) st).1.keys.Nodup := by
    intro ks
    induction ks with
    | nil => intro st h; exact h
    | cons k ks ih => intro st h; exact ih _ (nodup_matchStep h k)
  exact this keys ([], []) (by simp [PyDict.keys])

/-- What one pair of groups looks like after matching. -/
theorem get?_matchPair (params : PyDict String (Group ν)) (m : String × String × List String)
    (hne : m.1 ≠ m.2.1) (name key : String) :
    (groupOf (matchPair params m) name).get? key =
      if (name = m.1 ∨ name = m.2.1) ∧ key ∈ m.2.2 ∧
          ∀ k ∈ m.2.2, ¬ Conflict (groupOf params m.1) (groupOf params m.2.1) k then
        ((groupOf params m.2.1).get? key).or ((groupOf params m.1).get? key)
      else (groupOf params name).get? key := by
  obtain ⟨a, b, keys⟩ := m
  simp only at hne ⊢
  unfold matchPair
  simp only []
  cases hm : matchValues (groupOf params a) (groupOf params b) keys with
  | error e =>
    simp only []
    obtain ⟨⟨k, hk, hc⟩, _⟩ := matchValues_error hm
    rw [if_neg]
    rintro ⟨_, _, h⟩
    exact h k hk hc
  | ok mt =>
    simp only []
    obtain ⟨h1, h2⟩ := matchValues_ok hm
    have hn := nodup_matchValues hm
    have hba : groupOf (params.set a ((groupOf params a).update mt)) b = groupOf params b := by
      rw [groupOf_set, if_neg hne]
    rw [hba, groupOf_set]
    by_cases hb : b = name
    · subst hb
      rw [if_pos rfl, PyDict.get?_update, PyDict.get?_reverse hn, h2]
      by_cases hk : key ∈ keys
      · rw [if_pos hk, if_pos ⟨.inr rfl, hk, h1⟩]
        cases (groupOf params b).get? key <;> simp
      · rw [if_neg hk, if_neg (fun h => hk h.2.1)]; simp
    · rw [if_neg hb, groupOf_set]
      by_cases ha : a = name
      · subst ha
        rw [if_pos rfl, PyDict.get?_update, PyDict.get?_reverse hn, h2]
        by_cases hk : key ∈ keys
        · rw [if_pos hk, if_pos ⟨.inl rfl, hk, h1⟩]
          cases (groupOf params b).get? key <;> cases (groupOf params a).get? key <;> simp
        · rw [if_neg hk, if_neg (fun h => hk h.2.1)]; simp
      · rw [if_neg ha, if_neg]
        rintro ⟨h | h, _⟩
        · exact ha h.symm
        · exact hb h.symm

/-- Conflicts only depend on the values of the key. -/
theorem conflict_congr {d1 d2 e1 e2 : PyDict String ν} {k : String}
    (h1 : d1.get? k = e1.get? k) (h2 : d2.get? k = e2.get? k) :
    Conflict d1 d2 k ↔ Conflict e1 e2 k := by
  unfold Conflict; rw [h1, h2]

/-- After matching all pairs (whose key lists are disjoint), each pair looks as if only it had
been matched, and other parameters are unchanged. -/
theorem get?_matchPairs (L : List (String × String × List String))
    (hne : ∀ m ∈ L, m.1 ≠ m.2.1)
    (hdis : L.Pairwise fun m m' => ∀ k ∈ m.2.2, k ∉ m'.2.2)
    (params : PyDict String (Group ν)) (name key : String) :
    (∀ m ∈ L, key ∈ m.2.2 → (name = m.1 ∨ name = m.2.1) →
      (∀ k ∈ m.2.2, ¬ Conflict (groupOf params m.1) (groupOf params m.2.1) k) →
      (groupOf (L.foldl matchPair params) name).get? key =
        ((groupOf params m.2.1).get? key).or ((groupOf params m.1).get? key)) ∧
    ((∀ m ∈ L, key ∈ m.2.2 → (name = m.1 ∨ name = m.2.1) →
      ∃ k ∈ m.2.2, Conflict (groupOf params m.1) (groupOf params m.2.1) k) →
      (groupOf (L.foldl matchPair params) name).get? key = (groupOf params name).get? key) := by
  induction L generalizing params with
  | nil => exact ⟨by simp, fun _ => rfl⟩
  | cons m L ih =>
    rw [List.pairwise_cons] at hdis
    obtain ⟨i1, i2⟩ := ih (fun m' hm' => hne m' (List.mem_cons_of_mem _ hm')) hdis.2
      (matchPair params m)
    have hsame : ∀ m' ∈ L, ∀ k ∈ m'.2.2, ∀ n,
        (groupOf (matchPair params m) n).get? k = (groupOf params n).get? k := by
      intro m' hm' k hk n
      rw [get?_matchPair params m (hne m (by simp)), if_neg]
      rintro ⟨_, h, _⟩
      exact hdis.1 m' hm' k h hk
    have hmem : ∀ m' ∈ L, key ∈ m.2.2 → key ∉ m'.2.2 := fun m' hm' => hdis.1 m' hm' key
    simp only [List.foldl_cons]
    constructor
    · intro m' hm' hk hn hc
      rcases List.mem_cons.mp hm' with rfl | hm'
      · rw [i2 (fun m'' h'' hk'' _ => absurd hk'' (hmem m'' h'' hk)),
          get?_matchPair params m' (hne m' (by simp)), if_pos ⟨hn, hk, hc⟩]
      · rw [i1 m' hm' hk hn, hsame m' hm' key hk, hsame m' hm' key hk]
        intro k hk' hcf
        exact hc k hk' ((conflict_congr (hsame m' hm' k hk' _) (hsame m' hm' k hk' _)).mp hcf)
    · intro hall
      rw [i2]
      · rw [get?_matchPair params m (hne m (by simp)), if_neg]
        rintro ⟨hn, hk, hc⟩
        obtain ⟨k, hk', hcf⟩ := hall m (by simp) hk hn
        exact hc k hk' hcf
      · intro m' hm' hk hn
        obtain ⟨k, hk', hcf⟩ := hall m' (List.mem_cons_of_mem _ hm') hk hn
        exact ⟨k, hk', (conflict_congr (hsame m' hm' k hk' _) (hsame m' hm' k hk' _)).mpr hcf⟩

theorem groupOf_initialParams (ps : List String) (ctx : PyDict String (Group ν)) (name : String) :
    groupOf (initialParams ps ctx) name = given ps ctx name := by
  unfold groupOf initialParams given PyDict.ofPairs
  rw [PyDict.get?_update]
  have : ∀ l : List String, PyDict.get? (l.map fun p => (p, groupOf ctx p)) name =
      if name ∈ l then some (groupOf ctx name) else none := by
    intro l
    induction l with
    | nil => rfl
    | cons p l ih =>
      rw [List.map_cons, PyDict.get?_cons, ih]
      by_cases hp : p = name
      · subst hp; simp
      · have : name ≠ p := fun e => hp e.symm
        simp [hp, this]
  rw [← List.map_reverse, this]
  simp only [List.mem_reverse]
  split_ifs
  · rfl
  · simp

/-! ### Building the components -/

theorem buildAll_ok {params : PyDict String (Group ν)} {names : List String}
    {bs : List (String × Built ν)} (h : buildAll params names = .ok bs) :
    bs.map (·.1) = names ∧ (∀ n ∈ names, processClass params n ≠ none) ∧
      ∀ b ∈ bs, b.2.kwds = groupOf params b.1 ∧ processClass params b.1 = some b.2.cls := by
  induction names generalizing bs with
  | nil => simp only [buildAll, Except.ok.injEq] at h; subst h; simp
  | cons n names ih =>
    simp only [buildAll] at h
    split at h
    · cases h
    · rename_i cls hcls
      split at h
      · cases h
      · rename_i bs' hbs'
        cases h
        obtain ⟨h1, h2, h3⟩ := ih hbs'
        refine ⟨by simp [h1], ?_, ?_⟩
        · intro m hm
          rcases List.mem_cons.mp hm with rfl | hm
          · rw [hcls]; simp
          · exact h2 m hm
        · intro b hb
          rcases List.mem_cons.mp hb with rfl | hb
          · exact ⟨rfl, hcls⟩
          · exact h3 b hb

theorem buildAll_error {params : PyDict String (Group ν)} {names : List String} {e : Err}
    (h : buildAll params names = .error e) :
    ∃ pre n post, names = pre ++ n :: post ∧ processClass params n = none ∧ e = .keyError n ∧
      ∀ m ∈ pre, processClass params m ≠ none := by
  induction names with
  | nil => simp [buildAll] at h
  | cons n names ih =>
    simp only [buildAll] at h
    split at h
    · rename_i hn
      cases h
      exact ⟨[], n, names, rfl, hn, rfl, by simp⟩
    · rename_i cls hcls
      split at h
      · rename_i e' he'
        cases h
        obtain ⟨pre, m, post, h1, h2, h3, h4⟩ := ih he'
        refine ⟨n :: pre, m, post, by simp [h1], h2, h3, ?_⟩
        intro a ha
        rcases List.mem_cons.mp ha with rfl | ha
        · rw [hcls]; simp
        · exact h4 a ha
      · cases h

theorem buildAll_total {params : PyDict String (Group ν)} {names : List String}
    (h : ∀ n ∈ names, processClass params n ≠ none) : ∃ bs, buildAll params names = .ok bs := by
  cases hb : buildAll params names with
  | ok bs => exact ⟨bs, rfl⟩
  | error e =>
    obtain ⟨pre, n, post, rfl, h2, _⟩ := buildAll_error hb
    exact absurd h2 (h n (by simp))

theorem processClass_ne_none (params : PyDict String (Group ν)) (n : String) :
    processClass params n ≠ none ↔ n ∈ knownProcesses := by
  unfold processClass knownProcesses
  split_ifs <;> simp_all
  split <;> simp_all

theorem keys_ofPairs {β : Type*} (l : List (String × β)) :
    PyDict.keys (PyDict.ofPairs l) = firstAppearances (l.map (·.1)) := by
  have hfilter : ∀ (x : String) (l : List String) ,
      (firstAppearances l).filter (· ≠ x) = firstAppearances (l.filter (· ≠ x)) := by
    intro x l
    induction l with
    | nil => rfl
    | cons y l ih =>
      simp only [firstAppearances, List.filter_cons]
      by_cases hy : y = x
      · subst hy
        simp only [ne_eq, not_true, decide_false, Bool.false_eq_true, if_false]
        rw [List.filter_filter]
        simp only [ne_eq, Bool.and_self] at ih ⊢
        exact ih
      · simp only [ne_eq, hy, not_false_eq_true, decide_true, if_true, firstAppearances]
        rw [List.filter_filter, List.cons_inj_right, ← ih, List.filter_filter]
        congr 1
        funext a
        exact Bool.and_comm _ _
  have : ∀ (l : List (String × β)) (d : PyDict String β),
      PyDict.keys (PyDict.update d l) =
        d.keys ++ (firstAppearances (l.map (·.1))).filter (fun k => k ∉ d.keys) := by
    intro l
    induction l with
    | nil => intro d; simp [PyDict.update, firstAppearances]
    | cons p l ih =>
      intro d
      have hup : PyDict.update d (p :: l) = PyDict.update (d.set p.1 p.2) l := rfl
      rw [hup, ih, PyDict.keys_set]
      simp only [List.map_cons, firstAppearances, List.filter_cons]
      by_cases hp : p.1 ∈ d.keys
      · simp only [hp, if_true, not_true, decide_false, Bool.false_eq_true, if_false]
        rw [List.filter_filter]
        congr 1
        apply List.filter_congr
        intro a _
        by_cases ha : a ∈ d.keys
        · simp [ha]
        · have : a ≠ p.1 := fun e => ha (e ▸ hp)
          simp [ha, this]
      · simp only [hp, if_false, not_false_eq_true, decide_true, if_true]
        rw [List.append_assoc, List.singleton_append, List.filter_filter]
        congr 2
        apply List.filter_congr
        intro a _
        simp [not_or]
  have := this l []
  rw [PyDict.ofPairs, this]
  simp [PyDict.keys]

end Match

end Verif
