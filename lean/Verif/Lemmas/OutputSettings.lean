import Verif.Lemmas.Prelude
import Verif.Lemmas.OldFiles
import Verif.Spec.OutputSettings

/-!
# Configurations without output
-/

set_option autoImplicit false
set_option linter.unusedSectionVars false

namespace Verif

open Spec

/-! ### Dictionaries -/

section
variable {κ ν : Type*} [DecidableEq κ]

theorem filter_set (keep : κ → Bool) (d : PyDict κ ν) (k : κ) (v : ν) :
    (PyDict.set d k v).filter (fun p => keep p.1) =
      if keep k then PyDict.set (d.filter fun p => keep p.1) k v
      else d.filter fun p => keep p.1 := by
  induction d with
  | nil =>
    by_cases h : keep k = true
    · simp [PyDict.set, h]
    · simp [PyDict.set, h]
  | cons p d ih =>
    obtain ⟨k', v'⟩ := p
    by_cases hk : k' = k
    · subst hk
      by_cases h : keep k' = true <;> simp [PyDict.set, h]
    · by_cases h : keep k = true
      · simp only [h, if_true] at ih ⊢
        by_cases h' : keep k' = true <;> simp [PyDict.set, hk, h', ih]
      · simp only [h, if_false, Bool.false_eq_true] at ih ⊢
        by_cases h' : keep k' = true <;> simp [PyDict.set, hk, h', ih]

theorem filter_update (keep : κ → Bool) (d e : PyDict κ ν) :
    (PyDict.update d e).filter (fun p => keep p.1) =
      PyDict.update (d.filter fun p => keep p.1) (e.filter fun p => keep p.1) := by
  unfold PyDict.update
  induction e generalizing d with
  | nil => rfl
  | cons p e ih =>
    rw [List.foldl_cons, ih, filter_set]
    by_cases h : keep p.1 = true
    · simp [h]
    · simp [h]

end

/-! ### Flattened configurations -/

/-- A path that is not in the section `output`. -/
def keepPath (p : List String) : Bool := p.head? ≠ some "output"

/-- A flattened configuration without the section `output`. -/
def keepFlat (f : Flat) : Flat := f.filter fun p => keepPath p.1

theorem keepFlat_all {l : List (List String × Leaf)} (h : ∀ p ∈ l, keepPath p.1 = true) :
    keepFlat l = l := List.filter_eq_self.mpr h

theorem walk_head_without (d : Doc) (k : String) (prev : List String) :
    ∀ p ∈ d.walk (k :: prev), p.1.head? = some k := by
  induction d generalizing prev with
  | nil => simp [Doc.walk]
  | leaf a v r ih =>
    intro p hp
    rw [Doc.walk, List.mem_cons] at hp
    rcases hp with rfl | hp
    · rfl
    · exact ih prev p hp
  | sub a s r ih1 ih2 =>
    intro p hp
    rw [Doc.walk, List.mem_append] at hp
    rcases hp with hp | hp
    · exact ih1 (prev ++ [a]) p hp
    · exact ih2 prev p hp

theorem walk_without (d : Doc) : (withoutOutput d).walk [] = keepFlat (d.walk []) := by
  induction d with
  | nil => rfl
  | leaf k v r ih =>
    unfold withoutOutput
    by_cases hk : k = "output"
    · simp [hk, Doc.walk, keepFlat, keepPath, ih]
    · simp [hk, Doc.walk, keepFlat, keepPath, ih]
  | sub k s r _ ih =>
    unfold withoutOutput
    have hw := walk_head_without s k []
    by_cases hk : k = "output"
    · rw [if_pos hk, ih]
      simp only [Doc.walk, keepFlat, List.filter_append, List.nil_append]
      have e : List.filter (fun p => keepPath p.1) (s.walk [k]) = [] := by
        rw [List.filter_eq_nil_iff]
        intro p hp
        simp [keepPath, hw p hp, hk]
      rw [e, List.nil_append]
    · rw [if_neg hk, Doc.walk, ih]
      simp only [Doc.walk, keepFlat, List.filter_append, List.nil_append]
      have e : List.filter (fun p => keepPath p.1) (s.walk [k]) = s.walk [k] := by
        rw [List.filter_eq_self]
        intro p hp
        simp [keepPath, hw p hp, hk]
      rw [e]

theorem flatten_without (d : Doc) : (withoutOutput d).flatten = keepFlat d.flatten := by
  unfold Doc.flatten PyDict.ofPairs
  rw [walk_without]
  exact (filter_update keepPath ([] : Flat) (d.walk [])).symm

theorem freeze_without (f : Flat) : freezeFlat (keepFlat f) = keepFlat (freezeFlat f) := by
  unfold freezeFlat keepFlat
  rw [List.filter_map]
  rfl

/-! ### Nested configurations -/

theorem without_setLeaf (k : String) (v : Leaf) (d : Doc) :
    withoutOutput (d.setLeaf k v) =
      if k = "output" then withoutOutput d else (withoutOutput d).setLeaf k v := by
  induction d with
  | nil => by_cases h : k = "output" <;> simp [Doc.setLeaf, withoutOutput, h]
  | leaf a u r ih =>
    by_cases ha : a = k
    · subst ha
      by_cases h : a = "output" <;> simp [Doc.setLeaf, withoutOutput, h]
    · by_cases h : k = "output"
      · simp only [h, if_true] at ih ha ⊢
        simp [Doc.setLeaf, withoutOutput, ha, ih]
      · simp only [h, if_false] at ih ⊢
        by_cases h' : a = "output"
        · subst h'; simp [Doc.setLeaf, withoutOutput, ha, ih]
        · simp [Doc.setLeaf, withoutOutput, ha, h', ih]
  | sub a s r _ ih =>
    by_cases ha : a = k
    · subst ha
      by_cases h : a = "output" <;> simp [Doc.setLeaf, withoutOutput, h]
    · by_cases h : k = "output"
      · simp only [h, if_true] at ih ha ⊢
        simp [Doc.setLeaf, withoutOutput, ha, ih]
      · simp only [h, if_false] at ih ⊢
        by_cases h' : a = "output"
        · subst h'; simp [Doc.setLeaf, withoutOutput, ha, ih]
        · simp [Doc.setLeaf, withoutOutput, ha, h', ih]

theorem without_inSub {k : String} {f : Doc → Except Err Doc} {d d' : Doc}
    (h : d.inSub k f = .ok d') :
    if k = "output" then withoutOutput d' = withoutOutput d
    else (withoutOutput d).inSub k f = .ok (withoutOutput d') := by
  induction d generalizing d' with
  | nil =>
    rw [Doc.inSub] at h
    split at h
    · rename_i s hs
      cases h
      by_cases hk : k = "output"
      · simp [hk, withoutOutput]
      · simp [hk, withoutOutput, Doc.inSub, hs]
    · cases h
  | leaf a v r ih =>
    rw [Doc.inSub] at h
    by_cases ha : a = k
    · rw [if_pos ha] at h; cases h
    · rw [if_neg ha] at h
      split at h
      · rename_i r' hr
        cases h
        have := ih hr
        by_cases hk : k = "output"
        · simp only [hk, if_true] at this ha ⊢
          simp [withoutOutput, ha, this]
        · simp only [hk, if_false] at this ⊢
          by_cases h' : a = "output" <;> simp [withoutOutput, h', this, Doc.inSub, ha]
      · cases h
  | sub a s r _ ih =>
    rw [Doc.inSub] at h
    by_cases ha : a = k
    · subst ha
      rw [if_pos rfl] at h
      split at h
      · rename_i s' hs
        cases h
        by_cases hk : a = "output"
        · simp [hk, withoutOutput]
        · simp [hk, withoutOutput, Doc.inSub, hs]
      · cases h
    · rw [if_neg ha] at h
      split at h
      · rename_i r' hr
        cases h
        have := ih hr
        by_cases hk : k = "output"
        · simp only [hk, if_true] at this ha ⊢
          simp [withoutOutput, ha, this]
        · simp only [hk, if_false] at this ⊢
          by_cases h' : a = "output" <;> simp [withoutOutput, h', this, Doc.inSub, ha]
      · cases h

theorem without_addItem {p : List String} {v : Leaf} {d d' : Doc} (h : Doc.addItem p v d = .ok d') :
    if keepPath p then Doc.addItem p v (withoutOutput d) = .ok (withoutOutput d')
    else withoutOutput d' = withoutOutput d := by
  match p with
  | [] => cases h
  | [name] =>
    rw [Doc.addItem] at h
    cases h
    by_cases hk : name = "output"
    · simp [keepPath, hk, without_setLeaf]
    · simp [keepPath, hk, without_setLeaf, Doc.addItem]
  | k :: n :: ns =>
    rw [Doc.addItem] at h
    have := without_inSub h
    by_cases hk : k = "output"
    · simpa [keepPath, hk] using this
    · simpa [keepPath, hk, Doc.addItem] using this

theorem without_addItems {f : Flat} {d d' : Doc} (h : Doc.addItems f d = .ok d') :
    Doc.addItems (keepFlat f) (withoutOutput d) = .ok (withoutOutput d') := by
  induction f generalizing d with
  | nil => cases h; rfl
  | cons q f ih =>
    obtain ⟨p, v⟩ := q
    rw [Doc.addItems] at h
    split at h
    · rename_i d1 h1
      have := without_addItem h1
      by_cases hk : keepPath p = true
      · rw [if_pos hk] at this
        have e : keepFlat ((p, v) :: f) = (p, v) :: keepFlat f := by simp [keepFlat, hk]
        rw [e, Doc.addItems, this]
        exact ih h
      · rw [if_neg hk] at this
        have e : keepFlat ((p, v) :: f) = keepFlat f := by simp [keepFlat, hk]
        rw [e, ← this]
        exact ih h
    · cases h

theorem without_expand {f : Flat} {d : Doc} (h : Doc.expand f = .ok d) :
    Doc.expand (keepFlat f) = .ok (withoutOutput d) := without_addItems h

theorem without_erase {k : String} (hk : k ≠ "output") (d : Doc) :
    withoutOutput (d.erase k) = (withoutOutput d).erase k := by
  induction d with
  | nil => rfl
  | leaf a v r ih =>
    by_cases ha : a = k
    · have : a ≠ "output" := ha ▸ hk
      simp [Doc.erase, withoutOutput, ha, hk]
    · by_cases h : a = "output" <;> simp_all [Doc.erase, withoutOutput]
  | sub a s r _ ih =>
    by_cases ha : a = k
    · have : a ≠ "output" := ha ▸ hk
      simp [Doc.erase, withoutOutput, ha, hk]
    · by_cases h : a = "output" <;> simp_all [Doc.erase, withoutOutput]

theorem find?_without {k : String} (hk : k ≠ "output") (d : Doc) :
    (withoutOutput d).find? k = d.find? k := by
  induction d with
  | nil => rfl
  | leaf a v r ih =>
    by_cases ha : a = k
    · simp [Doc.find?, withoutOutput, ha, hk]
    · by_cases h : a = "output" <;> simp_all [Doc.find?, withoutOutput]
  | sub a s r _ ih =>
    by_cases ha : a = k
    · simp [Doc.find?, withoutOutput, ha, hk]
    · by_cases h : a = "output" <;> simp_all [Doc.find?, withoutOutput]

theorem sections_without {k : String} (hk : k ≠ "output") (d : Doc) :
    PyDict.get? (withoutOutput d).sections k = PyDict.get? d.sections k := by
  induction d with
  | nil => rfl
  | leaf a v r ih =>
    by_cases h : a = "output" <;> simp_all [Doc.sections, withoutOutput]
  | sub a s r _ ih =>
    by_cases ha : a = k
    · simp [Doc.sections, withoutOutput, ha, hk, PyDict.get?]
    · by_cases h : a = "output"
      · simp [Doc.sections, withoutOutput, h, PyDict.get?, ih, Ne.symm hk]
      · simp [Doc.sections, withoutOutput, h, PyDict.get?, ih, ha]

/-! ### Time-varying configurations -/

/-- A time-varying configuration without the section `output`. -/
def Cfg.without (c : Cfg) : Cfg := ⟨c.times, c.dicts.map keepFlat, c.time, keepFlat c.current⟩

theorem Cfg.init_without {times : List ℚ} {docs : List Doc} {c : Cfg}
    (h : Cfg.init times docs = .ok c) :
    Cfg.init times (docs.map withoutOutput) = .ok c.without := by
  have e : ∀ d, freezeFlat (withoutOutput d).flatten = keepFlat (freezeFlat d.flatten) := fun d => by
    rw [flatten_without, freeze_without]
  unfold Cfg.init at h ⊢
  cases docs with
  | nil => cases h
  | cons d ds =>
    simp only [List.map_cons] at h ⊢
    cases h
    simp only [Cfg.without, e, List.map_map, List.map_cons]
    congr 3
    exact List.map_congr_left fun d _ => e d

theorem Cfg.load_without {n : ℕ} {docs : List Doc} {r : List (ℚ × Doc)}
    (h : Cfg.load n docs = .ok r) :
    Cfg.load n (docs.map withoutOutput) = .ok (r.map fun p => (p.1, withoutOutput p.2)) := by
  induction docs generalizing n r with
  | nil => cases h; rfl
  | cons d ds ih =>
    rw [Cfg.load] at h
    split at h
    · cases h
    · rename_i rest hrest
      rw [List.map_cons, Cfg.load, ih hrest]
      dsimp only
      rw [find?_without (by decide)]
      split at h
      · cases h
        rfl
      · cases h
        simp [without_erase]
      · cases h

theorem Cfg.loadFiles_without {files : List (List Doc)} {docs : List Doc}
    (h : Cfg.loadFiles files = .ok docs) :
    Cfg.loadFiles (files.map (List.map withoutOutput)) = .ok (docs.map withoutOutput) := by
  induction files generalizing docs with
  | nil => cases h; rfl
  | cons f fs ih =>
    rw [Cfg.loadFiles] at h
    split at h
    · cases h
    · rename_i tds htds
      split at h
      · cases h
      · rename_i rest hrest
        cases h
        rw [List.map_cons, Cfg.loadFiles, Cfg.load_without htds, ih hrest]
        simp

theorem Cfg.fromFiles_without {files : List (List Doc)} {times : List ℚ} {c : Cfg}
    (h : Cfg.fromFiles files (some times) = .ok c) :
    Cfg.fromFiles (files.map (List.map withoutOutput)) (some times) = .ok c.without := by
  unfold Cfg.fromFiles at h ⊢
  split at h
  · cases h
  · rename_i docs hdocs
    rw [Cfg.loadFiles_without hdocs]
    exact Cfg.init_without h

theorem Cfg.call_without (c : Cfg) (t : ℚ) : c.without.call t = keepFlat (c.call t) := by
  have key : ∀ (fs : List Flat) (d : Flat),
      (fs.map keepFlat).foldl PyDict.update (keepFlat d) = keepFlat (fs.foldl PyDict.update d) := by
    intro fs
    induction fs with
    | nil => intro d; rfl
    | cons f fs ih =>
      intro d
      rw [List.map_cons, List.foldl_cons, List.foldl_cons, ← ih]
      congr 1
      exact (filter_update keepPath d f).symm
  unfold Cfg.call
  have := key (c.dicts.take (c.bisectTimes t)) []
  rw [List.map_take] at this
  exact this

theorem Cfg.diff_without {c : Cfg} {a b : ℚ} {f : Flat} (h : c.diff a b = .ok f) :
    c.without.diff a b = .ok (keepFlat f) := by
  unfold Cfg.diff at h ⊢
  dsimp only at h ⊢
  split_ifs at h with hh
  cases h
  rw [Cfg.call_without, Cfg.call_without]
  simp only [Bool.and_eq_true, List.all_eq_true] at hh
  rw [if_pos]
  · congr 1
    unfold keepFlat
    rw [List.filter_filter, List.filter_filter]
    refine List.filter_congr fun p _ => ?_
    by_cases hp : keepPath p.1 = true
    · simp only [hp, Bool.and_true, Bool.true_and]
      congr 1
      rw [Bool.eq_iff_iff]
      simp [List.mem_filter, hp]
    · simp [hp]
  · simp only [Bool.and_eq_true, List.all_eq_true]
    exact ⟨fun p hp => hh.1 p (List.mem_of_mem_filter hp),
      fun p hp => hh.2 p (List.mem_of_mem_filter hp)⟩

theorem Cfg.update_without {c c' : Cfg} {inc : ℚ} {d : Doc} (h : c.update inc = .ok (d, c')) :
    c.without.update inc = .ok (withoutOutput d, c'.without) := by
  have hb : ∀ t, c.without.bisectTimes t = c.bisectTimes t := fun _ => rfl
  have ht : c.without.time = c.time := rfl
  unfold Cfg.update at h ⊢
  dsimp only at h ⊢
  rw [hb, hb, ht]
  split_ifs at h ⊢ with hlt
  · split at h
    · cases h
    · rename_i f hf
      rw [Cfg.diff_without hf]
      dsimp only
      split at h
      · cases h
      · rename_i d1 hd
        cases h
        rw [without_expand hd]
        rw [Cfg.call_without]
        rfl
  · cases h
    rfl

theorem Cfg.asDict_without {c : Cfg} {d : Doc} (h : c.asDict = .ok d) :
    c.without.asDict = .ok (withoutOutput d) := without_expand h

/-! ### Models -/

section
variable {K A : Type*} {R C : ℕ} [Field K] [LinearOrder K]

theorem has_withOutput (l : Live R C K A) (q : Writer K × FileSystem K A) (k : String) :
    (l.withOutput q).has k = l.has k := rfl

theorem setattr_withOutput {env : Env R C K} {inp : Inputs K} {comp name : String} {v : PyValue}
    {l l' : Live R C K A} (h : l.setattr env inp comp name v = .ok l')
    (q : Writer K × FileSystem K A) :
    if comp = "output" then l'.withOutput q = l.withOutput q
    else (l.withOutput q).setattr env inp comp name v = .ok (l'.withOutput q) := by
  unfold Live.setattr at h
  by_cases hc : comp = "output"
  · rw [if_pos hc] at h ⊢
    split at h
    · cases h
    · cases h
      rfl
  · rw [if_neg hc] at h ⊢
    unfold Live.setattr
    rw [if_neg hc]
    change (match setattrNamed env inp comp name v l.procs (l.state.comps.1, l.state.world) with
      | .error e => _ | .ok (ps, s, w) => _) = _
    split at h
    · cases h
    · rename_i ps s w hs
      cases h
      rw [hs]
      rfl

theorem setSection_withOutput {env : Env R C K} {inp : Inputs K} {comp : String} {d : Doc}
    {l l' : Live R C K A} (h : l.setSection env inp comp d = .ok l')
    (q : Writer K × FileSystem K A) :
    if comp = "output" then l'.withOutput q = l.withOutput q
    else (l.withOutput q).setSection env inp comp d = .ok (l'.withOutput q) := by
  induction d generalizing l with
  | nil =>
    rw [Live.setSection] at h
    cases h
    split_ifs
    · rfl
    · rw [Live.setSection]
  | leaf k v r ih =>
    rw [Live.setSection] at h
    split at h
    · cases h
    · rename_i l1 h1
      have a := setattr_withOutput h1 q
      have b := ih h
      split_ifs at a b ⊢
      · rw [b, a]
      · rw [Live.setSection, a]
        exact b
  | sub k s r _ ih =>
    rw [Live.setSection] at h
    split at h
    · cases h
    · rename_i l1 h1
      have a := setattr_withOutput h1 q
      have b := ih h
      split_ifs at a b ⊢
      · rw [b, a]
      · rw [Live.setSection, a]
        exact b

theorem setParams_withOutput {env : Env R C K} {inp : Inputs K} {d : Doc}
    {l l' : Live R C K A} (h : l.setParams env inp d = .ok l') (q : Writer K × FileSystem K A) :
    (l.withOutput q).setParams env inp (withoutOutput d) = .ok (l'.withOutput q) := by
  induction d generalizing l with
  | nil =>
    rw [Live.setParams] at h
    cases h
    rfl
  | leaf k v r =>
    rw [Live.setParams] at h
    split_ifs at h
  | sub k s r _ ih =>
    rw [Live.setParams] at h
    split_ifs at h with hk
    split at h
    · cases h
    · rename_i l1 h1
      have a := setSection_withOutput h1 q
      have b := ih h
      unfold withoutOutput
      split_ifs at a ⊢
      · rw [← a]
        exact b
      · rw [Live.setParams, has_withOutput, if_pos hk, a]
        exact b

theorem liveRound_withOutput {env : Env R C K} {inp : Inputs K} {c c' : Cfg}
    {l l' : Live R C K A} (h : liveRound env inp (c, l) = .ok (c', l'))
    (q : Writer K × FileSystem K A) :
    liveRound env inp (c.without, l.withOutput q) = .ok (c'.without, l'.withOutput q) := by
  unfold liveRound at h ⊢
  dsimp only at h ⊢
  split at h
  · cases h
  · rename_i d c1 hd
    rw [Cfg.update_without hd]
    dsimp only
    split at h
    · cases h
    · rename_i l1 h1
      cases h
      rw [setParams_withOutput h1 q]

theorem sameSimulation_iff {a b : Live R C K A} :
    SameSimulation a b ↔ a.withOutput b.state.comps.2 = b := by
  constructor
  · rintro ⟨h1, h2, h3, h4⟩
    obtain ⟨p, ⟨⟨s, q⟩, w, n⟩⟩ := a
    obtain ⟨p', ⟨⟨s', q'⟩, w', n'⟩⟩ := b
    dsimp only at h1 h2 h3 h4
    subst h1 h2 h3 h4
    rfl
  · intro h
    rw [← h]
    exact ⟨rfl, rfl, rfl, rfl⟩

end

end Verif
