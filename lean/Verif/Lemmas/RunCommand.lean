import Verif.Lemmas.Prelude
import Verif.Lemmas.Live
import Verif.Lemmas.ConfigFile
import Verif.Spec.RunCommand
import Verif.Props.OutputRun

/-! # Where values come from, and which files a run touches -/

set_option autoImplicit false
set_option linter.unusedSectionVars false

namespace Verif

open Spec

/-! ### Provenance of values -/

namespace Doc

theorem inSub_inv {d e : Doc} {k : String} {f : Doc → Except Err Doc}
    (h : d.inSub k f = .ok e) :
    (∀ v, d.find? k ≠ some (.inl v)) ∧ ∃ s, f (d.subOrNil k) = .ok s := by
  induction d generalizing e with
  | nil =>
    simp only [inSub] at h
    cases hf : f nil with
    | error e => rw [hf] at h; cases h
    | ok s => exact ⟨by simp [find?], s, hf⟩
  | leaf k' v r ih =>
    simp only [inSub] at h
    split_ifs at h with hk
    cases hr : r.inSub k f with
    | error e => rw [hr] at h; cases h
    | ok r' =>
      have := ih hr
      unfold subOrNil at this ⊢
      simpa [find?, hk] using this
  | sub k' s r _ ih =>
    simp only [inSub] at h
    split_ifs at h with hk
    · cases hf : f s with
      | error e => rw [hf] at h; cases h
      | ok s' =>
        refine ⟨by simp [find?, hk], s', ?_⟩
        unfold subOrNil
        simp [find?, hk, hf]
    · cases hr : r.inSub k f with
      | error e => rw [hr] at h; cases h
      | ok r' =>
        have := ih hr
        unfold subOrNil at this ⊢
        simpa [find?, hk] using this

/-- Every value of the result of `_add_flattened_item` is the new one or was there. -/
theorem addItem_from {p : List String} {v : Leaf} {d e : Doc} (h : addItem p v d = .ok e) :
    (DistinctKeys d → DistinctKeys e) ∧
      ∀ q w, valueAt e q = some w → (q = p ∧ w = v.thaw) ∨ valueAt d q = some w := by
  induction p generalizing d e with
  | nil => simp [addItem] at h
  | cons k p ih =>
    cases p with
    | nil =>
      simp only [addItem, Except.ok.injEq] at h
      subst h
      refine ⟨fun hd => distinct_setLeaf hd k _, ?_⟩
      intro q w hq
      cases q with
      | nil => rw [valueAt_nil] at hq; cases hq
      | cons a q =>
        by_cases ha : k = a
        · subst ha
          cases q with
          | nil =>
            rw [valueAt_single, find?_setLeaf] at hq
            simp only [if_true, Option.some.injEq] at hq
            exact .inl ⟨rfl, hq.symm⟩
          | cons b q =>
            rw [valueAt_cons, find?_setLeaf] at hq
            simp at hq
        · right
          rw [← hq]
          exact valueAt_congr (by rw [find?_setLeaf, if_neg ha]) q
    | cons n ns =>
      rw [addItem] at h
      obtain ⟨h1, s, hs⟩ := inSub_inv h
      obtain ⟨g1, g2⟩ := ih hs
      obtain ⟨e', he, hf, hdist⟩ := inSub_ok d k _ s h1 hs
      rw [h] at he
      cases he
      refine ⟨fun hd => hdist hd (g1 (distinct_subOrNil hd k)), ?_⟩
      intro q w hq
      cases q with
      | nil => rw [valueAt_nil] at hq; cases hq
      | cons a q =>
        by_cases ha : k = a
        · subst ha
          cases q with
          | nil => rw [valueAt_single, hf] at hq; simp at hq
          | cons b q =>
            rw [valueAt_cons, hf] at hq
            simp only [if_true] at hq
            rcases g2 _ _ hq with ⟨h3, h4⟩ | h3
            · exact .inl ⟨by rw [h3], h4⟩
            · exact .inr (by rw [valueAt_subOrNil]; exact h3)
        · right
          rw [← hq]
          exact valueAt_congr (by rw [hf, if_neg ha]) q

theorem addItems_from {f : Flat} {d e : Doc} (h : addItems f d = .ok e) :
    (DistinctKeys d → DistinctKeys e) ∧
      ∀ q w, valueAt e q = some w → (∃ v, (q, v) ∈ f ∧ w = v.thaw) ∨ valueAt d q = some w := by
  induction f generalizing d with
  | nil =>
    simp only [addItems, Except.ok.injEq] at h
    subst h
    exact ⟨id, fun q w hq => .inr hq⟩
  | cons x f ih =>
    obtain ⟨p, v⟩ := x
    simp only [addItems] at h
    cases ha : addItem p v d with
    | error e => rw [ha] at h; cases h
    | ok d' =>
      rw [ha] at h
      obtain ⟨g1, g2⟩ := addItem_from ha
      obtain ⟨h1, h2⟩ := ih h
      refine ⟨fun hd => h1 (g1 hd), ?_⟩
      intro q w hq
      rcases h2 q w hq with ⟨u, hu, hw⟩ | h3
      · exact .inl ⟨u, by simp [hu], hw⟩
      · rcases g2 q w h3 with ⟨rfl, h4⟩ | h4
        · exact .inl ⟨v, by simp, h4⟩
        · exact .inr h4

theorem expand_from {f : Flat} {e : Doc} (h : expand f = .ok e) :
    DistinctKeys e ∧ ∀ q w, valueAt e q = some w → ∃ v, (q, v) ∈ f ∧ w = v.thaw := by
  obtain ⟨h1, h2⟩ := addItems_from h
  refine ⟨h1 trivial, fun q w hq => ?_⟩
  rcases h2 q w hq with h3 | h3
  · exact h3
  · cases q with
    | nil => rw [valueAt_nil] at h3; cases h3
    | cons k q => rw [valueAt_of_find?_none rfl] at h3; cases h3

end Doc

/-- Every value of a document is a value, under the same path, of one of the sections. -/
def FromSections (docs : List Doc) (e : Doc) : Prop :=
  DistinctKeys e ∧ ∀ p v, valueAt e p = some v →
    ∃ d ∈ docs, ∃ w, valueAt d p = some w ∧ v = w.freeze.thaw

theorem Cfg.update_from {c c' : Cfg} {docs : List Doc} (hc : c.dicts = docs.map stored)
    (hd : ∀ d ∈ docs, DistinctKeys d) {e : Doc} {inc : Rat} (h : c.update inc = .ok (e, c')) :
    c'.dicts = c.dicts ∧ FromSections docs e := by
  unfold Cfg.update at h
  dsimp only at h
  split_ifs at h
  · cases hf : c.diff c.time (c.time + inc) with
    | error e => rw [hf] at h; cases h
    | ok f =>
      rw [hf] at h
      dsimp only at h
      cases he : Doc.expand f with
      | error e => rw [he] at h; cases h
      | ok e' =>
        rw [he] at h
        cases h
        obtain ⟨h1, h2⟩ := Doc.expand_from he
        refine ⟨rfl, h1, fun p v hv => ?_⟩
        obtain ⟨u, hu, rfl⟩ := h2 p v hv
        have hg : f.get? p = some u := PyDict.get?_of_mem (Cfg.diff_keys hf).1 hu
        obtain ⟨d, hm, w, hw, rfl⟩ := Cfg.mem_of_call hc hd ((Cfg.diff_ok hf p u).mp hg).1
        exact ⟨d, hm, w, hw, rfl⟩
  · cases h
    refine ⟨rfl, trivial, fun p v hv => ?_⟩
    cases p with
    | nil => rw [valueAt_nil] at hv; cases hv
    | cons k p => rw [Doc.valueAt_of_find?_none rfl] at hv; cases hv

theorem Cfg.asDict_from {c : Cfg} {times : List Rat} {docs : List Doc}
    (h : Cfg.init times docs = .ok c) (hd : ∀ d ∈ docs, DistinctKeys d) {e : Doc}
    (he : c.asDict = .ok e) : FromSections docs e := by
  obtain ⟨_, _, _, d0, ds, rfl, hcur⟩ := Cfg.init_ok h
  unfold Cfg.asDict at he
  rw [hcur] at he
  obtain ⟨h1, h2⟩ := Doc.expand_from he
  refine ⟨h1, fun p v hv => ?_⟩
  obtain ⟨u, hu, rfl⟩ := h2 p v hv
  have hg := PyDict.get?_of_mem (nodup_stored d0) hu
  rw [get?_stored (hd d0 (by simp)), Option.map_eq_some_iff] at hg
  obtain ⟨w, hw, rfl⟩ := hg
  exact ⟨d0, by simp, w, hw, rfl⟩

theorem FromSections.erase {docs : List Doc} {e : Doc} (h : FromSections docs e) (k : String) :
    FromSections docs (e.erase k) := by
  refine ⟨Doc.distinct_erase h.1 k, fun p v hv => h.2 p v ?_⟩
  cases p with
  | nil => rw [valueAt_nil] at hv; cases hv
  | cons a p =>
    by_cases ha : k = a
    · subst ha
      rw [Doc.valueAt_of_find?_none (by rw [Doc.find?_erase h.1]; simp)] at hv
      cases hv
    · rw [← hv]
      exact valueAt_congr (by rw [Doc.find?_erase h.1, if_neg ha]) p

/-- The sections that are kept of the files. -/
theorem Cfg.load_from {idx : ℕ} {ds : List Doc} {tds : List (Rat × Doc)}
    (h : Cfg.load idx ds = .ok tds) (hd : ∀ d ∈ ds, DistinctKeys d) :
    ∀ x ∈ tds, DistinctKeys x.2 ∧ ∃ d ∈ ds, ∀ p v, valueAt x.2 p = some v → valueAt d p = some v := by
  induction ds generalizing idx tds with
  | nil => cases h; simp
  | cons d ds ih =>
    rw [Cfg.load] at h
    cases hl : Cfg.load (idx + 1) ds with
    | error e => rw [hl] at h; cases h
    | ok rest =>
      rw [hl] at h
      dsimp only at h
      have hrest : ∀ x ∈ rest, DistinctKeys x.2 ∧ ∃ d' ∈ d :: ds, ∀ p v, valueAt x.2 p = some v →
          valueAt d' p = some v := fun x hx => by
        obtain ⟨h1, d', h2, h3⟩ := ih hl (fun d hd' => hd d (by simp [hd'])) x hx
        exact ⟨h1, d', by simp [h2], h3⟩
      have hdd := hd d (by simp)
      split at h
      · cases h
        intro x hx
        rcases List.mem_cons.mp hx with rfl | hx
        · exact ⟨hdd, d, by simp, fun p v hv => hv⟩
        · exact hrest x hx
      · cases h
        intro x hx
        rcases List.mem_cons.mp hx with rfl | hx
        · refine ⟨Doc.distinct_erase hdd _, d, by simp, fun p v hv => ?_⟩
          dsimp only at hv
          cases p with
          | nil => rw [valueAt_nil] at hv; cases hv
          | cons a p =>
            by_cases ha : "_time" = a
            · subst ha
              rw [Doc.valueAt_of_find?_none (by rw [Doc.find?_erase hdd]; simp)] at hv
              cases hv
            · rw [← hv]
              exact (valueAt_congr (by rw [Doc.find?_erase hdd, if_neg ha]) p).symm
        · exact hrest x hx
      · cases h

theorem Cfg.loadFiles_from {files : List (List Doc)} {docs : List Doc}
    (h : Cfg.loadFiles files = .ok docs) (hd : ∀ f ∈ files, ∀ d ∈ f, DistinctKeys d) :
    ∀ e ∈ docs, DistinctKeys e ∧
      ∃ f ∈ files, ∃ d ∈ f, ∀ p v, valueAt e p = some v → valueAt d p = some v := by
  induction files generalizing docs with
  | nil => cases h; simp
  | cons f files ih =>
    rw [Cfg.loadFiles] at h
    cases hl : Cfg.load 0 f with
    | error e => rw [hl] at h; cases h
    | ok tds =>
      rw [hl] at h
      dsimp only at h
      cases hr : Cfg.loadFiles files with
      | error e => rw [hr] at h; cases h
      | ok rest =>
        rw [hr] at h
        cases h
        intro e he
        rcases List.mem_append.mp he with he | he
        · obtain ⟨x, hx, rfl⟩ := List.mem_map.mp he
          obtain ⟨h1, d, h2, h3⟩ := Cfg.load_from hl (hd f (by simp)) x hx
          exact ⟨h1, f, by simp, d, h2, h3⟩
        · obtain ⟨h1, f', h2, h3⟩ := ih hr (fun f hf => hd f (by simp [hf])) e he
          exact ⟨h1, f', by simp [h2], h3⟩

/-! ### What the writer does to files -/

variable {K A : Type*} [Field K] [LinearOrder K] {R C : ℕ}

/-- An entry that a writer must not touch: a directory or, without `clobber`, a file. -/
def Kept (clobber : Bool) (e : Entry K A) : Prop := e = .dir ∨ (clobber = false ∧ e.isFile = true)

/-- What is true of a writer and the files throughout a run. -/
structure WriterSafe (P : String → Prop) (clobber : Bool) (fs0 : FileSystem K A)
    (q : Writer K × FileSystem K A) : Prop where
  same : q.1.clobber = clobber
  named : P q.1.filepath
  others : ∀ p, ¬ P p → q.2 p = fs0 p
  kept : ∀ p, Kept clobber (fs0 p) → q.2 p = fs0 p
  free : ¬ Kept clobber (fs0 q.1.filepath)

theorem setFilepath_not_kept {clobber : Bool} {old : Option String} {new : String}
    {fs : FileSystem K A} (h : (setFilepath clobber old new fs).2 = .ok ()) :
    ¬ Kept clobber (fs new) := by
  unfold setFilepath at h
  rintro (hk | ⟨h1, h2⟩)
  · simp [hk, Entry.isFile] at h
  · simp [h1, h2] at h

theorem setFilepath_kept {clobber : Bool} {old : Option String} {new : String}
    {fs : FileSystem K A} {p : String} (h : Kept clobber (fs p)) :
    (setFilepath clobber old new fs).1.2 p = fs p := by
  by_contra hne
  obtain ⟨rfl, _, h3, _⟩ := Props.filepath_touches_only clobber old new fs p hne
  exact setFilepath_not_kept (by rw [h3]) h

theorem writerInit_safe {P : String → Prop} {path : String} {interval : PyNumber K}
    {fields : List String} {clobber : Bool} {rows : Option (List ℤ)} {fs fs' : FileSystem K A}
    {w : Writer K} (hP : P path)
    (h : writerInit R path interval fields clobber rows fs = (fs', .ok w)) :
    WriterSafe P clobber fs (w, fs') := by
  obtain ⟨h1, h2, _⟩ := Props.writerInit_ok h
  have hw : w.clobber = clobber ∧ ¬ Kept clobber (fs path) := by
    unfold writerInit at h
    split at h
    · cases h
    · split at h
      · cases h
      · rename_i hs
        cases h
        exact ⟨rfl, setFilepath_not_kept (by rw [hs])⟩
  subst h1
  refine ⟨hw.1, by rw [h2]; exact hP, ?_, ?_, by rw [h2]; exact hw.2⟩
  · intro p hp
    exact Function.update_of_ne (by rintro rfl; exact hp hP) _ _
  · intro p hp
    exact Function.update_of_ne (by rintro rfl; exact hw.2 hp) _ _

theorem writerInit_error_files {path : String} {interval : PyNumber K}
    {fields : List String} {clobber : Bool} {rows : Option (List ℤ)} {fs fs' : FileSystem K A}
    {e : Err} (h : writerInit R path interval fields clobber rows fs = (fs', .error e)) :
    fs' = fs := by
  unfold writerInit at h
  split at h
  · cases h; rfl
  · split at h
    · rename_i hs
      cases h
      unfold setFilepath at hs
      split_ifs at hs
      · cases hs; rfl
      · split at hs <;> cases hs
        rfl
    · cases h

theorem writerStep_safe {P : String → Prop} {clobber : Bool} {fs0 : FileSystem K A}
    {q q' : Writer K × FileSystem K A} {g : GridView A} {dt : Option K}
    (hq : WriterSafe P clobber fs0 q) (h : writerStep g dt q = .ok q') :
    WriterSafe P clobber fs0 q' := by
  obtain ⟨w, fs⟩ := q
  unfold writerStep at h
  dsimp only at h
  split_ifs at h
  · split at h
    · cases h
    · rename_i fs' ht
      cases h
      unfold toNetcdf at ht
      split_ifs at ht
      split at ht
      · cases ht
      · split at ht
        · cases ht
        · cases ht
          refine ⟨hq.same, hq.named, ?_, ?_, hq.free⟩
          · intro p hp
            dsimp only
            rw [Function.update_of_ne (by rintro rfl; exact hp hq.named)]
            exact hq.others p hp
          · intro p hp
            dsimp only
            rw [Function.update_of_ne (by rintro rfl; exact hq.free hp)]
            exact hq.kept p hp
  · cases h
    exact ⟨hq.same, hq.named, hq.others, hq.kept, hq.free⟩

theorem writerSetattr_safe {P : String → Prop} {clobber : Bool} {fs0 : FileSystem K A}
    {q q' : Writer K × FileSystem K A} {name : String} {v : PyValue}
    (hv : ∀ p, name = "filepath" → v = .inl (.str p) → P p)
    (hq : WriterSafe P clobber fs0 q) (h : writerSetattr name v q = .ok q') :
    WriterSafe P clobber fs0 q' := by
  unfold writerSetattr at h
  split_ifs at h with h1 h2 h3
  · split at h
    · rename_i path
      split at h
      · cases h
      · rename_i p fs u hs
        cases h
        have hP := hv path h1 rfl
        have hok : (setFilepath q.1.clobber (some q.1.filepath) path q.2).2 = .ok () := by rw [hs]
        have hset := Props.filepath_ok _ _ _ _ hok
        rw [hs] at hset
        cases hset
        have hnk := setFilepath_not_kept hok
        rw [hq.same] at hnk
        have hn0 : ¬ Kept clobber (fs0 path) := by
          intro hk
          apply hnk
          rw [hq.kept path hk]
          exact hk
        refine ⟨hq.same, hP, ?_, ?_, hn0⟩
        · intro p hp
          dsimp only
          rw [Function.update_of_ne (by rintro rfl; exact hp hP), hq.others p hp]
        · intro p hp
          dsimp only
          rw [Function.update_of_ne (by rintro rfl; exact hn0 hp), hq.kept p hp]
    · cases h
  · split at h
    · cases h
    · cases h
      exact ⟨hq.same, hq.named, hq.others, hq.kept, hq.free⟩
  · split at h
    · cases h
    · cases h
      exact ⟨hq.same, hq.named, hq.others, hq.kept, hq.free⟩
  · cases h
    exact hq

/-! ### The loop -/

theorem Live.setSection_safe {P : String → Prop} {clobber : Bool} {fs0 : FileSystem K A}
    {env : Env R C K} {inp : Inputs K} {comp : String} {d : Doc} {l l' : Live R C K A}
    (hv : comp = "output" → ∀ p, d.find? "filepath" = some (.inl (.str p)) → P p)
    (hd : DistinctKeys d) (hq : WriterSafe P clobber fs0 l.state.comps.2)
    (h : Live.setSection env inp comp d l = .ok l') :
    WriterSafe P clobber fs0 l'.state.comps.2 := by
  have one : ∀ (k : String) (v : PyValue) (l l1 : Live R C K A),
      (comp = "output" → ∀ p, k = "filepath" → v = .inl (.str p) → P p) →
      WriterSafe P clobber fs0 l.state.comps.2 → l.setattr env inp comp k v = .ok l1 →
      WriterSafe P clobber fs0 l1.state.comps.2 := by
    intro k v l l1 hk hq hs
    unfold Live.setattr at hs
    split_ifs at hs with hc
    · split at hs
      · cases hs
      · rename_i hw
        cases hs
        exact writerSetattr_safe (hk hc) hq hw
    · split at hs
      · cases hs
      · cases hs
        exact hq
  induction d generalizing l with
  | nil => cases h; exact hq
  | leaf k v r ih =>
    simp only [Live.setSection] at h
    split at h
    · cases h
    · rename_i l1 hs
      refine ih ?_ hd.2 (one k (.inl v) l l1 ?_ hq hs) h
      · intro hc p hp
        apply hv hc p
        have hne : k ≠ "filepath" := by
          rintro rfl
          rw [(Doc.find?_eq_none_iff _ _).mpr hd.1] at hp; cases hp
        simp [Doc.find?, hne, hp]
      · intro hc p hk he
        apply hv hc p
        simp only [Doc.find?, if_pos hk, he]
  | sub k s r _ ih =>
    simp only [Live.setSection] at h
    split at h
    · cases h
    · rename_i l1 hs
      refine ih ?_ hd.2.2 (one k (.inr s) l l1 ?_ hq hs) h
      · intro hc p hp
        apply hv hc p
        have hne : k ≠ "filepath" := by
          rintro rfl
          rw [(Doc.find?_eq_none_iff _ _).mpr hd.1] at hp; cases hp
        simp [Doc.find?, hne, hp]
      · intro _ p _ he
        cases he

theorem Live.setParams_safe {P : String → Prop} {clobber : Bool} {fs0 : FileSystem K A}
    {env : Env R C K} {inp : Inputs K} {d : Doc} {l l' : Live R C K A}
    (hv : ∀ p, valueAt d ["output", "filepath"] = some (.str p) → P p)
    (hd : DistinctKeys d) (hq : WriterSafe P clobber fs0 l.state.comps.2)
    (h : Live.setParams env inp d l = .ok l') : WriterSafe P clobber fs0 l'.state.comps.2 := by
  induction d generalizing l with
  | nil => cases h; exact hq
  | leaf k v r ih =>
    simp only [Live.setParams] at h
    split_ifs at h
  | sub k s r _ ih =>
    simp only [Live.setParams] at h
    split_ifs at h
    split at h
    · cases h
    · rename_i l1 hs
      refine ih ?_ hd.2.2 (Live.setSection_safe ?_ hd.2.1 hq hs) h
      · intro p hp
        apply hv p
        rw [valueAt_cons] at hp ⊢
        have hne : k ≠ "output" := by
          rintro rfl
          rw [(Doc.find?_eq_none_iff _ _).mpr hd.1] at hp; cases hp
        simpa [Doc.find?, hne] using hp
      · rintro rfl p hp
        apply hv p
        rw [valueAt_cons]
        simp only [Doc.find?, if_true]
        rw [valueAt_single, hp]

theorem Live.advance_safe [IsStrictOrderedRing K] {P : String → Prop} {clobber : Bool}
    {fs0 : FileSystem K A} {env : Env R C K}
    {view : ProcState R C K → World R (C + 2) K → GridView A} {porosity : LiveState R C K A → K}
    {time dt : K} {l l' : Live R C K A} (hq : WriterSafe P clobber fs0 l.state.comps.2)
    (h : l.advance env view porosity time dt = .ok l') :
    WriterSafe P clobber fs0 l'.state.comps.2 := by
  unfold Live.advance at h
  split at h
  · cases h
  · rename_i s hs
    cases h
    unfold advanceComponents at hs
    split at hs
    · cases hs
    · rename_i p w1 hr
      have hp : s.comps = p := by
        repeat' split at hs
        all_goals cases hs
        rfl
      dsimp only
      rw [hp]
      obtain ⟨p1, q1⟩ := p
      exact writerStep_safe hq (Props.withWriter_run_ok _ _ hr).2

theorem liveRound_safe {P : String → Prop} {clobber : Bool} {fs0 : FileSystem K A}
    {env : Env R C K} {inp : Inputs K} {docs : List Doc} (hd : ∀ d ∈ docs, DistinctKeys d)
    (hP : ∀ d ∈ docs, ∀ p, valueAt d ["output", "filepath"] = some (.str p) → P p)
    {s s' : Cfg × Live R C K A} (hc : s.1.dicts = docs.map stored)
    (hq : WriterSafe P clobber fs0 s.2.state.comps.2) (h : liveRound env inp s = .ok s') :
    s'.1.dicts = docs.map stored ∧ WriterSafe P clobber fs0 s'.2.state.comps.2 := by
  unfold liveRound at h
  split at h
  · cases h
  · rename_i e c' hu
    obtain ⟨h1, h2, h3⟩ := Cfg.update_from hc hd hu
    split at h
    · cases h
    · rename_i l hl
      cases h
      refine ⟨h1.trans hc, Live.setParams_safe ?_ h2 hq hl⟩
      intro p hp
      obtain ⟨d, hm, w, hw, hf⟩ := h3 _ _ hp
      apply hP d hm p
      rw [hw]
      cases w <;> simp [Leaf.freeze, Leaf.thaw] at hf ⊢
      exact hf.symm

/-! ### Setting up -/

section setup

variable {K : Type} [Field K] [LinearOrder K]

/-- What is known of a model that has been prepared. -/
theorem prepare_ok {ext : Externals K} {times : List ℕ} {files : List (List Doc)} {p : Prepared K}
    (h : prepare ext times files = .ok p) :
    ∃ docs c e out, Cfg.loadFiles files = .ok docs ∧
      Cfg.init (times.map fun t : ℕ => (t : ℚ)) docs = .ok c ∧ c.asDict = .ok e ∧
      (e.erase "plot").find? "output" = some (.inr out) ∧ loadWriter out.items = .ok p.args ∧
      ∀ q m, p.finish q = .ok m → m.cfg = c ∧ m.live.state.comps.2 = q := by
  unfold prepare at h
  simp only [bind, Except.bind] at h
  split at h
  · cases h
  rename_i c hc
  split at h
  · cases h
  rename_i e he
  split at h
  · cases h
  split at h
  · cases h
  split at h
  · cases h
  split at h
  · cases h
  split at h
  · cases h
  split at h
  · cases h
  split at h
  · cases h
  rename_i out hout
  split at h
  · cases h
  split at h
  · cases h
  split at h
  · cases h
  split at h
  · cases h
  rename_i args hargs
  split at h
  · cases h
  cases h
  unfold Cfg.fromFiles at hc
  split at hc
  · cases hc
  rename_i docs hl
  unfold sectionOf at hout
  split at hout
  · cases hout
  · cases hout
  · rename_i s hs
    cases hout
    refine ⟨docs, c, e, s, hl, hc, he, hs, hargs, ?_⟩
    intro q m hm
    dsimp only at hm
    split at hm
    · cases hm
    · cases hm
      exact ⟨rfl, rfl⟩

theorem Doc.get?_items (d : Doc) (k : String) : PyDict.get? d.items k = d.find? k := by
  induction d with
  | nil => rfl
  | leaf a v r ih => simp [Doc.items, Doc.find?, PyDict.get?, ih]
  | sub a s r _ ih => simp [Doc.items, Doc.find?, PyDict.get?, ih]

/-- The path and the clobber flag of a writer. -/
theorem loadWriter_ok {d : Doc} {args : WriterArgs K} (h : loadWriter d.items = .ok args) :
    d.find? "filepath" = some (.inl (.str args.path)) ∧
      args.clobber = match d.find? "clobber" with
        | none => false
        | some v => pyTruth v := by
  unfold loadWriter at h
  simp only [bind, Except.bind] at h
  split at h
  · cases h
  split at h
  · cases h
  rename_i path hp
  split at h
  · cases h
  cases h
  refine ⟨?_, by dsimp only; rw [Doc.get?_items d "clobber"]; cases d.find? "clobber" <;> rfl⟩
  unfold textArg at hp
  rw [Doc.get?_items] at hp
  split at hp
  · rename_i hs
    cases hp
    exact hs
  · cases hp
  · rename_i h1; cases h1
  · cases hp

end setup

/-! ### The parameters of the processes -/

section Parameters

variable {K : Type} [Field K] [LinearOrder K]

/-- The processes of a prepared model were created from the first section. -/
theorem prepare_created {ext : Externals K} {times : List ℕ} {files : List (List Doc)}
    {p : Prepared K} (h : prepare ext times files = .ok p) :
    ∃ docs c e names, Cfg.loadFiles files = .ok docs ∧
      Cfg.init (times.map fun t : ℕ => (t : ℚ)) docs = .ok c ∧ c.asDict = .ok e ∧
      processNames (e.erase "plot") = .ok names ∧
      ∃ (R C : ℕ) (env : Env R C K) (s0 : ProcState R C K × World R (C + 2) K) (r : _),
        createNamed ext env (matchedParams (withRequired names) (e.erase "plot").sections)
          (withRequired names) s0 = .ok r := by
  unfold prepare at h
  simp only [bind, Except.bind] at h
  split at h
  · cases h
  rename_i c hc
  split at h
  · cases h
  rename_i e he
  split at h
  · cases h
  split at h
  · cases h
  split at h
  · cases h
  split at h
  · cases h
  split at h
  · cases h
  rename_i names hnames
  split at h
  · cases h
  split at h
  · cases h
  split at h
  · cases h
  split at h
  · cases h
  rename_i r hr
  unfold Cfg.fromFiles at hc
  split at hc
  · cases hc
  rename_i docs hl
  exact ⟨docs, c, e, names, hl, hc, he, hnames, _, _, _, _, r, hr⟩

theorem Doc.get?_sections {d s : Doc} {k : String} (h : d.find? k = some (.inr s)) :
    PyDict.get? d.sections k = some s.items := by
  induction d with
  | nil => cases h
  | leaf a v r ih =>
    simp only [Doc.find?] at h
    split_ifs at h
    · cases h
    · exact ih h
  | sub a s' r _ ih =>
    simp only [Doc.find?] at h
    rw [Doc.sections, PyDict.get?_cons]
    split_ifs at h with ha
    · cases h
      rw [if_pos ha]
    · rw [if_neg ha]
      exact ih h

/-- Matching loses no parameter. -/
theorem matchPair_keeps {ν : Type*} [DecidableEq ν] {params : PyDict String (Group ν)}
    {m : String × String × List String} (hne : m.1 ≠ m.2.1) {name key : String}
    (h : (groupOf params name).get? key ≠ none) :
    (groupOf (matchPair params m) name).get? key ≠ none := by
  rw [get?_matchPair params m hne]
  split_ifs with hc
  · intro hn
    rw [Option.or_eq_none_iff] at hn
    rcases hc.1 with rfl | rfl
    · exact h hn.2
    · exact h hn.1
  · exact h

theorem matchedParams_keeps {ν : Type*} [DecidableEq ν] {processes : List String}
    {context : PyDict String (Group ν)} {name key : String} (hm : name ∈ processes)
    {g : Group ν} (hg : context.get? name = some g) (hk : g.get? key ≠ none) :
    (groupOf (matchedParams processes context) name).get? key ≠ none := by
  have h0 : (groupOf (initialParams processes context) name).get? key ≠ none := by
    rw [groupOf_initialParams, given, if_pos hm, hg]
    exact hk
  unfold matchedParams
  have hne : ∀ m ∈ paramsToMatch, m.1 ≠ m.2.1 := by decide
  generalize paramsToMatch = L at hne
  generalize initialParams processes context = q at h0
  induction L generalizing q with
  | nil => exact h0
  | cons m L ih =>
    exact ih (fun m' h' => hne m' (by simp [h'])) _ (matchPair_keeps (hne m (by simp)) h0)

theorem createNamed_mem {R C : ℕ} {ext : Externals K} {env : Env R C K}
    {params : PyDict String Kwargs} {names : List String}
    {s : ProcState R C K × World R (C + 2) K}
    {r : List (String × Process K) × ProcState R C K × World R (C + 2) K}
    (h : createNamed ext env params names s = .ok r) (name : String) (hm : name ∈ names) :
    ∃ cls, processClass params name = some cls ∧
      ∃ p, Process.ofKwargs ext cls (groupOf params name) = .ok p := by
  induction names generalizing s r with
  | nil => cases hm
  | cons n names ih =>
    rw [createNamed] at h
    split at h
    · cases h
    rename_i cls hcls
    split at h
    · cases h
    rename_i p hp
    split at h
    · cases h
    split at h
    · cases h
    rename_i ps s2 hr
    rcases List.mem_cons.mp hm with rfl | hm
    · exact ⟨cls, hcls, p, hp⟩
    · exact ih hr hm

theorem checkKeywords_ok {known : List String} {kwds : Kwargs} {u : Unit}
    (h : checkKeywords known kwds = .ok u) {k : String} (hk : kwds.get? k ≠ none) : k ∈ known := by
  unfold checkKeywords at h
  split_ifs at h with hc
  apply hc
  by_contra hn
  exact hk ((PyDict.get?_eq_none_iff _ _).mpr hn)

/-- A constructor takes only its own arguments. -/
theorem ofKwargs_known {ext : Externals K} {params : PyDict String Kwargs} {name cls : String}
    (hc : processClass params name = some cls) {p : Process K}
    (h : Process.ofKwargs ext cls (groupOf params name) = .ok p) {k : String}
    (hk : (groupOf params name).get? k ≠ none) : HasParameter ext.passedOn name k := by
  generalize groupOf params name = g at h hk
  unfold processClass at hc
  split_ifs at hc with h1 h2 h3 h4 h5 h6 h7 h8
  all_goals (try subst name)
  all_goals (try (split at hc))
  all_goals (
    cases hc
    unfold Process.ofKwargs at h
    simp only [bind, Except.bind, String.reduceEq, if_true, if_false] at h
    split at h
    · cases h
    rename_i u hu
    have := checkKeywords_ok hu hk)
  all_goals
    try simp only [List.mem_cons, List.mem_append, List.not_mem_nil, or_false] at this
    simp only [HasParameter, constructorArguments, wrappers, List.mem_cons, List.not_mem_nil,
      or_false, exists_eq_or_imp, exists_eq_left, String.reduceEq, false_and, true_and, false_or,
      or_false]
    tauto

end Parameters

end Verif
