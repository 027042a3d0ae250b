import Verif.Spec.KeyOrder
import Verif.Props.Unused

/-!
# The order of the keys of a configuration makes no difference (C132)
-/

set_option autoImplicit false
set_option linter.unusedSectionVars false

namespace Verif.Props

open Spec

variable {K : Type} [Field K] [LinearOrder K] [IsStrictOrderedRing K]

/-! ### Keyword arguments -/

theorem sameArguments_keys {a b : Kwargs} (h : SameArguments a b) (k : String) :
    k ∈ a.keys ↔ k ∈ b.keys := by
  rw [← not_iff_not, ← PyDict.get?_eq_none_iff, ← PyDict.get?_eq_none_iff, h.2.2 k]

theorem sameArguments_check {a b : Kwargs} (h : SameArguments a b) (known : List String) :
    checkKeywords known a = checkKeywords known b := by
  unfold checkKeywords
  simp only [sameArguments_keys h]

theorem sameArguments_float {a b : Kwargs} (h : SameArguments a b) (name : String) (x : K) :
    floatArg a name x = floatArg b name x := by
  unfold floatArg
  rw [h.2.2]

theorem sameArguments_optFloat {a b : Kwargs} (h : SameArguments a b) (name : String) (x : K) :
    optFloatArg a name x = optFloatArg b name x := by
  unfold optFloatArg
  rw [h.2.2]

theorem sameArguments_text {a b : Kwargs} (h : SameArguments a b) (name : String)
    (x : Option String) : textArg a name x = textArg b name x := by
  unfold textArg
  rw [h.2.2]

theorem sameArguments_ofKwargs {a b : Kwargs} (h : SameArguments a b) (ext : Externals K)
    (cls : String) : Process.ofKwargs ext cls a = Process.ofKwargs ext cls b := by
  unfold Process.ofKwargs
  simp only [sameArguments_check h, sameArguments_float h, sameArguments_optFloat h,
    sameArguments_text h]

theorem sameArguments_grid {a b : Kwargs} (h : SameArguments a b) :
    (loadGrid a : Except Err (ℕ × ℕ × GridInfo K)) = loadGrid b := by
  unfold loadGrid gridEntry
  simp only [h.2.2]

theorem sameArguments_bathymetry {a b : Kwargs} (h : SameArguments a b) (ext : Externals K) {R C : ℕ}
    (x : Fin C → K) (w : World R C K) : loadBathymetry ext x a w = loadBathymetry ext x b w := by
  unfold loadBathymetry
  simp only [sameArguments_check h, sameArguments_text h]

theorem sameArguments_clock {a b : Kwargs} (h : SameArguments a b) :
    (loadClock a : Except Err (Clock K)) = loadClock b := by
  unfold loadClock stopArg
  simp only [sameArguments_check h, sameArguments_float h, h.2.2]

theorem sameArguments_writer {a b : Kwargs} (h : SameArguments a b) :
    (loadWriter a : Except Err (WriterArgs K)) = loadWriter b := by
  unfold loadWriter fieldsArg rowsArg
  simp only [sameArguments_check h, sameArguments_text h, h.2.2]

theorem sameArguments_any {a b : Kwargs} (h : SameArguments a b) (f : PyValue → Bool) :
    (a.any fun kv => f kv.2) = b.any fun kv => f kv.2 := by
  rw [Bool.eq_iff_iff, List.any_eq_true, List.any_eq_true]
  constructor
  · rintro ⟨⟨k, v⟩, hm, hf⟩
    exact ⟨(k, v), (PyDict.mem_iff_get? h.2.1).mpr ((h.2.2 k).symm.trans
      ((PyDict.mem_iff_get? h.1).mp hm)), hf⟩
  · rintro ⟨⟨k, v⟩, hm, hf⟩
    exact ⟨(k, v), (PyDict.mem_iff_get? h.1).mpr ((h.2.2 k).trans
      ((PyDict.mem_iff_get? h.2.1).mp hm)), hf⟩

theorem sameArguments_update {a b : Kwargs} (h : SameArguments a b) (m : Kwargs) :
    SameArguments (a.update m) (b.update m) := by
  refine ⟨PyDict.nodup_update h.1 m, PyDict.nodup_update h.2.1 m, fun k => ?_⟩
  rw [PyDict.get?_update, PyDict.get?_update, h.2.2]

theorem sameArguments_nil : SameArguments [] [] := ⟨List.nodup_nil, List.nodup_nil, fun _ => rfl⟩

/-! ### The parameters of all processes -/

/-- The same groups in the same order, each with its arguments in any order. -/
def SameGroups (p p' : PyDict String Kwargs) : Prop :=
  List.Forall₂ (fun a b => a.1 = b.1 ∧ SameArguments a.2 b.2) p p'

theorem sameGroups_keys {p p' : PyDict String Kwargs} (h : SameGroups p p') : p.keys = p'.keys := by
  unfold SameGroups at h
  induction h with
  | nil => rfl
  | cons h _ ih =>
    simp only [PyDict.keys, List.map_cons] at ih ⊢
    rw [h.1, ih]

theorem sameGroups_groupOf {p p' : PyDict String Kwargs} (h : SameGroups p p') (name : String) :
    SameArguments (groupOf p name) (groupOf p' name) := by
  unfold SameGroups at h
  induction h with
  | nil => exact sameArguments_nil
  | @cons a b p p' h _ ih =>
    unfold groupOf at ih ⊢
    rw [PyDict.get?_cons, PyDict.get?_cons, h.1]
    by_cases hn : b.1 = name
    · rw [if_pos hn, if_pos hn]
      exact h.2
    · rw [if_neg hn, if_neg hn]
      exact ih

theorem sameGroups_set {p p' : PyDict String Kwargs} (h : SameGroups p p') (name : String)
    {a b : Kwargs} (hab : SameArguments a b) : SameGroups (p.set name a) (p'.set name b) := by
  unfold SameGroups at h ⊢
  induction h with
  | nil => exact .cons ⟨rfl, hab⟩ .nil
  | @cons x y p p' h ht ih =>
    simp only [PyDict.set]
    rw [h.1]
    by_cases hn : y.1 = name
    · rw [if_pos hn, if_pos hn]
      exact .cons ⟨rfl, hab⟩ ht
    · rw [if_neg hn, if_neg hn]
      exact .cons ⟨rfl, h.2⟩ ih

theorem sameArguments_matchValues {a b a' b' : Kwargs} (h : SameArguments a a')
    (h' : SameArguments b b') (keys : List String) : matchValues a b keys = matchValues a' b' keys := by
  have : matchStep a b = matchStep a' b' := by
    funext st key
    unfold matchStep
    rw [h.2.2, h'.2.2]
  unfold matchValues
  rw [this]

theorem sameGroups_matchPair {p p' : PyDict String Kwargs} (h : SameGroups p p')
    (m : String × String × List String) : SameGroups (matchPair p m) (matchPair p' m) := by
  unfold matchPair
  rw [sameArguments_matchValues (sameGroups_groupOf h m.1) (sameGroups_groupOf h m.2.1)]
  cases matchValues (groupOf p' m.1) (groupOf p' m.2.1) m.2.2 with
  | error e => exact h
  | ok matched =>
    dsimp only
    have h1 := sameGroups_set h m.1 (sameArguments_update (sameGroups_groupOf h m.1) matched)
    exact sameGroups_set h1 _ (sameArguments_update (sameGroups_groupOf h1 _) matched)

theorem sameGroups_initial (names : List String) {c c' : PyDict String Kwargs}
    (h : ∀ name, SameArguments (groupOf c name) (groupOf c' name)) :
    SameGroups (initialParams names c) (initialParams names c') := by
  unfold initialParams PyDict.ofPairs PyDict.update
  have : ∀ (l : List String) (p p' : PyDict String Kwargs), SameGroups p p' →
      SameGroups (List.foldl (fun d (q : String × Kwargs) => d.set q.1 q.2) p
        (l.map fun n => (n, groupOf c n)))
      (List.foldl (fun d (q : String × Kwargs) => d.set q.1 q.2) p'
        (l.map fun n => (n, groupOf c' n))) := by
    intro l
    induction l with
    | nil => exact fun _ _ h => h
    | cons n l ih =>
      intro p p' hp
      simp only [List.map_cons, List.foldl_cons]
      exact ih _ _ (sameGroups_set hp n (h n))
  exact this names [] [] .nil

theorem sameGroups_matched (names : List String) {c c' : PyDict String Kwargs}
    (h : ∀ name, SameArguments (groupOf c name) (groupOf c' name)) :
    SameGroups (matchedParams names c) (matchedParams names c') := by
  unfold matchedParams
  generalize paramsToMatch = l
  have h0 := sameGroups_initial names h
  generalize initialParams names c = p at h0 ⊢
  generalize initialParams names c' = p' at h0 ⊢
  induction l generalizing p p' with
  | nil => exact h0
  | cons m l ih => exact ih _ _ (sameGroups_matchPair h0 m)

theorem sameGroups_describe {p p' : PyDict String Kwargs} (h : SameGroups p p') :
    describeParams p = describeParams p' := by
  have : (p.any fun g => g.2.any fun kv => pyHasNull kv.2) =
      p'.any fun g => g.2.any fun kv => pyHasNull kv.2 := by
    unfold SameGroups at h
    induction h with
    | nil => rfl
    | cons h _ ih => rw [List.any_cons, List.any_cons, sameArguments_any h.2, ih]
  unfold describeParams
  rw [this]

theorem sameGroups_class {p p' : PyDict String Kwargs} (h : SameGroups p p') (name : String) :
    processClass p name = processClass p' name := by
  unfold processClass
  rw [(sameGroups_groupOf h "sea_level").2.2]

theorem sameGroups_create {p p' : PyDict String Kwargs} (h : SameGroups p p') (ext : Externals K)
    {R C : ℕ} (env : Env R C K) (names : List String)
    (s : ProcState R C K × World R (C + 2) K) :
    createNamed ext env p names s = createNamed ext env p' names s := by
  induction names generalizing s with
  | nil => rfl
  | cons n names ih =>
    simp only [createNamed, sameGroups_class h n, sameArguments_ofKwargs (sameGroups_groupOf h n), ih]

/-! ### Sections -/

theorem nodup_items {s : Doc} (h : DistinctKeys s) : s.items.keys.Nodup := by
  have hk : ∀ s : Doc, s.items.keys = s.keys := by
    intro s
    induction s with
    | nil => rfl
    | leaf k v r ih => simp only [Doc.items, Doc.keys, PyDict.keys, List.map_cons] at ih ⊢; rw [ih]
    | sub k d r _ ih => simp only [Doc.items, Doc.keys, PyDict.keys, List.map_cons] at ih ⊢; rw [ih]
  rw [hk]
  induction s with
  | nil => exact List.nodup_nil
  | leaf k v r ih => exact List.nodup_cons.mpr ⟨h.1, ih h.2⟩
  | sub k d r _ ih => exact List.nodup_cons.mpr ⟨h.1, ih h.2.2⟩

theorem distinct_of_find {d s : Doc} {k : String} (h : DistinctKeys d)
    (hs : d.find? k = some (.inr s)) : DistinctKeys s := by
  induction d with
  | nil => cases hs
  | leaf a v r ih =>
    simp only [Doc.find?] at hs
    split_ifs at hs
    · cases hs
    · exact ih h.2 hs
  | sub a t r _ ih =>
    simp only [Doc.find?] at hs
    split_ifs at hs
    · cases hs; exact h.2.1
    · exact ih h.2.2 hs

theorem sameArguments_items {s t : Doc} (hs : DistinctKeys s) (ht : DistinctKeys t)
    (h : ∀ k, s.find? k = t.find? k) : SameArguments s.items t.items :=
  ⟨nodup_items hs, nodup_items ht, fun k => by rw [Doc.get?_items, Doc.get?_items, h]⟩

theorem nil_iff_find (s : Doc) : s = .nil ↔ ∀ k, s.find? k = none := by
  constructor
  · rintro rfl k
    rfl
  · intro h
    cases s with
    | nil => rfl
    | leaf k v r => have := h k; simp [Doc.find?] at this
    | sub k d r => have := h k; simp [Doc.find?] at this

/-- Dropping empty sections keeps the settings. -/
theorem sameSettings_prune {d e : Doc} (hd : DistinctKeys d) (he : DistinctKeys e)
    (h : SameSettings d e) : SameSettings (prune d) (prune e) := by
  intro k
  have hk := h k
  rw [Doc.find?_prune hd, Doc.find?_prune he]
  rcases hdk : d.find? k with _ | v | s
  · rw [hdk] at hk
    cases hek : e.find? k with
    | none => rfl
    | some y => rw [hek] at hk; cases hk
  · rw [hdk] at hk
    cases hek : e.find? k with
    | none => rw [hek] at hk; cases hk
    | some y => rw [hek] at hk; cases hk; rfl
  · rw [hdk] at hk
    cases hek : e.find? k with
    | none => rw [hek] at hk; cases hk
    | some y =>
      rw [hek] at hk
      cases y with
      | inl v => cases hk
      | inr t =>
        have hst : ∀ k, s.find? k = t.find? k := hk
        have hp : ∀ k, (prune s).find? k = (prune t).find? k := fun k => by
          rw [Doc.find?_prune (distinct_of_find hd hdk), Doc.find?_prune (distinct_of_find he hek), hst]
        dsimp only
        by_cases hn : prune s = .nil
        · have hn' : prune t = .nil := by
            rw [nil_iff_find] at hn ⊢
            intro k
            rw [← hp k, hn k]
          rw [if_pos hn, if_pos hn']
          rfl
        · have hn' : prune t ≠ .nil := by
            intro hn'
            rw [nil_iff_find] at hn hn'
            exact hn fun k => by rw [hp k, hn' k]
          rw [if_neg hn, if_neg hn']
          exact hp

/-- A section is there in both, with the same arguments, or neither can be used. -/
theorem sameSettings_sectionOf {d e : Doc} (hd : DistinctKeys d) (he : DistinctKeys e)
    {name : String} (h : SameContents (d.find? name) (e.find? name)) :
    (∃ x, sectionOf d name = .error x ∧ sectionOf e name = .error x) ∨
    ∃ a b, sectionOf d name = .ok a ∧ sectionOf e name = .ok b ∧ SameArguments a b := by
  unfold sectionOf
  rcases hdk : d.find? name with _ | v | s
  · rw [hdk] at h
    cases hek : e.find? name with
    | none => exact .inl ⟨_, rfl, rfl⟩
    | some y => rw [hek] at h; cases h
  · rw [hdk] at h
    cases hek : e.find? name with
    | none => rw [hek] at h; cases h
    | some y => rw [hek] at h; cases h; exact .inl ⟨_, rfl, rfl⟩
  · rw [hdk] at h
    cases hek : e.find? name with
    | none => rw [hek] at h; cases h
    | some y =>
      rw [hek] at h
      cases y with
      | inl v => cases h
      | inr t => exact .inr ⟨_, _, rfl, rfl,
          sameArguments_items (distinct_of_find hd hdk) (distinct_of_find he hek) h⟩

theorem sameSettings_groupOf {d e : Doc} (hd : DistinctKeys d) (he : DistinctKeys e)
    (h : SameSettings d e) (name : String) :
    SameArguments (groupOf d.sections name) (groupOf e.sections name) := by
  have hk := h name
  unfold groupOf
  rcases hdk : d.find? name with _ | v | s
  · rw [hdk] at hk
    cases hek : e.find? name with
    | none =>
      rw [get?_sections_none hd (by rw [hdk]; simp), get?_sections_none he (by rw [hek]; simp)]
      exact sameArguments_nil
    | some y => rw [hek] at hk; cases hk
  · rw [hdk] at hk
    cases hek : e.find? name with
    | none => rw [hek] at hk; cases hk
    | some y =>
      rw [hek] at hk
      cases hk
      rw [get?_sections_none hd (by rw [hdk]; simp), get?_sections_none he (by rw [hek]; simp)]
      exact sameArguments_nil
  · rw [hdk] at hk
    cases hek : e.find? name with
    | none => rw [hek] at hk; cases hk
    | some y =>
      rw [hek] at hk
      cases y with
      | inl v => cases hk
      | inr t =>
        rw [Doc.get?_sections hdk, Doc.get?_sections hek]
        exact sameArguments_items (distinct_of_find hd hdk) (distinct_of_find he hek) hk

theorem sameSettings_processNames {d e : Doc} (h : SameSettings d e) :
    processNames d = processNames e := by
  have hk := h "processes"
  unfold processNames
  rcases hdk : d.find? "processes" with _ | v | s
  · rw [hdk] at hk
    cases hek : e.find? "processes" with
    | none => rfl
    | some y => rw [hek] at hk; cases hk
  · rw [hdk] at hk
    cases hek : e.find? "processes" with
    | none => rw [hek] at hk; cases hk
    | some y => rw [hek] at hk; cases hk; rfl
  · rw [hdk] at hk
    cases hek : e.find? "processes" with
    | none => rw [hek] at hk; cases hk
    | some y =>
      rw [hek] at hk
      cases y with
      | inl v => cases hk
      | inr t => rfl

/-- The setup of two configurations that differ in the order of keys. -/
theorem prepareFrom_order (ext : Externals K) (hext : OrderBlind ext) (c1 c2 : Cfg) {d e : Doc}
    (hd : DistinctKeys d) (he : DistinctKeys e) (h : SameSettings d e) :
    prepareFrom ext c2 e = (prepareFrom ext c1 d).map (Prepared.withCfg c2) := by
  unfold prepareFrom
  rw [← sameSettings_processNames h]
  simp only [bind, Except.bind]
  rcases sameSettings_sectionOf hd he (h "grid") with ⟨x, h1, h2⟩ | ⟨grid, grid', h1, h2, hg⟩
  · rw [h1, h2]; rfl
  rw [h1, h2]
  dsimp only
  rcases sameSettings_sectionOf hd he (h "bathymetry") with ⟨x, h1, h2⟩ | ⟨bath, bath', h1, h2, hb⟩
  · rw [h1, h2]; rfl
  rw [h1, h2]
  dsimp only
  rw [sameArguments_grid hg]
  cases loadGrid (K := K) grid' with
  | error x => rfl
  | ok g =>
  obtain ⟨R, C, info⟩ := g
  dsimp only
  rw [sameArguments_bathymetry hb]
  split
  · rfl
  split
  · rfl
  rename_i names hn
  rcases sameSettings_sectionOf hd he (h "clock") with ⟨x, h1, h2⟩ | ⟨clock, clock', h1, h2, hc⟩
  · rw [h1, h2]; rfl
  rw [h1, h2]
  dsimp only
  rcases sameSettings_sectionOf hd he (h "output") with ⟨x, h1, h2⟩ | ⟨out, out', h1, h2, ho⟩
  · rw [h1, h2]; rfl
  rw [h1, h2]
  dsimp only
  have hm := sameGroups_matched (withRequired names) (sameSettings_groupOf hd he h)
  generalize matchedParams (withRequired names) d.sections = p at hm ⊢
  generalize matchedParams (withRequired names) e.sections = p' at hm ⊢
  rw [sameGroups_describe hm, sameGroups_create hm,
    hext R C p p' (sameGroups_keys hm) (sameGroups_groupOf hm), sameArguments_clock hc,
    sameArguments_writer ho]
  have hsl : ((groupOf p "sea_level").get? "filepath") = (groupOf p' "sea_level").get? "filepath" :=
    (sameGroups_groupOf hm _).2.2 _
  have hkind : ∀ n, kindOf p n = kindOf p' n := fun n => by
    unfold kindOf
    rw [(sameGroups_groupOf hm n).2.2]
  have hpor : ∀ l, porosityArg ext l (groupOf p "compaction") =
      porosityArg ext l (groupOf p' "compaction") := fun l => by
    unfold porosityArg
    rw [sameArguments_float (sameGroups_groupOf hm _)]
  rw [hsl, hkind, hkind]
  simp only [hpor]
  split
  · rfl
  split
  · rfl
  split
  · rfl
  split
  · rfl
  split
  · rfl
  simp only [Except.map, Prepared.withCfg]
  congr 2
  funext q
  split <;> rfl

theorem sameSettings_erase {d e : Doc} (hd : DistinctKeys d) (he : DistinctKeys e)
    (h : SameSettings d e) (name : String) : SameSettings (d.erase name) (e.erase name) := by
  intro k
  rw [Doc.find?_erase hd, Doc.find?_erase he]
  by_cases hk : name = k
  · rw [if_pos hk, if_pos hk]
    rfl
  · rw [if_neg hk, if_neg hk]
    exact h k

/-- C132: the order of the sections and of the parameters within a section makes no difference to
`sequence run`. -/
theorem key_order [FloorRing K] (ext : Externals K) (hext : OrderBlind ext) (d e : Doc)
    (hd : DistinctKeys d) (he : DistinctKeys e) (htd : NoTuples d) (hte : NoTuples e)
    (hsame : SameSettings d e) (htime : ∀ s, d.find? "_time" ≠ some (.inr s))
    (entries : List (List Char)) (name : List Char)
    (hfiles : findConfigFiles entries = ([0], [name])) (before after : List Char → List Doc)
    (h1 : before name = [d]) (h2 : after name = [e]) (dryRun : Bool) (fuel : ℕ)
    (fs : FileSystem K (Option K)) :
    runCommand ext entries after dryRun fuel fs = runCommand ext entries before dryRun fuel fs := by
  refine run_same_of ext d e fs (setup_same_of ext d e hd he htd hte ?_ ?_ fs) entries name hfiles
    before after h1 h2 dryRun fuel
  · have hk := hsame "_time"
    rcases hdk : d.find? "_time" with _ | v | s
    · rw [hdk] at hk
      cases hek : e.find? "_time" with
      | none => rfl
      | some y => rw [hek] at hk; cases hk
    · rw [hdk] at hk
      cases hek : e.find? "_time" with
      | none => rw [hek] at hk; cases hk
      | some y => rw [hek] at hk; cases hk; rfl
    · exact absurd hdk (htime s)
  · intro c1 c2 d' e' hd' he' hfd hfe
    refine prepareFrom_order ext hext c1 c2 (Doc.distinct_erase hd' _) (Doc.distinct_erase he' _) ?_
    refine sameSettings_erase hd' he' ?_ _
    intro k
    rw [hfd, hfe]
    by_cases hk : k = "_time"
    · rw [if_pos hk, if_pos hk]
      rfl
    · rw [if_neg hk, if_neg hk]
      exact sameSettings_prune hd he hsame k

/-- `exConfig` with the sections, and the parameters of the grid and the clock, in another order. -/
def exReordered (output : Doc) : Doc :=
  .sub "output" output <|
  .sub "shoreline" (.leaf "alpha" (.num 1) .nil) <|
  .leaf "processes" (.list [.str "sea_level"]) <|
  .sub "sea_level" (.leaf "filepath" (.str "sea_level.csv") .nil) <|
  .sub "grid" (.leaf "spacing" (.num 1) (.leaf "n_cols" (.num 3) .nil)) <|
  .sub "clock" (.leaf "stop" (.num 200) (.leaf "step" (.num 100) (.leaf "start" (.num 0) .nil))) <|
  .sub "bathymetry" (.leaf "filepath" (.str "bathymetry.csv") .nil) .nil

theorem exReordered_same (output : Doc) :
    SameSettings (exConfig output .nil) (exReordered output) := by
  intro k
  by_cases h1 : "grid" = k
  · subst h1
    intro k
    by_cases hk : "n_cols" = k
    · subst hk; simp [Doc.find?]
    · simp [Doc.find?, hk]
  by_cases h2 : "bathymetry" = k
  · subst h2; exact fun _ => rfl
  by_cases h3 : "clock" = k
  · subst h3
    intro k
    by_cases hk : "start" = k
    · subst hk; simp [Doc.find?]
    · by_cases hk' : "stop" = k
      · subst hk'; simp [Doc.find?]
      · simp [Doc.find?, hk, hk']
  by_cases h4 : "processes" = k
  · subst h4; rfl
  by_cases h5 : "sea_level" = k
  · subst h5; exact fun _ => rfl
  by_cases h6 : "shoreline" = k
  · subst h6; exact fun _ => rfl
  by_cases h7 : "output" = k
  · subst h7; exact fun _ => rfl
  simp [exConfig, exTimed, exReordered, Doc.find?, h1, h2, h3, h4, h5, h6, h7, SameContents]

/-- C132: the two orders run alike; by `exCommand_writes` the run writes a file. -/
example : exCommand false (exReordered (exOutSection "out.nc" false)) [] =
    exCommand false (exConfig (exOutSection "out.nc" false) .nil) [] :=
  key_order exExt (fun _ _ _ _ _ _ => rfl) (exConfig (exOutSection "out.nc" false) .nil)
    (exReordered (exOutSection "out.nc" false))
    (exConfig_distinct _ _ (exOutSection_distinct ..) trivial (by simp [Doc.keys]))
    (by simp [exReordered, exOutSection, DistinctKeys, Doc.keys])
    (by simp [exConfig, exTimed, exOutSection, NoTuples])
    (by simp [exReordered, exOutSection, NoTuples]) (exReordered_same _)
    (by intro s; simp [exConfig, exTimed, Doc.find?]) (exEntries.take 1) "sequence0.toml".toList
    (by decide +kernel) _ _ (by simp [exContents]) (by simp [exContents]) false 5 exRunFiles

end Verif.Props
