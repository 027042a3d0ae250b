import Verif.Lemmas.Cli
import Verif.Lemmas.NullValues

/-!
# Options that are not null
-/

set_option autoImplicit false

namespace Verif

open Spec

/-- What is set is not null. -/
def itemNull : Leaf ⊕ Doc → Bool
  | .inl v => v.hasNull
  | .inr d => d.hasNull

theorem noNull_setItem {d : Doc} {k : String} {x : Leaf ⊕ Doc} (hd : d.hasNull = false)
    (hx : itemNull x = false) : (d.setItem k x).hasNull = false := by
  induction d with
  | nil => cases x <;> simpa [Doc.setItem, Doc.hasNull, itemNull] using hx
  | leaf a v r ih =>
    simp only [Doc.hasNull, Bool.or_eq_false_iff] at hd
    unfold Doc.setItem
    split_ifs
    · cases x <;> simp only [Doc.hasNull, Bool.or_eq_false_iff] <;> exact ⟨hx, hd.2⟩
    · simp only [Doc.hasNull, Bool.or_eq_false_iff]
      exact ⟨hd.1, ih hd.2⟩
  | sub a s r _ ih =>
    simp only [Doc.hasNull, Bool.or_eq_false_iff] at hd
    unfold Doc.setItem
    split_ifs
    · cases x <;> simp only [Doc.hasNull, Bool.or_eq_false_iff] <;> exact ⟨hx, hd.2⟩
    · simp only [Doc.hasNull, Bool.or_eq_false_iff]
      exact ⟨hd.1, ih hd.2⟩

theorem noNull_updateWith {d e : Doc} (hd : d.hasNull = false) (he : e.hasNull = false) :
    (d.updateWith e).hasNull = false := by
  induction e generalizing d with
  | nil => exact hd
  | leaf a v r ih =>
    simp only [Doc.hasNull, Bool.or_eq_false_iff] at he
    exact ih (noNull_setItem hd he.1) he.2
  | sub a s r _ ih =>
    simp only [Doc.hasNull, Bool.or_eq_false_iff] at he
    exact ih (noNull_setItem hd he.1) he.2

theorem noNull_dotsToDict (names : List String) {x : Leaf ⊕ Doc} (hx : itemNull x = false) :
    (dotsToDict names x).hasNull = false := by
  induction names with
  | nil => rfl
  | cons k names ih =>
    cases names with
    | nil => cases x <;> simpa [dotsToDict, Doc.hasNull, itemNull] using hx
    | cons k' names => simpa [dotsToDict, Doc.hasNull] using ih

/-- The values of the options are not null. -/
def OptionsGiven (parse : List Char → Except Err (Leaf ⊕ Doc)) (opts : List (List Char)) : Prop :=
  ∀ opt ∈ opts, ∀ name value, splitOn '=' opt = [name, value] → ∀ v, parse value = .ok v →
    itemNull v = false

theorem optionsGiven_typed {parse : List Char → Except Err (Leaf ⊕ Doc)} {os : List SetOption}
    {value : SetOption → Leaf} (hw : ∀ o ∈ os, o.WellFormed)
    (hp : ∀ o ∈ os, parse o.text = .ok (.inl (value o))) (hn : ∀ o ∈ os, ¬ NullIn (value o)) :
    OptionsGiven parse (os.map SetOption.typed) := by
  intro opt hopt name v hs w hv
  obtain ⟨o, ho, rfl⟩ := List.mem_map.mp hopt
  rw [splitOn_typed (hw o ho)] at hs
  cases hs
  rw [hp o ho] at hv
  cases hv
  show (value o).hasNull = false
  rw [Bool.eq_false_iff, ne_eq, hasNull_iff]
  exact hn o ho

theorem noNull_iff (d : Doc) : d.hasNull = false ↔ ¬ NullInDoc d := by
  rw [Bool.eq_false_iff, ne_eq, docHasNull_iff]

theorem noNull_loadParams {parse : List Char → Except Err (Leaf ⊕ Doc)} {opts : List (List Char)}
    (h : OptionsGiven parse opts) {params r : Doc} (hp : params.hasNull = false)
    (hr : loadParamsFromStrings parse params opts = .ok r) : r.hasNull = false := by
  induction opts generalizing params with
  | nil => cases hr; exact hp
  | cons opt opts ih =>
    rw [loadParamsFromStrings] at hr
    split at hr
    · rename_i name value hs
      split at hr
      · cases hr
      · rename_i v hv
        exact ih (fun o ho => h o (List.mem_cons_of_mem _ ho))
          (noNull_updateWith hp (noNull_dotsToDict _ (h opt (by simp) name value hs v hv))) hr
    · cases hr

theorem noNull_find {d : Doc} (h : d.hasNull = false) {k : String} {s : Doc}
    (hs : d.find? k = some (.inr s)) : s.hasNull = false := by
  induction d with
  | nil => cases hs
  | leaf a v r ih =>
    simp only [Doc.hasNull, Bool.or_eq_false_iff] at h
    rw [Doc.find?] at hs
    split_ifs at hs
    · simp at hs
    · exact ih h.2 hs
  | sub a t r _ ih =>
    simp only [Doc.hasNull, Bool.or_eq_false_iff] at h
    rw [Doc.find?] at hs
    split_ifs at hs
    · cases hs; exact h.1
    · exact ih h.2 hs

theorem noNull_findLeaf {d : Doc} (h : d.hasNull = false) {k : String} {v : Leaf}
    (hv : d.find? k = some (.inl v)) : v.hasNull = false := by
  induction d with
  | nil => cases hv
  | leaf a w r ih =>
    simp only [Doc.hasNull, Bool.or_eq_false_iff] at h
    rw [Doc.find?] at hv
    split_ifs at hv
    · cases hv; exact h.1
    · exact ih h.2 hv
  | sub a t r _ ih =>
    simp only [Doc.hasNull, Bool.or_eq_false_iff] at h
    rw [Doc.find?] at hv
    split_ifs at hv
    · cases hv
    · exact ih h.2 hv

theorem updateItem_noNull {v : Leaf} (h : v.hasNull = false) {p : String × Leaf}
    (hp : updateItem v = .ok p) : p.2.hasNull = false := by
  unfold updateItem at hp
  split at hp
  · split at hp
    · cases hp; rfl
    · cases hp
  · cases hp
    simpa [Leaf.hasNull, Leaf.anyNull] using h
  · cases hp
    simpa [Leaf.hasNull, Leaf.anyNull] using h
  all_goals cases hp

theorem updateItems_noNull {xs : List Leaf} (h : Leaf.anyNull xs = false)
    {ps : List (String × Leaf)} (hp : updateItems xs = .ok ps) : ∀ p ∈ ps, p.2.hasNull = false := by
  induction xs generalizing ps with
  | nil => cases hp; simp
  | cons x xs ih =>
    simp only [Leaf.anyNull, Bool.or_eq_false_iff] at h
    rw [updateItems] at hp
    split at hp
    · cases hp
    rename_i p h1
    split at hp
    · cases hp
    rename_i qs h2
    cases hp
    intro q hq
    rcases List.mem_cons.mp hq with rfl | hq
    · exact updateItem_noNull h.1 h1
    · exact ih h.2 h2 q hq

theorem updateLeaf_noNull {v : Leaf} (h : v.hasNull = false) {ps : List (String × Leaf)}
    (hp : updateLeaf v = .ok ps) : ∀ p ∈ ps, p.2.hasNull = false := by
  cases v with
  | list xs => exact updateItems_noNull (by simpa [Leaf.hasNull] using h) hp
  | tup xs => exact updateItems_noNull (by simpa [Leaf.hasNull] using h) hp
  | str s =>
    simp only [updateLeaf] at hp
    split_ifs at hp
    cases hp
    simp
  | num q => cases hp
  | none => cases hp

theorem mem_set_pyDict {d : PyDict String Leaf} {k : String} {v : Leaf} {p : String × Leaf}
    (hp : p ∈ d.set k v) : p ∈ d ∨ p.2 = v := by
  induction d with
  | nil =>
    simp only [PyDict.set, List.mem_singleton] at hp
    exact .inr (by rw [hp])
  | cons q d ih =>
    obtain ⟨k', v'⟩ := q
    rw [PyDict.set] at hp
    split_ifs at hp
    · rcases List.mem_cons.mp hp with rfl | hp
      · exact .inr rfl
      · exact .inl (List.mem_cons_of_mem _ hp)
    · rcases List.mem_cons.mp hp with rfl | hp
      · exact .inl (List.mem_cons_self ..)
      · rcases ih hp with h | h
        · exact .inl (List.mem_cons_of_mem _ h)
        · exact .inr h

theorem noNull_ofPairs {ps : List (String × Leaf)} (h : ∀ p ∈ ps, p.2.hasNull = false) :
    (Doc.ofItems (PyDict.ofPairs ps)).hasNull = false := by
  have h1 : ∀ (ps : List (String × Leaf)) (d : PyDict String Leaf),
      (∀ p ∈ ps, p.2.hasNull = false) → (∀ p ∈ d, p.2.hasNull = false) →
      ∀ p ∈ PyDict.update d ps, p.2.hasNull = false := by
    intro ps
    induction ps with
    | nil => intro d _ hd; exact hd
    | cons q ps ih =>
      intro d hps hd
      refine ih (d.set q.1 q.2) (fun p hp => hps p (List.mem_cons_of_mem _ hp)) ?_
      intro p hp
      rcases mem_set_pyDict hp with hp | hp
      · exact hd p hp
      · rw [hp]; exact hps q (List.mem_cons_self ..)
  have h2 : ∀ d : PyDict String Leaf, (∀ p ∈ d, p.2.hasNull = false) →
      (Doc.ofItems d).hasNull = false := by
    intro d
    induction d with
    | nil => intro _; rfl
    | cons q d ih =>
      intro hd
      simp only [Doc.ofItems, Doc.hasNull, Bool.or_eq_false_iff]
      exact ⟨hd q (List.mem_cons_self ..), ih fun p hp => hd p (List.mem_cons_of_mem _ hp)⟩
  exact h2 _ (h1 ps [] h (by simp))

theorem noNull_updateGroups {cl d r : Doc} (hc : cl.hasNull = false) (hd : d.hasNull = false)
    (hr : updateGroups cl d = .ok r) : r.hasNull = false := by
  induction d generalizing r with
  | nil => cases hr; rfl
  | leaf => cases hr
  | sub g s t _ ih =>
    simp only [Doc.hasNull, Bool.or_eq_false_iff] at hd
    rw [updateGroups] at hr
    cases h1 : updateGroup s (cl.find? g) with
    | error e => rw [h1] at hr; cases hr
    | ok s' =>
      rw [h1] at hr
      dsimp only at hr
      cases h2 : updateGroups cl t with
      | error e => rw [h2] at hr; cases hr
      | ok t' =>
        rw [h2] at hr
        cases hr
        simp only [Doc.hasNull, Bool.or_eq_false_iff]
        refine ⟨?_, ih hd.2 h2⟩
        unfold updateGroup at h1
        split at h1
        · cases h1; exact hd.1
        · rename_i d' hf
          cases h1
          exact noNull_updateWith hd.1 (noNull_find hc hf)
        · rename_i v hf
          split at h1
          · cases h1
          rename_i ps hl
          cases h1
          exact noNull_updateWith hd.1
            (noNull_ofPairs (updateLeaf_noNull (noNull_findLeaf hc hf) hl))

theorem noNull_loadModelParams {parse : List Char → Except Err (Leaf ⊕ Doc)} {opts : List (List Char)}
    (h : OptionsGiven parse opts) {defaults r : Doc} (hd : defaults.hasNull = false)
    (hr : loadModelParams parse defaults opts = .ok r) : r.hasNull = false := by
  unfold loadModelParams at hr
  cases hc : loadParamsFromStrings parse .nil opts with
  | error e => rw [hc] at hr; cases hr
  | ok cl =>
    rw [hc] at hr
    exact noNull_updateGroups (noNull_loadParams h rfl hc) hd hr

end Verif
