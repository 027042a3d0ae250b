import Verif.Lemmas.Prelude
import Verif.Lemmas.Cli
import Verif.Lemmas.ConfigFile
import Verif.Spec.PlotCommand
import Verif.Props.Config

/-! # Lemmas on the options of `sequence plot` -/

set_option autoImplicit false

namespace Verif

open Spec

namespace Doc

theorem find?_prune {d : Doc} (h : DistinctKeys d) (k : String) :
    (prune d).find? k = match d.find? k with
      | none => none
      | some (.inl v) => some (.inl v)
      | some (.inr s) => if prune s = .nil then none else some (.inr (prune s)) := by
  induction d with
  | nil => rfl
  | leaf a v r ih =>
    simp only [prune, find?]
    by_cases ha : a = k
    · simp only [if_pos ha]
    · simp only [if_neg ha]
      exact ih h.2
  | sub a s r _ ih =>
    simp only [prune, find?]
    by_cases ha : a = k
    · subst ha
      have hr : (prune r).find? a = none := by
        rw [find?_eq_none_iff]
        exact fun hm => h.1 (prune_keys r a hm)
      simp only [if_true]
      cases hp : prune s <;> simp [hr, find?]
    · simp only [if_neg ha]
      rw [← ih h.2.2]
      cases hp : prune s <;> simp [find?, ha]

theorem prune_onlyValues {d : Doc} (h : OnlyValues d) : prune d = d := by
  induction d with
  | nil => rfl
  | leaf a v r ih => simp only [prune, ih h]
  | sub => exact h.elim

theorem onlyValues_find? {d : Doc} (h : OnlyValues d) (k : String) :
    d.find? k = (valueAt d [k]).map Sum.inl := by
  induction d with
  | nil => rw [valueAt_single]; rfl
  | leaf a v r ih =>
    rw [valueAt_single]
    simp only [find?]
    by_cases ha : a = k
    · simp only [if_pos ha, Option.map_some]
    · simp only [if_neg ha]
      rw [ih h, valueAt_single]
      cases r.find? k with
      | none => rfl
      | some x => cases x <;> rfl
  | sub => exact h.elim

end Doc

/-- The options of the form `key=value`. -/
theorem load_keywords {parse : List Char → Except Err (Leaf ⊕ Doc)} {key : SetOption → String}
    {value : SetOption → Leaf} {os : List SetOption} (hw : ∀ o ∈ os, o.Keyword (key o))
    (hp : ∀ o ∈ os, parse o.text = .ok (.inl (value o))) (params : Doc) (hd : DistinctKeys params) :
    ∃ r, loadParamsFromStrings parse params (os.map SetOption.typed) = .ok r ∧ DistinctKeys r ∧
      ∀ k, r.find? k = (((os.map fun o => (key o, value o)).reverse.find? fun o => o.1 = k).map
        fun o => (.inl o.2 : Leaf ⊕ Doc)).or (params.find? k) := by
  induction os generalizing params with
  | nil => exact ⟨params, rfl, hd, fun k => by simp⟩
  | cons o os ih =>
    obtain ⟨hpath, h1, h2, h3⟩ := hw o (by simp)
    have hdist := distinct_dotsToDict [key o] (value o)
    obtain ⟨r, e1, e2, e3⟩ := ih (fun x hx => hw x (by simp [hx])) (fun x hx => hp x (by simp [hx]))
      (params.updateWith (dotsToDict [key o] (.inl (value o)))) (Doc.distinct_updateWith hd hdist)
    refine ⟨r, ?_, e2, ?_⟩
    · have ht : o.typed = (key o).toList ++ '=' :: o.text := by
        simp [SetOption.typed, hpath, List.intercalate]
      simp only [List.map_cons, loadParamsFromStrings, ht, splitOn_append h2, splitOn_of_notMem h3,
        hp o (by simp), splitOn_of_notMem h1, List.map_nil, String.ofList_toList]
      exact e1
    · intro k
      rw [e3, Doc.find?_updateWith _ _ hdist, List.map_cons, List.reverse_cons, List.find?_append]
      cases (os.map fun o => (key o, value o)).reverse.find? fun o => decide (o.1 = k) with
      | some x => simp
      | none =>
        by_cases hk : key o = k <;> simp [dotsToDict, Doc.find?, hk]

/-- The first document of a configuration file as `as_dict` shows it. -/
theorem asDict_first {d0 : Doc} {ds : List Doc} {c : Cfg} (h : Cfg.fromFile (d0 :: ds) = .ok c)
    (hd : DistinctKeys d0) (ht : NoTuples d0) :
    c.asDict = .ok (prune (d0.erase "_time")) := by
  unfold Cfg.fromFile at h
  cases hl : Cfg.load 0 (d0 :: ds) with
  | error e => rw [hl] at h; cases h
  | ok tds =>
    have htds := Props.load_ok hl
    rw [List.zipIdx_cons, List.map_cons] at htds
    rw [hl, htds] at h
    dsimp only at h
    obtain ⟨-, -, -, d, ds', he, hcur⟩ := Cfg.init_ok h
    simp only [List.map_cons, List.cons.injEq] at he
    have hd' := Doc.distinct_erase hd "_time"
    have ht' : NoTuples (d0.erase "_time") := by
      clear * - ht
      induction d0 with
      | nil => trivial
      | leaf a v r ih =>
        simp only [Doc.erase]
        split_ifs
        · exact ht.2
        · exact ⟨ht.1, ih ht.2⟩
      | sub a s r _ ih =>
        simp only [Doc.erase]
        split_ifs
        · exact ht.2
        · exact ⟨ht.1, ih ht.2⟩
    unfold Cfg.asDict Doc.expand
    rw [hcur, ← he.1, stored, Doc.flatten_eq hd']
    exact Doc.addItems_walk (d0.erase "_time") .nil hd' ht' (by simp [Doc.keys])

end Verif
