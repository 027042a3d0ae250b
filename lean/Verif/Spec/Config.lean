import Verif.Model.Config
import Mathlib.Algebra.Order.Ring.Rat

/-!
# What a time-varying configuration should be

Sections are pairs of a time and a nested dictionary. Everything here looks into the nested
dictionaries directly, without flattening them.
-/

set_option autoImplicit false

namespace Verif.Spec

/-- The value stored in a nested dictionary under a path of keys. -/
def valueAt : Doc → List String → Option Leaf
  | _, [] => none
  | d, [k] =>
    match d.find? k with
    | some (.inl v) => some v
    | _ => none
  | d, k :: p =>
    match d.find? k with
    | some (.inr s) => valueAt s p
    | _ => none

/-- The keys of a dictionary are distinct, at every level. -/
def DistinctKeys : Doc → Prop
  | .nil => True
  | .leaf k _ r => k ∉ r.keys ∧ DistinctKeys r
  | .sub k d r => k ∉ r.keys ∧ DistinctKeys d ∧ DistinctKeys r

/-- No dictionary inside is empty. -/
def NoEmptySub : Doc → Prop
  | .nil => True
  | .leaf _ _ r => NoEmptySub r
  | .sub _ d r => d ≠ .nil ∧ NoEmptySub d ∧ NoEmptySub r

/-- No value is a tuple (yaml and toml have none). -/
def NoTuples : Doc → Prop
  | .nil => True
  | .leaf _ v r => (∀ xs, v ≠ .tup xs) ∧ NoTuples r
  | .sub _ d r => NoTuples d ∧ NoTuples r

/-- Drop the dictionaries that hold no value. -/
def prune : Doc → Doc
  | .nil => .nil
  | .leaf k v r => .leaf k v (prune r)
  | .sub k d r =>
    match prune d with
    | .nil => prune r
    | d' => .sub k d' (prune r)

/-- The value of a parameter at time `t`: from the last section in force that sets it. -/
def configAt (sections : List (Rat × Doc)) (t : Rat) (path : List String) : Option Leaf :=
  (sections.filter fun s => s.1 ≤ t).reverse.findSome? fun s => valueAt s.2 path

/-- A parameter of one section is never a group of parameters in another. -/
def Consistent (docs : List Doc) : Prop :=
  ∀ d ∈ docs, ∀ d' ∈ docs, ∀ p q, valueAt d p ≠ none → valueAt d' q ≠ none → p <+: q → p = q

/-- A value is a list, or a tuple in which there is a list. -/
inductive HoldsList : Leaf → Prop
  | here {xs : List Leaf} : HoldsList (.list xs)
  | tup {xs : List Leaf} {x : Leaf} : x ∈ xs → HoldsList x → HoldsList (.tup xs)

/-- No list is inside another list, so that every value can be put in a set after its outermost
list became a tuple. -/
def Hashable (docs : List Doc) : Prop :=
  ∀ d ∈ docs, ∀ p v, valueAt d p = some v → ¬ HoldsList v.freeze

/-- Overlaying dictionaries in order: the last one that sets the path, else `base`. -/
def overlaid (base : Option Leaf) (docs : List Doc) (path : List String) : Option Leaf :=
  (docs.reverse.findSome? fun d => valueAt d path).or base

end Verif.Spec

namespace Verif.Spec

/-- The sections of configuration files, each file with its time: a section is in force from its
own `_time`, or else from the time of its file. -/
def sectionsOf (files : List (Rat × List Doc)) : List (Rat × Doc) :=
  files.flatMap fun f => f.2.map fun d =>
    match valueAt d ["_time"] with
    | some (.num t) => (t, d)
    | _ => (f.1, d)

/-- The time of a section: its own `_time`, or else `default`. -/
def sectionTime (default : Rat) (d : Doc) : Rat :=
  match valueAt d ["_time"] with
  | some (.num t) => t
  | _ => default

/-- The sections of one file: each in force from its own `_time`, or else from the number of
sections before it. -/
def fileSections (docs : List Doc) : List (Rat × Doc) :=
  docs.zipIdx.map fun p => (sectionTime p.2 p.1, p.1)

end Verif.Spec
