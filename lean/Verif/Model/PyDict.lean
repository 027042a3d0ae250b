import Mathlib.Tactic.TypeStar

/-!
# Python dictionaries

A python `dict` is the list of its items in insertion order, with distinct keys.
-/

set_option autoImplicit false

namespace Verif

/-- A python `dict` (insertion ordered). -/
abbrev PyDict (κ ν : Type*) := List (κ × ν)

namespace PyDict

variable {κ ν : Type*} [DecidableEq κ]

/-- `d.get(k)`. -/
def get? : PyDict κ ν → κ → Option ν
  | [], _ => none
  | (k', v) :: d, k => if k' = k then some v else get? d k

/-- `d[k] = v`: replaces the value in place or appends a new item. -/
def set : PyDict κ ν → κ → ν → PyDict κ ν
  | [], k, v => [(k, v)]
  | (k', v') :: d, k, v => if k' = k then (k', v) :: d else (k', v') :: set d k v

/-- `d.update(e)`. -/
def update (d e : PyDict κ ν) : PyDict κ ν := e.foldl (fun d p => d.set p.1 p.2) d

/-- `dict(pairs)`. -/
def ofPairs (ps : List (κ × ν)) : PyDict κ ν := update [] ps

/-- The keys, in order. -/
def keys (d : PyDict κ ν) : List κ := d.map (·.1)

end PyDict

end Verif
