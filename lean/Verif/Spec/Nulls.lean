import Verif.Model.Config

/-!
# Null in a configuration
-/

set_option autoImplicit false

namespace Verif.Spec

open Verif

/-- A value that is null or a list with a null in it. -/
inductive NullIn : Leaf → Prop
  | here : NullIn .none
  | list {x : Leaf} {xs : List Leaf} : x ∈ xs → NullIn x → NullIn (.list xs)
  | tup {x : Leaf} {xs : List Leaf} : x ∈ xs → NullIn x → NullIn (.tup xs)

/-- A dictionary with a null somewhere. -/
inductive NullInDoc : Doc → Prop
  | value {k : String} {v : Leaf} {r : Doc} : NullIn v → NullInDoc (.leaf k v r)
  | afterValue {k : String} {v : Leaf} {r : Doc} : NullInDoc r → NullInDoc (.leaf k v r)
  | inner {k : String} {s r : Doc} : NullInDoc s → NullInDoc (.sub k s r)
  | afterInner {k : String} {s r : Doc} : NullInDoc r → NullInDoc (.sub k s r)

end Verif.Spec
