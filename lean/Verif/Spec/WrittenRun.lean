import Verif.Model.WrittenRun
import Verif.Spec.Unfinished

/-! # What a failed attempt to write may do to a file -/

set_option autoImplicit false

namespace Verif.Spec

open Verif

variable {K A : Type*}

/-- What is left of a file by an attempt to append a record to it that failed: nothing has
happened; or the records are as they were and there is one more time; or there was no file and now
there is one, with no record or with one. -/
def AfterAttempt (old new : Entry K A) : Prop :=
  new = old ∨
  (∃ d d' t, old = .dataset d ∧ new = .dataset d' ∧ KeepsRecords d d' ∧
    d'.times = d.times ++ [t]) ∨
  ((old = .absent ∨ old = .danglingLink) ∧ ∃ d', new = .dataset d' ∧ d'.times.length ≤ 1)

end Verif.Spec
