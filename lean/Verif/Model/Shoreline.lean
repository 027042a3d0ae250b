import Verif.Model.Search
import Verif.Model.Interp
import Verif.Model.Driver

/-!
# Shoreline and shelf edge

`/repo/sequence/shoreline.py`, one row at a time (the loops over rows are at the end).
-/

set_option autoImplicit false

namespace Verif

variable {K σ : Type*} {R C : ℕ} [Field K] [LinearOrder K]

/-- The body of the loop of `find_shoreline_index` (`/repo/sequence/shoreline.py:413-424`) for one
row; `nx` is `len(x)`. -/
def shorelineIndexRow (nx : ℕ) (z : List K) (seaLevel : K) : Except Err ℕ :=
  let below := (List.range z.length).filter fun i => (z[i]?.map fun v => decide (v < seaLevel)).getD false
  if below.length = 0 ∨ below.length = nx then .error .shorelineError
  else match below with
    | i :: _ => .ok i
    | [] => .error .indexError

/-- `find_shoreline_index` (`/repo/sequence/shoreline.py:355-429`) for an array of rows: the first
row without a shoreline ends it. -/
def shorelineIndex (nx : ℕ) (rows : List (List K)) (seaLevel : K) : Except Err (List ℕ) :=
  match rows with
  | [] => .ok []
  | z :: zs =>
    match shorelineIndexRow nx z seaLevel with
    | .error e => .error e
    | .ok i =>
      match shorelineIndex nx zs seaLevel with
      | .error e => .error e
      | .ok is => .ok (i :: is)

/-- What C's `signbit` says of a number that is not `-0.0`. -/
def signbit (v : K) : Bool := decide (v < 0)

/-- The loop of scipy's `bisect` (external, `scipy/optimize/Zeros/bisect.c`): `n` iterations left,
`a` one end of the bracket, `dm` its (signed) length. -/
def scipyBisectLoop (f : Curve K) (xtol rtol fa : K) : ℕ → K → K → Except Err K
  | 0, _, _ => .error .runtimeError
  | n + 1, a, dm =>
    let half := dm / 2
    let m := a + half
    match f m with
    | .error e => .error e
    | .ok fm =>
      let a' := if signbit fm = signbit fa then m else a
      if fm = 0 ∨ |half| < xtol + rtol * |m| then .ok m
      else scipyBisectLoop f xtol rtol fa n a' half

/-- scipy's `bisect(f, a, b)` (external). The defaults are `xtol = 2e-12`,
`rtol = 8.881784197001252e-16` and 100 iterations. -/
def scipyBisect (f : Curve K) (xtol rtol : K) (a b : K) : Except Err K :=
  match f a with
  | .error e => .error e
  | .ok fa =>
    match f b with
    | .error e => .error e
    | .ok fb =>
      if fa = 0 then .ok a
      else if fb = 0 then .ok b
      else if signbit fa = signbit fb then .error .valueError
      else scipyBisectLoop f xtol rtol fa 100 a (b - a)

/-- A kind of interpolation: what `interp1d(x, y, kind=...)` makes of a table (external). -/
abbrev InterpKind (K : Type*) := List (K × K) → Except Err (Curve K)

/-- `kind="linear"`. -/
def linearKind : InterpKind K := fun t => .ok (interpTable t)

/-- `a[i - 1]` in Python: for `i = 0` the last element. -/
def pyPrev {α : Type*} (a : List α) (i : ℕ) : Option α := if i = 0 then a.getLast? else a[i - 1]?

/-- The body of the loop of `find_shoreline` (`/repo/sequence/shoreline.py:292-302`) for one row.
`kind` and the tolerances are parameters. -/
def shorelineRow (kind : InterpKind K) (xtol rtol : K) (x z : List K) (seaLevel : K) :
    Except Err K :=
  match shorelineIndexRow x.length z seaLevel with
  | .error .shorelineError =>
    match z.head? with
    | none => .error .indexError
    | some z0 =>
      match (if z0 < seaLevel then x.head? else x.getLast?) with
      | none => .error .indexError
      | some v => .ok v
  | .error e => .error e
  | .ok i =>
    match kind (x.zip (z.map fun v => v - seaLevel)) with
    | .error e => .error e
    | .ok func =>
      match pyPrev x i, x[i]? with
      | some a, some b => scipyBisect func xtol rtol a b
      | _, _ => .error .indexError

/-- `np.argmax` (external): the first position of the largest element; `ValueError` on an empty
array. -/
def argmax : List K → Except Err ℕ
  | [] => .error .valueError
  | v :: vs => .ok (go v 0 1 vs)
where
  /-- best value, its position, position of the next element -/
  go (best : K) (ibest i : ℕ) : List K → ℕ
    | [] => ibest
    | v :: vs => if best < v then go v i (i + 1) vs else go best ibest (i + 1) vs

/-- `find_shelf_edge` (`/repo/sequence/shoreline.py:182-228`). -/
def shelfEdge (x dz : List K) (xOfShore alpha : K) : Except Err K :=
  if alpha = 0 then .error .zeroDivision
  else
    haveI : Inhabited K := ⟨0⟩
    let ind := bisectRight x (xOfShore + 3 / alpha)
    if dz.length ≤ ind then .error .shelfEdgeError
    else
      match argmax (dz.drop ind) with
      | .error e => .error e
      | .ok k =>
        match x[k + ind]? with
        | some v => .ok v
        | none => .error .indexError

/-- One row of `ShorelineFinder.update` (`/repo/sequence/shoreline.py:118-129`) and, without the
assertion, of the constructor (88-97). `none` is NaN. -/
def shorelineFinderRow (kind : InterpKind K) (xtol rtol alpha : K) (asserting : Bool)
    (x z dz : List K) (seaLevel : K) : Except Err (K × Option K) :=
  match shorelineRow kind xtol rtol x z seaLevel with
  | .error e => .error e
  | .ok shore =>
    match shelfEdge x dz shore alpha with
    | .error .shelfEdgeError => .ok (shore, none)
    | .error e => .error e
    | .ok edge =>
      if asserting && !decide (shore < edge) then .error .assertion
      else .ok (shore, some edge)

/-- A row of a field as a list. -/
def rowList (f : NodeField R C K) (r : Fin R) : List K := List.ofFn fun c => getProfile f r c

/-- The loop over the rows: the first row that raises ends it. -/
def overRows {α : Type*} {n : ℕ} (g : Fin n → Except Err α) : Except Err (Fin n → α) :=
  match n, g with
  | 0, _ => .ok fun i => i.elim0
  | _ + 1, g =>
    match g 0 with
    | .error e => .error e
    | .ok a =>
      match overRows (fun i => g i.succ) with
      | .error e => .error e
      | .ok as => .ok (Fin.cons a as)

/-- `ShorelineFinder.update` (`/repo/sequence/shoreline.py:107-132`) and, with `asserting = false`,
what the constructor computes (79-100). The fields are written only when all rows have been found.
Row fields that do not exist raise `KeyError`. -/
def shorelineUpdate (kind : InterpKind K) (xtol rtol alpha : K) (asserting : Bool)
    (x : Fin C → K) (w : World R C K) : Except Err (World R C K) :=
  match overRows (fun r => shorelineFinderRow kind xtol rtol alpha asserting (List.ofFn x)
      (rowList w.topo r) (rowList w.deposit r) w.seaLevel) with
  | .error e => .error e
  | .ok res =>
    match w.rowShore, w.rowShelf with
    | some _, some _ =>
      .ok { w with rowShore := some fun r => some (res r).1, rowShelf := some fun r => (res r).2 }
    | none, _ => .error (.keyError "x_of_shore")
    | some _, none => .error (.keyError "x_of_shelf_edge")

/-- `ShorelineFinder.__init__` (`/repo/sequence/shoreline.py:73-100`). -/
def shorelineInit (kind : InterpKind K) (xtol rtol alpha : K) (x : Fin C → K) (w : World R C K) :
    Except Err (World R C K) :=
  shorelineUpdate kind xtol rtol alpha false x
    { w with rowShore := some fun _ => some 0, rowShelf := some fun _ => some 0 }

/-- The shoreline component as a component of a driver
(`run_one_step`, `/repo/sequence/shoreline.py:134-144`). -/
def shorelineComponent (kind : InterpKind K) (xtol rtol alpha : K) (x : Fin C → K) :
    Component σ R C K := fun _ p =>
  match shorelineUpdate kind xtol rtol alpha true x p.2 with
  | .error e => .error e
  | .ok w => .ok (p.1, w)

end Verif
