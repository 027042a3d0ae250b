import Mathlib.Data.Rat.Defs
import Verif.Model.Err
import Verif.Model.PyDict
import Verif.Model.Search

/-!
# Time-varying configurations (`/repo/sequence/input_reader.py`)

Documents are what the yaml/toml parsers return: dictionaries with string keys. Reading and
writing text is not modelled.
-/

set_option autoImplicit false

namespace Verif

/-- A parameter value that is not a dictionary, up to python `==` (so numbers and booleans are
rational numbers). Lists that contain dictionaries are not modelled. -/
inductive Leaf where
  | none
  | num (q : Rat)
  | str (s : String)
  | list (xs : List Leaf)
  | tup (xs : List Leaf)
  deriving Repr

mutual
/-- Equality of values is decidable. -/
def Leaf.decEq : (a b : Leaf) → Decidable (a = b)
  | .none, .none => isTrue rfl
  | .num p, .num q => if h : p = q then isTrue (h ▸ rfl) else isFalse (fun e => h (by cases e; rfl))
  | .str p, .str q => if h : p = q then isTrue (h ▸ rfl) else isFalse (fun e => h (by cases e; rfl))
  | .list xs, .list ys =>
    match Leaf.decEqList xs ys with
    | isTrue h => isTrue (h ▸ rfl)
    | isFalse h => isFalse (fun e => h (by cases e; rfl))
  | .tup xs, .tup ys =>
    match Leaf.decEqList xs ys with
    | isTrue h => isTrue (h ▸ rfl)
    | isFalse h => isFalse (fun e => h (by cases e; rfl))
  | .none, .num _ => isFalse (fun e => by cases e)
  | .none, .str _ => isFalse (fun e => by cases e)
  | .none, .list _ => isFalse (fun e => by cases e)
  | .none, .tup _ => isFalse (fun e => by cases e)
  | .num _, .none => isFalse (fun e => by cases e)
  | .num _, .str _ => isFalse (fun e => by cases e)
  | .num _, .list _ => isFalse (fun e => by cases e)
  | .num _, .tup _ => isFalse (fun e => by cases e)
  | .str _, .none => isFalse (fun e => by cases e)
  | .str _, .num _ => isFalse (fun e => by cases e)
  | .str _, .list _ => isFalse (fun e => by cases e)
  | .str _, .tup _ => isFalse (fun e => by cases e)
  | .list _, .none => isFalse (fun e => by cases e)
  | .list _, .num _ => isFalse (fun e => by cases e)
  | .list _, .str _ => isFalse (fun e => by cases e)
  | .list _, .tup _ => isFalse (fun e => by cases e)
  | .tup _, .none => isFalse (fun e => by cases e)
  | .tup _, .num _ => isFalse (fun e => by cases e)
  | .tup _, .str _ => isFalse (fun e => by cases e)
  | .tup _, .list _ => isFalse (fun e => by cases e)

/-- Equality of lists of values is decidable. -/
def Leaf.decEqList : (a b : List Leaf) → Decidable (a = b)
  | [], [] => isTrue rfl
  | [], _ :: _ => isFalse (fun e => by cases e)
  | _ :: _, [] => isFalse (fun e => by cases e)
  | x :: xs, y :: ys =>
    match Leaf.decEq x y with
    | isTrue h =>
      match Leaf.decEqList xs ys with
      | isTrue h' => isTrue (h ▸ h' ▸ rfl)
      | isFalse h' => isFalse (fun e => h' (by cases e; rfl))
    | isFalse h => isFalse (fun e => h (by cases e; rfl))
end

instance : DecidableEq Leaf := Leaf.decEq

mutual
/-- Python hashability: lists are not hashable, a tuple is if its elements are. -/
def Leaf.hashable : Leaf → Bool
  | .none => true
  | .num _ => true
  | .str _ => true
  | .list _ => false
  | .tup xs => Leaf.hashableAll xs

/-- All elements are hashable. -/
def Leaf.hashableAll : List Leaf → Bool
  | [] => true
  | x :: xs => x.hashable && Leaf.hashableAll xs
end

/-- `if isinstance(value, list): d[key] = tuple(value)`
(`/repo/sequence/input_reader.py:89-90`). -/
def Leaf.freeze : Leaf → Leaf
  | .list xs => .tup xs
  | v => v

/-- `if isinstance(value, tuple): value = list(value)`
(`/repo/sequence/input_reader.py:408-409`). -/
def Leaf.thaw : Leaf → Leaf
  | .tup xs => .list xs
  | v => v

/-- A dictionary with string keys as the list of its items: each item is a value or a
dictionary. -/
inductive Doc where
  | nil
  | leaf (k : String) (v : Leaf) (rest : Doc)
  | sub (k : String) (d : Doc) (rest : Doc)
  deriving DecidableEq, Repr

mutual
  /-- `None` in a value, at any depth. -/
  def Leaf.hasNull : Leaf → Bool
    | .none => true
    | .list xs => Leaf.anyNull xs
    | .tup xs => Leaf.anyNull xs
    | _ => false

  @[inherit_doc Leaf.hasNull]
  def Leaf.anyNull : List Leaf → Bool
    | [] => false
    | v :: vs => v.hasNull || Leaf.anyNull vs
end

@[inherit_doc Leaf.hasNull]
def Doc.hasNull : Doc → Bool
  | .nil => false
  | .leaf _ v r => v.hasNull || r.hasNull
  | .sub _ d r => d.hasNull || r.hasNull

/-- A flattened dictionary: keys are the paths. -/
abbrev Flat := PyDict (List String) Leaf

namespace Doc

/-- The keys of the dictionary itself. -/
def keys : Doc → List String
  | nil => []
  | leaf k _ r => k :: r.keys
  | sub k _ r => k :: r.keys

/-- `_walk_dict` (`/repo/sequence/input_reader.py:420-460`). -/
def walk (prev : List String) : Doc → List (List String × Leaf)
  | nil => []
  | leaf k v r => (prev ++ [k], v) :: r.walk prev
  | sub k d r => d.walk (prev ++ [k]) ++ r.walk prev

/-- `_flatten_dict` without separator (`/repo/sequence/input_reader.py:365-396`). -/
def flatten (d : Doc) : Flat := PyDict.ofPairs (d.walk [])

/-- `level[name] = value` (`/repo/sequence/input_reader.py:410`). -/
def setLeaf (k : String) (v : Leaf) : Doc → Doc
  | nil => leaf k v nil
  | leaf k' v' r => if k' = k then leaf k' v r else leaf k' v' (r.setLeaf k v)
  | sub k' d r => if k' = k then leaf k' v r else sub k' d (r.setLeaf k v)

/-- Go down one level: `if k not in level: level[k] = {}; level = level[k]`
(`/repo/sequence/input_reader.py:404-407`), then do `f` there. If `level[k]` is not a dictionary
every way of going on raises `TypeError`. -/
def inSub (k : String) (f : Doc → Except Err Doc) : Doc → Except Err Doc
  | nil =>
    match f nil with
    | .ok d => .ok (sub k d nil)
    | .error e => .error e
  | leaf k' v r =>
    if k' = k then .error .typeError
    else match r.inSub k f with
      | .ok r' => .ok (leaf k' v r')
      | .error e => .error e
  | sub k' d r =>
    if k' = k then
      match f d with
      | .ok d' => .ok (sub k' d' r)
      | .error e => .error e
    else match r.inSub k f with
      | .ok r' => .ok (sub k' d r')
      | .error e => .error e

/-- `_add_flattened_item` (`/repo/sequence/input_reader.py:399-410`). -/
def addItem : List String → Leaf → Doc → Except Err Doc
  | [], _, _ => .error .indexError
  | [name], v, d => .ok (d.setLeaf name v.thaw)
  | k :: n :: ns, v, d => d.inSub k (addItem (n :: ns) v)

/-- `_expand_dict` (`/repo/sequence/input_reader.py:413-417`), starting from `d`. -/
def addItems : Flat → Doc → Except Err Doc
  | [], d => .ok d
  | (p, v) :: rest, d =>
    match addItem p v d with
    | .ok d' => addItems rest d'
    | .error e => .error e

/-- `_expand_dict` (`/repo/sequence/input_reader.py:413-417`). -/
def expand (flat : Flat) : Except Err Doc := addItems flat nil

/-- What is stored under a key. -/
def find? (k : String) : Doc → Option (Leaf ⊕ Doc)
  | nil => none
  | leaf k' v r => if k' = k then some (.inl v) else r.find? k
  | sub k' d r => if k' = k then some (.inr d) else r.find? k

/-- `del d[k]`, if there. -/
def erase (k : String) : Doc → Doc
  | nil => nil
  | leaf k' v r => if k' = k then r else leaf k' v (r.erase k)
  | sub k' d r => if k' = k then r else sub k' d (r.erase k)

end Doc

/-- `TimeVaryingConfig` (`/repo/sequence/input_reader.py:59-92`). -/
structure Cfg where
  times : List Rat
  dicts : List Flat
  time : Rat
  current : Flat
  deriving DecidableEq, Repr

/-- Lists become tuples (`/repo/sequence/input_reader.py:87-90`). -/
def freezeFlat (f : Flat) : Flat := f.map fun p => (p.1, p.2.freeze)

namespace Cfg

/-- `TimeVaryingConfig.__init__` (`/repo/sequence/input_reader.py:62-92`). -/
def init (times : List Rat) (docs : List Doc) : Except Err Cfg :=
  match docs.map (fun d => freezeFlat d.flatten) with
  | [] => .error .indexError
  | d0 :: ds => .ok ⟨times, d0 :: ds, 0, d0⟩

/-- `_bisect_times` (`/repo/sequence/input_reader.py:120-121`). -/
def bisectTimes (c : Cfg) (t : Rat) : Nat := bisectRight c.times t

/-- `__call__` (`/repo/sequence/input_reader.py:102-118`). -/
def call (c : Cfg) (t : Rat) : Flat :=
  (c.dicts.take (c.bisectTimes t)).foldl PyDict.update []

/-- `as_dict` (`/repo/sequence/input_reader.py:98-100`). -/
def asDict (c : Cfg) : Except Err Doc := Doc.expand c.current

/-- `diff` (`/repo/sequence/input_reader.py:123-142`). Building the two sets hashes every item.
The order of the result is that of a python set; here it is that of the later configuration
(`Verif.Model.SetOrder` has any order). -/
def diff (c : Cfg) (start stop : Rat) : Except Err Flat :=
  let a := c.call start
  let b := c.call stop
  if a.all (fun p => p.2.hashable) && b.all (fun p => p.2.hashable) then
    .ok (b.filter fun p => !(a.contains p))
  else .error .typeError

/-- `update` (`/repo/sequence/input_reader.py:144-170`). -/
def update (c : Cfg) (inc : Rat) : Except Err (Doc × Cfg) :=
  let next := c.time + inc
  if c.bisectTimes c.time < c.bisectTimes next then
    match c.diff c.time next with
    | .error e => .error e
    | .ok f =>
      match Doc.expand f with
      | .error e => .error e
      | .ok d => .ok (d, { c with current := c.call next, time := next })
  else .ok (.nil, { c with time := next })

/-- A history of `update` calls: what they return and the configuration after them. -/
def updates (c : Cfg) : List Rat → Except Err (List Doc × Cfg)
  | [] => .ok ([], c)
  | inc :: incs =>
    match c.update inc with
    | .error e => .error e
    | .ok (d, c1) =>
      match c1.updates incs with
      | .error e => .error e
      | .ok (ds, c2) => .ok (d :: ds, c2)

/-- The documents after the first in `dump`: the differences between consecutive times
(`/repo/sequence/input_reader.py:185-187`). -/
def dumpDiffs (c : Cfg) : List Rat → Except Err (List Doc)
  | t0 :: t1 :: ts =>
    match c.diff t0 t1 with
    | .error e => .error e
    | .ok f =>
      match Doc.expand f with
      | .error e => .error e
      | .ok d =>
        match dumpDiffs c (t1 :: ts) with
        | .error e => .error e
        | .ok ds => .ok (d :: ds)
  | _ => .ok []

/-- `for time, doc in zip(self._times, docs): doc["_time"] = time`
(`/repo/sequence/input_reader.py:188-189`). -/
def stamp : List Rat → List Doc → List Doc
  | t :: ts, d :: ds => d.setLeaf "_time" (.num t) :: stamp ts ds
  | _, ds => ds

/-- The documents that `dump` prints (`/repo/sequence/input_reader.py:185-189`); the printing is
not modelled. -/
def dumpDocs (c : Cfg) : Except Err (List Doc) :=
  match c.dicts with
  | [] => .error .indexError
  | f0 :: _ =>
    match Doc.expand f0 with
    | .error e => .error e
    | .ok d0 =>
      match c.dumpDiffs c.times with
      | .error e => .error e
      | .ok ds => .ok (stamp c.times (d0 :: ds))

/-- `[(d.pop("_time", idx), d) for idx, d in enumerate(params)]`
(`/repo/sequence/input_reader.py:266` and `320`). A time that is not a number is reported here
as `TypeError`; python only fails when it is used. -/
def load : Nat → List Doc → Except Err (List (Rat × Doc))
  | _, [] => .ok []
  | idx, d :: ds =>
    match load (idx + 1) ds with
    | .error e => .error e
    | .ok rest =>
      match d.find? "_time" with
      | none => .ok (((idx : Rat), d) :: rest)
      | some (.inl (.num t)) => .ok ((t, d.erase "_time") :: rest)
      | some _ => .error .typeError

/-- `from_file` (`/repo/sequence/input_reader.py:222-243`) for the documents of the file; without
documents `cls()` is called, a `TypeError`. -/
def fromFile (docs : List Doc) : Except Err Cfg :=
  match load 0 docs with
  | .error e => .error e
  | .ok [] => .error .typeError
  | .ok tds => init (tds.map (·.1)) (tds.map (·.2))

/-- The loop of `from_files` over the files, dropping the times they contain
(`/repo/sequence/input_reader.py:213-217`). -/
def loadFiles : List (List Doc) → Except Err (List Doc)
  | [] => .ok []
  | f :: fs =>
    match load 0 f with
    | .error e => .error e
    | .ok tds =>
      match loadFiles fs with
      | .error e => .error e
      | .ok rest => .ok (tds.map (·.2) ++ rest)

/-- `from_files` (`/repo/sequence/input_reader.py:198-220`). -/
def fromFiles (files : List (List Doc)) (times : Option (List Rat)) : Except Err Cfg :=
  match loadFiles files with
  | .error e => .error e
  | .ok dicts =>
    match times with
    | some ts => init ts dicts
    | none => init ((List.range dicts.length).map fun i : Nat => (i : Rat)) dicts

end Cfg

end Verif
