import Mathlib.Data.Nat.Digits.Defs
import Verif.Model.Cli
import Verif.Spec.Config

/-! # What the command line should do -/

set_option autoImplicit false

namespace Verif.Spec

/-- `sequence*<suffix>` -/
def ConfigName (suffix : String) (n : List Char) : Prop :=
  ∃ mid, n = "sequence".toList ++ mid ++ suffix.toList

/-- A configuration file of the directory: a toml file, or a yaml file if there are no toml
files. -/
def ConfigFile (entries : List (List Char)) (n : List Char) : Prop :=
  n ∈ entries ∧
    (ConfigName ".toml" n ∨ (ConfigName ".yaml" n ∧ ∀ m ∈ entries, ¬ ConfigName ".toml" m))

/-- The name contains a number, and the first one is `t`. -/
def FirstNumber (name : List Char) (t : Nat) : Prop :=
  ∃ pre digits post, name = pre ++ digits ++ post ∧ (∀ c ∈ pre, c.isDigit = false) ∧
    digits ≠ [] ∧ (∀ c ∈ digits, c.isDigit = true) ∧ (∀ c ∈ post.head?, c.isDigit = false) ∧
    t = Nat.ofDigits 10 (digits.reverse.map fun c => c.toNat - 48)

/-- The time of a file: the number in its name, or the number of configuration files that come
before it in the alphabet. -/
def FileTime (files : List (List Char)) (name : List Char) (t : Nat) : Prop :=
  FirstNumber name t ∨
    ((∀ c ∈ name, c.isDigit = false) ∧ t = files.countP fun n => decide (n < name))

/-- A `--set` option: the dotted path and the text of the value. -/
structure SetOption where
  path : List String
  text : List Char

/-- The option as typed. -/
def SetOption.typed (o : SetOption) : List Char :=
  ['.'].intercalate (o.path.map String.toList) ++ '=' :: o.text

/-- The keys are not empty in number and contain neither dots nor equal signs, the value no equal
sign. -/
def SetOption.WellFormed (o : SetOption) : Prop :=
  2 ≤ o.path.length ∧ (∀ k ∈ o.path, '.' ∉ k.toList ∧ '=' ∉ k.toList) ∧ '=' ∉ o.text

end Verif.Spec

namespace Verif.Spec

/-- Every entry of the dictionary is a dictionary. -/
def OnlyGroups : Doc → Prop
  | .nil => True
  | .leaf _ _ _ => False
  | .sub _ _ r => OnlyGroups r

/-- A parser: what it makes of a dictionary has every key once. -/
def GivesDicts (parse : List Char → Except Err (Leaf ⊕ Doc)) : Prop :=
  ∀ t d, parse t = .ok (.inr d) → DistinctKeys d

/-- Each option is for something inside of a section, such as `grid.shape`, not for a whole
section. -/
def NamesParameters (opts : List (List Char)) : Prop :=
  ∀ o ∈ opts, ∀ name value, o = name ++ '=' :: value → '.' ∈ name

/-- What counts as an item of a dictionary: a list or a tuple of a text and a value, or a text of two
characters, the first of which is the key and the second the value. -/
inductive ItemOf : Leaf → String × Leaf → Prop
  | list (k : String) (v : Leaf) : ItemOf (.list [.str k, v]) (k, v)
  | tup (k : String) (v : Leaf) : ItemOf (.tup [.str k, v]) (k, v)
  | chars (a b : Char) : ItemOf (.str (String.ofList [a, b]))
      (String.ofList [a], .str (String.ofList [b]))

/-- A list or a tuple of items. -/
def ItemsOf (v : Leaf) (ps : List (String × Leaf)) : Prop :=
  ∃ xs, (v = .list xs ∨ v = .tup xs) ∧ List.Forall₂ ItemOf xs ps

end Verif.Spec
