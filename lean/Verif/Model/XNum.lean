import Mathlib.Algebra.Order.Field.Basic

/-!
# Numbers with infinities and NaN

numpy does not raise when it divides by zero: the result is an infinity or NaN, which later
arithmetic passes on. Rounding and the sign of zero are left out: a zero counts as `+0.0`.
-/

set_option autoImplicit false

namespace Verif

/-- A number, an infinity (negative if the flag is set) or NaN. -/
inductive XNum (K : Type*) where
  | num (a : K)
  | inf (neg : Bool)
  | nan
  deriving DecidableEq, Repr

namespace XNum

variable {K : Type*} [Field K] [LinearOrder K]

def neg : XNum K → XNum K
  | num a => num (-a)
  | inf s => inf (!s)
  | nan => nan

def add : XNum K → XNum K → XNum K
  | num a, num b => num (a + b)
  | inf s, num _ => inf s
  | num _, inf s => inf s
  | inf s, inf t => if s = t then inf s else nan
  | nan, _ => nan
  | _, nan => nan

def mul : XNum K → XNum K → XNum K
  | num a, num b => num (a * b)
  | inf s, num b => if b = 0 then nan else inf (xor s (decide (b < 0)))
  | num a, inf s => if a = 0 then nan else inf (xor s (decide (a < 0)))
  | inf s, inf t => inf (xor s t)
  | nan, _ => nan
  | _, nan => nan

def div : XNum K → XNum K → XNum K
  | num a, num b => if b = 0 then (if a = 0 then nan else inf (decide (a < 0))) else num (a / b)
  | inf s, num b => inf (xor s (decide (b < 0)))
  | num _, inf _ => num 0
  | inf _, inf _ => nan
  | nan, _ => nan
  | _, nan => nan

/-- `a < b`; never with NaN. -/
def lt : XNum K → XNum K → Bool
  | num a, num b => decide (a < b)
  | inf s, num _ => s
  | num _, inf s => !s
  | inf s, inf t => s && !t
  | nan, _ => false
  | _, nan => false

/-- `a <= b`; never with NaN. -/
def le : XNum K → XNum K → Bool
  | num a, num b => decide (a ≤ b)
  | inf s, num _ => s
  | num _, inf s => !s
  | inf s, inf t => s || !t
  | nan, _ => false
  | _, nan => false

/-- `np.exp`. -/
def exp (expf : K → K) : XNum K → XNum K
  | num a => num (expf a)
  | inf false => inf false
  | inf true => num 0
  | nan => nan

/-- `np.sqrt`. -/
def sqrt (sqrtf : K → K) : XNum K → XNum K
  | num a => if a < 0 then nan else num (sqrtf a)
  | inf false => inf false
  | inf true => nan
  | nan => nan

instance : Neg (XNum K) := ⟨neg⟩
instance : Add (XNum K) := ⟨add⟩
instance : Sub (XNum K) := ⟨fun a b => add a (neg b)⟩
instance : Mul (XNum K) := ⟨mul⟩
instance : Div (XNum K) := ⟨div⟩

/-- The number, if it is one. -/
def toNum : XNum K → Option K
  | num a => some a
  | _ => none

end XNum

end Verif
