import Mathlib.Data.Int.Bitwise
import Verif.Py

/-! Model of d7a/types/ct.py -/

namespace Verif

/-- d7a/types/ct.py 26-53: class CT with attributes exp, mant. -/
structure CT where
  exp : Int
  mant : Int
  deriving DecidableEq, Repr

namespace CT

/-- d7a/types/ct.py 45-53: `__init__` and SCHEMA (exp 0..7, mant 0..31). -/
def new (exp mant : Int) : Except PyErr CT :=
  validate ((0 ≤ exp ∧ exp ≤ 7) ∧ (0 ≤ mant ∧ mant ≤ 31)) ⟨exp, mant⟩

/-- d7a/types/ct.py 55-56: `__int__`; `math.pow` is exact here (below 2^53). -/
def toInt (c : CT) : Int := 4 ^ c.exp.toNat * c.mant

/-- d7a/types/ct.py 61-65: `compressed_value`. -/
def compressedValue (c : CT) : Int :=
  let byte : Int := 0
  let byte := Int.lor byte (c.exp <<ₚ 5)
  byte + c.mant

/-- d7a/types/ct.py 58-59: `__iter__`. -/
def iter (c : CT) : Gen := .int c.compressedValue

/-- d7a/types/ct.py 67-71: `parse`. -/
def parse : P CT := do
  let exp ← P.uint 3
  let mant ← P.uint 5
  P.lift (new exp mant)

/-- d7a/types/ct.py 73-82: the `for i in xrange(8)` loop of `compress`, from `i` on, with `fuel`
iterations left. Integer arguments only; the float divisions by powers of 4 are exact in the range
reached (for negative arguments only the sign matters; below -2^1024 Python raises OverflowError instead of
ValueError). `int(x / 4^i)` truncates towards zero. -/
def compressFrom (value : Int) (ceil : Bool) : Nat → Nat → Except PyErr (Option CT)
  | _, 0 => .ok none
  | i, fuel + 1 =>
    if value ≤ 4 ^ i * 31 then
      let mantissa := value.tdiv (4 ^ i)
      let remainder := value % (4 ^ i)
      let mantissa := if ceil ∧ remainder ≠ 0 then mantissa + 1 else mantissa
      (new i mantissa).map some
    else compressFrom value ceil (i + 1) fuel

/-- d7a/types/ct.py 73-82: `compress(value, ceil=True)`; `none` is Python's `None`. -/
def compress (value : Int) (ceil : Bool := true) : Except PyErr (Option CT) :=
  compressFrom value ceil 0 8

/-- d7a/types/ct.py 84-85: `decompress`. -/
def decompress (c : CT) : Int :=
  4 ^ (c.compressedValue >>ₚ 5).toNat * Int.land c.compressedValue 0b11111

end CT
end Verif
