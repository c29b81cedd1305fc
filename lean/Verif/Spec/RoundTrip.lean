import Verif.Py

/-! Specification vocabulary for byte serialisation. -/

namespace Verif

/-- `bytearray(x)` (with `g` the generator `x.__iter__`) succeeds with `n` bytes, and parsing these
bytes with `p`, whatever bytes follow, returns `y`, having read exactly the `n` bytes and leaving
exactly the following bytes unread. -/
def RoundTrips {α : Type} (g : Gen) (p : P α) (y : α) (n : Nat) : Prop :=
  ∃ bs, bytearray g = .ok bs ∧ bs.length = n ∧
    ∀ following, p (stream (bs ++ following)) = .ok y ⟨8 * n, bytesToBits following⟩

/-- The constructor call `x` succeeds exactly when `c` holds and raises ValueError otherwise. -/
def AcceptsIff {α : Type} (x : Except PyErr α) (c : Prop) : Prop :=
  ((∃ a, x = .ok a) ↔ c) ∧ (¬ c → x = .error .valueError)

/-- The bits of a list of unsigned big-endian fields `(width, value)`. -/
def fieldBits (fs : List (Nat × Nat)) : List Bool := fs.flatMap fun f => bitsOf f.1 f.2

/-- `bytearray(x)` succeeds with the byte string whose bits are the given fields, each value
fitting its width. -/
def HasLayout (g : Gen) (fs : List (Nat × Nat)) : Prop :=
  ∃ bs, bytearray g = .ok bs ∧ bytesToBits bs = fieldBits fs ∧ ∀ f ∈ fs, f.2 < 2 ^ f.1

end Verif
