import Verif.Spec.Serial

/-! Specification of flipped bits. -/

namespace Verif.Serial

/-- In how many bits two byte strings of the same length differ. -/
def flips (x y : List UInt8) : Nat := (List.zipWith (· ^^ ·) (bytesToBits x) (bytesToBits y)).count true

/-- What is left of the bytes of a frame on a bad line: message type and length are intact; up to three bits are flipped, not
all of them in the counter, or an odd number of bits in CRC and payload; and nothing looks like the beginning of another
frame. -/
def Spoiled (sent arrived : List UInt8) : Prop :=
  arrived.length = sent.length ∧ arrived[3]? = sent[3]? ∧ arrived[4]? = sent[4]? ∧
  ((flips sent arrived ≤ 3 ∧ ∃ i, i ≠ 2 ∧ arrived[i]? ≠ sent[i]?) ∨ flips (sent.drop 5) (arrived.drop 5) % 2 = 1) ∧
  0xC0 ∉ arrived.tail

/-- A frame on a bad line: what was sent, and what arrives if that is something else. -/
structure Passed where
  sent : Sent
  spoiled : Option (List UInt8)

/-- The bytes that arrive. -/
def Passed.bytes (x : Passed) : List UInt8 := x.spoiled.getD x.sent.bytes

end Verif.Serial
