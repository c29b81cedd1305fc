import Verif.Spec.Serial

/-! Specification of frames that are cut short. -/

namespace Verif.Serial

open Verif

/-- Bytes at whose beginning there is no frame, as everybody can see who has them: no sync byte, a wrong version, or a wrong
CRC of a payload that is there. -/
inductive NoFrame : List UInt8 → Prop
  | sync (x : UInt8) (more : List UInt8) : x ≠ 0xC0 → NoFrame (x :: more)
  | version (x : UInt8) (more : List UInt8) : x ≠ 0 → NoFrame (0xC0 :: x :: more)
  | crc (counter type length crc1 crc2 : UInt8) (payload more : List UInt8) : payload.length = length.toNat →
      Crc.calculateCrc payload ≠ (crc1, crc2) →
      NoFrame ([0xC0, 0, counter, type, length, crc1, crc2] ++ payload ++ more)

/-- What is left of the bytes of a frame that is cut after some bytes (if it is). -/
def cutBytes (x : List UInt8 × Option Nat) : List UInt8 :=
  match x.2 with
  | none => x.1
  | some k => x.1.take k

/-- Nothing of it is missing. -/
def isWhole (x : List UInt8 × Option Nat) : Bool :=
  match x.2 with
  | none => true
  | some k => decide (x.1.length ≤ k)

/-- Each frame of a line is whole, or wherever one looks in what is left of it, there is, together with the bytes that follow,
no frame. -/
def CutsShow : List (List UInt8 × Option Nat) → Prop
  | [] => True
  | x :: l => (isWhole x = true ∨
      ∀ s, s ≠ [] → s <:+ cutBytes x → NoFrame (s ++ (l.map cutBytes).flatten)) ∧ CutsShow l

/-- Frames of message type 1 (ALP) with these payloads and with counters from `n` on, each with the place where it is cut. -/
def numbered (n : Nat) : List (List UInt8 × Option Nat) → List (List UInt8 × Option Nat)
  | [] => []
  | x :: xs => (frame (UInt8.ofNat n) 1 x.1, x.2) :: numbered (n + 1) xs

end Verif.Serial
