import Verif.Model.ModemFaults
import Verif.Spec.ModemWrite

/-! Specification vocabulary for failing writes. -/

namespace Verif.Modem

open Verif Verif.Serial

/-- The commands that are asked for in a sequence of steps. -/
def Faulty.requested (s : Faulty) : List FaultyEvent → List Command
  | [] => []
  | e :: es => (match e with | .inner e => asked s.modem e | .writeFails _ => []) ++
      (match s.step e with | some s' => s'.requested es | none => [])

/-- Frames of message type 1 (ALP) with these payloads and with counters from `n` on, each of them whole or, if its write
failed, only the first bytes of it. -/
def cutFrames (n : Nat) : List (List UInt8 × Option Nat) → List UInt8
  | [] => []
  | (p, none) :: xs => frame (UInt8.ofNat n) 1 p ++ cutFrames (n + 1) xs
  | (p, some k) :: xs => (frame (UInt8.ofNat n) 1 p).take k ++ cutFrames (n + 1) xs

end Verif.Modem
