import Verif.Spec.Modem
import Verif.Spec.Serial

/-! Specification vocabulary for what the modem writes to the serial port. -/

namespace Verif.Modem

open Verif Verif.Serial

/-- The bytes of a command, if it has any and they fit in a frame. -/
def sendable (c : Command) : Option (List UInt8) :=
  match bytearray c.iter with
  | .ok bs => if bs.length ≤ 255 then some bs else none
  | .error _ => none

/-- The question `connect` asks: 8 bytes of file 0 (UID) and 17 bytes of file 2 (firmware version), with a tag. -/
def question (tag : UInt8) : Command where
  actions := [.regular false false (.readFileData ⟨⟨0, ⟨0⟩⟩, ⟨8⟩⟩),
    .regular false false (.readFileData ⟨⟨2, ⟨0⟩⟩, ⟨17⟩⟩)]
  interfaceStatus := none
  generateTagRequestAction := true
  tagId := some tag.toNat
  sendTagResponseWhenCompleted := true
  executionCompleted := false
  completedWithError := none

/-- The command that an event asks to send: the one to execute, or the question of a `connect` that has to check a
modem which is not connected yet. -/
def asked (s : State) : Event → List Command
  | .call (.execute c _) => [c]
  | .call (.connect true tag) => if s.connected then [] else [question tag]
  | _ => []

/-- The commands that are asked for in a sequence of steps. -/
def requested (s : State) : List Event → List Command
  | [] => []
  | e :: es => asked s e ++ (match s.step e with | some s' => requested s' es | none => [])

/-- Frames of message type 1 (ALP) with these payloads, with counters from `n` on. -/
def framesFrom (n : Nat) : List (List UInt8) → List UInt8
  | [] => []
  | p :: ps => frame (UInt8.ofNat n) 1 p ++ framesFrom (n + 1) ps

/-- The frame of the call in progress, until it is written. -/
def unwritten : Main → List UInt8
  | .idle => []
  | .run .wait _ _ _ _ => []
  | .run _ _ _ frame _ => frame

end Verif.Modem
