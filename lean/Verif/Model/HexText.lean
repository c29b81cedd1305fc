import Verif.Model.Serial
import Verif.Model.Print

/-! Model of the places where the library writes bytes as hexadecimal text: the debug log of the modem, the warnings about
parser errors, and d7a/serial_modem_interface/examples/generate_messages.py. -/

namespace Verif.HexText

open Verif

/-- The digits of `format(b, "02x")` and of `binascii.hexlify`. -/
def digit (n : Nat) : Char := if n < 10 then Char.ofNat ('0'.toNat + n) else Char.ofNat ('a'.toNat + (n - 10))

/-- `format(b, "02x")`, modem/modem.py 162, 214, 217. -/
def byte (b : UInt8) : List Char := [digit (b.toNat / 16), digit (b.toNat % 16)]

/-- `" ".join(map(lambda b: format(b, "02x"), data))`, modem/modem.py 162, 214, 217. -/
def joined : List UInt8 → List Char
  | [] => []
  | [b] => byte b
  | b :: c :: bs => byte b ++ ' ' :: joined (c :: bs)

/-- modem/modem.py 162: the line in the debug log for a written frame, without what the logger puts before it. -/
def sentLine (frame : List UInt8) : List Char := '>' :: ' ' :: joined frame

/-- modem/modem.py 217: `error["buffer"]` for the bytes of the last read. -/
def errorBuffer (received : List UInt8) : List Char := joined received

/-- `binascii.hexlify(data)` -/
def hexlify (data : List UInt8) : List Char := data.flatMap byte

/-- d7a/serial_modem_interface/examples/generate_messages.py 38, 42: the line with the frame. The description and the
dictionary (36, 39-41) are left out; `as_dict` raises nothing. -/
def generated (c : Command) : Except PyErr (List Char) :=
  ((Serial.Parser.new false).buildSerialFrame c.iter).2.map hexlify

/-- The configurations of generate_messages.py: response mode, addressee and dormant timeout. -/
def configuration (r : ResponseMode) (a : Except PyErr Addressee) (dorm : Except PyErr (Option CT)) :
    Except PyErr Configuration := do
  let a ← a
  match ← dorm with
  | none => .error .valueError
  | some ct => .ok ⟨{ QoS.default with respMod := r }, ct, a⟩

/-- `[1, 2, 3, 4, 5, 6, 7, 8, 9, 10]`, generate_messages.py 48, 65, 81, 94. -/
def ten : List Int := [1, 2, 3, 4, 5, 6, 7, 8, 9, 10]

/-- d7a/serial_modem_interface/examples/generate_messages.py 44-141: the six commands, in order; `rand` gives their tags. The
dormant timeout defaults to `CT()` (d7a/sp/configuration.py 43). -/
def messages (rand : Nat → UInt8) : List (Except PyErr Command) :=
  [do let cfg ← configuration .ALL (Addressee.new 0 .UID (.int 2656824718681607041) .NONE) (.ok (some ⟨0, 0⟩))
      Command.createWithReturnFileDataAction (rand 0) 0x40 ten 0 none .D7ASP (some (.d7asp cfg)),
   do let cfg ← configuration .ALL (Addressee.new 2 .NOID .none .NONE) (.ok (some ⟨0, 0⟩))
      Command.createWithReturnFileDataAction (rand 1) 0x40 ten 0 none .D7ASP (some (.d7asp cfg)),
   do let cfg ← configuration .NO (Addressee.new 1 .NOID .none .NONE) (.ok (some ⟨0, 0⟩))
      Command.createWithReturnFileDataAction (rand 2) 0x40 ten 0 none .D7ASP (some (.d7asp cfg)),
   do let cfg ← configuration .ANY (Addressee.new 2 .UID (.int 0xDEADBEEFCAFEBABE) .NONE) (.ok (some ⟨0, 0⟩))
      Command.createWithReturnFileDataAction (rand 3) 0x40 ten 0 none .D7ASP (some (.d7asp cfg)),
   do let cfg ← configuration .ANY (Addressee.new 1 .NOID .none .NONE) (.ok (some ⟨0, 0⟩))
      Command.createWithReadFileAction (rand 4) 0 8 0 .D7ASP (some (.d7asp cfg)),
   do let cfg ← configuration .ANY (Addressee.new 0x21 .UID (.int 0xE0022600017B388F) .NONE) (CT.compress (60 * 5))
      Command.createWithWriteFileAction (rand 5) 0x40 [0] 0 .D7ASP (some (.d7asp cfg))]

end Verif.HexText
