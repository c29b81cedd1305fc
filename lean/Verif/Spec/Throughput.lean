import Verif.Model.Throughput
import Verif.Spec.Modem
import Verif.Spec.Serial

/-! Specification vocabulary for the receiving side of examples/throughput_test.py. -/

namespace Verif.Throughput

open Verif Verif.Serial Verif.Modem

/-- The command says over which D7A session it came, and from whom. -/
def fromNode (c : Command) : Bool :=
  match c.interfaceStatus with
  | some a =>
    match a.operation with
    | .interfaceStatus o => o.status.isSome
    | _ => false
  | none => false

/-- The command, if the message is ALP data or a ping that came from a node and has another tag. -/
def counted (tag : Option Int) (x : Int × Msg) : Option Command :=
  match x.2 with
  | .command c => if x.1 ≤ 3 ∧ c.tagId ≠ tag ∧ fromNode c = true then some c else none
  | _ => none

/-- A message with an interface status says from whom it came. -/
def Attributed : Msg → Prop
  | .command c => c.interfaceStatus = none ∨ fromNode c = true
  | _ => True

instance (m : Msg) : Decidable (Attributed m) := by
  unfold Attributed; split <;> infer_instance

/-- The bytes that arrive. -/
def chunks : List Event → List (List UInt8)
  | [] => []
  | .rx bytes :: es => bytes :: chunks es
  | _ :: es => chunks es

/-- Neither is the list reset nor does the serial line fail. -/
def Steady : Event → Prop
  | .restart => False
  | .serialError => False
  | _ => True

/-- What the program writes to the receiver: it reads UID (8 bytes of file 0) and firmware version (17 bytes of file 2);
writes the 16 bytes of an access profile to file 0x20 (868 MHz, PN9, normal rate; the first sub profile uses the first sub
band; one sub band with channel 0, 10 dBm, CCA at -86 dBm and duty 255); writes access class 1 to file 0x0A. The tags are
random. -/
def setup (r1 r2 r3 : UInt8) : List UInt8 :=
  frame 0 1 [0xB4, r1, 1, 0, 0, 8, 1, 2, 0, 17] ++
  frame 1 1 [0xB4, r2, 4, 0x20, 0, 16, 0x38, 1, 0, 0, 0, 0, 0, 0, 0, 0, 0, 0, 0, 10, 86, 255] ++
  frame 2 1 [0xB4, r3, 4, 0x0A, 0, 7, 1, 0, 0, 0, 0, 0, 0]

end Verif.Throughput
