import Verif.Model.ThroughputRun
import Verif.Spec.Throughput
import Verif.Spec.Nodes
import Verif.Props.Senders

/-! Specification vocabulary for examples/throughput_test.py with a transmitter and a receiver. -/

namespace Verif.Throughput

open Verif Verif.Serial Verif.Modem Verif.Examples

/-- The random tags of the commands that the transmitter gets: identification, access profile, the two writes of the
access class, and the four runs. -/
structure Tags where
  identify : UInt8
  profile : UInt8
  class1 : UInt8
  class2 : UInt8
  message : Phase → UInt8

/-- The write of access class 1 to file 0x0A. -/
def activation (r : UInt8) : List UInt8 := [0xB4, r, 4, 0x0A, 0, 7, 1, 0, 0, 0, 0, 0, 0]

/-- What the transmitter gets before the first run: the question for UID (8 bytes of file 0) and firmware version (17 bytes
of file 2), and the 16 bytes of the access profile for file 0x20, which differs from that of the receiver in that
the first sub profile uses no sub band. -/
def preparation (t : Tags) : List (List UInt8) :=
  [[0xB4, t.identify, 1, 0, 0, 8, 1, 2, 0, 17],
   [0xB4, t.profile, 4, 0x20, 0, 16, 0x38, 0, 0, 0, 0, 0, 0, 0, 0, 0, 0, 0, 0, 10, 86, 255]]

/-- The messages of a run. -/
def messages (a : Args) (uid : Nat) (t : Tags) (p : Phase) : List (List UInt8) :=
  List.replicate a.count.toNat (p.bytes (t.message p) uid a.size.toNat)

/-- The payloads of everything the transmitter gets. -/
def script (a : Args) (uid : Nat) (t : Tags) : List (List UInt8) :=
  preparation t ++ [activation t.class1] ++ messages a uid t .broadcastQos ++
  [activation t.class2] ++ messages a uid t .broadcast ++
  messages a uid t .unicastQos ++ messages a uid t .unicast

/-- The bytes that arrive at the receiver. -/
def received : List TestEvent → List (List UInt8)
  | [] => []
  | .rxBytes bytes :: es => bytes :: received es
  | _ :: es => received es

/-- Only the main thread makes steps, its wait loop times out, and the time for waiting (224) passes: nothing comes from the
devices. -/
def Alone : TestEvent → Bool
  | .main _ | .late | .timeout => true
  | _ => false

/-- The time for waiting is not over, and the serial line of the receiver does not fail. -/
def Undisturbed : TestEvent → Prop
  | .late => False
  | .rxError => False
  | _ => True

/-- The main thread is between the reset of the list (196) and the verdict (237) of this run. -/
def Place.within (p : Phase) : Place → Bool
  | .make q | .send q _ _ | .sending q _ _ | .rate q | .poll q _ | .check q _ => p = q
  | _ => false

/-- The main thread waits for the receiver (224) in this run, or is about to give its verdict. -/
def Place.waits (p : Phase) : Place → Bool
  | .poll q _ | .check q _ => p = q
  | _ => false

/-- The part of a message that goes over the air: the numbers from 0 on, as the data of file 0x40. -/
def airborne (n : Nat) : List UInt8 :=
  [0x20, 0x40, 0x00] ++ lengthField n ++ (List.range n).map UInt8.ofNat

/-- A receiver hands this over, with the status of the reception (format table in Spec/Layout.lean) before it. -/
def arrival (status : List UInt8) (n : Nat) : List UInt8 :=
  [0x62, 0xD7, UInt8.ofNat status.length] ++ status ++ airborne n

end Verif.Throughput
