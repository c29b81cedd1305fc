import Verif.Spec.Late
import Verif.Model.Alp

/-! Model of examples/query_nodes.py: the program from its first call until it ends, with the modem of Model/Modem.lean
and a device as in Spec/Gateway.lean. The texts that it logs, the arguments of the command line and an interrupt from the
keyboard (79-81) are not modelled. -/

namespace Verif.Modem.Query

open Verif Verif.Serial

variable {D : Type}

/-- Where the program is. examples/query_nodes.py: before line 61; in line 61, or between 61 and 63; in line 63, or in
the loop 77-79; ended by line 49. -/
inductive Place
  | starting
  | connecting
  | waiting
  | ended
  deriving DecidableEq, Repr

/-- The program with its modem and the device. -/
structure Run (D : Type) where
  net : Net D
  place : Place

/-- examples/query_nodes.py 60: a modem with a callback for unsolicited responses, and nothing else. -/
def config : Config := ⟨false, true, false⟩

/-- examples/query_nodes.py 60. -/
def start (d : D) : Run D := ⟨Net.start config d, .starting⟩

/-- examples/query_nodes.py 68-74. -/
def interface : Configuration := ⟨⟨.ALL, .NO, false, false⟩, ⟨0, 0⟩, ⟨0x11, .NOID, .none, .NONE⟩⟩

/-- examples/query_nodes.py 64-75; `tag` is the one that is drawn in d7a/alp/command.py 88-91. -/
def query (tag : UInt8) : Except PyErr Command :=
  Command.createWithReadFileAction tag 0x40 2 0 .D7ASP (some (.d7asp interface))

/-- examples/query_nodes.py 48: does the callback end the program? -/
def ends : Msg → Bool
  | .command c => c.executionCompleted
  | _ => false

/-- What happens next: the program calls `connect` or executes the query, each with the tag that is drawn, or anything
else but a call happens. -/
inductive Event
  | connect (tag : UInt8)
  | ask (tag : UInt8)
  | other (e : LateEvent)
  deriving DecidableEq, Repr

/-- The event is a call of a method of the modem. -/
def isCall : LateEvent → Bool
  | .net (.call _) => true
  | _ => false

/-- One step; `none` if the event cannot happen. examples/query_nodes.py 61 ignores what `connect` returns; an exception
of it leaves the program, and then nothing happens any more. 46-49: the callback runs in the reading thread;
`os._exit` ends all threads at once. -/
def Run.step (g : Gateway D) (s : Run D) : Event → Option (Run D)
  | .connect tag =>
    if s.place = .starting then
      (s.net.step g (.call (.connect true tag))).map fun n => ⟨n, .connecting⟩
    else none
  | .ask tag =>
    if s.place = .connecting ∧ (s.net.modem.outcomes = [.bool true] ∨ s.net.modem.outcomes = [.bool false]) then
      match query tag with
      | .error _ => none
      | .ok c => (s.net.step g (.call (.execute c 0))).map fun n => ⟨n, .waiting⟩
    else none
  | .other e =>
    if s.place = .ended ∨ isCall e = true then none
    else (s.net.stepLate g e).map fun n =>
      ⟨n, if (n.modem.called.drop s.net.modem.called.length).any ends then .ended else s.place⟩

/-- A sequence of steps. -/
def Run.run (g : Gateway D) (s : Run D) : List Event → Option (Run D)
  | [] => some s
  | e :: es => (s.step g e).bind fun s => s.run g es

end Verif.Modem.Query
