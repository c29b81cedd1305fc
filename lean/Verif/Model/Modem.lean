import Verif.Model.Serial
import Verif.Model.SystemCommands

/-! Model of modem/modem.py: the application thread and the reading thread as a transition system.

A state is what both threads see; an event lets one thread make one step, so that a list of events is an
interleaving. One application thread calls the modem (the class offers no protection for more than one);
the callbacks do not call the modem. Lists are objects: `self.x = []` makes a new one, `append` goes to the
object loaded before. Logging is left out. -/

namespace Verif.Modem

open Verif Verif.Serial

/-- Arguments of the constructor, modem/modem.py 52: `skip_alp_parsing`, and whether
`unsolicited_response_received_callback` and `rebooted_callback` are given. -/
structure Config where
  skip : Bool
  callback : Bool
  rebootedCallback : Bool
  deriving DecidableEq, Repr

/-- Where `execute_command` is: about to run modem/modem.py line 152, 153, 154, 155-157, 158-163, and
the wait loop with the test after it (168-175). -/
inductive Stage | resetList | resetTag | resetCompleted | setTag | write | wait
  deriving DecidableEq, Repr

/-- Who called `execute_command`: the application, `connect` in `skip_alp_parsing` mode (line 112), or
`connect` (line 115). -/
inductive Caller | app | connectSkip | connect
  deriving DecidableEq, Repr

/-- What the application thread is doing. -/
inductive Main
  | idle
  | run (stage : Stage) (caller : Caller) (tag : Option Int) (frame : List UInt8) (timeout : Int)
  deriving DecidableEq, Repr

/-- What the reading thread is doing, with the messages of the last `parse` it has not looked at yet:
`reading` in `dev.read` (line 206); `next` at line 220; `sync`, `syncAppend`, `syncDone` at line 223 before
and after loading the list, and at 224; `other` at 230; `callback` at 231; `rebootedCallback` at 234;
`rebooted`, `rebootedAppend` at 236; `unsolicited`, `unsolicitedAppend` at 241; `dead` after an exception. -/
inductive Reader
  | reading
  | next (q : List (Int × Msg))
  | sync (t : Int) (c : Command) (q : List (Int × Msg))
  | syncAppend (t : Int) (c : Command) (list : Nat) (q : List (Int × Msg))
  | syncDone (c : Command) (q : List (Int × Msg))
  | other (t : Int) (m : Msg) (q : List (Int × Msg))
  | callback (t : Int) (m : Msg) (q : List (Int × Msg))
  | rebootedCallback (t : Int) (m : Msg) (q : List (Int × Msg))
  | rebooted (t : Int) (m : Msg) (q : List (Int × Msg))
  | rebootedAppend (t : Int) (m : Msg) (list : Nat) (q : List (Int × Msg))
  | unsolicited (t : Int) (m : Msg) (q : List (Int × Msg))
  | unsolicitedAppend (t : Int) (m : Msg) (list : Nat) (q : List (Int × Msg))
  | dead (q : List (Int × Msg))
  deriving DecidableEq, Repr

/-- How a call ended: `None`, a bool, a fresh empty list, the list object with this number, or an
exception. -/
inductive Outcome
  | none
  | bool (b : Bool)
  | empty
  | list (n : Nat)
  | raised (e : PyErr)
  deriving DecidableEq, Repr

/-- modem/modem.py 53-71. `uid` is the number whose hexadecimal text is `self.uid` (never an empty string,
so it counts as true). `responses`, `unsolicited` and `rebooted` are all list objects that were ever
`self._sync_execution_response_cmds`, `self._unsolicited_responses_received` and `self._rebooted_received`;
the last one is the current one. The last five fields are the history seen from outside: messages
the parser delivered, calls of the two callbacks, bytes written to the device, ends of calls. -/
structure State where
  config : Config
  parser : Parser
  uid : Option Nat
  firmwareVersion : Option FirmwareVersionFile
  connected : Bool
  tag : Option Int
  completed : Bool
  responses : List (List Command)
  unsolicited : List (List Msg)
  rebooted : List (List Msg)
  main : Main
  reader : Reader
  received : List (Int × Msg)
  called : List Msg
  rebootedCalled : List Msg
  written : List UInt8
  outcomes : List Outcome
  deriving DecidableEq, Repr

/-- modem/modem.py 52-87 -/
def init (config : Config) : State where
  config := config
  parser := .new config.skip
  uid := none
  firmwareVersion := none
  connected := false
  tag := none
  completed := false
  responses := [[]]
  unsolicited := [[]]
  rebooted := [[]]
  main := .idle
  reader := .reading
  received := []
  called := []
  rebootedCalled := []
  written := []
  outcomes := []

/-- The methods the application calls. -/
inductive Call
  | execute (cmd : Command) (timeout : Int)
  | connect (checkAlive : Bool) (rand : UInt8)
  | clearUnsolicited
  | clearRebooted
  deriving DecidableEq, Repr

/-- What happens next: the application calls a method; the application thread makes a step in
`execute_command`; its wait loop times out; bytes arrive and are parsed (`dev.read()` gives them one by one);
the reading thread makes a step; the callback it is calling raises; `dev.read` raises SerialException. -/
inductive Event
  | call (c : Call)
  | main
  | timeout
  | rx (bytes : List UInt8)
  | reader
  | callbackRaises
  | serialError
  deriving DecidableEq, Repr

/-- modem/modem.py 97-107: the command that reads UID and firmware version. -/
def infoCommand (rand : UInt8) : Except PyErr Command := do
  let c ← Command.createWithReadSystemFile rand (.uid ⟨0⟩) .HOST none
  let l ← Length.new 0
  let o ← Offset.new 0x02 l
  let d ← DataRequest.new 17 o
  return c.addAction (.regular false false (.readFileData d))

/-- `struct.unpack(">Q", data)[0]` (modem/modem.py 124) -/
def unpackQ (bs : List UInt8) : Except PyErr Nat :=
  if bs.length = 8 then .ok (bs.foldl (fun n b => n * 256 + b.toNat) 0) else .error .structError

/-- modem/modem.py 121-126: the loop over the actions, with the attributes set on the way. -/
def readInfo : List Action → Option Nat → Option FirmwareVersionFile →
    Option Nat × Option FirmwareVersionFile × Option PyErr
  | [], uid, fw => (uid, fw, none)
  | .regular _ _ (.returnFileData d) :: as, uid, fw =>
    match bytearray (.concat (d.data.map Gen.int)) with
    | .error e => if d.offset.id = 0 ∨ d.offset.id = 2 then (uid, fw, some e) else readInfo as uid fw
    | .ok bs =>
      if d.offset.id = 0 then
        match unpackQ bs with
        | .error e => (uid, fw, some e)
        | .ok n => readInfo as (some n) fw
      else if d.offset.id = 2 then
        match FirmwareVersionFile.parse (stream bs) with
        | .err e _ => (uid, fw, some e)
        | .ok f _ => readInfo as uid (some f)
      else readInfo as uid fw
  | _ :: as, uid, fw => readInfo as uid fw

namespace State

/-- The call in progress ends. -/
def finish (s : State) (o : Outcome) : State :=
  { s with main := .idle, outcomes := s.outcomes ++ [o] }

/-- modem/modem.py 145-151: the frame is built (an exception leaves the method). -/
def startExecute (s : State) (caller : Caller) (cmd : Command) (timeout : Int) : State :=
  let timeout := if s.config.skip then 0 else timeout
  match s.parser.buildSerialFrame cmd.iter with
  | (p, .error e) => { s with parser := p }.finish (.raised e)
  | (p, .ok frame) =>
    { s with parser := p, main := .run .resetList caller cmd.tagId frame timeout }

/-- modem/modem.py 89-115, 189-199: the start of a call. -/
def startCall (s : State) : Call → State
  | .execute cmd timeout => s.startExecute .app cmd timeout
  | .connect checkAlive rand =>
    if s.connected then s.finish .none
    else if ¬ checkAlive then { s with connected := true }.finish (.bool true)
    else match infoCommand rand with
      | .error e => s.finish (.raised e)
      | .ok cmd =>
        if s.config.skip then { s with connected := true }.startExecute .connectSkip cmd 0
        else s.startExecute .connect cmd 10
  | .clearUnsolicited => { s with unsolicited := s.unsolicited ++ [[]] }.finish .none
  | .clearRebooted => { s with rebooted := s.rebooted ++ [[]] }.finish .none

/-- modem/modem.py 117-139: the end of `connect`; `response` is the returned list, `none` an empty one. -/
def finishConnect (s : State) (response : Option (List Command)) : State :=
  match response with
  | none => s.finish (.bool false)
  | some [] => s.finish (.bool false)
  | some (c :: _) =>
    match readInfo c.actions s.uid s.firmwareVersion with
    | (uid, fw, some e) => { s with uid := uid, firmwareVersion := fw }.finish (.raised e)
    | (uid, fw, none) =>
      let connected := s.connected || (uid.isSome && fw.isSome)
      { s with uid := uid, firmwareVersion := fw, connected := connected }.finish (.bool connected)

/-- modem/modem.py 163-175: `execute_command` returns an empty list (`none`) or the current list object. -/
def finishExecute (s : State) (caller : Caller) (list : Option Nat) : State :=
  match caller with
  | .app => s.finish (match list with | none => .empty | some n => .list n)
  | .connectSkip => s.finish (.bool true)
  | .connect => s.finishConnect (list.bind fun n => s.responses[n]?)

/-- modem/modem.py 152-175: a step of `execute_command`. The wait loop ends by itself once
`_sync_execution_completed` is seen; nobody resets it before line 171. -/
def mainStep (s : State) : Option State :=
  match s.main with
  | .idle => none
  | .run .resetList caller tag frame timeout =>
    some { s with responses := s.responses ++ [[]], main := .run .resetTag caller tag frame timeout }
  | .run .resetTag caller tag frame timeout =>
    some { s with tag := none, main := .run .resetCompleted caller tag frame timeout }
  | .run .resetCompleted caller tag frame timeout =>
    some { s with completed := false, main := .run .setTag caller tag frame timeout }
  | .run .setTag caller tag frame timeout =>
    some { s with
      tag := if timeout > 0 then tag else s.tag, main := .run .write caller tag frame timeout }
  | .run .write caller tag frame timeout =>
    let s := { s with written := s.written ++ frame }
    if timeout = 0 then some (s.finishExecute caller none)
    else some { s with main := .run .wait caller tag frame timeout }
  | .run .wait caller _ _ _ =>
    if s.completed then some (s.finishExecute caller (some (s.responses.length - 1))) else none

/-- modem/modem.py 168-175: the wait loop ends because the time is over. -/
def timeoutStep (s : State) : Option State :=
  match s.main with
  | .run .wait caller _ _ _ =>
    some (s.finishExecute caller (if s.completed then some (s.responses.length - 1) else none))
  | _ => none

/-- modem/modem.py 213-220: the bytes read are parsed. An exception of the parser ends the thread. -/
def rxStep (s : State) (bytes : List UInt8) : Option State :=
  match s.reader with
  | .reading =>
    match s.parser.parse bytes with
    | (p, .error _) => some { s with parser := p, reader := .dead [] }
    | (p, .ok o) =>
      some { s with parser := p, reader := .next o.cmds, received := s.received ++ o.cmds }
  | _ => none

/-- modem/modem.py 221: is this a response of the synchronous execution? -/
def isSync (s : State) (t : Int) : Msg → Option Command
  | .command c => if ¬ s.config.skip ∧ s.tag = c.tagId ∧ t ≤ 3 then some c else none
  | _ => none

/-- modem/modem.py 220-242: a step of the reading thread. -/
def readerStep (s : State) : Option State :=
  match s.reader with
  | .reading => none
  | .dead _ => none
  | .next [] => some { s with reader := .reading }
  | .next ((t, m) :: q) =>
    match s.isSync t m with
    | some c => some { s with reader := .sync t c q }
    | none => some { s with reader := .other t m q }
  | .sync t c q => some { s with reader := .syncAppend t c (s.responses.length - 1) q }
  | .syncAppend _ c n q =>
    some { s with responses := s.responses.modify n (· ++ [c]), reader := .syncDone c q }
  | .syncDone c q =>
    some { s with completed := s.completed || c.executionCompleted, reader := .next q }
  | .other t m q =>
    if s.config.callback ∧ s.connected ∧ t ≤ 3 then some { s with reader := .callback t m q }
    else if t = 5 then
      if s.config.rebootedCallback then some { s with reader := .rebootedCallback t m q }
      else some { s with reader := .rebooted t m q }
    else if t = 4 then some { s with reader := .next q }
    else if t ≤ 3 then some { s with reader := .unsolicited t m q }
    else some { s with reader := .next q }
  | .callback _ m q => some { s with called := s.called ++ [m], reader := .next q }
  | .rebootedCallback _ m q =>
    some { s with rebootedCalled := s.rebootedCalled ++ [m], reader := .next q }
  | .rebooted t m q => some { s with reader := .rebootedAppend t m (s.rebooted.length - 1) q }
  | .rebootedAppend _ m n q =>
    some { s with rebooted := s.rebooted.modify n (· ++ [m]), reader := .next q }
  | .unsolicited t m q =>
    some { s with reader := .unsolicitedAppend t m (s.unsolicited.length - 1) q }
  | .unsolicitedAppend _ m n q =>
    some { s with unsolicited := s.unsolicited.modify n (· ++ [m]), reader := .next q }

/-- modem/modem.py 231, 234: the callback is called and raises, which ends the thread. -/
def raiseStep (s : State) : Option State :=
  match s.reader with
  | .callback _ m q => some { s with called := s.called ++ [m], reader := .dead q }
  | .rebootedCallback _ m q =>
    some { s with rebootedCalled := s.rebootedCalled ++ [m], reader := .dead q }
  | _ => none

/-- modem/modem.py 207-211: the handler calls `self._connect_serial_modem`, which does not exist:
AttributeError ends the thread. -/
def serialErrorStep (s : State) : Option State :=
  match s.reader with
  | .reading => some { s with reader := .dead [] }
  | _ => none

/-- One step of the system; `none` if the event cannot happen in this state. -/
def step (s : State) : Event → Option State
  | .call c => if s.main = .idle then some (s.startCall c) else none
  | .main => s.mainStep
  | .timeout => s.timeoutStep
  | .rx bytes => s.rxStep bytes
  | .reader => s.readerStep
  | .callbackRaises => s.raiseStep
  | .serialError => s.serialErrorStep

/-- A sequence of steps. -/
def run (s : State) : List Event → Option State
  | [] => some s
  | e :: es => (s.step e).bind fun s => s.run es

end State
end Verif.Modem
