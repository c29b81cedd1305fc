import Verif.Model.Modem
import Verif.Model.Examples
import Verif.Model.Print

/-! Model of the receiving side of examples/throughput_test.py on top of the modem of `Verif.Model.Modem`.

The transmitting modem is another device with its own reading thread; of it only the resetting of the list of
received commands (196) is modelled. What is printed is left out, but not that printing may raise. -/

namespace Verif.Throughput

open Verif Verif.Serial Verif.Modem

/-- examples/throughput_test.py 104-118: the command that writes the access profile. -/
def profileCommand (rand : UInt8) : Except PyErr Command := do
  let ct ← CT.new 0 0
  let sp ← SubProfile.new 0x01 ct
  let sp0 ← SubProfile.new 0 ⟨0, 0⟩
  let sb ← SubBand.new 0 0 10 86 255
  let p ← AccessProfile.new ⟨.PN9, .NORMAL_RATE, .BAND_868⟩ [sp, sp0, sp0, sp0] [sb]
  let f ← AccessProfileFile.new 0 (some p)
  Command.createWithWriteSystemFile rand (.accessProfile f) .HOST none

/-- examples/throughput_test.py 120: the command that selects the access class. -/
def classCommand (rand : UInt8) : Except PyErr Command := do
  let f ← DllConfigFile.new 0x01 0 0 0 0
  Command.createWithWriteSystemFile rand (.dllConfig f) .HOST none

/-- Where the main thread is: before 103, in `connect`, before 118, in the first `execute_command` (119), before and in
the second one (120), at the end of the constructor, before 130, in the rest of `start`; or an exception has ended the
program (the reading thread is a daemon, modem/modem.py 181). -/
inductive Stage
  | made | connecting | profile | profileRunning | accessClass | classRunning | built | started | running | failed
  deriving DecidableEq, Repr

/-- The modem, where the main thread is, and the attribute `received_commands`, which does not exist before 126. -/
structure State where
  modem : Modem.State
  stage : Stage
  commands : Option (List Command)
  deriving DecidableEq, Repr

/-- examples/throughput_test.py 102: a modem with a callback, without a reboot callback. -/
def config : Config := ⟨false, true, false⟩

/-- examples/throughput_test.py 102 -/
def init : State := ⟨Modem.init config, .made, none⟩

/-- examples/throughput_test.py 246-252: the list afterwards, or the exception. Line 247 formats a text without a
place for the command. The status is looked at (249) before `received_commands` (250). A message that is not a command
has no attribute `interface_status`. Loading the dictionary and appending (250) are one step here. -/
def receiverCallback (e : Print.Env) (commands : Option (List Command)) :
    Msg → Except PyErr (Option (List Command))
  | .command c =>
    match c.interfaceStatus with
    | none => (Print.command e c).map fun _ => commands
    | some _ => do
      let new ← Examples.received [] c
      match commands with
      | none => .error .attributeError
      | some l => .ok (some (l ++ new))
  | .bytes _ => .error .attributeError
  | .rebooted _ => .error .attributeError

/-- What happens next: the main thread makes a step (`rand` is the tag it draws, if it makes a command); its wait
loop in `execute_command` times out; `start_transmitting` resets the list (196); bytes arrive; the reading thread makes
a step (`env` are the texts in what its callback prints); a serial error. -/
inductive Event
  | main (rand : UInt8)
  | timeout
  | restart
  | rx (bytes : List UInt8)
  | reader (env : Print.Env)
  | serialError

/-- An `execute_command` or `connect` in progress makes a step, or has ended: with an exception or not. -/
def State.callStep (s : State) (next : Stage) : Option State :=
  if s.modem.main = .idle then
    match s.modem.outcomes.getLast? with
    | some (.raised _) => some { s with stage := .failed }
    | _ => some { s with stage := next }
  else (s.modem.step .main).map fun m => { s with modem := m }

/-- A command is made and `execute_command` is called with a timeout of one second. -/
def State.executeStep (s : State) (next : Stage) : Except PyErr Command → Option State
  | .error _ => some { s with stage := .failed }
  | .ok c => (s.modem.step (.call (.execute c 1))).map fun m => { s with modem := m, stage := next }

/-- examples/throughput_test.py 103-130: the next line of the main thread. `int(None, 16)` raises TypeError. -/
def State.mainStep (s : State) (rand : UInt8) : Option State :=
  match s.stage with
  | .made => (s.modem.step (.call (.connect true rand))).map fun m =>
      { s with modem := m, stage := .connecting }
  | .connecting => s.callStep .profile
  | .profile => s.executeStep .profileRunning (profileCommand rand)
  | .profileRunning => s.callStep .accessClass
  | .accessClass => s.executeStep .classRunning (classCommand rand)
  | .classRunning => s.callStep .built
  | .built => some { s with stage := .started, commands := some [] }
  | .started => if s.modem.uid.isSome then some { s with stage := .running }
      else some { s with stage := .failed }
  | .running => none
  | .failed => none

/-- The reading thread of the modem; at modem/modem.py 231 it runs `receiver_cmd_callback`. -/
def State.readerStep (s : State) (e : Print.Env) : Option State :=
  match s.modem.reader with
  | .callback _ m _ =>
    match receiverCallback e s.commands m with
    | .ok l => (s.modem.step .reader).map fun m => { s with modem := m, commands := l }
    | .error _ => (s.modem.step .callbackRaises).map fun m => { s with modem := m }
  | _ => (s.modem.step .reader).map fun m => { s with modem := m }

/-- One step of the program; none after its end. -/
def State.step (s : State) (e : Event) : Option State :=
  if s.stage = .failed then none
  else match e with
  | .main rand => s.mainStep rand
  | .timeout => (s.modem.step .timeout).map fun m => { s with modem := m }
  | .restart => if s.stage = .running then some { s with commands := some [] } else none
  | .rx bytes => (s.modem.step (.rx bytes)).map fun m => { s with modem := m }
  | .reader env => s.readerStep env
  | .serialError => (s.modem.step .serialError).map fun m => { s with modem := m }

/-- A sequence of steps. -/
def State.run (s : State) : List Event → Option State
  | [] => some s
  | e :: es => (s.step e).bind fun s => s.run es

end Verif.Throughput
