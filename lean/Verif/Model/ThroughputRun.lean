import Verif.Model.Throughput
import Verif.Model.Senders

/-! Model of examples/throughput_test.py with a transmitter and a receiver: the main thread, which uses both modems, and
the two reading threads.

What is printed is left out. The dictionary of lists is a list, as in `Verif.Model.Throughput`. -/

namespace Verif.Throughput

open Verif Verif.Serial Verif.Modem Verif.Examples

/-- examples/throughput_test.py 81-95: the command that writes the access profile of the transmitter. -/
def senderProfile (rand : UInt8) : Except PyErr Command := do
  let ct ← CT.new 0 0
  let sp ← SubProfile.new 0x00 ct
  let sp0 ← SubProfile.new 0 ⟨0, 0⟩
  let sb ← SubBand.new 0 0 10 86 255
  let p ← AccessProfile.new ⟨.PN9, .NORMAL_RATE, .BAND_868⟩ [sp, sp0, sp0, sp0] [sb]
  let f ← AccessProfileFile.new 0 (some p)
  Command.createWithWriteSystemFile rand (.accessProfile f) .HOST none

/-- examples/throughput_test.py 55-56: the options `--msg-count` and `--payload-size`. -/
structure Args where
  count : Int
  size : Int
  deriving DecidableEq, Repr

/-- Where the main thread is: before and in `connect` of the transmitter (80); before and in the write of its access profile
(95-96); in 101-130, where it uses the receiver; before and in the write of the access class (137, 151); at 196; at
198-203; before 210 with so many messages still to be sent; in 210; at 213-216; at 224 with the number counted last; at
229-244 with this number; at the end; after an exception. -/
inductive Place
  | connect | connecting | profile | profileRunning | receiver
  | activate (p : Phase) | activating (p : Phase)
  | reset (p : Phase) | make (p : Phase)
  | send (p : Phase) (c : Command) (left : Nat) | sending (p : Phase) (c : Command) (left : Nat)
  | rate (p : Phase) | poll (p : Phase) (total : Nat) | check (p : Phase) (total : Nat)
  | done | failed
  deriving DecidableEq, Repr

/-- The transmitter, the receiver with the list of received commands, where the main thread is, and the verdicts printed
so far ("OK" is true). -/
structure Test where
  tx : Modem.State
  rx : State
  place : Place
  verdicts : List Bool
  deriving DecidableEq, Repr

/-- examples/throughput_test.py 79: a modem without callbacks. -/
def senderConfig : Config := ⟨false, false, false⟩

/-- examples/throughput_test.py 79; the receiver is made later (102), until then nothing happens to it. -/
def Test.start : Test := ⟨Modem.init senderConfig, init, .connect, []⟩

/-- The receiver has been made (102). -/
def Place.late : Place → Bool
  | .connect | .connecting | .profile | .profileRunning => false
  | _ => true

/-- The program has ended; the reading threads are daemons (modem/modem.py 181). -/
def Place.ended : Place → Bool
  | .done | .failed => true
  | _ => false

/-- examples/throughput_test.py 134-187: what comes after the verdict of a run. -/
def following : Phase → Place
  | .broadcastQos => .activate .broadcast
  | .broadcast => .reset .unicastQos
  | .unicastQos => .reset .unicast
  | .unicast => .done

/-- What happens next: the main thread makes a step (`rand` is the tag it draws, if it makes a command); the time is over
at 224; the clock has not advanced at 215, so that the quotient raises; the wait loop of `execute_command` times out;
bytes arrive at the transmitter, its reading thread makes a step, its serial line fails; the same at the
receiver. -/
inductive TestEvent
  | main (rand : UInt8)
  | late
  | sameTime
  | timeout
  | txBytes (bytes : List UInt8)
  | txReader
  | txError
  | rxBytes (bytes : List UInt8)
  | rxReader (env : Print.Env)
  | rxError

/-- A method of the transmitter makes a step, or has ended: with an exception or not. -/
def Test.callStep (s : Test) (next : Place) : Option Test :=
  if s.tx.main = .idle then
    match s.tx.outcomes.getLast? with
    | some (.raised _) => some { s with place := .failed }
    | _ => some { s with place := next }
  else (s.tx.step .main).map fun m => { s with tx := m }

/-- `execute_command` of the transmitter is called with a command that has just been made. -/
def Test.executeStep (s : Test) (next : Place) (timeout : Int) : Except PyErr Command → Option Test
  | .error _ => some { s with place := .failed }
  | .ok c => (s.tx.step (.call (.execute c timeout))).map fun m => { s with tx := m, place := next }

/-- examples/throughput_test.py 79-96, 101-130, 134-187, 192-244: the next line of the main thread. The interface
configuration (138-145 and so on) is made together with the command (198-203), one step later than in the code. Counting
the received commands (225) and looking at their payload (230-237) are one step each. A negative number of messages
is none (207). -/
def Test.mainStep (a : Args) (s : Test) (rand : UInt8) : Option Test :=
  match s.place with
  | .connect => (s.tx.step (.call (.connect true rand))).map fun m => { s with tx := m, place := .connecting }
  | .connecting => s.callStep .profile
  | .profile => s.executeStep .profileRunning 1 (senderProfile rand)
  | .profileRunning => s.callStep .receiver
  | .receiver =>
    if s.rx.stage = .running then some { s with place := .activate .broadcastQos }
    else if s.rx.stage = .failed then some { s with place := .failed }
    else (s.rx.step (.main rand)).map fun r => { s with rx := r }
  | .activate p => s.executeStep (.activating p) 1 (classCommand rand)
  | .activating p => s.callStep (.reset p)
  | .reset p => (s.rx.step .restart).map fun r => { s with rx := r, place := .make p }
  | .make p =>
    match s.rx.modem.uid with
    | none => none
    | some uid =>
      match p.command rand uid a.size with
      | .error _ => some { s with place := .failed }
      | .ok c => some { s with place := .send p c a.count.toNat }
  | .send p _ 0 => some { s with place := .rate p }
  | .send p c (n + 1) => s.executeStep (.sending p c n) 100 (.ok c)
  | .sending p c n => s.callStep (.send p c n)
  | .rate p => some { s with place := .poll p 0 }
  | .poll p total =>
    if (total : Int) < a.count then
      match s.rx.commands with
      | none => none
      | some l => some { s with place := .poll p l.length }
    else some { s with place := .check p total }
  | .check p total =>
    match s.rx.commands with
    | none => none
    | some l =>
      match verdict (payload a.size) a.count total l with
      | .error _ => some { s with place := .failed }
      | .ok b => some { s with place := following p, verdicts := s.verdicts ++ [b] }
  | .done => none
  | .failed => none

/-- One step of the program; none after its end. -/
def Test.step (a : Args) (s : Test) (e : TestEvent) : Option Test :=
  if s.place.ended then none
  else match e with
  | .main rand => s.mainStep a rand
  | .late =>
    match s.place with
    | .poll p total => if (total : Int) < a.count then some { s with place := .check p total } else none
    | _ => none
  | .sameTime =>
    match s.place with
    | .rate _ => some { s with place := .failed }
    | _ => none
  | .timeout =>
    match s.place with
    | .receiver => (s.rx.step .timeout).map fun r => { s with rx := r }
    | _ => (s.tx.step .timeout).map fun m => { s with tx := m }
  | .txBytes bytes => (s.tx.step (.rx bytes)).map fun m => { s with tx := m }
  | .txReader => (s.tx.step .reader).map fun m => { s with tx := m }
  | .txError => (s.tx.step .serialError).map fun m => { s with tx := m }
  | .rxBytes bytes => if s.place.late then (s.rx.step (.rx bytes)).map fun r => { s with rx := r } else none
  | .rxReader env => if s.place.late then (s.rx.step (.reader env)).map fun r => { s with rx := r } else none
  | .rxError => if s.place.late then (s.rx.step .serialError).map fun r => { s with rx := r } else none

/-- A sequence of steps. -/
def Test.run (a : Args) (s : Test) : List TestEvent → Option Test
  | [] => some s
  | e :: es => (s.step a e).bind fun s => s.run a es

end Verif.Throughput
