import Verif.Model.ThroughputRun
import Verif.Model.HexTool

/-! Model of examples/throughput_test.py with one device only: a transmitter without a receiver, and a receiver without a
transmitter.

What is printed is left out, except for the verdict. -/

namespace Verif.Throughput

open Verif Verif.Serial Verif.Modem Verif.Examples

/-- Which devices the program uses. -/
inductive Mode | sender (uid : List Char) | receiver | both
  deriving DecidableEq, Repr

/-- examples/throughput_test.py 69-75: the options `--serial-transmitter` and `--serial-receiver` (given or not) and
`--unicast-uid`; `argparser.error` ends the program (none). -/
def mode (transmitter receiver : Bool) (uid : Option (List Char)) : Option Mode :=
  if transmitter = false ∧ receiver = false then none
  else if receiver = false then uid.map .sender
  else if transmitter = false then some .receiver
  else some .both

/-- A hexadecimal digit. -/
def isHex (c : Char) : Bool := (HexTool.hexDigit c).isSome

/-- The prefix `0x`, which `int(s, 16)` (examples/throughput_test.py 132) skips if a digit follows. -/
def skipPrefix : List Char → List Char
  | '0' :: 'x' :: c :: r => if isHex c then c :: r else '0' :: 'x' :: c :: r
  | '0' :: 'X' :: c :: r => if isHex c then c :: r else '0' :: 'X' :: c :: r
  | s => s

/-- examples/throughput_test.py 132: `int(s, 16)` of Python 2 for a byte string: white space, a sign, white space, a
prefix, digits, white space. -/
def hexInt (s : List Char) : Except PyErr Int :=
  let p := splitSign (s.dropWhile isWhite)
  let s := skipPrefix (p.2.dropWhile isWhite)
  let digits := s.takeWhile isHex
  let value := digits.foldl (fun v c => 16 * v + (HexTool.hexDigit c).getD 0) 0
  if digits ≠ [] ∧ (s.dropWhile isHex).all isWhite then .ok (if p.1 then -(value : Int) else value)
  else .error .valueError

/-! ### A transmitter without a receiver -/

/-- Where the main thread is: before and in `connect` (80); before and in the write of the access profile (95-96); at
132; before and in the write of the access class (137, 151); at 138-145 and so on, and 198-203; before 210 with so
many messages still to be sent; in 210; at 213-216; at the end; after an exception. -/
inductive SPlace
  | connect | connecting | profile | profileRunning | address
  | activate (p : Phase) | activating (p : Phase) | make (p : Phase)
  | send (p : Phase) (c : Command) (left : Nat) | sending (p : Phase) (c : Command) (left : Nat)
  | rate (p : Phase) | done | failed
  deriving DecidableEq, Repr

/-- The transmitter, where the main thread is, and the address (132). -/
structure Sender where
  tx : Modem.State
  place : SPlace
  address : Option Int
  deriving DecidableEq, Repr

/-- examples/throughput_test.py 79 -/
def Sender.start : Sender := ⟨Modem.init senderConfig, .connect, none⟩

/-- examples/throughput_test.py 134-187: what comes after a run. -/
def afterRun : Phase → SPlace
  | .broadcastQos => .activate .broadcast
  | .broadcast => .make .unicastQos
  | .unicastQos => .make .unicast
  | .unicast => .done

/-- What happens next: the main thread makes a step (`rand` is the tag it draws, if it makes a command); the clock has
not advanced at 215; the wait loop of `execute_command` times out; bytes arrive; the reading thread makes a step; the
serial line fails. -/
inductive SenderEvent
  | main (rand : UInt8)
  | sameTime
  | timeout
  | rx (bytes : List UInt8)
  | reader
  | serialError

/-- A method of the transmitter makes a step, or has ended: with an exception or not. -/
def Sender.callStep (s : Sender) (next : SPlace) : Option Sender :=
  if s.tx.main = .idle then
    match s.tx.outcomes.getLast? with
    | some (.raised _) => some { s with place := .failed }
    | _ => some { s with place := next }
  else (s.tx.step .main).map fun m => { s with tx := m }

/-- `execute_command` is called with a command that has just been made. -/
def Sender.executeStep (s : Sender) (next : SPlace) (timeout : Int) : Except PyErr Command → Option Sender
  | .error _ => some { s with place := .failed }
  | .ok c => (s.tx.step (.call (.execute c timeout))).map fun m => { s with tx := m, place := next }

/-- examples/throughput_test.py 79-99, 126-132, 134-187, 192-220: the next line of the main thread; `count` and `size` are
the options, `uid` is the argument of `--unicast-uid`. `wait_for_receiver` only prints a text (219-220). -/
def Sender.mainStep (a : Args) (uid : List Char) (s : Sender) (rand : UInt8) : Option Sender :=
  match s.place with
  | .connect => (s.tx.step (.call (.connect true rand))).map fun m => { s with tx := m, place := .connecting }
  | .connecting => s.callStep .profile
  | .profile => s.executeStep .profileRunning 1 (senderProfile rand)
  | .profileRunning => s.callStep .address
  | .address =>
    match hexInt uid with
    | .error _ => some { s with place := .failed }
    | .ok v => some { s with place := .activate .broadcastQos, address := some v }
  | .activate p => s.executeStep (.activating p) 1 (classCommand rand)
  | .activating p => s.callStep (.make p)
  | .make p =>
    match s.address with
    | none => none
    | some v =>
      match p.command rand v a.size with
      | .error _ => some { s with place := .failed }
      | .ok c => some { s with place := .send p c a.count.toNat }
  | .send p _ 0 => some { s with place := .rate p }
  | .send p c (n + 1) => s.executeStep (.sending p c n) 100 (.ok c)
  | .sending p c n => s.callStep (.send p c n)
  | .rate p => some { s with place := afterRun p }
  | .done => none
  | .failed => none

/-- One step of the program; none after its end. -/
def Sender.step (a : Args) (uid : List Char) (s : Sender) (e : SenderEvent) : Option Sender :=
  if s.place = .done ∨ s.place = .failed then none
  else match e with
  | .main rand => s.mainStep a uid rand
  | .sameTime =>
    match s.place with
    | .rate _ => some { s with place := .failed }
    | _ => none
  | .timeout => (s.tx.step .timeout).map fun m => { s with tx := m }
  | .rx bytes => (s.tx.step (.rx bytes)).map fun m => { s with tx := m }
  | .reader => (s.tx.step .reader).map fun m => { s with tx := m }
  | .serialError => (s.tx.step .serialError).map fun m => { s with tx := m }

/-- A sequence of steps. -/
def Sender.run (a : Args) (uid : List Char) (s : Sender) : List SenderEvent → Option Sender
  | [] => some s
  | e :: es => (s.step a uid e).bind fun s => s.run a uid es

/-! ### A receiver without a transmitter -/

/-- Where the main thread is: in 101-130; at 224 with the number counted last; at 229-244 with this number; at the end
with the verdict ("OK" is true); after an exception. -/
inductive LPlace | setup | poll (total : Nat) | check (total : Nat) | done (ok : Bool) | failed
  deriving DecidableEq, Repr

/-- The receiver and where the main thread is. -/
structure Listener where
  rx : State
  place : LPlace
  deriving DecidableEq, Repr

/-- examples/throughput_test.py 102 -/
def Listener.start : Listener := ⟨init, .setup⟩

/-- What happens next, as for the receiver on its own (a reset of the list does not happen); or the time is over at
224. -/
inductive ListenerEvent
  | main (rand : UInt8)
  | late
  | timeout
  | rx (bytes : List UInt8)
  | reader (env : Print.Env)
  | serialError

/-- examples/throughput_test.py 101-130, 188-190, 222-244: the next line of the main thread. -/
def Listener.mainStep (a : Args) (s : Listener) (rand : UInt8) : Option Listener :=
  match s.place with
  | .setup =>
    if s.rx.stage = .running then some { s with place := .poll 0 }
    else if s.rx.stage = .failed then some { s with place := .failed }
    else (s.rx.step (.main rand)).map fun r => { s with rx := r }
  | .poll total =>
    if (total : Int) < a.count then
      match s.rx.commands with
      | none => none
      | some l => some { s with place := .poll l.length }
    else some { s with place := .check total }
  | .check total =>
    match s.rx.commands with
    | none => none
    | some l =>
      match verdict (payload a.size) a.count total l with
      | .error _ => some { s with place := .failed }
      | .ok b => some { s with place := .done b }
  | .done _ => none
  | .failed => none

/-- The program has ended. -/
def LPlace.ended : LPlace → Bool
  | .done _ | .failed => true
  | _ => false

/-- One step of the program; none after its end. -/
def Listener.step (a : Args) (s : Listener) (e : ListenerEvent) : Option Listener :=
  if s.place.ended then none
  else match e with
  | .main rand => s.mainStep a rand
  | .late =>
    match s.place with
    | .poll total => if (total : Int) < a.count then some { s with place := .check total } else none
    | _ => none
  | .timeout => (s.rx.step .timeout).map fun r => { s with rx := r }
  | .rx bytes => (s.rx.step (.rx bytes)).map fun r => { s with rx := r }
  | .reader env => (s.rx.step (.reader env)).map fun r => { s with rx := r }
  | .serialError => (s.rx.step .serialError).map fun r => { s with rx := r }

/-- A sequence of steps. -/
def Listener.run (a : Args) (s : Listener) : List ListenerEvent → Option Listener
  | [] => some s
  | e :: es => (s.step a e).bind fun s => s.run a es

end Verif.Throughput
