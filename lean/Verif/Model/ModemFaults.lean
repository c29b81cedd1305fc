import Verif.Model.Modem

/-! Model of modem/modem.py on a serial port whose writes can fail, around the threads of Model/Modem.lean. -/

namespace Verif.Modem

open Verif Verif.Serial

/-- The modem, and how many calls ended with the SerialException of a write. -/
structure Faulty where
  modem : State
  failures : Nat
  deriving DecidableEq, Repr

/-- modem/modem.py 52-87 -/
def Faulty.init (config : Config) : Faulty := ⟨Modem.init config, 0⟩

/-- The events of Model/Modem; the write of the frame, or the flush after it, raises SerialException after `n` bytes have
left. -/
inductive FaultyEvent
  | inner (e : Event)
  | writeFails (n : Nat)
  deriving DecidableEq, Repr

namespace Faulty

/-- modem/modem.py 158-160: nobody catches the exception, so it leaves `with self.lock` (which releases the lock),
`execute_command` and, if this is the caller, `connect`. -/
def failStep (s : Faulty) (n : Nat) : Option Faulty :=
  match s.modem.main with
  | .run .write _ _ frame _ =>
    if n ≤ frame.length then
      some { modem := { s.modem with main := .idle, written := s.modem.written ++ frame.take n },
             failures := s.failures + 1 }
    else none
  | _ => none

/-- One step of the system; `none` if the event cannot happen in this state. -/
def step (s : Faulty) : FaultyEvent → Option Faulty
  | .inner e => (s.modem.step e).map fun m => { s with modem := m }
  | .writeFails n => s.failStep n

/-- A sequence of steps. -/
def run (s : Faulty) : List FaultyEvent → Option Faulty
  | [] => some s
  | e :: es => (s.step e).bind fun s => s.run es

end Faulty
end Verif.Modem
