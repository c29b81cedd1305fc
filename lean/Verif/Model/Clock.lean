import Verif.Model.Modem

/-! Model of modem/modem.py with time: the wait loop of `execute_command` in its single steps, around the threads of
Model/Modem.lean. Moments and readings of the clock are whole microseconds. -/

namespace Verif.Modem

open Verif Verif.Serial

/-- Where the wait loop is: `off`: not in it; about to read the start time (modem/modem.py 167); about to read
`_sync_execution_completed` in the condition (168); about to read the clock in the condition; in `time.sleep` until a
moment (169); about to read `_sync_execution_completed` after the loop (171). `began` is `start_time`. -/
inductive WaitPlace
  | off
  | start
  | check (began : Int)
  | compare (began : Int)
  | sleep (began : Int) (til : Int)
  | final
  deriving DecidableEq, Repr

/-- The modem, the moment of the last step, the place in the wait loop, and the moment since when the application thread
could make its next step there. -/
structure Timed where
  modem : State
  now : Int
  place : WaitPlace
  due : Int
  deriving DecidableEq, Repr

/-- modem/modem.py 52-87 -/
def Timed.init (config : Config) (now : Int) : Timed := ⟨Modem.init config, now, .off, now⟩

/-- A step of Model/Modem outside the wait loop, or a step of the application thread in the wait loop. -/
inductive TimedEvent
  | other (e : Event)
  | wait
  deriving DecidableEq, Repr

/-- The number of microseconds `execute_command` waits at most; `timeout_seconds` is a whole number here. -/
def micros (timeout : Int) : Int := timeout * 1000000

/-- `timeout_seconds` of the call that is in the wait loop. -/
def State.waiting (s : State) : Option Int :=
  match s.main with
  | .run .wait _ _ _ timeout => some timeout
  | _ => none

namespace Timed

/-- A step outside the wait loop; the loop is entered when the frame has been written (modem/modem.py 163-167). -/
def otherStep (s : Timed) (t : Int) (e : Event) : Option Timed :=
  if s.place ≠ .off ∧ (e = .main ∨ e = .timeout) then none
  else (s.modem.step e).map fun m =>
    if s.place = .off ∧ m.waiting.isSome then ⟨m, t, .start, t⟩ else { s with modem := m, now := t }

/-- modem/modem.py 167-175: a step in the wait loop. `clock t` is what `datetime.now()` says at the moment `t`; the
difference of two readings is compared as a whole number of microseconds (`total_seconds()` makes it a float). `time.sleep`
does not end early. -/
def waitStep (clock : Int → Int) (s : Timed) (t : Int) : Option Timed :=
  match s.modem.waiting, s.place with
  | some _, .start => some { s with now := t, place := .check (clock t), due := t }
  | some _, .check began =>
    if s.modem.completed then some { s with now := t, place := .final, due := t }
    else some { s with now := t, place := .compare began, due := t }
  | some timeout, .compare began =>
    if clock t - began < micros timeout then
      some { s with now := t, place := .sleep began (t + 50000), due := t + 50000 }
    else some { s with now := t, place := .final, due := t }
  | some _, .sleep began til => if t < til then none else some { s with now := t, place := .check began, due := t }
  | some _, .final => s.modem.timeoutStep.map fun m => ⟨m, t, .off, t⟩
  | _, _ => none

/-- One step at the moment `t`; `none` if the event cannot happen then. -/
def step (clock : Int → Int) (s : Timed) (t : Int) (e : TimedEvent) : Option Timed :=
  if t < s.now then none
  else match e with
    | .other e => s.otherStep t e
    | .wait => s.waitStep clock t

/-- A sequence of steps, each with its moment. -/
def run (clock : Int → Int) (s : Timed) : List (Int × TimedEvent) → Option Timed
  | [] => some s
  | (t, e) :: es => (s.step clock t e).bind fun s => s.run clock es

end Timed
end Verif.Modem
