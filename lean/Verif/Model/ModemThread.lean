import Verif.Model.Modem

/-! Model of `start_reading` and `stop_reading` of modem/modem.py around the threads of Model/Modem.lean. -/

namespace Verif.Modem

open Verif Verif.Serial

/-- `inner` is the modem; `active` is `self._read_async_active`; `inRead` tells whether the reading thread is
inside `dev.read` (line 206) or before the test of line 204, if it is not busy with messages; `ended` whether it
has left the loop; `stopping` whether the application thread waits in `join` (line 187). -/
structure Threads where
  inner : State
  active : Bool
  inRead : Bool
  ended : Bool
  stopping : Bool
  deriving DecidableEq, Repr

/-- modem/modem.py 52-87, with the call of `start_reading` (178-182). -/
def Threads.init (config : Config) : Threads := ⟨Modem.init config, true, false, false, false⟩

/-- The events of Model/Modem; the reading thread tests the flag (line 204); `dev.read` returns nothing (it has
been cancelled); the application calls `stop_reading` (184-186), `join` returns (187), the application
calls `start_reading`. -/
inductive ThreadEvent
  | inner (e : Event)
  | test
  | emptyRead
  | stop
  | joined
  | start
  deriving DecidableEq, Repr

namespace Threads

/-- The thread has ended, by leaving the loop or by an exception. -/
def over (s : Threads) : Bool :=
  s.ended || (match s.inner.reader with | .dead _ => true | _ => false)

/-- A step of the modem, if the thread that makes it can: modem/modem.py 184-187 keeps the application thread
busy; bytes and errors come from `dev.read`. -/
def innerStep (s : Threads) (e : Event) : Option Threads :=
  match e with
  | .call _ => if s.stopping then none else (s.inner.step e).map fun i => { s with inner := i }
  | .main => if s.stopping then none else (s.inner.step e).map fun i => { s with inner := i }
  | .timeout => if s.stopping then none else (s.inner.step e).map fun i => { s with inner := i }
  | .rx _ => if s.inRead then (s.inner.step e).map fun i => { s with inner := i, inRead := false } else none
  | .serialError => if s.inRead then (s.inner.step e).map fun i => { s with inner := i, inRead := false } else none
  | .reader => if s.ended then none else (s.inner.step e).map fun i => { s with inner := i }
  | .callbackRaises => if s.ended then none else (s.inner.step e).map fun i => { s with inner := i }

/-- modem/modem.py 178-187, 204-206. A second `start_reading` while the thread is running would make two
threads with one parser; that is not modelled. The messages that a thread has not handed over when an exception
ends it are lost. `cancel_read` makes the current or the next `dev.read` return nothing; in the model this can
happen at any time. -/
def step (s : Threads) : ThreadEvent → Option Threads
  | .inner e => s.innerStep e
  | .test =>
    if s.inner.reader = .reading ∧ s.inRead = false ∧ s.ended = false then
      if s.active then some { s with inRead := true } else some { s with ended := true }
    else none
  | .emptyRead => if s.inRead then some { s with inRead := false } else none
  | .stop =>
    if s.inner.main = .idle ∧ s.stopping = false then some { s with active := false, stopping := true } else none
  | .joined => if s.stopping ∧ s.over then some { s with stopping := false } else none
  | .start =>
    if s.inner.main = .idle ∧ s.stopping = false ∧ s.over then
      some { s with active := true, ended := false, inRead := false, inner := { s.inner with reader := .reading } }
    else none

/-- A sequence of steps. -/
def run (s : Threads) : List ThreadEvent → Option Threads
  | [] => some s
  | e :: es => (s.step e).bind fun s => s.run es

end Threads
end Verif.Modem
