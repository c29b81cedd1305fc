import Verif.Model.Modem

/-! Model of `execute_command` called by any number of threads: several application threads, and the callbacks,
which run in the reading thread. Finer than Model/Modem: frames are built in the steps that touch shared
variables, the device takes one byte at a time, and `self.lock` is modelled. `connect` has been called before, if it is. -/

namespace Verif.Modem

open Verif Verif.Serial

/-- Where a thread is. In d7a/serial_modem_interface/parser.py: before line 66; before the read and the
assignment in line 71; before lines 72 and 73. In modem/modem.py: before line 152, 153, 154; before the assertion
(156), line 157; waiting for the lock (158); writing, with the bytes left (159-160); in the loop (168); before
lines 171 and 175. -/
inductive Place
  | counter
  | load
  | store (up : Int)
  | test
  | reset
  | resetList
  | resetTag
  | resetCompleted
  | check
  | setTag
  | acquire
  | writing (rest : List UInt8)
  | wait
  | final
  | ret
  deriving DecidableEq, Repr

/-- A thread: not in a call, or in `execute_command` (modem/modem.py 145-175) with the command, its bytes
(d7a/serial_modem_interface/parser.py 65), the frame (once it is built) and the timeout. -/
inductive Thread
  | idle
  | run (place : Place) (cmd : Command) (alp frame : List UInt8) (timeout : Int)
  deriving DecidableEq, Repr

/-- `inner` holds the shared variables and the reading thread (modem/modem.py 53-71); its fields `main` and
`outcomes` are not used. `lock` is the thread that holds `self.lock`. Thread number 0 is the reading thread while
it is in a callback; the others are threads of the application. `results`: how the calls ended, with the number
of the thread. -/
structure Callers where
  inner : State
  lock : Option Nat
  threads : List Thread
  results : List (Nat × Outcome)
  deriving DecidableEq, Repr

/-- A modem in state `m` (after modem/modem.py 52-87 and, if wanted, `connect`), with `n` application threads that
have it. -/
def Callers.start (m : State) (n : Nat) : Callers := ⟨m, none, List.replicate (n + 1) .idle, []⟩

/-- Thread `i` calls `execute_command`; it makes a step; its time is over; something else happens in the reading
thread: bytes, a step, an exception (as in Model/Modem). -/
inductive CallersEvent
  | call (i : Nat) (cmd : Command) (timeout : Int)
  | step (i : Nat)
  | timeout (i : Nat)
  | rx (bytes : List UInt8)
  | reader
  | callbackRaises
  | serialError
  deriving DecidableEq, Repr

/-- The reading thread is in a callback (modem/modem.py 231, 234). -/
def Reader.inCallback : Reader → Bool
  | .callback _ _ _ => true
  | .rebootedCallback _ _ _ => true
  | _ => false

namespace Callers

/-- Thread `i` gets to another place. -/
def goto (s : Callers) (i : Nat) (t : Thread) : Callers := { s with threads := s.threads.set i t }

/-- The call of thread `i` ends. -/
def finish (s : Callers) (i : Nat) (o : Outcome) : Callers :=
  { s with threads := s.threads.set i .idle, results := s.results ++ [(i, o)] }

/-- modem/modem.py 145-151 and d7a/serial_modem_interface/parser.py 64-65: a thread that is in no call starts one;
the reading thread only in a callback. -/
def call (s : Callers) (i : Nat) (cmd : Command) (timeout : Int) : Option Callers :=
  if s.threads[i]? = some .idle ∧ (i = 0 → s.inner.reader.inCallback = true) then
    match bytearray cmd.iter with
    | .error e => some (s.finish i (.raised e))
    | .ok alp => some (s.goto i (.run .counter cmd alp [] (if s.inner.config.skip then 0 else timeout)))
  else none

/-- One step of thread `i`: d7a/serial_modem_interface/parser.py 66-74, modem/modem.py 152-175. -/
def threadStep (s : Callers) (i : Nat) : Option Callers :=
  match s.threads[i]? with
  | none => none
  | some .idle => none
  | some (.run place cmd alp frame timeout) =>
    match place with
    | .counter =>
      match bytearray (.int 0xC0 ++ .int 0 ++ .int s.inner.parser.upCounter ++ .int 1 ++ .int alp.length) with
      | .error e => some (s.finish i (.raised e))
      | .ok head =>
        let crc := Crc.calculateCrc alp
        some (s.goto i (.run .load cmd alp (head ++ [crc.1, crc.2] ++ alp) timeout))
    | .load => some (s.goto i (.run (.store (s.inner.parser.upCounter + 1)) cmd alp frame timeout))
    | .store up =>
      some ({ s with inner.parser.upCounter := up }.goto i (.run .test cmd alp frame timeout))
    | .test =>
      some (s.goto i (.run (if s.inner.parser.upCounter > 255 then .reset else .resetList) cmd alp frame timeout))
    | .reset =>
      some ({ s with inner.parser.upCounter := 0 }.goto i (.run .resetList cmd alp frame timeout))
    | .resetList =>
      some ({ s with inner.responses := s.inner.responses ++ [[]] }.goto i (.run .resetTag cmd alp frame timeout))
    | .resetTag => some ({ s with inner.tag := none }.goto i (.run .resetCompleted cmd alp frame timeout))
    | .resetCompleted =>
      some ({ s with inner.completed := false }.goto i
        (.run (if timeout > 0 then .check else .acquire) cmd alp frame timeout))
    | .check =>
      if s.inner.tag = none then some (s.goto i (.run .setTag cmd alp frame timeout))
      else some (s.finish i (.raised (.assertion false)))
    | .setTag => some ({ s with inner.tag := cmd.tagId }.goto i (.run .acquire cmd alp frame timeout))
    | .acquire =>
      if s.lock = none then
        some ({ s with lock := some i }.goto i (.run (.writing frame) cmd alp frame timeout))
      else none
    | .writing (b :: rest) =>
      some ({ s with inner.written := s.inner.written ++ [b] }.goto i (.run (.writing rest) cmd alp frame timeout))
    | .writing [] =>
      if timeout = 0 then some ({ s with lock := none }.finish i .empty)
      else some ({ s with lock := none }.goto i (.run .wait cmd alp frame timeout))
    | .wait => if s.inner.completed then some (s.goto i (.run .final cmd alp frame timeout)) else none
    | .final =>
      if s.inner.completed then some (s.goto i (.run .ret cmd alp frame timeout))
      else some (s.finish i .empty)
    | .ret => some (s.finish i (.list (s.inner.responses.length - 1)))

/-- modem/modem.py 168: the loop ends because the time is over. -/
def timeoutStep (s : Callers) (i : Nat) : Option Callers :=
  match s.threads[i]? with
  | some (.run .wait cmd alp frame timeout) => some (s.goto i (.run .final cmd alp frame timeout))
  | _ => none

/-- One step of the system. The reading thread goes on after a callback only when the callback is not in a call. -/
def step (s : Callers) : CallersEvent → Option Callers
  | .call i cmd timeout => s.call i cmd timeout
  | .step i => s.threadStep i
  | .timeout i => s.timeoutStep i
  | .rx bytes => (s.inner.rxStep bytes).map fun x => { s with inner := x }
  | .reader => if s.threads[0]? = some .idle then s.inner.readerStep.map fun x => { s with inner := x } else none
  | .callbackRaises =>
    if s.threads[0]? = some .idle then s.inner.raiseStep.map fun x => { s with inner := x } else none
  | .serialError => s.inner.serialErrorStep.map fun x => { s with inner := x }

/-- A sequence of steps. -/
def run (s : Callers) : List CallersEvent → Option Callers
  | [] => some s
  | e :: es => (s.step e).bind fun s => s.run es

end Callers
end Verif.Modem
