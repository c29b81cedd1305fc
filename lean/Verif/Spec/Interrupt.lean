import Verif.Spec.ModemCallers
import Verif.Spec.ModemWrite

/-! Specification vocabulary for a signal handler that executes a command (examples/engineering_mode.py 63-78, 107). The
handler runs in the main thread of the program, between two instructions of what this thread was doing. In the model of
many threads (Model/ModemCallers) it is a thread of its own, and from the signal on the threads it has interrupted (the
main program, or an earlier run of the handler) do not move. -/

namespace Verif.Modem

/-- What can happen while the handler, thread `i`, is running: it makes a step, its time is over, or something happens in
the reading thread. Callbacks do not call the modem (they do not in the program). -/
def During (i : Nat) : CallersEvent → Prop
  | .call _ _ _ => False
  | .step j => j = i
  | .timeout j => j = i
  | _ => True

/-- The handler makes a step, or its time is over. -/
def Moves (i : Nat) (e : CallersEvent) : Bool := decide (e = .step i ∨ e = .timeout i)

end Verif.Modem
