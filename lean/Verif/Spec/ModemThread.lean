import Verif.Spec.Modem
import Verif.Model.ModemThread

/-! Specification vocabulary for stopping and restarting the reading thread. -/

namespace Verif.Modem

/-- What happens to the modem, leaving out everything about stopping and starting. -/
def modemEvents (es : List ThreadEvent) : List Event :=
  es.filterMap fun | .inner e => some e | _ => none

/-- The number of times bytes are read. -/
def readCount : List ThreadEvent → Nat
  | [] => 0
  | .inner (.rx _) :: es => readCount es + 1
  | _ :: es => readCount es

/-- Every `start_reading` follows an end of the thread that was not an exception. -/
def OrderlyStarts (s : Threads) (es : List ThreadEvent) : Prop :=
  ∀ pre post t, es = pre ++ .start :: post → s.run pre = some t → t.ended = true

end Verif.Modem
