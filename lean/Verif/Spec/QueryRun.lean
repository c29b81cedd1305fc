import Verif.Model.QueryRun

/-! Specification: runs of examples/query_nodes.py in which everything is in time. Nothing here is code of the
repository. -/

namespace Verif.Modem.Query

/-- No call times out, no callback raises, the line does not fail. -/
def InTime : Event → Prop
  | .other .timeout => False
  | .other .callbackRaises => False
  | .other .serialError => False
  | _ => True

/-- The number of bytes of log texts and reboot messages sent in these events. -/
def notices : List Event → Nat
  | [] => 0
  | .other (.net e) :: es => noticeBytes [e] + notices es
  | _ :: es => notices es

end Verif.Modem.Query
