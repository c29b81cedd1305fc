import Verif.Spec.Gateway

/-! Specification: commands that are executed without waiting for the answers. Nothing here is code of the
repository. -/

namespace Verif.Modem

open Verif Verif.Serial

variable {D : Type}

/-- What a device does with several commands, one after the other: its last state, and all its answers in order. -/
def Gateway.replies (g : Gateway D) (d : D) : List (List UInt8) → D × List (List UInt8)
  | [] => (d, [])
  | p :: ps =>
    ((g.replies (g.handle d p).1 ps).1, (g.handle d p).2 ++ (g.replies (g.handle d p).1 ps).2)

/-- The calls considered: commands with a tag that are executed with timeout 0, and all the other methods. -/
def Background : NetEvent → Prop
  | .call (.execute c timeout) => timeout = 0 ∧ ∃ tag, Taggable c tag
  | _ => True

/-- Nothing is going on: no call is in progress, the device has processed everything that was written and sent all its
answers, the modem has read everything and its reading thread waits for more. -/
structure Net.Settled (s : Net D) : Prop where
  main : s.modem.main = .idle
  taken : s.taken = s.modem.written.length
  pending : s.pending = []
  line : s.line = []
  reader : s.modem.reader = .reading

end Verif.Modem
