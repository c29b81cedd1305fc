import Verif.Spec.UpdateLate

/-! Specification vocabulary for programs that connect to the modem and then execute commands. -/

namespace Verif.Modem

open Verif Verif.Serial

variable {D : Type}

/-- `connect` is called (modem/modem.py 89; `r` is the tag that it draws), other things happen (calls of other methods do
not), and it has returned True. -/
def Net.Connected (g : Gateway D) (r : UInt8) (s s' : Net D) : Prop :=
  ∃ es, (∀ call, .net (.call call) ∉ es) ∧ s.runLate g (.net (.call (.connect true r)) :: es) = some s' ∧
    s'.modem.outcomes = s.modem.outcomes ++ [.bool true]

/-- The payload of the question of `connect`: UID and firmware version, please. -/
def connectBytes (r : UInt8) : List UInt8 := [0xB4, r, 1, 0, 0, 8, 1, 2, 0, 17]

end Verif.Modem
