import Verif.Spec.Device
import Verif.Model.Update

/-! Specification vocabulary for the update program (examples/write_update.py) with a modem and a device that keeps
files. -/

namespace Verif.Modem

open Verif Verif.Serial

variable {D : Type}

/-- `execute_command` is called with the default timeout (modem/modem.py 145), other things happen, and the call has
returned: its result is `r`. A list is seen as it is in the end. -/
def Returned (dev : Device D) (s : Loop D) (c : Command) (r : Except PyErr (List Command)) (s' : Loop D) : Prop :=
  ∃ es o, (∀ e ∈ es, ∀ call, e ≠ .call call) ∧ s.run dev (.call (.execute c 10) :: es) = some s' ∧
    s'.modem.outcomes = s.modem.outcomes ++ [o] ∧
    r = match o with
      | .list n => .ok (content s'.modem.responses n)
      | .raised e => .error e
      | _ => .ok []

/-- The commands are executed one after the other, and `exec` says what each call returned. -/
inductive Executed (dev : Device D) (exec : Update.Exec) : Nat → List Command → Loop D → Loop D → Prop
  | nil (n : Nat) (s : Loop D) : Executed dev exec n [] s s
  | cons (n : Nat) (c : Command) (cs : List Command) (s s1 s' : Loop D) :
      Returned dev s c (exec n c) s1 → Executed dev exec (n + 1) cs s1 s' → Executed dev exec n (c :: cs) s s'

end Verif.Modem
