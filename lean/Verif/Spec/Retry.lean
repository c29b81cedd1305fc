import Verif.Spec.Late
import Verif.Spec.Examples

/-! Specification vocabulary for the loop of examples/engineering_mode.py that executes a command until it is
confirmed. -/

namespace Verif.Modem

open Verif Verif.Serial

variable {D : Type}

/-- `execute_command` is called with the default timeout (modem/modem.py 145), other things happen (calls of other methods
do not), and the call has returned: its result is `r`. A list is seen as it is in the end. -/
def Net.Called (g : Gateway D) (c : Command) (s : Net D) (r : Except PyErr (List Command)) (s' : Net D) : Prop :=
  ∃ es o, (∀ call, .net (.call call) ∉ es) ∧ s.runLate g (.net (.call (.execute c 10)) :: es) = some s' ∧
    s'.modem.outcomes = s.modem.outcomes ++ [o] ∧
    r = match o with
      | .list n => .ok (content s'.modem.responses n)
      | .raised e => .error e
      | _ => .ok []

/-- The same in an interleaving in which no hand-over of an ALP message overlaps with the lines of `execute_command` that
prepare for the responses (modem/modem.py 152-157). -/
def Net.CalledCalmly (g : Gateway D) (c : Command) (s : Net D) (r : Except PyErr (List Command)) (s' : Net D) : Prop :=
  ∃ es o, (∀ call, .net (.call call) ∉ es) ∧ s.runLate g (.net (.call (.execute c 10)) :: es) = some s' ∧
    s.Calm g (.net (.call (.execute c 10)) :: es) ∧
    s'.modem.outcomes = s.modem.outcomes ++ [o] ∧
    r = match o with
      | .list n => .ok (content s'.modem.responses n)
      | .raised e => .error e
      | _ => .ok []

/-- The answer says that the execution is completed, and that there was no error. -/
def Clean (x : Command) : Prop := x.executionCompleted = true ∧ x.completedWithError = some false

/-- Every message of an answer of the device says whether there was an error: it has a tag response and not a tag request. -/
def Gateway.Reports (g : Gateway D) : Prop :=
  ∀ d tag payload rs y, Answers tag (g.handle d payload).2 rs → y ∈ rs → y.completedWithError ≠ none

/-- The device confirms the execution of this payload in this state: one of its answers is clean. -/
def Gateway.Confirms (g : Gateway D) (d : D) (tag : Int) (payload : List UInt8) : Prop :=
  ∃ rs x, Answers tag (g.handle d payload).2 rs ∧ x ∈ rs ∧ Clean x

end Verif.Modem
