import Verif.Spec.Program

/-! Specification vocabulary for programs that read and write files of a device. -/

namespace Verif.Modem

open Verif Verif.Serial

variable {D : Type}

/-- A device that keeps a byte for each file and offset. It answers a command of file operations by doing them all, with one
message that tells what was read, or it refuses the whole command and says so. -/
def Gateway.Keeps (g : Gateway D) (files : D → UInt8 → Nat → UInt8) : Prop :=
  ∀ x (tag : UInt8) ops rs, (∀ op ∈ ops, op.Valid) → Answers tag.toNat (g.handle x (requestBytes tag ops)).2 rs →
    rs = [answered tag (memory.results (files x) ops)] ∧
      files (g.handle x (requestBytes tag ops)).1 = memory.after (files x) ops ∨
    (∀ r ∈ rs, ¬ Clean r) ∧ files (g.handle x (requestBytes tag ops)).1 = files x

/-- The commands of a program that reads and writes files: the tag and the operations of each. -/
def fileCommands (prog : List (UInt8 × List FileOp)) : List Command := prog.map fun x => request x.1 x.2

/-- One of the messages that a call returned says that the command was executed without an error. -/
def confirmed : Except PyErr (List Command) → Bool
  | .ok rs => rs.any fun x => x.executionCompleted && decide (x.completedWithError = some false)
  | .error _ => false

/-- The operations of the commands that were confirmed; `n` calls were made before. -/
def confirmedOps (exec : Update.Exec) : Nat → List (UInt8 × List FileOp) → List FileOp
  | _, [] => []
  | n, x :: prog => (if confirmed (exec n (request x.1 x.2)) then x.2 else []) ++ confirmedOps exec (n + 1) prog

end Verif.Modem
