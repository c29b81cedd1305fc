import Verif.Model.SystemCommands

/-! Model of examples/write_update.py: sending a file to the modem in pieces. -/

namespace Verif.Update

/-- How the program ends: all pieces sent, "write failed", or an exception. -/
inductive Outcome
  | done
  | failed
  | raised (e : PyErr)
  deriving DecidableEq, Repr

/-- examples/write_update.py 105-108: whether some answer has completed without error; the attribute
`completed_with_error` may be missing. -/
def worked : List Command → Except PyErr Bool
  | [] => .ok false
  | a :: as =>
    if a.executionCompleted then
      match a.completedWithError with
      | none => .error .attributeError
      | some e => do
        let w ← worked as
        return !e || w
    else worked as

/-- examples/write_update.py 81, 92-101, 112: the command of one piece; `rand` is its random tag. -/
def chunkCommand (rand : UInt8) (length : Nat) (bytes : List UInt8) : Except PyErr Command := do
  let l ← Length.new length
  let o ← Offset.new 200 l
  let d ← Data.new (ords bytes) o
  return (Command.empty rand).addAction (.regular false false (.writeFileData d))

/-- What the modem is asked to do, and how it answers: `exec n c` is the result of the `n`-th call of
`execute_command`, which may be any list of commands or an exception. -/
abbrev Exec := Nat → Command → Except PyErr (List Command)

/-- examples/write_update.py 90-115: the loop. `content` is what has not been read yet. The result is the
list of commands handed to the modem, and the outcome. Printing is left out. -/
def loop (rand : Nat → UInt8) (exec : Exec) (n length : Nat) (content : List UInt8) :
    List Command × Outcome :=
  if h : content = [] then ([], .done)
  else match chunkCommand (rand n) length (content.take 239) with
    | .error e => ([], .raised e)
    | .ok c =>
      match exec n c with
      | .error e => ([c], .raised e)
      | .ok answ =>
        match worked answ with
        | .error e => ([c], .raised e)
        | .ok false => ([c], .failed)
        | .ok true =>
          let r := loop rand exec (n + 1) (length + 239) (content.drop 239)
          (c :: r.1, r.2)
termination_by content.length
decreasing_by
  have := List.length_pos_iff.2 h
  simp only [List.length_drop]
  omega

/-- examples/write_update.py 76-117: first a zero is written to file 199, then the file goes to file 200. -/
def update (rand : Nat → UInt8) (exec : Exec) (content : List UInt8) : List Command × Outcome :=
  match Command.createWithWriteFileAction (rand 0) 199 [0] 0 .HOST none with
  | .error e => ([], .raised e)
  | .ok c =>
    match exec 0 c with
    | .error e => ([c], .raised e)
    | .ok _ =>
      let r := loop rand exec 1 0 content
      (c :: r.1, r.2)

/-- examples/write_update.py 102, 113: the progress in percent that is printed after `k` pieces; integer
division of Python 2. -/
def progress (k total : Nat) : Nat := k * 239 * 100 / total

end Verif.Update
