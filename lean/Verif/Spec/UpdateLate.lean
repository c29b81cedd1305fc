import Verif.Spec.Retry
import Verif.Model.Update

/-! Specification vocabulary for the update program (examples/write_update.py) when calls time out and answers come late. -/

namespace Verif.Modem

open Verif Verif.Serial

variable {D : Type}

/-- The commands are executed one after the other; `called` says what a call can do, `exec` what each of them returned. -/
inductive Net.Series (called : Command → Net D → Except PyErr (List Command) → Net D → Prop) (exec : Update.Exec) :
    Nat → List Command → Net D → Net D → Prop
  | nil (n : Nat) (s : Net D) : Net.Series called exec n [] s s
  | cons (n : Nat) (c : Command) (cs : List Command) (s s1 s' : Net D) : called c s (exec n c) s1 →
      Net.Series called exec (n + 1) cs s1 s' → Net.Series called exec n (c :: cs) s s'

/-- The number of pieces of 239 bytes; the last one may be shorter. -/
def pieceCount (file : List UInt8) : Nat := (file.length + 238) / 239

/-- Piece number `k` of the file, to be written to file 200. -/
def piece (file : List UInt8) (k : Nat) : FileOp := .write 200 (239 * k) ((file.drop (239 * k)).take 239)

/-- The payload for piece number `k`. -/
def pieceBytes (rand : Nat → UInt8) (file : List UInt8) (k : Nat) : List UInt8 :=
  requestBytes (rand (k + 1)) [piece file k]

/-- The payload of the first command of the program, and those of the first `k` pieces. -/
def programBytes (rand : Nat → UInt8) (file : List UInt8) (k : Nat) : List (List UInt8) :=
  requestBytes (rand 0) [.write 199 0 [0]] :: (List.range k).map (pieceBytes rand file)

/-- The device confirms the write of piece number `k` when it has processed `base`, the first command and the pieces before
this one. -/
def Gateway.Stored (g : Gateway D) (d : D) (base : List (List UInt8)) (rand : Nat → UInt8) (file : List UInt8)
    (k : Nat) : Prop :=
  g.Confirms (g.replies d (base ++ programBytes rand file k)).1 (rand (k + 1)).toNat (pieceBytes rand file k)

end Verif.Modem
