import Verif.Props.Factories
import Verif.Model.Update

/-! Specification vocabulary for sending a file in pieces. -/

namespace Verif.Update

/-- The command is sent as: tag request, then the write of these bytes at this offset of that file. -/
def Sends (c : Command) (tag : UInt8) (file : Nat) (w : Nat × List UInt8) : Prop :=
  HasLayout c.iter (tagFields tag.toNat ++ [(8, 0x04), (8, file)] ++ Length.fields ⟨w.1⟩ ++
    Length.fields ⟨w.2.length⟩ ++ w.2.map fun b => (8, b.toNat))

/-- Writing bytes at an offset of a file; a gap is filled with zeros. -/
def store (file : List UInt8) (w : Nat × List UInt8) : List UInt8 :=
  file.take w.1 ++ List.replicate (w.1 - file.length) 0 ++ w.2 ++ file.drop (w.1 + w.2.length)

/-- A file after some writes. -/
def image (ws : List (Nat × List UInt8)) (file : List UInt8) : List UInt8 := ws.foldl store file

/-- Some answer says: completed, without error. -/
def Confirmed (answers : List Command) : Prop :=
  ∃ a ∈ answers, a.executionCompleted = true ∧ a.completedWithError = some false

end Verif.Update
