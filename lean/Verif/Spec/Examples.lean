import Verif.Props.Factories
import Verif.Model.Examples

/-! Specification vocabulary for the example programs. -/

namespace Verif.Examples

/-- The operations that are serialised to characters instead of numbers in part: those with file data, and an
interface status. -/
def Text : Operation → Prop
  | .writeFileData d => d.length.value ≠ 0 ∧ d.data ≠ []
  | .returnFileData d => d.length.value ≠ 0 ∧ d.data ≠ []
  | .interfaceStatus _ => True
  | _ => False

/-- A command with such an operation. -/
def CarriesText (c : Command) : Prop :=
  ∃ a, (c.interfaceStatus = some a ∨ a ∈ c.actions) ∧ Text a.operation

/-- The write of these bytes to the start of a file. -/
def writeFields (file : Int) (bs : List UInt8) : List (Nat × Nat) :=
  [(8, 0x04), (8, file.toNat), (2, 0), (6, 0)] ++ Length.fields ⟨bs.length⟩ ++ bs.map fun b => (8, b.toNat)

/-- The forward header of the option `-f`: preferred responses, no retry, no dormant timeout; addressed to about
two devices with access class 0x11. -/
def forwardOption (forward : Bool) : List (Nat × Nat) :=
  if forward then [(8, 0x32), (8, 0xD7), (8, 0x06), (8, 0), (8, 0x00), (8, 0x11), (8, 2)] else []

/-- The first action of the command returns or writes this file data. -/
def FirstData (c : Command) (data : List Int) : Prop :=
  ∃ a, c.actions.head? = some a ∧
    ∃ d, (a.operation = .returnFileData d ∨ a.operation = .writeFileData d) ∧ d.data = data

end Verif.Examples
