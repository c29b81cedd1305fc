import Verif.Model.HexTool

/-! Specification vocabulary for the hexadecimal text given to the tool. -/

namespace Verif.HexTool

/-- `c` is the digit for `n`, in lower or upper case. -/
def IsDigit (c : Char) (n : Nat) : Prop :=
  "0123456789abcdef".toList[n]? = some c ∨ "0123456789ABCDEF".toList[n]? = some c

/-- A text of two digits per byte, with any number of spaces anywhere. -/
inductive Written : List UInt8 → List Char → Prop
  | nil : Written [] []
  | space {bs s} : Written bs s → Written bs (' ' :: s)
  | byte {b : UInt8} {bs s} {h l : Char} (gap : List Char) : IsDigit h (b.toNat / 16) →
      IsDigit l (b.toNat % 16) → (∀ c ∈ gap, c = ' ') → Written bs s →
      Written (b :: bs) (h :: (gap ++ l :: s))

/-- Blanks, tabs, line ends and the like. -/
def Blank (s : List Char) : Prop := ∀ c ∈ s, c ∈ [' ', '\t', '\n', '\x0b', '\x0c', '\r']

/-- The text stands for the bytes: written as above, with blanks before and after. -/
def Spells (s : List Char) (bs : List UInt8) : Prop :=
  ∃ before text after, s = before ++ text ++ after ∧ Blank before ∧ Blank after ∧ Written bs text

/-- What the tool should show for an object: the text of a command or file on a line; for messages, a line for each (a
command, the characters of a log text, the number of a reboot reason) and a line with `info`. -/
def Shows (e : Print.Env) (info : Serial.Output → Print.Text) (t : Print.Text) : Printed → Prop
  | .command c => ∃ x, Print.command e c = .ok x ∧ t = x ++ ['\n']
  | .file f => ∃ x, Print.systemFile e f = .ok x ∧ t = x ++ ['\n']
  | .messages o => ∃ xs : List Print.Text, List.Forall₂ (fun m x => match m with
      | (_, .command c) => Print.command e c = .ok x
      | (_, .bytes b) => x = b.map fun y => Char.ofNat y.toNat
      | (_, .rebooted n) => x = Print.dec n) o.cmds xs ∧
      t = (xs.map (· ++ ['\n'])).flatten ++ info o ++ ['\n']

end Verif.HexTool
