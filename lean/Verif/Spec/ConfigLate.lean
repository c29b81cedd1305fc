import Verif.Model.Programs
import Verif.Spec.Tables
import Verif.Spec.Programs
import Verif.Spec.FileProgram

/-! Specification vocabulary for the configuration programs when answers can be late. -/

namespace Verif.Modem

open Verif Verif.Serial Verif.Examples

variable {D : Type}

/-- `connect` is called (modem/modem.py 89; `r` is the tag that it draws), other things happen (calls of other methods do
not), and the call has ended: by the exception `e`, if it is one. The programs do not look at the result. -/
def Net.ConnectEnds (g : Gateway D) (r : UInt8) (s : Net D) (e : Option PyErr) (s' : Net D) : Prop :=
  ∃ es o, (∀ call, .net (.call call) ∉ es) ∧ s.runLate g (.net (.call (.connect true r)) :: es) = some s' ∧
    s'.modem.outcomes = s.modem.outcomes ++ [o] ∧
    e = match o with
      | .raised e => some e
      | _ => none

/-- The same if `connect` has returned True. -/
def Net.ConnectSucceeds (g : Gateway D) (r : UInt8) (s : Net D) (e : Option PyErr) (s' : Net D) : Prop :=
  e = none ∧ Net.Connected g r s s'

/-- `execute_command` as the programs call it. -/
def Net.Executes (g : Gateway D) (s : Net D) (c : Command) (r : Except PyErr (List Command)) (s' : Net D) : Prop :=
  Net.Called g c s r s'

/-- The options of examples/change_access_profile.py that are accepted. -/
def ProfileOk (a : ProfileArgs) : Prop :=
  (∃ ch, ChannelID.fromString a.channelId = .ok ch) ∧ (0 ≤ a.scanAutomationPeriod ∧ a.scanAutomationPeriod ≤ 507904) ∧
    (0 ≤ a.subbandBitmap ∧ a.subbandBitmap ≤ 255) ∧ (-128 ≤ a.eirp ∧ a.eirp ≤ 127) ∧
    (0 ≤ a.specifier ∧ a.specifier ≤ 14)

/-- The access profile file with these options, bit by bit: channel header, four sub-profiles, eight sub-bands. -/
def ProfileBytes (a : ProfileArgs) (bs : List UInt8) : Prop :=
  ∃ ch period, ChannelID.fromString a.channelId = .ok ch ∧ CT.compress a.scanAutomationPeriod = .ok (some period) ∧
    bs.length = 65 ∧
    bytesToBits bs = fieldBits (Table.fields (ch.channelHeader.table ++
      (List.replicate 4 ((8, some a.subbandBitmap) :: period.table)).flatten ++
      (List.replicate 8 [(16, some ch.channelIndex), (16, some ch.channelIndex), signedInt 8 a.eirp,
        (8, some 86), (8, some 255)]).flatten))

/-- The factory settings that are accepted, and the file with them. -/
def FactoryOk (args f : FactorySettingsFile) : Prop :=
  FactorySettingsFile.new args = .ok f ∧ 0 ≤ f.gain ∧ 0 ≤ f.rssiOffset ∧
    (0 ≤ f.preambleTolLo ∧ f.preambleTolLo ≤ 255) ∧ (0 ≤ f.preambleTolNormal ∧ f.preambleTolNormal ≤ 255) ∧
    (0 ≤ f.preambleTolHi ∧ f.preambleTolHi ≤ 255)

/-- Between `d` and `d'`, the engineering mode file with these options has come to file 5, and before it, if one of the two
factory options was given, the factory settings with them to file 1; nothing else has changed. -/
def EngineeringPut (a : EngineeringArgs) (d d' : UInt8 → Nat → UInt8) : Prop :=
  ∃ m ch eb fb d1, ChannelID.fromString a.channelId = .ok ch ∧ EngineeringModeMode.fromString a.mode = .ok m ∧
    eb.length = 9 ∧ fb.length = 56 ∧
    bytesToBits eb = fieldBits (SystemFile.engineeringMode
      ⟨m, 0, if m = .PER_TX ∧ a.timeout = 0 then 255 else a.timeout, ch, a.eirp⟩).fields ∧
    (a.factoryGaussian ≠ 0xFF ∨ a.factoryParamp ≠ 0xFF →
      bytesToBits fb = fieldBits (SystemFile.factorySettings { SystemFiles.defaultFactorySettings with
        gaussian := a.factoryGaussian, paramp := a.factoryParamp }).fields) ∧
    (if a.factoryGaussian ≠ 0xFF ∨ a.factoryParamp ≠ 0xFF then Put 1 fb d d1 else d1 = d) ∧ Put 5 eb d1 d'

end Verif.Modem
