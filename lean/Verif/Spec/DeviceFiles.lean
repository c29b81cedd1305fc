import Verif.Spec.Device
import Verif.Spec.SystemFiles

/-! Specification of when a system file object survives being written to a device and read from it. -/

namespace Verif

/-- The file objects that are read as they were written: no key file, no factory settings and none of the files without
a parser; names of full length; at most 10 channels, and lists of as many entries as there are channels; the first
access profile, with 8 sub bands. -/
def SystemFile.Survives : SystemFile → Prop
  | .uid _ | .engineeringMode _ | .vid _ | .dllConfig _ | .dllStatus _ => True
  | .firmwareVersion f => f.applicationName.length = 6 ∧ f.gitSha1.length = 7
  | .phyStatus f => f.channelStatusListLength ≤ 10 ∧
    (f.channelStatusIdentifier.length : Int) = f.channelStatusListLength ∧
    (f.channelNoiseFloor.length : Int) = f.channelStatusListLength
  | .accessProfile f => f.accessSpecifier = 0 ∧ ∃ p, f.accessProfile = some p ∧ p.subBands.length = 8
  | .factorySettings _ | .securityKey _ | .rootKey _ | .userKey _ | .interfaceConfiguration _ | .notImplemented _ => False

end Verif
