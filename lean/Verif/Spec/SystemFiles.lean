import Verif.Spec.RoundTrip
import Verif.Spec.Built
import Verif.Model.SystemTable

/-! Specification vocabulary for the system files. -/

namespace Verif

/-! An object is `Built` if its constructor can produce it (see `Verif/Spec/Built.lean`). -/

def SubProfile.Built (p : SubProfile) : Prop :=
  SubProfile.new p.subbandBitmap p.scanAutomationPeriod = .ok p ∧ p.scanAutomationPeriod.Built
def AccessProfile.Built (a : AccessProfile) : Prop :=
  AccessProfile.new a.channelHeader a.subProfiles a.subBands = .ok a ∧
  (∀ p ∈ a.subProfiles, p.Built) ∧ ∀ b ∈ a.subBands, b.Built
def UidFile.Built (f : UidFile) : Prop := UidFile.new f.uid = .ok f
def VidFile.Built (f : VidFile) : Prop := VidFile.new f.vid f.control = .ok f
def FirmwareVersionFile.Built (f : FirmwareVersionFile) : Prop :=
  FirmwareVersionFile.new f.d7apMajor f.d7apMinor f.fsMajor f.fsMinor f.applicationName f.gitSha1
    = .ok f
def EngineeringModeFile.Built (f : EngineeringModeFile) : Prop :=
  EngineeringModeFile.new f.mode f.flags f.timeout f.channelId f.eirp = .ok f ∧ f.channelId.Built
def DllConfigFile.Built (f : DllConfigFile) : Prop :=
  DllConfigFile.new f.activeAccessClass f.lqFilter f.nfCtrl f.rxNfMethodParameter
    f.txNfMethodParameter = .ok f
def DllStatusFile.Built (f : DllStatusFile) : Prop :=
  DllStatusFile.new f.lastRxPacketLevel f.lastRxPacketLinkBudget f.noiseFloor f.channelHeader
    f.channelIndex f.scanTimeoutRatio f.scanCount f.scanTimeoutCount = .ok f
def AccessProfileFile.Built (f : AccessProfileFile) : Prop :=
  AccessProfileFile.new f.accessSpecifier f.accessProfile = .ok f ∧
  ∀ p, f.accessProfile = some p → p.Built
def SecurityKeyFile.Built (f : SecurityKeyFile) : Prop := SecurityKeyFile.new f.key = .ok f
def RootAuthenticationKeyFile.Built (f : RootAuthenticationKeyFile) : Prop :=
  RootAuthenticationKeyFile.new f.key = .ok f
def UserAuthenticationKeyFile.Built (f : UserAuthenticationKeyFile) : Prop :=
  UserAuthenticationKeyFile.new f.key = .ok f
/-- The stored smoothing exponent differs from the argument, so some arguments must exist. -/
def FactorySettingsFile.Built (f : FactorySettingsFile) : Prop :=
  ∃ args, FactorySettingsFile.new args = .ok f
/-- The stored lists may be longer than the passed ones, so some arguments must exist. -/
def PhyStatusFile.Built (f : PhyStatusFile) : Prop :=
  ∃ ids floors, PhyStatusFile.new f.upTime f.rxTime f.txTime f.txDutyCycle
    f.channelStatusListLength ids floors = .ok f ∧ ∀ i ∈ ids, i.Built

/-- `bytearray(x)` succeeds with `n` bytes; parsing these bytes with `p`, whatever bytes follow,
returns `y` having read exactly the first `m` of them. -/
def RoundTripsReading {α : Type} (g : Gen) (p : P α) (y : α) (n m : Nat) : Prop :=
  ∃ bs, bytearray g = .ok bs ∧ bs.length = n ∧ ∀ following,
    p (stream (bs ++ following)) = .ok y ⟨8 * m, bytesToBits (bs.drop m ++ following)⟩

/-- An ASCII string. -/
def Ascii (s : List Nat) : Prop := ∀ c ∈ s, c < 128

/-- A string filled up with spaces to `n` characters. -/
def padded (s : List Nat) (n : Nat) : List Nat := s ++ List.replicate (n - s.length) 32

/-- The value of a little-endian byte string. -/
def leValue : List UInt8 → Nat
  | [] => 0
  | b :: bs => b.toNat + 256 * leValue bs

/-! Number of bytes of a D7ASP interface configuration. -/

/-- Bytes of an addressee: control, access class, identifier. -/
def addresseeSize (a : Addressee) : Nat :=
  2 + match a.idType with
    | .NBID => 1 | .NOID => 0 | .VID => 2 | .UID => 8

/-- Bytes of an interface configuration object. -/
def ifaceSize : IfaceConfig → Nat
  | .d7asp c => 2 + addresseeSize c.addressee
  | .abp _ => 11
  | .otaa _ => 3

/-- Number of bytes a system file object serialises to. -/
def fileSize : SystemFile → Nat
  | .uid _ => 8
  | .factorySettings _ => 56
  | .firmwareVersion _ => 17
  | .engineeringMode _ => 9
  | .vid _ => 3
  | .phyStatus f => 15 + 3 * f.channelStatusListLength.toNat
  | .dllConfig _ => 7
  | .dllStatus _ => 16
  | .securityKey _ => 16
  | .rootKey _ => 40
  | .userKey _ => 40
  | .accessProfile f => match f.accessProfile with
    | some p => 1 + 2 * p.subProfiles.length + 7 * p.subBands.length
    | none => 0
  | .interfaceConfiguration f => 1 + match f.interfaceConfiguration.config with
    | some c => ifaceSize c
    | none => 0
  | .notImplemented f => f.data.length

/-- Accepted by the constructor of its class. -/
def SystemFile.Built : SystemFile → Prop
  | .uid f => f.Built
  | .factorySettings f => f.Built
  | .firmwareVersion f => f.Built
  | .engineeringMode f => f.Built
  | .vid f => f.Built
  | .phyStatus f => f.Built
  | .dllConfig f => f.Built
  | .dllStatus f => f.Built
  | .securityKey f => f.Built
  | .rootKey f => f.Built
  | .userKey f => f.Built
  | .accessProfile f => f.Built
  | .interfaceConfiguration f => ∀ c, f.interfaceConfiguration.config = some (.d7asp c) → c.Built
  | .notImplemented _ => True

/-- A system file `f` that the content `bs` of the file `id` stands for: the file has a parser, the
content is not longer than the file's declared length, and the parser returns `f`. -/
def Interprets (id : Int) (bs : List UInt8) : SystemFile → Prop
  | .uid f => id = 0x00 ∧ bs.length ≤ 8 ∧ ∃ s, UidFile.parse (stream bs) = .ok f s
  | .factorySettings f =>
    id = 0x01 ∧ bs.length ≤ 56 ∧ ∃ s, FactorySettingsFile.parse (stream bs) = .ok f s
  | .firmwareVersion f =>
    id = 0x02 ∧ bs.length ≤ 17 ∧ ∃ s, FirmwareVersionFile.parse (stream bs) = .ok f s
  | .engineeringMode f =>
    id = 0x05 ∧ bs.length ≤ 9 ∧ ∃ s, EngineeringModeFile.parse (stream bs) = .ok f s
  | .vid f => id = 0x06 ∧ bs.length ≤ 3 ∧ ∃ s, VidFile.parse (stream bs) = .ok f s
  | .phyStatus f => id = 0x09 ∧ bs.length ≤ 45 ∧ ∃ s, PhyStatusFile.parse (stream bs) = .ok f s
  | .dllConfig f => id = 0x0A ∧ bs.length ≤ 7 ∧ ∃ s, DllConfigFile.parse (stream bs) = .ok f s
  | .dllStatus f => id = 0x0B ∧ bs.length ≤ 16 ∧ ∃ s, DllStatusFile.parse (stream bs) = .ok f s
  | .securityKey f =>
    id = 0x0E ∧ bs.length ≤ 16 ∧ ∃ s, SecurityKeyFile.parse (stream bs) = .ok f s
  | .rootKey f =>
    id = 0x18 ∧ bs.length ≤ 40 ∧ ∃ s, RootAuthenticationKeyFile.parse (stream bs) = .ok f s
  | .userKey f =>
    id = 0x19 ∧ bs.length ≤ 40 ∧ ∃ s, UserAuthenticationKeyFile.parse (stream bs) = .ok f s
  | .accessProfile f => (0x20 ≤ id ∧ id ≤ 0x2E) ∧ bs.length ≤ 65 ∧
    ∃ s, AccessProfileFile.parse (stream bs) = .ok f s
  | .interfaceConfiguration _ => False
  | .notImplemented _ => False

/-- The classes whose objects always have the same size. -/
def SystemFile.fixedSize : SystemFile → Bool
  | .phyStatus _ | .accessProfile _ | .interfaceConfiguration _ | .notImplemented _ => false
  | _ => true

end Verif
