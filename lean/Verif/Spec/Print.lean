import Verif.Model.Print

/-! Specification vocabulary for the printed texts. -/

namespace Verif.Print

open Verif

/-- The files that can be printed: the strings of a firmware version are ASCII, a PHY status has as many
entries as it announces. -/
def Printable : SystemFile → Prop
  | .firmwareVersion f => (∀ c ∈ f.applicationName, c < 128) ∧ ∀ c ∈ f.gitSha1, c < 128
  | .phyStatus f => f.channelStatusListLength ≤ f.channelStatusIdentifier.length ∧
    f.channelStatusListLength ≤ f.channelNoiseFloor.length
  | _ => True

/-- The texts of dictionaries and of objects without `__str__` contain no tab. -/
structure Env.NoTabs (e : Env) : Prop where
  configuration : ∀ c, '\t' ∉ e.configuration c
  abp : ∀ c, '\t' ∉ e.abp c
  otaa : ∀ c, '\t' ∉ e.otaa c
  subProfile : ∀ c, '\t' ∉ e.subProfile c
  query : ∀ c, '\t' ∉ e.query c

/-! ### Objects that look the same -/

/-- Only the NLS method may differ. -/
def SameAddressee (a b : Addressee) : Prop :=
  a.accessClass = b.accessClass ∧ a.idType = b.idType ∧ a.id = b.id

/-- Only the NLS method of the addressee and channels with the same text may differ. -/
def SameStatus (a b : Status) : Prop :=
  a.unicast = b.unicast ∧ a.nls = b.nls ∧ a.retry = b.retry ∧ a.missed = b.missed ∧
  a.fifoToken = b.fifoToken ∧ a.rxLevel = b.rxLevel ∧ a.seqNr = b.seqNr ∧
  a.targetRxLevel = b.targetRxLevel ∧ SameAddressee a.addressee b.addressee ∧
  a.responseTo = b.responseTo ∧ a.linkBudget = b.linkBudget ∧ a.channelId.str = b.channelId.str

/-- Only the permissions may differ. -/
def SameHeader (a b : FileHeader) : Prop :=
  a.properties = b.properties ∧ a.alpCommandFileId = b.alpCommandFileId ∧
  a.interfaceFileId = b.interfaceFileId ∧ a.fileSize = b.fileSize ∧ a.allocatedSize = b.allocatedSize

def SameHeaderOperand (a b : FileHeaderOperand) : Prop :=
  a.fileId = b.fileId ∧ SameHeader a.fileHeader b.fileHeader

/-- The same interface and a configuration with the same text. -/
def SameInterface (e : Env) (a b : InterfaceConfiguration) : Prop :=
  a.interfaceId = b.interfaceId ∧ config e a.config = config e b.config

/-- Both missing or both present and related. -/
def SameOption {α : Type} (r : α → α → Prop) : Option α → Option α → Prop
  | .none, .none => True
  | some a, some b => r a b
  | _, _ => False

/-- Operations of the same class whose operands agree, up to what is not printed. -/
def SameOperation (e : Env) : Operation → Operation → Prop
  | .nop, .nop => True
  | .readFileData a, .readFileData b => a = b
  | .readFileHeader a, .readFileHeader b => a = b
  | .writeFileData a, .writeFileData b => a = b
  | .writeFileHeader a, .writeFileHeader b => SameHeaderOperand a b
  | .breakQuery a, .breakQuery b => e.query a = e.query b
  | .createNewFile a, .createNewFile b => SameHeaderOperand a b
  | .returnFileData a, .returnFileData b => a = b
  | .returnFileHeader a, .returnFileHeader b => SameHeaderOperand a b
  | .interfaceStatus a, .interfaceStatus b => a.interfaceId = b.interfaceId ∧ SameOption SameStatus a.status b.status
  | .tagResponse a, .tagResponse b => a = b
  | .forward a, .forward b => SameInterface e a b
  | .indirectForward a, .indirectForward b =>
    a.interfaceFileId = b.interfaceFileId ∧ SameOption SameAddressee a.overload b.overload
  | .tagRequest a, .tagRequest b => a = b
  | _, _ => False

/-- System files of the same class that agree, up to what is not printed. -/
def SameFile (e : Env) : SystemFile → SystemFile → Prop
  | .uid a, .uid b => a = b
  | .factorySettings a, .factorySettings b => a = b
  | .firmwareVersion a, .firmwareVersion b => a = b
  | .engineeringMode a, .engineeringMode b => a.mode = b.mode ∧ a.flags = b.flags ∧ a.timeout = b.timeout ∧
    a.channelId.str = b.channelId.str ∧ a.eirp = b.eirp
  | .vid a, .vid b => a = b
  | .phyStatus a, .phyStatus b => a = b
  | .dllConfig a, .dllConfig b =>
    a.activeAccessClass = b.activeAccessClass ∧ a.lqFilter = b.lqFilter ∧ a.nfCtrl = b.nfCtrl
  | .dllStatus a, .dllStatus b => a.lastRxPacketLevel = b.lastRxPacketLevel ∧
    a.lastRxPacketLinkBudget = b.lastRxPacketLinkBudget ∧ a.noiseFloor = b.noiseFloor ∧
    a.channelHeader.str = b.channelHeader.str ∧ a.channelIndex = b.channelIndex ∧
    a.scanTimeoutRatio = b.scanTimeoutRatio ∧ a.scanCount = b.scanCount ∧
    a.scanTimeoutCount = b.scanTimeoutCount
  | .securityKey a, .securityKey b => a = b
  | .rootKey a, .rootKey b => a = b
  | .userKey a, .userKey b => a = b
  | .accessProfile a, .accessProfile b => a.accessSpecifier = b.accessSpecifier ∧
    optional (accessProfile e) a.accessProfile = optional (accessProfile e) b.accessProfile
  | .interfaceConfiguration a, .interfaceConfiguration b =>
    SameInterface e a.interfaceConfiguration b.interfaceConfiguration
  | .notImplemented _, .notImplemented _ => True
  | _, _ => False

/-- Files as the parsers return them: the numbers printed in hexadecimal are not negative, names have at most
six ASCII characters, and the lists of a PHY status have the announced length. -/
def Plain : SystemFile → Prop
  | .uid f => 0 ≤ f.uid
  | .vid f => 0 ≤ f.vid ∧ 0 ≤ f.control
  | .engineeringMode f => 0 ≤ f.flags
  | .firmwareVersion f => (∀ c ∈ f.applicationName, c < 128) ∧ (∀ c ∈ f.gitSha1, c < 128) ∧
    f.applicationName.length ≤ 6
  | .phyStatus f => (f.channelStatusIdentifier.length : Int) = f.channelStatusListLength ∧
    (f.channelNoiseFloor.length : Int) = f.channelStatusListLength
  | _ => True

end Verif.Print
