import Verif.Spec.SystemFiles
import Verif.Spec.Actions
import Verif.Spec.Layout

/-! Field tables of the wire format with the unused bits marked, and what it means that a parser reads them. -/

namespace Verif

/-- Big-endian bit fields: width and value; no value for bits that carry no information. -/
abbrev Table : Type := List (Nat × Option Int)

/-- The bits are the fields of the table, one after the other. -/
def Matches : Table → List Bool → Prop
  | [], bits => bits = []
  | f :: t, bits => ∃ field rest, bits = field ++ rest ∧ field.length = f.1 ∧
    (∀ v, f.2 = some v → (bitsToNat field : Int) = v) ∧ Matches t rest

/-- The parser returns `x` exactly if the stream starts with bits that match a table of `x`, and leaves the
stream after these bits. -/
def Decodes {α : Type} (p : P α) (tables : α → Table → Prop) : Prop :=
  ∀ s x s', p s = .ok x s' ↔ ∃ t bits, tables x t ∧ Matches t bits ∧ s.rest = bits ++ s'.rest ∧
    s'.pos = s.pos + bits.length

/-- The fields a serialiser has to write: unused bits are zero. -/
def Table.fields (t : Table) : List (Nat × Nat) := t.map fun f => (f.1, (f.2.getD 0).toNat)

/-- The bits that carry information. -/
def Table.used (t : Table) : List Bool := t.flatMap fun f => List.replicate f.1 f.2.isSome

/-- Whatever was read can be written again; the bytes written are the bytes read, but for the unused bits,
which become zero. -/
def Rewrites {α : Type} (p : P α) (iter : α → Gen) (table : α → Table) : Prop :=
  ∀ (read following : List UInt8) (x : α),
    p (stream (read ++ following)) = .ok x ⟨8 * read.length, bytesToBits following⟩ →
    ∃ written, bytearray (iter x) = .ok written ∧
      bytesToBits written = List.zipWith (· && ·) (table x).used (bytesToBits read)

/-- A flag. -/
def bit (b : Bool) : Nat × Option Int := (1, some (if b then 1 else 0))

/-- A signed number in two's complement. -/
def signedInt (w : Nat) (v : Int) : Nat × Option Int := (w, some (v % 2 ^ w))

/-- Bytes. -/
def octets (l : List Int) : Table := l.map fun v => (8, some v)

/-! ### Physical layer -/

def CT.table (c : CT) : Table := [(3, some c.exp), (5, some c.mant)]

def ChannelHeader.table (h : ChannelHeader) : Table :=
  [(1, none), (3, some h.channelBand.code),
   (2, some (match h.channelClass with | .LO_RATE => 0 | .LORA => 1 | .NORMAL_RATE => 2 | .HI_RATE => 3)),
   (2, some (match h.channelCoding with | .PN9 => 0 | .RFU => 1 | .FEC_PN9 => 2 | .CW => 3))]

def ChannelID.table (c : ChannelID) : Table := c.channelHeader.table ++ [(16, some c.channelIndex)]

def ChannelStatusIdentifier.table (c : ChannelStatusIdentifier) : Table :=
  [(3, some c.channelBand.code), (1, some c.channelBandwidth.code), (1, none), (11, some c.channelIndex)]

def SubBand.table (b : SubBand) : Table :=
  [(16, some b.channelIndexStart), (16, some b.channelIndexEnd), signedInt 8 b.eirp, (8, some b.cca),
   (8, some b.duty)]

/-! ### File system -/

def FilePermissions.table (p : FilePermissions) : Table :=
  [bit p.encrypted, bit p.executable, bit p.userReadable, bit p.userWriteable, bit p.userExecuteable,
   bit p.guestReadable, bit p.guestWriteable, bit p.guestExecuteable]

def FileProperties.table (p : FileProperties) : Table :=
  [bit p.actEnabled,
   (3, some (match p.actCondition with | .LIST => 0 | .READ => 1 | .WRITE => 2 | .WRITE_FLUSH => 3)),
   (2, none),
   (2, some (match p.storageClass with
     | .TRANSIENT => 0 | .VOLATILE => 1 | .RESTORABLE => 2 | .PERMANENT => 3))]

def FileHeader.table (h : FileHeader) : Table :=
  h.permissions.table ++ h.properties.table ++
  [(8, some h.alpCommandFileId), (8, some h.interfaceFileId), (32, some h.fileSize), (32, some h.allocatedSize)]

def FileHeaderOperand.table (o : FileHeaderOperand) : Table := (8, some o.fileId) :: o.fileHeader.table

/-! ### Session layer -/

/-- What the code makes of the identifier byte of an addressee of type NBID: the byte is taken for a number,
which is compressed. -/
def nbid (v : Int) : CT :=
  if v ≤ 31 then ⟨0, v⟩ else if v ≤ 124 then ⟨1, (v + 3) / 4⟩ else ⟨2, (v + 15) / 16⟩

/-- The identifier of an addressee. -/
def Addressee.IdTable (a : Addressee) (t : Table) : Prop :=
  match a.idType, a.id with
  | .NOID, .none => t = []
  | .VID, .int i => t = [(16, some i)]
  | .UID, .int i => t = [(64, some i)]
  | .NBID, .ct c => ∃ v, c = nbid v ∧ t = [(8, some v)]
  | _, _ => False

def Addressee.Tables (a : Addressee) (t : Table) : Prop := ∃ i, a.IdTable i ∧
  t = ([(2, none), (2, some (a.idType.code : Int)), (4, some (a.nlsMethod.code : Int)),
    (8, some a.accessClass)] : Table) ++ i

def QoS.table (q : QoS) : Table :=
  [bit q.stopOnErr, bit q.record, (3, some (match q.retryMod with | .NO => 0)),
   (3, some (match q.respMod with
     | .NO => 0 | .ALL => 1 | .ANY => 2 | .NO_RPT => 4 | .ON_ERROR => 5 | .PREFERRED => 6))]

def Configuration.Tables (c : Configuration) (t : Table) : Prop :=
  ∃ a, c.addressee.Tables a ∧ t = c.qos.table ++ c.dormTo.table ++ a

/-- The reception level is read as a signed number, but must not be negative. -/
def Status.Tables (s : Status) (t : Table) : Prop := s.rxLevel ≤ 127 ∧ ∃ a, s.addressee.Tables a ∧
  t = s.channelId.table ++ [signedInt 8 s.rxLevel, (8, some s.linkBudget), (8, some s.targetRxLevel),
    bit s.nls, bit s.missed, bit s.retry, bit s.unicast, (4, none), (8, some s.fifoToken),
    (8, some s.seqNr)] ++ s.responseTo.table ++ a

/-! ### ALP operands -/

/-- A length: two bits say how many further bytes the number takes. Every size is accepted. -/
def Length.Tables (l : Length) (t : Table) : Prop :=
  ∃ k : Nat, k < 4 ∧ t = [(2, some (k : Int)), (6 + 8 * k, some l.value)]

def Offset.Tables (o : Offset) (t : Table) : Prop := ∃ l, o.offset.Tables l ∧ t = (8, some o.id) :: l

def DataRequest.Tables (d : DataRequest) (t : Table) : Prop :=
  ∃ o l, d.offset.Tables o ∧ d.length.Tables l ∧ t = o ++ l

def Data.Tables (d : Data) (t : Table) : Prop :=
  ∃ o l, d.offset.Tables o ∧ d.length.Tables l ∧ t = o ++ l ++ octets d.data

/-- Only comparisons of a value with a file, without mask. -/
def QueryOperand.Tables (q : QueryOperand) (t : Table) : Prop :=
  q.type = .ARITH_COMP_WITH_VALUE ∧ q.maskPresent = false ∧ q.compareLength.value = q.compareValue.length ∧
  ∃ l o, q.compareLength.Tables l ∧ q.fileAOffset.Tables o ∧
    t = [(3, some 2), bit false, bit q.params.signedDataType, (3, some (match q.params.compType with
       | .INEQUALITY => 0 | .EQUALITY => 1 | .LESS_THAN => 2 | .LESS_THAN_OR_EQUAL_TO => 3
       | .GREATER_THAN => 4 | .GREATER_THAN_OR_EQUAL_TO => 5))] ++ l ++ octets q.compareValue ++ o

def LoRaWANABP.table (c : LoRaWANABP) : Table :=
  [(5, none), bit c.adrEnabled, bit c.requestAck, (1, none), (8, some c.appPort), (8, some c.dataRate),
   (32, some c.devAddr), (32, some c.netwId)]

def LoRaWANOTAA.table (c : LoRaWANOTAA) : Table :=
  [(5, none), bit c.adrEnabled, bit c.requestAck, (1, none), (8, some c.appPort), (8, some c.dataRate)]

/-! ### ALP actions -/

/-- The first byte of an action: two flags and the operation code. -/
def header (b7 b6 : Bool) (code : Int) : Table := [bit b7, bit b6, (6, some code)]

/-- The operand of a Forward: interface and its configuration; the host is not accepted. -/
def InterfaceConfiguration.Tables (c : InterfaceConfiguration) (t : Table) : Prop :=
  match c.interfaceId, c.config with
  | .SERIAL, none => t = [(8, some 1)]
  | .LORAWAN_ABP, some (.abp x) => t = (8, some 2) :: x.table
  | .LORAWAN_OTAA, some (.otaa x) => t = (8, some 3) :: x.table
  | .D7ASP, some (.d7asp x) => x.Built ∧ ∃ u, x.Tables u ∧ t = (8, some 0xD7) :: u
  | _, _ => False

/-- The operand of an interface status: interface, length, status. The length is ignored for the serial
interface; for D7ASP it only tells whether there is a status. -/
def InterfaceStatusOperand.Tables (o : InterfaceStatusOperand) (t : Table) : Prop :=
  ∃ n u, t = [(8, some o.interfaceId), (8, some n)] ++ u ∧
    ((o.interfaceId = 1 ∧ o.status = none ∧ u = []) ∨
     (o.interfaceId = 0xD7 ∧ match o.status with
        | none => n = 0 ∧ u = []
        | some s => n ≠ 0 ∧ s.Built ∧ s.Tables u))

/-- What the parser makes of an action; `none` is Python's `None`, returned for an action status. -/
def ActionTables (r : Option Action) (t : Table) : Prop :=
  match r with
  | none => t = header false false 34
  | some (.regular b7 b6 (.readFileData o)) => o.Built ∧ ∃ u, o.Tables u ∧ t = header b7 b6 1 ++ u
  | some (.regular b7 b6 (.writeFileData o)) => o.Built ∧ ∃ u, o.Tables u ∧ t = header b7 b6 4 ++ u
  | some (.regular b7 b6 (.breakQuery o)) => o.Built ∧ ∃ u, o.Tables u ∧ t = header b7 b6 9 ++ u
  | some (.regular b7 b6 (.createNewFile o)) => o.Built ∧ t = header b7 b6 17 ++ o.table
  | some (.regular b7 b6 (.returnFileData o)) => o.Built ∧ ∃ u, o.Tables u ∧ t = header b7 b6 32 ++ u
  | some (.regular b7 b6 (.returnFileHeader o)) => o.Built ∧ t = header b7 b6 33 ++ o.table
  | some (.status ext (.interfaceStatus o)) => ext = 1 ∧ ∃ u, o.Tables u ∧ t = header false true 34 ++ u
  | some (.tagResponse b7 b6 (.tagResponse o)) => t = header b7 b6 35 ++ [(8, some o.tagId)]
  | some (.forward b6 (.forward o)) => ∃ u, o.Tables u ∧ t = header false b6 50 ++ u
  | some (.indirectForward b7 b6 (.indirectForward o)) => match o.overload with
    | none => b7 = false ∧ t = header b7 b6 51 ++ [(8, some o.interfaceFileId)]
    | some a => b7 = true ∧ a.Built ∧ ∃ u, a.Tables u ∧ t = header b7 b6 51 ++ [(8, some o.interfaceFileId)] ++ u
  | some (.tagRequest b7 (.tagRequest o)) => t = header b7 false 52 ++ [(8, some o.tagId)]
  | _ => False

/-! ### System files -/

def SubProfile.table (p : SubProfile) : Table := (8, some p.subbandBitmap) :: p.scanAutomationPeriod.table

def AccessProfile.table (a : AccessProfile) : Table :=
  a.channelHeader.table ++ a.subProfiles.flatMap SubProfile.table ++ a.subBands.flatMap SubBand.table

def UidFile.table (f : UidFile) : Table := [(64, some f.uid)]

def VidFile.table (f : VidFile) : Table := [(16, some f.vid), (8, some f.control)]

/-- The characters of a string. -/
def chars (s : List Nat) : Table := s.map fun c : Nat => (8, some (c : Int))

def FirmwareVersionFile.table (f : FirmwareVersionFile) : Table :=
  [(8, some f.d7apMajor), (8, some f.d7apMinor), (8, some f.fsMajor), (8, some f.fsMinor)] ++
  chars f.applicationName ++ chars f.gitSha1

def EngineeringModeFile.table (f : EngineeringModeFile) : Table :=
  [(8, some (match f.mode with
     | .OFF => 0 | .CONT_TX => 1 | .TRANSIENT_TX => 2 | .PER_RX => 3 | .PER_TX => 4)),
   (8, some f.flags), (8, some f.timeout)] ++ f.channelId.table ++ [signedInt 8 f.eirp]

def DllConfigFile.table (f : DllConfigFile) : Table :=
  [(8, some f.activeAccessClass), (16, none), (8, some f.lqFilter), (8, some f.nfCtrl),
   (8, some f.rxNfMethodParameter), (8, some f.txNfMethodParameter)]

def DllStatusFile.table (f : DllStatusFile) : Table :=
  [(8, some f.lastRxPacketLevel), (8, some f.lastRxPacketLinkBudget), (8, some f.noiseFloor)] ++
  f.channelHeader.table ++
  [(16, some f.channelIndex), (16, some f.scanTimeoutRatio), (32, some f.scanCount),
   (32, some f.scanTimeoutCount)]

/-- A PHY status: a number of channels, each with its noise floor. -/
def PhyStatusFile.table (f : PhyStatusFile) : Table :=
  [(32, some f.upTime), (32, some f.rxTime), (32, some f.txTime), (16, some f.txDutyCycle),
   (8, some f.channelStatusListLength)] ++
  (List.zip f.channelStatusIdentifier f.channelNoiseFloor).flatMap fun c => c.1.table ++ [(8, some c.2)]

/-- Factory settings; `smoothing` is the number in the place of the RSSI smoothing. -/
def FactorySettingsFile.table (f : FactorySettingsFile) (smoothing : Int) : Table :=
  [signedInt 8 f.gain, (32, some f.rxBwLow), (32, some f.rxBwNormal), (32, some f.rxBwHigh),
   (32, some f.bitrateLo), (32, some f.fdevLo), (32, some f.bitrateNormal), (32, some f.fdevNormal),
   (32, some f.bitrateHi), (32, some f.fdevHi), (8, some f.preambleSizeLo), (8, some f.preambleSizeNormal),
   (8, some f.preambleSizeHi), (8, some f.preambleDetectorSizeLo), (8, some f.preambleDetectorSizeNormal),
   (8, some f.preambleDetectorSizeHi), (8, some f.preambleTolLo), (8, some f.preambleTolNormal),
   (8, some f.preambleTolHi), (8, some smoothing), (8, some f.rssiOffset), (32, some f.loraBw),
   (8, some f.loraSF), (8, some f.gaussian), (16, some f.paramp)]

/-! ### What is written -/

/-- A key, least significant byte first. -/
def keyTable (k : Int) : Table := (List.range 16).map fun i => (8, some (k / 256 ^ i % 256))

/-- The code of an interface. -/
def InterfaceType.code : InterfaceType → Nat
  | .HOST => 0 | .SERIAL => 1 | .LORAWAN_ABP => 2 | .LORAWAN_OTAA => 3 | .D7ASP => 0xD7

def IfaceConfig.fields : IfaceConfig → List (Nat × Nat)
  | .d7asp c => c.fields
  | .abp c => c.fields
  | .otaa c => c.fields

def InterfaceConfiguration.fields (c : InterfaceConfiguration) : List (Nat × Nat) :=
  (8, c.interfaceId.code) :: match c.config with
    | some x => x.fields
    | none => []

/-- The content of a system file. Names are filled up with spaces, and a PHY status has as many channels
as its number of channels says. -/
def SystemFile.fields : SystemFile → List (Nat × Nat)
  | .uid f => f.table.fields
  | .factorySettings f => (f.table f.rssiSmoothing).fields
  | .firmwareVersion f => ({ f with
      applicationName := padded f.applicationName 6
      gitSha1 := padded f.gitSha1 7 } : FirmwareVersionFile).table.fields
  | .engineeringMode f => Table.fields (f.table ++ [(16, none)])
  | .vid f => f.table.fields
  | .phyStatus f => ({ f with
      channelStatusIdentifier := f.channelStatusIdentifier.take f.channelStatusListLength.toNat
      channelNoiseFloor := f.channelNoiseFloor.take f.channelStatusListLength.toNat } :
        PhyStatusFile).table.fields
  | .dllConfig f => f.table.fields
  | .dllStatus f => f.table.fields
  | .securityKey f => (keyTable f.key).fields
  | .rootKey f => Table.fields (keyTable f.key ++ [(192, none)])
  | .userKey f => Table.fields (keyTable f.key ++ [(192, none)])
  | .accessProfile f => match f.accessProfile with
    | some p => p.table.fields
    | none => []
  | .interfaceConfiguration f => f.interfaceConfiguration.fields
  | .notImplemented f => byteFields f.data

/-- The code of an operation. -/
def Operation.code : Operation → Nat
  | .nop => 0 | .readFileData _ => 1 | .readFileHeader _ => 2 | .writeFileData _ => 4
  | .writeFileHeader _ => 6 | .breakQuery _ => 9 | .createNewFile _ => 17 | .returnFileData _ => 32
  | .returnFileHeader _ => 33 | .interfaceStatus _ => 34 | .tagResponse _ => 35 | .forward _ => 50
  | .indirectForward _ => 51 | .tagRequest _ => 52

/-- The operand of an operation. Data operands without data are left out altogether; an interface status
is written without the length that the parser expects. -/
def Operation.fields : Operation → List (Nat × Nat)
  | .nop => []
  | .readFileData o => o.fields
  | .readFileHeader o => [(8, o.fileId.toNat)]
  | .writeFileData o => if o.data = [] then [] else o.fields
  | .writeFileHeader o => o.fields
  | .breakQuery o => o.fields
  | .createNewFile o => o.fields
  | .returnFileData o => if o.data = [] then [] else o.fields
  | .returnFileHeader o => o.fields
  | .interfaceStatus o => (8, o.interfaceId.toNat) :: match o.status with
    | some s => s.fields
    | none => []
  | .tagResponse o => [(8, o.tagId.toNat)]
  | .forward o => o.fields
  | .indirectForward o => (8, o.interfaceFileId.toNat) :: match o.overload with
    | some a => a.fields
    | none => []
  | .tagRequest o => [(8, o.tagId.toNat)]

/-- An action: two flags, six bits for the operation, the operand. -/
def Action.fields (a : Action) : List (Nat × Nat) :=
  [flag a.flags.1, flag a.flags.2, (6, a.operation.code)] ++ a.operation.fields

end Verif
