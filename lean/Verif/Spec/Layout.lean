import Verif.Spec.RoundTrip
import Verif.Spec.Built

/-! Wire layouts: lists of (width in bits, value), most significant first, written down from the
format tables (not from the serialisation code). -/

namespace Verif

/-! ## Codes of the enumerations -/

def ChannelBand.code : ChannelBand → Nat
  | .NOT_IMPL => 0 | .BAND_433 => 2 | .BAND_868 => 3 | .BAND_915 => 4

def Bandwidth.code : Bandwidth → Nat
  | .kHz25 => 1 | .kHz200 => 0

def IdType.code : IdType → Nat
  | .NBID => 0 | .NOID => 1 | .UID => 2 | .VID => 3

def NlsMethod.code : NlsMethod → Nat
  | .NONE => 0 | .AES_CTR => 1 | .AES_CBC_MAC_128 => 2 | .AES_CBC_MAC_64 => 3
  | .AES_CBC_MAC_32 => 4 | .AES_CCM_128 => 5 | .AES_CCM_64 => 6 | .AES_CCM_32 => 7

/-! ## Layouts -/

/-- A flag. -/
def flag (b : Bool) : Nat × Nat := (1, if b then 1 else 0)

/-- Byte strings as 8-bit fields. -/
def byteFields (l : List Int) : List (Nat × Nat) := l.map fun b => (8, b.toNat)

/-- A compressed time: 3-bit exponent, 5-bit mantissa. -/
def CT.fields (c : CT) : List (Nat × Nat) := [(3, c.exp.toNat), (5, c.mant.toNat)]

/-- Channel header: RFU bit, band, class, coding. -/
def ChannelHeader.fields (h : ChannelHeader) : List (Nat × Nat) :=
  [(1, 0),
   (3, h.channelBand.code),
   (2, match h.channelClass with | .LO_RATE => 0 | .LORA => 1 | .NORMAL_RATE => 2 | .HI_RATE => 3),
   (2, match h.channelCoding with | .PN9 => 0 | .RFU => 1 | .FEC_PN9 => 2 | .CW => 3)]

def ChannelID.fields (c : ChannelID) : List (Nat × Nat) :=
  c.channelHeader.fields ++ [(16, c.channelIndex.toNat)]

/-- Channel status identifier: band, bandwidth, RFU bit, 11-bit index. -/
def ChannelStatusIdentifier.fields (c : ChannelStatusIdentifier) : List (Nat × Nat) :=
  [(3, c.channelBand.code),
   (1, c.channelBandwidth.code), (1, 0),
   (11, c.channelIndex.toNat)]

/-- Subband: first and last channel index, signed EIRP, CCA, duty. -/
def SubBand.fields (b : SubBand) : List (Nat × Nat) :=
  [(16, b.channelIndexStart.toNat), (16, b.channelIndexEnd.toNat), (8, (b.eirp % 256).toNat),
   (8, b.cca.toNat), (8, b.duty.toNat)]

def FilePermissions.fields (p : FilePermissions) : List (Nat × Nat) :=
  [flag p.encrypted, flag p.executable, flag p.userReadable, flag p.userWriteable,
   flag p.userExecuteable, flag p.guestReadable, flag p.guestWriteable, flag p.guestExecuteable]

def FileProperties.fields (p : FileProperties) : List (Nat × Nat) :=
  [flag p.actEnabled,
   (3, match p.actCondition with | .LIST => 0 | .READ => 1 | .WRITE => 2 | .WRITE_FLUSH => 3),
   (2, 0),
   (2, match p.storageClass with
     | .TRANSIENT => 0 | .VOLATILE => 1 | .RESTORABLE => 2 | .PERMANENT => 3)]

def FileHeader.fields (h : FileHeader) : List (Nat × Nat) :=
  h.permissions.fields ++ h.properties.fields ++
  [(8, h.alpCommandFileId.toNat), (8, h.interfaceFileId.toNat), (32, h.fileSize.toNat),
   (32, h.allocatedSize.toNat)]

def FileHeaderOperand.fields (o : FileHeaderOperand) : List (Nat × Nat) :=
  (8, o.fileId.toNat) :: o.fileHeader.fields

/-- The identifier of an addressee: nothing, one compressed time byte, 2 or 8 bytes. -/
def Addressee.idFields (a : Addressee) : List (Nat × Nat) :=
  match a.idType, a.id with
  | .NBID, .ct c => c.fields
  | .VID, .int i => [(16, i.toNat)]
  | .UID, .int i => [(64, i.toNat)]
  | _, _ => []

/-- Addressee: 2 RFU bits, id type, security method, access class, identifier. -/
def Addressee.fields (a : Addressee) : List (Nat × Nat) :=
  [(2, 0), (2, a.idType.code),
   (4, a.nlsMethod.code), (8, a.accessClass.toNat)] ++ a.idFields

/-- QoS: stop on error, record, retry mode, response mode. -/
def QoS.fields (q : QoS) : List (Nat × Nat) :=
  [flag q.stopOnErr, flag q.record, (3, match q.retryMod with | .NO => 0),
   (3, match q.respMod with
     | .NO => 0 | .ALL => 1 | .ANY => 2 | .NO_RPT => 4 | .ON_ERROR => 5 | .PREFERRED => 6)]

def Configuration.fields (c : Configuration) : List (Nat × Nat) :=
  c.qos.fields ++ c.dormTo.fields ++ c.addressee.fields

def Status.fields (s : Status) : List (Nat × Nat) :=
  s.channelId.fields ++ [(8, s.rxLevel.toNat), (8, s.linkBudget.toNat), (8, s.targetRxLevel.toNat),
    flag s.nls, flag s.missed, flag s.retry, flag s.unicast, (4, 0), (8, s.fifoToken.toNat),
    (8, s.seqNr.toNat)] ++ s.responseTo.fields ++ s.addressee.fields

/-- Length: 2-bit size code, then 6, 14, 22 or 30 value bits. -/
def Length.fields (l : Length) : List (Nat × Nat) :=
  if l.value < 2 ^ 6 then [(2, 0), (6, l.value.toNat)]
  else if l.value < 2 ^ 14 then [(2, 1), (14, l.value.toNat)]
  else if l.value < 2 ^ 22 then [(2, 2), (22, l.value.toNat)]
  else [(2, 3), (30, l.value.toNat)]

/-- File offset operand: file id, then the offset in the length format. -/
def Offset.fields (o : Offset) : List (Nat × Nat) := (8, o.id.toNat) :: o.offset.fields

def DataRequest.fields (d : DataRequest) : List (Nat × Nat) := d.offset.fields ++ d.length.fields

/-- File data operand: offset operand, number of bytes in the length format, the bytes. -/
def Data.fields (d : Data) : List (Nat × Nat) :=
  d.offset.fields ++ Length.fields ⟨d.data.length⟩ ++ byteFields d.data

/-- Query: type, mask flag, signed flag and comparison, length, value, file offset. -/
def QueryOperand.fields (q : QueryOperand) : List (Nat × Nat) :=
  [(3, match q.type with
     | .NON_VOID_CHECK => 0 | .ARITH_COMP_WITH_ZERO => 1 | .ARITH_COMP_WITH_VALUE => 2
     | .ARITH_COMP_BETWEEN_FILES => 3 | .RANGE_COMP => 4 | .STRING_TOKEN => 7),
   flag q.maskPresent, flag q.params.signedDataType,
   (3, match q.params.compType with
     | .INEQUALITY => 0 | .EQUALITY => 1 | .LESS_THAN => 2 | .LESS_THAN_OR_EQUAL_TO => 3
     | .GREATER_THAN => 4 | .GREATER_THAN_OR_EQUAL_TO => 5)] ++
  q.compareLength.fields ++ byteFields q.compareValue ++ q.fileAOffset.fields

def LoRaWANABP.fields (c : LoRaWANABP) : List (Nat × Nat) :=
  [(5, 0), flag c.adrEnabled, flag c.requestAck, (1, 0), (8, c.appPort.toNat), (8, c.dataRate.toNat),
   (32, c.devAddr.toNat), (32, c.netwId.toNat)]

def LoRaWANOTAA.fields (c : LoRaWANOTAA) : List (Nat × Nat) :=
  [(5, 0), flag c.adrEnabled, flag c.requestAck, (1, 0), (8, c.appPort.toNat), (8, c.dataRate.toNat)]

end Verif
