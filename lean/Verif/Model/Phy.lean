import Verif.Model.CT

/-! Model of d7a/phy/channel_header.py, channel_id.py, subband.py, channel_status_identifier.py
(bytes; the string notation is in `Verif/Model/PhyStr.lean`). -/

namespace Verif

/-- d7a/phy/channel_header.py 29-33 -/
inductive ChannelCoding | PN9 | RFU | FEC_PN9 | CW
  deriving DecidableEq, Repr

/-- d7a/phy/channel_header.py 30-33: `.value` -/
def ChannelCoding.value : ChannelCoding → Int
  | .PN9 => 0 | .RFU => 1 | .FEC_PN9 => 2 | .CW => 3

/-- d7a/phy/channel_header.py 107: `ChannelCoding(x)`; ValueError for an unknown value. -/
def ChannelCoding.ofValue (x : Int) : Except PyErr ChannelCoding :=
  if x = 0 then .ok .PN9 else if x = 1 then .ok .RFU else if x = 2 then .ok .FEC_PN9
  else if x = 3 then .ok .CW else .error .valueError

/-- d7a/phy/channel_header.py 46-50 -/
inductive ChannelClass | LO_RATE | LORA | NORMAL_RATE | HI_RATE
  deriving DecidableEq, Repr

/-- d7a/phy/channel_header.py 47-50: `.value` -/
def ChannelClass.value : ChannelClass → Int
  | .LO_RATE => 0 | .LORA => 1 | .NORMAL_RATE => 2 | .HI_RATE => 3

/-- d7a/phy/channel_header.py 106: `ChannelClass(x)` -/
def ChannelClass.ofValue (x : Int) : Except PyErr ChannelClass :=
  if x = 0 then .ok .LO_RATE else if x = 1 then .ok .LORA else if x = 2 then .ok .NORMAL_RATE
  else if x = 3 then .ok .HI_RATE else .error .valueError

/-- d7a/phy/channel_header.py 68-72 -/
inductive ChannelBand | NOT_IMPL | BAND_433 | BAND_868 | BAND_915
  deriving DecidableEq, Repr

/-- d7a/phy/channel_header.py 69-72: `.value` -/
def ChannelBand.value : ChannelBand → Int
  | .NOT_IMPL => 0 | .BAND_433 => 2 | .BAND_868 => 3 | .BAND_915 => 4

/-- d7a/phy/channel_header.py 105: `ChannelBand(x)` -/
def ChannelBand.ofValue (x : Int) : Except PyErr ChannelBand :=
  if x = 0 then .ok .NOT_IMPL else if x = 2 then .ok .BAND_433 else if x = 3 then .ok .BAND_868
  else if x = 4 then .ok .BAND_915 else .error .valueError

/-- d7a/phy/channel_header.py 82-94. The constructor accepts every triple of enum members. -/
structure ChannelHeader where
  channelCoding : ChannelCoding
  channelClass : ChannelClass
  channelBand : ChannelBand
  deriving DecidableEq, Repr

namespace ChannelHeader

/-- d7a/phy/channel_header.py 96-100 -/
def iter (h : ChannelHeader) : Gen :=
  let byte := h.channelBand.value <<ₚ 4
  let byte := byte + h.channelClass.value <<ₚ 2
  let byte := byte + h.channelCoding.value
  .int byte

/-- d7a/phy/channel_header.py 102-108 -/
def parse : P ChannelHeader := do
  P.pad 1
  let band ← P.uint 3
  let band ← P.lift (ChannelBand.ofValue band)
  let cl ← P.uint 2
  let cl ← P.lift (ChannelClass.ofValue cl)
  let coding ← P.uint 2
  let coding ← P.lift (ChannelCoding.ofValue coding)
  return ⟨coding, cl, band⟩

end ChannelHeader

/-- d7a/phy/channel_id.py 30-40 -/
structure ChannelID where
  channelHeader : ChannelHeader
  channelIndex : Int
  deriving DecidableEq, Repr

namespace ChannelID

/-- d7a/phy/channel_id.py 32-40 -/
def new (h : ChannelHeader) (index : Int) : Except PyErr ChannelID :=
  validate (0 ≤ index ∧ index ≤ 0xFFFF) ⟨h, index⟩

/-- d7a/phy/channel_id.py 42-44 -/
def iter (c : ChannelID) : Gen :=
  c.channelHeader.iter ++ .ofBytes (packU 2 c.channelIndex)

/-- d7a/phy/channel_id.py 47-51 -/
def parse : P ChannelID := do
  let h ← ChannelHeader.parse
  let i ← P.uint 16
  P.lift (new h i)

end ChannelID

/-- d7a/phy/channel_status_identifier.py 29-31 -/
inductive Bandwidth | kHz25 | kHz200
  deriving DecidableEq, Repr

/-- d7a/phy/channel_status_identifier.py 30-31: `.value` -/
def Bandwidth.value : Bandwidth → Int
  | .kHz25 => 1 | .kHz200 => 0

/-- d7a/phy/channel_status_identifier.py 62: `Bandwidth(x)` -/
def Bandwidth.ofValue (x : Int) : Except PyErr Bandwidth :=
  if x = 1 then .ok .kHz25 else if x = 0 then .ok .kHz200 else .error .valueError

/-- d7a/phy/channel_status_identifier.py 36-49 -/
structure ChannelStatusIdentifier where
  channelBand : ChannelBand
  channelBandwidth : Bandwidth
  channelIndex : Int
  deriving DecidableEq, Repr

namespace ChannelStatusIdentifier

/-- d7a/phy/channel_status_identifier.py 39-49 -/
def new (band : ChannelBand) (bw : Bandwidth) (index : Int) :
    Except PyErr ChannelStatusIdentifier :=
  validate (0 ≤ index ∧ index ≤ 1039) ⟨band, bw, index⟩

/-- d7a/phy/channel_status_identifier.py 45: the default instance -/
def default : ChannelStatusIdentifier := ⟨.NOT_IMPL, .kHz25, 0⟩

/-- d7a/phy/channel_status_identifier.py 51-57 -/
def iter (c : ChannelStatusIdentifier) : Gen :=
  let byte := c.channelBand.value <<ₚ 5
  let byte := byte + c.channelBandwidth.value <<ₚ 4
  let byte := byte + (0 : Int) <<ₚ 3
  let byte := byte + Int.land (c.channelIndex >>ₚ 8) 0x07
  .int byte ++ .int (Int.land c.channelIndex 0xFF)

/-- d7a/phy/channel_status_identifier.py 59-65 -/
def parse : P ChannelStatusIdentifier := do
  let band ← P.uint 3
  let band ← P.lift (ChannelBand.ofValue band)
  let bw ← P.uint 1
  let bw ← P.lift (Bandwidth.ofValue bw)
  P.pad 1
  let i ← P.uint 11
  P.lift (new band bw i)

end ChannelStatusIdentifier

/-- d7a/phy/subband.py 30-47 -/
structure SubBand where
  channelIndexStart : Int
  channelIndexEnd : Int
  eirp : Int
  cca : Int
  duty : Int
  deriving DecidableEq, Repr

namespace SubBand

/-- d7a/phy/subband.py 33-47 -/
def new (start stop eirp cca duty : Int) : Except PyErr SubBand :=
  validate ((0 ≤ start ∧ start ≤ 0xFFFF) ∧ (0 ≤ stop ∧ stop ≤ 0xFFFF) ∧
    (-128 ≤ eirp ∧ eirp ≤ 127) ∧ (0 ≤ cca ∧ cca ≤ 255) ∧ (0 ≤ duty ∧ duty ≤ 255))
    ⟨start, stop, eirp, cca, duty⟩

/-- d7a/phy/subband.py 41: the default instance -/
def default : SubBand := ⟨0, 0, 0, 86, 255⟩

/-- d7a/phy/subband.py 49-54 -/
def iter (b : SubBand) : Gen :=
  .ofBytes (packU 2 b.channelIndexStart) ++ .ofBytes (packU 2 b.channelIndexEnd) ++
  .ofBytes (packS8 b.eirp) ++ .int b.cca ++ .int b.duty

/-- d7a/phy/subband.py 56-68. `struct.unpack(">H", s.read("bytes:2"))[0]` is written `uint 16`. -/
def parse : P SubBand := do
  let start ← P.uint 16
  let stop ← P.uint 16
  let eirp ← P.sint 8
  let cca ← P.uint 8
  let duty ← P.uint 8
  P.lift (new start stop eirp cca duty)

end SubBand
end Verif
