import Verif.Lemmas.Layout

/-! C51: the bytes of every accepted object follow the wire layout of `Verif/Spec/Layout.lean`
(not just: they parse back). -/

namespace Verif

/-- C51 -/
theorem C51_ct (c : CT) (h : c.Built) : HasLayout c.iter c.fields :=
  CT.layout (CT.built_iff.1 h)

example : CT.Built ⟨5, 17⟩ ∧ fieldBits (CT.fields ⟨5, 17⟩) = [true, false, true, true, false, false, false, true] := by
  decide

/-- C51 -/
theorem C51_channel_header (c : ChannelHeader) : HasLayout c.iter c.fields := c.layout

example : fieldBits (ChannelHeader.fields ⟨.FEC_PN9, .NORMAL_RATE, .BAND_868⟩) = bytesToBits [0x3A] := by decide

/-- C51 -/
theorem C51_channel_id (c : ChannelID) (h : c.Built) : HasLayout c.iter c.fields :=
  ChannelID.layout (ChannelID.built_iff.1 h)

example : ChannelID.Built ⟨⟨.PN9, .LO_RATE, .BAND_433⟩, 0x1234⟩ := by decide

/-- C51 -/
theorem C51_channel_status_identifier (c : ChannelStatusIdentifier) (h : c.Built) :
    HasLayout c.iter c.fields :=
  ChannelStatusIdentifier.layout (ChannelStatusIdentifier.built_iff.1 h)

example : ChannelStatusIdentifier.Built ⟨.BAND_868, .kHz25, 1039⟩ := by decide

/-- C51 -/
theorem C51_subband (c : SubBand) (h : c.Built) : HasLayout c.iter c.fields :=
  SubBand.layout (SubBand.built_iff.1 h)

example : SubBand.Built ⟨0, 270, -30, 86, 255⟩ ∧
    fieldBits (SubBand.fields ⟨0, 270, -30, 86, 255⟩) = bytesToBits [0, 0, 1, 14, 0xE2, 86, 255] := by decide

/-- C51 -/
theorem C51_file_permissions (c : FilePermissions) : HasLayout c.iter c.fields := c.layout

example : fieldBits (FilePermissions.fields ⟨true, false, true, true, true, false, false, true⟩) = bytesToBits [0xB9] := by
  decide

/-- C51 -/
theorem C51_file_properties (c : FileProperties) : HasLayout c.iter c.fields := c.layout

example : fieldBits (FileProperties.fields ⟨true, .WRITE, .PERMANENT⟩) = bytesToBits [0xA3] := by decide

/-- C51 -/
theorem C51_file_header (c : FileHeader) (h : c.Built) : HasLayout c.iter c.fields :=
  FileHeader.layout (FileHeader.built_iff.1 h)

example : FileHeader.Built ⟨⟨true, false, true, true, true, false, false, true⟩, ⟨false, .READ, .VOLATILE⟩, 1, 2,
    0xDEADBEEF, 0xFFFFFFFF⟩ := by decide

/-- C51 -/
theorem C51_file_header_operand (c : FileHeaderOperand) (h : c.Built) : HasLayout c.iter c.fields :=
  FileHeaderOperand.layout (FileHeaderOperand.built_iff.1 h)

example : FileHeaderOperand.Built ⟨0x40, ⟨⟨true, false, true, true, true, false, false, true⟩,
    ⟨false, .READ, .VOLATILE⟩, 1, 2, 0xDEADBEEF, 0xFFFFFFFF⟩⟩ := by decide

/-- C51 -/
theorem C51_addressee (c : Addressee) (h : c.Built) : HasLayout c.iter c.fields :=
  Addressee.layout (Addressee.built_iff.1 h)

example : Addressee.Built ⟨0x21, .UID, .int 0xB57000009151D, .AES_CCM_32⟩ := by
  refine ⟨by decide, ?_⟩; intro c h; cases h
example : fieldBits (Addressee.fields ⟨0x21, .VID, .int 0xABCD, .AES_CTR⟩) =
    bytesToBits [0x31, 0x21, 0xAB, 0xCD] := by decide

/-- C51 -/
theorem C51_qos (c : QoS) : HasLayout c.iter c.fields := c.layout

example : fieldBits (QoS.fields ⟨.PREFERRED, .NO, true, true⟩) = bytesToBits [0xC6] := by decide

/-- C51 -/
theorem C51_configuration (c : Configuration) (h : c.Built) : HasLayout c.iter c.fields :=
  Configuration.layout (Configuration.built_iff.1 h)

example : Configuration.Built ⟨⟨.ANY, .NO, false, true⟩, ⟨3, 4⟩, ⟨1, .VID, .int 0x1234, .NONE⟩⟩ := by
  refine ⟨by decide, by decide, ?_⟩; intro c h; cases h

/-- C51 -/
theorem C51_status (c : Status) (h : c.Built) : HasLayout c.iter c.fields :=
  Status.layout (Status.built_iff.1 h)

example : Status.Built ⟨⟨⟨.PN9, .LO_RATE, .BAND_868⟩, 16⟩, 130, 80, 80, false, true, false, true,
    200, 0, ⟨2, 20⟩, ⟨0x21, .NOID, .none, .NONE⟩⟩ := by
  refine ⟨by decide, by decide, by decide, by decide, ?_⟩; intro c h; cases h

/-- C51 -/
theorem C51_length (c : Length) (h : c.Built) : HasLayout c.iter c.fields :=
  Length.layout (Length.built_iff.1 h)

example : Length.Built ⟨70⟩ ∧ fieldBits (Length.fields ⟨70⟩) = bytesToBits [0x40, 70] := by decide
example : Length.Built ⟨70000⟩ := by decide

/-- C51 -/
theorem C51_offset (c : Offset) (h : c.Built) : HasLayout c.iter c.fields :=
  Offset.layout (Offset.built_iff.1 h)

example : Offset.Built ⟨0x40, ⟨20000⟩⟩ ∧ fieldBits (Offset.fields ⟨0x40, ⟨20000⟩⟩) = bytesToBits [0x40, 0x80, 0x4E, 0x20] := by
  decide

/-- C51 -/
theorem C51_data_request (c : DataRequest) (h : c.Built) : HasLayout c.iter c.fields :=
  DataRequest.layout (DataRequest.built_iff.1 h)

example : DataRequest.Built ⟨⟨0x40, ⟨70⟩⟩, ⟨100000⟩⟩ := by decide

/-- C51 -/
theorem C51_data (c : Data) (h : c.Built) : HasLayout c.iter c.fields :=
  Data.layout (Data.built_iff.1 h)

example : Data.Built ⟨⟨0x40, ⟨70⟩⟩, ⟨3⟩, [1, 2, 255]⟩ := by decide

/-- C51 -/
theorem C51_query (c : QueryOperand) (h : c.Built) : HasLayout c.iter c.fields :=
  QueryOperand.layout (QueryOperand.built_iff.1 h)

example : QueryOperand.Built ⟨.RANGE_COMP, true, ⟨true, .LESS_THAN⟩, ⟨2⟩, [0], ⟨0x40, ⟨4⟩⟩⟩ := by
  decide

/-- C51 -/
theorem C51_abp (c : LoRaWANABP) (bs : List UInt8) (h : bytearray c.iter = .ok bs) :
    HasLayout c.iter c.fields := LoRaWANABP.layout (LoRaWANABP.inRange_of_emits h)

example : HasLayout (LoRaWANABP.iter ⟨true, false, 1, 2, 3, 0x01020304⟩) (LoRaWANABP.fields ⟨true, false, 1, 2, 3, 0x01020304⟩) :=
  C51_abp _ [4, 1, 2, 0, 0, 0, 3, 1, 2, 3, 4] (by decide)

/-- C51 -/
theorem C51_otaa (c : LoRaWANOTAA) (bs : List UInt8) (h : bytearray c.iter = .ok bs) :
    HasLayout c.iter c.fields := LoRaWANOTAA.layout (LoRaWANOTAA.inRange_of_emits h)

example : HasLayout (LoRaWANOTAA.iter ⟨false, true, 1, 2⟩) (LoRaWANOTAA.fields ⟨false, true, 1, 2⟩) :=
  C51_otaa _ [2, 1, 2] (by decide)

end Verif
