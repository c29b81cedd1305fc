import Verif.Lemmas.Schema

/-! C57: what the constructors accept, for arguments of any type.

For each class `C57_x` states, for every assignment of Python values to the attributes, exactly when
the schema of the class lets the constructor succeed (it raises ValueError otherwise, `C57_outcome`).
`C57_x_typed` states that for arguments of the right types the constructor of the model (`X.new`) has
the same outcome as this validation; where the model has no `new` because every well-typed object is
accepted, it states just that. `bi` tells whether a bool counts as an integer (it does in Cerberus
1.1). -/

namespace Verif.Schema

open Verif

/-- A member of the enum IdType whose value is one of the four. -/
def IsIdType (v : PyVal) : Prop := ∃ x ∈ [2, 3, 1, 0], v = .enum .IdType x

/-- Unfolds a schema with one alternative into the conditions of its rules. -/
macro "schema_checks " s:ident : tactic =>
  `(tactic| (
    unfold $s
    rw [validate_one]
    simp [altOk, List.lookup, absentOr, raw_check, int_check, byte_check, bits_check, bool_check,
      string_check, enum_check, object_enum_check, members_check, leaf_check, leaf_null_check,
      operation_check, validatable_check, any_check, bytes_check, list_leaf_check, list_action_check,
      list_any_check,
      values_check, Types.bitsMax, IdType.value, IsIdType]))

/-- Discharges the conditions for typed values. -/
macro "schema_typed" : tactic =>
  `(tactic| (
    simp [listOf_objs, IsIdType, IdType.value, isByte, isBytes, isU16, isU32, isKey, and_assoc,
      and_left_comm] <;> omega))

/-- A validation either succeeds or raises ValueError. -/
theorem C57_outcome (bi : Bool) (sch : Sch) (attrs : Attrs) :
    Schema.validate bi sch attrs = .ok () ∨ Schema.validate bi sch attrs = .error .valueError :=
  validate_error bi sch attrs

example : Schema.validate true ct [("exp", .int 8), ("mant", .int 31)] = .error .valueError := rfl

/-- What the constructor of CT accepts. -/
theorem C57_ct (bi : Bool) (exp mant : PyVal) :
    Schema.validate bi ct [("exp", exp), ("mant", mant)] = .ok () ↔
        IntIn bi 0 7 exp ∧ IntIn bi 0 31 mant := by
  schema_checks ct

example : Schema.validate true ct [("exp", .int 7), ("mant", .int 31)] = .ok () := rfl

example : Schema.validate true ct [("exp", .int 7), ("mant", .other)] =
    .error .valueError := rfl

/-- The constructor of the model makes exactly this check. -/
theorem C57_ct_typed (bi : Bool) (exp mant : Int) :
    CT.new exp mant =
      (Schema.validate bi ct [("exp", .int exp), ("mant", .int mant)]).map
        fun _ => (⟨exp, mant⟩ : CT) := by
  unfold CT.new
  apply new_eq
  rw [C57_ct]
  schema_typed

/-- What the constructor of ChannelHeader accepts. -/
theorem C57_channel_header (bi : Bool) (coding cls band : PyVal) :
    Schema.validate bi channelHeader [
      ("channel_coding", coding), ("channel_class", cls), ("channel_band", band)] = .ok () ↔
        Member .ChannelCoding coding ∧ Member .ChannelClass cls ∧ Member .ChannelBand band := by
  schema_checks channelHeader

example : Schema.validate true channelHeader [
      ("channel_coding", .enum .ChannelCoding 0), ("channel_class", .enum .ChannelClass 0),
      ("channel_band", .enum .ChannelBand 0)] = .ok () := rfl

example : Schema.validate true channelHeader [
      ("channel_coding", .enum .ChannelCoding 0), ("channel_class", .enum .ChannelClass 0),
      ("channel_band", .other)] =
    .error .valueError := rfl

/-- What the model has as values of the fields is accepted. -/
theorem C57_channel_header_typed (bi : Bool) (coding : ChannelCoding) (cls : ChannelClass) (band : ChannelBand) :
    Schema.validate bi channelHeader [
      ("channel_coding", .enum .ChannelCoding coding.value),
      ("channel_class", .enum .ChannelClass cls.value),
      ("channel_band", .enum .ChannelBand band.value)] = .ok () := by
  rw [C57_channel_header]
  schema_typed

/-- What the constructor of SubBand accepts. -/
theorem C57_subband (bi : Bool) (start stop eirp cca duty : PyVal) :
    Schema.validate bi subBand [
      ("channel_index_start", start), ("channel_index_end", stop), ("eirp", eirp), ("cca", cca),
      ("duty", duty)] = .ok () ↔
        IntIn bi 0 65535 start ∧ IntIn bi 0 65535 stop ∧ IntIn bi (-128) 127 eirp ∧
        IntIn bi 0 255 cca ∧ IntIn bi 0 255 duty := by
  schema_checks subBand

example : Schema.validate true subBand [
      ("channel_index_start", .int 65535), ("channel_index_end", .int 65535), ("eirp", .int 127),
      ("cca", .int 255), ("duty", .int 255)] = .ok () := rfl

example : Schema.validate true subBand [
      ("channel_index_start", .int 65535), ("channel_index_end", .int 65535), ("eirp", .int 127),
      ("cca", .int 255), ("duty", .other)] =
    .error .valueError := rfl

/-- The constructor of the model makes exactly this check. -/
theorem C57_subband_typed (bi : Bool) (start stop eirp cca duty : Int) :
    SubBand.new start stop eirp cca duty =
      (Schema.validate bi subBand [
      ("channel_index_start", .int start), ("channel_index_end", .int stop), ("eirp", .int eirp),
      ("cca", .int cca), ("duty", .int duty)]).map
        fun _ => (⟨start, stop, eirp, cca, duty⟩ : SubBand) := by
  unfold SubBand.new
  apply new_eq
  rw [C57_subband]
  schema_typed

/-- What the constructor of ChannelID accepts. -/
theorem C57_channel_id (bi : Bool) (header index : PyVal) :
    Schema.validate bi channelID [("channel_header", header), ("channel_index", index)] = .ok () ↔
        Is .ChannelHeader header ∧ IntIn bi 0 65535 index := by
  schema_checks channelID

example : Schema.validate true channelID [
      ("channel_header", .obj .ChannelHeader), ("channel_index", .int 65535)] = .ok () := rfl

example : Schema.validate true channelID [
      ("channel_header", .obj .ChannelHeader), ("channel_index", .other)] =
    .error .valueError := rfl

/-- The constructor of the model makes exactly this check. -/
theorem C57_channel_id_typed (bi : Bool) (header : ChannelHeader) (index : Int) :
    ChannelID.new header index =
      (Schema.validate bi channelID [
      ("channel_header", .obj .ChannelHeader), ("channel_index", .int index)]).map
        fun _ => (⟨header, index⟩ : ChannelID) := by
  unfold ChannelID.new
  apply new_eq
  rw [C57_channel_id]
  schema_typed

/-- What the constructor of ChannelStatusIdentifier accepts. -/
theorem C57_channel_status_identifier (bi : Bool) (band bw index : PyVal) :
    Schema.validate bi channelStatusIdentifier [
      ("channel_band", band), ("channel_bandwidth", bw), ("channel_index", index)] = .ok () ↔
        Member .ChannelBand band ∧ Member .Bandwidth bw ∧ IntIn bi 0 1039 index := by
  schema_checks channelStatusIdentifier

example : Schema.validate true channelStatusIdentifier [
      ("channel_band", .enum .ChannelBand 0), ("channel_bandwidth", .enum .Bandwidth 0),
      ("channel_index", .int 1039)] = .ok () := rfl

example : Schema.validate true channelStatusIdentifier [
      ("channel_band", .enum .ChannelBand 0), ("channel_bandwidth", .enum .Bandwidth 0),
      ("channel_index", .other)] =
    .error .valueError := rfl

/-- The constructor of the model makes exactly this check. -/
theorem C57_channel_status_identifier_typed (bi : Bool) (band : ChannelBand) (bw : Bandwidth) (index : Int) :
    ChannelStatusIdentifier.new band bw index =
      (Schema.validate bi channelStatusIdentifier [
      ("channel_band", .enum .ChannelBand band.value),
      ("channel_bandwidth", .enum .Bandwidth bw.value), ("channel_index", .int index)]).map
        fun _ => (⟨band, bw, index⟩ : ChannelStatusIdentifier) := by
  unfold ChannelStatusIdentifier.new
  apply new_eq
  rw [C57_channel_status_identifier]
  schema_typed

/-- What the constructor of SubProfile accepts. -/
theorem C57_sub_profile (bi : Bool) (bitmap period : PyVal) :
    Schema.validate bi subProfile [("subband_bitmap", bitmap), ("scan_automation_period", period)] = .ok () ↔
        IntIn bi 0 255 bitmap ∧ Is .CT period := by
  schema_checks subProfile

example : Schema.validate true subProfile [
      ("subband_bitmap", .int 255), ("scan_automation_period", .obj .CT)] = .ok () := rfl

example : Schema.validate true subProfile [("subband_bitmap", .int 255), ("scan_automation_period", .other)] =
    .error .valueError := rfl

/-- The constructor of the model makes exactly this check. -/
theorem C57_sub_profile_typed (bi : Bool) (bitmap : Int) (period : CT) :
    SubProfile.new bitmap period =
      (Schema.validate bi subProfile [
      ("subband_bitmap", .int bitmap), ("scan_automation_period", .obj .CT)]).map
        fun _ => (⟨bitmap, period⟩ : SubProfile) := by
  unfold SubProfile.new
  apply new_eq
  rw [C57_sub_profile]
  schema_typed

/-- What the constructor of AccessProfile accepts. -/
theorem C57_access_profile (bi : Bool) (header profiles bands : PyVal) :
    Schema.validate bi accessProfile [
      ("channel_header", header), ("sub_profiles", profiles), ("sub_bands", bands)] = .ok () ↔
        Is .ChannelHeader header ∧ ListOf 4 (some 4) (Is .SubProfile) profiles ∧
        ListOf 0 (some 8) (Is .SubBand) bands := by
  schema_checks accessProfile

example : Schema.validate true accessProfile [
      ("channel_header", .obj .ChannelHeader),
      ("sub_profiles", .list [.obj .SubProfile, .obj .SubProfile, .obj .SubProfile, .obj .SubProfile]),
      ("sub_bands", .tuple [.obj .SubBand])] = .ok () := rfl

example : Schema.validate true accessProfile [
      ("channel_header", .obj .ChannelHeader),
      ("sub_profiles", .list [.obj .SubProfile, .obj .SubProfile, .obj .SubProfile, .obj .SubProfile]),
      ("sub_bands", .other)] =
    .error .valueError := rfl

/-- The constructor of the model makes exactly this check. -/
theorem C57_access_profile_typed (bi : Bool) (header : ChannelHeader) (profiles : List SubProfile) (bands : List SubBand) :
    AccessProfile.new header profiles bands =
      (Schema.validate bi accessProfile [
      ("channel_header", .obj .ChannelHeader), ("sub_profiles", objs .SubProfile profiles),
      ("sub_bands", objs .SubBand bands)]).map
        fun _ => (⟨header, profiles, bands⟩ : AccessProfile) := by
  unfold AccessProfile.new
  apply new_eq
  rw [C57_access_profile]
  schema_typed

/-- What the constructor of BackgroundFrameControl accepts. -/
theorem C57_background_frame_control (bi : Bool) (idType tag : PyVal) :
    Schema.validate bi backgroundFrameControl [("id_type", idType), ("tag", tag)] = .ok () ↔
        Member .IdType idType ∧ IntIn bi 0 63 tag := by
  schema_checks backgroundFrameControl

example : Schema.validate true backgroundFrameControl [("id_type", .enum .IdType 0), ("tag", .int 63)] = .ok () := rfl

example : Schema.validate true backgroundFrameControl [("id_type", .enum .IdType 0), ("tag", .other)] =
    .error .valueError := rfl

/-- The constructor of the model makes exactly this check. -/
theorem C57_background_frame_control_typed (bi : Bool) (idType : IdType) (tag : Int) :
    Dll.BackgroundFrameControl.new idType tag =
      (Schema.validate bi backgroundFrameControl [("id_type", .enum .IdType idType.value), ("tag", .int tag)]).map
        fun _ => (⟨idType, tag⟩ : Dll.BackgroundFrameControl) := by
  unfold Dll.BackgroundFrameControl.new
  apply new_eq
  rw [C57_background_frame_control]
  schema_typed

/-- What the constructor of ForegroundFrameControl accepts. -/
theorem C57_foreground_frame_control (bi : Bool) (idType eirp : PyVal) :
    Schema.validate bi foregroundFrameControl [("id_type", idType), ("eirp_index", eirp)] = .ok () ↔
        Member .IdType idType ∧ IntIn bi 0 63 eirp := by
  schema_checks foregroundFrameControl

example : Schema.validate true foregroundFrameControl [("id_type", .enum .IdType 0), ("eirp_index", .int 63)] = .ok () := rfl

example : Schema.validate true foregroundFrameControl [("id_type", .enum .IdType 0), ("eirp_index", .other)] =
    .error .valueError := rfl

/-- The constructor of the model makes exactly this check. -/
theorem C57_foreground_frame_control_typed (bi : Bool) (idType : IdType) (eirp : Int) :
    Dll.ForegroundFrameControl.new idType eirp =
      (Schema.validate bi foregroundFrameControl [
      ("id_type", .enum .IdType idType.value), ("eirp_index", .int eirp)]).map
        fun _ => (⟨idType, eirp⟩ : Dll.ForegroundFrameControl) := by
  unfold Dll.ForegroundFrameControl.new
  apply new_eq
  rw [C57_foreground_frame_control]
  schema_typed

/-- What the constructor of ForegroundFrame accepts. -/
theorem C57_foreground_frame (bi : Bool) (len subnet control target frame crc : PyVal) :
    Schema.validate bi foregroundFrame [
      ("length", len), ("subnet", subnet), ("control", control), ("target_address", target),
      ("d7anp_frame", frame), ("crc16", crc)] = .ok () ↔
        IntIn bi 0 255 len ∧ IntIn bi 0 255 subnet ∧ Is .ForegroundFrameControl control ∧
        ListOf 0 none (IntIn bi 0 255) target ∧ Is .D7anpFrame frame ∧ IntIn bi 0 65535 crc := by
  schema_checks foregroundFrame

example : Schema.validate true foregroundFrame [
      ("length", .int 255), ("subnet", .int 255), ("control", .obj .ForegroundFrameControl),
      ("target_address", .list [.int 0, .int 255]), ("d7anp_frame", .obj .D7anpFrame),
      ("crc16", .int 65535)] = .ok () := rfl

example : Schema.validate true foregroundFrame [
      ("length", .int 255), ("subnet", .int 255), ("control", .obj .ForegroundFrameControl),
      ("target_address", .list [.int 0, .int 255]), ("d7anp_frame", .obj .D7anpFrame),
      ("crc16", .other)] =
    .error .valueError := rfl

/-- The constructor of the model makes exactly this check. -/
theorem C57_foreground_frame_typed (bi : Bool) (len subnet : Int) (control : Dll.ForegroundFrameControl) (target : List Int) (frame : D7anp.Frame)
    (crc : Int) :
    Dll.ForegroundFrame.new len subnet control target frame crc =
      (Schema.validate bi foregroundFrame [
      ("length", .int len), ("subnet", .int subnet), ("control", .obj .ForegroundFrameControl),
      ("target_address", ints target), ("d7anp_frame", .obj .D7anpFrame), ("crc16", .int crc)]).map
        fun _ => (⟨len, subnet, control, target, frame, crc⟩ : Dll.ForegroundFrame) := by
  unfold Dll.ForegroundFrame.new
  apply new_eq
  rw [C57_foreground_frame]
  schema_typed

/-- What the constructor of BackgroundFrame accepts. -/
theorem C57_background_frame (bi : Bool) (subnet control payload crc : PyVal) :
    Schema.validate bi backgroundFrame [
      ("subnet", subnet), ("control", control), ("payload", payload), ("crc16", crc)] = .ok () ↔
        IntIn bi 0 255 subnet ∧ Is .BackgroundFrameControl control ∧ IntIn bi 0 65535 payload ∧
        IntIn bi 0 65535 crc := by
  schema_checks backgroundFrame

example : Schema.validate true backgroundFrame [
      ("subnet", .int 255), ("control", .obj .BackgroundFrameControl), ("payload", .int 65535),
      ("crc16", .int 65535)] = .ok () := rfl

example : Schema.validate true backgroundFrame [
      ("subnet", .int 255), ("control", .obj .BackgroundFrameControl), ("payload", .int 65535),
      ("crc16", .other)] =
    .error .valueError := rfl

/-- The constructor of the model makes exactly this check. -/
theorem C57_background_frame_typed (bi : Bool) (subnet : Int) (control : Dll.BackgroundFrameControl) (payload crc : Int) :
    Dll.BackgroundFrame.new subnet control payload crc =
      (Schema.validate bi backgroundFrame [
      ("subnet", .int subnet), ("control", .obj .BackgroundFrameControl),
      ("payload", .int payload), ("crc16", .int crc)]).map
        fun _ => (⟨subnet, control, payload, crc⟩ : Dll.BackgroundFrame) := by
  unfold Dll.BackgroundFrame.new
  apply new_eq
  rw [C57_background_frame]
  schema_typed

/-- What the constructor of QoS accepts. -/
theorem C57_qos (bi : Bool) (stop record resp retry : PyVal) :
    Schema.validate bi qos [
      ("stop_on_err", stop), ("record", record), ("resp_mod", resp), ("retry_mod", retry)] = .ok () ↔
        IsBool stop ∧ IsBool record ∧ Member .ResponseMode resp ∧ Member .RetryMode retry := by
  schema_checks qos

example : Schema.validate true qos [
      ("stop_on_err", .bool true), ("record", .bool true), ("resp_mod", .enum .ResponseMode 0),
      ("retry_mod", .enum .RetryMode 0)] = .ok () := rfl

example : Schema.validate true qos [
      ("stop_on_err", .bool true), ("record", .bool true), ("resp_mod", .enum .ResponseMode 0),
      ("retry_mod", .other)] =
    .error .valueError := rfl

/-- What the model has as values of the fields is accepted. -/
theorem C57_qos_typed (bi : Bool) (stop record : Bool) (resp : ResponseMode) (retry : RetryMode) :
    Schema.validate bi qos [
      ("stop_on_err", .bool stop), ("record", .bool record),
      ("resp_mod", .enum .ResponseMode resp.value), ("retry_mod", .enum .RetryMode retry.value)] = .ok () := by
  rw [C57_qos]
  schema_typed

/-- What the constructor of Configuration accepts. -/
theorem C57_configuration (bi : Bool) (q dorm addr : PyVal) :
    Schema.validate bi configuration [("qos", q), ("dorm_to", dorm), ("addressee", addr)] = .ok () ↔
        Is .QoS q ∧ Is .CT dorm ∧ Is .Addressee addr := by
  schema_checks configuration

example : Schema.validate true configuration [
      ("qos", .obj .QoS), ("dorm_to", .obj .CT), ("addressee", .obj .Addressee)] = .ok () := rfl

example : Schema.validate true configuration [("qos", .obj .QoS), ("dorm_to", .obj .CT), ("addressee", .other)] =
    .error .valueError := rfl

/-- What the model has as values of the fields is accepted. -/
theorem C57_configuration_typed (bi : Bool) :
    Schema.validate bi configuration [
      ("qos", .obj .QoS), ("dorm_to", .obj .CT), ("addressee", .obj .Addressee)] = .ok () := by
  rw [C57_configuration]
  schema_typed

/-- What the constructor of Status accepts (no rule looks at unicast). -/
theorem C57_status (bi : Bool) (ch rx lb target nls missed retry unicast fifo seq resp addr : PyVal) :
    Schema.validate bi status [
      ("channel_id", ch), ("rx_level", rx), ("link_budget", lb), ("target_rx_level", target),
      ("nls", nls), ("missed", missed), ("retry", retry), ("unicast", unicast),
      ("fifo_token", fifo), ("seq_nr", seq), ("response_to", resp), ("addressee", addr)] = .ok () ↔
        Is .ChannelID ch ∧ IntIn bi 0 255 rx ∧ IntIn bi 0 255 lb ∧ IntIn bi 0 255 target ∧
        IsBool nls ∧ IsBool missed ∧ IsBool retry ∧ IntIn bi 0 255 fifo ∧ IntIn bi 0 255 seq ∧
        Is .CT resp ∧ Is .Addressee addr := by
  schema_checks status

example : Schema.validate true status [
      ("channel_id", .obj .ChannelID), ("rx_level", .int 255), ("link_budget", .int 255),
      ("target_rx_level", .int 255), ("nls", .bool true), ("missed", .bool true),
      ("retry", .bool true), ("unicast", .other), ("fifo_token", .int 255), ("seq_nr", .int 255),
      ("response_to", .obj .CT), ("addressee", .obj .Addressee)] = .ok () := rfl

example : Schema.validate true status [
      ("channel_id", .obj .ChannelID), ("rx_level", .int 255), ("link_budget", .int 255),
      ("target_rx_level", .int 255), ("nls", .bool true), ("missed", .bool true),
      ("retry", .bool true), ("unicast", .other), ("fifo_token", .int 255), ("seq_nr", .int 255),
      ("response_to", .obj .CT), ("addressee", .other)] =
    .error .valueError := rfl

/-- The constructor of the model makes exactly this check. -/
theorem C57_status_typed (bi : Bool) (ch : ChannelID) (rx lb target : Int) (nls missed retry unicast : Bool)
    (fifo seq : Int) (resp : CT) (addr : Addressee) :
    Status.new ch rx lb target nls missed retry unicast fifo seq resp addr =
      (Schema.validate bi status [
      ("channel_id", .obj .ChannelID), ("rx_level", .int rx), ("link_budget", .int lb),
      ("target_rx_level", .int target), ("nls", .bool nls), ("missed", .bool missed),
      ("retry", .bool retry), ("unicast", .bool unicast), ("fifo_token", .int fifo),
      ("seq_nr", .int seq), ("response_to", .obj .CT), ("addressee", .obj .Addressee)]).map
        fun _ => (⟨ch, rx, lb, target, nls, missed, retry, unicast, fifo, seq, resp, addr⟩ : Status) := by
  unfold Status.new
  apply new_eq
  rw [C57_status]
  schema_typed

/-- What the constructor of InterfaceConfiguration accepts. -/
theorem C57_interface_configuration (bi : Bool) (id conf : PyVal) :
    Schema.validate bi interfaceConfiguration [("interface_id", id), ("interface_configuration", conf)] = .ok () ↔
        Member .InterfaceType id ∧ OrNone (fun v => ∃ c, v = .obj c) conf := by
  schema_checks interfaceConfiguration

example : Schema.validate true interfaceConfiguration [
      ("interface_id", .enum .InterfaceType 0), ("interface_configuration", .none)] = .ok () := rfl

example : Schema.validate true interfaceConfiguration [
      ("interface_id", .enum .InterfaceType 0), ("interface_configuration", .other)] =
    .error .valueError := rfl

/-- What the constructor of Data accepts. -/
theorem C57_data (bi : Bool) (off len bytes : PyVal) :
    Schema.validate bi data [("offset", off), ("length", len), ("data", bytes)] = .ok () ↔
        Is .Offset off ∧ Is .Length len ∧ ListOf 0 none (IntIn bi 0 255) bytes := by
  schema_checks data

example : Schema.validate true data [
      ("offset", .obj .Offset), ("length", .obj .Length), ("data", .list [.int 0, .int 255])] = .ok () := rfl

example : Schema.validate true data [
      ("offset", .obj .Offset), ("length", .obj .Length), ("data", .other)] =
    .error .valueError := rfl

/-- What the constructor of DataRequest accepts. -/
theorem C57_data_request (bi : Bool) (off len : PyVal) :
    Schema.validate bi dataRequest [("offset", off), ("length", len)] = .ok () ↔
        Is .Offset off ∧ Is .Length len := by
  schema_checks dataRequest

example : Schema.validate true dataRequest [("offset", .obj .Offset), ("length", .obj .Length)] = .ok () := rfl

example : Schema.validate true dataRequest [("offset", .obj .Offset), ("length", .other)] =
    .error .valueError := rfl

/-- What the model has as values of the fields is accepted. -/
theorem C57_data_request_typed (bi : Bool) :
    Schema.validate bi dataRequest [("offset", .obj .Offset), ("length", .obj .Length)] = .ok () := by
  rw [C57_data_request]
  schema_typed

/-- What the constructor of FileIdOperand accepts. -/
theorem C57_file_id_operand (bi : Bool) (id : PyVal) :
    Schema.validate bi fileIdOperand [("file_id", id)] = .ok () ↔
        IntIn bi 0 255 id := by
  schema_checks fileIdOperand

example : Schema.validate true fileIdOperand [("file_id", .int 255)] = .ok () := rfl

example : Schema.validate true fileIdOperand [("file_id", .other)] =
    .error .valueError := rfl

/-- The constructor of the model makes exactly this check. -/
theorem C57_file_id_operand_typed (bi : Bool) (id : Int) :
    FileIdOperand.new id =
      (Schema.validate bi fileIdOperand [("file_id", .int id)]).map
        fun _ => (⟨id⟩ : FileIdOperand) := by
  unfold FileIdOperand.new
  apply new_eq
  rw [C57_file_id_operand]
  schema_typed

/-- What the constructor of ArithQueryParams accepts. -/
theorem C57_arith_query_params (bi : Bool) (signed comp : PyVal) :
    Schema.validate bi arithQueryParams [("signed_data_type", signed), ("comp_type", comp)] = .ok () ↔
        IsBool signed ∧ Member .ArithComparisonType comp := by
  schema_checks arithQueryParams

example : Schema.validate true arithQueryParams [
      ("signed_data_type", .bool true), ("comp_type", .enum .ArithComparisonType 0)] = .ok () := rfl

example : Schema.validate true arithQueryParams [("signed_data_type", .bool true), ("comp_type", .other)] =
    .error .valueError := rfl

/-- What the model has as values of the fields is accepted. -/
theorem C57_arith_query_params_typed (bi : Bool) (signed : Bool) (comp : ArithComparisonType) :
    Schema.validate bi arithQueryParams [
      ("signed_data_type", .bool signed), ("comp_type", .enum .ArithComparisonType comp.value)] = .ok () := by
  rw [C57_arith_query_params]
  schema_typed

/-- What the constructor of QueryOperand accepts. -/
theorem C57_query_operand (bi : Bool) (type mask params len val off : PyVal) :
    Schema.validate bi queryOperand [
      ("type", type), ("mask_present", mask), ("params", params), ("compare_length", len),
      ("compare_value", val), ("file_a_offset", off)] = .ok () ↔
        Member .QueryType type ∧ IsBool mask ∧ Is .ArithQueryParams params ∧ Is .Length len ∧
        ListOf 0 none (IntIn bi 0 255) val ∧ Is .Offset off := by
  schema_checks queryOperand

example : Schema.validate true queryOperand [
      ("type", .enum .QueryType 0), ("mask_present", .bool true),
      ("params", .obj .ArithQueryParams), ("compare_length", .obj .Length),
      ("compare_value", .list [.int 0, .int 255]), ("file_a_offset", .obj .Offset)] = .ok () := rfl

example : Schema.validate true queryOperand [
      ("type", .enum .QueryType 0), ("mask_present", .bool true),
      ("params", .obj .ArithQueryParams), ("compare_length", .obj .Length),
      ("compare_value", .list [.int 0, .int 255]), ("file_a_offset", .other)] =
    .error .valueError := rfl

/-- The constructor of the model makes exactly this check. -/
theorem C57_query_operand_typed (bi : Bool) (type : QueryType) (mask : Bool) (params : ArithQueryParams) (len : Length)
    (val : List Int) (off : Offset) :
    QueryOperand.new type mask params len val off =
      (Schema.validate bi queryOperand [
      ("type", .enum .QueryType type.value), ("mask_present", .bool mask),
      ("params", .obj .ArithQueryParams), ("compare_length", .obj .Length),
      ("compare_value", ints val), ("file_a_offset", .obj .Offset)]).map
        fun _ => (⟨type, mask, params, len, val, off⟩ : QueryOperand) := by
  unfold QueryOperand.new
  apply new_eq
  rw [C57_query_operand]
  schema_typed

/-- What the constructor of FileHeaderOperand accepts. -/
theorem C57_file_header_operand (bi : Bool) (id header : PyVal) :
    Schema.validate bi fileHeaderOperand [("file_id", id), ("file_header", header)] = .ok () ↔
        IntIn bi 0 255 id ∧ Is .FileHeader header := by
  schema_checks fileHeaderOperand

example : Schema.validate true fileHeaderOperand [("file_id", .int 255), ("file_header", .obj .FileHeader)] = .ok () := rfl

example : Schema.validate true fileHeaderOperand [("file_id", .int 255), ("file_header", .other)] =
    .error .valueError := rfl

/-- The constructor of the model makes exactly this check. -/
theorem C57_file_header_operand_typed (bi : Bool) (id : Int) (header : FileHeader) :
    FileHeaderOperand.new id header =
      (Schema.validate bi fileHeaderOperand [("file_id", .int id), ("file_header", .obj .FileHeader)]).map
        fun _ => (⟨id, header⟩ : FileHeaderOperand) := by
  unfold FileHeaderOperand.new
  apply new_eq
  rw [C57_file_header_operand]
  schema_typed

/-- What the constructor of InterfaceStatusOperand accepts. -/
theorem C57_interface_status_operand (bi : Bool) (id st : PyVal) :
    Schema.validate bi interfaceStatusOperand [("interface_id", id), ("interface_status", st)] = .ok () ↔
        IntIn bi 0 255 id ∧ OrNone (Is .Status) st := by
  schema_checks interfaceStatusOperand

example : Schema.validate true interfaceStatusOperand [("interface_id", .int 255), ("interface_status", .none)] = .ok () := rfl

example : Schema.validate true interfaceStatusOperand [("interface_id", .int 255), ("interface_status", .other)] =
    .error .valueError := rfl

/-- The constructor of the model makes exactly this check. -/
theorem C57_interface_status_operand_typed (bi : Bool) (id : Int) (st : Option Status) :
    InterfaceStatusOperand.new id st =
      (Schema.validate bi interfaceStatusOperand [("interface_id", .int id), ("interface_status", opt .Status st)]).map
        fun _ => (⟨id, st⟩ : InterfaceStatusOperand) := by
  unfold InterfaceStatusOperand.new
  apply new_eq
  rw [C57_interface_status_operand]
  schema_typed

/-- What the constructor of TagId accepts. -/
theorem C57_tag_id (bi : Bool) (id : PyVal) :
    Schema.validate bi tagId [("tag_id", id)] = .ok () ↔
        IntIn bi 0 255 id := by
  schema_checks tagId

example : Schema.validate true tagId [("tag_id", .int 255)] = .ok () := rfl

example : Schema.validate true tagId [("tag_id", .other)] =
    .error .valueError := rfl

/-- The constructor of the model makes exactly this check. -/
theorem C57_tag_id_typed (bi : Bool) (id : Int) :
    TagId.new id =
      (Schema.validate bi tagId [("tag_id", .int id)]).map
        fun _ => (⟨id⟩ : TagId) := by
  unfold TagId.new
  apply new_eq
  rw [C57_tag_id]
  schema_typed

/-- What the constructor of Length accepts. -/
theorem C57_length (bi : Bool) (value : PyVal) :
    Schema.validate bi length [("value", value)] = .ok () ↔
        IntIn bi 0 1073741823 value := by
  schema_checks length

example : Schema.validate true length [("value", .int 1073741823)] = .ok () := rfl

example : Schema.validate true length [("value", .other)] =
    .error .valueError := rfl

/-- The constructor of the model makes exactly this check. -/
theorem C57_length_typed (bi : Bool) (value : Int) :
    Length.new value =
      (Schema.validate bi length [("value", .int value)]).map
        fun _ => (⟨value⟩ : Length) := by
  unfold Length.new
  apply new_eq
  rw [C57_length]
  schema_typed

/-- What the constructor of IndirectInterfaceOperand accepts. -/
theorem C57_indirect_interface_operand (bi : Bool) (id ov : PyVal) :
    Schema.validate bi indirectInterfaceOperand [
      ("interface_file_id", id), ("interface_configuration_overload", ov)] = .ok () ↔
        IntIn bi 0 255 id ∧ OrNone (Is .Addressee) ov := by
  schema_checks indirectInterfaceOperand

example : Schema.validate true indirectInterfaceOperand [
      ("interface_file_id", .int 255), ("interface_configuration_overload", .none)] = .ok () := rfl

example : Schema.validate true indirectInterfaceOperand [
      ("interface_file_id", .int 255), ("interface_configuration_overload", .other)] =
    .error .valueError := rfl

/-- The constructor of the model makes exactly this check. -/
theorem C57_indirect_interface_operand_typed (bi : Bool) (id : Int) (ov : Option Addressee) :
    IndirectInterfaceOperand.new id ov =
      (Schema.validate bi indirectInterfaceOperand [
      ("interface_file_id", .int id), ("interface_configuration_overload", opt .Addressee ov)]).map
        fun _ => (⟨id, ov⟩ : IndirectInterfaceOperand) := by
  unfold IndirectInterfaceOperand.new
  apply new_eq
  rw [C57_indirect_interface_operand]
  schema_typed

/-- What the constructor of Offset accepts. -/
theorem C57_offset (bi : Bool) (id off : PyVal) :
    Schema.validate bi offset [("id", id), ("offset", off)] = .ok () ↔
        IntIn bi 0 255 id ∧ Is .Length off := by
  schema_checks offset

example : Schema.validate true offset [("id", .int 255), ("offset", .obj .Length)] = .ok () := rfl

example : Schema.validate true offset [("id", .int 255), ("offset", .other)] =
    .error .valueError := rfl

/-- The constructor of the model makes exactly this check. -/
theorem C57_offset_typed (bi : Bool) (id : Int) (off : Length) :
    Offset.new id off =
      (Schema.validate bi offset [("id", .int id), ("offset", .obj .Length)]).map
        fun _ => (⟨id, off⟩ : Offset) := by
  unfold Offset.new
  apply new_eq
  rw [C57_offset]
  schema_typed

/-- What the constructor of LoRaWANInterfaceConfigurationOTAA accepts (no rule looks at adr_enabled,
request_ack, app_port, data_rate, device_eui, app_eui, app_key). -/
theorem C57_lorawan_otaa (bi : Bool) (adr ack port rate dev app key : PyVal) :
    Schema.validate bi lorawanOtaa [
      ("adr_enabled", adr), ("request_ack", ack), ("app_port", port), ("data_rate", rate),
      ("device_eui", dev), ("app_eui", app), ("app_key", key)] = .ok () ↔
        True := by
  schema_checks lorawanOtaa

example : Schema.validate true lorawanOtaa [
      ("adr_enabled", .other), ("request_ack", .other), ("app_port", .other),
      ("data_rate", .other), ("device_eui", .other), ("app_eui", .other), ("app_key", .other)] = .ok () := rfl

/-- What the constructor of LoRaWANInterfaceConfigurationABP accepts (no rule looks at adr_enabled,
request_ack, app_port, data_rate, dev_addr, netw_id). -/
theorem C57_lorawan_abp (bi : Bool) (adr ack port rate dev netw : PyVal) :
    Schema.validate bi lorawanAbp [
      ("adr_enabled", adr), ("request_ack", ack), ("app_port", port), ("data_rate", rate),
      ("dev_addr", dev), ("netw_id", netw)] = .ok () ↔
        True := by
  schema_checks lorawanAbp

example : Schema.validate true lorawanAbp [
      ("adr_enabled", .other), ("request_ack", .other), ("app_port", .other),
      ("data_rate", .other), ("dev_addr", .other), ("netw_id", .other)] = .ok () := rfl

/-- What the constructor of Action accepts (no rule looks at operand). -/
theorem C57_action (bi : Bool) (op operation operand : PyVal) :
    Schema.validate bi action [("op", op), ("operation", operation), ("operand", operand)] = .ok () ↔
        IntIn bi 0 63 op ∧ IsOperation operation := by
  schema_checks action

example : Schema.validate true action [
      ("op", .int 63), ("operation", .obj .TagRequest), ("operand", .other)] = .ok () := rfl

example : Schema.validate true action [("op", .int 63), ("operation", .other), ("operand", .other)] =
    .error .valueError := rfl

/-- What the constructor of RegularAction accepts (no rule looks at operand). -/
theorem C57_regular_action (bi : Bool) (group resp op operation operand : PyVal) :
    Schema.validate bi regularAction [
      ("group", group), ("resp", resp), ("op", op), ("operation", operation), ("operand", operand)] = .ok () ↔
        IsBool group ∧ IsBool resp ∧ IntIn bi 0 63 op ∧ IsOperation operation := by
  schema_checks regularAction

example : Schema.validate true regularAction [
      ("group", .bool true), ("resp", .bool true), ("op", .int 63),
      ("operation", .obj .TagRequest), ("operand", .other)] = .ok () := rfl

example : Schema.validate true regularAction [
      ("group", .bool true), ("resp", .bool true), ("op", .int 63), ("operation", .other),
      ("operand", .other)] =
    .error .valueError := rfl

/-- What the constructor of ForwardAction accepts. -/
theorem C57_forward_action (bi : Bool) (resp op operation operand : PyVal) :
    Schema.validate bi forwardAction [
      ("resp", resp), ("op", op), ("operation", operation), ("operand", operand)] = .ok () ↔
        IsBool resp ∧ IntIn bi 0 63 op ∧ Is .Forward operation ∧ Is .InterfaceConfiguration operand := by
  schema_checks forwardAction

example : Schema.validate true forwardAction [
      ("resp", .bool true), ("op", .int 63), ("operation", .obj .Forward),
      ("operand", .obj .InterfaceConfiguration)] = .ok () := rfl

example : Schema.validate true forwardAction [
      ("resp", .bool true), ("op", .int 63), ("operation", .obj .Forward), ("operand", .other)] =
    .error .valueError := rfl

/-- What the constructor of IndirectForwardAction accepts. -/
theorem C57_indirect_forward_action (bi : Bool) (overload resp op operation operand : PyVal) :
    Schema.validate bi indirectForwardAction [
      ("overload", overload), ("resp", resp), ("op", op), ("operation", operation),
      ("operand", operand)] = .ok () ↔
        IsBool overload ∧ IsBool resp ∧ IntIn bi 0 63 op ∧ Is .IndirectForward operation ∧
        Is .IndirectInterfaceOperand operand := by
  schema_checks indirectForwardAction

example : Schema.validate true indirectForwardAction [
      ("overload", .bool true), ("resp", .bool true), ("op", .int 63),
      ("operation", .obj .IndirectForward), ("operand", .obj .IndirectInterfaceOperand)] = .ok () := rfl

example : Schema.validate true indirectForwardAction [
      ("overload", .bool true), ("resp", .bool true), ("op", .int 63),
      ("operation", .obj .IndirectForward), ("operand", .other)] =
    .error .valueError := rfl

/-- What the constructor of StatusAction accepts (no rule looks at op, operand). -/
theorem C57_status_action (bi : Bool) (ext op operation operand : PyVal) :
    Schema.validate bi statusAction [
      ("status_operand_extension", ext), ("op", op), ("operation", operation), ("operand", operand)] = .ok () ↔
        IntIn bi 0 1 ext ∧ IsOperation operation := by
  schema_checks statusAction

example : Schema.validate true statusAction [
      ("status_operand_extension", .int 1), ("op", .other), ("operation", .obj .TagRequest),
      ("operand", .other)] = .ok () := rfl

example : Schema.validate true statusAction [
      ("status_operand_extension", .int 1), ("op", .other), ("operation", .other),
      ("operand", .other)] =
    .error .valueError := rfl

/-- What the constructor of TagRequestAction accepts (no rule looks at operand). -/
theorem C57_tag_request_action (bi : Bool) (rwc op operation operand : PyVal) :
    Schema.validate bi tagRequestAction [
      ("respond_when_completed", rwc), ("op", op), ("operation", operation), ("operand", operand)] = .ok () ↔
        IsBool rwc ∧ IntIn bi 0 63 op ∧ IsOperation operation := by
  schema_checks tagRequestAction

example : Schema.validate true tagRequestAction [
      ("respond_when_completed", .bool true), ("op", .int 63), ("operation", .obj .TagRequest),
      ("operand", .other)] = .ok () := rfl

example : Schema.validate true tagRequestAction [
      ("respond_when_completed", .bool true), ("op", .int 63), ("operation", .other),
      ("operand", .other)] =
    .error .valueError := rfl

/-- What the constructor of TagResponseAction accepts (no rule looks at operand). -/
theorem C57_tag_response_action (bi : Bool) (eop error op operation operand : PyVal) :
    Schema.validate bi tagResponseAction [
      ("eop", eop), ("error", error), ("op", op), ("operation", operation), ("operand", operand)] = .ok () ↔
        IsBool eop ∧ IsBool error ∧ IntIn bi 0 63 op ∧ IsOperation operation := by
  schema_checks tagResponseAction

example : Schema.validate true tagResponseAction [
      ("eop", .bool true), ("error", .bool true), ("op", .int 63), ("operation", .obj .TagRequest),
      ("operand", .other)] = .ok () := rfl

example : Schema.validate true tagResponseAction [
      ("eop", .bool true), ("error", .bool true), ("op", .int 63), ("operation", .other),
      ("operand", .other)] =
    .error .valueError := rfl

/-- What the constructor of Command accepts. -/
theorem C57_command (bi : Bool) (actions st : PyVal) :
    Schema.validate bi command [("actions", actions), ("interface_status", st)] = .ok () ↔
        ListOf 0 none IsAction actions ∧ OrNone (Is .StatusAction) st := by
  schema_checks command

example : Schema.validate true command [
      ("actions", .list [.obj .RegularAction, .obj .StatusAction]), ("interface_status", .none)] = .ok () := rfl

example : Schema.validate true command [
      ("actions", .list [.obj .RegularAction, .obj .StatusAction]), ("interface_status", .other)] =
    .error .valueError := rfl

/-- What the constructor of d7anp Control accepts. -/
theorem C57_d7anp_control (bi : Bool) (noId hop idType nls : PyVal) :
    Schema.validate bi d7anpControl [
      ("has_no_origin_access_id", noId), ("has_hopping", hop), ("origin_id_type", idType),
      ("nls_method", nls)] = .ok () ↔
        IsBool noId ∧ IsBool hop ∧ IsIdType idType ∧ Member .NlsMethod nls := by
  schema_checks d7anpControl

example : Schema.validate true d7anpControl [
      ("has_no_origin_access_id", .bool true), ("has_hopping", .bool true),
      ("origin_id_type", .enum .IdType 3), ("nls_method", .enum .NlsMethod 0)] = .ok () := rfl

example : Schema.validate true d7anpControl [
      ("has_no_origin_access_id", .bool true), ("has_hopping", .bool true),
      ("origin_id_type", .enum .IdType 3), ("nls_method", .other)] =
    .error .valueError := rfl

/-- What the model has as values of the fields is accepted. -/
theorem C57_d7anp_control_typed (bi : Bool) (noId hop : Bool) (idType : IdType) (nls : NlsMethod) :
    Schema.validate bi d7anpControl [
      ("has_no_origin_access_id", .bool noId), ("has_hopping", .bool hop),
      ("origin_id_type", .enum .IdType idType.value), ("nls_method", .enum .NlsMethod nls.value)] = .ok () := by
  rw [C57_d7anp_control]
  cases idType <;> schema_typed

/-- What the constructor of d7anp Frame accepts. -/
theorem C57_d7anp_frame (bi : Bool) (control cls id frame : PyVal) :
    Schema.validate bi d7anpFrame [
      ("control", control), ("origin_access_class", cls), ("origin_access_id", id),
      ("d7atp_frame", frame)] = .ok () ↔
        Is .D7anpControl control ∧ IntIn bi 0 255 cls ∧ ListOf 0 none (IntIn bi 0 255) id ∧
        Is .D7atpFrame frame := by
  schema_checks d7anpFrame

example : Schema.validate true d7anpFrame [
      ("control", .obj .D7anpControl), ("origin_access_class", .int 255),
      ("origin_access_id", .list [.int 0, .int 255]), ("d7atp_frame", .obj .D7atpFrame)] = .ok () := rfl

example : Schema.validate true d7anpFrame [
      ("control", .obj .D7anpControl), ("origin_access_class", .int 255),
      ("origin_access_id", .list [.int 0, .int 255]), ("d7atp_frame", .other)] =
    .error .valueError := rfl

/-- The constructor of the model makes exactly this check. -/
theorem C57_d7anp_frame_typed (bi : Bool) (control : D7anp.Control) (cls : Int) (id : List Int) (frame : D7atp.Frame) :
    D7anp.Frame.new control cls id frame =
      (Schema.validate bi d7anpFrame [
      ("control", .obj .D7anpControl), ("origin_access_class", .int cls),
      ("origin_access_id", ints id), ("d7atp_frame", .obj .D7atpFrame)]).map
        fun _ => (⟨control, cls, id, frame⟩ : D7anp.Frame) := by
  unfold D7anp.Frame.new
  apply new_eq
  rw [C57_d7anp_frame]
  schema_typed

/-- What the constructor of d7atp Control accepts. -/
theorem C57_d7atp_control (bi : Bool) (ds tl te ar av arr agc : PyVal) :
    Schema.validate bi d7atpControl [
      ("is_dialog_start", ds), ("has_tl", tl), ("has_te", te), ("is_ack_requested", ar),
      ("is_ack_not_void", av), ("is_ack_record_requested", arr), ("has_agc", agc)] = .ok () ↔
        IsBool ds ∧ IsBool tl ∧ IsBool te ∧ IsBool ar ∧ IsBool av ∧ IsBool arr ∧ IsBool agc := by
  schema_checks d7atpControl

example : Schema.validate true d7atpControl [
      ("is_dialog_start", .bool true), ("has_tl", .bool true), ("has_te", .bool true),
      ("is_ack_requested", .bool true), ("is_ack_not_void", .bool true),
      ("is_ack_record_requested", .bool true), ("has_agc", .bool true)] = .ok () := rfl

example : Schema.validate true d7atpControl [
      ("is_dialog_start", .bool true), ("has_tl", .bool true), ("has_te", .bool true),
      ("is_ack_requested", .bool true), ("is_ack_not_void", .bool true),
      ("is_ack_record_requested", .bool true), ("has_agc", .other)] =
    .error .valueError := rfl

/-- What the model has as values of the fields is accepted. -/
theorem C57_d7atp_control_typed (bi : Bool) (ds tl te ar av arr agc : Bool) :
    Schema.validate bi d7atpControl [
      ("is_dialog_start", .bool ds), ("has_tl", .bool tl), ("has_te", .bool te),
      ("is_ack_requested", .bool ar), ("is_ack_not_void", .bool av),
      ("is_ack_record_requested", .bool arr), ("has_agc", .bool agc)] = .ok () := by
  rw [C57_d7atp_control]
  schema_typed

/-- What the constructor of d7atp Frame accepts (no rule looks at ack_template). -/
theorem C57_d7atp_frame (bi : Bool) (control dialog trans agc tl te tc ack cmd : PyVal) :
    Schema.validate bi d7atpFrame [
      ("control", control), ("dialog_id", dialog), ("transaction_id", trans),
      ("agc_rx_level_i", agc), ("tl", tl), ("te", te), ("tc", tc), ("ack_template", ack),
      ("alp_command", cmd)] = .ok () ↔
        Is .D7atpControl control ∧ IntIn bi 0 255 dialog ∧ IntIn bi 0 255 trans ∧
        IntIn bi 0 31 agc ∧ OrNone (Is .CT) tl ∧ OrNone (Is .CT) te ∧ OrNone (Is .CT) tc ∧
        Is .Command cmd := by
  schema_checks d7atpFrame

example : Schema.validate true d7atpFrame [
      ("control", .obj .D7atpControl), ("dialog_id", .int 255), ("transaction_id", .int 255),
      ("agc_rx_level_i", .int 31), ("tl", .none), ("te", .none), ("tc", .none),
      ("ack_template", .other), ("alp_command", .obj .Command)] = .ok () := rfl

example : Schema.validate true d7atpFrame [
      ("control", .obj .D7atpControl), ("dialog_id", .int 255), ("transaction_id", .int 255),
      ("agc_rx_level_i", .int 31), ("tl", .none), ("te", .none), ("tc", .none),
      ("ack_template", .other), ("alp_command", .other)] =
    .error .valueError := rfl

/-- The constructor of the model makes exactly this check. -/
theorem C57_d7atp_frame_typed (bi : Bool) (control : D7atp.Control) (dialog trans agc : Int) (tl te tc : Option CT)
    (ack : Option (List Int)) (ackVal : PyVal) (cmd : Command) :
    D7atp.Frame.new control dialog trans cmd (some agc) tl te tc ack =
      (Schema.validate bi d7atpFrame [
      ("control", .obj .D7atpControl), ("dialog_id", .int dialog), ("transaction_id", .int trans),
      ("agc_rx_level_i", .int agc), ("tl", opt .CT tl), ("te", opt .CT te), ("tc", opt .CT tc),
      ("ack_template", ackVal), ("alp_command", .obj .Command)]).map
        fun _ => (⟨control, dialog, trans, agc, tl, te, tc, ack, cmd⟩ : D7atp.Frame) := by
  unfold D7atp.Frame.new
  apply new_eq
  rw [C57_d7atp_frame]
  schema_typed

/-- What the constructor of FileHeader accepts. -/
theorem C57_file_header (bi : Bool) (perm props alp ifc size alloc : PyVal) :
    Schema.validate bi fileHeader [
      ("permissions", perm), ("properties", props), ("alp_command_file_id", alp),
      ("interface_file_id", ifc), ("file_size", size), ("allocated_size", alloc)] = .ok () ↔
        Is .FilePermissions perm ∧ Is .FileProperties props ∧ IntIn bi 0 255 alp ∧
        IntIn bi 0 255 ifc ∧ IntIn bi 0 4294967295 size ∧ IntIn bi 0 4294967295 alloc := by
  schema_checks fileHeader

example : Schema.validate true fileHeader [
      ("permissions", .obj .FilePermissions), ("properties", .obj .FileProperties),
      ("alp_command_file_id", .int 255), ("interface_file_id", .int 255),
      ("file_size", .int 4294967295), ("allocated_size", .int 4294967295)] = .ok () := rfl

example : Schema.validate true fileHeader [
      ("permissions", .obj .FilePermissions), ("properties", .obj .FileProperties),
      ("alp_command_file_id", .int 255), ("interface_file_id", .int 255),
      ("file_size", .int 4294967295), ("allocated_size", .other)] =
    .error .valueError := rfl

/-- The constructor of the model makes exactly this check. -/
theorem C57_file_header_typed (bi : Bool) (perm : FilePermissions) (props : FileProperties) (alp ifc size alloc : Int) :
    FileHeader.new perm props alp ifc size alloc =
      (Schema.validate bi fileHeader [
      ("permissions", .obj .FilePermissions), ("properties", .obj .FileProperties),
      ("alp_command_file_id", .int alp), ("interface_file_id", .int ifc), ("file_size", .int size),
      ("allocated_size", .int alloc)]).map
        fun _ => (⟨perm, props, alp, ifc, size, alloc⟩ : FileHeader) := by
  unfold FileHeader.new
  apply new_eq
  rw [C57_file_header]
  schema_typed

/-- What the constructor of FilePermissions accepts (no rule looks at user_writeable,
user_executeable, guest_writeable, guest_executeable). -/
theorem C57_file_permissions (bi : Bool) (enc exec ur uw ux gr gw gx : PyVal) :
    Schema.validate bi filePermissions [
      ("encrypted", enc), ("executable", exec), ("user_readable", ur), ("user_writeable", uw),
      ("user_executeable", ux), ("guest_readable", gr), ("guest_writeable", gw),
      ("guest_executeable", gx)] = .ok () ↔
        IsBool enc ∧ IsBool exec ∧ IsBool ur ∧ IsBool gr := by
  schema_checks filePermissions

example : Schema.validate true filePermissions [
      ("encrypted", .bool true), ("executable", .bool true), ("user_readable", .bool true),
      ("user_writeable", .other), ("user_executeable", .other), ("guest_readable", .bool true),
      ("guest_writeable", .other), ("guest_executeable", .other)] = .ok () := rfl

example : Schema.validate true filePermissions [
      ("encrypted", .bool true), ("executable", .bool true), ("user_readable", .bool true),
      ("user_writeable", .other), ("user_executeable", .other), ("guest_readable", .other),
      ("guest_writeable", .other), ("guest_executeable", .other)] =
    .error .valueError := rfl

/-- What the model has as values of the fields is accepted. -/
theorem C57_file_permissions_typed (bi : Bool) (enc exec ur uw ux gr gw gx : Bool) :
    Schema.validate bi filePermissions [
      ("encrypted", .bool enc), ("executable", .bool exec), ("user_readable", .bool ur),
      ("user_writeable", .bool uw), ("user_executeable", .bool ux), ("guest_readable", .bool gr),
      ("guest_writeable", .bool gw), ("guest_executeable", .bool gx)] = .ok () := by
  rw [C57_file_permissions]
  schema_typed

/-- What the constructor of FileProperties accepts (no rule looks at act_condition). -/
theorem C57_file_properties (bi : Bool) (en cond sc : PyVal) :
    Schema.validate bi fileProperties [
      ("act_enabled", en), ("act_condition", cond), ("storage_class", sc)] = .ok () ↔
        IsBool en ∧ Member .StorageClass sc := by
  schema_checks fileProperties

example : Schema.validate true fileProperties [
      ("act_enabled", .bool true), ("act_condition", .other),
      ("storage_class", .enum .StorageClass 0)] = .ok () := rfl

example : Schema.validate true fileProperties [
      ("act_enabled", .bool true), ("act_condition", .other), ("storage_class", .other)] =
    .error .valueError := rfl

/-- What the model has as values of the fields is accepted. -/
theorem C57_file_properties_typed (bi : Bool) (en : Bool) (cond : ActionCondition) (sc : StorageClass) :
    Schema.validate bi fileProperties [
      ("act_enabled", .bool en), ("act_condition", .enum .ActionCondition cond.value),
      ("storage_class", .enum .StorageClass sc.value)] = .ok () := by
  rw [C57_file_properties]
  schema_typed

/-- What the constructor of AccessProfileFile accepts. -/
theorem C57_access_profile_file (bi : Bool) (spec prof : PyVal) :
    Schema.validate bi accessProfileFile [("access_specifier", spec), ("access_profile", prof)] = .ok () ↔
        IntIn bi 0 14 spec ∧ OrNone (Is .AccessProfile) prof := by
  schema_checks accessProfileFile

example : Schema.validate true accessProfileFile [("access_specifier", .int 14), ("access_profile", .none)] = .ok () := rfl

example : Schema.validate true accessProfileFile [("access_specifier", .int 14), ("access_profile", .other)] =
    .error .valueError := rfl

/-- The constructor of the model makes exactly this check. -/
theorem C57_access_profile_file_typed (bi : Bool) (spec : Int) (prof : Option AccessProfile) :
    AccessProfileFile.new spec prof =
      (Schema.validate bi accessProfileFile [
      ("access_specifier", .int spec), ("access_profile", opt .AccessProfile prof)]).map
        fun _ => (⟨spec, prof⟩ : AccessProfileFile) := by
  unfold AccessProfileFile.new
  apply new_eq
  rw [C57_access_profile_file]
  schema_typed

/-- What the constructor of DllConfigFile accepts (no rule looks at lq_filter, nf_ctrl,
rx_nf_method_parameter, tx_nf_method_parameter). -/
theorem C57_dll_config_file (bi : Bool) (ac lq nf rx tx : PyVal) :
    Schema.validate bi dllConfigFile [
      ("active_access_class", ac), ("lq_filter", lq), ("nf_ctrl", nf),
      ("rx_nf_method_parameter", rx), ("tx_nf_method_parameter", tx)] = .ok () ↔
        IntIn bi 0 255 ac := by
  schema_checks dllConfigFile

example : Schema.validate true dllConfigFile [
      ("active_access_class", .int 255), ("lq_filter", .other), ("nf_ctrl", .other),
      ("rx_nf_method_parameter", .other), ("tx_nf_method_parameter", .other)] = .ok () := rfl

example : Schema.validate true dllConfigFile [
      ("active_access_class", .other), ("lq_filter", .other), ("nf_ctrl", .other),
      ("rx_nf_method_parameter", .other), ("tx_nf_method_parameter", .other)] =
    .error .valueError := rfl

/-- The constructor of the model makes exactly this check. -/
theorem C57_dll_config_file_typed (bi : Bool) (ac lq nf rx tx : Int) :
    DllConfigFile.new ac lq nf rx tx =
      (Schema.validate bi dllConfigFile [
      ("active_access_class", .int ac), ("lq_filter", .int lq), ("nf_ctrl", .int nf),
      ("rx_nf_method_parameter", .int rx), ("tx_nf_method_parameter", .int tx)]).map
        fun _ => (⟨ac, lq, nf, rx, tx⟩ : DllConfigFile) := by
  unfold DllConfigFile.new
  apply new_eq
  rw [C57_dll_config_file]
  schema_typed

/-- What the constructor of DllStatusFile accepts. -/
theorem C57_dll_status_file (bi : Bool) (level budget floor header index ratio count tcount : PyVal) :
    Schema.validate bi dllStatusFile [
      ("last_rx_packet_level", level), ("last_rx_packet_link_budget", budget),
      ("noise_floor", floor), ("channel_header", header), ("channel_index", index),
      ("scan_timeout_ratio", ratio), ("scan_count", count), ("scan_timeout_count", tcount)] = .ok () ↔
        IntIn bi 0 255 level ∧ IntIn bi 0 255 budget ∧ IntIn bi 0 255 floor ∧
        Is .ChannelHeader header ∧ IntIn bi 0 65535 index ∧ IntIn bi 0 65535 ratio ∧
        IntIn bi 0 4294967295 count ∧ IntIn bi 0 4294967295 tcount := by
  schema_checks dllStatusFile

example : Schema.validate true dllStatusFile [
      ("last_rx_packet_level", .int 255), ("last_rx_packet_link_budget", .int 255),
      ("noise_floor", .int 255), ("channel_header", .obj .ChannelHeader),
      ("channel_index", .int 65535), ("scan_timeout_ratio", .int 65535),
      ("scan_count", .int 4294967295), ("scan_timeout_count", .int 4294967295)] = .ok () := rfl

example : Schema.validate true dllStatusFile [
      ("last_rx_packet_level", .int 255), ("last_rx_packet_link_budget", .int 255),
      ("noise_floor", .int 255), ("channel_header", .obj .ChannelHeader),
      ("channel_index", .int 65535), ("scan_timeout_ratio", .int 65535),
      ("scan_count", .int 4294967295), ("scan_timeout_count", .other)] =
    .error .valueError := rfl

/-- The constructor of the model makes exactly this check. -/
theorem C57_dll_status_file_typed (bi : Bool) (level budget floor : Int) (header : ChannelHeader) (index ratio count tcount : Int) :
    DllStatusFile.new level budget floor header index ratio count tcount =
      (Schema.validate bi dllStatusFile [
      ("last_rx_packet_level", .int level), ("last_rx_packet_link_budget", .int budget),
      ("noise_floor", .int floor), ("channel_header", .obj .ChannelHeader),
      ("channel_index", .int index), ("scan_timeout_ratio", .int ratio),
      ("scan_count", .int count), ("scan_timeout_count", .int tcount)]).map
        fun _ => (⟨level, budget, floor, header, index, ratio, count, tcount⟩ : DllStatusFile) := by
  unfold DllStatusFile.new
  apply new_eq
  rw [C57_dll_status_file]
  schema_typed

/-- What the constructor of EngineeringModeFile accepts. -/
theorem C57_engineering_mode_file (bi : Bool) (mode flags timeout ch eirp : PyVal) :
    Schema.validate bi engineeringModeFile [
      ("mode", mode), ("flags", flags), ("timeout", timeout), ("channel_id", ch), ("eirp", eirp)] = .ok () ↔
        Member .EngineeringModeMode mode ∧ IntIn bi 0 255 flags ∧ IntIn bi 0 255 timeout ∧
        Is .ChannelID ch ∧ IntIn bi (-128) 127 eirp := by
  schema_checks engineeringModeFile

example : Schema.validate true engineeringModeFile [
      ("mode", .enum .EngineeringModeMode 0), ("flags", .int 255), ("timeout", .int 255),
      ("channel_id", .obj .ChannelID), ("eirp", .int 127)] = .ok () := rfl

example : Schema.validate true engineeringModeFile [
      ("mode", .enum .EngineeringModeMode 0), ("flags", .int 255), ("timeout", .int 255),
      ("channel_id", .obj .ChannelID), ("eirp", .other)] =
    .error .valueError := rfl

/-- The constructor of the model makes exactly this check. -/
theorem C57_engineering_mode_file_typed (bi : Bool) (mode : EngineeringModeMode) (flags timeout : Int) (ch : ChannelID) (eirp : Int) :
    EngineeringModeFile.new mode flags timeout ch eirp =
      (Schema.validate bi engineeringModeFile [
      ("mode", .enum .EngineeringModeMode mode.value), ("flags", .int flags),
      ("timeout", .int timeout), ("channel_id", .obj .ChannelID), ("eirp", .int eirp)]).map
        fun _ => (⟨mode, flags, timeout, ch, eirp⟩ : EngineeringModeFile) := by
  unfold EngineeringModeFile.new
  apply new_eq
  rw [C57_engineering_mode_file]
  schema_typed

/-- What the constructor of FactorySettingsFile accepts (no rule looks at preamble_tol_lo_rate,
preamble_tol_normal_rate, preamble_tol_hi_rate). -/
theorem C57_factory_settings_file (bi : Bool) (gain rxBwLow rxBwNormal rxBwHigh bitrateLo fdevLo bitrateNormal fdevNormal bitrateHi fdevHi preambleSizeLo preambleSizeNormal preambleSizeHi preambleDetectorSizeLo preambleDetectorSizeNormal preambleDetectorSizeHi preambleTolLo preambleTolNormal preambleTolHi rssiSmoothing rssiOffset loraBw loraSF gaussian paramp : PyVal) :
    Schema.validate bi factorySettingsFile [
      ("gain", gain), ("rx_bw_low_rate", rxBwLow), ("rx_bw_normal_rate", rxBwNormal),
      ("rx_bw_high_rate", rxBwHigh), ("bitrate_lo_rate", bitrateLo), ("fdev_lo_rate", fdevLo),
      ("bitrate_normal_rate", bitrateNormal), ("fdev_normal_rate", fdevNormal),
      ("bitrate_hi_rate", bitrateHi), ("fdev_hi_rate", fdevHi),
      ("preamble_size_lo_rate", preambleSizeLo), ("preamble_size_normal_rate", preambleSizeNormal),
      ("preamble_size_hi_rate", preambleSizeHi),
      ("preamble_detector_size_lo_rate", preambleDetectorSizeLo),
      ("preamble_detector_size_normal_rate", preambleDetectorSizeNormal),
      ("preamble_detector_size_hi_rate", preambleDetectorSizeHi),
      ("preamble_tol_lo_rate", preambleTolLo), ("preamble_tol_normal_rate", preambleTolNormal),
      ("preamble_tol_hi_rate", preambleTolHi), ("rssi_smoothing", rssiSmoothing),
      ("rssi_offset", rssiOffset), ("lora_bw", loraBw), ("lora_SF", loraSF),
      ("gaussian", gaussian), ("paramp", paramp)] = .ok () ↔
        IntIn bi (-128) 127 gain ∧ IntIn bi 0 4294967295 rxBwLow ∧
        IntIn bi 0 4294967295 rxBwNormal ∧ IntIn bi 0 4294967295 rxBwHigh ∧
        IntIn bi 0 4294967295 bitrateLo ∧ IntIn bi 0 4294967295 fdevLo ∧
        IntIn bi 0 4294967295 bitrateNormal ∧ IntIn bi 0 4294967295 fdevNormal ∧
        IntIn bi 0 4294967295 bitrateHi ∧ IntIn bi 0 4294967295 fdevHi ∧
        IntIn bi 0 255 preambleSizeLo ∧ IntIn bi 0 255 preambleSizeNormal ∧
        IntIn bi 0 255 preambleSizeHi ∧ IntIn bi 0 255 preambleDetectorSizeLo ∧
        IntIn bi 0 255 preambleDetectorSizeNormal ∧ IntIn bi 0 255 preambleDetectorSizeHi ∧
        IntIn bi 0 255 rssiSmoothing ∧ IntIn bi (-126) 125 rssiOffset ∧
        IntIn bi 0 4294967295 loraBw ∧ IntIn bi 6 12 loraSF ∧ IntIn bi 0 3 gaussian ∧
        IntIn bi 0 65535 paramp := by
  schema_checks factorySettingsFile

example : Schema.validate true factorySettingsFile [
      ("gain", .int 127), ("rx_bw_low_rate", .int 4294967295),
      ("rx_bw_normal_rate", .int 4294967295), ("rx_bw_high_rate", .int 4294967295),
      ("bitrate_lo_rate", .int 4294967295), ("fdev_lo_rate", .int 4294967295),
      ("bitrate_normal_rate", .int 4294967295), ("fdev_normal_rate", .int 4294967295),
      ("bitrate_hi_rate", .int 4294967295), ("fdev_hi_rate", .int 4294967295),
      ("preamble_size_lo_rate", .int 255), ("preamble_size_normal_rate", .int 255),
      ("preamble_size_hi_rate", .int 255), ("preamble_detector_size_lo_rate", .int 255),
      ("preamble_detector_size_normal_rate", .int 255),
      ("preamble_detector_size_hi_rate", .int 255), ("preamble_tol_lo_rate", .other),
      ("preamble_tol_normal_rate", .other), ("preamble_tol_hi_rate", .other),
      ("rssi_smoothing", .int 255), ("rssi_offset", .int 125), ("lora_bw", .int 4294967295),
      ("lora_SF", .int 12), ("gaussian", .int 3), ("paramp", .int 65535)] = .ok () := rfl

example : Schema.validate true factorySettingsFile [
      ("gain", .int 127), ("rx_bw_low_rate", .int 4294967295),
      ("rx_bw_normal_rate", .int 4294967295), ("rx_bw_high_rate", .int 4294967295),
      ("bitrate_lo_rate", .int 4294967295), ("fdev_lo_rate", .int 4294967295),
      ("bitrate_normal_rate", .int 4294967295), ("fdev_normal_rate", .int 4294967295),
      ("bitrate_hi_rate", .int 4294967295), ("fdev_hi_rate", .int 4294967295),
      ("preamble_size_lo_rate", .int 255), ("preamble_size_normal_rate", .int 255),
      ("preamble_size_hi_rate", .int 255), ("preamble_detector_size_lo_rate", .int 255),
      ("preamble_detector_size_normal_rate", .int 255),
      ("preamble_detector_size_hi_rate", .int 255), ("preamble_tol_lo_rate", .other),
      ("preamble_tol_normal_rate", .other), ("preamble_tol_hi_rate", .other),
      ("rssi_smoothing", .int 255), ("rssi_offset", .int 125), ("lora_bw", .int 4294967295),
      ("lora_SF", .int 12), ("gaussian", .int 3), ("paramp", .other)] =
    .error .valueError := rfl

/-- What the model has as values of the fields is accepted. -/
theorem C57_factory_settings_file_typed (bi : Bool) (f : FactorySettingsFile) :
    Verif.validate f.Valid f =
      (Schema.validate bi factorySettingsFile [
      ("gain", .int f.gain), ("rx_bw_low_rate", .int f.rxBwLow),
      ("rx_bw_normal_rate", .int f.rxBwNormal), ("rx_bw_high_rate", .int f.rxBwHigh),
      ("bitrate_lo_rate", .int f.bitrateLo), ("fdev_lo_rate", .int f.fdevLo),
      ("bitrate_normal_rate", .int f.bitrateNormal), ("fdev_normal_rate", .int f.fdevNormal),
      ("bitrate_hi_rate", .int f.bitrateHi), ("fdev_hi_rate", .int f.fdevHi),
      ("preamble_size_lo_rate", .int f.preambleSizeLo),
      ("preamble_size_normal_rate", .int f.preambleSizeNormal),
      ("preamble_size_hi_rate", .int f.preambleSizeHi),
      ("preamble_detector_size_lo_rate", .int f.preambleDetectorSizeLo),
      ("preamble_detector_size_normal_rate", .int f.preambleDetectorSizeNormal),
      ("preamble_detector_size_hi_rate", .int f.preambleDetectorSizeHi),
      ("preamble_tol_lo_rate", .int f.preambleTolLo),
      ("preamble_tol_normal_rate", .int f.preambleTolNormal),
      ("preamble_tol_hi_rate", .int f.preambleTolHi), ("rssi_smoothing", .int f.rssiSmoothing),
      ("rssi_offset", .int f.rssiOffset), ("lora_bw", .int f.loraBw), ("lora_SF", .int f.loraSF),
      ("gaussian", .int f.gaussian), ("paramp", .int f.paramp)]).map fun _ => f := by
  apply new_eq
  rw [C57_factory_settings_file]
  unfold FactorySettingsFile.Valid
  simp only [intIn_int, isByte, isU16, isU32]

/-- What the constructor of FirmwareVersionFile accepts. -/
theorem C57_firmware_version_file (bi : Bool) (a b c d name sha : PyVal) :
    Schema.validate bi firmwareVersionFile [
      ("d7a_protocol_version_major", a), ("d7a_protocol_version_minor", b),
      ("filesystem_version_major", c), ("filesystem_version_minor", d), ("application_name", name),
      ("git_sha1", sha)] = .ok () ↔
        IntIn bi 0 255 a ∧ IntIn bi 0 255 b ∧ IntIn bi 0 255 c ∧ IntIn bi 0 255 d ∧ StrMax 6 name ∧
        StrMax 7 sha := by
  schema_checks firmwareVersionFile

example : Schema.validate true firmwareVersionFile [
      ("d7a_protocol_version_major", .int 255), ("d7a_protocol_version_minor", .int 255),
      ("filesystem_version_major", .int 255), ("filesystem_version_minor", .int 255),
      ("application_name", .str 6), ("git_sha1", .str 7)] = .ok () := rfl

example : Schema.validate true firmwareVersionFile [
      ("d7a_protocol_version_major", .int 255), ("d7a_protocol_version_minor", .int 255),
      ("filesystem_version_major", .int 255), ("filesystem_version_minor", .int 255),
      ("application_name", .str 6), ("git_sha1", .other)] =
    .error .valueError := rfl

/-- The constructor of the model makes exactly this check. -/
theorem C57_firmware_version_file_typed (bi : Bool) (a b c d : Int) (name sha : List Nat) :
    FirmwareVersionFile.new a b c d name sha =
      (Schema.validate bi firmwareVersionFile [
      ("d7a_protocol_version_major", .int a), ("d7a_protocol_version_minor", .int b),
      ("filesystem_version_major", .int c), ("filesystem_version_minor", .int d),
      ("application_name", .str name.length), ("git_sha1", .str sha.length)]).map
        fun _ => (⟨a, b, c, d, name, sha⟩ : FirmwareVersionFile) := by
  unfold FirmwareVersionFile.new
  apply new_eq
  rw [C57_firmware_version_file]
  schema_typed

/-- What the constructor of InterfaceConfigurationFile accepts. -/
theorem C57_interface_configuration_file (bi : Bool) (conf : PyVal) :
    Schema.validate bi interfaceConfigurationFile [("interface_configuration", conf)] = .ok () ↔
        Is .InterfaceConfiguration conf := by
  schema_checks interfaceConfigurationFile

example : Schema.validate true interfaceConfigurationFile [("interface_configuration", .obj .InterfaceConfiguration)] = .ok () := rfl

example : Schema.validate true interfaceConfigurationFile [("interface_configuration", .other)] =
    .error .valueError := rfl

/-- What the model has as values of the fields is accepted. -/
theorem C57_interface_configuration_file_typed (bi : Bool) :
    Schema.validate bi interfaceConfigurationFile [("interface_configuration", .obj .InterfaceConfiguration)] = .ok () := by
  rw [C57_interface_configuration_file]
  schema_typed

/-- What the constructor of PhyStatusFile accepts. -/
theorem C57_phy_status_file (bi : Bool) (up rx tx duty n ids floors : PyVal) :
    Schema.validate bi phyStatusFile [
      ("up_time", up), ("rx_time", rx), ("tx_time", tx), ("tx_duty_cycle", duty),
      ("channel_status_list_length", n), ("channel_status_identifier", ids),
      ("channel_noise_floor", floors)] = .ok () ↔
        IntIn bi 0 4294967295 up ∧ IntIn bi 0 4294967295 rx ∧ IntIn bi 0 4294967295 tx ∧
        IntIn bi 0 1000 duty ∧ IntIn bi 0 255 n ∧
        ListOf 0 (some 255) (Is .ChannelStatusIdentifier) ids ∧ ListOf 0 (some 255) Anything floors := by
  schema_checks phyStatusFile

example : Schema.validate true phyStatusFile [
      ("up_time", .int 4294967295), ("rx_time", .int 4294967295), ("tx_time", .int 4294967295),
      ("tx_duty_cycle", .int 1000), ("channel_status_list_length", .int 255),
      ("channel_status_identifier", .tuple [.obj .ChannelStatusIdentifier]),
      ("channel_noise_floor", .list [.other])] = .ok () := rfl

example : Schema.validate true phyStatusFile [
      ("up_time", .int 4294967295), ("rx_time", .int 4294967295), ("tx_time", .int 4294967295),
      ("tx_duty_cycle", .int 1000), ("channel_status_list_length", .int 255),
      ("channel_status_identifier", .tuple [.obj .ChannelStatusIdentifier]),
      ("channel_noise_floor", .other)] =
    .error .valueError := rfl

/-- What the model has as values of the fields is accepted. -/
theorem C57_phy_status_file_typed (bi : Bool) (f : PhyStatusFile) :
    Verif.validate f.Valid f =
      (Schema.validate bi phyStatusFile [
      ("up_time", .int f.upTime), ("rx_time", .int f.rxTime), ("tx_time", .int f.txTime),
      ("tx_duty_cycle", .int f.txDutyCycle),
      ("channel_status_list_length", .int f.channelStatusListLength),
      ("channel_status_identifier", objs .ChannelStatusIdentifier f.channelStatusIdentifier),
      ("channel_noise_floor", ints f.channelNoiseFloor)]).map fun _ => f := by
  apply new_eq
  rw [C57_phy_status_file]
  unfold PhyStatusFile.Valid
  schema_typed

/-- What the constructor of SecurityKeyFile accepts. -/
theorem C57_security_key_file (bi : Bool) (key : PyVal) :
    Schema.validate bi securityKeyFile [("key", key)] = .ok () ↔
        IntIn bi 0 (2 ^ 128) key := by
  schema_checks securityKeyFile

example : Schema.validate true securityKeyFile [("key", .int (2 ^ 128))] = .ok () := rfl

example : Schema.validate true securityKeyFile [("key", .other)] =
    .error .valueError := rfl

/-- The constructor of the model makes exactly this check. -/
theorem C57_security_key_file_typed (bi : Bool) (key : Int) :
    SecurityKeyFile.new key =
      (Schema.validate bi securityKeyFile [("key", .int key)]).map
        fun _ => (⟨key⟩ : SecurityKeyFile) := by
  unfold SecurityKeyFile.new
  apply new_eq
  rw [C57_security_key_file]
  schema_typed

/-- What the constructor of RootAuthenticationKeyFile accepts. -/
theorem C57_root_authentication_key_file (bi : Bool) (key rfu : PyVal) :
    Schema.validate bi rootAuthenticationKeyFile [("key", key), ("rfu", rfu)] = .ok () ↔
        IntIn bi 0 (2 ^ 128) key ∧ IntIn bi 0 (2 ^ 192) rfu := by
  schema_checks rootAuthenticationKeyFile

example : Schema.validate true rootAuthenticationKeyFile [("key", .int (2 ^ 128)), ("rfu", .int (2 ^ 192))] = .ok () := rfl

example : Schema.validate true rootAuthenticationKeyFile [("key", .int (2 ^ 128)), ("rfu", .other)] =
    .error .valueError := rfl

/-- The constructor of the model makes exactly this check. -/
theorem C57_root_authentication_key_file_typed (bi : Bool) (key : Int) :
    RootAuthenticationKeyFile.new key =
      (Schema.validate bi rootAuthenticationKeyFile [("key", .int key), ("rfu", .int 0)]).map
        fun _ => (⟨key⟩ : RootAuthenticationKeyFile) := by
  unfold RootAuthenticationKeyFile.new
  apply new_eq
  rw [C57_root_authentication_key_file]
  schema_typed

/-- What the constructor of UserAuthenticationKeyFile accepts. -/
theorem C57_user_authentication_key_file (bi : Bool) (key rfu : PyVal) :
    Schema.validate bi userAuthenticationKeyFile [("key", key), ("rfu", rfu)] = .ok () ↔
        IntIn bi 0 (2 ^ 128) key ∧ IntIn bi 0 (2 ^ 192) rfu := by
  schema_checks userAuthenticationKeyFile

example : Schema.validate true userAuthenticationKeyFile [("key", .int (2 ^ 128)), ("rfu", .int (2 ^ 192))] = .ok () := rfl

example : Schema.validate true userAuthenticationKeyFile [("key", .int (2 ^ 128)), ("rfu", .other)] =
    .error .valueError := rfl

/-- The constructor of the model makes exactly this check. -/
theorem C57_user_authentication_key_file_typed (bi : Bool) (key : Int) :
    UserAuthenticationKeyFile.new key =
      (Schema.validate bi userAuthenticationKeyFile [("key", .int key), ("rfu", .int 0)]).map
        fun _ => (⟨key⟩ : UserAuthenticationKeyFile) := by
  unfold UserAuthenticationKeyFile.new
  apply new_eq
  rw [C57_user_authentication_key_file]
  schema_typed

/-- What the constructor of UidFile accepts. -/
theorem C57_uid_file (bi : Bool) (uid : PyVal) :
    Schema.validate bi uidFile [("uid", uid)] = .ok () ↔
        IntIn bi 0 18446744073709551615 uid := by
  schema_checks uidFile

example : Schema.validate true uidFile [("uid", .int 18446744073709551615)] = .ok () := rfl

example : Schema.validate true uidFile [("uid", .other)] =
    .error .valueError := rfl

/-- The constructor of the model makes exactly this check. -/
theorem C57_uid_file_typed (bi : Bool) (uid : Int) :
    UidFile.new uid =
      (Schema.validate bi uidFile [("uid", .int uid)]).map
        fun _ => (⟨uid⟩ : UidFile) := by
  unfold UidFile.new
  apply new_eq
  rw [C57_uid_file]
  schema_typed

/-- What the constructor of VidFile accepts. -/
theorem C57_vid_file (bi : Bool) (vid control : PyVal) :
    Schema.validate bi vidFile [("vid", vid), ("control", control)] = .ok () ↔
        IntIn bi 0 65535 vid ∧ IntIn bi 0 255 control := by
  schema_checks vidFile

example : Schema.validate true vidFile [("vid", .int 65535), ("control", .int 255)] = .ok () := rfl

example : Schema.validate true vidFile [("vid", .int 65535), ("control", .other)] =
    .error .valueError := rfl

/-- The constructor of the model makes exactly this check. -/
theorem C57_vid_file_typed (bi : Bool) (vid control : Int) :
    VidFile.new vid control =
      (Schema.validate bi vidFile [("vid", .int vid), ("control", .int control)]).map
        fun _ => (⟨vid, control⟩ : VidFile) := by
  unfold VidFile.new
  apply new_eq
  rw [C57_vid_file]
  schema_typed

/-! ### Addressee: four alternatives -/

/-- What the constructor of Addressee accepts: exactly one of its four alternatives can hold. -/
theorem C57_addressee (bi : Bool) (idType nls cls id : PyVal) :
    Schema.validate bi addressee [("id_type", idType), ("nls_method", nls), ("access_class", cls),
      ("id", id)] = .ok () ↔
      Member .NlsMethod nls ∧ IntIn bi 0 255 cls ∧
        (idType = .enum .IdType 0 ∧ id = .obj .CT ∨
         idType = .enum .IdType 1 ∧ id = .none ∨
         idType = .enum .IdType 3 ∧ IntIn bi 0 65535 id ∨
         idType = .enum .IdType 2 ∧ IntIn bi 0 18446744073709551615 id) := by
  have key : ∀ (l : List Int) (r : Rule),
      altOk bi [("id_type", Types.ENUM .IdType (some l)), ("nls_method", Types.ENUM .NlsMethod),
        ("access_class", Types.BYTE), ("id", r)]
        [("id_type", idType), ("nls_method", nls), ("access_class", cls), ("id", id)] = true ↔
      (∃ x ∈ l, idType = .enum .IdType x) ∧ Member .NlsMethod nls ∧ IntIn bi 0 255 cls ∧
        r.check bi id = true := by
    intro l r
    simp [altOk, List.lookup, absentOr, members_check, enum_check, byte_check]
  have k0 := key [IdType.NBID.value] (OBJ .CT)
  have k1 := key [IdType.NOID.value] (Types.INTEGERof [.none])
  have k3 := key [IdType.VID.value] (Types.INTEGER 0 0xFFFF)
  have k2 := key [IdType.UID.value] (Types.INTEGER 0 0xFFFFFFFFFFFFFFFF)
  rw [leaf_check bi .CT id (by simp) (by simp) (by simp)] at k0
  rw [none_check] at k1
  rw [int_check] at k3 k2
  simp only [IdType.value, List.mem_singleton, exists_eq_left, Is] at k0 k1 k2 k3
  have e : Schema.validate bi addressee [("id_type", idType), ("nls_method", nls),
      ("access_class", cls), ("id", id)] = .ok () ↔
      (addressee.countP fun alt => altOk bi alt [("id_type", idType), ("nls_method", nls),
        ("access_class", cls), ("id", id)]) = 1 := by
    unfold Schema.validate; split <;> simp_all
  rw [e]
  simp only [addressee, List.countP_cons, List.countP_nil, IdType.value]
  by_cases hn : Member .NlsMethod nls <;> by_cases hc : IntIn bi 0 255 cls
  · by_cases h0 : idType = .enum .IdType 0
    · subst h0; simp [hn, hc] at k0 k1 k2 k3; simp [hn, hc, k0, k1, k2, k3]
    by_cases h1 : idType = .enum .IdType 1
    · subst h1; simp [hn, hc] at k0 k1 k2 k3; simp [hn, hc, k0, k1, k2, k3]
    by_cases h2 : idType = .enum .IdType 2
    · subst h2; simp [hn, hc] at k0 k1 k2 k3; simp [hn, hc, k0, k1, k2, k3]
    by_cases h3 : idType = .enum .IdType 3
    · subst h3; simp [hn, hc] at k0 k1 k2 k3; simp [hn, hc, k0, k1, k2, k3]
    simp [h0, h1, h2, h3] at k0 k1 k2 k3; simp [h0, h1, h2, h3, k0, k1, k2, k3]
  all_goals
    simp [hn, hc] at k0 k1 k2 k3; simp [hn, hc, k0, k1, k2, k3]

example : Schema.validate true addressee [("id_type", .enum .IdType 2), ("nls_method",
    .enum .NlsMethod 0), ("access_class", .int 1), ("id", .int 18446744073709551615)] = .ok () := rfl

example : Schema.validate true addressee [("id_type", .enum .IdType 3), ("nls_method",
    .enum .NlsMethod 0), ("access_class", .int 1), ("id", .int 65536)] = .error .valueError := rfl

/-- The `id` attribute of the model as a Python value. -/
def addrIdVal : AddrId → PyVal
  | .none => .none
  | .int i => .int i
  | .ct _ => .obj .CT

/-- The constructor of the model makes exactly this check. -/
theorem C57_addressee_typed (bi : Bool) (cls : Int) (idType : IdType) (id : AddrId) (nls : NlsMethod) :
    Addressee.new cls idType id nls =
      (Schema.validate bi addressee [("id_type", .enum .IdType idType.value),
        ("nls_method", .enum .NlsMethod nls.value), ("access_class", .int cls),
        ("id", addrIdVal id)]).map fun _ => (⟨cls, idType, id, nls⟩ : Addressee) := by
  unfold Addressee.new
  apply new_eq
  rw [C57_addressee]
  cases idType <;> cases id <;> simp [addrIdVal, IdType.value, Addressee.idOk, isByte, IntIn]

/-! ### Operands and actions whose constructors do more than validate -/

/-- Data: the length object is made first, from the number of bytes. -/
theorem C57_data_typed (bi : Bool) (bytes : List Int) (off : Offset) :
    Data.new bytes off = (Length.new bytes.length).bind fun len =>
      (Schema.validate bi data [("offset", .obj .Offset), ("length", .obj .Length),
        ("data", ints bytes)]).map fun _ => (⟨off, len, bytes⟩ : Data) := by
  unfold Data.new
  show (Length.new bytes.length).bind _ = _
  congr 1
  funext len
  apply new_eq
  rw [C57_data]
  simp [isBytes, isByte]

/-- Interface configuration of the model as a Python value. -/
def ifaceVal : Option IfaceConfig → PyVal
  | none => .none
  | some (.d7asp _) => .obj .Configuration
  | some (.abp _) => .obj .LoRaWANInterfaceConfigurationABP
  | some (.otaa _) => .obj .LoRaWANInterfaceConfigurationOTAA

/-- What the model has as values of the fields is accepted. -/
theorem C57_interface_configuration_typed (bi : Bool) (c : InterfaceConfiguration) :
    Schema.validate bi interfaceConfiguration [
      ("interface_id", .enum .InterfaceType c.interfaceId.value),
      ("interface_configuration", ifaceVal c.config)] = .ok () := by
  rw [C57_interface_configuration]
  rcases c with ⟨t, _ | (c | c | c)⟩ <;> simp [ifaceVal, OrNone]

/-- Every operation is accepted as the operation of a plain, regular, tag request or tag response
action. -/
theorem C57_actions_typed (bi : Bool) (x y : Bool) (o : Operation) :
    Schema.validate bi action [("op", .int o.op), ("operation", .obj (operationCls o)),
      ("operand", operandVal o)] = .ok () ∧
    Schema.validate bi regularAction [("group", .bool x), ("resp", .bool y), ("op", .int o.op),
      ("operation", .obj (operationCls o)), ("operand", operandVal o)] = .ok () ∧
    Schema.validate bi tagRequestAction [("respond_when_completed", .bool x), ("op", .int o.op),
      ("operation", .obj (operationCls o)), ("operand", operandVal o)] = .ok () ∧
    Schema.validate bi tagResponseAction [("eop", .bool x), ("error", .bool y), ("op", .int o.op),
      ("operation", .obj (operationCls o)), ("operand", operandVal o)] = .ok () := by
  rw [C57_action, C57_regular_action, C57_tag_request_action, C57_tag_response_action]
  have ho : IsOperation (.obj (operationCls o)) := by
    cases o <;> exact ⟨_, by simp [operationCls], rfl⟩
  have hp : IntIn bi 0 63 (.int o.op) := by cases o <;> simp [Operation.op]
  simp [ho, hp]

/-- The constructor of the model makes exactly this check. -/
theorem C57_forward_action_typed (bi : Bool) (resp : Bool) (o : Operation) :
    Action.newForward resp o =
      (Schema.validate bi forwardAction [("resp", .bool resp), ("op", .int o.op),
        ("operation", .obj (operationCls o)), ("operand", operandVal o)]).map
        fun _ => Action.forward resp o := by
  have h := C57_forward_action bi (.bool resp) (.int o.op) (.obj (operationCls o)) (operandVal o)
  cases o with
  | forward c =>
    rw [h.2 (by simp [Operation.op, operationCls, operandVal])]
    rfl
  | _ =>
    rcases validate_error bi forwardAction _ with h' | h'
    · have := (h.1 h').2.2.1
      simp [operationCls, Is] at this
    · rw [h']; rfl

/-- The constructor of the model makes exactly this check. -/
theorem C57_indirect_forward_action_typed (bi : Bool) (overload resp : Bool) (o : Operation) :
    Action.newIndirectForward overload resp o =
      (Schema.validate bi indirectForwardAction [("overload", .bool overload), ("resp", .bool resp),
        ("op", .int o.op), ("operation", .obj (operationCls o)), ("operand", operandVal o)]).map
        fun _ => Action.indirectForward overload resp o := by
  have h := C57_indirect_forward_action bi (.bool overload) (.bool resp) (.int o.op)
    (.obj (operationCls o)) (operandVal o)
  cases o with
  | indirectForward c =>
    rw [h.2 (by simp [Operation.op, operationCls, operandVal])]
    rfl
  | _ =>
    rcases validate_error bi indirectForwardAction _ with h' | h'
    · have := (h.1 h').2.2.2.1
      simp [operationCls, Is] at this
    · rw [h']; rfl

/-- The constructor of the model makes exactly this check. -/
theorem C57_status_action_typed (bi : Bool) (ext : Int) (o : Operation) :
    Action.newStatus ext (some o) =
      (Schema.validate bi statusAction [("status_operand_extension", .int ext), ("op", .int o.op),
        ("operation", .obj (operationCls o)), ("operand", operandVal o)]).map
        fun _ => Action.status ext o := by
  unfold Action.newStatus
  apply new_eq
  rw [C57_status_action]
  have ho : IsOperation (.obj (operationCls o)) := by
    cases o <;> exact ⟨_, by simp [operationCls], rfl⟩
  simp [ho]
  omega

/-- A list item of a command's actions, `None` or an action. -/
def actionVal : Option Action → PyVal
  | none => .none
  | some a => .obj (actionCls a)

/-- A command is accepted if and only if none of its action items is None (`Command.allSome`). -/
theorem C57_command_typed (bi : Bool) (as : List (Option Action)) (st : Option Action) :
    Schema.validate bi command [("actions", .list (as.map actionVal)),
      ("interface_status", opt .StatusAction st)] = .ok () ↔ ∃ l, Command.allSome as = some l := by
  rw [C57_command]
  simp only [orNone_opt, and_true]
  have hlist : ListOf 0 none IsAction (.list (as.map actionVal)) ↔
      ∀ x ∈ as, IsAction (actionVal x) := by
    simp [ListOf]
  rw [hlist]
  have hsome : ∀ a, IsAction (actionVal (some a)) := by
    intro a; cases a <;> exact ⟨_, by simp [actionCls], rfl⟩
  have hnone : ¬ IsAction (actionVal none) := by simp [IsAction, actionVal]
  induction as with
  | nil => simp [Command.allSome]
  | cons x xs ih =>
    cases x with
    | none => simp [Command.allSome, hnone]
    | some a => simp [Command.allSome, hsome, ← ih (by simp [ListOf])]

example : Command.allSome [some (.base .nop), some (.tagRequest true .nop)] =
    some [.base .nop, .tagRequest true .nop] := rfl

example : Command.allSome [some (.base .nop), none] = none := rfl

theorem operand_of (c d : Cls) (hd : operandClass c = some d) (h1 : d ≠ .Validatable)
    (h2 : d ≠ .Operation) (h3 : d ≠ .Action) (v : PyVal) (h : operationInit c v = .ok ()) :
    v = .obj d := by
  unfold operationInit at h
  rw [hd] at h
  cases v <;> simp [isinstance] at h
  rename_i e
  by_cases hs : isinstance (.obj e) (.cls d) = true
  · rw [(sub_leaf d h1 h2 h3 e).1 hs]
  · exact absurd (h.symm.trans (if_neg hs)) (by simp)

/-- `Operation.__init__` accepts exactly the operands that the operations of the model have. -/
theorem C57_operation (c : Cls) (hc : c ∈ [Cls.NoOperation, .ReadFileData, .ReadFileHeader,
    .WriteFileData, .WriteFileHeader, .BreakQuery, .CreateNewFile, .ReturnFileData,
    .ReturnFileHeader, .InterfaceStatus, .TagResponse, .Forward, .IndirectForward, .TagRequest])
    (v : PyVal) :
    operationInit c v = .ok () ↔ ∃ o, operationCls o = c ∧ operandVal o = v := by
  have l0 : Length := ⟨0⟩
  have o0 : Offset := ⟨0, ⟨0⟩⟩
  have d0 : Data := ⟨⟨0, ⟨0⟩⟩, ⟨0⟩, []⟩
  have r0 : DataRequest := ⟨⟨0, ⟨0⟩⟩, ⟨0⟩⟩
  have f0 : FileIdOperand := ⟨0⟩
  have h0 : FileHeaderOperand :=
    ⟨0, ⟨⟨true, true, true, true, true, true, true, true⟩, ⟨true, .LIST, .TRANSIENT⟩, 0, 0, 0, 0⟩⟩
  have q0 : QueryOperand := ⟨.ARITH_COMP_WITH_VALUE, true, ⟨true, .EQUALITY⟩, ⟨0⟩, [], ⟨0, ⟨0⟩⟩⟩
  have s0 : InterfaceStatusOperand := ⟨0, none⟩
  have t0 : TagId := ⟨0⟩
  have i0 : InterfaceConfiguration := ⟨.HOST, none⟩
  have n0 : IndirectInterfaceOperand := ⟨0, none⟩
  constructor
  · intro h
    simp only [List.mem_cons, List.not_mem_nil, or_false] at hc
    rcases hc with rfl | rfl | rfl | rfl | rfl | rfl | rfl | rfl | rfl | rfl | rfl | rfl | rfl | rfl
    case inl =>
      cases v <;> simp [operationInit, operandClass] at h
      exact ⟨.nop, rfl, rfl⟩
    all_goals
      have hv := operand_of _ _ rfl (by simp) (by simp) (by simp) v h
      subst hv
    · exact ⟨.readFileData r0, rfl, rfl⟩
    · exact ⟨.readFileHeader f0, rfl, rfl⟩
    · exact ⟨.writeFileData d0, rfl, rfl⟩
    · exact ⟨.writeFileHeader h0, rfl, rfl⟩
    · exact ⟨.breakQuery q0, rfl, rfl⟩
    · exact ⟨.createNewFile h0, rfl, rfl⟩
    · exact ⟨.returnFileData d0, rfl, rfl⟩
    · exact ⟨.returnFileHeader h0, rfl, rfl⟩
    · exact ⟨.interfaceStatus s0, rfl, rfl⟩
    · exact ⟨.tagResponse t0, rfl, rfl⟩
    · exact ⟨.forward i0, rfl, rfl⟩
    · exact ⟨.indirectForward n0, rfl, rfl⟩
    · exact ⟨.tagRequest t0, rfl, rfl⟩
  · rintro ⟨o, rfl, rfl⟩
    cases o <;> rfl

/-- Any other operand is refused with ValueError. -/
theorem C57_operation_refused {c : Cls} {v : PyVal} {e : PyErr} (h : operationInit c v = .error e) :
    e = .valueError := by
  unfold operationInit at h
  repeat' split at h
  all_goals first | (cases h; done) | (cases h; rfl)

example : operationInit .ReadFileData .none = .error .valueError := rfl
example : operationInit .WriteFileData (.obj .Data) = .ok () := rfl
example : operationInit .WriteFileData (.obj .DataRequest) = .error .valueError := rfl
example : operationInit .NoOperation (.obj .Data) = .error .valueError := rfl

/-! ### What is not checked -/

theorem altOk_unchecked (bi : Bool) (alt : List (String × Rule)) (attr : String) (v v' : PyVal)
    (rest : Attrs) (h : ∀ kr ∈ alt, kr.1 ≠ attr) :
    altOk bi alt ((attr, v) :: rest) = altOk bi alt ((attr, v') :: rest) := by
  unfold altOk
  rw [Bool.eq_iff_iff, List.all_eq_true, List.all_eq_true]
  refine forall_congr' fun kr => forall_congr' fun hk => ?_
  have : (kr.1 == attr) = false := by simpa using h kr hk
  simp [List.lookup, this]

/-- Attributes that no schema key names: whatever their value, and whatever the other attributes are,
the validation has the same outcome. They are the ones whose key is misspelt (`user_writable` for
`user_writeable`, `act_cond` for `act_condition`, `ucast` for `unicast`, `LQ_filter` for `lq_filter`,
`preamble_tol` for `preamble_tol_lo_rate`, …) or commented out (LoRaWAN). -/
theorem C57_unchecked (sch : Sch) (attr : String)
    (h : (sch, attr) ∈ [(filePermissions, "user_writeable"), (filePermissions, "user_executeable"),
      (filePermissions, "guest_writeable"), (filePermissions, "guest_executeable"),
      (fileProperties, "act_condition"), (status, "unicast"), (dllConfigFile, "lq_filter"),
      (dllConfigFile, "nf_ctrl"), (dllConfigFile, "rx_nf_method_parameter"),
      (dllConfigFile, "tx_nf_method_parameter"), (factorySettingsFile, "preamble_tol_lo_rate"),
      (factorySettingsFile, "preamble_tol_normal_rate"),
      (factorySettingsFile, "preamble_tol_hi_rate"), (lorawanAbp, "adr_enabled"),
      (lorawanAbp, "request_ack"), (lorawanAbp, "app_port"), (lorawanAbp, "data_rate"),
      (lorawanAbp, "dev_addr"), (lorawanAbp, "netw_id"), (lorawanOtaa, "adr_enabled"),
      (lorawanOtaa, "request_ack"), (lorawanOtaa, "app_port"), (lorawanOtaa, "data_rate")])
    (bi : Bool) (v v' : PyVal) (rest : Attrs) :
    Schema.validate bi sch ((attr, v) :: rest) = Schema.validate bi sch ((attr, v') :: rest) := by
  have key : ∀ alt ∈ sch, altOk bi alt ((attr, v) :: rest) = altOk bi alt ((attr, v') :: rest) := by
    intro alt ha
    apply altOk_unchecked
    simp only [List.mem_cons, Prod.mk.injEq, List.not_mem_nil, or_false] at h
    rcases h with ⟨rfl, rfl⟩ | ⟨rfl, rfl⟩ | ⟨rfl, rfl⟩ | ⟨rfl, rfl⟩ | ⟨rfl, rfl⟩ | ⟨rfl, rfl⟩ |
      ⟨rfl, rfl⟩ | ⟨rfl, rfl⟩ | ⟨rfl, rfl⟩ | ⟨rfl, rfl⟩ | ⟨rfl, rfl⟩ | ⟨rfl, rfl⟩ | ⟨rfl, rfl⟩ |
      ⟨rfl, rfl⟩ | ⟨rfl, rfl⟩ | ⟨rfl, rfl⟩ | ⟨rfl, rfl⟩ | ⟨rfl, rfl⟩ | ⟨rfl, rfl⟩ | ⟨rfl, rfl⟩ |
      ⟨rfl, rfl⟩ | ⟨rfl, rfl⟩ | ⟨rfl, rfl⟩ <;>
    simp [filePermissions, fileProperties, status, dllConfigFile, factorySettingsFile, lorawanAbp,
      lorawanOtaa] at ha <;> subst ha <;> simp
  unfold Schema.validate
  rw [List.countP_congr fun alt ha => by rw [key alt ha]]

example : Schema.validate true filePermissions [("user_writeable", .str 3), ("encrypted", .bool true)]
    = .ok () := rfl

/-- A schema without alternatives (`Validatable.SCHEMA = []`) accepts nothing. -/
theorem C57_no_alternative (bi : Bool) (attrs : Attrs) :
    Schema.validate bi [] attrs = .error .valueError := rfl

example : Schema.validate true [] [("x", .int 1)] = .error .valueError := C57_no_alternative _ _

/-- The byte string that the key files' `parse` passes as key is never accepted. -/
theorem C57_key_string (bi : Bool) (n : Nat) (rfu : PyVal) :
    Schema.validate bi securityKeyFile [("key", .str n)] = .error .valueError ∧
    Schema.validate bi rootAuthenticationKeyFile [("key", .str n), ("rfu", rfu)] =
      .error .valueError ∧
    Schema.validate bi userAuthenticationKeyFile [("key", .str n), ("rfu", rfu)] =
      .error .valueError := by
  refine ⟨?_, ?_, ?_⟩
  · refine (validate_error _ _ _).resolve_left fun h => ?_
    rw [C57_security_key_file] at h
    simp [IntIn] at h
  · refine (validate_error _ _ _).resolve_left fun h => ?_
    rw [C57_root_authentication_key_file] at h
    simp [IntIn] at h
  · refine (validate_error _ _ _).resolve_left fun h => ?_
    rw [C57_user_authentication_key_file] at h
    simp [IntIn] at h

example : Schema.validate true securityKeyFile [("key", .str 16)] = .error .valueError ∧
    Schema.validate true securityKeyFile [("key", .int 16)] = .ok () := ⟨rfl, rfl⟩

end Verif.Schema
