import Verif.Model.Dll
import Verif.Model.SystemTable

/-! Model of d7a/support/schema.py: `Types`, `ObjectValidator`, `Validatable.validate`, with the rules
of the Cerberus 1.1 validator that the schemas of this library use, and of every SCHEMA in d7a.

The other model files write the outcome of a validation of well-typed arguments directly as a
condition (`validate`); Props/Schema.lean proves that those conditions are what this evaluator
computes, and what it computes for arguments of any type. -/

namespace Verif.Schema

open Verif

/-- The enum classes (d7a/phy/channel_header.py 29-72, channel_status_identifier.py 29-31,
d7a/d7anp/addressee.py 36-50, d7a/sp/qos.py 31-40, d7a/fs/file_properties.py 29-40,
d7a/alp/interface.py 27-32, d7a/alp/operands/query.py 30-44, d7a/system_files/engineering_mode.py
34-56). -/
inductive EnumCls
  | ChannelCoding | ChannelClass | ChannelBand | Bandwidth | IdType | NlsMethod | ResponseMode
  | RetryMode | ActionCondition | StorageClass | InterfaceType | QueryType | ArithComparisonType
  | EngineeringModeMode
  deriving DecidableEq, Repr

/-- The classes deriving from `Validatable`, at the `class` line of the file named after each. -/
inductive Cls
  | Validatable
  | CT | ChannelHeader | ChannelID | ChannelStatusIdentifier | SubBand | SubProfile | AccessProfile
  | FilePermissions | FileProperties | FileHeader | Addressee | QoS | Configuration | Status
  | Length | Offset | Data | DataRequest | FileIdOperand | FileHeaderOperand | ArithQueryParams
  | QueryOperand | TagId | LoRaWANInterfaceConfigurationABP | LoRaWANInterfaceConfigurationOTAA
  | InterfaceConfiguration | InterfaceStatusOperand | IndirectInterfaceOperand
  | Operation | NoOperation | ReadFileData | ReadFileHeader | WriteFileData | WriteFileHeader
  | BreakQuery | CreateNewFile | ReturnFileData | ReturnFileHeader | InterfaceStatus | TagResponse
  | Forward | IndirectForward | TagRequest
  | Action | RegularAction | ForwardAction | IndirectForwardAction | StatusAction
  | TagRequestAction | TagResponseAction | Command
  | D7atpControl | D7atpFrame | D7anpControl | D7anpFrame
  | ForegroundFrameControl | BackgroundFrameControl | ForegroundFrame | BackgroundFrame
  | SystemFile
  deriving DecidableEq, Repr

/-- The direct base class. -/
def Cls.base : Cls → Option Cls
  | .Validatable => none
  | .NoOperation | .ReadFileData | .ReadFileHeader | .WriteFileData | .WriteFileHeader | .BreakQuery
  | .CreateNewFile | .ReturnFileData | .ReturnFileHeader | .InterfaceStatus | .TagResponse
  | .Forward | .IndirectForward | .TagRequest => some .Operation
  | .RegularAction | .ForwardAction | .IndirectForwardAction | .StatusAction | .TagRequestAction
  | .TagResponseAction => some .Action
  | _ => some .Validatable

/-- `issubclass(c, d)`: no class has more than two bases above it. -/
def Cls.sub (c d : Cls) : Bool :=
  c == d || (match c.base with
    | none => false
    | some b => b == d || (match b.base with
      | none => false
      | some b' => b' == d))

/-- A Python value, as far as the validator looks at it. Of an object it only looks at the class, of an
enum member at the class and the value. Byte strings are `str`; floats, bytearrays and objects of
classes outside the library are not represented, except by `other`, which no rule with a type or a
class accepts. -/
inductive PyVal
  | none
  | bool (b : Bool)
  | int (i : Int)
  | str (length : Nat)
  | list (l : List PyVal)
  | tuple (l : List PyVal)
  | enum (c : EnumCls) (value : Int)
  | obj (c : Cls)
  | other

/-- The class named by an `isinstance` rule. -/
inductive ClassArg
  | cls (c : Cls)
  | enum (c : EnumCls)
  deriving DecidableEq, Repr

/-- `isinstance(value, clazz)` -/
def isinstance (v : PyVal) : ClassArg → Bool
  | .cls c => match v with
    | .obj d => d.sub c
    | _ => false
  | .enum c => match v with
    | .enum d _ => d == c
    | _ => false

/-- `==` between a value and one listed in a schema (None, an int or an enum member; `True == 1`). -/
def pyEq : PyVal → PyVal → Bool
  | .none, .none => true
  | .int i, .int j => i == j
  | .bool b, .int j => (if b then 1 else 0) == j
  | .enum c i, .enum d j => c == d && i == j
  | _, _ => false

/-- The `type` names in use. -/
inductive TypeName | boolean | integer | string | list
  deriving DecidableEq, Repr

/-- Cerberus 1.1 `_validate_type_*`: "integer" is `isinstance(value, int)`, of which bool is a subclass
(`bi = true`); a version that excludes bool is covered by `bi = false`. "list" is any sequence that is
not a string. -/
def hasType (bi : Bool) (v : PyVal) : TypeName → Bool
  | .boolean => match v with
    | .bool _ => true
    | _ => false
  | .integer => match v with
    | .int _ => true
    | .bool _ => bi
    | _ => false
  | .string => match v with
    | .str _ => true
    | _ => false
  | .list => match v with
    | .list _ => true
    | .tuple _ => true
    | _ => false

/-- A rule set of a field, without `schema`. Absent rules are `none`. -/
structure Rule0 where
  type : Option TypeName := none
  nullable : Bool := false
  min : Option Int := none
  max : Option Int := none
  allowed : Option (List PyVal) := none
  isinstance : Option ClassArg := none
  allowedmembers : Option (List PyVal) := none
  minlength : Option Nat := none
  maxlength : Option Nat := none

/-- A rule set of a field; `items` is the `schema` rule of a list field. -/
structure Rule extends Rule0 where
  items : Option Rule0 := none

/-- Numeric value for the comparisons of `min` and `max`; Cerberus skips the comparison on a TypeError,
and Python 2 compares values of other types in an arbitrary order, but every schema that has `min` or
`max` also has `type: integer`, which stops before. -/
def PyVal.num? : PyVal → Option Int
  | .int i => some i
  | .bool b => some (if b then 1 else 0)
  | _ => Option.none

/-- `len(value)`, for `minlength` and `maxlength` (skipped for values that are not iterable). -/
def PyVal.len? : PyVal → Option Nat
  | .str n => some n
  | .list l => some l.length
  | .tuple l => some l.length
  | _ => Option.none

/-- A rule that is absent holds. -/
def absentOr {α : Type} (o : Option α) (f : α → Bool) : Bool :=
  match o with
  | none => true
  | some a => f a

/-- The rules other than `type`, `nullable` and `schema`. -/
def Rule0.others (r : Rule0) (v : PyVal) : Bool :=
  absentOr r.min (fun m => absentOr v.num? fun i => decide (m ≤ i)) &&
  absentOr r.max (fun m => absentOr v.num? fun i => decide (i ≤ m)) &&
  absentOr r.allowed (fun l => l.any fun a => pyEq v a) &&
  absentOr r.isinstance (fun c => Schema.isinstance v c) &&
  absentOr r.allowedmembers (fun l => l.any fun a => pyEq v a) &&
  absentOr r.minlength (fun m => absentOr v.len? fun n => decide (m ≤ n)) &&
  absentOr r.maxlength (fun m => absentOr v.len? fun n => decide (n ≤ m))

/-- A field without `schema`: `nullable` first (None passes all rules if allowed and is an error
otherwise), then `type`, then the others. -/
def Rule0.check (bi : Bool) (r : Rule0) (v : PyVal) : Bool :=
  match v with
  | .none => r.nullable
  | v => absentOr r.type (fun t => hasType bi v t) && r.others v

/-- A field; `schema` applies the item rules to every item of a list or tuple. -/
def Rule.check (bi : Bool) (r : Rule) (v : PyVal) : Bool :=
  r.toRule0.check bi v && absentOr r.items fun it => match v with
    | .list l => l.all (it.check bi)
    | .tuple l => l.all (it.check bi)
    | _ => true

/-! ## d7a/support/schema.py `Types` -/

namespace Types

/-- d7a/support/schema.py 90-93 (never called with a value) -/
def BOOLEAN : Rule := { type := some .boolean }

/-- d7a/support/schema.py 96-97 -/
def BYTE : Rule := { type := some .integer, min := some 0, max := some 0xFF }

/-- d7a/support/schema.py 100-105 -/
def STRING (maxlength : Nat) : Rule := { type := some .string, maxlength := some maxlength }

/-- d7a/support/schema.py 108-112 -/
def BYTES : Rule :=
  { type := some .list, items := some { type := some .integer, min := some 0, max := some 0xFF } }

/-- d7a/support/schema.py 115-118 -/
def OBJECT (c : Option ClassArg) (nullable : Bool := false) : Rule :=
  { nullable := nullable, isinstance := c }

/-- d7a/support/schema.py 121-128 with `min` and `max` -/
def INTEGER (min max : Int) : Rule := { type := some .integer, min := some min, max := some max }

/-- d7a/support/schema.py 121-128 with `values`: nullable when None is listed -/
def INTEGERof (values : List PyVal) : Rule :=
  { type := some .integer, allowed := some values,
    nullable := values.any fun v => match v with
      | .none => true
      | _ => false }

/-- d7a/support/schema.py 131-134 (`nullable` is ignored there) -/
def ENUM (c : EnumCls) (allowed : Option (List Int) := none) : Rule :=
  { isinstance := some (.enum c), allowedmembers := allowed.map fun l => l.map (PyVal.enum c) }

/-- `math.pow(2, length)-1` as an exact number: a double has 53 bits, so from length 54 on the
subtraction does nothing. -/
def bitsMax (length : Nat) : Int := if length ≤ 53 then 2 ^ length - 1 else 2 ^ length

/-- d7a/support/schema.py 141-143 -/
def BITS (length : Nat) : Rule :=
  { type := some .integer, min := some 0, max := some (bitsMax length) }

/-- d7a/support/schema.py 146-155 (a `maxlength` of 0 or None adds no rule) -/
def LIST (c : Option Cls) (minlength : Nat := 0) (maxlength : Nat := 0) : Rule :=
  { type := some .list, minlength := some minlength,
    maxlength := if maxlength = 0 then none else some maxlength,
    items := c.map fun c => { isinstance := some (.cls c) } }

end Types

/-- A SCHEMA: the alternatives of `oneof_schema`, each a dictionary of rule sets. -/
abbrev Sch : Type := List (List (String × Rule))

/-- The attributes of an object (`dir(self)`); methods and class attributes, which no schema names, are
left out. -/
abbrev Attrs : Type := List (String × PyVal)

/-- One alternative: every key that is an attribute is checked, a key that is not an attribute checks
nothing (no rule set has `required`), and attributes without key are allowed (`allow_unknown`). -/
def altOk (bi : Bool) (alt : List (String × Rule)) (attrs : Attrs) : Bool :=
  alt.all fun kr => absentOr (attrs.lookup kr.1) fun v => kr.2.check bi v

/-- d7a/support/schema.py 73-86 `validate`: `oneof_schema` wants exactly one alternative to hold;
otherwise ValueError. -/
def validate (bi : Bool) (sch : Sch) (attrs : Attrs) : Except PyErr Unit :=
  if (sch.countP fun alt => altOk bi alt attrs) = 1 then .ok () else .error .valueError

open Types

/-- `Types.OBJECT(c)` for a class of the library. -/
def OBJ (c : Cls) (nullable : Bool := false) : Rule := OBJECT (some (.cls c)) nullable

/-! ## The schemas -/

/-- d7a/types/ct.py 45-48 -/
def ct : Sch := [[
  ("exp", { type := some .integer, min := some 0, max := some 7 }),
  ("mant", { type := some .integer, min := some 0, max := some 31 })]]

/-- d7a/phy/channel_header.py 84-88 -/
def channelHeader : Sch := [[
  ("channel_coding", ENUM .ChannelCoding),
  ("channel_class", ENUM .ChannelClass),
  ("channel_band", ENUM .ChannelBand)]]

/-- d7a/phy/subband.py 33-39 -/
def subBand : Sch := [[
  ("channel_index_start", INTEGER 0 0xFFFF),
  ("channel_index_end", INTEGER 0 0xFFFF),
  ("eirp", INTEGER (-128) 127),
  ("cca", INTEGER 0 255),
  ("duty", INTEGER 0 255)]]

/-- d7a/phy/channel_id.py 32-35 -/
def channelID : Sch := [[
  ("channel_header", OBJ .ChannelHeader),
  ("channel_index", INTEGER 0 0xFFFF)]]

/-- d7a/phy/channel_status_identifier.py 39-43 -/
def channelStatusIdentifier : Sch := [[
  ("channel_band", ENUM .ChannelBand),
  ("channel_bandwidth", ENUM .Bandwidth),
  ("channel_index", INTEGER 0 1039)]]

/-- d7a/dll/sub_profile.py 32-35 -/
def subProfile : Sch := [[
  ("subband_bitmap", BYTE),
  ("scan_automation_period", OBJ .CT)]]

/-- d7a/dll/access_profile.py 45-49 -/
def accessProfile : Sch := [[
  ("channel_header", OBJ .ChannelHeader),
  ("sub_profiles", LIST (some .SubProfile) 4 4),
  ("sub_bands", LIST (some .SubBand) 0 8)]]

/-- d7a/dll/background_frame_control.py 29-32 -/
def backgroundFrameControl : Sch := [[
  ("id_type", ENUM .IdType),
  ("tag", INTEGER 0 63)]]

/-- d7a/dll/foreground_frame_control.py 29-32 -/
def foregroundFrameControl : Sch := [[
  ("id_type", ENUM .IdType),
  ("eirp_index", INTEGER 0 63)]]

/-- d7a/dll/foreground_frame.py 34-41 -/
def foregroundFrame : Sch := [[
  ("length", BYTE),
  ("subnet", BYTE),
  ("control", OBJ .ForegroundFrameControl),
  ("target_address", BYTES),
  ("d7anp_frame", OBJ .D7anpFrame),
  ("crc16", BITS 16)]]

/-- d7a/dll/background_frame.py 34-39 -/
def backgroundFrame : Sch := [[
  ("subnet", BYTE),
  ("control", OBJ .BackgroundFrameControl),
  ("payload", BITS 16),
  ("crc16", BITS 16)]]

/-- d7a/sp/qos.py 43-48 -/
def qos : Sch := [[
  ("stop_on_err", BOOLEAN),
  ("record", BOOLEAN),
  ("resp_mod", ENUM .ResponseMode),
  ("retry_mod", ENUM .RetryMode)]]

/-- d7a/sp/configuration.py 39-43 -/
def configuration : Sch := [[
  ("qos", OBJ .QoS),
  ("dorm_to", OBJ .CT),
  ("addressee", OBJ .Addressee)]]

/-- d7a/sp/status.py 56-69 -/
def status : Sch := [[
  ("channel_id", OBJ .ChannelID),
  ("rx_level", BYTE),
  ("link_budget", BYTE),
  ("target_rx_level", BYTE),
  ("nls", BOOLEAN),
  ("missed", BOOLEAN),
  ("retry", BOOLEAN),
  ("ucast", BOOLEAN),
  ("fifo_token", BYTE),
  ("seq_nr", BYTE),
  ("response_to", OBJ .CT),
  ("addressee", OBJ .Addressee)]]

/-- d7a/alp/operands/interface_configuration.py 29-32 -/
def interfaceConfiguration : Sch := [[
  ("interface_id", ENUM .InterfaceType),
  ("interface_configuration", OBJ .Validatable true)]]

/-- d7a/alp/operands/file.py 34-38 -/
def data : Sch := [[
  ("offset", OBJ .Offset),
  ("length", OBJ .Length),
  ("data", BYTES)]]

/-- d7a/alp/operands/file.py 66-69 -/
def dataRequest : Sch := [[
  ("offset", OBJ .Offset),
  ("length", OBJ .Length)]]

/-- d7a/alp/operands/file.py 86-88 -/
def fileIdOperand : Sch := [[("file_id", BYTE)]]

/-- d7a/alp/operands/query.py 47-50 (`OBJECT` of an enum class) -/
def arithQueryParams : Sch := [[
  ("signed_data_type", BOOLEAN),
  ("comp_type", OBJECT (some (.enum .ArithComparisonType)))]]

/-- d7a/alp/operands/query.py 70-77 -/
def queryOperand : Sch := [[
  ("type", ENUM .QueryType),
  ("mask_present", BOOLEAN),
  ("params", OBJ .ArithQueryParams),
  ("compare_length", OBJ .Length),
  ("compare_value", BYTES),
  ("file_a_offset", OBJ .Offset)]]

/-- d7a/alp/operands/file_header.py 30-33 -/
def fileHeaderOperand : Sch := [[
  ("file_id", BYTE),
  ("file_header", OBJ .FileHeader)]]

/-- d7a/alp/operands/interface_status.py 30-33 -/
def interfaceStatusOperand : Sch := [[
  ("interface_id", BYTE),
  ("interface_status", OBJ .Status true)]]

/-- d7a/alp/operands/tag_id.py 29-31 -/
def tagId : Sch := [[("tag_id", BYTE)]]

/-- d7a/alp/operands/length.py 31-35 -/
def length : Sch := [[("value", INTEGER 0 0x3FFFFFFF)]]

/-- d7a/alp/operands/indirect_interface_operand.py 32-35 -/
def indirectInterfaceOperand : Sch := [[
  ("interface_file_id", INTEGER 0 0xFF),
  ("interface_configuration_overload", OBJ .Addressee true)]]

/-- d7a/alp/operands/offset.py 32-37 -/
def offset : Sch := [[
  ("id", BYTE),
  ("offset", OBJ .Length)]]

/-- d7a/alp/operands/lorawan_interface_configuration_otaa.py 31-40: one alternative without keys -/
def lorawanOtaa : Sch := [[]]

/-- d7a/alp/operands/lorawan_interface_configuration_abp.py 31-41 -/
def lorawanAbp : Sch := [[]]

/-- d7a/alp/action.py 39-43 -/
def action : Sch := [[
  ("op", BITS 6),
  ("operation", OBJ .Operation),
  ("operand", OBJECT none true)]]

/-- d7a/alp/regular_action.py 33-39 -/
def regularAction : Sch := [[
  ("group", BOOLEAN),
  ("resp", BOOLEAN),
  ("op", BITS 6),
  ("operation", OBJ .Operation),
  ("operand", OBJECT none true)]]

/-- d7a/alp/forward_action.py 32-37 -/
def forwardAction : Sch := [[
  ("resp", BOOLEAN),
  ("op", BITS 6),
  ("operation", OBJ .Forward),
  ("operand", OBJ .InterfaceConfiguration)]]

/-- d7a/alp/indirect_forward_action.py 32-38 -/
def indirectForwardAction : Sch := [[
  ("overload", BOOLEAN),
  ("resp", BOOLEAN),
  ("op", BITS 6),
  ("operation", OBJ .IndirectForward),
  ("operand", OBJ .IndirectInterfaceOperand)]]

/-- d7a/alp/status_action.py 42-46, with `ALL = [0, 1]` of lines 31-39 -/
def statusAction : Sch := [[
  ("status_operand_extension", INTEGERof [.int 0, .int 1]),
  ("operation", OBJ .Operation),
  ("operand", OBJECT none true)]]

/-- d7a/alp/tag_request_action.py 30-35 -/
def tagRequestAction : Sch := [[
  ("respond_when_completed", BOOLEAN),
  ("op", BITS 6),
  ("operation", OBJ .Operation),
  ("operand", OBJECT none true)]]

/-- d7a/alp/tag_response_action.py 30-36 -/
def tagResponseAction : Sch := [[
  ("eop", BOOLEAN),
  ("error", BOOLEAN),
  ("op", BITS 6),
  ("operation", OBJ .Operation),
  ("operand", OBJECT none true)]]

/-- d7a/alp/command.py 60-63 -/
def command : Sch := [[
  ("actions", LIST (some .Action)),
  ("interface_status", OBJ .StatusAction true)]]

/-- d7a/d7anp/addressee.py 60-89 -/
def addressee : Sch := [
  [("id_type", ENUM .IdType (some [IdType.NBID.value])),
   ("nls_method", ENUM .NlsMethod),
   ("access_class", BYTE),
   ("id", OBJ .CT)],
  [("id_type", ENUM .IdType (some [IdType.NOID.value])),
   ("nls_method", ENUM .NlsMethod),
   ("access_class", BYTE),
   ("id", INTEGERof [.none])],
  [("id_type", ENUM .IdType (some [IdType.VID.value])),
   ("nls_method", ENUM .NlsMethod),
   ("access_class", BYTE),
   ("id", INTEGER 0 0xFFFF)],
  [("id_type", ENUM .IdType (some [IdType.UID.value])),
   ("nls_method", ENUM .NlsMethod),
   ("access_class", BYTE),
   ("id", INTEGER 0 0xFFFFFFFFFFFFFFFF)]]

/-- d7a/d7anp/control.py 29-34 -/
def d7anpControl : Sch := [[
  ("has_no_origin_access_id", BOOLEAN),
  ("has_hopping", BOOLEAN),
  ("origin_id_type", ENUM .IdType
    (some [IdType.UID.value, IdType.VID.value, IdType.NOID.value, IdType.NBID.value])),
  ("nls_method", ENUM .NlsMethod)]]

/-- d7a/d7anp/frame.py 31-36 -/
def d7anpFrame : Sch := [[
  ("control", OBJ .D7anpControl),
  ("origin_access_class", BYTE),
  ("origin_access_id", BYTES),
  ("d7atp_frame", OBJ .D7atpFrame)]]

/-- d7a/d7atp/control.py 28-36 -/
def d7atpControl : Sch := [[
  ("is_dialog_start", BOOLEAN),
  ("has_tl", BOOLEAN),
  ("has_te", BOOLEAN),
  ("is_ack_requested", BOOLEAN),
  ("is_ack_not_void", BOOLEAN),
  ("is_ack_record_requested", BOOLEAN),
  ("has_agc", BOOLEAN)]]

/-- d7a/d7atp/frame.py 33-43 -/
def d7atpFrame : Sch := [[
  ("control", OBJ .D7atpControl),
  ("dialog_id", INTEGER 0 255),
  ("transaction_id", INTEGER 0 255),
  ("agc_rx_level_i", INTEGER 0 31),
  ("tl", OBJ .CT true),
  ("te", OBJ .CT true),
  ("tc", OBJ .CT true),
  ("ack_template", OBJECT none true),
  ("alp_command", OBJ .Command)]]

/-- d7a/fs/file_header.py 32-39 -/
def fileHeader : Sch := [[
  ("permissions", OBJ .FilePermissions),
  ("properties", OBJ .FileProperties),
  ("alp_command_file_id", BYTE),
  ("interface_file_id", BYTE),
  ("file_size", INTEGER 0 0xFFFFFFFF),
  ("allocated_size", INTEGER 0 0xFFFFFFFF)]]

/-- d7a/fs/file_permissions.py 28-37 -/
def filePermissions : Sch := [[
  ("encrypted", BOOLEAN),
  ("executable", BOOLEAN),
  ("user_readable", BOOLEAN),
  ("user_writable", BOOLEAN),
  ("user_executable", BOOLEAN),
  ("guest_readable", BOOLEAN),
  ("guest_writable", BOOLEAN),
  ("guest_executable", BOOLEAN)]]

/-- d7a/fs/file_properties.py 44-48 -/
def fileProperties : Sch := [[
  ("act_enabled", BOOLEAN),
  ("act_cond", ENUM .ActionCondition),
  ("storage_class", ENUM .StorageClass)]]

/-- d7a/system_files/access_profile.py 31-34 -/
def accessProfileFile : Sch := [[
  ("access_specifier", INTEGER 0 14),
  ("access_profile", OBJ .AccessProfile true)]]

/-- d7a/system_files/dll_config.py 32-38 -/
def dllConfigFile : Sch := [[
  ("active_access_class", INTEGER 0 0xFF),
  ("LQ_filter", INTEGER 0 0xFF),
  ("NF_CTRL", INTEGER 0 0xFF),
  ("RX_NF_method_parameter", INTEGER 0 0xFF),
  ("TX_NF_method_parameter", INTEGER 0 0xFF)]]

/-- d7a/system_files/dll_status.py 33-42 -/
def dllStatusFile : Sch := [[
  ("last_rx_packet_level", INTEGER 0 0xFF),
  ("last_rx_packet_link_budget", INTEGER 0 0xFF),
  ("noise_floor", INTEGER 0 0xFF),
  ("channel_header", OBJ .ChannelHeader),
  ("channel_index", INTEGER 0 0xFFFF),
  ("scan_timeout_ratio", INTEGER 0 0xFFFF),
  ("scan_count", INTEGER 0 0xFFFFFFFF),
  ("scan_timeout_count", INTEGER 0 0xFFFFFFFF)]]

/-- d7a/system_files/engineering_mode.py 60-66 -/
def engineeringModeFile : Sch := [[
  ("mode", ENUM .EngineeringModeMode),
  ("flags", INTEGER 0 255),
  ("timeout", INTEGER 0 255),
  ("channel_id", OBJ .ChannelID),
  ("eirp", INTEGER (-128) 127)]]

/-- d7a/system_files/factory_settings.py 34-58 -/
def factorySettingsFile : Sch := [[
  ("gain", INTEGER (-128) 127),
  ("rx_bw_low_rate", INTEGER 0 0xFFFFFFFF),
  ("rx_bw_normal_rate", INTEGER 0 0xFFFFFFFF),
  ("rx_bw_high_rate", INTEGER 0 0xFFFFFFFF),
  ("bitrate_lo_rate", INTEGER 0 0xFFFFFFFF),
  ("fdev_lo_rate", INTEGER 0 0xFFFFFFFF),
  ("bitrate_normal_rate", INTEGER 0 0xFFFFFFFF),
  ("fdev_normal_rate", INTEGER 0 0xFFFFFFFF),
  ("bitrate_hi_rate", INTEGER 0 0xFFFFFFFF),
  ("fdev_hi_rate", INTEGER 0 0xFFFFFFFF),
  ("preamble_size_lo_rate", INTEGER 0 255),
  ("preamble_size_normal_rate", INTEGER 0 255),
  ("preamble_size_hi_rate", INTEGER 0 255),
  ("preamble_detector_size_lo_rate", INTEGER 0 255),
  ("preamble_detector_size_normal_rate", INTEGER 0 255),
  ("preamble_detector_size_hi_rate", INTEGER 0 255),
  ("preamble_tol", INTEGER 0 255),
  ("rssi_smoothing", INTEGER 0 255),
  ("rssi_offset", INTEGER (-126) 125),
  ("lora_bw", INTEGER 0 0xFFFFFFFF),
  ("lora_SF", INTEGER 6 12),
  ("gaussian", INTEGER 0 3),
  ("paramp", INTEGER 0 0xFFFF)]]

/-- d7a/system_files/firmware_version.py 33-41 -/
def firmwareVersionFile : Sch := [[
  ("d7a_protocol_version_major", INTEGER 0 255),
  ("d7a_protocol_version_minor", INTEGER 0 255),
  ("filesystem_version_major", INTEGER 0 255),
  ("filesystem_version_minor", INTEGER 0 255),
  ("application_name", STRING 6),
  ("git_sha1", STRING 7)]]

/-- d7a/system_files/interface_configuration.py 35-37 -/
def interfaceConfigurationFile : Sch := [[
  ("interface_configuration", OBJ .InterfaceConfiguration)]]

/-- d7a/system_files/phy_status.py 32-40 -/
def phyStatusFile : Sch := [[
  ("up_time", INTEGER 0 0xFFFFFFFF),
  ("rx_time", INTEGER 0 0xFFFFFFFF),
  ("tx_time", INTEGER 0 0xFFFFFFFF),
  ("tx_duty_cycle", INTEGER 0 1000),
  ("channel_status_list_length", INTEGER 0 0xFF),
  ("channel_status_identifier", LIST (some .ChannelStatusIdentifier) 0 0xFF),
  ("channel_noise_floor", LIST none 0 0xFF)]]

/-- d7a/system_files/security_key.py 33-35 -/
def securityKeyFile : Sch := [[("key", BITS 128)]]

/-- d7a/system_files/root_authentication_key.py 33-36 -/
def rootAuthenticationKeyFile : Sch := [[("key", BITS 128), ("rfu", BITS 192)]]

/-- d7a/system_files/user_authentication_key.py 33-36 -/
def userAuthenticationKeyFile : Sch := [[("key", BITS 128), ("rfu", BITS 192)]]

/-- d7a/system_files/uid.py 32-34 -/
def uidFile : Sch := [[("uid", INTEGER 0 0xFFFFFFFFFFFFFFFF)]]

/-- d7a/system_files/vid.py 32-35 -/
def vidFile : Sch := [[
  ("vid", INTEGER 0 0xFFFF),
  ("control", INTEGER 0 0xFF)]]

/-! ## The constructor of operations -/

/-- The `operand_class` of the operation classes (d7a/alp/operations/*.py, at the class). -/
def operandClass : Cls → Option Cls
  | .ReadFileData => some .DataRequest
  | .ReadFileHeader => some .FileIdOperand
  | .WriteFileData => some .Data
  | .WriteFileHeader => some .FileHeaderOperand
  | .BreakQuery => some .QueryOperand
  | .CreateNewFile => some .FileHeaderOperand
  | .ReturnFileData => some .Data
  | .ReturnFileHeader => some .FileHeaderOperand
  | .InterfaceStatus => some .InterfaceStatusOperand
  | .TagResponse => some .TagId
  | .Forward => some .InterfaceConfiguration
  | .IndirectForward => some .IndirectInterfaceOperand
  | .TagRequest => some .TagId
  | _ => none

/-- d7a/alp/operations/operation.py 35-46 `Operation.__init__` -/
def operationInit (c : Cls) (operand : PyVal) : Except PyErr Unit :=
  match operandClass c, operand with
  | none, .none => .ok ()
  | none, _ => .error .valueError
  | some _, .none => .error .valueError
  | some d, v => if isinstance v (.cls d) then .ok () else .error .valueError

end Verif.Schema
