import Verif.Py

/-! Model of d7a/support/serialization/enum_handler.py (registered in d7a/__init__.py 30), of the enum
classes of the library as far as it depends on them, and of `Validatable.as_dict` (d7a/support/schema.py 53-69). -/

namespace Verif.Json

open Verif

/-- Characters of a Python string. -/
abbrev Str := List Char

/-! ## Enums -/

/-- A class derived from `Enum`: its module, its name and its `name = value` lines in the order in which
the metaclass turns them into members. (Values are integers in all of the library's enums.) -/
structure EnumClass where
  module : Str
  name : Str
  defs : List (Str × Int)
  deriving DecidableEq, Repr

/-- An enum member: its class and what `.name` and `.value` give. -/
structure Member where
  cls : Str × Str
  name : Str
  value : Int
  deriving DecidableEq, Repr

namespace EnumClass

/-- The member for a value: the first name defined for a value is the member's name, further names for
the same value are aliases of it (Python's enum, enum34 for 2.7). -/
def member (c : EnumClass) (value : Int) : Option Member :=
  (c.defs.find? fun d => d.2 == value).map fun d => ⟨(c.module, c.name), d.1, d.2⟩

/-- The members, i.e. what the attributes of the class evaluate to. -/
def members (c : EnumClass) : List Member := c.defs.filterMap fun d => c.member d.2

/-- `c[name]`: by name, aliases included; KeyError otherwise. -/
def getitem (c : EnumClass) (name : Str) : Except PyErr Member :=
  match c.defs.find? fun d => d.1 == name with
  | none => .error .keyError
  | some d =>
    match c.member d.2 with
    | none => .error .keyError
    | some m => .ok m

end EnumClass

/-- A JSON object with string values, as jsonpickle hands it over. -/
abbrev Data := List (Str × Str)

/-- `data[key]` -/
def Data.get (data : Data) (key : String) : Except PyErr Str :=
  match data.find? fun e => e.1 == key.toList with
  | none => .error .keyError
  | some e => .ok e.2

/-- `data[key] = value` -/
def Data.set (data : Data) (key : String) (value : Str) : Data :=
  if data.any fun e => e.1 == key.toList then
    data.map fun e => if e.1 == key.toList then (e.1, value) else e
  else data ++ [(key.toList, value)]

/-- What jsonpickle passes as `data` to `flatten`: the importable name of the class (jsonpickle itself is
not part of /repo). -/
def header (m : Member) : Data := [("py/object".toList, m.cls.1 ++ '.' :: m.cls.2)]

/-- d7a/support/serialization/enum_handler.py 30-32 -/
def flatten (m : Member) (data : Data) : Data := data.set "value" m.name

/-- Python `s.rsplit(".", 1)`: the parts before and after the last dot, or the whole string. -/
def rsplit (s : Str) : List Str :=
  match s.reverse.dropWhile (· != '.') with
  | _ :: before => [before.reverse, (s.reverse.takeWhile (· != '.')).reverse]
  | [] => [s]

/-- d7a/support/serialization/enum_handler.py 34-37. `world` are the classes that can be imported; a module or a
class that does not exist gives an exception (`ImportError` and `AttributeError`, both
represented by `attributeError`). -/
def restore (world : List EnumClass) (data : Data) : Except PyErr Member := do
  match rsplit (← data.get "py/object") with
  | [moduleName, className] =>
    match world.find? fun c => c.module == moduleName && c.name == className with
    | none => .error .attributeError
    | some c => c.getitem (← data.get "value")
  | _ => .error .valueError

/-- A class of the library, from literals. -/
def enumClass (module name : String) (defs : List (String × Int)) : EnumClass :=
  ⟨module.toList, name.toList, defs.map fun d => (d.1.toList, d.2)⟩

/-- All enum classes of the library, in the order of their definitions: d7a/phy/channel_header.py 29-33, 46-50,
68-72; d7a/phy/channel_status_identifier.py 29-31; d7a/dll/access_profile.py 33-37; d7a/dll/parser.py 33-35;
d7a/serial_modem_interface/parser.py 37-42; d7a/sp/qos.py 31-40; d7a/alp/operands/query.py 30-44;
d7a/alp/interface.py 27-32; d7a/system_files/system_file_ids.py 27-75; d7a/system_files/engineering_mode.py
34-39; d7a/fs/file_properties.py 29-40; d7a/d7anp/addressee.py 36-50. -/
def library : List EnumClass := [
  enumClass "d7a.phy.channel_header" "ChannelCoding" [("PN9", 0), ("RFU", 1), ("FEC_PN9", 2), ("CW", 3)],
  enumClass "d7a.phy.channel_header" "ChannelClass"
    [("LO_RATE", 0), ("LORA", 1), ("NORMAL_RATE", 2), ("HI_RATE", 3)],
  enumClass "d7a.phy.channel_header" "ChannelBand"
    [("NOT_IMPL", 0), ("BAND_433", 2), ("BAND_868", 3), ("BAND_915", 4)],
  enumClass "d7a.phy.channel_status_identifier" "Bandwidth" [("kHz25", 1), ("kHz200", 0)],
  enumClass "d7a.dll.access_profile" "CsmaCaMode" [("UNC", 0), ("AIND", 1), ("RAIND", 2), ("RIGD", 3)],
  enumClass "d7a.dll.parser" "FrameType" [("FOREGROUND", 0), ("BACKGROUND", 1)],
  enumClass "d7a.serial_modem_interface.parser" "MessageType"
    [("ALP_DATA", 1), ("PING_REQUEST", 2), ("PING_RESPONSE", 3), ("LOGGING", 4), ("REBOOTED", 5)],
  enumClass "d7a.sp.qos" "ResponseMode"
    [("RESP_MODE_NO", 0), ("RESP_MODE_ALL", 1), ("RESP_MODE_ANY", 2), ("RESP_MODE_NO_RPT", 4),
      ("RESP_MODE_ON_ERROR", 5), ("RESP_MODE_PREFERRED", 6)],
  enumClass "d7a.sp.qos" "RetryMode" [("RETRY_MODE_NO", 0)],
  enumClass "d7a.alp.operands.query" "QueryType"
    [("NON_VOID_CHECK", 0), ("ARITH_COMP_WITH_ZERO", 1), ("ARITH_COMP_WITH_VALUE", 2),
      ("ARITH_COMP_BETWEEN_FILES", 3), ("RANGE_COMP", 4), ("STRING_TOKEN", 7)],
  enumClass "d7a.alp.operands.query" "ArithComparisonType"
    [("INEQUALITY", 0), ("EQUALITY", 1), ("LESS_THAN", 2), ("LESS_THAN_OR_EQUAL_TO", 3), ("GREATER_THAN", 4),
      ("GREATER_THAN_OR_EQUAL_TO", 5)],
  enumClass "d7a.alp.interface" "InterfaceType"
    [("HOST", 0), ("SERIAL", 1), ("LORAWAN_ABP", 2), ("LORAWAN_OTAA", 3), ("D7ASP", 0xD7)],
  enumClass "d7a.system_files.system_file_ids" "SystemFileIds"
    [("UID", 0x00), ("FACTORY_SETTINGS", 0x01), ("FIRMWARE_VERSION", 0x02), ("DEVICE_CAPACITY", 0x03),
      ("DEVICE_STATUS", 0x04), ("ENGINEERING_MODE", 0x05), ("VID", 0x06), ("RFU_07", 0x07), ("PHY_CONFIG", 0x08),
      ("PHY_STATUS", 0x09), ("DLL_CONFIG", 0x0A), ("DLL_STATUS", 0x0B), ("NWL_ROUTING", 0x0C),
      ("NWL_SECURITY", 0x0D), ("NWL_SECURITY_KEY", 0x0E), ("NWL_SSR", 0x0F), ("NWL_STATUS", 0x10),
      ("TRL_STATUS", 0x11), ("SEL_CONFIG", 0x12), ("FOF_STATUS", 0x13), ("RFU_14", 0x14), ("RFU_15", 0x15),
      ("RFU_16", 0x16), ("LOCATION_DATA", 0x17), ("ALP_ROOT_AUTHENTICATION_KEY", 0x18),
      ("ALP_USER_AUTHENTICATION_KEY", 0x19), ("D7AALP_RFU_1A", 0x1A), ("D7AALP_RFU_1B", 0x1B),
      ("D7AALP_RFU_1C", 0x1C), ("D7AALP_RFU_1D", 0x1D), ("D7AALP_RFU_1E", 0x1E), ("D7AALP_RFU_1F", 0x1F),
      ("ACCESS_PROFILE_0", 0x20), ("ACCESS_PROFILE_1", 0x21), ("ACCESS_PROFILE_2", 0x22),
      ("ACCESS_PROFILE_3", 0x23), ("ACCESS_PROFILE_4", 0x24), ("ACCESS_PROFILE_5", 0x25),
      ("ACCESS_PROFILE_6", 0x26), ("ACCESS_PROFILE_7", 0x27), ("ACCESS_PROFILE_8", 0x28),
      ("ACCESS_PROFILE_9", 0x29), ("ACCESS_PROFILE_10", 0x2A), ("ACCESS_PROFILE_11", 0x2B),
      ("ACCESS_PROFILE_12", 0x2C), ("ACCESS_PROFILE_13", 0x2D), ("ACCESS_PROFILE_14", 0x2E), ("RFU_2F", 0x2F)],
  enumClass "d7a.system_files.engineering_mode" "EngineeringModeMode"
    [("ENGINEERING_MODE_MODE_OFF", 0), ("ENGINEERING_MODE_MODE_CONT_TX", 1),
      ("ENGINEERING_MODE_MODE_TRANSIENT_TX", 2), ("ENGINEERING_MODE_MODE_PER_RX", 3),
      ("ENGINEERING_MODE_MODE_PER_TX", 4)],
  enumClass "d7a.fs.file_properties" "ActionCondition" [("LIST", 0), ("READ", 1), ("WRITE", 2), ("WRITE_FLUSH", 3)],
  enumClass "d7a.fs.file_properties" "StorageClass"
    [("TRANSIENT", 0), ("VOLATILE", 1), ("RESTORABLE", 2), ("PERMANENT", 3)],
  enumClass "d7a.d7anp.addressee" "IdType" [("NBID", 0), ("NOID", 1), ("UID", 2), ("VID", 3)],
  enumClass "d7a.d7anp.addressee" "NlsMethod"
    [("NONE", 0), ("AES_CTR", 1), ("AES_CBC_MAC_128", 2), ("AES_CBC_MAC_64", 3), ("AES_CBC_MAC_32", 4),
      ("AES_CCM_128", 5), ("AES_CCM_64", 6), ("AES_CCM_32", 7)]]

/-! ## as_dict -/

/-- Python values as `as_dict` tells them apart: classes, lists, instances of `Validatable` with their class name
and `__dict__`, dictionaries, and everything else (strings apart from other objects, which are known by
identity). -/
inductive Val
  | str (s : String)
  | other (id : Nat)
  | cls (name : String)
  | list (items : List Val)
  | obj (cls : String) (attrs : List (String × Val))
  | dict (entries : List (String × Val))

/-- `d[k] = v` -/
def setKey (d : List (String × Val)) (k : String) (v : Val) : List (String × Val) :=
  match d with
  | [] => [(k, v)]
  | e :: d => if e.1 = k then (k, v) :: d else e :: setKey d k v

mutual

/-- d7a/support/schema.py 53-55 and 69 (the order in which `iteritems` gives the attributes is the order of
the list) -/
def asDict (cls : String) (attrs : List (String × Val)) : Val :=
  .dict (fill [("__CLASS__", .str cls)] attrs)

/-- d7a/support/schema.py 55-68: the loop over the attributes -/
def fill (d : List (String × Val)) : List (String × Val) → List (String × Val)
  | [] => d
  | (_, .cls _) :: attrs => fill d attrs
  | (k, .list l) :: attrs => fill (setKey d k (.list (items l))) attrs
  | (k, .obj c a) :: attrs => fill (setKey d k (asDict c a)) attrs
  | (k, v) :: attrs => fill (setKey d k v) attrs

/-- d7a/support/schema.py 58-64: the loop over the items of a list -/
def items : List Val → List Val
  | [] => []
  | .obj c a :: l => asDict c a :: items l
  | v :: l => v :: items l

end

end Verif.Json
