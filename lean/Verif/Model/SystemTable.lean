import Verif.Model.SystemFiles

/-! Model of d7a/system_files/system_file_ids.py, d7a/system_files/system_files.py and of the system
file lookup in d7a/alp/operations/responses.py. -/

namespace Verif

/-- d7a/system_files/system_file_ids.py 27-75: `SystemFileIds(x)` succeeds exactly for 0x00..0x2F (the
48 members have the values 0x00..0x2F); a member is represented by its value. -/
def SystemFileIds.ofValue (x : Int) : Except PyErr Int :=
  if 0 ≤ x ∧ x ≤ 0x2F then .ok x else .error .valueError

/-- A system file object of any class. -/
inductive SystemFile
  | uid (f : UidFile)
  | factorySettings (f : FactorySettingsFile)
  | firmwareVersion (f : FirmwareVersionFile)
  | engineeringMode (f : EngineeringModeFile)
  | vid (f : VidFile)
  | phyStatus (f : PhyStatusFile)
  | dllConfig (f : DllConfigFile)
  | dllStatus (f : DllStatusFile)
  | securityKey (f : SecurityKeyFile)
  | rootKey (f : RootAuthenticationKeyFile)
  | userKey (f : UserAuthenticationKeyFile)
  | accessProfile (f : AccessProfileFile)
  | interfaceConfiguration (f : InterfaceConfigurationFile)
  | notImplemented (f : NotImplementedFile)
  deriving DecidableEq, Repr

namespace SystemFile

/-- The `length` attribute: d7a/system_files/uid.py 39, factory_settings.py 94,
firmware_version.py 51, engineering_mode.py 77, vid.py 41, phy_status.py 57, dll_config.py 47,
dll_status.py 55, security_key.py 40, root_authentication_key.py 42, user_authentication_key.py 42,
access_profile.py 40, interface_configuration.py 41-46, not_implemented.py 39 -/
def length : SystemFile → Except PyErr Int
  | .uid _ => .ok 8
  | .factorySettings _ => .ok 56
  | .firmwareVersion _ => .ok 17
  | .engineeringMode _ => .ok 9
  | .vid _ => .ok 3
  | .phyStatus _ => .ok (15 + 3 * 10)
  | .dllConfig _ => .ok 7
  | .dllStatus _ => .ok 16
  | .securityKey _ => .ok 16
  | .rootKey _ => .ok 40
  | .userKey _ => .ok 40
  | .accessProfile _ => .ok 65
  | .interfaceConfiguration f => f.length
  | .notImplemented f => .ok f.length

/-- The `id` attribute (same lines as `length`). -/
def id : SystemFile → Except PyErr FileIdArg
  | .uid _ => .ok (.int 0x00)
  | .factorySettings _ => .ok (.int 0x01)
  | .firmwareVersion _ => .ok (.int 0x02)
  | .engineeringMode _ => .ok (.int 0x05)
  | .vid _ => .ok (.int 0x06)
  | .phyStatus _ => .ok (.int 0x09)
  | .dllConfig _ => .ok (.int 0x0A)
  | .dllStatus _ => .ok (.int 0x0B)
  | .securityKey _ => .ok (.int 0x0E)
  | .rootKey _ => .ok (.int 0x18)
  | .userKey _ => .ok (.int 0x19)
  | .accessProfile f => .ok (.int (0x20 + f.accessSpecifier))
  | .interfaceConfiguration f => f.id.map FileIdArg.int
  | .notImplemented f => .ok f.id

/-- `__iter__` of the object's class. -/
def iter : SystemFile → Gen
  | .uid f => f.iter
  | .factorySettings f => f.iter
  | .firmwareVersion f => f.iter
  | .engineeringMode f => f.iter
  | .vid f => f.iter
  | .phyStatus f => f.iter
  | .dllConfig f => f.iter
  | .dllStatus f => f.iter
  | .securityKey f => f.iter
  | .rootKey f => f.iter
  | .userKey f => f.iter
  | .accessProfile f => f.iter
  | .interfaceConfiguration f => f.iter
  | .notImplemented f => f.iter

/-- `Functor.map` for parsers. -/
def lift {α : Type} (c : α → SystemFile) (p : P α) : P SystemFile := do
  let a ← p
  return c a

/-- `obj.parse(s)`, `parse` being a static method of the object's class; AttributeError for the two
classes without one. -/
def parse : SystemFile → P SystemFile
  | .uid _ => lift .uid UidFile.parse
  | .factorySettings _ => lift .factorySettings FactorySettingsFile.parse
  | .firmwareVersion _ => lift .firmwareVersion FirmwareVersionFile.parse
  | .engineeringMode _ => lift .engineeringMode EngineeringModeFile.parse
  | .vid _ => lift .vid VidFile.parse
  | .phyStatus _ => lift .phyStatus PhyStatusFile.parse
  | .dllConfig _ => lift .dllConfig DllConfigFile.parse
  | .dllStatus _ => lift .dllStatus DllStatusFile.parse
  | .securityKey _ => lift .securityKey SecurityKeyFile.parse
  | .rootKey _ => lift .rootKey RootAuthenticationKeyFile.parse
  | .userKey _ => lift .userKey UserAuthenticationKeyFile.parse
  | .accessProfile _ => lift .accessProfile AccessProfileFile.parse
  | .interfaceConfiguration _ => P.raise .attributeError
  | .notImplemented _ => P.raise .attributeError

end SystemFile

namespace SystemFiles

/-- `FactorySettingsFile()`: the default arguments with the stored smoothing exponent
(d7a/system_files/factory_settings.py 60-88); `int(ceil(log(8, 2)))-1 = 2`. -/
def defaultFactorySettings : FactorySettingsFile :=
  { FactorySettingsFile.defaultArgs with rssiSmoothing := 2 }

/-- `NotImplementedFile(SystemFileIds.X, n)`: the enum member itself is passed as the id. -/
def unimplemented (value length : Int) : SystemFile :=
  .notImplemented (.new (.enum value) length none)

/-- d7a/system_files/system_files.py 41-89: the dictionary; the key is the member's value. There is no
entry for `RFU_2F`. `PhyStatusFile()` is shown with its lists empty, as when the module is loaded. -/
def files (key : Int) : Except PyErr SystemFile :=
  if key = 0x00 then .ok (.uid ⟨0⟩)
  else if key = 0x01 then .ok (.factorySettings defaultFactorySettings)
  else if key = 0x02 then .ok (.firmwareVersion ⟨0, 0, 0, 0, [], []⟩)
  else if key = 0x03 then .ok (.notImplemented (.new (.int 0x03) 19 none))
  else if key = 0x04 then .ok (unimplemented 0x04 9)
  else if key = 0x05 then .ok (.engineeringMode .default)
  else if key = 0x06 then .ok (.vid ⟨0xFFFF, 0⟩)
  else if key = 0x07 then .ok (unimplemented 0x07 0)
  else if key = 0x08 then .ok (unimplemented 0x08 9)
  else if key = 0x09 then .ok (.phyStatus ⟨0, 0, 0, 0, 0, [], []⟩)
  else if key = 0x0A then .ok (.dllConfig ⟨0, 0, 0, 0, 0⟩)
  else if key = 0x0B then .ok (.dllStatus .default)
  else if key = 0x0C then .ok (unimplemented 0x0C 1)
  else if key = 0x0D then .ok (unimplemented 0x0D 5)
  else if key = 0x0E then .ok (.securityKey ⟨0⟩)
  else if key = 0x0F then .ok (unimplemented 0x0F 4)
  else if key = 0x10 then .ok (unimplemented 0x10 20)
  else if key = 0x11 then .ok (unimplemented 0x11 1)
  else if key = 0x12 then .ok (unimplemented 0x12 6)
  else if key = 0x13 then .ok (unimplemented 0x13 10)
  else if key = 0x14 then .ok (unimplemented 0x14 0)
  else if key = 0x15 then .ok (unimplemented 0x15 0)
  else if key = 0x16 then .ok (unimplemented 0x16 0)
  else if key = 0x17 then .ok (unimplemented 0x17 1)
  else if key = 0x18 then .ok (.rootKey ⟨0⟩)
  else if key = 0x19 then .ok (.userKey ⟨0⟩)
  else if 0x1A ≤ key ∧ key ≤ 0x1F then .ok (unimplemented key 0)
  else if 0x20 ≤ key ∧ key ≤ 0x2E then .ok (.accessProfile ⟨key - 0x20, none⟩)
  else .error .keyError

/-- d7a/alp/operations/responses.py 50: `SystemFiles().files[SystemFileIds(x)]` -/
def lookup (x : Int) : Except PyErr SystemFile :=
  match SystemFileIds.ofValue x with
  | .error e => .error e
  | .ok k => files k

end SystemFiles

/-- d7a/alp/operations/responses.py 38-45: the attributes set beside the operand -/
structure ReturnFileData where
  operand : Data
  systemfileType : Option SystemFile
  fileDataParsed : Option SystemFile
  deriving DecidableEq, Repr

namespace ReturnFileData

/-- d7a/alp/operations/responses.py 56-60: the `try` block around the parser. `bytearray(data)` is
inside the block as well. -/
def tryParse (t : SystemFile) (data : List Int) : Option SystemFile × Option SystemFile :=
  match bytearray (.concat (data.map Gen.int)) with
  | .error _ => (none, none)
  | .ok bs =>
    match t.parse (stream bs) with
    | .ok f _ => (some t, some f)
    | .err _ _ => (none, none)

/-- d7a/alp/operations/responses.py 47-60. The first block swallows every exception of the lookup.
Reading `length` of the found object is not inside a `try` block; the objects in the dictionary all
have it. -/
def tryParseSystemFile (d : Data) : Except PyErr (Option SystemFile × Option SystemFile) :=
  match SystemFiles.lookup d.offset.id with
  | .error _ => .ok (none, none)
  | .ok t =>
    match t.length with
    | .error e => .error e
    | .ok n => if n ≥ d.length.value then .ok (tryParse t d.data) else .ok (none, none)

/-- d7a/alp/operations/responses.py 39-45 (with a valid operand) -/
def new (d : Data) : Except PyErr ReturnFileData :=
  match tryParseSystemFile d with
  | .error e => .error e
  | .ok (t, f) => .ok ⟨d, t, f⟩

end ReturnFileData
end Verif
