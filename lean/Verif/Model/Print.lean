import Verif.Model.Alp
import Verif.Model.PhyStr
import Verif.Model.SystemTable

/-! Model of the `__str__` methods of operands, operations, actions, commands and system files.

Texts are lists of characters. The texts that depend on more than the attributes are parameters (`Env`). -/

namespace Verif.Print

open Verif

abbrev Text : Type := List Char

/-- Texts that are not determined by the attributes alone.
* `configuration`, `abp`, `otaa`: `str(self.as_dict())` in d7a/sp/configuration.py 56-57,
  lorawan_interface_configuration_abp.py 70-71 and lorawan_interface_configuration_otaa.py 62-63; the order
  of the entries is that of the hash table.
* `subProfile`: pretty printer, d7a/dll/sub_profile.py 52-53.
* `query`: QueryOperand (d7a/alp/operands/query.py) has no `__str__`, the text shows the address. -/
structure Env where
  configuration : Configuration → Text
  abp : LoRaWANABP → Text
  otaa : LoRaWANOTAA → Text
  subProfile : SubProfile → Text
  query : QueryOperand → Text

/-- `str.format` with automatic numbering: `{}` is replaced by the next argument (IndexError if there is none,
arguments left over are ignored), doubled braces stand for one. Templates in the code have no other braces. -/
def format : List Char → List Text → Except PyErr Text
  | '{' :: '}' :: t, a :: as => (a ++ ·) <$> format t as
  | '{' :: '}' :: _, [] => .error .indexError
  | '{' :: '{' :: t, as => ('{' :: ·) <$> format t as
  | '}' :: '}' :: t, as => ('}' :: ·) <$> format t as
  | c :: t, as => (c :: ·) <$> format t as
  | [], _ => .ok []

/-- `str` of an int; the same for a long. -/
def dec : Int → Text
  | .ofNat n => Nat.toDigits 10 n
  | .negSucc n => '-' :: Nat.toDigits 10 (n + 1)

/-- `hex` of a non-negative number: numbers that do not fit into a 64 bit int are longs and get an `L`.
Simplification: a caller can pass a small number as a long, which also gets the `L`. Negative numbers are not
accepted where `hex` is used. -/
def hex (v : Int) : Text :=
  '0' :: 'x' :: Nat.toDigits 16 v.toNat ++ (if v ≥ 2 ^ 63 then ['L'] else [])

/-- `str` of a bool -/
def bool (b : Bool) : Text := if b then "True".toList else "False".toList

/-- `str(None)` -/
def none : Text := "None".toList

/-- The items of a list of ints, with the brackets: `str` of a list. -/
def items : List Int → Text
  | [] => []
  | [v] => dec v
  | v :: w :: r => dec v ++ ',' :: ' ' :: items (w :: r)

def list (l : List Int) : Text := '[' :: items l ++ [']']

/-- d7a/types/ct.py 87-88 -/
def ct (c : CT) : Except PyErr Text := format "exp={} mant{}".toList [dec c.exp, dec c.mant]

/-- d7a/phy/subband.py 70-77 -/
def subBand (s : SubBand) : Except PyErr Text :=
  format "channel_index_start={}, channel_index_end={}, eirp={}, cca={}, duty={}".toList
    [dec s.channelIndexStart, dec s.channelIndexEnd, dec s.eirp, dec s.cca, dec s.duty]

/-- d7a/phy/channel_status_identifier.py 29-34: `.name` -/
def bandwidth : Bandwidth → Text
  | .kHz25 => "kHz25".toList
  | .kHz200 => "kHz200".toList

/-- d7a/phy/channel_status_identifier.py 67-72 -/
def channelStatusIdentifier (c : ChannelStatusIdentifier) : Except PyErr Text :=
  format "channel_band={}, channel_bandwidth={}, channel_index={}".toList
    [lstrip c.channelBand.name "BAND_".toList, bandwidth c.channelBandwidth, dec c.channelIndex]

/-- d7a/dll/access_profile.py 82-84, 86-88: the texts one after the other -/
def concat {α : Type} (f : α → Except PyErr Text) : List α → Except PyErr Text
  | [] => .ok []
  | a :: as => do
    let t ← f a
    let r ← concat f as
    return t ++ r

/-- d7a/dll/access_profile.py 81-94 -/
def accessProfile (e : Env) (a : AccessProfile) : Except PyErr Text := do
  let subprofiles ← concat (fun s => .ok (e.subProfile s)) a.subProfiles
  let subbands ← concat subBand a.subBands
  format "channel_header={}, sub_profiles={}, sub_bands={}".toList [a.channelHeader.str, subprofiles, subbands]

/-- `str` of a member of an Enum class without `__str__`: d7a/d7anp/addressee.py 36-40 -/
def idType : IdType → Text
  | .NBID => "IdType.NBID".toList
  | .NOID => "IdType.NOID".toList
  | .UID => "IdType.UID".toList
  | .VID => "IdType.VID".toList

/-- The `id` attribute of an addressee: None, a number or a CT. -/
def addrId : AddrId → Except PyErr Text
  | .none => .ok none
  | .int i => .ok (dec i)
  | .ct c => ct c

/-- d7a/d7anp/addressee.py 148-149 -/
def addressee (a : Addressee) : Except PyErr Text := do
  let id ← addrId a.id
  format "ac={}, id_type={}, id={}".toList [dec a.accessClass, idType a.idType, id]

/-- d7a/sp/status.py 126-141 -/
def status (s : Status) : Except PyErr Text := do
  let a ← addressee s.addressee
  let r ← ct s.responseTo
  format ("unicast={}, nls={}, retry={}, missed={}, fifo_token={}, rx_level={}, seq_nr={}, target_rx_level={}, "
    ++ "addressee={}, response_to={}, link_budget={}, channel_id={}").toList
    [bool s.unicast, bool s.nls, bool s.retry, bool s.missed, dec s.fifoToken, dec s.rxLevel, dec s.seqNr,
     dec s.targetRxLevel, a, r, dec s.linkBudget, s.channelId.str]

/-- d7a/alp/operands/length.py 71-72 -/
def length (l : Length) : Text := dec l.value

/-- d7a/alp/operands/offset.py 54-55 -/
def offset (o : Offset) : Except PyErr Text := format "file-id={}, offset={}".toList [dec o.id, length o.offset]

/-- d7a/alp/operands/file.py 60-61 -/
def data (d : Data) : Except PyErr Text := do
  let o ← offset d.offset
  format "{}, length={}, data={}".toList [o, length d.length, list d.data]

/-- d7a/alp/operands/file.py 80-81 -/
def dataRequest (d : DataRequest) : Except PyErr Text := do
  let o ← offset d.offset
  format "{}, length={}".toList [o, length d.length]

/-- d7a/alp/operands/file.py 97-98 -/
def fileId (o : FileIdOperand) : Except PyErr Text := format "file-id={}".toList [dec o.fileId]

/-- d7a/alp/operands/tag_id.py 40-41 -/
def tagId (o : TagId) : Except PyErr Text := format "tag_id={}".toList [dec o.tagId]

/-- d7a/fs/file_permissions.py 78-79 -/
def permissions (_ : FilePermissions) : Text := []

/-- d7a/fs/file_properties.py 29-34: `str` of the member -/
def actionCondition : ActionCondition → Text
  | .LIST => "ActionCondition.LIST".toList
  | .READ => "ActionCondition.READ".toList
  | .WRITE => "ActionCondition.WRITE".toList
  | .WRITE_FLUSH => "ActionCondition.WRITE_FLUSH".toList

/-- d7a/fs/file_properties.py 36-41: `str` of the member -/
def storageClass : StorageClass → Text
  | .TRANSIENT => "StorageClass.TRANSIENT".toList
  | .VOLATILE => "StorageClass.VOLATILE".toList
  | .RESTORABLE => "StorageClass.RESTORABLE".toList
  | .PERMANENT => "StorageClass.PERMANENT".toList

/-- d7a/fs/file_properties.py 72-77 -/
def properties (p : FileProperties) : Except PyErr Text :=
  format "act_enabled={}, act_condition={}, storage_class={}".toList
    [bool p.actEnabled, actionCondition p.actCondition, storageClass p.storageClass]

/-- d7a/fs/file_header.py 84-87 -/
def fileHeader (h : FileHeader) : Except PyErr Text := do
  let p ← properties h.properties
  format ("permissions={}, properties=({}), alp_command_file_id={}, interface_file_id={}, file_size={}, "
    ++ "allocated_size={}").toList
    [permissions h.permissions, p, dec h.alpCommandFileId, dec h.interfaceFileId, dec h.fileSize,
     dec h.allocatedSize]

/-- d7a/alp/operands/file_header.py 50-51 -/
def fileHeaderOperand (o : FileHeaderOperand) : Except PyErr Text := do
  let h ← fileHeader o.fileHeader
  format "file-id={}, header={}".toList [dec o.fileId, h]

/-- d7a/alp/operands/interface_configuration.py 44-45: the configuration is None or one of three objects -/
def config (e : Env) : Option IfaceConfig → Text
  | .none => none
  | some (.d7asp c) => e.configuration c
  | some (.abp c) => e.abp c
  | some (.otaa c) => e.otaa c

/-- d7a/alp/interface.py 27-32: `str` of the member -/
def interfaceType : InterfaceType → Text
  | .HOST => "InterfaceType.HOST".toList
  | .SERIAL => "InterfaceType.SERIAL".toList
  | .LORAWAN_ABP => "InterfaceType.LORAWAN_ABP".toList
  | .LORAWAN_OTAA => "InterfaceType.LORAWAN_OTAA".toList
  | .D7ASP => "InterfaceType.D7ASP".toList

/-- d7a/alp/operands/interface_configuration.py 44-45 -/
def interfaceConfiguration (e : Env) (c : InterfaceConfiguration) : Except PyErr Text :=
  format "interface-id={}, configuration={}".toList [interfaceType c.interfaceId, config e c.config]

/-- `str` of None or of an object -/
def optional {α : Type} (f : α → Except PyErr Text) : Option α → Except PyErr Text
  | .none => .ok none
  | some a => f a

/-- d7a/alp/operands/interface_status.py 44-45 -/
def interfaceStatus (o : InterfaceStatusOperand) : Except PyErr Text := do
  let s ← optional status o.status
  format "interface-id={}, status={}".toList [dec o.interfaceId, s]

/-- d7a/alp/operands/indirect_interface_operand.py 47-48 -/
def indirectInterface (o : IndirectInterfaceOperand) : Except PyErr Text := do
  let a ← optional addressee o.overload
  format "interface-file-id={}, configuration-overload={}".toList [dec o.interfaceFileId, a]

/-- `str(operation.operand)` -/
def operand (e : Env) : Operation → Except PyErr Text
  | .nop => .ok none
  | .readFileData o => dataRequest o
  | .readFileHeader o => fileId o
  | .writeFileData o => data o
  | .writeFileHeader o => fileHeaderOperand o
  | .breakQuery o => .ok (e.query o)
  | .createNewFile o => fileHeaderOperand o
  | .returnFileData o => data o
  | .returnFileHeader o => fileHeaderOperand o
  | .interfaceStatus o => interfaceStatus o
  | .tagResponse o => tagId o
  | .forward o => interfaceConfiguration e o
  | .indirectForward o => indirectInterface o
  | .tagRequest o => tagId o

/-- `operation.__class__.__name__`, d7a/alp/operations/*.py -/
def className : Operation → Text
  | .nop => "NoOperation".toList
  | .readFileData _ => "ReadFileData".toList
  | .readFileHeader _ => "ReadFileHeader".toList
  | .writeFileData _ => "WriteFileData".toList
  | .writeFileHeader _ => "WriteFileHeader".toList
  | .breakQuery _ => "BreakQuery".toList
  | .createNewFile _ => "CreateNewFile".toList
  | .returnFileData _ => "ReturnFileData".toList
  | .returnFileHeader _ => "ReturnFileHeader".toList
  | .interfaceStatus _ => "InterfaceStatus".toList
  | .tagResponse _ => "TagResponse".toList
  | .forward _ => "Forward".toList
  | .indirectForward _ => "IndirectForward".toList
  | .tagRequest _ => "TagRequest".toList

/-- d7a/alp/operations/operation.py 52-55 -/
def operation (e : Env) (o : Operation) : Except PyErr Text := do
  let t ← operand e o
  return className o ++ ": ".toList ++ t

/-! ### System files -/

/-- d7a/system_files/uid.py 52-53 -/
def uidFile (f : UidFile) : Except PyErr Text := format "uid={}".toList [hex f.uid]

/-- d7a/system_files/vid.py 56-57 -/
def vidFile (f : VidFile) : Except PyErr Text := format "vid={}, control={}".toList [hex f.vid, hex f.control]

/-- `"{}".format(s)` for a unicode string: UnicodeEncodeError, a ValueError, unless all characters are ASCII.
Simplification: byte strings, which a caller can pass as well, never raise. -/
def ascii (s : List Nat) : Except PyErr Text :=
  if ∀ c ∈ s, c < 128 then .ok (s.map Char.ofNat) else .error .valueError

/-- d7a/system_files/firmware_version.py 53-59, 86-87 -/
def firmwareVersionFile (f : FirmwareVersionFile) : Except PyErr Text := do
  let name ← ascii f.applicationName
  let sha ← ascii f.gitSha1
  format "d7ap v{}, filesystem v{}, application_name={}, git_sha1={}".toList
    [dec f.d7apMajor ++ '.' :: dec f.d7apMinor, dec f.fsMajor ++ '.' :: dec f.fsMinor, name, sha]

/-- d7a/system_files/engineering_mode.py 100-101 -/
def engineeringModeFile (f : EngineeringModeFile) : Except PyErr Text :=
  format "mode={}, flags={}, timeout={}, channel_id={{{}}}, eirp={}".toList
    [f.mode.str.toList, hex f.flags, dec f.timeout, f.channelId.str, dec f.eirp]

/-- d7a/system_files/dll_config.py 71-72: two placeholders are missing -/
def dllConfigFile (f : DllConfigFile) : Except PyErr Text :=
  format ("active_access_class={}, lq_filter={}, nf_ctrl={}, rx_nf_method_parameter, "
    ++ "tx_nf_method_parameter").toList
    [dec f.activeAccessClass, dec f.lqFilter, dec f.nfCtrl, dec f.rxNfMethodParameter,
     dec f.txNfMethodParameter]

/-- d7a/system_files/dll_status.py 88-89 -/
def dllStatusFile (f : DllStatusFile) : Except PyErr Text :=
  format ("last_rx_packet_level={}, last_rx_packet_link_budget={}, noise_floor={}, channel={}{}, "
    ++ "scan_timeout_ratio={}, scan_count={}, scan_timeout_count={}").toList
    [dec f.lastRxPacketLevel, dec f.lastRxPacketLinkBudget, dec f.noiseFloor, f.channelHeader.str,
     dec f.channelIndex, dec f.scanTimeoutRatio, dec f.scanCount, dec f.scanTimeoutCount]

/-- d7a/system_files/access_profile.py 50-51 -/
def accessProfileFile (e : Env) (f : AccessProfileFile) : Except PyErr Text := do
  let p ← optional (accessProfile e) f.accessProfile
  format "active_specifier={}, access_profile={}".toList [dec f.accessSpecifier, p]

/-- d7a/system_files/security_key.py 51-52, root_authentication_key.py 57-58, user_authentication_key.py
57-58 -/
def keyFile (key : Int) : Except PyErr Text := format "key={}".toList [dec key]

/-- d7a/system_files/factory_settings.py 181-190 -/
def factorySettingsFile (f : FactorySettingsFile) : Except PyErr Text :=
  format ("gain={}, rx_bw_low_rate={}, rx_bw_normal_rate={}, rx_bw_high_rate={}, low rate={} : {}, "
    ++ "normal rate={} : {}, high rate={} : {}, preamble sizes {} : {} : {}, "
    ++ "preamble detector size {} : {} : {} with tol {} : {} : {}, rssi smoothing {} with offset {}\n"
    ++ "lora sf set to {}, bw to {}\ngaussian set to {} and paramp to {} microseconds").toList
    [dec f.gain, dec f.rxBwLow, dec f.rxBwNormal, dec f.rxBwHigh,
     dec f.bitrateLo, dec f.fdevLo,
     dec f.bitrateNormal, dec f.fdevNormal, dec f.bitrateHi, dec f.fdevHi,
     dec f.preambleSizeLo, dec f.preambleSizeNormal, dec f.preambleSizeHi,
     dec f.preambleDetectorSizeLo, dec f.preambleDetectorSizeNormal, dec f.preambleDetectorSizeHi,
     dec f.preambleTolLo, dec f.preambleTolNormal, dec f.preambleTolHi,
     dec f.rssiSmoothing, dec f.rssiOffset,
     dec f.loraBw, dec f.loraSF,
     dec f.gaussian, dec f.paramp]

/-- `l[i]` with an index that is not negative -/
def index {α : Type} (l : List α) (i : Nat) : Except PyErr α :=
  match l[i]? with
  | some a => .ok a
  | .none => .error .indexError

/-- d7a/system_files/phy_status.py 94-95: the loop -/
def channels (f : PhyStatusFile) : List Nat → Except PyErr Text
  | [] => .ok []
  | i :: is => do
    let id ← index f.channelStatusIdentifier i
    let id ← channelStatusIdentifier id
    let floor ← index f.channelNoiseFloor i
    let t ← format "identifier={}, noise_floor={}; ".toList [id, dec floor]
    let r ← channels f is
    return t ++ r

/-- d7a/system_files/phy_status.py 92-98. `s[:-2]` drops the last two characters. -/
def phyStatusFile (f : PhyStatusFile) : Except PyErr Text := do
  let t ← channels f (List.range f.channelStatusListLength.toNat)
  let t ← format "[{}]".toList [t.take (t.length - 2)]
  format ("up_time={}, rx_time={}, tx_time={}, tx_duty_cycle={}, channel_status_list_length={}, "
    ++ "list={}").toList
    [dec f.upTime, dec f.rxTime, dec f.txTime, dec f.txDutyCycle, dec f.channelStatusListLength, t]

/-- d7a/system_files/interface_configuration.py 53-54 -/
def interfaceConfigurationFile (e : Env) (f : InterfaceConfigurationFile) : Except PyErr Text := do
  let c ← interfaceConfiguration e f.interfaceConfiguration
  format "interface_configuration = {}".toList [c]

/-- `str(f)`. NotImplementedFile has no `__str__`; its text, which shows the address, is left out because no
parser returns such an object. -/
def systemFile (e : Env) : SystemFile → Except PyErr Text
  | .uid f => uidFile f
  | .factorySettings f => factorySettingsFile f
  | .firmwareVersion f => firmwareVersionFile f
  | .engineeringMode f => engineeringModeFile f
  | .vid f => vidFile f
  | .phyStatus f => phyStatusFile f
  | .dllConfig f => dllConfigFile f
  | .dllStatus f => dllStatusFile f
  | .securityKey f => keyFile f.key
  | .rootKey f => keyFile f.key
  | .userKey f => keyFile f.key
  | .accessProfile f => accessProfileFile e f
  | .interfaceConfiguration f => interfaceConfigurationFile e f
  | .notImplemented _ => .ok []

/-- `systemfile_type.__class__.__name__` -/
def fileClassName : SystemFile → Text
  | .uid _ => "UidFile".toList
  | .factorySettings _ => "FactorySettingsFile".toList
  | .firmwareVersion _ => "FirmwareVersionFile".toList
  | .engineeringMode _ => "EngineeringModeFile".toList
  | .vid _ => "VidFile".toList
  | .phyStatus _ => "PhyStatusFile".toList
  | .dllConfig _ => "DllConfigFile".toList
  | .dllStatus _ => "DllStatusFile".toList
  | .securityKey _ => "SecurityKeyFile".toList
  | .rootKey _ => "RootAuthenticationKeyFile".toList
  | .userKey _ => "UserAuthenticationKeyFile".toList
  | .accessProfile _ => "AccessProfileFile".toList
  | .interfaceConfiguration _ => "InterfaceConfigurationFile".toList
  | .notImplemented _ => "NotImplementedFile".toList

/-! ### Actions and commands -/

/-- d7a/alp/action.py 57-64 -/
def plainAction (e : Env) (o : Operation) : Except PyErr Text :=
  match o with
  | .returnFileData d => do
    let r ← ReturnFileData.new d
    match r.systemfileType, r.fileDataParsed with
    | some t, some f => do
      let f ← systemFile e f
      format "Received {} content: {}".toList [fileClassName t, f]
    | _, _ => operation e o
  | _ => operation e o

/-- `str(action)`: d7a/alp/action.py 57-64, for a StatusAction d7a/alp/status_action.py 61-62 -/
def action (e : Env) : Action → Except PyErr Text
  | .status _ o => do
    let t ← operand e o
    format "{}".toList [t]
  | a => plainAction e a.operation

/-- d7a/alp/command.py 331-332: the loop -/
def described (e : Env) : List Action → Except PyErr Text
  | [] => .ok []
  | a :: as => do
    let t ← action e a
    let t ← format "{}, ".toList [t]
    let r ← described e as
    return t ++ r

/-- `s.strip(", ")` removes commas and blanks at both ends. -/
def strip (s : Text) : Text :=
  let c := fun c : Char => c = ',' ∨ c = ' '
  ((s.dropWhile c).reverse.dropWhile c).reverse

/-- d7a/alp/command.py 329-334 -/
def describeActions (e : Env) (c : Command) : Except PyErr Text := strip <$> described e c.actions

/-- d7a/alp/command.py 344-351. Reading `completed_with_error` before it is set is an AttributeError. -/
def execution (c : Command) : Except PyErr Text :=
  if c.executionCompleted then
    match c.completedWithError with
    | .none => .error .attributeError
    | some true => .ok ("completed".toList ++ ", with error".toList)
    | some false => .ok ("completed".toList ++ ", without error".toList)
  else .ok "executing".toList

/-- d7a/alp/command.py 357-358: the loop -/
def actionLines (e : Env) : List Action → Except PyErr Text
  | [] => .ok []
  | a :: as => do
    let t ← action e a
    let t ← format "\t\taction: {}\n".toList [t]
    let r ← actionLines e as
    return t ++ r

/-- d7a/alp/command.py 342-362 -/
def command (e : Env) (c : Command) : Except PyErr Text := do
  let output ← format "Command with tag {} ".toList [c.tagId.elim none dec]
  let status ← execution c
  let status ← format "({})".toList [status]
  let output := output ++ status
  let output ← if c.actions.length > 0 then do
      let lines ← actionLines e c.actions
      pure (output ++ "\n\tactions:\n".toList ++ lines)
    else pure output
  match c.interfaceStatus with
  | some a => do
    let t ← action e a
    let t ← format "\tinterface status: {}\n".toList [t]
    return output ++ t
  | .none => return output

end Verif.Print
