import Verif.Model.Print

/-! Specification of the printed texts: which words stand behind which labels.

A predicate on texts says what a word means; a layout lists literal labels, each followed by a word with a given
meaning. -/

namespace Verif.Labels

open Verif Print

/-! ### Words -/

/-- The meaning of a character as a digit. -/
def digit (c : Char) : Option Nat := "0123456789abcdef".toList.idxOf? c

/-- A positional numeral: digits below the base, no superfluous zero in front. -/
def IsNumeral (base n : Nat) (w : Text) : Prop :=
  w ≠ [] ∧ (w.head? = some '0' → w = ['0']) ∧
  w.foldlM (fun a c => do let d ← digit c; if d < base then some (a * base + d) else Option.none) 0 = some n

/-- A decimal number with its sign. -/
def IsInt (v : Int) (w : Text) : Prop :=
  if 0 ≤ v then IsNumeral 10 v.toNat w else ∃ d, w = '-' :: d ∧ IsNumeral 10 (-v).toNat d

/-- A hexadecimal number. From 2^63 on the number is a long, which Python 2 marks with an `L`. -/
def IsHex (v : Int) (w : Text) : Prop :=
  ∃ d, IsNumeral 16 v.toNat d ∧ w = "0x".toList ++ d ++ (if v < 9223372036854775808 then [] else ['L'])

/-- A fixed word. -/
def Is (s : String) (w : Text) : Prop := w = s.toList

/-- The name of a value in a table. -/
def Named {α : Type} (table : List (α × String)) (a : α) (w : Text) : Prop :=
  ∃ s, (a, s) ∈ table ∧ w = s.toList

/-! ### Layouts -/

/-- Each label is followed by a word with the given meaning. -/
def Labelled : List (String × (Text → Prop)) → Text → Prop
  | [], t => t = []
  | (label, p) :: r, t => ∃ w t', t = label.toList ++ (w ++ t') ∧ p w ∧ Labelled r t'

/-- The texts of the members one after the other. -/
def Each {α : Type} (p : α → Text → Prop) : List α → Text → Prop
  | [], t => t = []
  | a :: l, t => ∃ w t', t = w ++ t' ∧ p a w ∧ Each p l t'

/-- The texts of the members with a separator between them. -/
def Joined {α : Type} (separator : String) (p : α → Text → Prop) : List α → Text → Prop
  | [], t => t = []
  | [a], t => p a t
  | a :: l, t => ∃ w t', t = w ++ (separator.toList ++ t') ∧ p a w ∧ Joined separator p l t'

/-! ### Names -/

def flags : List (Bool × String) := [(true, "True"), (false, "False")]

/-- `lstrip("BAND_")` also takes the first letter of `NOT_IMPL`. -/
def bands : List (ChannelBand × String) :=
  [(.NOT_IMPL, "OT_IMPL"), (.BAND_433, "433"), (.BAND_868, "868"), (.BAND_915, "915")]

/-- The letter of LORA is that of LO_RATE. -/
def classes : List (ChannelClass × String) := [(.LO_RATE, "L"), (.LORA, "L"), (.NORMAL_RATE, "N"), (.HI_RATE, "H")]

def codings : List (ChannelCoding × String) := [(.PN9, "P"), (.RFU, "R"), (.FEC_PN9, "F"), (.CW, "C")]

def bandwidths : List (Bandwidth × String) := [(.kHz25, "kHz25"), (.kHz200, "kHz200")]

def idTypes : List (IdType × String) :=
  [(.NBID, "IdType.NBID"), (.NOID, "IdType.NOID"), (.UID, "IdType.UID"), (.VID, "IdType.VID")]

def actionConditions : List (ActionCondition × String) :=
  [(.LIST, "ActionCondition.LIST"), (.READ, "ActionCondition.READ"), (.WRITE, "ActionCondition.WRITE"),
   (.WRITE_FLUSH, "ActionCondition.WRITE_FLUSH")]

def storageClasses : List (StorageClass × String) :=
  [(.TRANSIENT, "StorageClass.TRANSIENT"), (.VOLATILE, "StorageClass.VOLATILE"),
   (.RESTORABLE, "StorageClass.RESTORABLE"), (.PERMANENT, "StorageClass.PERMANENT")]

def interfaces : List (InterfaceType × String) :=
  [(.HOST, "InterfaceType.HOST"), (.SERIAL, "InterfaceType.SERIAL"),
   (.LORAWAN_ABP, "InterfaceType.LORAWAN_ABP"), (.LORAWAN_OTAA, "InterfaceType.LORAWAN_OTAA"),
   (.D7ASP, "InterfaceType.D7ASP")]

def modes : List (EngineeringModeMode × String) :=
  [(.OFF, "OFF"), (.CONT_TX, "CONT_TX"), (.TRANSIENT_TX, "TRANSIENT_TX"), (.PER_RX, "PER_RX"), (.PER_TX, "PER_TX")]

/-! ### Objects -/

def OfOption {α : Type} (p : α → Text → Prop) : Option α → Text → Prop
  | .none => Is "None"
  | some a => p a

def OfCt (c : CT) : Text → Prop := Labelled [("exp=", IsInt c.exp), (" mant", IsInt c.mant)]

def OfChannelHeader (h : ChannelHeader) : Text → Prop :=
  Labelled [("", Named bands h.channelBand), ("", Named classes h.channelClass), ("", Named codings h.channelCoding)]

/-- At least three digits, filled up with zeros. -/
def IsThree (v : Int) (w : Text) : Prop :=
  ∃ d, IsNumeral 10 v.toNat d ∧ w = List.replicate (3 - d.length) '0' ++ d

def OfChannelID (c : ChannelID) : Text → Prop :=
  Labelled [("", OfChannelHeader c.channelHeader), ("", IsThree c.channelIndex)]

def OfSubBand (s : SubBand) : Text → Prop :=
  Labelled [("channel_index_start=", IsInt s.channelIndexStart), (", channel_index_end=", IsInt s.channelIndexEnd),
    (", eirp=", IsInt s.eirp), (", cca=", IsInt s.cca), (", duty=", IsInt s.duty)]

def OfChannelStatus (c : ChannelStatusIdentifier) : Text → Prop :=
  Labelled [("channel_band=", Named bands c.channelBand), (", channel_bandwidth=", Named bandwidths c.channelBandwidth),
    (", channel_index=", IsInt c.channelIndex)]

def OfId : AddrId → Text → Prop
  | .none => Is "None"
  | .int i => IsInt i
  | .ct c => OfCt c

def OfAddressee (a : Addressee) : Text → Prop :=
  Labelled [("ac=", IsInt a.accessClass), (", id_type=", Named idTypes a.idType), (", id=", OfId a.id)]

def OfStatus (s : Status) : Text → Prop :=
  Labelled [("unicast=", Named flags s.unicast), (", nls=", Named flags s.nls), (", retry=", Named flags s.retry),
    (", missed=", Named flags s.missed), (", fifo_token=", IsInt s.fifoToken), (", rx_level=", IsInt s.rxLevel),
    (", seq_nr=", IsInt s.seqNr), (", target_rx_level=", IsInt s.targetRxLevel),
    (", addressee=", OfAddressee s.addressee), (", response_to=", OfCt s.responseTo),
    (", link_budget=", IsInt s.linkBudget), (", channel_id=", OfChannelID s.channelId)]

def OfProperties (p : FileProperties) : Text → Prop :=
  Labelled [("act_enabled=", Named flags p.actEnabled), (", act_condition=", Named actionConditions p.actCondition),
    (", storage_class=", Named storageClasses p.storageClass)]

/-- The permissions leave no trace. -/
def OfHeader (h : FileHeader) : Text → Prop :=
  Labelled [("permissions=", Is ""), (", properties=(", OfProperties h.properties),
    ("), alp_command_file_id=", IsInt h.alpCommandFileId), (", interface_file_id=", IsInt h.interfaceFileId),
    (", file_size=", IsInt h.fileSize), (", allocated_size=", IsInt h.allocatedSize)]

def OfHeaderOperand (o : FileHeaderOperand) : Text → Prop :=
  Labelled [("file-id=", IsInt o.fileId), (", header=", OfHeader o.fileHeader)]

def OfRequest (d : DataRequest) : Text → Prop :=
  Labelled [("file-id=", IsInt d.offset.id), (", offset=", IsInt d.offset.offset.value),
    (", length=", IsInt d.length.value)]

def OfData (d : Data) : Text → Prop :=
  Labelled [("file-id=", IsInt d.offset.id), (", offset=", IsInt d.offset.offset.value),
    (", length=", IsInt d.length.value), (", data=[", Joined ", " IsInt d.data), ("]", Is "")]

/-- Dictionaries and objects without `__str__`: whatever the environment shows. -/
def OfConfig (e : Env) : Option IfaceConfig → Text → Prop
  | .none => Is "None"
  | some (.d7asp c) => fun w => w = e.configuration c
  | some (.abp c) => fun w => w = e.abp c
  | some (.otaa c) => fun w => w = e.otaa c

def OfInterface (e : Env) (c : InterfaceConfiguration) : Text → Prop :=
  Labelled [("interface-id=", Named interfaces c.interfaceId), (", configuration=", OfConfig e c.config)]

def OfOperand (e : Env) : Operation → Text → Prop
  | .nop => Is "None"
  | .readFileData o => OfRequest o
  | .readFileHeader o => Labelled [("file-id=", IsInt o.fileId)]
  | .writeFileData o | .returnFileData o => OfData o
  | .writeFileHeader o | .createNewFile o | .returnFileHeader o => OfHeaderOperand o
  | .breakQuery o => fun w => w = e.query o
  | .interfaceStatus o => Labelled [("interface-id=", IsInt o.interfaceId), (", status=", OfOption OfStatus o.status)]
  | .tagResponse o | .tagRequest o => Labelled [("tag_id=", IsInt o.tagId)]
  | .forward o => OfInterface e o
  | .indirectForward o => Labelled [("interface-file-id=", IsInt o.interfaceFileId),
      (", configuration-overload=", OfOption OfAddressee o.overload)]

def operationName : Operation → String
  | .nop => "NoOperation"
  | .readFileData _ => "ReadFileData"
  | .readFileHeader _ => "ReadFileHeader"
  | .writeFileData _ => "WriteFileData"
  | .writeFileHeader _ => "WriteFileHeader"
  | .breakQuery _ => "BreakQuery"
  | .createNewFile _ => "CreateNewFile"
  | .returnFileData _ => "ReturnFileData"
  | .returnFileHeader _ => "ReturnFileHeader"
  | .interfaceStatus _ => "InterfaceStatus"
  | .tagResponse _ => "TagResponse"
  | .forward _ => "Forward"
  | .indirectForward _ => "IndirectForward"
  | .tagRequest _ => "TagRequest"

def OfOperation (e : Env) (o : Operation) : Text → Prop := Labelled [("", Is (operationName o)), (": ", OfOperand e o)]

def OfAccessProfile (e : Env) (a : AccessProfile) : Text → Prop :=
  Labelled [("channel_header=", OfChannelHeader a.channelHeader),
    (", sub_profiles=", Each (fun s w => w = e.subProfile s) a.subProfiles),
    (", sub_bands=", Each OfSubBand a.subBands)]

def OfEntry (p : ChannelStatusIdentifier × Int) : Text → Prop :=
  Labelled [("identifier=", OfChannelStatus p.1), (", noise_floor=", IsInt p.2)]

/-- LoRa bandwidth and spreading factor stand behind each other's label; the last two values of a DLL
configuration are missing. -/
def OfFile (e : Env) : SystemFile → Text → Prop
  | .uid f => Labelled [("uid=", IsHex f.uid)]
  | .vid f => Labelled [("vid=", IsHex f.vid), (", control=", IsHex f.control)]
  | .factorySettings f => Labelled [("gain=", IsInt f.gain), (", rx_bw_low_rate=", IsInt f.rxBwLow),
      (", rx_bw_normal_rate=", IsInt f.rxBwNormal), (", rx_bw_high_rate=", IsInt f.rxBwHigh),
      (", low rate=", IsInt f.bitrateLo), (" : ", IsInt f.fdevLo),
      (", normal rate=", IsInt f.bitrateNormal), (" : ", IsInt f.fdevNormal),
      (", high rate=", IsInt f.bitrateHi), (" : ", IsInt f.fdevHi),
      (", preamble sizes ", IsInt f.preambleSizeLo), (" : ", IsInt f.preambleSizeNormal),
      (" : ", IsInt f.preambleSizeHi),
      (", preamble detector size ", IsInt f.preambleDetectorSizeLo), (" : ", IsInt f.preambleDetectorSizeNormal),
      (" : ", IsInt f.preambleDetectorSizeHi),
      (" with tol ", IsInt f.preambleTolLo), (" : ", IsInt f.preambleTolNormal), (" : ", IsInt f.preambleTolHi),
      (", rssi smoothing ", IsInt f.rssiSmoothing), (" with offset ", IsInt f.rssiOffset),
      ("\nlora sf set to ", IsInt f.loraBw), (", bw to ", IsInt f.loraSF),
      ("\ngaussian set to ", IsInt f.gaussian), (" and paramp to ", IsInt f.paramp), (" microseconds", Is "")]
  | .firmwareVersion f => Labelled [("d7ap v", IsInt f.d7apMajor), (".", IsInt f.d7apMinor),
      (", filesystem v", IsInt f.fsMajor), (".", IsInt f.fsMinor),
      (", application_name=", fun w => w.map Char.toNat = f.applicationName),
      (", git_sha1=", fun w => w.map Char.toNat = f.gitSha1)]
  | .engineeringMode f => Labelled [("mode=", Named modes f.mode), (", flags=", IsHex f.flags),
      (", timeout=", IsInt f.timeout), (", channel_id={", OfChannelID f.channelId), ("}, eirp=", IsInt f.eirp)]
  | .phyStatus f => Labelled [("up_time=", IsInt f.upTime), (", rx_time=", IsInt f.rxTime),
      (", tx_time=", IsInt f.txTime), (", tx_duty_cycle=", IsInt f.txDutyCycle),
      (", channel_status_list_length=", IsInt f.channelStatusListLength),
      (", list=[", Joined "; " OfEntry (f.channelStatusIdentifier.zip f.channelNoiseFloor)), ("]", Is "")]
  | .dllConfig f => Labelled [("active_access_class=", IsInt f.activeAccessClass), (", lq_filter=", IsInt f.lqFilter),
      (", nf_ctrl=", IsInt f.nfCtrl), (", rx_nf_method_parameter, tx_nf_method_parameter", Is "")]
  | .dllStatus f => Labelled [("last_rx_packet_level=", IsInt f.lastRxPacketLevel),
      (", last_rx_packet_link_budget=", IsInt f.lastRxPacketLinkBudget), (", noise_floor=", IsInt f.noiseFloor),
      (", channel=", OfChannelHeader f.channelHeader), ("", IsInt f.channelIndex),
      (", scan_timeout_ratio=", IsInt f.scanTimeoutRatio), (", scan_count=", IsInt f.scanCount),
      (", scan_timeout_count=", IsInt f.scanTimeoutCount)]
  | .securityKey f => Labelled [("key=", IsInt f.key)]
  | .rootKey f => Labelled [("key=", IsInt f.key)]
  | .userKey f => Labelled [("key=", IsInt f.key)]
  | .accessProfile f => Labelled [("active_specifier=", IsInt f.accessSpecifier),
      (", access_profile=", OfOption (OfAccessProfile e) f.accessProfile)]
  | .interfaceConfiguration f => Labelled [("interface_configuration = ", OfInterface e f.interfaceConfiguration)]
  | .notImplemented _ => Is ""

def fileName : SystemFile → String
  | .uid _ => "UidFile"
  | .factorySettings _ => "FactorySettingsFile"
  | .firmwareVersion _ => "FirmwareVersionFile"
  | .engineeringMode _ => "EngineeringModeFile"
  | .vid _ => "VidFile"
  | .phyStatus _ => "PhyStatusFile"
  | .dllConfig _ => "DllConfigFile"
  | .dllStatus _ => "DllStatusFile"
  | .securityKey _ => "SecurityKeyFile"
  | .rootKey _ => "RootAuthenticationKeyFile"
  | .userKey _ => "UserAuthenticationKeyFile"
  | .accessProfile _ => "AccessProfileFile"
  | .interfaceConfiguration _ => "InterfaceConfigurationFile"
  | .notImplemented _ => "NotImplementedFile"

/-- An action: the content of a system file if the data is one, else the operation; of an interface status only
the operand. -/
def OfAction (e : Env) : Action → Text → Prop
  | .status _ o => OfOperand e o
  | a => fun t =>
    (∃ d r f, a.operation = .returnFileData d ∧ ReturnFileData.new d = .ok r ∧ r.fileDataParsed = some f ∧
      Labelled [("Received ", Is (fileName f)), (" content: ", OfFile e f)] t) ∨
    ((∀ d r f, a.operation = .returnFileData d → ReturnFileData.new d = .ok r → r.fileDataParsed ≠ some f) ∧
      OfOperation e a.operation t)

/-- Whether the command has been executed, and how it ended. -/
def OfState (c : Command) : Text → Prop :=
  if c.executionCompleted = true then
    if c.completedWithError = some true then Is "completed, with error" else Is "completed, without error"
  else Is "executing"

/-- The head, a line for each action and one for the interface status. -/
def OfCommand (e : Env) (c : Command) : Text → Prop :=
  Labelled [("Command with tag ", OfOption IsInt c.tagId), (" (", OfState c),
    (if c.actions = [] then ")" else ")\n\tactions:\n",
      Each (fun a => Labelled [("\t\taction: ", OfAction e a), ("\n", Is "")]) c.actions),
    ("", Each (fun a => Labelled [("\tinterface status: ", OfAction e a), ("\n", Is "")]) c.interfaceStatus.toList)]

end Verif.Labels
