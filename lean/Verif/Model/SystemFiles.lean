import Verif.Model.Operands
import Mathlib.Data.Nat.Log

/-! Model of d7a/system_files/*.py, d7a/dll/sub_profile.py and d7a/dll/access_profile.py.

Attributes are integers (or strings, enum members and objects of the right class).  A schema key
that is not an attribute of the object checks nothing (cerberus only looks at attributes that are
present), so attributes without a matching schema key are accepted whatever their value; for these
only integer values are modelled. -/

namespace Verif

/-- `Types.INTEGER(min=0, max=0xFFFF)` (d7a/support/schema.py 120-128) -/
def isU16 (v : Int) : Prop := 0 ≤ v ∧ v ≤ 0xFFFF

instance (v : Int) : Decidable (isU16 v) := inferInstanceAs (Decidable (_ ∧ _))

/-- `Types.INTEGER(min=0, max=0xFFFFFFFF)` (d7a/support/schema.py 120-128) -/
def isU32 (v : Int) : Prop := 0 ≤ v ∧ v ≤ 0xFFFFFFFF

instance (v : Int) : Decidable (isU32 v) := inferInstanceAs (Decidable (_ ∧ _))

/-- `[p(s) for _ in range(n)]` -/
def P.replicate {α : Type} : Nat → P α → P (List α)
  | 0, _ => return []
  | n + 1, p => do
    let a ← p
    let as ← P.replicate n p
    return a :: as

/-! ### d7a/dll/sub_profile.py, d7a/dll/access_profile.py -/

/-- d7a/dll/sub_profile.py 30-40 -/
structure SubProfile where
  subbandBitmap : Int
  scanAutomationPeriod : CT
  deriving DecidableEq, Repr

namespace SubProfile

/-- d7a/dll/sub_profile.py 32-40 -/
def new (bitmap : Int) (period : CT) : Except PyErr SubProfile :=
  validate (isByte bitmap) ⟨bitmap, period⟩

/-- d7a/dll/sub_profile.py 42-46 -/
def parse : P SubProfile := do
  let bitmap ← P.uint 8
  let period ← CT.parse
  P.lift (new bitmap period)

/-- d7a/dll/sub_profile.py 48-50 -/
def iter (p : SubProfile) : Gen := .int p.subbandBitmap ++ p.scanAutomationPeriod.iter

end SubProfile

/-- d7a/dll/access_profile.py 40-55 -/
structure AccessProfile where
  channelHeader : ChannelHeader
  subProfiles : List SubProfile
  subBands : List SubBand
  deriving DecidableEq, Repr

namespace AccessProfile

/-- d7a/dll/access_profile.py 45-55 -/
def new (h : ChannelHeader) (sps : List SubProfile) (sbs : List SubBand) :
    Except PyErr AccessProfile :=
  validate (sps.length = 4 ∧ sbs.length ≤ 8) ⟨h, sps, sbs⟩

/-- d7a/dll/access_profile.py 57-71 -/
def parse : P AccessProfile := do
  let h ← ChannelHeader.parse
  let sps ← P.replicate 4 SubProfile.parse
  let sbs ← P.replicate 8 SubBand.parse
  P.lift (new h sps sbs)

/-- d7a/dll/access_profile.py 73-79 -/
def iter (a : AccessProfile) : Gen :=
  a.channelHeader.iter ++ .concat (a.subProfiles.map SubProfile.iter) ++
  .concat (a.subBands.map SubBand.iter)

end AccessProfile

/-! ### d7a/system_files/uid.py -/

/-- d7a/system_files/uid.py 31-40 -/
structure UidFile where
  uid : Int
  deriving DecidableEq, Repr

namespace UidFile

/-- d7a/system_files/uid.py 32-40 -/
def new (uid : Int) : Except PyErr UidFile := validate (0 ≤ uid ∧ uid ≤ 0xFFFFFFFFFFFFFFFF) ⟨uid⟩

/-- d7a/system_files/uid.py 42-45 -/
def parse : P UidFile := do
  let uid ← P.uint 64
  P.lift (new uid)

/-- d7a/system_files/uid.py 47-49 -/
def iter (f : UidFile) : Gen := .ofBytes (packU 8 f.uid)

end UidFile

/-! ### d7a/system_files/vid.py -/

/-- d7a/system_files/vid.py 31-42 -/
structure VidFile where
  vid : Int
  control : Int
  deriving DecidableEq, Repr

namespace VidFile

/-- d7a/system_files/vid.py 32-42 -/
def new (vid control : Int) : Except PyErr VidFile :=
  validate (isU16 vid ∧ isByte control) ⟨vid, control⟩

/-- d7a/system_files/vid.py 44-48 -/
def parse : P VidFile := do
  let vid ← P.uint 16
  let control ← P.uint 8
  P.lift (new vid control)

/-- d7a/system_files/vid.py 50-53 -/
def iter (f : VidFile) : Gen := .ofBytes (packU 2 f.vid) ++ .int f.control

end VidFile

/-! ### d7a/system_files/firmware_version.py -/

/-- d7a/system_files/firmware_version.py 31-51. Strings are lists of code points. -/
structure FirmwareVersionFile where
  d7apMajor : Int
  d7apMinor : Int
  fsMajor : Int
  fsMinor : Int
  applicationName : List Nat
  gitSha1 : List Nat
  deriving DecidableEq, Repr

namespace FirmwareVersionFile

/-- d7a/system_files/firmware_version.py 33-51 -/
def new (d7apMajor d7apMinor fsMajor fsMinor : Int) (name sha : List Nat) :
    Except PyErr FirmwareVersionFile :=
  validate (isByte d7apMajor ∧ isByte d7apMinor ∧ isByte fsMajor ∧ isByte fsMinor ∧
    name.length ≤ 6 ∧ sha.length ≤ 7) ⟨d7apMajor, d7apMinor, fsMajor, fsMinor, name, sha⟩

/-- d7a/system_files/firmware_version.py 67-68: `bytes.decode("ascii")`; UnicodeDecodeError is a
ValueError. -/
def decodeAscii (bs : List UInt8) : Except PyErr (List Nat) :=
  if ∀ b ∈ bs, b.toNat < 128 then .ok (bs.map UInt8.toNat) else .error .valueError

/-- d7a/system_files/firmware_version.py 80, 83: `s.encode("ASCII").ljust(n)`; the Unicode errors
are ValueErrors; `ljust` pads with spaces. -/
def encodeAscii (s : List Nat) (n : Nat) : Except PyErr (List UInt8) :=
  if ∀ c ∈ s, c < 128 then .ok (s.map UInt8.ofNat ++ List.replicate (n - s.length) 32)
  else .error .valueError

/-- d7a/system_files/firmware_version.py 61-71 -/
def parse : P FirmwareVersionFile := do
  let major ← P.uint 8
  let minor ← P.uint 8
  let fileMajor ← P.uint 8
  let fileMinor ← P.uint 8
  let name ← P.bytes 6
  let name ← P.lift (decodeAscii name)
  let sha ← P.bytes 7
  let sha ← P.lift (decodeAscii sha)
  P.lift (new major minor fileMajor fileMinor name sha)

/-- d7a/system_files/firmware_version.py 73-84 -/
def iter (f : FirmwareVersionFile) : Gen :=
  .int f.d7apMajor ++ .int f.d7apMinor ++ .int f.fsMajor ++ .int f.fsMinor ++
  .ofBytes (encodeAscii f.applicationName 6) ++ .ofBytes (encodeAscii f.gitSha1 7)

end FirmwareVersionFile

/-! ### d7a/system_files/engineering_mode.py -/

/-- d7a/system_files/engineering_mode.py 34-39 -/
inductive EngineeringModeMode | OFF | CONT_TX | TRANSIENT_TX | PER_RX | PER_TX
  deriving DecidableEq, Repr

/-- d7a/system_files/engineering_mode.py 35-39: `.value` -/
def EngineeringModeMode.value : EngineeringModeMode → Int
  | .OFF => 0 | .CONT_TX => 1 | .TRANSIENT_TX => 2 | .PER_RX => 3 | .PER_TX => 4

/-- d7a/system_files/engineering_mode.py 82: `EngineeringModeMode(x)` -/
def EngineeringModeMode.ofValue (x : Int) : Except PyErr EngineeringModeMode :=
  if x = 0 then .ok .OFF else if x = 1 then .ok .CONT_TX else if x = 2 then .ok .TRANSIENT_TX
  else if x = 3 then .ok .PER_RX else if x = 4 then .ok .PER_TX else .error .valueError

/-- d7a/system_files/engineering_mode.py 41-49 -/
def EngineeringModeMode.fromString (s : String) : Except PyErr EngineeringModeMode :=
  if s = "OFF" then .ok .OFF else if s = "CONT_TX" then .ok .CONT_TX
  else if s = "TRANSIENT_TX" then .ok .TRANSIENT_TX else if s = "PER_RX" then .ok .PER_RX
  else if s = "PER_TX" then .ok .PER_TX else .error .notImplemented

/-- d7a/system_files/engineering_mode.py 51-56 -/
def EngineeringModeMode.str : EngineeringModeMode → String
  | .OFF => "OFF" | .CONT_TX => "CONT_TX" | .TRANSIENT_TX => "TRANSIENT_TX"
  | .PER_RX => "PER_RX" | .PER_TX => "PER_TX"

/-- d7a/system_files/engineering_mode.py 58-78 -/
structure EngineeringModeFile where
  mode : EngineeringModeMode
  flags : Int
  timeout : Int
  channelId : ChannelID
  eirp : Int
  deriving DecidableEq, Repr

namespace EngineeringModeFile

/-- d7a/system_files/engineering_mode.py 60-78 -/
def new (mode : EngineeringModeMode) (flags timeout : Int) (ch : ChannelID) (eirp : Int) :
    Except PyErr EngineeringModeFile :=
  validate (isByte flags ∧ isByte timeout ∧ -128 ≤ eirp ∧ eirp ≤ 127)
    ⟨mode, flags, timeout, ch, eirp⟩

/-- d7a/system_files/engineering_mode.py 68-71: the default instance -/
def default : EngineeringModeFile := ⟨.OFF, 0, 0, ⟨⟨.PN9, .LO_RATE, .BAND_868⟩, 0⟩, 0⟩

/-- d7a/system_files/engineering_mode.py 80-87 -/
def parse : P EngineeringModeFile := do
  let mode ← P.uint 8
  let mode ← P.lift (EngineeringModeMode.ofValue mode)
  let flags ← P.uint 8
  let timeout ← P.uint 8
  let ch ← ChannelID.parse
  let eirp ← P.sint 8
  P.lift (new mode flags timeout ch eirp)

/-- d7a/system_files/engineering_mode.py 89-98 -/
def iter (f : EngineeringModeFile) : Gen :=
  .int f.mode.value ++ .int f.flags ++ .int f.timeout ++ f.channelId.iter ++
  .ofBytes (packS8 f.eirp) ++ .int 0 ++ .int 0

end EngineeringModeFile

/-! ### d7a/system_files/dll_config.py -/

/-- d7a/system_files/dll_config.py 31-48 -/
structure DllConfigFile where
  activeAccessClass : Int
  lqFilter : Int
  nfCtrl : Int
  rxNfMethodParameter : Int
  txNfMethodParameter : Int
  deriving DecidableEq, Repr

namespace DllConfigFile

/-- d7a/system_files/dll_config.py 32-48. The schema keys `LQ_filter`, `NF_CTRL`,
`RX_NF_method_parameter` and `TX_NF_method_parameter` are not the names of the attributes, so only
`active_access_class` is checked. -/
def new (ac lq nf rx tx : Int) : Except PyErr DllConfigFile :=
  validate (isByte ac) ⟨ac, lq, nf, rx, tx⟩

/-- d7a/system_files/dll_config.py 50-59 -/
def parse : P DllConfigFile := do
  let ac ← P.uint 8
  P.pad 16
  let lq ← P.uint 8
  let nf ← P.uint 8
  let rx ← P.uint 8
  let tx ← P.uint 8
  P.lift (new ac lq nf rx tx)

/-- d7a/system_files/dll_config.py 61-68 -/
def iter (f : DllConfigFile) : Gen :=
  .int f.activeAccessClass ++ .ofBytes (packU 2 0) ++ .int f.lqFilter ++ .int f.nfCtrl ++
  .int f.rxNfMethodParameter ++ .int f.txNfMethodParameter

end DllConfigFile

/-! ### d7a/system_files/dll_status.py -/

/-- d7a/system_files/dll_status.py 32-56 -/
structure DllStatusFile where
  lastRxPacketLevel : Int
  lastRxPacketLinkBudget : Int
  noiseFloor : Int
  channelHeader : ChannelHeader
  channelIndex : Int
  scanTimeoutRatio : Int
  scanCount : Int
  scanTimeoutCount : Int
  deriving DecidableEq, Repr

namespace DllStatusFile

/-- d7a/system_files/dll_status.py 33-56 -/
def new (level budget floor : Int) (h : ChannelHeader) (index ratio count timeouts : Int) :
    Except PyErr DllStatusFile :=
  validate (isByte level ∧ isByte budget ∧ isByte floor ∧ isU16 index ∧ isU16 ratio ∧
    isU32 count ∧ isU32 timeouts) ⟨level, budget, floor, h, index, ratio, count, timeouts⟩

/-- d7a/system_files/dll_status.py 44-46: the default instance -/
def default : DllStatusFile := ⟨0, 0, 0, ⟨.FEC_PN9, .LO_RATE, .BAND_868⟩, 0, 0, 0, 0⟩

/-- d7a/system_files/dll_status.py 58-70 -/
def parse : P DllStatusFile := do
  let level ← P.uint 8
  let budget ← P.uint 8
  let floor ← P.uint 8
  let h ← ChannelHeader.parse
  let index ← P.uint 16
  let ratio ← P.uint 16
  let count ← P.uint 32
  let timeouts ← P.uint 32
  P.lift (new level budget floor h index ratio count timeouts)

/-- d7a/system_files/dll_status.py 72-85 -/
def iter (f : DllStatusFile) : Gen :=
  .int f.lastRxPacketLevel ++ .int f.lastRxPacketLinkBudget ++ .int f.noiseFloor ++
  f.channelHeader.iter ++ .ofBytes (packU 2 f.channelIndex) ++
  .ofBytes (packU 2 f.scanTimeoutRatio) ++ .ofBytes (packU 4 f.scanCount) ++
  .ofBytes (packU 4 f.scanTimeoutCount)

end DllStatusFile

/-! ### d7a/system_files/access_profile.py -/

/-- d7a/system_files/access_profile.py 30-40 -/
structure AccessProfileFile where
  accessSpecifier : Int
  accessProfile : Option AccessProfile
  deriving DecidableEq, Repr

namespace AccessProfileFile

/-- d7a/system_files/access_profile.py 31-40 -/
def new (specifier : Int) (profile : Option AccessProfile) : Except PyErr AccessProfileFile :=
  validate (0 ≤ specifier ∧ specifier ≤ 14) ⟨specifier, profile⟩

/-- d7a/system_files/access_profile.py 42-44; iterating `None` is a TypeError. -/
def iter (f : AccessProfileFile) : Gen :=
  match f.accessProfile with
  | some p => p.iter
  | none => .raise .typeError

/-- d7a/system_files/access_profile.py 46-48 -/
def parse : P AccessProfileFile := do
  let profile ← AccessProfile.parse
  P.lift (new 0 (some profile))

end AccessProfileFile

/-! ### Key files -/

/-- d7a/system_files/security_key.py 33-35: `Types.BITS(length=128)` (d7a/support/schema.py) has
the maximum `math.pow(2, 128) - 1`, a float, which rounds to 2^128; Python compares the integer
with it exactly. -/
def isKey (k : Int) : Prop := 0 ≤ k ∧ k ≤ 2 ^ 128

instance (k : Int) : Decidable (isKey k) := inferInstanceAs (Decidable (_ ∧ _))

/-- d7a/system_files/security_key.py 48: `(key & (0xff << pos * 8)) >> pos * 8` for `pos` in
`range(16)` -/
def keyBytes (key : Int) : Gen :=
  .concat ((List.range 16).map fun pos =>
    .int ((Int.land key ((0xff : Int) <<ₚ (pos * 8))) >>ₚ (pos * 8)))

/-- d7a/system_files/security_key.py 31-40 -/
structure SecurityKeyFile where
  key : Int
  deriving DecidableEq, Repr

namespace SecurityKeyFile

/-- d7a/system_files/security_key.py 33-40 -/
def new (key : Int) : Except PyErr SecurityKeyFile := validate (isKey key) ⟨key⟩

/-- d7a/system_files/security_key.py 42-45: the key passed to the constructor is a byte string, which
the schema (`type: integer`) rejects with a ValueError. -/
def parse : P SecurityKeyFile := do
  let _ ← P.bytes 16
  P.raise .valueError

/-- d7a/system_files/security_key.py 47-49 -/
def iter (f : SecurityKeyFile) : Gen := keyBytes f.key

end SecurityKeyFile

/-- d7a/system_files/root_authentication_key.py 31-42 -/
structure RootAuthenticationKeyFile where
  key : Int
  deriving DecidableEq, Repr

namespace RootAuthenticationKeyFile

/-- d7a/system_files/root_authentication_key.py 33-42 (`rfu` is always 0) -/
def new (key : Int) : Except PyErr RootAuthenticationKeyFile := validate (isKey key) ⟨key⟩

/-- d7a/system_files/root_authentication_key.py 44-48: the key is a byte string, as in
`SecurityKeyFile.parse`. -/
def parse : P RootAuthenticationKeyFile := do
  let _ ← P.bytes 16
  let _ ← P.bytes 24
  P.raise .valueError

/-- d7a/system_files/root_authentication_key.py 50-55 -/
def iter (f : RootAuthenticationKeyFile) : Gen :=
  keyBytes f.key ++ .concat (List.replicate 24 (.int 0))

end RootAuthenticationKeyFile

/-- d7a/system_files/user_authentication_key.py 31-42 -/
structure UserAuthenticationKeyFile where
  key : Int
  deriving DecidableEq, Repr

namespace UserAuthenticationKeyFile

/-- d7a/system_files/user_authentication_key.py 33-42 -/
def new (key : Int) : Except PyErr UserAuthenticationKeyFile := validate (isKey key) ⟨key⟩

/-- d7a/system_files/user_authentication_key.py 44-48 -/
def parse : P UserAuthenticationKeyFile := do
  let _ ← P.bytes 16
  let _ ← P.bytes 24
  P.raise .valueError

/-- d7a/system_files/user_authentication_key.py 50-55 -/
def iter (f : UserAuthenticationKeyFile) : Gen :=
  keyBytes f.key ++ .concat (List.replicate 24 (.int 0))

end UserAuthenticationKeyFile

/-! ### d7a/system_files/factory_settings.py -/

/-- d7a/system_files/factory_settings.py 32-95 -/
structure FactorySettingsFile where
  gain : Int
  rxBwLow : Int
  rxBwNormal : Int
  rxBwHigh : Int
  bitrateLo : Int
  fdevLo : Int
  bitrateNormal : Int
  fdevNormal : Int
  bitrateHi : Int
  fdevHi : Int
  preambleSizeLo : Int
  preambleSizeNormal : Int
  preambleSizeHi : Int
  preambleDetectorSizeLo : Int
  preambleDetectorSizeNormal : Int
  preambleDetectorSizeHi : Int
  preambleTolLo : Int
  preambleTolNormal : Int
  preambleTolHi : Int
  rssiSmoothing : Int
  rssiOffset : Int
  loraBw : Int
  loraSF : Int
  gaussian : Int
  paramp : Int
  deriving DecidableEq, Repr

namespace FactorySettingsFile

/-- d7a/system_files/factory_settings.py 88: `int(ceil(log(x, 2)))-1`; `log` raises ValueError for
`x ≤ 0`. Simplification: the logarithm is exact. Double precision gives the same value for all
arguments below 2^29 (in particular for the bytes 0..255 that `parse` passes); at some larger powers
of two, the first being 2^29, it is one more. -/
def smoothing (x : Int) : Except PyErr Int :=
  if x ≤ 0 then .error .valueError else .ok ((Nat.clog 2 x.toNat : Int) - 1)

/-- d7a/system_files/factory_settings.py 34-58: the schema. The key `preamble_tol` is not an
attribute, so the three `preamble_tol_*` attributes are not checked. -/
def Valid (f : FactorySettingsFile) : Prop :=
  (-128 ≤ f.gain ∧ f.gain ≤ 127) ∧ isU32 f.rxBwLow ∧ isU32 f.rxBwNormal ∧ isU32 f.rxBwHigh ∧
  isU32 f.bitrateLo ∧ isU32 f.fdevLo ∧ isU32 f.bitrateNormal ∧ isU32 f.fdevNormal ∧
  isU32 f.bitrateHi ∧ isU32 f.fdevHi ∧ isByte f.preambleSizeLo ∧ isByte f.preambleSizeNormal ∧
  isByte f.preambleSizeHi ∧ isByte f.preambleDetectorSizeLo ∧
  isByte f.preambleDetectorSizeNormal ∧ isByte f.preambleDetectorSizeHi ∧
  isByte f.rssiSmoothing ∧ (-126 ≤ f.rssiOffset ∧ f.rssiOffset ≤ 125) ∧ isU32 f.loraBw ∧
  (6 ≤ f.loraSF ∧ f.loraSF ≤ 12) ∧ (0 ≤ f.gaussian ∧ f.gaussian ≤ 3) ∧ isU16 f.paramp

instance (f : FactorySettingsFile) : Decidable f.Valid := by unfold Valid; infer_instance

/-- d7a/system_files/factory_settings.py 60-95. The arguments are given as a record; its
`rssiSmoothing` is the argument, the one of the result is what is stored. -/
def new (args : FactorySettingsFile) : Except PyErr FactorySettingsFile := do
  let sm ← smoothing args.rssiSmoothing
  let f := { args with rssiSmoothing := sm }
  validate f.Valid f

/-- d7a/system_files/factory_settings.py 60-68: the default arguments -/
def defaultArgs : FactorySettingsFile :=
  { gain := 0, rxBwLow := 10468, rxBwNormal := 78646, rxBwHigh := 125868, bitrateLo := 9600,
    fdevLo := 4800, bitrateNormal := 55555, fdevNormal := 50000, bitrateHi := 166667,
    fdevHi := 41667, preambleSizeLo := 5, preambleSizeNormal := 5, preambleSizeHi := 7,
    preambleDetectorSizeLo := 3, preambleDetectorSizeNormal := 3, preambleDetectorSizeHi := 3,
    preambleTolLo := 15, preambleTolNormal := 10, preambleTolHi := 10, rssiSmoothing := 8,
    rssiOffset := 0, loraBw := 125000, loraSF := 9, gaussian := 2, paramp := 40 }

/-- d7a/system_files/factory_settings.py 97-141 -/
def parse : P FactorySettingsFile := do
  let gain ← P.sint 8
  let rxBwLow ← P.uint 32
  let rxBwNormal ← P.uint 32
  let rxBwHigh ← P.uint 32
  let bitrateLo ← P.uint 32
  let fdevLo ← P.uint 32
  let bitrateNormal ← P.uint 32
  let fdevNormal ← P.uint 32
  let bitrateHi ← P.uint 32
  let fdevHi ← P.uint 32
  let preambleSizeLo ← P.uint 8
  let preambleSizeNormal ← P.uint 8
  let preambleSizeHi ← P.uint 8
  let preambleDetectorSizeLo ← P.uint 8
  let preambleDetectorSizeNormal ← P.uint 8
  let preambleDetectorSizeHi ← P.uint 8
  let preambleTolLo ← P.uint 8
  let preambleTolNormal ← P.uint 8
  let preambleTolHi ← P.uint 8
  let rssiSmoothing ← P.uint 8
  let rssiOffset ← P.uint 8
  let loraBw ← P.uint 32
  let loraSF ← P.uint 8
  let gaussian ← P.uint 8
  let paramp ← P.uint 16
  P.lift (new ⟨gain, rxBwLow, rxBwNormal, rxBwHigh, bitrateLo, fdevLo, bitrateNormal, fdevNormal,
    bitrateHi, fdevHi, preambleSizeLo, preambleSizeNormal, preambleSizeHi, preambleDetectorSizeLo,
    preambleDetectorSizeNormal, preambleDetectorSizeHi, preambleTolLo, preambleTolNormal,
    preambleTolHi, rssiSmoothing, rssiOffset, loraBw, loraSF, gaussian, paramp⟩)

/-- d7a/system_files/factory_settings.py 143-179 -/
def iter (f : FactorySettingsFile) : Gen :=
  .int f.gain ++ .ofBytes (packU 4 f.rxBwLow) ++ .ofBytes (packU 4 f.rxBwNormal) ++
  .ofBytes (packU 4 f.rxBwHigh) ++ .ofBytes (packU 4 f.bitrateLo) ++ .ofBytes (packU 4 f.fdevLo) ++
  .ofBytes (packU 4 f.bitrateNormal) ++ .ofBytes (packU 4 f.fdevNormal) ++
  .ofBytes (packU 4 f.bitrateHi) ++ .ofBytes (packU 4 f.fdevHi) ++ .int f.preambleSizeLo ++
  .int f.preambleSizeNormal ++ .int f.preambleSizeHi ++ .int f.preambleDetectorSizeLo ++
  .int f.preambleDetectorSizeNormal ++ .int f.preambleDetectorSizeHi ++ .int f.preambleTolLo ++
  .int f.preambleTolNormal ++ .int f.preambleTolHi ++ .int f.rssiSmoothing ++ .int f.rssiOffset ++
  .ofBytes (packU 4 f.loraBw) ++ .int f.loraSF ++ .int f.gaussian ++ .ofBytes (packU 2 f.paramp)

end FactorySettingsFile

/-! ### d7a/system_files/phy_status.py -/

/-- d7a/system_files/phy_status.py 31-58 -/
structure PhyStatusFile where
  upTime : Int
  rxTime : Int
  txTime : Int
  txDutyCycle : Int
  channelStatusListLength : Int
  channelStatusIdentifier : List ChannelStatusIdentifier
  channelNoiseFloor : List Int
  deriving DecidableEq, Repr

namespace PhyStatusFile

/-- d7a/system_files/phy_status.py 50-51, 54-55: `if len(l) != n: l.extend([x] * (n - len(l)))`; a
negative count extends by nothing. -/
def extend {α : Type} (l : List α) (n : Int) (x : α) : List α :=
  if (l.length : Int) ≠ n then l ++ List.replicate (n - l.length).toNat x else l

/-- d7a/system_files/phy_status.py 32-40: the schema. The elements of `channel_noise_floor` are not
checked. -/
def Valid (f : PhyStatusFile) : Prop :=
  isU32 f.upTime ∧ isU32 f.rxTime ∧ isU32 f.txTime ∧ (0 ≤ f.txDutyCycle ∧ f.txDutyCycle ≤ 1000) ∧
  isByte f.channelStatusListLength ∧ f.channelStatusIdentifier.length ≤ 0xFF ∧
  f.channelNoiseFloor.length ≤ 0xFF

instance (f : PhyStatusFile) : Decidable f.Valid := by unfold Valid; infer_instance

/-- d7a/system_files/phy_status.py 42-58, when both lists are passed by the caller (see
`PhyStatusFile.call` for the shared default lists). The passed lists are extended in place. -/
def new (upTime rxTime txTime txDutyCycle n : Int) (ids : List ChannelStatusIdentifier)
    (floors : List Int) : Except PyErr PhyStatusFile :=
  let f : PhyStatusFile := ⟨upTime, rxTime, txTime, txDutyCycle, n,
    extend ids n .default, extend floors n 0⟩
  validate f.Valid f

/-- d7a/system_files/phy_status.py 69-71: one round of the loop -/
def parseChannel : P (ChannelStatusIdentifier × Int) := do
  let id ← ChannelStatusIdentifier.parse
  let floor ← P.uint 8
  return (id, floor)

/-- d7a/system_files/phy_status.py 60-75 -/
def parse : P PhyStatusFile := do
  let upTime ← P.uint 32
  let rxTime ← P.uint 32
  let txTime ← P.uint 32
  let txDutyCycle ← P.uint 16
  let n ← P.uint 8
  let channels ← P.replicate n.toNat parseChannel
  P.lift (new upTime rxTime txTime txDutyCycle n (channels.map Prod.fst) (channels.map Prod.snd))

/-- d7a/system_files/phy_status.py 88-90: round `counter` of the loop; IndexError beyond the end of a
list -/
def iterChannel (f : PhyStatusFile) (counter : Nat) : Gen :=
  (match f.channelStatusIdentifier[counter]? with
    | some id => id.iter
    | none => .raise .indexError) ++
  (match f.channelNoiseFloor[counter]? with
    | some v => .int v
    | none => .raise .indexError)

/-- d7a/system_files/phy_status.py 77-90 -/
def iter (f : PhyStatusFile) : Gen :=
  .ofBytes (packU 4 f.upTime) ++ .ofBytes (packU 4 f.rxTime) ++ .ofBytes (packU 4 f.txTime) ++
  .ofBytes (packU 2 f.txDutyCycle) ++ .int f.channelStatusListLength ++
  .concat ((List.range f.channelStatusListLength.toNat).map f.iterChannel)

/-- d7a/system_files/phy_status.py 42: the two default argument lists, evaluated once, which live as
long as the class. -/
structure Defaults where
  ids : List ChannelStatusIdentifier
  floors : List Int
  deriving DecidableEq, Repr

/-- The arguments of a constructor call; `none` when a list is not passed. -/
structure Call where
  upTime : Int := 0
  rxTime : Int := 0
  txTime : Int := 0
  txDutyCycle : Int := 0
  listLength : Int := 0
  ids : Option (List ChannelStatusIdentifier) := none
  floors : Option (List Int) := none
  deriving DecidableEq, Repr

/-- The list of an attribute: one passed by the caller, or the shared default list. -/
inductive Ref (α : Type) where
  | own (l : List α)
  | shared
  deriving DecidableEq, Repr

/-- The list object `__init__` works on. -/
def Ref.of {α : Type} : Option (List α) → Ref α
  | some l => .own l
  | none => .shared

/-- d7a/system_files/phy_status.py 50-51, 54-55 on a list object: extending the shared list changes
the default. Returns the reference and the new default list. -/
def Ref.extend {α : Type} (r : Ref α) (dflt : List α) (n : Int) (x : α) : Ref α × List α :=
  match r with
  | .own l => (.own (PhyStatusFile.extend l n x), dflt)
  | .shared => (.shared, PhyStatusFile.extend dflt n x)

/-- The current content of a list attribute. -/
def Ref.get {α : Type} (r : Ref α) (dflt : List α) : List α :=
  match r with
  | .own l => l
  | .shared => dflt

/-- A constructed object, its list attributes possibly being the shared lists. -/
structure Obj where
  upTime : Int
  rxTime : Int
  txTime : Int
  txDutyCycle : Int
  listLength : Int
  ids : Ref ChannelStatusIdentifier
  floors : Ref Int
  deriving DecidableEq, Repr

/-- What reading the attributes of an object gives at a given moment. -/
def Obj.view (o : Obj) (d : Defaults) : PhyStatusFile :=
  ⟨o.upTime, o.rxTime, o.txTime, o.txDutyCycle, o.listLength, o.ids.get d.ids,
    o.floors.get d.floors⟩

/-- d7a/system_files/phy_status.py 42-58: a constructor call in a program where the default lists
currently are `d`: the new default lists, and the object or the exception of the validation. -/
def call (d : Defaults) (c : Call) : Defaults × Except PyErr Obj :=
  let ids := (Ref.of c.ids).extend d.ids c.listLength .default
  let floors := (Ref.of c.floors).extend d.floors c.listLength 0
  let d' : Defaults := ⟨ids.2, floors.2⟩
  let o : Obj := ⟨c.upTime, c.rxTime, c.txTime, c.txDutyCycle, c.listLength, ids.1, floors.1⟩
  (d', validate (o.view d').Valid o)

/-- The default lists after a sequence of constructor calls, whatever their outcome. -/
def calls (d : Defaults) : List Call → Defaults
  | [] => d
  | c :: cs => calls (call d c).1 cs

/-- d7a/system_files/phy_status.py 42: the default lists when the module is loaded -/
def Defaults.fresh : Defaults := ⟨[], []⟩

end PhyStatusFile

/-! ### d7a/system_files/interface_configuration.py, d7a/system_files/not_implemented.py -/

/-- d7a/system_files/interface_configuration.py 33-47 -/
structure InterfaceConfigurationFile where
  interfaceConfiguration : InterfaceConfiguration
  fileId : Int
  deriving DecidableEq, Repr

namespace InterfaceConfigurationFile

/-- d7a/system_files/interface_configuration.py 49-51 -/
def iter (f : InterfaceConfigurationFile) : Gen := f.interfaceConfiguration.iter

/-- d7a/system_files/interface_configuration.py 41-46: the `length` attribute; `File.__init__` is not
called for the other interfaces, so reading `length` is an AttributeError. -/
def length (f : InterfaceConfigurationFile) : Except PyErr Int :=
  match f.interfaceConfiguration.interfaceId with
  | .D7ASP => .ok 13
  | .LORAWAN_OTAA => .ok 36
  | .LORAWAN_ABP => .ok 44
  | _ => .error .attributeError

/-- d7a/system_files/interface_configuration.py 41-46: the `id` attribute -/
def id (f : InterfaceConfigurationFile) : Except PyErr Int :=
  match f.interfaceConfiguration.interfaceId with
  | .D7ASP => .ok f.fileId
  | .LORAWAN_OTAA => .ok f.fileId
  | .LORAWAN_ABP => .ok f.fileId
  | _ => .error .attributeError

end InterfaceConfigurationFile

/-- A `file_id` argument: an integer or a `SystemFileIds` member. -/
inductive FileIdArg
  | int (i : Int)
  | enum (value : Int)
  deriving DecidableEq, Repr

/-- d7a/system_files/not_implemented.py 31-39 (the name is not modelled) -/
structure NotImplementedFile where
  id : FileIdArg
  length : Int
  data : List Int
  deriving DecidableEq, Repr

namespace NotImplementedFile

/-- d7a/system_files/not_implemented.py 32-39 -/
def new (id : FileIdArg) (length : Int) (data : Option (List Int)) : NotImplementedFile :=
  ⟨id, length, match data with
    | some d => d
    | none => List.replicate length.toNat 0⟩

/-- d7a/system_files/not_implemented.py 41-43 -/
def iter (f : NotImplementedFile) : Gen := .concat (f.data.map Gen.int)

end NotImplementedFile
end Verif
