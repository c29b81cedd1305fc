import Verif.Model.Dll
import Verif.Spec.Layout

/-! Specification vocabulary for DLL frames: the layout of the frames on air, written down from the
D7A frame format, and sequences of calls. -/

namespace Verif.Dll

open Verif

/-- The content of a foreground frame in the supported feature set: no hopping, no network layer
security, no acknowledgement template and no acknowledgement record. -/
structure Air where
  subnet : UInt8
  targetType : IdType
  eirp : Nat
  target : List UInt8
  /-- the origin access id, with its type; `none`: no origin access id -/
  origin : Option (IdType × List UInt8)
  /-- the id type bits when there is no origin access id -/
  unusedIdType : IdType
  accessClass : UInt8
  dialogStart : Bool
  rfu : Bool
  ackRequested : Bool
  dialogId : UInt8
  transactionId : UInt8
  agc : Option Nat
  tl : Option CT
  te : Option CT
  tc : Option CT
  alp : List UInt8
  crc : UInt8 × UInt8

/-- The number of bytes of an id of this type in a frame. -/
def idBytes : IdType → Nat
  | .VID => 2
  | .UID => 8
  | _ => 0

/-- The constraints of the format: field widths, addresses of the right size, VID or UID as origin,
Tc exactly in dialog-starting frames that request an acknowledgement, AGC levels up to 31. -/
structure Air.Valid (a : Air) : Prop where
  eirp : a.eirp < 64
  target : a.target.length = idBytes a.targetType
  origin : ∀ t id, a.origin = some (t, id) → (t = .VID ∨ t = .UID) ∧ id.length = idBytes t
  agc : ∀ g, a.agc = some g → g ≤ 31
  tl : ∀ c, a.tl = some c → c.Built
  te : ∀ c, a.te = some c → c.Built
  tc : ∀ c, a.tc = some c → c.Built
  tcPresent : a.tc.isSome = (a.ackRequested && a.dialogStart)

/-- A byte string as fields. -/
def bytesF (l : List UInt8) : List (Nat × Nat) := l.map fun b => (8, b.toNat)

/-- An optional compressed time as fields. -/
def ctF : Option CT → List (Nat × Nat)
  | none => []
  | some c => c.fields

/-- An optional AGC level as fields. -/
def agcF : Option Nat → List (Nat × Nat)
  | none => []
  | some g => [(8, g)]

/-- The id type bits of the network layer control byte. -/
def Air.originType (a : Air) : IdType :=
  match a.origin with
  | some (t, _) => t
  | none => a.unusedIdType

/-- The bytes of the origin access id. -/
def Air.originId (a : Air) : List UInt8 :=
  match a.origin with
  | some (_, id) => id
  | none => []

/-- Everything after the length byte. -/
def Air.body (a : Air) : List (Nat × Nat) :=
  [(8, a.subnet.toNat), (2, a.targetType.code), (6, a.eirp)] ++ bytesF a.target ++
  [flag a.origin.isNone, (1, 0), (2, a.originType.code), (4, 0), (8, a.accessClass.toNat)] ++
  bytesF a.originId ++
  [flag a.dialogStart, flag a.rfu, flag a.tl.isSome, flag a.te.isSome, flag a.ackRequested,
   flag false, flag false, flag a.agc.isSome, (8, a.dialogId.toNat), (8, a.transactionId.toNat)] ++
  agcF a.agc ++ ctF a.tl ++ ctF a.te ++ ctF a.tc ++ bytesF a.alp ++ bytesF [a.crc.1, a.crc.2]

/-- The number of bytes after the length byte. -/
def Air.length (a : Air) : Nat := (fieldBits a.body).length / 8

/-- The bytes of the frame: its length byte and the fields. -/
def Air.bytes (a : Air) : List UInt8 :=
  UInt8.ofNat a.length :: bitsToBytes (fieldBits a.body)

/-- The frame object that stands for this content with this ALP command. -/
def Air.frame (a : Air) (command : Command) : ForegroundFrame where
  length := a.length
  subnet := a.subnet.toNat
  control := ⟨a.targetType, a.eirp⟩
  targetAddress := a.target.map fun b => (b.toNat : Int)
  d7anpFrame :=
    { control := ⟨a.origin.isNone, false, a.originType, .NONE⟩
      originAccessClass := a.accessClass.toNat
      originAccessId := a.originId.map fun b => (b.toNat : Int)
      d7atpFrame :=
        { control := ⟨a.dialogStart, a.tl.isSome, a.te.isSome, a.ackRequested, false, false,
            a.agc.isSome⟩
          dialogId := a.dialogId.toNat
          transactionId := a.transactionId.toNat
          agcRxLevelI := a.agc.getD 10
          tl := a.tl
          te := a.te
          tc := a.tc
          ackTemplate := none
          alpCommand := command } }
  crc16 := 256 * a.crc.1.toNat + a.crc.2.toNat

/-- The content of a background frame. -/
structure BgAir where
  subnet : UInt8
  idType : IdType
  tag : Nat
  payload : UInt8 × UInt8
  crc : UInt8 × UInt8

/-- The bytes of a background frame. -/
def BgAir.bytes (a : BgAir) : List UInt8 :=
  [a.subnet, UInt8.ofNat (64 * a.idType.code + a.tag), a.payload.1, a.payload.2, a.crc.1, a.crc.2]

/-- The object that stands for a background frame. -/
def BgAir.frame (a : BgAir) : BackgroundFrame :=
  ⟨a.subnet.toNat, ⟨a.idType, a.tag⟩, 256 * a.payload.1.toNat + a.payload.2.toNat,
    256 * a.crc.1.toNat + a.crc.2.toNat⟩

/-- The frames that can be received, of both types: their bytes and the object that stands for them.
The length and subnet bytes are below 128 (C41) and the ALP part of a foreground frame is read by
the ALP parser, on its own, completely and without an exception. -/
inductive OnAir : FrameType → List UInt8 → Frame → Prop
  | foreground (a : Air) (command : Command) (valid : a.Valid) (length : a.length < 128)
      (subnet : a.subnet.toNat < 128)
      (alp : AlpParser.parse a.alp.length (stream a.alp) = .ok command ⟨8 * a.alp.length, []⟩) :
      OnAir .FOREGROUND a.bytes (.foreground (a.frame command))
  | background (a : BgAir) (tag : a.tag < 64) (subnet : a.subnet.toNat < 128) :
      OnAir .BACKGROUND a.bytes (.background a.frame)

/-- Calling `parse` with one chunk after the other: the final parser and the frames returned (without
the `None`s), or the exception of the call that raised. -/
def feed (p : Parser) : List (List UInt8) → Except PyErr (Parser × List Frame)
  | [] => .ok (p, [])
  | chunk :: chunks =>
    match p.parse chunk with
    | (_, .error e) => .error e
    | (q, .ok o) =>
      match feed q chunks with
      | .error e => .error e
      | .ok (r, fs) => .ok (r, o.frames.filterMap id ++ fs)

end Verif.Dll
