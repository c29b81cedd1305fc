import Verif.Model.Serial

/-! Specification vocabulary for the serial interface. -/

namespace Verif.Serial

open Verif

/-- The bytes of a serial frame: sync byte, version, counter, message type, payload length,
CRC-16/CCITT-FALSE of the payload, payload. -/
def frame (counter type : UInt8) (payload : List UInt8) : List UInt8 :=
  [0xC0, 0, counter, type, UInt8.ofNat payload.length, (Crc.calculateCrc payload).1,
    (Crc.calculateCrc payload).2] ++ payload

/-- What a frame with this type and payload means to a parser (`skip`: `skip_alp_parsing`): the
payload is exactly one reboot reason, a log text, an uninterpreted payload or an ALP command. -/
inductive Carries (skip : Bool) : UInt8 → List UInt8 → Msg → Prop
  | rebooted (reason : UInt8) : Carries skip 5 [reason] (.rebooted reason.toNat)
  | logging (payload : List UInt8) : Carries skip 4 payload (.bytes payload)
  | raw (type : UInt8) (payload : List UInt8) : skip = true → type ≠ 4 → type ≠ 5 →
      Carries skip type payload (.bytes payload)
  | alp (type : UInt8) (payload : List UInt8) (c : Command) : skip = false → type ≠ 4 → type ≠ 5 →
      AlpParser.parse payload.length (stream payload) = .ok c ⟨8 * payload.length, []⟩ →
      Carries skip type payload (.command c)

/-- Calling `parse` with one chunk after the other: the final parser, everything delivered and all
reported errors, or the exception of the call that raised. -/
def feed (p : Parser) :
    List (List UInt8) → Except PyErr (Parser × List (Int × Msg) × List ErrorInfo)
  | [] => .ok (p, [], [])
  | chunk :: chunks =>
    match p.parse chunk with
    | (_, .error e) => .error e
    | (q, .ok o) =>
      match feed q chunks with
      | .error e => .error e
      | .ok (r, ms, es) => .ok (r, o.cmds ++ ms, o.errors ++ es)

/-- A frame together with what it means. -/
structure Sent where
  counter : UInt8
  type : UInt8
  payload : List UInt8
  msg : Msg

/-- The bytes of the frame. -/
def Sent.bytes (f : Sent) : List UInt8 := frame f.counter f.type f.payload

/-- The payload fits the length byte and means `msg`. -/
def Sent.Valid (skip : Bool) (f : Sent) : Prop :=
  f.payload.length ≤ 255 ∧ Carries skip f.type f.payload f.msg

/-- The frame as delivered. -/
def Sent.delivered (f : Sent) : Int × Msg := (f.type.toNat, f.msg)

/-- Building one frame after the other: the final parser and the frames, or the first exception. -/
def buildAll (p : Parser) : List Gen → Except PyErr (Parser × List (List UInt8))
  | [] => .ok (p, [])
  | g :: gs =>
    match p.buildSerialFrame g with
    | (_, .error e) => .error e
    | (q, .ok f) =>
      match buildAll q gs with
      | .error e => .error e
      | .ok (r, fs) => .ok (r, f :: fs)

/-- Something done with a Parser object. -/
inductive Op
  | build (command : Gen)
  | receive (bytes : List UInt8)

/-- The frames built (successfully) in a sequence of uses of a Parser object. -/
def built (p : Parser) : List Op → List (List UInt8)
  | [] => []
  | .build g :: ops =>
    match p.buildSerialFrame g with
    | (q, .ok f) => f :: built q ops
    | (q, .error _) => built q ops
  | .receive b :: ops => built (p.parse b).1 ops

/-- How a frame of this type with `length` payload bytes is read when `data` are all bytes after the
header: the message and the number of bytes of `data` it takes. -/
inductive Reading (skip : Bool) (type : UInt8) (length : Nat) : List UInt8 → Msg → Nat → Prop
  | rebooted (reason : UInt8) (more : List UInt8) : type = 5 →
      Reading skip type length (reason :: more) (.rebooted reason.toNat) 1
  | bytes (payload more : List UInt8) : payload.length = length → type = 4 ∨ skip = true ∧ type ≠ 5 →
      Reading skip type length (payload ++ more) (.bytes payload) length
  | alp (taken more : List UInt8) (c : Command) : type ≠ 4 → type ≠ 5 → skip = false →
      AlpParser.parse length (stream (taken ++ more)) =
        .ok c ⟨8 * taken.length, bytesToBits more⟩ →
      Reading skip type length (taken ++ more) (.command c) taken.length

/-- `Deliveries skip input ms rest`: the input consists of skipped bytes, CRC-valid frames giving the
messages `ms` in this order, and a tail; what remains is `rest`. The next frame is looked for after
the bytes taken by the previous one. -/
inductive Deliveries (skip : Bool) : List UInt8 → List (Int × Msg) → List UInt8 → Prop
  | done (gap rest : List UInt8) : Deliveries skip (gap ++ rest) [] rest
  | next (gap : List UInt8) (counter type : UInt8) (payload after taken more : List UInt8) (m : Msg)
      (ms : List (Int × Msg)) (rest : List UInt8) :
      payload.length ≤ 255 → payload ++ after = taken ++ more →
      Reading skip type payload.length (payload ++ after) m taken.length →
      Deliveries skip more ms rest →
      Deliveries skip (gap ++ frame counter type payload ++ after) ((type.toNat, m) :: ms) rest

end Verif.Serial
