import Verif.Spec.ModemWrite

/-! Specification of a device at the other end of the serial line that keeps files, and of the modem and such a
device together. Nothing here is code of the repository except the modem inside `Loop` (Model/Modem.lean): the
device is written from the ALP format. -/

namespace Verif.Modem

open Verif Verif.Serial

/-- What can be asked of the device: part of a file, or a change of a part of a file. -/
inductive FileOp
  | read (file : UInt8) (offset length : Nat)
  | write (file : UInt8) (offset : Nat) (data : List UInt8)
  deriving DecidableEq, Repr

/-- Numbers have at most 30 bits; there is something to write. -/
def FileOp.Valid : FileOp → Prop
  | .read _ offset length => offset < 2 ^ 30 ∧ length < 2 ^ 30
  | .write _ offset data => offset < 2 ^ 30 ∧ data ≠ [] ∧ data.length < 2 ^ 30

/-- The ALP action for it. -/
def FileOp.action : FileOp → Action
  | .read file offset length => .regular false false (.readFileData ⟨⟨file.toNat, ⟨offset⟩⟩, ⟨length⟩⟩)
  | .write file offset data =>
    .regular false false (.writeFileData ⟨⟨file.toNat, ⟨offset⟩⟩, ⟨data.length⟩, data.map fun b => (b.toNat : Int)⟩)

/-- The command with these actions and this tag. -/
def request (tag : UInt8) (ops : List FileOp) : Command where
  actions := ops.map FileOp.action
  interfaceStatus := none
  generateTagRequestAction := true
  tagId := some tag.toNat
  sendTagResponseWhenCompleted := true
  executionCompleted := false
  completedWithError := none

/-- A number in ALP: the two highest bits tell how many bytes follow the first. -/
def encode (n : Nat) : List UInt8 :=
  if n < 2 ^ 6 then [UInt8.ofNat n]
  else if n < 2 ^ 14 then [UInt8.ofNat (0x40 + n / 2 ^ 8), UInt8.ofNat n]
  else if n < 2 ^ 22 then [UInt8.ofNat (0x80 + n / 2 ^ 16), UInt8.ofNat (n / 2 ^ 8), UInt8.ofNat n]
  else [UInt8.ofNat (0xC0 + n / 2 ^ 24), UInt8.ofNat (n / 2 ^ 16), UInt8.ofNat (n / 2 ^ 8), UInt8.ofNat n]

/-- Reading such a number; the bytes after it are left. -/
def decode : List UInt8 → Option (Nat × List UInt8)
  | [] => none
  | b :: bs =>
    let k := b.toNat / 64
    if bs.length < k then none
    else some ((bs.take k).foldl (fun n x => n * 256 + x.toNat) (b.toNat % 64), bs.drop k)

/-- Action 1 asks for file data, action 4 brings file data to write. `fuel` bounds the number of actions. -/
def decodeOps (fuel : Nat) (bytes : List UInt8) : Option (List FileOp) :=
  match fuel, bytes with
  | _, [] => some []
  | 0, _ => none
  | fuel + 1, op :: file :: bs =>
    match decode bs with
    | none => none
    | some (offset, bs) =>
      match decode bs with
      | none => none
      | some (length, bs) =>
        if op = 0x01 then (decodeOps fuel bs).map (.read file offset length :: ·)
        else if op = 0x04 ∧ length ≤ bs.length then
          (decodeOps fuel (bs.drop length)).map (.write file offset (bs.take length) :: ·)
        else none
  | _, _ => none

/-- A device that keeps files: what it returns when a part of a file is read, and its content after a write. -/
structure Device (D : Type) where
  read : D → (file : UInt8) → (offset length : Nat) → List UInt8
  write : D → (file : UInt8) → (offset : Nat) → (data : List UInt8) → D

namespace Device

variable {D : Type} (dev : Device D)

/-- The content after one operation. -/
def exec (d : D) : FileOp → D
  | .read _ _ _ => d
  | .write file offset data => dev.write d file offset data

/-- The content after several operations. -/
def after (d : D) (ops : List FileOp) : D := ops.foldl dev.exec d

/-- What is read by a sequence of operations: file, offset and data. -/
def results (d : D) : List FileOp → List (UInt8 × Nat × List UInt8)
  | [] => []
  | .read file offset length :: ops => (file, offset, dev.read d file offset length) :: results d ops
  | .write file offset data :: ops => results (dev.write d file offset data) ops

end Device

/-- Action 0x20 returns file data. -/
def returned (x : UInt8 × Nat × List UInt8) : List UInt8 :=
  [0x20, x.1] ++ encode x.2.1 ++ encode x.2.2.length ++ x.2.2

/-- The answer: the tag with the end-of-processing flag (0xA3), then the data. -/
def answer (tag : UInt8) (rs : List (UInt8 × Nat × List UInt8)) : List UInt8 :=
  [0xA3, tag] ++ (rs.map returned).flatten

/-- The answer as the application sees it. -/
def answered (tag : UInt8) (rs : List (UInt8 × Nat × List UInt8)) : Command where
  actions := rs.map fun x => .regular false false (.returnFileData
    ⟨⟨x.1.toNat, ⟨x.2.1⟩⟩, ⟨x.2.2.length⟩, x.2.2.map fun b => (b.toNat : Int)⟩)
  interfaceStatus := none
  generateTagRequestAction := false
  tagId := some tag.toNat
  sendTagResponseWhenCompleted := true
  executionCompleted := true
  completedWithError := some false

/-- What the device does with the payload of a frame: a tag request with the flag that asks for a response (0xB4),
then operations. The answer is sent if it fits in a frame; anything else is ignored. -/
def Device.serve {D : Type} (dev : Device D) (d : D) : List UInt8 → D × Option (List UInt8)
  | 0xB4 :: tag :: bs =>
    match decodeOps bs.length bs with
    | none => (d, none)
    | some ops =>
      let a := answer tag (dev.results d ops)
      (dev.after d ops, if a.length ≤ 255 then some a else none)
  | _ => (d, none)

/-- The payload of the ALP frame at the beginning of the bytes, if it is complete and correct. -/
def nextFrame : List UInt8 → Option (List UInt8)
  | 0xC0 :: 0 :: counter :: 1 :: length :: c1 :: c2 :: bs =>
    let payload := bs.take length.toNat
    if [0xC0, 0, counter, 1, length, c1, c2] ++ payload = frame counter 1 payload then some payload else none
  | _ => none

/-- Modem and device: `taken` is the number of bytes written by the modem that the device has processed, `line`
are the bytes sent by the device that the modem has not read. -/
structure Loop (D : Type) where
  modem : State
  data : D
  taken : Nat
  line : List UInt8

/-- What happens next: the application calls a method; one of the modem's threads makes a step; the modem reads
`n` bytes; the device processes a frame (and numbers its own as it likes). No call times out, the line does not
fail. -/
inductive LoopEvent
  | call (c : Call)
  | main
  | reader
  | read (n : Nat)
  | device (counter : UInt8)
  deriving DecidableEq, Repr

namespace Loop

variable {D : Type}

/-- A new modem and a device with this content. -/
def start (config : Config) (d : D) : Loop D := ⟨init config, d, 0, []⟩

/-- One step; `none` if the event cannot happen. -/
def step (dev : Device D) (s : Loop D) : LoopEvent → Option (Loop D)
  | .call c => (s.modem.step (.call c)).map fun m => { s with modem := m }
  | .main => (s.modem.step .main).map fun m => { s with modem := m }
  | .reader => (s.modem.step .reader).map fun m => { s with modem := m }
  | .read n =>
    if 0 < n ∧ n ≤ s.line.length then
      (s.modem.step (.rx (s.line.take n))).map fun m => { s with modem := m, line := s.line.drop n }
    else none
  | .device counter =>
    match nextFrame (s.modem.written.drop s.taken) with
    | none => none
    | some payload => some { s with
        taken := s.taken + 7 + payload.length
        data := (dev.serve s.data payload).1
        line := s.line ++ (match (dev.serve s.data payload).2 with
          | some a => frame counter 1 a
          | none => []) }

/-- A sequence of steps. -/
def run (dev : Device D) (s : Loop D) : List LoopEvent → Option (Loop D)
  | [] => some s
  | e :: es => (s.step dev e).bind fun s => s.run dev es

end Loop

/-- The calls considered: commands of file operations that are executed with a positive timeout, and all the other
methods. -/
def Proper : LoopEvent → Prop
  | .call (.execute c timeout) => 0 < timeout ∧ ∃ tag ops, (∀ op ∈ ops, op.Valid) ∧ c = request tag ops
  | _ => True

/-- What `connect` reads: 8 bytes of file 0 and 17 bytes of file 2. -/
def identification : List FileOp := [.read 0 0 8, .read 2 0 17]

/-- The call asks the device for these operations. -/
inductive Asks : Call → UInt8 → List FileOp → Prop
  | execute (tag : UInt8) (ops : List FileOp) (timeout : Int) : 0 < timeout → (∀ op ∈ ops, op.Valid) →
      Asks (.execute (request tag ops) timeout) tag ops
  | connect (tag : UInt8) : Asks (.connect true tag) tag identification

/-- The bytes of a command of file operations. -/
def FileOp.bytes : FileOp → List UInt8
  | .read file offset length => [0x01, file] ++ encode offset ++ encode length
  | .write file offset data => [0x04, file] ++ encode offset ++ encode data.length ++ data

def requestBytes (tag : UInt8) (ops : List FileOp) : List UInt8 := [0xB4, tag] ++ (ops.map FileOp.bytes).flatten

/-- The version that 17 bytes describe: four numbers, a name of 6 and one of 7 ASCII characters. -/
def versionOf : List UInt8 → Option FirmwareVersionFile
  | a :: b :: c :: d :: bs =>
    if 13 ≤ bs.length ∧ ∀ x ∈ bs.take 13, x.toNat < 128 then
      some ⟨a.toNat, b.toNat, c.toNat, d.toNat, (bs.take 6).map UInt8.toNat, ((bs.drop 6).take 7).map UInt8.toNat⟩
    else none
  | _ => none

/-- The operations asked for by the calls in these events, in order; calls with a command that does not fit in a
frame ask for nothing. -/
inductive Commanded : List LoopEvent → List FileOp → Prop
  | nil : Commanded [] []
  | execute (tag : UInt8) (ops : List FileOp) (timeout : Int) (es : List LoopEvent) (rest : List FileOp) :
      0 < timeout → (∀ op ∈ ops, op.Valid) → (requestBytes tag ops).length ≤ 255 → Commanded es rest →
      Commanded (.call (.execute (request tag ops) timeout) :: es) (ops ++ rest)
  | long (tag : UInt8) (ops : List FileOp) (timeout : Int) (es : List LoopEvent) (rest : List FileOp) :
      0 < timeout → (∀ op ∈ ops, op.Valid) → 255 < (requestBytes tag ops).length → Commanded es rest →
      Commanded (.call (.execute (request tag ops) timeout) :: es) rest
  | other (e : LoopEvent) (es : List LoopEvent) (rest : List FileOp) :
      (∀ c t, e ≠ .call (.execute c t)) → Commanded es rest → Commanded (e :: es) rest

/-- The operation does not change this part of the file. -/
def FileOp.Apart (file : UInt8) (offset length : Nat) : FileOp → Prop
  | .read _ _ _ => True
  | .write f o data => f ≠ file ∨ o + data.length ≤ offset ∨ offset + length ≤ o

/-- A device that keeps a byte for each file and offset. -/
def memory : Device (UInt8 → Nat → UInt8) where
  read d file offset length := (List.range length).map fun i => d file (offset + i)
  write d file offset data := fun f o =>
    if f = file ∧ offset ≤ o ∧ o < offset + data.length then (data[o - offset]?).getD 0 else d f o

end Verif.Modem
