import Verif.Model.D7anp

/-! Model of d7a/dll/foreground_frame_control.py, background_frame_control.py, foreground_frame.py,
background_frame.py and parser.py -/

namespace Verif.Dll

open Verif

/-- d7a/dll/foreground_frame_control.py 27-37 -/
structure ForegroundFrameControl where
  idType : IdType
  eirpIndex : Int
  deriving DecidableEq, Repr

/-- d7a/dll/foreground_frame_control.py 29-37 -/
def ForegroundFrameControl.new (idType : IdType) (eirpIndex : Int) :
    Except PyErr ForegroundFrameControl :=
  validate (0 ≤ eirpIndex ∧ eirpIndex ≤ 63) ⟨idType, eirpIndex⟩

/-- d7a/dll/foreground_frame_control.py 39-46 -/
def ForegroundFrameControl.parse : P ForegroundFrameControl := do
  let t ← P.uint 2
  let t ← P.lift (IdType.ofValue t)
  let e ← P.uint 6
  P.lift (ForegroundFrameControl.new t e)

/-- d7a/dll/foreground_frame_control.py 48-52 -/
def ForegroundFrameControl.iter (c : ForegroundFrameControl) : Gen :=
  let byte : Int := 0
  let byte := Int.lor byte (c.idType.value <<ₚ 6)
  .int (byte + c.eirpIndex)

/-- d7a/dll/background_frame_control.py 27-37 -/
structure BackgroundFrameControl where
  idType : IdType
  tag : Int
  deriving DecidableEq, Repr

/-- d7a/dll/background_frame_control.py 29-37 -/
def BackgroundFrameControl.new (idType : IdType) (tag : Int) :
    Except PyErr BackgroundFrameControl :=
  validate (0 ≤ tag ∧ tag ≤ 63) ⟨idType, tag⟩

/-- d7a/dll/background_frame_control.py 39-46 -/
def BackgroundFrameControl.parse : P BackgroundFrameControl := do
  let t ← P.uint 2
  let t ← P.lift (IdType.ofValue t)
  let e ← P.uint 6
  P.lift (BackgroundFrameControl.new t e)

/-- d7a/dll/background_frame_control.py 48-52 -/
def BackgroundFrameControl.iter (c : BackgroundFrameControl) : Gen :=
  let byte : Int := 0
  let byte := Int.lor byte (c.idType.value <<ₚ 6)
  .int (byte + c.tag)

/-- d7a/dll/foreground_frame.py 32-52 -/
structure ForegroundFrame where
  length : Int
  subnet : Int
  control : ForegroundFrameControl
  targetAddress : List Int
  d7anpFrame : D7anp.Frame
  crc16 : Int
  deriving DecidableEq

/-- d7a/dll/foreground_frame.py 34-52 (`BITS(16)` allows 0..2^16-1). -/
def ForegroundFrame.new (length subnet : Int) (control : ForegroundFrameControl)
    (targetAddress : List Int) (d7anpFrame : D7anp.Frame) (crc16 : Int) :
    Except PyErr ForegroundFrame :=
  validate (isByte length ∧ isByte subnet ∧ isBytes targetAddress ∧
    (0 ≤ crc16 ∧ crc16 ≤ 2 ^ 16 - 1)) ⟨length, subnet, control, targetAddress, d7anpFrame, crc16⟩

/-- d7a/dll/foreground_frame.py 70-77: `map(ord, ...)` of the target address. -/
def parseTarget : IdType → P (List Int)
  | .VID => do
    let b ← P.bytes 2
    return ords b
  | .UID => do
    let b ← P.bytes 8
    return ords b
  | _ => return []

/-- d7a/dll/foreground_frame.py 69-77: the number subtracted from `length`. -/
def overhead : IdType → Int
  | .VID => 6
  | .UID => 12
  | _ => 4

/-- d7a/dll/foreground_frame.py 64-86; `length` and `subnet` are read as signed numbers. -/
def ForegroundFrame.parse : P ForegroundFrame := do
  let length ← P.sint 8
  let subnet ← P.sint 8
  let control ← ForegroundFrameControl.parse
  let target ← parseTarget control.idType
  let np ← D7anp.Frame.parse (length - overhead control.idType)
  let crc ← P.uint 16
  P.lift (ForegroundFrame.new length subnet control target np crc)

/-- d7a/dll/foreground_frame.py 89-95 -/
def ForegroundFrame.iter (f : ForegroundFrame) : Gen :=
  .int f.length ++ .int f.subnet ++ f.control.iter ++ .concat (f.targetAddress.map .int) ++
  f.d7anpFrame.iter ++ .int f.crc16

/-- d7a/dll/background_frame.py 32-48 -/
structure BackgroundFrame where
  subnet : Int
  control : BackgroundFrameControl
  payload : Int
  crc16 : Int
  deriving DecidableEq, Repr

/-- d7a/dll/background_frame.py 34-48 -/
def BackgroundFrame.new (subnet : Int) (control : BackgroundFrameControl) (payload crc16 : Int) :
    Except PyErr BackgroundFrame :=
  validate (isByte subnet ∧ (0 ≤ payload ∧ payload ≤ 2 ^ 16 - 1) ∧
    (0 ≤ crc16 ∧ crc16 ≤ 2 ^ 16 - 1)) ⟨subnet, control, payload, crc16⟩

/-- d7a/dll/background_frame.py 60-72 -/
def BackgroundFrame.parse : P BackgroundFrame := do
  let subnet ← P.sint 8
  let control ← BackgroundFrameControl.parse
  let payload ← P.uint 16
  let crc ← P.uint 16
  P.lift (BackgroundFrame.new subnet control payload crc)

/-- d7a/dll/background_frame.py 75-79: the payload is an int, iterating over it is a TypeError. -/
def BackgroundFrame.iter (f : BackgroundFrame) : Gen :=
  .int f.subnet ++ f.control.iter ++ .raise .typeError

/-- d7a/dll/parser.py 33-35 -/
inductive FrameType | FOREGROUND | BACKGROUND
  deriving DecidableEq, Repr

/-- What the parser returns: a ForegroundFrame or a BackgroundFrame object. -/
inductive Frame
  | foreground (f : ForegroundFrame)
  | background (f : BackgroundFrame)
  deriving DecidableEq

/-- d7a/dll/parser.py 76-79 -/
def parseFrame : FrameType → P Frame
  | .FOREGROUND => do
    let f ← ForegroundFrame.parse
    return .foreground f
  | .BACKGROUND => do
    let f ← BackgroundFrame.parse
    return .background f

/-- d7a/dll/parser.py 37-41. The buffer is a list of ints 0..255. -/
structure Parser where
  buffer : List UInt8
  frameType : FrameType
  deriving DecidableEq, Repr

/-- d7a/dll/parser.py 39-41 -/
def Parser.new (frameType : FrameType) : Parser := ⟨[], frameType⟩

/-- What `parse` returns: the frames (`none` is Python's `None`), `info["parsed"]` and
`info["buffer"]`. `info["errors"]` is always empty (see `parseOne`). -/
structure Output where
  frames : List (Option Frame)
  parsed : Nat
  buffer : Nat
  deriving DecidableEq

/-- d7a/dll/parser.py 68-98. The only other exception that is caught is the `ParseError` class of
this module, which nothing raises (the ALP parser raises the one of d7a/parse_error.py); so the loop
body runs at most once and every exception but ReadError propagates, leaving the buffer as it is. -/
def Parser.parseOne (p : Parser) : Parser × Except PyErr (Option Frame × Nat) :=
  if p.buffer.length > 0 then
    match parseFrame p.frameType (stream p.buffer) with
    | .ok f s => ({ p with buffer := p.buffer.drop (s.pos / 8) }, .ok (some f, s.pos))
    | .err .readError _ => (p, .ok (none, 0))
    | .err e _ => (p, .error e)
  else (p, .ok (none, 0))

/-- d7a/dll/parser.py 47-62: one frame (or `None`) per call. -/
def Parser.parseBuffer (p : Parser) : Parser × Except PyErr Output :=
  match p.parseOne with
  | (q, .ok (f, n)) => (q, .ok ⟨[f], n, q.buffer.length * 8⟩)
  | (q, .error e) => (q, .error e)

/-- d7a/dll/parser.py 43-45 -/
def Parser.parse (p : Parser) (frame : List UInt8) : Parser × Except PyErr Output :=
  { p with buffer := p.buffer ++ frame }.parseBuffer

end Verif.Dll
