import Verif.Model.AlpParser
import Verif.Model.Crc

/-! Model of d7a/serial_modem_interface/parser.py -/

namespace Verif.Serial

open Verif

/-- d7a/serial_modem_interface/parser.py 46-51: the attributes of a Parser. -/
structure Parser where
  buffer : List UInt8
  skipAlpParsing : Bool
  upCounter : Int
  downCounter : Int
  errorCounter : Int
  deriving DecidableEq, Repr

/-- d7a/serial_modem_interface/parser.py 46-51 -/
def Parser.new (skipAlpParsing : Bool) : Parser := ⟨[], skipAlpParsing, 0, 0, 0⟩

/-- The objects delivered as `cmd`: an ALP command, a byte string (logging, or a payload in
`skip_alp_parsing` mode), or the reason of a reboot. -/
inductive Msg
  | command (c : Command)
  | bytes (b : List UInt8)
  | rebooted (reason : Int)
  deriving DecidableEq, Repr

/-- d7a/serial_modem_interface/parser.py 124-129: an entry of `errors`. The text `e.args[0]` is
represented by the exception itself; the hex dump by the bytes. -/
structure ErrorInfo where
  error : PyErr
  buffer : List UInt8
  pos : Nat
  skipped : Nat
  deriving DecidableEq, Repr

/-- d7a/serial_modem_interface/parser.py 154-164: the five header fields
(counter, message type, length, crc1, crc2). -/
def headerFields : P (Int × Int × Int × Int × Int) := do
  let b ← P.uint 8
  if b ≠ 0xC0 then P.raise .parseError else
  let version ← P.uint 8
  if version ≠ 0 then P.raise .parseError else
  let counter ← P.uint 8
  let messageType ← P.uint 8
  let cmdLen ← P.uint 8
  let crc1 ← P.uint 8
  let crc2 ← P.uint 8
  return (counter, messageType, cmdLen, crc1, crc2)

/-- d7a/serial_modem_interface/parser.py 169-175: the counter bookkeeping. -/
def Parser.count (p : Parser) (counter : Int) : Parser :=
  let down := p.downCounter + 1
  let down := if down > 255 then 0 else down
  if counter ≠ down then
    { p with errorCounter := p.errorCounter + 1, downCounter := counter }
  else { p with downCounter := down }

/-- d7a/serial_modem_interface/parser.py 153-179: returns (length, message type). The length test
guarantees that the peek at the payload succeeds. -/
def Parser.header (p : Parser) (s : St) : Parser × Res (Nat × Int) :=
  match headerFields s with
  | .err e s => (p, .err e s)
  | .ok (counter, messageType, cmdLen, crc1, crc2) s =>
    if (p.buffer.length : Int) - (s.pos / 8 : Nat) < cmdLen then (p, .err .readError s)
    else match P.bytes cmdLen.toNat s with
      | .err e _ => (p, .err e s)
      | .ok payload _ =>
        let crc := Crc.calculateCrc payload
        let p := p.count counter
        if (crc.1.toNat : Int) ≠ crc1 ∨ (crc.2.toNat : Int) ≠ crc2 then (p, .err .parseError s)
        else (p, .ok (cmdLen.toNat, messageType) s)

/-- d7a/serial_modem_interface/parser.py 105-116: reads the message after the header. (The test
`s.length < cmd_length` of line 111 compares bits with bytes and is implied by the read.) -/
def body (skipAlpParsing : Bool) (cmdLength : Nat) (messageType : Int) : P Msg :=
  if messageType = 5 then do
    let r ← P.uint 8
    return .rebooted r
  else if messageType = 4 then do
    let b ← P.bytes cmdLength
    return .bytes b
  else if skipAlpParsing then do
    let b ← P.bytes cmdLength
    return .bytes b
  else do
    let c ← AlpParser.parse cmdLength
    return .command c

/-- The bytes from the first 0xC0 on. -/
def fromSync : List UInt8 → List UInt8
  | [] => []
  | b :: bs => if b = 0xC0 then b :: bs else fromSync bs

/-- d7a/serial_modem_interface/parser.py 138-150: the remaining buffer and the skipped count. -/
def skipBadBufferContent (buffer : List UInt8) : List UInt8 × Nat :=
  match buffer with
  | [] => ([], 0)
  | _ :: bs =>
    match fromSync bs with
    | [] => ([], bs.length + 1)
    | r => (r, bs.length - r.length + 1)

/-- What one run of the `while` body at lines 101-129 leads to. -/
inductive Step
  | got (messageType : Int) (cmd : Msg) (bitsParsed : Nat)
  | wait
  | bad (info : ErrorInfo)
  | escape (e : PyErr)
  deriving DecidableEq, Repr

/-- Lines 103-116: header and message on the current buffer. -/
def Parser.attempt (p : Parser) : Parser × Res (Int × Msg) :=
  match p.header (stream p.buffer) with
  | (p, .err e s) => (p, .err e s)
  | (p, .ok (cmdLength, messageType) s) =>
    match body p.skipAlpParsing cmdLength messageType s with
    | .err e s => (p, .err e s)
    | .ok m s => (p, .ok (messageType, m) s)

/-- d7a/serial_modem_interface/parser.py 102-129. `e.args[0]` on an exception without arguments
raises IndexError inside the handler, which leaves the method; this happens before the buffer is
skipped. -/
def Parser.step (p : Parser) : Parser × Step :=
  match p.attempt with
  | (p, .ok (t, m) s) => ({ p with buffer := p.buffer.drop (s.pos / 8) }, .got t m s.pos)
  | (p, .err .readError _) => (p, .wait)
  | (p, .err (.assertion false) _) => (p, .escape .indexError)
  | (p, .err e s) =>
    let r := skipBadBufferContent p.buffer
    ({ p with buffer := r.1 }, .bad ⟨e, p.buffer, s.pos, r.2⟩)

/-- d7a/serial_modem_interface/parser.py 131-136: the returned triple; `cmd = none` is `None`. -/
structure One where
  cmd : Option (Int × Msg)
  parsed : Nat
  errors : List ErrorInfo
  deriving DecidableEq, Repr

theorem fromSync_length (l : List UInt8) : (fromSync l).length ≤ l.length := by
  induction l with
  | nil => simp [fromSync]
  | cons b l ih =>
    unfold fromSync
    split
    · simp
    · simp only [List.length_cons]; omega

theorem skip_length {b : List UInt8} (h : b ≠ []) :
    (skipBadBufferContent b).1.length < b.length := by
  match b, h with
  | x :: xs, _ =>
    have := fromSync_length xs
    unfold skipBadBufferContent
    split
    · next h => cases h
    · next y ys h =>
      injection h with h1 h2
      subst h2
      split
      · simp
      · simp only [List.length_cons]; omega

theorem header_buffer (p : Parser) (s : St) : (p.header s).1.buffer = p.buffer := by
  unfold Parser.header
  split
  · rfl
  · split
    · rfl
    · split
      · rfl
      · have : ∀ c, (p.count c).buffer = p.buffer := by
          intro c; unfold Parser.count; simp only; (repeat' split) <;> rfl
        simp only
        split <;> exact this _

theorem attempt_buffer (p : Parser) : p.attempt.1.buffer = p.buffer := by
  have h := header_buffer p (stream p.buffer)
  unfold Parser.attempt
  split
  · next e => rw [e] at h; exact h
  · next e =>
    rw [e] at h
    split <;> exact h

theorem step_bad_length {p : Parser} (hb : p.buffer ≠ []) {p' : Parser} {i : ErrorInfo}
    (h : p.step = (p', .bad i)) : p'.buffer.length < p.buffer.length := by
  have hbuf := attempt_buffer p
  unfold Parser.step at h
  split at h
  · cases h
  · cases h
  · cases h
  · next q e s _ _ heq =>
    rw [heq] at hbuf
    simp only at hbuf
    cases h
    simp only
    rw [hbuf]
    exact skip_length hb

/-- d7a/serial_modem_interface/parser.py 95-136, with the errors collected so far. Terminates
because a bad buffer loses at least its first byte. `.error` is an exception leaving the method. -/
def Parser.parseOne (p : Parser) (errors : List ErrorInfo) : Parser × Except PyErr One :=
  if hb : p.buffer = [] then (p, .ok ⟨none, 0, errors⟩)
  else match h : p.step with
    | (p, .got t m n) => (p, .ok ⟨some (t, m), n, errors⟩)
    | (p, .wait) => (p, .ok ⟨none, 0, errors⟩)
    | (p', .bad i) => p'.parseOne (errors ++ [i])
    | (p, .escape e) => (p, .error e)
termination_by p.buffer.length
decreasing_by exact step_bad_length hb h

/-- d7a/serial_modem_interface/parser.py 77-93: the returned triple, with the two parallel lists
`message_types` and `cmds` zipped; `buffer` is `info["buffer"]` of the last attempt. -/
structure Output where
  cmds : List (Int × Msg)
  parsed : Nat
  buffer : Nat
  errors : List ErrorInfo
  deriving DecidableEq, Repr

/-- d7a/serial_modem_interface/parser.py 83-93: the loop, with the results so far. Every delivered
command shortens the buffer; the marker `nonTermination` for the opposite is proved unreachable. -/
def Parser.parseLoop (p : Parser) (cmds : List (Int × Msg)) (parsed : Nat)
    (errors : List ErrorInfo) : Parser × Except PyErr Output :=
  match p.parseOne [] with
  | (p', .error e) => (p', .error e)
  | (p', .ok ⟨none, _, es⟩) => (p', .ok ⟨cmds, parsed, p'.buffer.length * 8, errors ++ es⟩)
  | (p', .ok ⟨some c, n, es⟩) =>
    if p'.buffer.length < p.buffer.length then
      p'.parseLoop (cmds ++ [c]) (parsed + n) (errors ++ es)
    else (p', .error .nonTermination)
termination_by p.buffer.length

/-- d7a/serial_modem_interface/parser.py 77-93 -/
def Parser.parseBuffer (p : Parser) : Parser × Except PyErr Output := p.parseLoop [] 0 []

/-- d7a/serial_modem_interface/parser.py 57-59 -/
def Parser.parse (p : Parser) (msg : List UInt8) : Parser × Except PyErr Output :=
  { p with buffer := p.buffer ++ msg }.parseBuffer

/-- d7a/serial_modem_interface/parser.py 63-74. `command` is the iterator of an ALP command (or a
byte list). `bytearray.append` raises ValueError for a value above 255. -/
def Parser.buildSerialFrame (p : Parser) (command : Gen) : Parser × Except PyErr (List UInt8) :=
  match bytearray command with
  | .error e => (p, .error e)
  | .ok alp =>
    match bytearray (.int 0xC0 ++ .int 0 ++ .int p.upCounter ++ .int 1 ++ .int alp.length) with
    | .error e => (p, .error e)
    | .ok buffer =>
      let crc := Crc.calculateCrc alp
      let frame := buffer ++ [crc.1, crc.2] ++ alp
      let up := p.upCounter + 1
      let up := if up > 255 then 0 else up
      ({ p with upCounter := up }, .ok frame)

/-- The tests of d7a/serial_modem_interface/test/parser.py on the model. -/
example : skipBadBufferContent [0x10, 0x20, 0x30, 0xc0, 0x10, 0x20, 0x30] =
    ([0xc0, 0x10, 0x20, 0x30], 3) := by decide
example : skipBadBufferContent [0x10, 0x20, 0x30, 0x10, 0x20, 0x30] = ([], 6) := by decide
example : skipBadBufferContent [0xc0, 0xc0, 0x10, 0x20, 0x30] = ([0xc0, 0x10, 0x20, 0x30], 1) := by
  decide
example : ((Parser.new false).parse [0xC0, 0, 1, 1, 8, 0xA4, 0xBE, 0x20, 0x40, 0, 4, 0, 0xf3, 0, 0,
    0xC0, 0, 2, 1, 8, 0xA4, 0xBE]) = (⟨[0xC0, 0, 2, 1, 8, 0xA4, 0xBE], false, 0, 1, 0⟩,
    .ok ⟨[(1, .command ⟨[.regular false false (.returnFileData ⟨⟨0x40, ⟨0⟩⟩, ⟨4⟩, [0, 0xf3, 0, 0]⟩)],
      none, false, none, true, false, none⟩)], 120, 56, []⟩) := by decide +kernel
example : ((Parser.new false).parse [0x0c, 4, 0, 0, 0, 0x20, 0x24, 0x8a, 0xc0, 0, 1, 1, 7, 0x33, 0xAD,
    0x0b, 0x35, 0x2c, 0x7d, 0x40, 0, 0]).2.map (fun o => (o.cmds.length, o.errors.map (·.skipped))) =
    .ok (0, [8, 14]) := by decide +kernel

end Verif.Serial
