import Verif.Model.AlpParser

/-! Model of d7a/d7atp/control.py and d7a/d7atp/frame.py -/

namespace Verif.D7atp

open Verif

/-- d7a/d7atp/control.py 26-46. All attributes are booleans, so the schema accepts every object. -/
structure Control where
  isDialogStart : Bool
  hasTl : Bool
  hasTe : Bool
  isAckRequested : Bool
  isAckNotVoid : Bool
  isAckRecordRequested : Bool
  hasAgc : Bool
  deriving DecidableEq, Repr

/-- d7a/d7atp/control.py 48-67 -/
def Control.parse : P Control := do
  let isDialogStart ← P.bool
  let _ ← P.bool
  let hasTl ← P.bool
  let hasTe ← P.bool
  let isAckRequested ← P.bool
  let isAckNotVoid ← P.bool
  let isAckRecordRequested ← P.bool
  let hasAgc ← P.bool
  return ⟨isDialogStart, hasTl, hasTe, isAckRequested, isAckNotVoid, isAckRecordRequested, hasAgc⟩

/-- d7a/d7atp/control.py 69-78: the byte. -/
def Control.byte (c : Control) : Int :=
  let byte : Int := 0
  let byte := if c.isDialogStart then Int.lor byte (1 <<ₚ 7) else byte
  let byte := if c.hasTl then Int.lor byte (1 <<ₚ 5) else byte
  let byte := if c.hasTe then Int.lor byte (1 <<ₚ 4) else byte
  let byte := if c.isAckRequested then Int.lor byte (1 <<ₚ 3) else byte
  let byte := if c.isAckNotVoid then Int.lor byte (1 <<ₚ 2) else byte
  let byte := if c.isAckRecordRequested then Int.lor byte (1 <<ₚ 1) else byte
  byte + (if c.hasAgc then 1 else 0)

/-- d7a/d7atp/control.py 69-78 -/
def Control.iter (c : Control) : Gen := .int c.byte

/-- d7a/d7atp/frame.py 31-58 -/
structure Frame where
  control : Control
  dialogId : Int
  transactionId : Int
  agcRxLevelI : Int
  tl : Option CT
  te : Option CT
  tc : Option CT
  ackTemplate : Option (List Int)
  alpCommand : Command
  deriving DecidableEq

/-- d7a/d7atp/frame.py 33-58: `None` as AGC level becomes 10. -/
def Frame.new (control : Control) (dialogId transactionId : Int) (alpCommand : Command)
    (agcRxLevelI : Option Int) (tl te tc : Option CT) (ackTemplate : Option (List Int)) :
    Except PyErr Frame :=
  let agc := match agcRxLevelI with
    | none => 10
    | some x => x
  validate ((0 ≤ dialogId ∧ dialogId ≤ 255) ∧ (0 ≤ transactionId ∧ transactionId ≤ 255) ∧
    (0 ≤ agc ∧ agc ≤ 31)) ⟨control, dialogId, transactionId, agc, tl, te, tc, ackTemplate, alpCommand⟩

/-- d7a/d7atp/frame.py 96-105: the acknowledgement template. -/
def parseAckTemplate (transactionId : Int) : P (List Int) := do
  let start ← P.uint 8
  let stop ← P.uint 8
  P.assert (start = transactionId) true
  P.assert (stop = transactionId) true
  return [start, stop]

/-- The bytes subtracted for a field that is present only if a condition holds. -/
def present (c : Bool) (n : Int) : Int := if c then n else 0

/-- d7a/d7atp/frame.py 60-122. `payload_length` is updated step by step in the code; here the
subtractions are collected in one expression. -/
def Frame.parse (payloadLength : Int) : P Frame := do
  let control ← Control.parse
  let dialogId ← P.uint 8
  let transactionId ← P.uint 8
  let agc ← P.opt control.hasAgc (P.uint 8)
  let tl ← P.opt control.hasTl CT.parse
  let te ← P.opt control.hasTe CT.parse
  let tc ← P.opt (control.isAckRequested && control.isDialogStart) CT.parse
  let ack ← P.opt control.isAckNotVoid (parseAckTemplate transactionId)
  P.assert (control.isAckRecordRequested = false) true
  P.assert (control.isAckNotVoid = false) true
  let alp ← AlpParser.parse (payloadLength - 3 - present control.hasAgc 1 - present control.hasTl 1 -
    present control.hasTe 1 - present (control.isAckRequested && control.isDialogStart) 1 -
    present control.isAckNotVoid 2)
  P.lift (Frame.new control dialogId transactionId alp agc tl te tc ack)

/-- d7a/d7atp/frame.py 131-135: `yield self.tl` yields the object (a CT, or `None`), not its bytes. -/
def yieldObject (_ : Option CT) : Gen := ⟨[.obj], none⟩

/-- d7a/d7atp/frame.py 137-138: iterating over `None` is a TypeError. -/
def yieldAck : Option (List Int) → Gen
  | none => .raise .typeError
  | some l => .concat (l.map .int)

/-- d7a/d7atp/frame.py 124-140 -/
def Frame.iter (f : Frame) : Gen :=
  f.control.iter ++ .int f.dialogId ++ .int f.transactionId ++
  (if f.control.hasAgc then .int f.agcRxLevelI else .nil) ++
  (if f.control.hasTl then yieldObject f.tl else .nil) ++
  (if f.control.hasTe then yieldObject f.te else .nil) ++
  (if f.control.isAckNotVoid then yieldAck f.ackTemplate else .nil) ++
  f.alpCommand.iter

end Verif.D7atp
