import Verif.Model.Addressee
import Verif.Model.Phy

/-! Model of d7a/sp/qos.py, configuration.py, status.py -/

namespace Verif

/-- d7a/sp/qos.py 31-37 -/
inductive ResponseMode | NO | ALL | ANY | NO_RPT | ON_ERROR | PREFERRED
  deriving DecidableEq, Repr

/-- d7a/sp/qos.py 32-37: `.value` -/
def ResponseMode.value : ResponseMode → Int
  | .NO => 0 | .ALL => 1 | .ANY => 2 | .NO_RPT => 4 | .ON_ERROR => 5 | .PREFERRED => 6

/-- d7a/sp/qos.py 70: `ResponseMode(x)` -/
def ResponseMode.ofValue (x : Int) : Except PyErr ResponseMode :=
  if x = 0 then .ok .NO else if x = 1 then .ok .ALL else if x = 2 then .ok .ANY
  else if x = 4 then .ok .NO_RPT else if x = 5 then .ok .ON_ERROR
  else if x = 6 then .ok .PREFERRED else .error .valueError

/-- d7a/sp/qos.py 39-40 -/
inductive RetryMode | NO
  deriving DecidableEq, Repr

/-- d7a/sp/qos.py 40: `.value` -/
def RetryMode.value : RetryMode → Int
  | .NO => 0

/-- d7a/sp/qos.py 69: `RetryMode(x)` -/
def RetryMode.ofValue (x : Int) : Except PyErr RetryMode :=
  if x = 0 then .ok .NO else .error .valueError

/-- d7a/sp/qos.py 42-55 (every well-typed combination is accepted) -/
structure QoS where
  respMod : ResponseMode
  retryMod : RetryMode
  stopOnErr : Bool
  record : Bool
  deriving DecidableEq, Repr

namespace QoS

/-- d7a/sp/qos.py 50: `QoS()` -/
def default : QoS := ⟨.NO, .NO, false, false⟩

/-- d7a/sp/qos.py 57-63 -/
def iter (q : QoS) : Gen :=
  let byte : Int := 0
  let byte := if q.stopOnErr then Int.lor byte (1 <<ₚ 7) else byte
  let byte := if q.record then Int.lor byte (1 <<ₚ 6) else byte
  let byte := Int.lor byte (q.retryMod.value <<ₚ 3)
  let byte := byte + q.respMod.value
  .int byte

/-- d7a/sp/qos.py 65-71 -/
def parse : P QoS := do
  let stop ← P.bool
  let record ← P.bool
  let retry ← P.uint 3
  let retry ← P.lift (RetryMode.ofValue retry)
  let resp ← P.uint 3
  let resp ← P.lift (ResponseMode.ofValue resp)
  return ⟨resp, retry, stop, record⟩

end QoS

/-- d7a/sp/configuration.py 37-49 (every well-typed combination is accepted) -/
structure Configuration where
  qos : QoS
  dormTo : CT
  addressee : Addressee
  deriving DecidableEq, Repr

namespace Configuration

/-- d7a/sp/configuration.py 45: `Configuration()` -/
def default : Configuration := ⟨.default, ⟨0, 0⟩, .default⟩

/-- d7a/sp/configuration.py 51-54 -/
def iter (c : Configuration) : Gen := c.qos.iter ++ c.dormTo.iter ++ c.addressee.iter

/-- d7a/sp/configuration.py 59-64 -/
def parse : P Configuration := do
  let qos ← QoS.parse
  let dormTo ← CT.parse
  let addressee ← Addressee.parse
  return ⟨qos, dormTo, addressee⟩

end Configuration

/-- d7a/sp/status.py 54-84 -/
structure Status where
  channelId : ChannelID
  rxLevel : Int
  linkBudget : Int
  targetRxLevel : Int
  nls : Bool
  missed : Bool
  retry : Bool
  unicast : Bool
  fifoToken : Int
  seqNr : Int
  responseTo : CT
  addressee : Addressee
  deriving DecidableEq, Repr

namespace Status

/-- d7a/sp/status.py 56-85 -/
def new (channelId : ChannelID) (rxLevel linkBudget targetRxLevel : Int)
    (nls missed retry unicast : Bool) (fifoToken seqNr : Int) (responseTo : CT)
    (addressee : Addressee) : Except PyErr Status :=
  validate (isByte rxLevel ∧ isByte linkBudget ∧ isByte targetRxLevel ∧ isByte fifoToken ∧
    isByte seqNr)
    ⟨channelId, rxLevel, linkBudget, targetRxLevel, nls, missed, retry, unicast, fifoToken, seqNr,
      responseTo, addressee⟩

/-- d7a/sp/status.py 88-108 -/
def parse : P Status := do
  let channelId ← ChannelID.parse
  let rxLevel ← P.sint 8
  let linkBudget ← P.uint 8
  let targetRxLevel ← P.uint 8
  let nls ← P.bool
  let missed ← P.bool
  let retry ← P.bool
  let unicast ← P.bool
  P.pad 4
  let fifoToken ← P.uint 8
  let seqNr ← P.uint 8
  let responseTo ← CT.parse
  let addressee ← Addressee.parse
  P.lift (new channelId rxLevel linkBudget targetRxLevel nls missed retry unicast fifoToken seqNr
    responseTo addressee)

/-- d7a/sp/status.py 110-124 -/
def iter (s : Status) : Gen :=
  let byte : Int := 0
  let byte := if s.nls then Int.lor byte (1 <<ₚ 7) else byte
  let byte := if s.missed then Int.lor byte (1 <<ₚ 6) else byte
  let byte := if s.retry then Int.lor byte (1 <<ₚ 5) else byte
  let byte := if s.unicast then Int.lor byte (1 <<ₚ 4) else byte
  s.channelId.iter ++ .int s.rxLevel ++ .int s.linkBudget ++ .int s.targetRxLevel ++
  .int byte ++ .chr s.fifoToken ++ .chr s.seqNr ++ s.responseTo.iter ++ s.addressee.iter

end Status
end Verif
