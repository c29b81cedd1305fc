import Verif.Model.D7atp

/-! Model of d7a/d7anp/control.py and d7a/d7anp/frame.py -/

namespace Verif.D7anp

open Verif

/-- d7a/d7anp/control.py 27-41. The schema accepts every object of this type (all four id types are
listed as allowed). -/
structure Control where
  hasNoOriginAccessId : Bool
  hasHopping : Bool
  originIdType : IdType
  nlsMethod : NlsMethod
  deriving DecidableEq, Repr

/-- d7a/d7anp/control.py 43-50 -/
def Control.parse : P Control := do
  let hasNoOriginAccessId ← P.bool
  let hasHopping ← P.bool
  let t ← P.uint 2
  let t ← P.lift (IdType.ofValue t)
  let n ← P.uint 4
  let n ← P.lift (NlsMethod.ofValue n)
  return ⟨hasNoOriginAccessId, hasHopping, t, n⟩

/-- d7a/d7anp/control.py 52-58: there is no attribute `has_multi_hop`. -/
def Control.iter (_ : Control) : Gen := .raise .attributeError

/-- d7a/d7anp/frame.py 29-43 -/
structure Frame where
  control : Control
  originAccessClass : Int
  originAccessId : List Int
  d7atpFrame : D7atp.Frame
  deriving DecidableEq

/-- d7a/d7anp/frame.py 31-43 -/
def Frame.new (control : Control) (originAccessClass : Int) (originAccessId : List Int)
    (d7atpFrame : D7atp.Frame) : Except PyErr Frame :=
  validate (isByte originAccessClass ∧ isBytes originAccessId)
    ⟨control, originAccessClass, originAccessId, d7atpFrame⟩

/-- d7a/d7anp/frame.py 56-66: `map(ord, ...)` of the origin id. -/
def parseOriginId (c : Control) : P (List Int) :=
  if !c.hasNoOriginAccessId then
    match c.originIdType with
    | .VID => do
      let b ← P.bytes 2
      return ords b
    | .UID => do
      let b ← P.bytes 8
      return ords b
    | _ => P.raise (.assertion false)
  else return []

/-- d7a/d7anp/frame.py 48-66: the number of bytes subtracted from `payload_length`. -/
def headerLength (c : Control) : Int :=
  if !c.hasNoOriginAccessId then
    match c.originIdType with
    | .VID => 4
    | .UID => 10
    | _ => 2
  else 2

/-- d7a/d7anp/frame.py 45-70 -/
def Frame.parse (payloadLength : Int) : P Frame := do
  let control ← Control.parse
  let cl ← P.uint 8
  P.assert (control.hasHopping = false) true
  P.assert (control.nlsMethod = .NONE) true
  let id ← parseOriginId control
  let tp ← D7atp.Frame.parse (payloadLength - headerLength control)
  P.lift (Frame.new control cl id tp)

/-- d7a/d7anp/frame.py 72-76 -/
def Frame.iter (f : Frame) : Gen :=
  f.control.iter ++ .int f.originAccessClass ++ .concat (f.originAccessId.map .int) ++
  f.d7atpFrame.iter

end Verif.D7anp
