import Verif.Spec.Modem
import Verif.Spec.Serial

/-! Messages that nobody asked for. -/

namespace Verif.Modem

open Verif Verif.Serial

/-- The tag that messages are compared with after the call has begun to wait (`None` if it does not wait).
A `connect` that turns out to have nothing to do is counted as well. -/
def awaited : Event → Option (Option Int)
  | .call (.execute cmd timeout) => some (if timeout > 0 then cmd.tagId else none)
  | .call (.connect true rand) => some (some rand.toNat)
  | _ => none

/-- The command, if it has a tag (or has none) that no call compares with. -/
def unasked (es : List Event) : Msg → Option Command
  | .command c => if some c.tagId ∈ es.map awaited then none else some c
  | _ => none

/-- The same among received messages: ALP data and pings only. -/
def pushed (es : List Event) (x : Int × Msg) : Option Command :=
  if x.1 ≤ 3 then unasked es x.2 else none

/-- The command is executed with a tag, and the caller waits for the answer. -/
def Waits : Event → Prop
  | .call (.execute cmd timeout) => cmd.tagId ≠ none ∧ timeout > 0
  | _ => True

instance (e : Event) : Decidable (Waits e) := by
  unfold Waits; split <;> infer_instance

/-- The command, if it has no tag. -/
def untaggedOf : Msg → Option Command
  | .command c => if c.tagId = none then some c else none
  | _ => none

/-- A frame with ALP data or a ping without a tag: what a node sends on its own. -/
def pushOf (f : Sent) : Option Command :=
  if f.type.toNat ≤ 3 then untaggedOf f.msg else none

/-- The arguments with which examples/unsolicited_response_logger.py 63 makes its modem. -/
def loggerConfig : Config := ⟨false, true, true⟩

/-- The event is no call. -/
def NoCall : Event → Prop
  | .call _ => False
  | _ => True

instance (e : Event) : Decidable (NoCall e) := by
  unfold NoCall; split <;> infer_instance

/-- The interleavings of examples/unsolicited_response_logger.py (63-68): one call of `connect` (64, with its
check), then the program sleeps. `rand` is the tag drawn there. -/
def loggerRun (rand : UInt8) (es : List Event) : List Event := .call (.connect true rand) :: es

/-- The message, if it tells of a reboot. -/
def rebootOf (x : Int × Msg) : Option Msg := if x.1 = 5 then some x.2 else none

end Verif.Modem
