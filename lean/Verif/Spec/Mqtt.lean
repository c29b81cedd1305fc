import Verif.Model.Mqtt
import Verif.Spec.Modem

/-! Specification vocabulary for the MQTT bridge. -/

namespace Verif.Mqtt

open Verif Verif.Serial

/-- The payload of a message, if it is ALP data or a ping (message types up to 3). -/
def payload : Int × Msg → Option (List UInt8)
  | (t, .bytes b) => if t ≤ 3 then some b else none
  | _ => none

/-- The payloads of the ALP and ping messages in a list of messages. -/
def payloads (ms : List (Int × Msg)) : List (List UInt8) := ms.filterMap payload

/-- The chunks of bytes read from the serial port. -/
def chunks : List Event → List (List UInt8)
  | [] => []
  | .rx bs :: es => bs :: chunks es
  | _ :: es => chunks es

/-- The client accepts everything that is published. -/
def PublishWorks (es : List Event) : Prop := ∀ e, Event.reader (some e) ∉ es

end Verif.Mqtt
