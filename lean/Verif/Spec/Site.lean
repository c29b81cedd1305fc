import Verif.Spec.Mqtt
import Verif.Spec.Serial

/-! Specification: the MQTT bridge together with a device on its serial line. Nothing here is code of the repository
except the bridge inside `Site` (Model/Mqtt.lean). -/

namespace Verif.Mqtt

open Verif Verif.Serial

/-- The bridge, the frames its device has sent so far (counter, message type and payload), and the bytes of them that
the bridge has not read. -/
structure Site where
  bridge : State
  sent : List (UInt8 × UInt8 × List UInt8)
  line : List UInt8
  deriving DecidableEq, Repr

/-- What happens next: the main thread of the bridge makes a step (`rand` is the tag drawn for the command of `connect`);
its reading thread makes a step (in a callback step, the MQTT client may raise the given exception); the bridge reads
`n` bytes; the device sends a frame, whenever it likes, numbered as it likes. The line does not fail. -/
inductive SiteEvent
  | main (rand : UInt8)
  | reader (publishRaises : Option PyErr)
  | read (n : Nat)
  | send (counter type : UInt8) (payload : List UInt8)
  deriving DecidableEq, Repr

namespace Site

/-- A new bridge, and a device that has sent nothing. -/
def start : Site := ⟨init, [], []⟩

/-- One step; `none` if the event cannot happen. A payload fits in a frame, and a reboot message has one byte. -/
def step (s : Site) : SiteEvent → Option Site
  | .main rand => (s.bridge.step (.main rand)).map fun b => { s with bridge := b }
  | .reader publishRaises => (s.bridge.step (.reader publishRaises)).map fun b => { s with bridge := b }
  | .read n =>
    if 0 < n ∧ n ≤ s.line.length then
      (s.bridge.step (.rx (s.line.take n))).map fun b => { s with bridge := b, line := s.line.drop n }
    else none
  | .send counter type payload =>
    if payload.length ≤ 255 ∧ (type = 5 → payload.length = 1) then
      some { s with sent := s.sent ++ [(counter, type, payload)], line := s.line ++ frame counter type payload }
    else none

/-- A sequence of steps. -/
def run (s : Site) : List SiteEvent → Option Site
  | [] => some s
  | e :: es => (s.step e).bind fun s => s.run es

/-- The payloads of the ALP and ping messages the device has sent. -/
def messages (s : Site) : List (List UInt8) :=
  s.sent.filterMap fun f => if f.2.1 ≤ 3 then some f.2.2 else none

/-- Everything sent is read and dealt with. -/
def AtRest (s : Site) : Prop := s.line = [] ∧ s.bridge.modem.reader = .reading

end Site

/-- The MQTT client accepts everything. -/
def Accepting (es : List SiteEvent) : Prop := ∀ e, SiteEvent.reader (some e) ∉ es

/-- The device sends nothing. -/
def Silent (es : List SiteEvent) : Prop := ∀ c t p, SiteEvent.send c t p ∉ es

end Verif.Mqtt
