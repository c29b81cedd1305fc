import Verif.Model.Modem

/-! Model of tools/modem2mqtt.py on top of the modem of `Verif.Model.Modem`.

`published` is the list of payloads handed to the MQTT client's `publish`; what the client does with them is
not modelled. `publish` may raise. Logging and the statistics are left out. -/

namespace Verif.Mqtt

open Verif Verif.Serial Verif.Modem

/-- How far the constructor is, tools/modem2mqtt.py 65-76: the modem is made; `connect` is running; before
line 73; `self.mq` is set; `self.mqtt_topic_incoming` is set (line 76). The later lines do not matter for the
callback; line 79 is taken not to raise. -/
inductive Stage | made | connecting | beforeClient | client | ready
  deriving DecidableEq, Repr

/-- tools/modem2mqtt.py 57-76: the modem, how far the constructor is, and what was published. -/
structure State where
  modem : Modem.State
  stage : Stage
  published : List (List UInt8)
  deriving DecidableEq, Repr

/-- tools/modem2mqtt.py 65: a modem with a callback, without a reboot callback, in `skip_alp_parsing`
mode. -/
def config : Config := ⟨true, true, false⟩

/-- tools/modem2mqtt.py 57-65 -/
def init : State := ⟨Modem.init config, .made, []⟩

/-- tools/modem2mqtt.py 100-101: the payloads published so far, or the exception. `self.mq` and
`self.mqtt_topic_incoming` do not exist before lines 73 and 76. -/
def State.publishToMqtt (s : State) (publishRaises : Option PyErr) (msg : List UInt8) :
    Except PyErr (List (List UInt8)) :=
  if s.stage ≠ .client ∧ s.stage ≠ .ready then .error .attributeError
  else if s.stage ≠ .ready then .error .attributeError
  else match publishRaises with
    | some e => .error e
    | none => .ok (s.published ++ [msg])

/-- tools/modem2mqtt.py 111-115: the body of the `try`. `len` raises TypeError for an integer and for a
Command, which has no `__len__`. -/
def State.tryBody (s : State) (publishRaises : Option PyErr) : Msg → Except PyErr (List (List UInt8))
  | .bytes b => s.publishToMqtt publishRaises b
  | .command _ => .error .typeError
  | .rebooted _ => .error .typeError

/-- tools/modem2mqtt.py 109-120: `except:` catches everything; the handler only logs. The result is the
published payloads and the exception that leaves the callback. -/
def State.onCommandReceived (s : State) (publishRaises : Option PyErr) (m : Msg) :
    List (List UInt8) × Option PyErr :=
  match s.tryBody publishRaises m with
  | .ok published => (published, none)
  | .error _ => (s.published, none)

/-- What happens next: the main thread goes on in the constructor; `connect` makes a step; bytes arrive;
the reading thread makes a step (in a callback step, `publish` may raise the given exception); a serial
error. `rand` is the random tag of the command sent by `connect`. -/
inductive Event
  | main (rand : UInt8)
  | rx (bytes : List UInt8)
  | reader (publishRaises : Option PyErr)
  | serialError
  deriving DecidableEq, Repr

/-- tools/modem2mqtt.py 66-76: the next line of the constructor. -/
def State.mainStep (s : State) (rand : UInt8) : Option State :=
  match s.stage with
  | .made => (s.modem.step (.call (.connect true rand))).map fun m =>
      { s with modem := m, stage := .connecting }
  | .connecting =>
    if s.modem.main = .idle then some { s with stage := .beforeClient }
    else (s.modem.step .main).map fun m => { s with modem := m }
  | .beforeClient => some { s with stage := .client }
  | .client => some { s with stage := .ready }
  | .ready => none

/-- The reading thread of the modem; at modem/modem.py 231 it runs `on_command_received`. -/
def State.readerStep (s : State) (publishRaises : Option PyErr) : Option State :=
  match s.modem.reader with
  | .callback _ m _ =>
    match s.onCommandReceived publishRaises m with
    | (published, none) =>
      (s.modem.step .reader).map fun m => { s with modem := m, published := published }
    | (published, some _) =>
      (s.modem.step .callbackRaises).map fun m => { s with modem := m, published := published }
  | _ => (s.modem.step .reader).map fun m => { s with modem := m }

/-- One step of the program. -/
def State.step (s : State) : Event → Option State
  | .main rand => s.mainStep rand
  | .rx bytes => (s.modem.step (.rx bytes)).map fun m => { s with modem := m }
  | .reader publishRaises => s.readerStep publishRaises
  | .serialError => (s.modem.step .serialError).map fun m => { s with modem := m }

/-- A sequence of steps. -/
def State.run (s : State) : List Event → Option State
  | [] => some s
  | e :: es => (s.step e).bind fun s => s.run es

end Verif.Mqtt
