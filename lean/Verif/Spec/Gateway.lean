import Verif.Spec.Device

/-! Specification of a device that answers a command with any number of messages, in its own time, and that sends log
texts and reboot messages whenever it likes. Nothing here is code of the repository except the modem inside `Net`
(Model/Modem.lean). -/

namespace Verif.Modem

open Verif Verif.Serial

/-- A device that executes commands: from the payload of a frame to its next state and the payloads of its answers. -/
structure Gateway (D : Type) where
  handle : D → List UInt8 → D × List (List UInt8)

/-- The payloads are these commands. -/
def Meaning (ps : List (List UInt8)) (rs : List Command) : Prop :=
  List.Forall₂ (fun p r => p.length ≤ 255 ∧ Carries false 1 p (.command r)) ps rs

/-- The answers to the command with this tag: every one has the tag, exactly the last one says that the execution is
completed. -/
structure Answers (tag : Int) (ps : List (List UInt8)) (rs : List Command) : Prop where
  meaning : Meaning ps rs
  tagged : ∀ r ∈ rs, r.tagId = some tag
  final : ∃ l x, rs = l ++ [x] ∧ x.executionCompleted = true ∧ ∀ r ∈ l, r.executionCompleted = false

/-- The device gives a correct set of answers to every command that has a tag request (with the flag that asks for a
response) and fits in a frame. -/
def Gateway.Conforms {D : Type} (g : Gateway D) : Prop :=
  ∀ d c bs tag, c.generateTagRequestAction = true → c.sendTagResponseWhenCompleted = true → c.tagId = some tag →
    sendable c = some bs → ∃ rs, Answers tag (g.handle d bs).2 rs

/-- Modem and device: `taken` is the number of bytes written by the modem that the device has processed, `pending` are
the answers it has not sent yet, `line` are the bytes it sent that the modem has not read. -/
structure Net (D : Type) where
  modem : State
  data : D
  taken : Nat
  pending : List (List UInt8)
  line : List UInt8

/-- What happens next: the application calls a method; one of the modem's threads makes a step; the modem reads
`n` bytes; the device processes a frame; it sends an answer, a log text or a reboot message (and numbers its frames as
it likes). No call times out, the line does not fail. -/
inductive NetEvent
  | call (c : Call)
  | main
  | reader
  | read (n : Nat)
  | take
  | send (counter : UInt8)
  | log (counter : UInt8) (text : List UInt8)
  | reboot (counter reason : UInt8)
  deriving DecidableEq, Repr

namespace Net

variable {D : Type}

/-- A new modem and a device in this state. -/
def start (config : Config) (d : D) : Net D := ⟨init config, d, 0, [], []⟩

/-- One step; `none` if the event cannot happen. -/
def step (g : Gateway D) (s : Net D) : NetEvent → Option (Net D)
  | .call c => (s.modem.step (.call c)).map fun m => { s with modem := m }
  | .main => (s.modem.step .main).map fun m => { s with modem := m }
  | .reader => (s.modem.step .reader).map fun m => { s with modem := m }
  | .read n =>
    if 0 < n ∧ n ≤ s.line.length then
      (s.modem.step (.rx (s.line.take n))).map fun m => { s with modem := m, line := s.line.drop n }
    else none
  | .take =>
    match nextFrame (s.modem.written.drop s.taken) with
    | none => none
    | some payload => some { s with
        taken := s.taken + 7 + payload.length
        data := (g.handle s.data payload).1
        pending := s.pending ++ (g.handle s.data payload).2 }
  | .send counter =>
    match s.pending with
    | [] => none
    | p :: ps => some { s with pending := ps, line := s.line ++ frame counter 1 p }
  | .log counter text =>
    if text.length ≤ 255 then some { s with line := s.line ++ frame counter 4 text } else none
  | .reboot counter reason => some { s with line := s.line ++ frame counter 5 [reason] }

/-- A sequence of steps. -/
def run (g : Gateway D) (s : Net D) : List NetEvent → Option (Net D)
  | [] => some s
  | e :: es => (s.step g e).bind fun s => s.run g es

end Net

/-- The command can be executed: it has a tag request with the flag that asks for a response, and a tag. -/
def Taggable (c : Command) (tag : Int) : Prop :=
  c.generateTagRequestAction = true ∧ c.sendTagResponseWhenCompleted = true ∧ c.tagId = some tag

/-- The calls considered: commands with a tag that are executed with a positive timeout, and all the other methods. -/
def Polite : NetEvent → Prop
  | .call (.execute c timeout) => 0 < timeout ∧ ∃ tag, Taggable c tag
  | _ => True

/-- The number of bytes of log texts and reboot messages sent in these events. -/
def noticeBytes : List NetEvent → Nat
  | [] => 0
  | .log _ text :: es => 7 + text.length + noticeBytes es
  | .reboot _ _ :: es => 8 + noticeBytes es
  | _ :: es => noticeBytes es

/-- The payloads of the commands that are executed in these events and fit in a frame. -/
def payloads : List NetEvent → List (List UInt8)
  | [] => []
  | .call (.execute c _) :: es => (sendable c).toList ++ payloads es
  | _ :: es => payloads es

end Verif.Modem
