import Verif.Spec.GatewayAsync
import Verif.Spec.ModemWrite

/-! Specification: a modem and a device when calls time out, callbacks raise and the line fails. Nothing here is code of
the repository. -/

namespace Verif.Modem

open Verif Verif.Serial

variable {D : Type}

/-- What happens next: an event as in `NetEvent`, or the time of the call in progress is over, the callback that is being
called raises, or `dev.read` raises SerialException. -/
inductive LateEvent
  | net (e : NetEvent)
  | timeout
  | callbackRaises
  | serialError
  deriving DecidableEq, Repr

/-- One step; `none` if the event cannot happen. -/
def Net.stepLate (g : Gateway D) (s : Net D) : LateEvent → Option (Net D)
  | .net e => s.step g e
  | .timeout => (s.modem.step .timeout).map fun m => { s with modem := m }
  | .callbackRaises => (s.modem.step .callbackRaises).map fun m => { s with modem := m }
  | .serialError => (s.modem.step .serialError).map fun m => { s with modem := m }

/-- A sequence of steps. -/
def Net.runLate (g : Gateway D) (s : Net D) : List LateEvent → Option (Net D)
  | [] => some s
  | e :: es => (s.stepLate g e).bind fun s => s.runLate g es

/-- The calls considered: commands with a tag, executed with any timeout, and all the other methods. -/
def Tagged : LateEvent → Prop
  | .net (.call (.execute c _)) => ∃ tag, Taggable c tag
  | _ => True

/-- The commands that an event in this state asks for. -/
def Net.asked (s : Net D) : LateEvent → List Command
  | .net (.call c) => Modem.asked s.modem (.call c)
  | _ => []

/-- The commands that are asked for in a sequence of steps: those executed and those of `connect`. -/
def Net.requested (g : Gateway D) (s : Net D) : List LateEvent → List Command
  | [] => []
  | e :: es => s.asked e ++ (match s.stepLate g e with | some s' => s'.requested g es | none => [])

/-- The ALP messages among messages of all types. -/
def alpMessages (l : List (Int × Msg)) : List Command :=
  l.filterMap fun
    | (t, .command c) => if t ≤ 3 then some c else none
    | _ => none

/-- An interleaving in which no hand-over of an ALP message overlaps with the lines of `execute_command` that prepare for the
responses (modem/modem.py 152-157). -/
def Net.Calm (g : Gateway D) (s : Net D) : List LateEvent → Prop
  | [] => True
  | e :: es =>
    (resetting s.modem.main = true →
      handingAlp s.modem.reader = false ∧ (e = .net .reader → nextAlp s.modem.reader = false)) ∧
    ∀ s', s.stepLate g e = some s' → s'.Calm g es

instance Net.Calm.decidable (g : Gateway D) : (s : Net D) → (es : List LateEvent) → Decidable (s.Calm g es)
  | _, [] => isTrue trivial
  | s, e :: es =>
    have : Decidable (∀ s', s.stepLate g e = some s' → s'.Calm g es) :=
      match h : s.stepLate g e with
      | none => isTrue (fun _ h' => by cases h')
      | some s1 =>
        have := Net.Calm.decidable g s1 es
        decidable_of_iff (s1.Calm g es) ⟨fun hc s' h' => by cases h'; exact hc, fun hc => hc s1 rfl⟩
    inferInstanceAs (Decidable (_ ∧ _))

/-- Nothing is going on any more: no call, nothing for the device to do, and nothing for the reading thread, or it has
ended. -/
structure Net.AtRest (s : Net D) : Prop where
  main : s.modem.main = .idle
  taken : s.taken = s.modem.written.length
  pending : s.pending = []
  reader : s.modem.reader = .reading ∧ s.line = [] ∨ ∃ q, s.modem.reader = .dead q

/-- The number of bytes of log texts and reboot messages sent in these events. -/
def lateNotices : List LateEvent → Nat
  | [] => 0
  | .net e :: es => noticeBytes [e] + lateNotices es
  | _ :: es => lateNotices es

/-- This is what the device answers to this payload, after it has processed `before`. -/
def Gateway.Reply (g : Gateway D) (d : D) (before : List (List UInt8)) (tag : Int) (payload : List UInt8)
    (rs : List Command) : Prop :=
  Answers tag (g.handle (g.replies d before).1 payload).2 rs

end Verif.Modem
