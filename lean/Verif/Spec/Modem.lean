import Verif.Model.Modem

/-! Specification vocabulary for the modem. -/

namespace Verif.Modem

open Verif Verif.Serial

/-- The messages the reading thread has been given by the parser and has not handed over yet. -/
def pending : Reader → List (Int × Msg)
  | .reading => []
  | .next q => q
  | .sync t c q => (t, .command c) :: q
  | .syncAppend t c _ q => (t, .command c) :: q
  | .syncDone _ q => q
  | .other t m q => (t, m) :: q
  | .callback t m q => (t, m) :: q
  | .rebootedCallback t m q => (t, m) :: q
  | .rebooted t m q => (t, m) :: q
  | .rebootedAppend t m _ q => (t, m) :: q
  | .unsolicited t m q => (t, m) :: q
  | .unsolicitedAppend t m _ q => (t, m) :: q
  | .dead q => q

/-- Where a message can end up: in the list of responses with this number, in a call of the callback, in
the list of unsolicited responses with this number, in a call of the reboot callback, in the list of reboots
with this number, or nowhere. -/
inductive Sink
  | response (n : Nat)
  | callback
  | unsolicited (n : Nat)
  | rebootedCallback
  | rebooted (n : Nat)
  | nowhere
  deriving DecidableEq, Repr

/-- The messages that went to one sink, in order. -/
def toSink (log : List (Sink × Int × Msg)) (k : Sink) : List Msg :=
  (log.filter fun x => x.1 = k).map fun x => x.2.2

/-- The content of the list object with this number (nothing before it is made). -/
def content {α : Type} (lists : List (List α)) (n : Nat) : List α :=
  match lists[n]? with
  | some l => l
  | none => []

/-- The right sinks for a message type: ALP data and pings (up to 3) for the pending command, the callback
or the unsolicited list; reboots (5) for the callback or the list; log texts (4) and other types for nobody. -/
def RightSink (config : Config) (t : Int) : Sink → Prop
  | .response _ => t ≤ 3 ∧ config.skip = false
  | .callback => t ≤ 3 ∧ config.callback = true
  | .unsolicited _ => t ≤ 3
  | .rebootedCallback => t = 5 ∧ config.rebootedCallback = true
  | .rebooted _ => t = 5 ∧ config.rebootedCallback = false
  | .nowhere => t = 4 ∨ 5 < t

/-- From state `s` to state `s'` the messages of `log` were handed over, each to the sink named there, and to
no other: they are, in order, those waiting in `s` and those received since, but for the ones still waiting
in `s'`; every list and callback got exactly its messages, in order. -/
structure HandedOver (s s' : State) (log : List (Sink × Int × Msg)) : Prop where
  messages : ∃ new, s'.received = s.received ++ new ∧
    log.map Prod.snd ++ pending s'.reader = pending s.reader ++ new
  responses : ∀ n, (content s'.responses n).map Msg.command =
    (content s.responses n).map Msg.command ++ toSink log (.response n)
  called : s'.called = s.called ++ toSink log .callback
  unsolicited : ∀ n, content s'.unsolicited n =
    content s.unsolicited n ++ toSink log (.unsolicited n)
  rebootedCalled : s'.rebootedCalled = s.rebootedCalled ++ toSink log .rebootedCallback
  rebooted : ∀ n, content s'.rebooted n = content s.rebooted n ++ toSink log (.rebooted n)
  right : ∀ x ∈ log, RightSink s.config x.2.1 x.1

/-- `execute_command` is between building the frame and setting its tag (modem/modem.py 152-157). -/
def resetting : Main → Bool
  | .run .resetList _ _ _ _ => true
  | .run .resetTag _ _ _ _ => true
  | .run .resetCompleted _ _ _ _ => true
  | .run .setTag _ _ _ _ => true
  | _ => false

/-- The reading thread is not in the middle of handing over a message. -/
def betweenMessages : Reader → Bool
  | .reading => true
  | .next _ => true
  | .dead _ => true
  | _ => false

/-- The reading thread is in the middle of handing over an ALP message. -/
def handingAlp : Reader → Bool
  | .reading => false
  | .next _ => false
  | .dead _ => false
  | .other t _ _ => decide (t ≤ 3)
  | .rebootedCallback t _ _ => decide (t ≤ 3)
  | .rebooted t _ _ => decide (t ≤ 3)
  | .rebootedAppend t _ _ _ => decide (t ≤ 3)
  | _ => true

/-- The next message to be handed over is an ALP message. -/
def nextAlp : Reader → Bool
  | .next ((t, _) :: _) => decide (t ≤ 3)
  | _ => false

/-- An interleaving in which no hand-over of an ALP message overlaps with the lines of `execute_command` that
prepare for the responses. -/
def Calm (s : State) : List Event → Prop
  | [] => True
  | e :: es =>
    (resetting s.main = true → handingAlp s.reader = false ∧ (e = .reader → nextAlp s.reader = false)) ∧
    ∀ s', s.step e = some s' → Calm s' es

instance Calm.decidable : (s : State) → (es : List Event) → Decidable (Calm s es)
  | _, [] => isTrue trivial
  | s, e :: es =>
    have : Decidable (∀ s', s.step e = some s' → Calm s' es) :=
      match h : s.step e with
      | none => isTrue (fun _ h' => by cases h')
      | some s1 =>
        have := Calm.decidable s1 es
        decidable_of_iff (Calm s1 es) ⟨fun hc s' h' => by cases h'; exact hc, fun hc => hc s1 rfl⟩
    inferInstanceAs (Decidable (_ ∧ _))

/-- The command, if the message is ALP data or a ping (type up to 3) with this tag. -/
def response (tag : Option Int) : Int × Msg → Option Command
  | (t, .command c) => if t ≤ 3 ∧ c.tagId = tag then some c else none
  | _ => none

/-- The number that 8 bytes stand for, most significant byte first. -/
def number (bs : List UInt8) : Nat := bs.foldl (fun n b => n * 256 + b.toNat) 0

/-- The action returns an 8-byte UID file: the number in it. -/
def ReturnsUid (a : Action) (u : Nat) : Prop :=
  ∃ g r d bs, a = .regular g r (.returnFileData d) ∧ d.offset.id = 0 ∧
    d.data = bs.map (fun b : UInt8 => (b.toNat : Int)) ∧ bs.length = 8 ∧ u = number bs

/-- The action returns a firmware version file with this content. -/
def ReturnsFirmware (a : Action) (f : FirmwareVersionFile) : Prop :=
  ∃ g r d bs s, a = .regular g r (.returnFileData d) ∧ d.offset.id = 2 ∧
    d.data = bs.map (fun b : UInt8 => (b.toNat : Int)) ∧
    FirmwareVersionFile.parse (stream bs) = .ok f s

/-- The action returns data for one of the two files that is not such a content. -/
def ReturnsJunk (a : Action) : Prop :=
  ∃ g r d, a = .regular g r (.returnFileData d) ∧ (d.offset.id = 0 ∨ d.offset.id = 2) ∧
    (∀ u, ¬ ReturnsUid a u) ∧ ∀ f, ¬ ReturnsFirmware a f

/-- The tag of the command if the event is a call that executes one synchronously. -/
def syncTag : Event → Option (Option Int)
  | .call (.execute cmd timeout) => if timeout > 0 then some cmd.tagId else none
  | .call (.connect true rand) => some (some rand.toNat)
  | _ => none

/-- The chunks of bytes read. -/
def chunks : List Event → List (List UInt8)
  | [] => []
  | .rx bs :: es => bs :: chunks es
  | _ :: es => chunks es

/-- The thread has ended. -/
def Reader.isDead : Reader → Bool
  | .dead _ => true
  | _ => false

end Verif.Modem
