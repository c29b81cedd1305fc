import Verif.Lemmas.ModemSinks
import Verif.Lemmas.ModemConnect
import Verif.Props.SerialStream

/-! What happens to received messages. -/

namespace Verif.Modem

open Verif Verif.Serial

/-! Concrete bytes, commands and steps for the examples. -/

/-- A modem without callbacks. -/
def plain : Config := ⟨false, false, false⟩

/-- The response that ends the command with tag 7. -/
def final7 : List UInt8 := [0xc0, 0, 1, 1, 2, 0x25, 0xc5, 0xa3, 7]

/-- A response to the command with tag 7, more to come. -/
def more7 : List UInt8 := [0xc0, 0, 1, 1, 2, 0x3e, 0x5d, 0x23, 7]

/-- The response that ends the command with tag 9. -/
def final9 : List UInt8 := [0xc0, 0, 1, 1, 2, 0xc4, 0x0b, 0xa3, 9]

/-- A node sends file content without being asked: no tag. -/
def push : List UInt8 := [0xc0, 0, 1, 1, 8, 0xa4, 0xbe, 0x20, 0x40, 0, 4, 0, 0xf3, 0, 0]

/-- The node has rebooted. -/
def reboot : List UInt8 := frame 1 5 [3]

/-- Commands with the tags 7 and 9. -/
def cmd7 : Command := .empty 7
def cmd9 : Command := .empty 9

/-- What `final7`, `more7`, `final9` and `push` are parsed to. -/
def cFinal7 : Command := ⟨[], none, false, some 7, true, true, some false⟩
def cMore7 : Command := ⟨[], none, false, some 7, true, false, some false⟩
def cFinal9 : Command := ⟨[], none, false, some 9, true, true, some false⟩
def cPush : Command :=
  ⟨[.regular false false (.returnFileData ⟨⟨0x40, ⟨0⟩⟩, ⟨4⟩, [0, 0xf3, 0, 0]⟩)], none, false, none, true,
    false, none⟩

/-- Steps of the reading thread and of the application thread. -/
def reads (n : Nat) : List Event := List.replicate n .reader
def mains (n : Nat) : List Event := List.replicate n .main

/-! ### C44: each message reaches exactly one sink -/

/-- C44. In every interleaving, each message the parser delivered and that is not still waiting was handed to
exactly one sink, one that is right for its type, in the order of arrival; the lists and callbacks
got nothing else. -/
theorem C44_one_sink {config : Config} {es : List Event} {s : State}
    (h : (init config).run es = some s) : ∃ log, HandedOver (init config) s log := by
  obtain ⟨-, log, hl, -⟩ := run_handedOver (init_ok config) h
  exact ⟨log, hl⟩

example : ((init plain).run ([.rx (final9 ++ reboot)] ++ reads 9)).map (fun s =>
    (s.unsolicited, s.rebooted, s.received.length, s.reader)) =
    some ([[.command cFinal9]], [[.rebooted 3]], 2, .reading) := by decide +kernel

/-- The same between any two moments. -/
theorem C44_between {config : Config} {es es' : List Event} {s s' : State}
    (h : (init config).run es = some s) (h' : s.run es' = some s') : ∃ log, HandedOver s s' log := by
  obtain ⟨hok, -⟩ := run_handedOver (init_ok config) h
  obtain ⟨-, log, hl, -⟩ := run_handedOver hok h'
  exact ⟨log, hl⟩


set_option synthInstance.maxSize 1000 in
/-- A run in which all sinks are filled: a response, an unsolicited one, a reboot, a log text (nowhere) and,
once connected, a message for the callback. -/
example : ((init ⟨false, true, false⟩).run
    ([.call (.execute cmd7 10)] ++ mains 5 ++ [.rx (final7 ++ final9 ++ reboot ++ frame 1 4 [65])] ++
      reads 15 ++ [.main, .call (.connect false 0), .rx final9] ++ reads 4)).map (fun s =>
      (s.responses, s.unsolicited, s.rebooted, s.called, s.outcomes, s.received.length, s.reader)) =
    some ([[], [cFinal7]], [[.command cFinal9]], [[.rebooted 3]], [.command cFinal9],
      [.list 1, .bool true], 5, .reading) := by decide +kernel

/-- Seen from outside: what a sink got is, in order, a part of what was received. -/
theorem C44_order {config : Config} {es : List Event} {s : State}
    (h : (init config).run es = some s) :
    s.called.Sublist (s.received.map Prod.snd) ∧
    s.rebootedCalled.Sublist (s.received.map Prod.snd) ∧
    (∀ n, ((content s.responses n).map Msg.command).Sublist (s.received.map Prod.snd)) ∧
    (∀ n, (content s.unsolicited n).Sublist (s.received.map Prod.snd)) ∧
    ∀ n, (content s.rebooted n).Sublist (s.received.map Prod.snd) := by
  obtain ⟨log, hl⟩ := C44_one_sink h
  obtain ⟨new, h1, h2⟩ := hl.messages
  have key : ∀ k, (toSink log k).Sublist (s.received.map Prod.snd) := by
    intro k
    refine (toSink_sublist log k).trans ?_
    have : s.received = log.map Prod.snd ++ pending s.reader := by rw [h2, h1]; rfl
    rw [this, List.map_append]
    exact List.sublist_append_left _ _
  have nil : ∀ {α : Type} (n : Nat), content ([[]] : List (List α)) n = [] := by
    intro α n
    unfold content
    cases n <;> simp
  refine ⟨?_, ?_, fun n => ?_, fun n => ?_, fun n => ?_⟩
  · rw [hl.called]; exact key _
  · rw [hl.rebootedCalled]; exact key _
  · rw [hl.responses n, show (init config).responses = [[]] from rfl, nil]; exact key _
  · rw [hl.unsolicited n, show (init config).unsolicited = [[]] from rfl, nil]; exact key _
  · rw [hl.rebooted n, show (init config).rebooted = [[]] from rfl, nil]; exact key _

example : ((init plain).run ([.rx (final7 ++ reboot ++ final9)] ++ reads 13)).map
    (fun s => (s.unsolicited, s.received.map Prod.snd)) =
    some ([[.command cFinal7, .command cFinal9]], [.command cFinal7, .rebooted 3, .command cFinal9]) := by
  decide +kernel

/-- What was received is what the serial parser makes of the bytes read, however they were split and whatever
was sent in between. -/
theorem C44_received {config : Config} {es : List Event} {s : State}
    (h : (init config).run es = some s) (hd : s.reader.isDead = false) :
    ∃ p errs, feed (Parser.new config.skip) (chunks es) = .ok (p, s.received, errs) := by
  obtain ⟨p, new, errs, h1, -, h3⟩ := received_feed h hd (Parser.new config.skip) ⟨rfl, rfl⟩
  exact ⟨p, errs, by rw [h1, h3]; rfl⟩

example : ((init plain).run [.rx (final9.take 4), .reader, .rx (final9.drop 4)]).map (fun s =>
    (s.received, s.reader.isDead)) = some ([(1, .command cFinal9)], false) := by decide +kernel

/-- If the bytes read are correct frames, exactly their messages were received. -/
theorem C44_frames {config : Config} {es : List Event} {s : State} (h : (init config).run es = some s)
    (fs : List Sent) (hfs : ∀ f ∈ fs, f.Valid config.skip)
    (hb : (chunks es).flatten = (fs.map Sent.bytes).flatten)
    (hser : Event.serialError ∉ es) (hcb : Event.callbackRaises ∉ es) :
    s.received = fs.map Sent.delivered := by
  by_cases hne : chunks es = []
  · have hfs0 : fs = [] := by
      rw [hne] at hb
      cases fs with
      | nil => rfl
      | cons f fs => simp [Sent.bytes, frame] at hb
    have hd := not_dead h rfl (Parser.new config.skip) ⟨rfl, rfl⟩ (by rw [hne]; exact ⟨_, rfl⟩) hser hcb
    obtain ⟨p, errs, h1⟩ := C44_received h hd
    rw [hne] at h1
    injection h1 with h1
    rw [hfs0]
    exact (congrArg (fun x => x.2.1) h1).symm
  · have hf := feed_frames (chunks es) (Parser.new config.skip) fs hfs hne hb
    have hd := not_dead h rfl (Parser.new config.skip) ⟨rfl, rfl⟩ ⟨_, hf⟩ hser hcb
    obtain ⟨p, errs, h1⟩ := C44_received h hd
    rw [hf] at h1
    injection h1 with h1
    exact (congrArg (fun x => x.2.1) h1).symm

/-- The bytes of the reboot and log frames of the example, in two chunks. -/
example : ∀ s, (init plain).run [.rx [0xc0, 0, 1], .reader, .rx (reboot.drop 3 ++ frame 1 4 [65])] = some s →
    s.received = [(5, .rebooted 3), (4, .bytes [65])] := fun s h =>
  C44_frames h [⟨1, 5, [3], .rebooted 3⟩, ⟨1, 4, [65], .bytes [65]⟩]
    (by
      intro f hf
      simp only [List.mem_cons, List.not_mem_nil, or_false] at hf
      rcases hf with rfl | rfl
      · exact ⟨by decide, .rebooted 3⟩
      · exact ⟨by decide, .logging _⟩)
    (by decide +kernel) (by decide) (by decide)

/-- As long as the reading thread lives, letting it run hands over everything that waits. -/
theorem C44_drains (s : State) (hd : s.reader.isDead = false) :
    ∃ k s', s.run (List.replicate k .reader) = some s' ∧ pending s'.reader = [] := by
  obtain ⟨k, s', h1, h2⟩ := drains _ s (le_refl _) hd
  exact ⟨k, s', h1, by rw [h2]; rfl⟩

example : ((init plain).run [.rx (push ++ reboot)]).map (fun s => ((pending s.reader).length, s.reader.isDead)) =
    some (2, false) := by decide +kernel

/-! ### C45: unsolicited messages reach the application -/

/-- C45 is false: no command was ever executed, so nothing is pending; a message that a node sends on its own
(without a tag) arrives, and neither the callback of the connected modem nor the unsolicited list gets it
(`None == None` in modem/modem.py 221). -/
theorem C45_refuted : ∃ s, (init ⟨false, true, false⟩).run
    ([.call (.connect false 0), .rx push] ++ reads 5) = some s ∧
    s.received = [(1, .command cPush)] ∧ pending s.reader = [] ∧ s.called = [] ∧
    s.unsolicited = [[]] := by
  obtain ⟨s, h, hs⟩ := Option.map_eq_some_iff.1 (show ((init ⟨false, true, false⟩).run
    ([.call (.connect false 0), .rx push] ++ reads 5)).map (fun s =>
      (s.received, pending s.reader, s.called, s.unsolicited)) =
    some ([(1, .command cPush)], [], [], [[]]) by decide +kernel)
  simp only [Prod.mk.injEq] at hs
  exact ⟨s, h, hs⟩

/-- It is not an accident: as long as no command is executed synchronously, no message without a tag ever
reaches the application. -/
theorem C45_untagged_lost {config : Config} (hk : config.skip = false) {es : List Event} {s : State}
    (h : (init config).run es = some s) (he : ∀ e ∈ es, syncTag e = none) (c : Command)
    (hc : c.tagId = none) :
    Msg.command c ∉ s.called ∧ ∀ n, Msg.command c ∉ content s.unsolicited n := by
  have h0 : NoTag (init config) := by
    refine ⟨rfl, hk, trivial, trivial, by simp [init], ?_⟩
    intro n m hm
    cases n <;> simp [content, init] at hm
  have := run_induction (P := NoTag) h h0 fun a e b h1 h2 h3 => noTag_step h1 (he e h2) h3
  obtain ⟨-, -, -, -, h5, h6⟩ := this
  exact ⟨fun hm => h5 _ hm ⟨c, rfl, hc⟩, fun n hm => h6 n _ hm ⟨c, rfl, hc⟩⟩

/-- A modem whose callback is active receives an untagged message. -/
example : ((init ⟨false, true, false⟩).run ([.call (.connect false 0), .rx push] ++ reads 5)).map
    (fun s => (s.received, s.called, s.unsolicited)) = some ([(1, .command cPush)], [], [[]]) ∧
    ∀ e ∈ [Event.call (.connect false 0), .rx push] ++ reads 5, syncTag e = none := by decide +kernel

/-- C45, what holds: an ALP or ping message that was handed over went to the callback or to an unsolicited
list, unless it is a command without a tag or with the tag of a command executed synchronously before. -/
theorem C45_partial {config : Config} {es : List Event} {s : State}
    (h : (init config).run es = some s) :
    ∃ log, HandedOver (init config) s log ∧ ∀ k t m, (k, t, m) ∈ log → t ≤ 3 →
      (k = .callback ∨ ∃ n, k = .unsolicited n) ∨
      ∃ c : Command, m = .command c ∧ (c.tagId = none ∨ ∃ e ∈ es, syncTag e = some c.tagId) := by
  obtain ⟨log, hl⟩ := C44_one_sink h
  refine ⟨log, hl, fun k t m hm ht => ?_⟩
  have hr := hl.right _ hm
  cases k with
  | callback => exact .inl (.inl rfl)
  | unsolicited n => exact .inl (.inr ⟨n, rfl⟩)
  | rebootedCallback => have := hr.1; simp only at this; omega
  | rebooted n => have := hr.1; simp only at this; omega
  | nowhere => simp only [RightSink] at hr; omega
  | response n =>
    have hmem : m ∈ (content s.responses n).map Msg.command := by
      rw [hl.responses n]
      exact List.mem_append_right _ (toSink_mem hm)
    obtain ⟨c, hc, rfl⟩ := List.mem_map.1 hmem
    refine .inr ⟨c, rfl, ?_⟩
    have h0 : TagsIn (fun t => t = none ∨ ∃ e ∈ es, syncTag e = some t) 0 (init config) := by
      refine ⟨.inl rfl, trivial, trivial, ?_⟩
      intro n _ c hc
      cases n <;> simp [content, init] at hc
    exact (tagsIn_run (.inl rfl) h0 (fun e hm t ht => .inr ⟨e, hm, ht⟩) h).2.2.2 n (Nat.zero_le n) c hc

/-- An unsolicited message with a tag of its own, while the command with tag 7 is pending: it reaches the
callback. -/
example : ((init ⟨false, true, false⟩).run ([.call (.connect false 0), .call (.execute cmd7 10)] ++ mains 5 ++
    [.rx final9] ++ reads 4)).map (fun s => (s.called, s.responses)) =
    some ([.command cFinal9], [[], []]) := by decide +kernel

/-- The first exception of C45 in general: a command whose tag equals the current one (which may be `None`, or
belong to a command that timed out or was answered long ago) is appended to the last list of responses,
and the application is not told. -/
theorem C45_swallowed (s : State) (hk : s.config.skip = false) (hl : s.responses ≠ []) (t : Int)
    (ht : t ≤ 3) (c : Command) (q : List (Int × Msg)) (hr : s.reader = .next ((t, .command c) :: q))
    (hc : c.tagId = s.tag) :
    ∃ s', s.run (reads 4) = some s' ∧ s'.reader = .next q ∧
      content s'.responses (s.responses.length - 1) =
        content s.responses (s.responses.length - 1) ++ [c] ∧
      s'.called = s.called ∧ s'.unsolicited = s.unsolicited ∧ s'.outcomes = s.outcomes := by
  refine ⟨{ s with
    responses := s.responses.modify (s.responses.length - 1) (· ++ [c])
    completed := s.completed || c.executionCompleted, reader := .next q }, ?_, rfl, ?_, rfl, rfl, rfl⟩
  · simp [reads, List.replicate, State.run, State.step, State.readerStep, hr, State.isSync, hk, ht, hc]
  · simp only
    rw [content_modify _ _ _ (length_pred_lt hl)]
    simp

/-- The command is answered; a second answer waits. -/
example : ((init ⟨false, true, false⟩).run ([.call (.connect false 0), .call (.execute cmd7 10)] ++ mains 5 ++
      [.rx final7] ++ reads 5 ++ [.main, .rx final7])).map
    (fun s => (s.reader, s.tag, s.responses.length)) = some (.next [(1, .command cFinal7)], some 7, 2) := by
  decide +kernel

/-- It happens after a command was answered: the tag stays set, and a second final response with the same tag
is lost (it grows the list that was already returned). -/
theorem C45_late_response : ∃ s, (init ⟨false, true, false⟩).run ([.call (.connect false 0),
      .call (.execute cmd7 10)] ++ mains 5 ++ [.rx final7] ++ reads 5 ++ [.main, .rx final7] ++ reads 5) =
        some s ∧
    s.outcomes = [.bool true, .list 1] ∧ content s.responses 1 = [cFinal7, cFinal7] ∧ s.called = [] ∧
    s.unsolicited = [[]] := by
  obtain ⟨s, h, hs⟩ := Option.map_eq_some_iff.1 (show ((init ⟨false, true, false⟩).run
    ([.call (.connect false 0),
      .call (.execute cmd7 10)] ++ mains 5 ++ [.rx final7] ++ reads 5 ++ [.main, .rx final7] ++
        reads 5)).map (fun s => (s.outcomes, content s.responses 1, s.called, s.unsolicited)) =
    some ([.bool true, .list 1], [cFinal7, cFinal7], [], [[]]) by decide +kernel)
  simp only [Prod.mk.injEq] at hs
  exact ⟨s, h, hs⟩

/-- With `skip_alp_parsing` C45 holds: every ALP or ping message handed over went to the callback or to an
unsolicited list. -/
theorem C45_skip_mode {config : Config} (hk : config.skip = true) {es : List Event} {s : State}
    (h : (init config).run es = some s) :
    ∃ log, HandedOver (init config) s log ∧
      ∀ k t m, (k, t, m) ∈ log → t ≤ 3 → k = .callback ∨ ∃ n, k = .unsolicited n := by
  obtain ⟨log, hl⟩ := C44_one_sink h
  refine ⟨log, hl, fun k t m hm ht => ?_⟩
  have hr := hl.right _ hm
  cases k with
  | callback => exact .inl rfl
  | unsolicited n => exact .inr ⟨n, rfl⟩
  | rebootedCallback => have := hr.1; simp only at this; omega
  | rebooted n => have := hr.1; simp only at this; omega
  | nowhere => simp only [RightSink] at hr; omega
  | response n => have := hr.2; rw [show (init config).config = config from rfl, hk] at this; cases this

example : ((init ⟨true, false, false⟩).run ([.rx push] ++ reads 5)).map (fun s => s.unsolicited) =
    some [[.bytes [0x20, 0x40, 0, 4, 0, 0xf3, 0, 0]]] := by decide +kernel

/-! ### C55: the reading thread keeps going -/

/-- C55 is false: a frame with a correct CRC whose payload is not valid ALP ends the reading thread; the
message after it is never received. -/
theorem C55_refuted : ∃ s, (init plain).run [.rx (frame 1 1 [0x32, 0] ++ final7)] = some s ∧
    s.reader = .dead [] ∧ s.received = [] := by
  obtain ⟨s, h, hs⟩ := Option.map_eq_some_iff.1 (show ((init plain).run
    [.rx (frame 1 1 [0x32, 0] ++ final7)]).map (fun s => (s.reader, s.received)) =
    some (.dead [], []) by decide +kernel)
  simp only [Prod.mk.injEq] at hs
  exact ⟨s, h, hs⟩

/-- A serial error, which the code means to survive by reconnecting, ends it in every state. -/
theorem C55_serial_error {s s' : State} (h : s.step .serialError = some s') :
    s'.reader.isDead = true := by
  simp only [State.step] at h
  unfold State.serialErrorStep at h
  split at h <;> cases h
  rfl

example : ((init plain).step .serialError).isSome = true := by decide

/-- After its end nothing is received or handed over any more, whatever happens. -/
theorem C55_dead_forever {s s' : State} {es : List Event} (hd : s.reader.isDead = true)
    (h : s.run es = some s') :
    s'.reader.isDead = true ∧ s'.received = s.received ∧ s'.called = s.called ∧
    s'.rebootedCalled = s.rebootedCalled ∧ (∀ n, content s'.responses n = content s.responses n) ∧
    (∀ n, content s'.unsolicited n = content s.unsolicited n) ∧
    ∀ n, content s'.rebooted n = content s.rebooted n := by
  refine run_induction (P := fun s' => s'.reader.isDead = true ∧ s'.received = s.received ∧
    s'.called = s.called ∧
    s'.rebootedCalled = s.rebootedCalled ∧ (∀ n, content s'.responses n = content s.responses n) ∧
    (∀ n, content s'.unsolicited n = content s.unsolicited n) ∧
    ∀ n, content s'.rebooted n = content s.rebooted n) h
    ⟨hd, rfl, rfl, rfl, fun _ => rfl, fun _ => rfl, fun _ => rfl⟩ ?_
  rintro a e b ⟨h1, h2, h3, h4, h5, h6, h7⟩ - hst
  have hsame : Same a b := by
    obtain ⟨q, hq⟩ : ∃ q, a.reader = .dead q := by
      cases hr : a.reader <;> rw [hr] at h1 <;> first | exact ⟨_, rfl⟩ | cases h1
    cases e with
    | call c => simp only [State.step] at hst; split at hst <;> cases hst; exact same_startCall a c
    | main => exact same_mainStep hst
    | timeout => exact same_timeoutStep hst
    | rx bs => simp [State.step, State.rxStep, hq] at hst
    | reader => simp [State.step, State.readerStep, hq] at hst
    | callbackRaises => simp [State.step, State.raiseStep, hq] at hst
    | serialError => simp [State.step, State.serialErrorStep, hq] at hst
  have hh := hsame.handedOver
  obtain ⟨-, g2, g3, g4, g5, -⟩ := hsame
  refine ⟨by rw [g2]; exact h1, by rw [g3, h2], ?_, ?_, fun n => ?_, fun n => ?_, fun n => ?_⟩
  · rw [hh.called, h3]; simp
  · rw [hh.rebootedCalled, h4]; simp
  · rw [← h5 n]
    have := hh.responses n
    simp only [toSink_nil, List.append_nil] at this
    exact (List.map_inj_right (fun x y hxy => by cases hxy; rfl)).1 this
  · rw [hh.unsolicited n, h6 n]; simp
  · rw [hh.rebooted n, h7 n]; simp

example : ((init plain).run [.rx (frame 1 1 [0x32, 0])]).map (fun s => (s.reader.isDead, (s.run
    [.call (.connect false 0), .call (.execute cmd7 0), .main]).isSome)) = some (true, true) := by decide +kernel

/-- What holds: without serial errors and exceptions of callbacks, the only thing that ends the reading thread
is a received frame with a correct CRC whose payload is not a reboot or log text, makes the ALP parser fail an
assertion without a message, and `skip_alp_parsing` is off. -/
theorem C55_partial {config : Config} {es : List Event} {s : State}
    (h : (init config).run es = some s) (hser : Event.serialError ∉ es)
    (hcb : Event.callbackRaises ∉ es) (hd : s.reader.isDead = true) :
    config.skip = false ∧
    ∃ pre counter type payload after st, (chunks es).flatten = pre ++ frame counter type payload ++ after ∧
      payload.length ≤ 255 ∧ type ≠ 4 ∧ type ≠ 5 ∧
      AlpParser.parse payload.length (stream (payload ++ after)) = .err (.assertion false) st := by
  have hf : ¬ ∃ r, feed (Parser.new config.skip) (chunks es) = .ok r := by
    intro hf
    have := not_dead h rfl (Parser.new config.skip) ⟨rfl, rfl⟩ hf hser hcb
    rw [hd] at this
    cases this
  have hne : chunks es ≠ [] := fun h => hf (by rw [h]; exact ⟨_, rfl⟩)
  have ht := feed_trace (chunks es) (Parser.new config.skip) hne
  split at ht
  · next hesc =>
    have hp := parse_trace (Parser.new config.skip) (chunks es).flatten
    unfold finish at hp
    simp only [hesc, if_true] at hp
    obtain ⟨-, h2, -, pre, c, t, pl, after, st, h3, h4, h5⟩ := C36_raises_partial _ _ _ _ hp
    refine ⟨h2, pre, c, t, pl, after, st, ?_, h5⟩
    rw [List.append_assoc, ← h4, ← h3]
    rfl
  · obtain ⟨q, es', h1, -⟩ := ht
    exact absurd ⟨_, h1⟩ hf

/-- A forward to an unknown interface. -/
example : ((init plain).run [.rx (final9 ++ frame 1 1 [0x32, 0])]).map (fun s => s.reader.isDead) = some true := by
  decide +kernel

/-- With `skip_alp_parsing` nothing that is received ends the reading thread. -/
theorem C55_skip_mode {config : Config} (hk : config.skip = true) {es : List Event} {s : State}
    (h : (init config).run es = some s) (hser : Event.serialError ∉ es)
    (hcb : Event.callbackRaises ∉ es) : s.reader.isDead = false := by
  cases hd : s.reader.isDead with
  | false => rfl
  | true => have := (C55_partial h hser hcb hd).1; rw [hk] at this; cases this

example : ((init ⟨true, false, false⟩).run ([.rx (frame 1 1 [0x32, 0] ++ final7)] ++ reads 9)).map
    (fun s => s.unsolicited) = some [[.bytes [0x32, 0], .bytes [0xa3, 7]]] := by decide +kernel

end Verif.Modem
