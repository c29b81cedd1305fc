import Verif.Lemmas.Pushes
import Verif.Props.ModemCalls

/-! What nodes send on their own reaches the callback. -/

namespace Verif.Modem

open Verif Verif.Serial

/-- Connected without a check, a command executed, and its time over. -/
def afterTimeout : List Event :=
  [.call (.connect false 0), .call (.execute cmd7 10)] ++ mains 5 ++ [.timeout]

/-! ### C87 -/

/-- C87, what holds: the modem has a callback, is connected, has written something, and is not in the middle
of handing over a message. From then on, whatever calls are made (calm interleavings), the callback gets, in
order and each once, the ALP and ping messages whose tag no call compares with, but for those that still
wait. Nothing is assumed about when calls return, time out or raise, or how bytes arrive. -/
theorem C87_unasked_partial {config : Config} (hk : config.skip = false) (hcb : config.callback = true)
    {es es' : List Event} {s s' : State} (h : (init config).run es = some s) (h' : s.run es' = some s')
    (hcon : s.connected = true) (hw : s.written ≠ []) (hb : betweenMessages s.reader = true)
    (hc : Calm s es') :
    ∃ new calls, s'.received = s.received ++ new ∧ s'.called = s.called ++ calls ∧
      calls.filterMap (unasked (es ++ es')) ++ (pending s'.reader).filterMap (pushed (es ++ es')) =
        (pending s.reader ++ new).filterMap (pushed (es ++ es')) := by
  have hr := Pu.ready_start (T := fun t => some t ∈ (es ++ es').map awaited) hk hcb h
    (fun e he t ht => List.mem_map.2 ⟨e, by simp [he], ht⟩) hcon hw hb
  exact (Pu.ready_run (u := unasked (es ++ es')) (fun c hc => by unfold unasked; exact if_pos hc) hr
    (fun e he t ht => List.mem_map.2 ⟨e, by simp [he], ht⟩) hc h').2

/-- The command with tag 7 has timed out, another one with tag 9 is being executed. Two messages without
a tag arrive, between them the answer; the callback gets the two. -/
example : ∃ s s', (init ⟨false, true, false⟩).run afterTimeout = some s ∧
    s.run ([.call (.execute cmd9 10)] ++ mains 5 ++ [.rx (push ++ final9 ++ push)] ++ reads 11) = some s' ∧
    s.connected = true ∧ s.written ≠ [] ∧ betweenMessages s.reader = true ∧
    Calm s ([.call (.execute cmd9 10)] ++ mains 5 ++ [.rx (push ++ final9 ++ push)] ++ reads 11) ∧
    s'.called = [.command cPush, .command cPush] ∧ pending s'.reader = [] ∧
    unasked (afterTimeout ++ ([.call (.execute cmd9 10)] ++ mains 5 ++ [.rx (push ++ final9 ++ push)] ++
      reads 11)) (.command cPush) = some cPush := by
  refine ⟨((init ⟨false, true, false⟩).run afterTimeout).get (by decide +kernel),
    ((init ⟨false, true, false⟩).run (afterTimeout ++ ([.call (.execute cmd9 10)] ++ mains 5 ++
      [.rx (push ++ final9 ++ push)] ++ reads 11))).get (by decide +kernel), ?_⟩
  decide +kernel

/-- Every command executed has a tag and its caller waits: then messages without a tag are unasked. -/
theorem unasked_untagged {es : List Event} (hw : ∀ e ∈ es, Waits e) (c : Command) (hc : c.tagId = none) :
    unasked es (.command c) = some c := by
  refine if_neg ?_
  rw [hc]
  intro hm
  obtain ⟨e, he, ha⟩ := List.mem_map.1 hm
  have := hw e he
  unfold awaited at ha
  split at ha
  · simp only [Waits] at this
    rw [if_pos this.2] at ha
    exact this.1 (Option.some.inj ha)
  · cases ha
  · cases ha

example : (∀ e ∈ afterTimeout, Waits e) ∧ cPush.tagId = none := by decide +kernel

/-- C87, what holds, in terms of frames: the bytes that arrived before and after a quiet moment are correct
frames. If every command executed has a tag and its caller waits, the messages without a tag that
the callback gets after that moment are, once everything is dealt with, exactly those sent after it. -/
theorem C87_pushes_partial {config : Config} (hk : config.skip = false) (hcb : config.callback = true)
    {es es' : List Event} {s s' : State} (h : (init config).run es = some s) (h' : s.run es' = some s')
    (hcon : s.connected = true) (hw : s.written ≠ []) (hq : s.reader = .reading) (hq' : s'.reader = .reading)
    (hc : Calm s es') (hwait : ∀ e ∈ es ++ es', Waits e)
    (fs fs' : List Sent) (hfs : ∀ f ∈ fs ++ fs', f.Valid false)
    (hb : (chunks es).flatten = (fs.map Sent.bytes).flatten)
    (hb' : (chunks es').flatten = (fs'.map Sent.bytes).flatten) :
    ∃ calls, s'.called = s.called ++ calls ∧ calls.filterMap untaggedOf = fs'.filterMap pushOf := by
  have hT : ∀ e ∈ es ++ es', ∀ t, awaited e = some t → t ≠ none := by
    intro e he t ht
    have := hwait e he
    unfold awaited at ht
    split at ht
    · simp only [Waits] at this
      rw [if_pos this.2] at ht
      rw [← Option.some.inj ht]
      exact this.1
    · rw [← Option.some.inj ht]; simp
    · cases ht
  have hr := Pu.ready_start (T := fun t => t ≠ none) hk hcb h (fun e he => hT e (by simp [he])) hcon hw
    (by rw [hq]; rfl)
  obtain ⟨new, calls, h1, h2, h3⟩ := (Pu.ready_run (u := untaggedOf) (fun c hc => if_neg hc) hr
    (fun e he => hT e (by simp [he])) hc h').2
  refine ⟨calls, h2, ?_⟩
  rw [hq, hq'] at h3
  simp only [pending, List.filterMap_nil, List.append_nil, List.nil_append] at h3
  rw [h3]
  have r1 := Pu.received_frames h (by rw [hq]; rfl) fs (fun f hf => by rw [hk]; exact hfs f (by simp [hf])) hb
  have r2 := Pu.received_frames (run_append.2 ⟨s, h, h'⟩) (by rw [hq']; rfl) (fs ++ fs')
    (fun f hf => by rw [hk]; exact hfs f hf) (by
      rw [Pu.chunks_append, List.flatten_append, hb, hb', List.map_append, List.flatten_append])
  rw [h1, r1, List.map_append] at r2
  rw [List.append_cancel_left r2, List.filterMap_map]
  congr 1
  funext f
  simp only [Function.comp_apply, Sent.delivered, pushOf]
  congr 1
  simp

/-- A node sends a message on its own before and after the quiet moment, the second one cut in two; the
command in between is answered. -/
example : ∃ s s', (init ⟨false, true, false⟩).run afterTimeout = some s ∧
    s.run ([.rx (push.take 5), .reader, .call (.execute cmd9 10)] ++ mains 5 ++
      [.rx (push.drop 5 ++ final9)] ++ reads 8 ++ [.main]) = some s' ∧
    s.connected = true ∧ s.written ≠ [] ∧ s.reader = .reading ∧ s'.reader = .reading ∧
    Calm s ([.rx (push.take 5), .reader, .call (.execute cmd9 10)] ++ mains 5 ++
      [.rx (push.drop 5 ++ final9)] ++ reads 8 ++ [.main]) ∧
    (∀ e ∈ afterTimeout ++ ([.rx (push.take 5), .reader, .call (.execute cmd9 10)] ++ mains 5 ++
      [.rx (push.drop 5 ++ final9)] ++ reads 8 ++ [.main]), Waits e) ∧
    (chunks afterTimeout).flatten = [] ∧
    push ++ final9 = (([⟨1, 1, push.drop 7, .command cPush⟩, ⟨1, 1, final9.drop 7, .command cFinal9⟩] :
      List Sent).map Sent.bytes).flatten ∧
    s'.outcomes = [.bool true, .empty, .list 2] ∧ s'.called = [.command cPush] := by
  refine ⟨((init ⟨false, true, false⟩).run afterTimeout).get (by decide +kernel),
    ((init ⟨false, true, false⟩).run (afterTimeout ++ ([.rx (push.take 5), .reader,
      .call (.execute cmd9 10)] ++ mains 5 ++ [.rx (push.drop 5 ++ final9)] ++ reads 8 ++
      [.main]))).get (by decide +kernel), ?_⟩
  decide +kernel

/-- The two frames are valid. -/
example : ∀ f ∈ ([⟨1, 1, push.drop 7, .command cPush⟩, ⟨1, 1, final9.drop 7, .command cFinal9⟩] : List Sent),
    f.Valid false := by
  intro f hf
  simp only [List.mem_cons, List.not_mem_nil, or_false] at hf
  rcases hf with rfl | rfl
  · exact ⟨by decide, .alp _ _ _ rfl (by decide) (by decide) (by decide +kernel)⟩
  · exact ⟨by decide, .alp _ _ _ rfl (by decide) (by decide) (by decide +kernel)⟩

/-- If `connect` is only called with its check, then being connected means that something was written: a
successful `connect` is enough for the above. -/
theorem C87_connect_suffices {config : Config} (hk : config.skip = false) {es : List Event} {s : State}
    (h : (init config).run es = some s) (he : ∀ e ∈ es, ∀ r, e ≠ .call (.connect false r))
    (hcon : s.connected = true) : s.written ≠ [] :=
  (run_induction (P := Pu.Wrote) h ⟨hk, fun _ _ _ _ _ h => (by cases h), fun _ _ _ _ h => (by cases h),
    fun h => (by cases h)⟩ fun _ e _ hp hm hst => Pu.wrote_step hp (he e hm) hst).connected hcon

/-- After a successful `connect` a message without a tag arrives. -/
example : ((init ⟨false, true, false⟩).run (connect7 info7 ++ [.rx push] ++ reads 4)).map (fun s =>
      (s.connected, s.outcomes, s.called)) = some (true, [.bool true], [.command cPush]) ∧
    ∀ e ∈ connect7 info7 ++ [.rx push] ++ reads 4, awaited e ≠ none → e = .call (.connect true 7) := by
  decide +kernel

/-- Programs that make their calls first and then only listen: here every interleaving is calm, and nothing is
assumed about earlier calls but that messages have other tags. -/
theorem C87_listening {config : Config} (hk : config.skip = false) (hcb : config.callback = true)
    {es es' : List Event} {s s' : State} (h : (init config).run es = some s) (h' : s.run es' = some s')
    (hcon : s.connected = true) (hw : s.written ≠ []) (hb : betweenMessages s.reader = true)
    (hi : s.main = .idle) (he' : ∀ e ∈ es', NoCall e) :
    ∃ new calls, s'.received = s.received ++ new ∧ s'.called = s.called ++ calls ∧
      calls.filterMap (unasked es) ++ (pending s'.reader).filterMap (pushed es) =
        (pending s.reader ++ new).filterMap (pushed es) := by
  have hr := Pu.ready_start (T := fun t => some t ∈ es.map awaited) hk hcb h
    (fun e he t ht => List.mem_map.2 ⟨e, he, ht⟩) hcon hw hb
  exact (Pu.ready_run (u := unasked es) (fun c hc => by unfold unasked; exact if_pos hc) hr
    (fun e he t ht => by rw [Pu.noCall_awaited (he' e he)] at ht; cases ht) (Pu.calm_noCall hi he') h').2

example : ∃ s s', (init ⟨false, true, false⟩).run afterTimeout = some s ∧
    s.run ([.rx (final7 ++ push)] ++ reads 8) = some s' ∧ s.connected = true ∧ s.written ≠ [] ∧
    betweenMessages s.reader = true ∧ s.main = .idle ∧
    (∀ e ∈ [Event.rx (final7 ++ push)] ++ reads 8, NoCall e) ∧
    s'.called = [.command cPush] ∧ unasked afterTimeout (.command cPush) = some cPush ∧
    unasked afterTimeout (.command cFinal7) = none := by
  refine ⟨((init ⟨false, true, false⟩).run afterTimeout).get (by decide +kernel),
    ((init ⟨false, true, false⟩).run (afterTimeout ++ ([.rx (final7 ++ push)] ++ reads 8))).get
      (by decide +kernel), ?_⟩
  decide +kernel

/-- Letting the reading thread run is calm unless a call is preparing for its responses, and deals with
everything that waits. -/
theorem C87_settles (s : State) (hd : s.reader.isDead = false) (hr : resetting s.main = false) :
    ∃ k s', s.run (List.replicate k .reader) = some s' ∧ s'.reader = .reading ∧
      Calm s (List.replicate k .reader) := by
  obtain ⟨k, s', h1, h2⟩ := drains _ s (le_refl _) hd
  exact ⟨k, s', h1, h2, Pu.calm_readers k s hr⟩

example : ((init ⟨false, true, false⟩).run (afterTimeout ++ [.rx (push ++ push)])).map
    (fun s => (s.reader.isDead, resetting s.main, pending s.reader)) =
    some (false, false, [(1, .command cPush), (1, .command cPush)]) := by decide +kernel

set_option synthInstance.maxSize 1000 in
/-- Without waiting it is false: after a command that was executed without waiting, what nodes send on their
own is lost again. -/
theorem C87_async_refuted : ∃ s, (init ⟨false, true, false⟩).run (afterTimeout ++
      [.call (.execute cmd9 0)] ++ mains 5 ++ [.rx push] ++ reads 5) = some s ∧
    s.outcomes = [.bool true, .empty, .empty] ∧ s.received = [(1, .command cPush)] ∧
    s.reader = .reading ∧ s.called = [] ∧ s.unsolicited = [[]] := by
  obtain ⟨s, h, hs⟩ := Option.map_eq_some_iff.1 (show ((init ⟨false, true, false⟩).run (afterTimeout ++
      [.call (.execute cmd9 0)] ++ mains 5 ++ [.rx push] ++ reads 5)).map (fun s =>
      (s.outcomes, s.received, s.reader, s.called, s.unsolicited)) =
    some ([.bool true, .empty, .empty], [(1, .command cPush)], .reading, [], [[]]) by decide +kernel)
  simp only [Prod.mk.injEq] at hs
  exact ⟨s, h, hs⟩

set_option synthInstance.maxSize 1000 in
/-- In interleavings that are not calm it is false: the message is looked at while a call with a tag, which
will wait, is between modem/modem.py 153 and 156. -/
theorem C87_reset_refuted : ∃ s, (init ⟨false, true, false⟩).run (afterTimeout ++
      [.call (.execute cmd9 10)] ++ mains 2 ++ [.rx push] ++ reads 5 ++ mains 3) = some s ∧
    (∀ e ∈ afterTimeout ++ [.call (.execute cmd9 10)] ++ mains 2 ++ [.rx push] ++ reads 5 ++ mains 3,
      Waits e) ∧ s.received = [(1, .command cPush)] ∧ s.reader = .reading ∧ s.called = [] ∧
    s.unsolicited = [[]] ∧ s.tag = some 9 := by
  obtain ⟨s, h, hs⟩ := Option.map_eq_some_iff.1 (show ((init ⟨false, true, false⟩).run (afterTimeout ++
      [.call (.execute cmd9 10)] ++ mains 2 ++ [.rx push] ++ reads 5 ++ mains 3)).map (fun s =>
      (s.received, s.reader, s.called, s.unsolicited, s.tag)) =
    some ([(1, .command cPush)], .reading, [], [[]], some 9) by decide +kernel)
  simp only [Prod.mk.injEq] at hs
  exact ⟨s, h, by decide +kernel, hs⟩

/-! ### C88: examples/unsolicited_response_logger.py -/

/-- C88. Once the logger is connected and between two messages, its callback is called, in order and each
once, with the ALP and ping messages that arrive, but for those with the tag its `connect` used and those that
still wait. This holds in every interleaving. -/
theorem C88_logged {rand : UInt8} {es es' : List Event} {s s' : State}
    (h : (init loggerConfig).run (loggerRun rand es) = some s) (he : ∀ e ∈ es, NoCall e)
    (h' : s.run es' = some s') (he' : ∀ e ∈ es', NoCall e)
    (hc : s.connected = true) (hb : betweenMessages s.reader = true) :
    ∃ new calls, s'.received = s.received ++ new ∧ s'.called = s.called ++ calls ∧
      calls.filterMap (unasked (loggerRun rand [])) ++
          (pending s'.reader).filterMap (pushed (loggerRun rand [])) =
        (pending s.reader ++ new).filterMap (pushed (loggerRun rand [])) :=
  Pu.calm_logged (u := unasked (loggerRun rand []))
    (fun c hc => by unfold unasked; exact if_pos (by simp [loggerRun, awaited, hc])) h he h' he' hc hb

/-- The logger with the answer of its device. -/
def loggerUp : List Event := mains 5 ++ [.rx info7] ++ reads 5 ++ [.main]

example : ∃ s s', (init loggerConfig).run (loggerRun 7 loggerUp) = some s ∧
    s.run ([.rx (push ++ reboot ++ final9)] ++ reads 10) = some s' ∧ (∀ e ∈ loggerUp, NoCall e) ∧
    (∀ e ∈ [Event.rx (push ++ reboot ++ final9)] ++ reads 10, NoCall e) ∧
    s.connected = true ∧ betweenMessages s.reader = true ∧
    s'.called = [.command cPush, .command cFinal9] ∧ s'.rebootedCalled = [.rebooted 3] := by
  refine ⟨((init loggerConfig).run (loggerRun 7 loggerUp)).get (by decide +kernel),
    ((init loggerConfig).run (loggerRun 7 loggerUp ++ ([.rx (push ++ reboot ++ final9)] ++
      reads 10))).get (by decide +kernel), ?_⟩
  decide +kernel

/-- C88 in terms of frames: between two quiet moments of the connected logger, the callback is called with
exactly the messages of the frames that arrived, but for those with the tag of `connect`. -/
theorem C88_frames {rand : UInt8} {es es' : List Event} {s s' : State}
    (h : (init loggerConfig).run (loggerRun rand es) = some s) (he : ∀ e ∈ es, NoCall e)
    (h' : s.run es' = some s') (he' : ∀ e ∈ es', NoCall e)
    (hc : s.connected = true) (hq : s.reader = .reading) (hq' : s'.reader = .reading)
    (fs fs' : List Sent) (hfs : ∀ f ∈ fs ++ fs', f.Valid false)
    (hb : (chunks es).flatten = (fs.map Sent.bytes).flatten)
    (hb' : (chunks es').flatten = (fs'.map Sent.bytes).flatten) :
    ∃ calls, s'.called = s.called ++ calls ∧
      calls.filterMap (unasked (loggerRun rand [])) =
        fs'.filterMap (fun f => pushed (loggerRun rand []) f.delivered) := by
  obtain ⟨new, calls, h1, h2, h3⟩ := C88_logged h he h' he' hc (by rw [hq]; rfl)
  refine ⟨calls, h2, ?_⟩
  rw [hq, hq'] at h3
  simp only [pending, List.filterMap_nil, List.append_nil, List.nil_append] at h3
  rw [h3]
  have r1 := Pu.received_frames h (by rw [hq]; rfl) fs (fun f hf => hfs f (by simp [hf]))
    (by simpa [loggerRun, chunks] using hb)
  have r2 := Pu.received_frames (run_append.2 ⟨s, h, h'⟩) (by rw [hq']; rfl) (fs ++ fs') hfs (by
      rw [Pu.chunks_append, List.flatten_append, hb', List.map_append, List.flatten_append, ← hb]
      simp [loggerRun, chunks])
  rw [h1, r1, List.map_append] at r2
  rw [List.append_cancel_left r2, List.filterMap_map]
  rfl

/-- The frames of the example above. -/
example : (chunks ([.rx (push ++ reboot)] ++ reads 7)).flatten =
      (([⟨1, 1, push.drop 7, .command cPush⟩, ⟨1, 5, [3], .rebooted 3⟩] : List Sent).map
        Sent.bytes).flatten ∧
    (chunks loggerUp).flatten = info7 ∧
    ((init loggerConfig).run (loggerRun 7 loggerUp ++ ([.rx (push ++ reboot)] ++ reads 7))).map
      (fun s => (s.reader, s.called)) = some (.reading, [.command cPush]) := by decide +kernel

/-- C88, reboots: with a callback for them, in every run of a modem, it is called with every reboot message
received that does not wait, in order, each once. -/
theorem C88_reboots {config : Config} (hr : config.rebootedCallback = true) {es : List Event} {s : State}
    (h : (init config).run es = some s) :
    s.rebootedCalled ++ (pending s.reader).filterMap rebootOf = s.received.filterMap rebootOf := by
  obtain ⟨log, hl⟩ := C44_one_sink h
  obtain ⟨new, h1, h2⟩ := hl.messages
  have h3 : s.received = log.map Prod.snd ++ pending s.reader := by rw [h2, h1]; rfl
  rw [h3, List.filterMap_append]
  congr 1
  rw [hl.rebootedCalled, show (init config).rebootedCalled = [] from rfl, List.nil_append]
  have hright := hl.right
  clear hl h1 h2 h3
  induction log with
  | nil => rfl
  | cons x log ih =>
    obtain ⟨k, t, m⟩ := x
    have hx := hright (k, t, m) (by simp)
    have := ih fun y hy => hright y (by simp [hy])
    rw [show ((k, t, m) :: log) = [(k, t, m)] ++ log from rfl, toSink_append, this, toSink_one,
      List.map_append, List.filterMap_append]
    congr 1
    simp only [List.map_cons, List.map_nil, List.filterMap_cons, List.filterMap_nil, rebootOf]
    have hcfg : (init config).config.rebootedCallback = true := hr
    cases k with
    | rebootedCallback => rw [if_pos rfl, if_pos hx.1]
    | rebooted n => have := hx.2; rw [hcfg] at this; cases this
    | response n => have := hx.1; rw [if_neg (by simp), if_neg (by simp only at this; omega)]
    | callback => have := hx.1; rw [if_neg (by simp), if_neg (by simp only at this; omega)]
    | unsolicited n =>
      have : t ≤ 3 := hx
      rw [if_neg (by simp), if_neg (by omega)]
    | nowhere =>
      have : t = 4 ∨ 5 < t := hx
      rw [if_neg (by simp), if_neg (by omega)]

example : ((init loggerConfig).run ([.rx (reboot ++ final9 ++ reboot)] ++ reads 7)).map
    (fun s => (s.rebootedCalled, pending s.reader, s.received.length)) =
    some ([.rebooted 3], [(5, .rebooted 3)], 3) := by decide +kernel

/-- Before a modem is connected its callback is never called. -/
theorem C88_silent_before {config : Config} {es : List Event} {s : State}
    (h : (init config).run es = some s) (hc : s.connected = false) : s.called = [] := by
  have := run_induction (P := fun s => s.connected = true ∨ Pu.Silent s) h
    (.inr ⟨rfl, rfl, fun _ _ _ h => (by cases h)⟩) fun _ _ _ hp _ hst => Pu.silent_step hp hst
  rcases this with h1 | h1
  · rw [hc] at h1; cases h1
  · exact h1.called

example : ((init loggerConfig).run ([.rx (push ++ final9)] ++ reads 9)).map
    (fun s => (s.connected, s.received.length, s.unsolicited)) =
    some (false, 2, [[.command cFinal9]]) := by decide +kernel

/-- C88, when the set-up fails: `connect` returns without being connected, which the program does not look at.
From then on it runs and calls its callback never, whatever arrives. -/
theorem C88_silent {rand : UInt8} {es es' : List Event} {s s' : State}
    (h : (init loggerConfig).run (loggerRun rand es) = some s) (h' : s.run es' = some s')
    (he' : ∀ e ∈ es', NoCall e) (hm : s.main = .idle) (hc : s.connected = false) : s'.called = [] := by
  have h1 : s'.main = .idle ∧ s'.connected = false :=
    run_induction (P := fun s => s.main = .idle ∧ s.connected = false) h' ⟨hm, hc⟩
      fun a e b hp hmem hst => by
        have := (Pu.noCall_main (he' e hmem) hst).1 hp.1
        exact ⟨this.1, this.2.trans hp.2⟩
  exact C88_silent_before (run_append.2 ⟨s, h, h'⟩) h1.2

/-- The device does not answer in time; then everything arrives. -/
example : ∃ s s', (init loggerConfig).run (loggerRun 7 (mains 5 ++ [.timeout])) = some s ∧
    s.run ([.rx (info7 ++ push ++ final9)] ++ reads 13) = some s' ∧
    (∀ e ∈ [Event.rx (info7 ++ push ++ final9)] ++ reads 13, NoCall e) ∧ s.main = .idle ∧
    s.connected = false ∧ s.outcomes = [.bool false] ∧ s'.received.length = 3 ∧
    pending s'.reader = [] ∧ s'.called = [] := by
  refine ⟨((init loggerConfig).run (loggerRun 7 (mains 5 ++ [.timeout]))).get (by decide +kernel),
    ((init loggerConfig).run (loggerRun 7 (mains 5 ++ [.timeout]) ++ ([.rx (info7 ++ push ++ final9)] ++
      reads 13))).get (by decide +kernel), ?_⟩
  decide +kernel

end Verif.Modem
