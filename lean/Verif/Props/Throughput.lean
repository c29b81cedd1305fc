import Verif.Lemmas.Throughput
import Verif.Props.Examples
import Verif.Props.ModemCalls
import Verif.Props.Pushes
import Verif.Props.Nodes

/-! C89: the receiver of the throughput test counts the messages of the nodes. -/

namespace Verif.Throughput

open Verif Verif.Serial Verif.Modem

/-! ### Examples -/

/-- Steps of the reading thread and of the main thread. -/
def reads (n : Nat) : List Event := List.replicate n (.reader Print.env)
def mains (n : Nat) (r : UInt8) : List Event := List.replicate n (.main r)

/-- `connect`, with the answer of the device. -/
def connecting : List Event := mains 6 7 ++ [.rx info7] ++ reads 5 ++ mains 2 7

/-- A command that is executed, with the tag `r`; the device does not answer in time. -/
def executing (r : UInt8) : List Event := mains 6 r ++ [.timeout] ++ mains 1 r

/-- The program up to the loop that waits for messages. -/
def ready : List Event := connecting ++ executing 8 ++ executing 9 ++ mains 2 0

/-- The payload of a message with which the node `k` sends the data 0, 1. -/
def nodePayload (k : UInt8) : List UInt8 := [0x62, 0xD7, 20] ++ nodeStatusBytes 70 k ++ [0x20, 0x40, 0, 2, 0, 1]

/-- What it means. -/
def nodeCommand (k : Nat) : Command :=
  ⟨[.regular false false (.returnFileData ⟨⟨0x40, ⟨0⟩⟩, ⟨2⟩, [0, 1]⟩)],
    some (.status 1 (.interfaceStatus ⟨0xD7, some (nodeStatus 70 k)⟩)), false, none, true, false, none⟩

/-! ### C89 -/

/-- C89, the set-up: when the program waits for messages it has written three frames to the receiver, messages are
compared with the tag of the last of them, and the receiver has told its identifier. -/
theorem C89_setup {es : List Event} {s : State} (h : init.run es = some s) (hs : s.stage = .running) :
    ∃ r1 r2 r3 : UInt8, s.modem.written = setup r1 r2 r3 ∧ s.modem.tag = some (r3.toNat : Int) ∧
      s.modem.uid.isSome = true ∧ s.modem.main = .idle ∧ s.commands.isSome = true := by
  have hd := doing_run h
  unfold Doing at hd
  rw [hs] at hd
  obtain ⟨hm, ⟨r1, r2, r3, hw, -, ht⟩, hc, hu⟩ := hd
  refine ⟨r1, r2, r3, ?_, ht (by rw [hm]; rfl), hu, hm, hc⟩
  have := hw.2
  rw [hm] at this
  simpa [unwritten, framesFrom, setup] using this

set_option synthInstance.maxSize 1000 in
example : (init.run ready).map (fun s => (s.stage, s.modem.written, s.modem.tag, s.modem.uid, s.modem.connected,
    s.modem.outcomes, s.commands)) = some (.running, setup 7 8 9, some 9, some 5, true, [.bool true, .empty, .empty],
    some []) := by decide +kernel

/-- C89, what holds: the program waits for messages, the receiver is connected and between two messages. From then on,
until the list is reset, in every interleaving, the list grows by exactly the messages that come from nodes and do not have
the tag of the last command: in order, each once, but for those that still wait. -/
theorem C89_counted_partial {es es' : List Event} {s s' : State} (h : init.run es = some s) (hs : s.stage = .running)
    (hc : s.modem.connected = true) (hb : betweenMessages s.modem.reader = true) (h' : s.run es' = some s')
    (he : ∀ e ∈ es', e ≠ .restart) :
    ∃ new l l', s'.modem.received = s.modem.received ++ new ∧ s.commands = some l ∧ s'.commands = some l' ∧
      l' ++ (pending s'.modem.reader).filterMap (counted s.modem.tag) =
        l ++ (pending s.modem.reader ++ new).filterMap (counted s.modem.tag) := by
  obtain ⟨_, _, _, _, _, _, hm, hcmd⟩ := C89_setup h hs
  have hcfg := config_eq h
  exact (grown_run hs ⟨by rw [hcfg]; rfl, by rw [hcfg]; rfl, hc, rfl, hm, clean_between hb⟩ hcmd he h').2.2

/-- A message of a node, a reboot, a message without status, an answer to the last command, and a message of another node;
two are counted. -/
example : ∃ s s', init.run ready = some s ∧ s.stage = .running ∧ s.modem.connected = true ∧
    s.modem.reader = .reading ∧ s.commands = some [] ∧
    s.run ([.rx (frame 1 1 (nodePayload 1) ++ Modem.reboot ++ Modem.push ++ Modem.final9 ++ frame 2 1 (nodePayload 2))] ++
      reads 18) = some s' ∧ s'.modem.reader = .reading ∧ s'.modem.received.length = 6 ∧
    s'.commands = some [nodeCommand 1, nodeCommand 2] := by
  refine ⟨(init.run ready).get (by decide +kernel), (init.run (ready ++ ([.rx (frame 1 1 (nodePayload 1) ++ Modem.reboot ++
    Modem.push ++ Modem.final9 ++ frame 2 1 (nodePayload 2))] ++ reads 18))).get (by decide +kernel), ?_⟩
  decide +kernel

private theorem feed_rest {es es' : List Event} {s : State} (h : init.run es = some s) (hr : s.modem.reader = .reading)
    (fs fs' : List Sent) (hfs : ∀ f ∈ fs ++ fs', f.Valid false)
    (hb : (chunks es).flatten = (fs.map Sent.bytes).flatten)
    (hb' : (chunks es').flatten = (fs'.map Sent.bytes).flatten) :
    ∃ q errs, feed s.modem.parser (chunks es') = .ok (q, fs'.map Sent.delivered, errs) := by
  obtain ⟨gs, h1, h2, -⟩ := run_modem h
  obtain ⟨p', new, errs, h3, h4, -⟩ := Modem.received_feed h1 (by rw [hr]; rfl) (Parser.new false) ⟨rfl, rfl⟩
  rw [h2] at h3
  have hp : p'.buffer = [] ∧ p'.skipAlpParsing = false := by
    by_cases hne : chunks es = []
    · rw [hne] at h3
      injection h3 with h3
      have h3 := congrArg Prod.fst h3
      simp only at h3
      rw [← h3]
      exact ⟨rfl, rfl⟩
    · rw [feed_frames (chunks es) (Parser.new false) fs (fun f hf => hfs f (by simp [hf])) hne hb] at h3
      injection h3 with h3
      have h3 := congrArg Prod.fst h3
      simp only at h3
      rw [← h3]
      exact ⟨rfl, (countAll_skip _ _).1⟩
  by_cases hne : chunks es' = []
  · have hfs0 : fs' = [] := by
      rw [hne] at hb'
      cases fs' with
      | nil => rfl
      | cons f fs => simp [Sent.bytes, frame] at hb'
    rw [hne, hfs0]
    exact ⟨_, _, rfl⟩
  · exact ⟨_, _, feed_frames (chunks es') s.modem.parser fs'
      (fun f hf => by rw [← h4.2, hp.2]; exact hfs f (by simp [hf])) hne (by rw [← h4.1, hp.1]; exact hb')⟩

/-- C89, what holds, in terms of frames: the bytes that arrive before and after a quiet moment are correct frames,
and after it messages with an interface status say from whom they come. The serial line does not fail and the list is
not reset. Then the reading thread only has to make some more steps, and the list has grown by exactly the messages
sent that come from nodes and do not have the tag of the last command. -/
theorem C89_frames_partial {es es' : List Event} {s s' : State} (h : init.run es = some s) (hs : s.stage = .running)
    (hc : s.modem.connected = true) (hr : s.modem.reader = .reading) (h' : s.run es' = some s')
    (he : ∀ e ∈ es', Steady e) (fs fs' : List Sent) (hfs : ∀ f ∈ fs ++ fs', f.Valid false)
    (ha : ∀ f ∈ fs', Attributed f.msg)
    (hb : (chunks es).flatten = (fs.map Sent.bytes).flatten)
    (hb' : (chunks es').flatten = (fs'.map Sent.bytes).flatten) (env : Print.Env) :
    ∃ k s'' l, s.commands = some l ∧ s'.run (List.replicate k (.reader env)) = some s'' ∧
      s''.modem.reader = .reading ∧
      s''.commands = some (l ++ fs'.filterMap fun f => counted s.modem.tag f.delivered) := by
  obtain ⟨_, _, _, _, _, _, hm, hcmd⟩ := C89_setup h hs
  have hcfg := config_eq h
  have hl : Listens s.modem.tag s.modem :=
    ⟨by rw [hcfg]; rfl, by rw [hcfg]; rfl, hc, rfl, hm, clean_between (by rw [hr]; rfl)⟩
  have hne : ∀ es : List Event, (∀ e ∈ es, Steady e) → ∀ e ∈ es, e ≠ .restart := fun es he e hm hx => by
    have := he e hm; rw [hx] at this; exact this
  obtain ⟨q, errs, hfeed⟩ := feed_rest h hr fs fs' hfs hb hb'
  obtain ⟨hd, ht⟩ := alive_run hs hl hcmd he (by rw [hr]; rfl) (fun x hx => by rw [hr] at hx; cases hx) s.modem.parser
    ⟨rfl, rfl⟩ ⟨_, _, _, hfeed, fun x hx h3 => by
      obtain ⟨f, hf, rfl⟩ := List.mem_map.1 hx
      exact harmless_valid (hfs f (by simp [hf])) (ha f hf) (by simpa [Sent.delivered] using h3)⟩ h'
  obtain ⟨h1, h2, _, _, l', _, _, hl', _⟩ := grown_run hs hl hcmd (hne _ he) h'
  obtain ⟨k, m', hk, hm'⟩ := Modem.drains _ s'.modem (le_refl _) hd
  obtain ⟨s'', h3, h4⟩ := drains env k s' m' h1 h2 (by rw [hl']; rfl) ht hk
  have hsteady : ∀ e ∈ es' ++ List.replicate k (.reader env), Steady e := by
    intro e hm
    rcases List.mem_append.1 hm with hm | hm
    · exact he e hm
    · rw [List.eq_of_mem_replicate hm]; trivial
  have hrun := run_append.2 ⟨s', h', h3⟩
  obtain ⟨new, l, l'', h5, h6, h7, h8⟩ := C89_counted_partial h hs hc (by rw [hr]; rfl) hrun (hne _ hsteady)
  refine ⟨k, s'', l, h6, h3, by rw [h4]; exact hm', ?_⟩
  rw [h4, hm', hr] at h8
  simp only [pending, List.filterMap_nil, List.append_nil, List.nil_append] at h8
  obtain ⟨gs, g1, g2, -⟩ := run_modem hrun
  obtain ⟨p', new', errs', g3, -, g4⟩ := Modem.received_feed g1 (by rw [h4, hm']; rfl) s.modem.parser ⟨rfl, rfl⟩
  have hch : chunks (es' ++ List.replicate k (.reader env)) = chunks es' := by
    rw [chunks_append]
    have : ∀ k, chunks (List.replicate k (.reader env)) = [] := by
      intro k
      induction k with
      | zero => rfl
      | succ k ih => rw [List.replicate_succ, chunks_cons, ih]; rfl
    rw [this, List.append_nil]
  rw [g2, hch, hfeed] at g3
  cases g3
  rw [g4] at h5
  have := List.append_cancel_left h5
  subst this
  rw [h7, h8, List.filterMap_map]
  rfl

/-- Two messages in pieces of one byte. -/
example : ∃ s s', init.run ready = some s ∧ s.stage = .running ∧ s.modem.connected = true ∧ s.modem.reader = .reading ∧
    s.run ((frame 1 1 (nodePayload 1)).flatMap (fun b => [Event.rx [b], .reader Print.env]) |>.dropLast) = some s' ∧
    (chunks ready).flatten = info7 ∧ s'.commands = some [] ∧
    (s'.run (reads 4)).map (fun s => (s.modem.reader, s.commands)) = some (.reading, some [nodeCommand 1]) := by
  refine ⟨(init.run ready).get (by decide +kernel), (init.run (ready ++ ((frame 1 1 (nodePayload 1)).flatMap
    (fun b => [Event.rx [b], .reader Print.env]) |>.dropLast))).get (by decide +kernel), ?_⟩
  decide +kernel

/-- Such frames. -/
example : (⟨1, 1, nodePayload 1, .command (nodeCommand 1)⟩ : Sent).Valid false ∧
    Attributed (.command (nodeCommand 1)) ∧
    counted (some 9) (Sent.delivered ⟨1, 1, nodePayload 1, .command (nodeCommand 1)⟩) = some (nodeCommand 1) :=
  ⟨⟨by decide, .alp _ _ _ rfl (by decide) (by decide) (by decide +kernel)⟩, by decide, by decide⟩

/-- C89, the verdict: the list is empty, and then as many messages arrive as were announced, each from a node,
without a tag and with the payload. After some more steps of the reading thread the program, if it counts then, says "OK". -/
theorem C89_ok_partial {es es' : List Event} {s s' : State} (h : init.run es = some s) (hs : s.stage = .running)
    (hc : s.modem.connected = true) (hr : s.modem.reader = .reading) (hl : s.commands = some [])
    (h' : s.run es' = some s') (he : ∀ e ∈ es', Steady e) (fs fs' : List Sent) (hfs : ∀ f ∈ fs ++ fs', f.Valid false)
    (payload : List Int)
    (ha : ∀ f ∈ fs', f.type.toNat ≤ 3 ∧ ∃ c, f.msg = .command c ∧ c.tagId = none ∧ fromNode c = true ∧
      Examples.FirstData c payload)
    (hb : (chunks es).flatten = (fs.map Sent.bytes).flatten)
    (hb' : (chunks es').flatten = (fs'.map Sent.bytes).flatten) (env : Print.Env) :
    ∃ k s'' l, s'.run (List.replicate k (.reader env)) = some s'' ∧ s''.commands = some l ∧
      Examples.verdict payload fs'.length l.length l = .ok true := by
  obtain ⟨_, _, r3, _, htag, _, _, _⟩ := C89_setup h hs
  obtain ⟨k, s'', l0, h1, h2, -, h3⟩ := C89_frames_partial h hs hc hr h' he fs fs' hfs (fun f hf => by
    obtain ⟨-, c, hm, -, hn, -⟩ := ha f hf
    rw [hm]; exact .inr hn) hb hb' env
  rw [hl] at h1
  cases h1
  rw [htag, List.nil_append] at h3
  refine ⟨k, s'', _, h2, h3, ?_⟩
  have key : ∀ fs' : List Sent, (∀ f ∈ fs', f.type.toNat ≤ 3 ∧ ∃ c, f.msg = .command c ∧ c.tagId = none ∧
        fromNode c = true ∧ Examples.FirstData c payload) →
      (fs'.filterMap fun f => counted (some (r3.toNat : Int)) f.delivered).length = fs'.length ∧
      ∀ c ∈ fs'.filterMap fun f => counted (some (r3.toNat : Int)) f.delivered, Examples.FirstData c payload := by
    intro fs'
    induction fs' with
    | nil => intro _; exact ⟨rfl, fun c hc => by cases hc⟩
    | cons f fs' ih =>
      intro ha
      obtain ⟨i1, i2⟩ := ih fun f hf => ha f (by simp [hf])
      obtain ⟨ht, c, hm, hn, hf, hd⟩ := ha f (by simp)
      have hcf : counted (some (r3.toNat : Int)) f.delivered = some c := by
        unfold counted Sent.delivered
        rw [hm]
        simp only
        rw [if_pos ⟨by omega, by rw [hn]; simp, hf⟩]
      rw [List.filterMap_cons, hcf]
      refine ⟨by simpa using i1, fun x hx => ?_⟩
      rcases List.mem_cons.1 hx with rfl | hx
      · exact hd
      · exact i2 x hx
  obtain ⟨k1, k2⟩ := key fs' ha
  exact (Examples.C69_verdict_partial _ _ _ _).2 ⟨by rw [k1], k2⟩

example : (nodeCommand 1).tagId = none ∧ fromNode (nodeCommand 1) = true ∧ Examples.FirstData (nodeCommand 1) [0, 1] ∧
    Examples.verdict [0, 1] 2 2 [nodeCommand 1, nodeCommand 2] = .ok true :=
  ⟨rfl, rfl, ⟨_, rfl, _, .inl rfl, rfl⟩, (Examples.C69_verdict_partial _ _ _ _).2 ⟨rfl, fun c hc => by
    simp only [List.mem_cons, List.not_mem_nil, or_false] at hc
    rcases hc with rfl | rfl <;> exact ⟨_, rfl, _, .inl rfl, rfl⟩⟩⟩

/-! ### What goes wrong -/

/-- After the end of the reading thread nothing is counted any more. -/
theorem C89_deaf {es : List Event} {s s' : State} (hd : s.modem.reader.isDead = true) (h : s.run es = some s')
    (hs : s.stage = .running) (hm : s.modem.main = .idle) :
    s'.modem.reader.isDead = true ∧ s'.modem.received = s.modem.received ∧
      (s'.commands = s.commands ∨ s'.commands = some []) := by
  have := run_induction (P := fun s' => s'.modem.reader.isDead = true ∧ s'.modem.received = s.modem.received ∧
    (s'.commands = s.commands ∨ s'.commands = some []) ∧ s'.stage = .running ∧ s'.modem.main = .idle) h
    ⟨hd, rfl, .inl rfl, hs, hm⟩ ?_
  · exact ⟨this.1, this.2.1, this.2.2.1⟩
  rintro a e b ⟨h1, h2, h3, h4, h5⟩ - hst
  obtain ⟨q, hq⟩ : ∃ q, a.modem.reader = .dead q := by
    cases hr : a.modem.reader <;> rw [hr] at h1 <;> first | exact ⟨_, rfl⟩ | cases h1
  unfold State.step at hst
  rw [if_neg (by rw [h4]; decide)] at hst
  cases e with
  | main r => simp [State.mainStep, h4] at hst
  | restart =>
    simp only [h4] at hst
    cases hst
    exact ⟨h1, h2, .inr rfl, rfl, h5⟩
  | timeout =>
    obtain ⟨m, hm, rfl⟩ := Option.map_eq_some_iff.1 hst
    exact absurd hm (idle_no h5).2
  | rx bs =>
    obtain ⟨m, hm, rfl⟩ := Option.map_eq_some_iff.1 hst
    simp [Modem.State.step, Modem.State.rxStep, hq] at hm
  | serialError =>
    obtain ⟨m, hm, rfl⟩ := Option.map_eq_some_iff.1 hst
    simp [Modem.State.step, Modem.State.serialErrorStep, hq] at hm
  | reader env =>
    obtain ⟨-, ⟨_, _, _, _, hr, -⟩ | ⟨_, _, _, _, hr, -⟩ | ⟨-, -, hm⟩⟩ := readerStep_cases hst
    · rw [hq] at hr; cases hr
    · rw [hq] at hr; cases hr
    · simp [Modem.State.step, Modem.State.readerStep, hq] at hm

/-- This happens: the reading thread ended during the set-up. -/
example : (init.run (connecting ++ [.rx (frame 1 1 (nodePayload 1))] ++ reads 3 ++ executing 8 ++ executing 9 ++ mains 2 0 ++
    [.restart])).map (fun s => (s.modem.reader, s.stage, s.modem.main)) = some (.dead [], .running, .idle) := by
  decide +kernel

/-- C89, full statement: what a node sends to the connected receiver is counted. This is false: the first message arrives
while the program still sets up the receiver. The list does not exist yet, the exception ends the reading thread; when the
program waits for messages, nothing is received any more, although it goes on. -/
theorem C89_refuted : ∃ s s', init.run (connecting ++ [.rx (frame 1 1 (nodePayload 1))] ++ reads 3) = some s ∧
    s.modem.connected = true ∧ s.modem.received.length = 2 ∧ s.modem.called = [.command (nodeCommand 1)] ∧
    s.modem.reader = .dead [] ∧
    s.run (executing 8 ++ executing 9 ++ mains 2 0) = some s' ∧ s'.stage = .running ∧ s'.commands = some [] ∧
    s'.modem.connected = true ∧ s'.step (.rx (frame 1 1 (nodePayload 2))) = none := by
  refine ⟨(init.run (connecting ++ [.rx (frame 1 1 (nodePayload 1))] ++ reads 3)).get (by decide +kernel),
    (init.run (connecting ++ [.rx (frame 1 1 (nodePayload 1))] ++ reads 3 ++ (executing 8 ++ executing 9 ++ mains 2 0))).get
      (by decide +kernel), ?_⟩
  decide +kernel

/-- It is so for every message with an interface status and in every interleaving: if the callback got one before the list
existed, the reading thread has ended. -/
theorem C89_early {es : List Event} {s : State} (h : init.run es = some s) (hl : s.commands = none) {c : Command}
    (hm : .command c ∈ s.modem.called) (hc : c.interfaceStatus ≠ none) : s.modem.reader.isDead = true := by
  refine run_induction (P := fun s => s.commands = none → .command c ∈ s.modem.called → s.modem.reader.isDead = true) h
    (fun _ h => by cases h) ?_ hl hm
  intro a e b ha _ hst hb hin
  have hna := none_step hst hb
  rcases called_step hst with ⟨h1, h2⟩ | ⟨env, t, x, q, h1, h2, h3⟩
  · rw [h1] at hin
    exact h2 (ha hna hin)
  · rw [h2, List.mem_append] at hin
    rcases hin with hin | hin
    · have := ha hna hin
      rw [h1] at this; cases this
    · rw [List.mem_singleton] at hin
      rw [← hin, hna, callback_some env _ c hc] at h3
      refine h3 .attributeError ?_
      split <;> rfl

/-- It happens between `connect` and the first command. -/
example : (init.run (connecting ++ [.rx (frame 1 1 (nodePayload 1))] ++ reads 3)).map (fun s =>
    (s.commands, s.modem.called)) = some (none, [.command (nodeCommand 1)]) ∧
    (nodeCommand 1).interfaceStatus ≠ none := by decide +kernel

/-- Also later on, full statement: the program goes on receiving. This is false: the status of an interface that is not
D7A ends it. -/
theorem C89_status_refuted : ∃ s s', init.run ready = some s ∧ s.stage = .running ∧ s.modem.connected = true ∧
    s.modem.reader = .reading ∧
    (⟨1, 1, [0x62, 1, 0, 0x20, 0x40, 0, 2, 0, 1], .command { nodeCommand 1 with
      interfaceStatus := some (.status 1 (.interfaceStatus ⟨1, none⟩)) }⟩ : Sent).Valid false ∧
    s.run ([.rx (frame 1 1 [0x62, 1, 0, 0x20, 0x40, 0, 2, 0, 1])] ++ reads 3) = some s' ∧
    s'.modem.reader = .dead [] ∧ s'.commands = some [] := by
  refine ⟨(init.run ready).get (by decide +kernel), (init.run (ready ++
    ([.rx (frame 1 1 [0x62, 1, 0, 0x20, 0x40, 0, 2, 0, 1])] ++ reads 3))).get (by decide +kernel), by decide +kernel,
    by decide +kernel, by decide +kernel, by decide +kernel,
    ⟨by decide, .alp _ _ _ rfl (by decide) (by decide) (by decide +kernel)⟩, by decide +kernel, by decide +kernel,
    by decide +kernel⟩

/-- If the receiver is not connected, nothing is counted. -/
theorem C89_unconnected {es : List Event} {s : State} (h : init.run es = some s) (hs : s.stage = .running)
    (hc : s.modem.connected = false) : s.commands = some [] := by
  obtain ⟨gs, h1, -, -⟩ := run_modem h
  have hcalled := C88_silent_before h1 hc
  obtain ⟨_, _, _, _, _, _, _, hsome⟩ := C89_setup h hs
  have := run_induction (P := fun s => s.modem.called = [] → s.commands = none ∨ s.commands = some []) h
    (fun _ => .inl rfl) ?_ hcalled
  · rcases this with h2 | h2
    · rw [h2] at hsome; cases hsome
    · exact h2
  intro a e b ha _ hst hb
  rcases called_step hst with ⟨h2, -⟩ | ⟨env, t, x, q, -, h2, -⟩
  · rcases commands_step hst with h3 | h3 | ⟨t, x, q, h3, h4⟩
    · rw [h3]; exact ha (by rw [← h2]; exact hb)
    · exact .inr h3
    · rw [h4] at hb
      exact absurd hb (by simp)
  · rw [h2] at hb
    exact absurd hb (by simp)

set_option synthInstance.maxSize 1000 in
/-- The receiver tells its identifier but not its firmware version. -/
example : (init.run (mains 6 7 ++ [.rx uid7] ++ reads 5 ++ mains 2 7 ++ executing 8 ++ executing 9 ++ mains 2 0 ++
    [.rx (frame 1 1 (nodePayload 1))] ++ reads 5)).map (fun s =>
    (s.stage, s.modem.connected, s.modem.received.length, s.modem.reader, s.commands)) =
    some (.running, false, 2, .reading, some []) := by decide +kernel

/-- If the receiver does not answer at all, the program sends both commands nevertheless, and then ends with an
exception. -/
theorem C89_no_answer : ∃ s, init.run (mains 6 7 ++ [.timeout] ++ mains 1 7 ++ executing 8 ++ executing 9 ++ mains 2 0) =
    some s ∧ s.stage = .failed ∧ s.modem.written = setup 7 8 9 ∧
    s.modem.outcomes = [.bool false, .empty, .empty] := by
  refine ⟨(init.run (mains 6 7 ++ [.timeout] ++ mains 1 7 ++ executing 8 ++ executing 9 ++ mains 2 0)).get
    (by decide +kernel), ?_⟩
  decide +kernel

end Verif.Throughput
