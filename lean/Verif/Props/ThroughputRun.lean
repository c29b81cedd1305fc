import Verif.Lemmas.ThroughputRun
import Verif.Props.Throughput

/-! C90: the throughput test as a whole. -/

namespace Verif.Throughput

open Verif Verif.Serial Verif.Modem Verif.Examples

/-! ### Examples -/

/-- Steps of the main thread and of the reading threads. -/
def tmains (n : Nat) (r : UInt8) : List TestEvent := List.replicate n (.main r)
def treads (n : Nat) : List TestEvent := List.replicate n (.rxReader Print.env)

/-- A command for the transmitter, with the tag `r`; it does not answer. -/
def texec (r : UInt8) : List TestEvent := tmains 6 r ++ [.timeout] ++ tmains 1 r

/-- The set-up of the transmitter, which answers only the first command. -/
def tsetup : List TestEvent := tmains 6 17 ++ [.txBytes (frame 0 1 [0xA3, 17, 0x20, 0, 0, 8, 0, 0, 0, 0, 0, 0, 0, 6,
  0x20, 2, 0, 17, 0, 5, 0, 0, 0, 118, 111, 105, 100, 32, 32, 97, 98, 99, 100, 101, 102])] ++
  List.replicate 5 .txReader ++ tmains 2 17 ++ texec 18

/-- What happens to the receiver, as part of the test. -/
def ofReceiver : Event → TestEvent
  | .main r => .main r
  | .timeout => .timeout
  | .restart => .sameTime
  | .rx bs => .rxBytes bs
  | .reader v => .rxReader v
  | .serialError => .rxError

/-- Everything up to the first run. -/
def tready : List TestEvent := tsetup ++ ready.map ofReceiver ++ tmains 1 0

/-- A run with one message with the tag `r`, up to the wait loop. -/
def tsend (r : UInt8) : List TestEvent := tmains 2 r ++ texec 0 ++ tmains 2 0

/-- A message of the node `k` arrives. -/
def tarrive (k : UInt8) : List TestEvent := [.rxBytes (frame 1 1 (arrival (nodeStatusBytes 70 k) 2))] ++ treads 4

/-! ### C90 -/

/-- C90, the transmitter: in every interleaving, whatever arrives and whatever fails, what has been written to the
transmitter is a beginning of the frames for one and the same sequence: identification, access profile, access class,
the messages of the first run, access class, the messages of the other three runs. -/
theorem C90_written {a : Args} {es : List TestEvent} {s : Test} (h : Test.start.run a es = some s) :
    ∃ uid t, s.tx.written <+: framesFrom 0 (script a uid t) := by
  obtain ⟨t, uid, ps, hw, hc⟩ := Tr.inv_run h
  refine ⟨uid, t, ?_⟩
  obtain ⟨rest, hr⟩ := Tr.cond_prefix hc
  rw [← hr, framesFrom_append, ← hw.2]
  exact ⟨unwritten s.tx.main ++ framesFrom (0 + ps.length) rest, by simp⟩

/-- Two messages have been sent in the first run. -/
example : ∃ s, Test.start.run ⟨2, 2⟩ (tready ++ texec 19 ++ tmains 2 20 ++ texec 0 ++ texec 0) = some s ∧
    s.tx.written = framesFrom 0 ((script ⟨2, 2⟩ 5 ⟨17, 18, 19, 0, fun _ => 20⟩).take 5) := by
  refine ⟨(Test.start.run ⟨2, 2⟩ (tready ++ texec 19 ++ tmains 2 20 ++ texec 0 ++ texec 0)).get (by decide +kernel), ?_⟩
  decide +kernel

/-- C90, at the end: if the program ends without an exception it has written all of this, unicast messages are
addressed to the identifier that the receiver has told, it has given four verdicts, and, unless there was
nothing to send, the payload is not larger than fits into a unicast message. -/
theorem C90_done {a : Args} {es : List TestEvent} {s : Test} (h : Test.start.run a es = some s) (hd : s.place = .done) :
    ∃ uid t, s.rx.modem.uid = some uid ∧ s.tx.written = framesFrom 0 (script a uid t) ∧ s.verdicts.length = 4 ∧
      (a.size ≤ 234 ∨ a.count ≤ 0) := by
  obtain ⟨t, uid, ps, hw, hc⟩ := Tr.inv_run h
  rw [hd] at hc
  obtain ⟨hps, hm, -, hu, hl⟩ := hc
  refine ⟨uid, t, hu, ?_, (Tr.passed_run h).1 4 (by rw [hd]; rfl), hl.imp_right fun h => by omega⟩
  have := hw.2
  rw [hm, hps] at this
  simpa [unwritten] using this

/-- A whole test with four times one message, which all arrive; and one with payloads that are too large for
unicast: broadcast messages are sent, the third run ends the program. -/
example : (Test.start.run ⟨1, 2⟩ (tready ++ texec 19 ++ tsend 20 ++ tarrive 1 ++ tmains 3 0 ++
    texec 21 ++ tsend 22 ++ tarrive 1 ++ tmains 3 0 ++ tsend 23 ++ tarrive 1 ++ tmains 3 0 ++
    tsend 24 ++ tarrive 1 ++ tmains 3 0)).map (fun s => (s.place, s.verdicts, s.rx.modem.uid, s.tx.written)) =
      some (.done, [true, true, true, true], some 5, framesFrom 0 (script ⟨1, 2⟩ 5 ⟨17, 18, 19, 21, fun
        | .broadcastQos => 20 | .broadcast => 22 | .unicastQos => 23 | .unicast => 24⟩)) ∧
    (Test.start.run ⟨1, 235⟩ (tready ++ texec 19 ++ tsend 20 ++ [.late] ++ tmains 1 0 ++ texec 21 ++ tsend 22 ++ [.late] ++
      tmains 1 0 ++ tmains 4 0)).map (fun s => (s.place, s.verdicts, s.tx.outcomes.getLast?)) =
      some (.failed, [false, false], some (.raised .valueError)) := by decide +kernel

/-- C90, what goes over the air: the message that the transmitter gets is a forward header and this action. The receiver
hands over the action with the status of the reception before it; if the receive level is at most 127, the sender
has a unique or virtual identifier or none, and the frame is large enough, this is a correct frame with a command
without tag from a node, whose first action has the payload. -/
theorem C90_arrival {raw : List UInt8} {st : Status} {n : Nat} (hr : Reports raw st) (hrx : st.rxLevel ≤ 127)
    (hn : st.addressee.idType ≠ .NBID) (hl : (arrival raw n).length ≤ 255) (counter type : UInt8) (ht : type.toNat ≤ 3) :
    (n ≠ 0 → ∀ (p : Phase) (rand : UInt8) (uid : Nat),
      p.bytes rand uid n = [0xB4, rand, 0x32, 0xD7] ++ p.head uid ++ airborne n) ∧
    ∃ c, (⟨counter, type, arrival raw n, .command c⟩ : Sent).Valid false ∧ c.tagId = none ∧ fromNode c = true ∧
      FirstData c (payload n) := by
  have h256 : n ≤ 256 := by
    simp only [arrival, airborne, List.length_append, List.length_map, List.length_range] at hl
    omega
  refine ⟨fun h0 p rand uid => by simp [Phase.bytes, airborne, h0], Tr.carried st n, ⟨hl, ?_⟩, rfl, rfl,
    ⟨_, rfl, _, .inl rfl, rfl⟩⟩
  refine .alp _ _ _ rfl (fun hx => ?_) (fun hx => ?_) (Tr.arrival_parses hr hrx hn h256)
  · rw [show type = _ from hx] at ht; exact absurd ht (by decide)
  · rw [show type = _ from hx] at ht; exact absurd ht (by decide)

/-- Such a status; and the bytes of a message with the data 0, 1. -/
example : Reports (nodeStatusBytes 70 1) (nodeStatus 70 1) ∧ (nodeStatus 70 1).rxLevel ≤ 127 ∧
    (nodeStatus 70 1).addressee.idType ≠ .NBID ∧ (arrival (nodeStatusBytes 70 1) 2).length = 29 ∧
    Phase.bytes .broadcast 20 5 2 = [0xB4, 20, 0x32, 0xD7, 0, 0, 0x10, 1] ++ [0x20, 0x40, 0, 2, 0, 1] :=
  ⟨node_reports_70, by decide, by decide, by decide, by decide⟩

/-- A run begins with the reset of the list. -/
private theorem after_reset {a : Args} {es es' : List TestEvent} {s s' : Test} {p : Phase} {r : UInt8}
    (h : Test.start.run a es = some s) (hp : s.place = .reset p) (h' : s.run a (.main r :: es') = some s') :
    ∃ s1, Test.start.run a (es ++ [.main r]) = some s1 ∧ s1.run a es' = some s' ∧ s1.place = .make p ∧
      s1.rx.modem = s.rx.modem ∧ s1.rx.commands = some [] ∧ s1.verdicts = s.verdicts := by
  unfold Test.run at h'
  cases hst : s.step a (.main r) with
  | none => rw [hst] at h'; cases h'
  | some s1 =>
    rw [hst] at h'
    have hrun : Test.start.run a (es ++ [.main r]) = some s1 :=
      Tr.run_append.2 ⟨s, h, by unfold Test.run; rw [hst]; rfl⟩
    simp only [Test.step, hp, Place.ended, Bool.false_eq_true, if_false, Test.mainStep] at hst
    obtain ⟨x, h1, rfl⟩ := Option.map_eq_some_iff.1 hst
    refine ⟨_, hrun, h', rfl, ?_⟩
    simp only [State.step] at h1
    split at h1
    · cases h1
    split at h1 <;> cases h1
    exact ⟨rfl, rfl, rfl⟩

private theorem received_main (es : List TestEvent) (r : UInt8) : received (es ++ [.main r]) = received es := by
  rw [Tr.received_append]; simp [received]

private theorem run_ok {a : Args} {es es' : List TestEvent} {s s' : Test} {p : Phase}
    (h : Test.start.run a es = some s)
    (hp : s.place = .make p) (hc : s.rx.modem.connected = true) (hr : s.rx.modem.reader = .reading)
    (hl : s.rx.commands = some []) (h' : s.run a es' = some s') (he : ∀ e ∈ es', Undisturbed e)
    (hw : s'.place.waits p = true) (hv : s'.verdicts = s.verdicts)
    (fs fs' : List Sent) (hfs : ∀ f ∈ fs ++ fs', f.Valid false) (hn : (fs'.length : Int) = a.count)
    (ha : ∀ f ∈ fs', f.type.toNat ≤ 3 ∧ ∃ c, f.msg = .command c ∧ c.tagId = none ∧ fromNode c = true ∧
      FirstData c (payload a.size))
    (hb : (received es).flatten = (fs.map Sent.bytes).flatten)
    (hb' : (received es').flatten = (fs'.map Sent.bytes).flatten) (env : Print.Env) (rand : UInt8) :
    ∃ j k s'', s'.run a (List.replicate j (.rxReader env) ++ List.replicate k (.main rand)) = some s'' ∧
      s''.verdicts = s.verdicts ++ [true] ∧ s''.place = following p := by
  obtain ⟨t, uid, ps, hwi, hcond⟩ := Tr.inv_run h
  rw [hp] at hcond
  obtain ⟨-, -, hs, -⟩ := hcond
  obtain ⟨gs, g1, g2, -⟩ := Tr.run_rx h
  obtain ⟨-, gs', g3, g4, -, g5⟩ := Tr.inside_run h' (p := p) (by rw [hp]; simp [Place.within]) hv
  have hst := g5 fun e hm hx => by have := he e hm; rw [hx] at this; exact this
  obtain ⟨k, r, l, h1, h2, h3⟩ := C89_ok_partial g1 hs hc hr hl g3 hst fs fs' hfs (payload a.size) ha
    (by rw [g2]; exact hb) (by rw [g4]; exact hb') env
  rw [hn] at h3
  obtain ⟨h4, h5⟩ := (C69_verdict_partial _ _ _ _).1 h3
  have hwait : s'.place.late = true ∧ s'.place.ended = false := by
    cases hq : s'.place <;> rw [hq] at hw <;> first | cases hw | exact ⟨rfl, rfl⟩
  have hlift := Tr.lift_reader (a := a) hwait.1 hwait.2 h1
  have hrun := Tr.run_append.2 ⟨_, h, Tr.run_append.2 ⟨_, h', hlift⟩⟩
  have hbound := Tr.bound_run hrun
  have hlate := Tr.check_run h' (fun e hm hx => by have := he e hm; rw [hx] at this; exact this)
    (by rw [hp]; simp)
  -- the verdict at 237
  have final : ∀ (x : Test) (n : Nat), x.place = .check p n → (n : Int) = a.count → x.rx = r →
      x.verdicts = s.verdicts → ∃ s'', x.run a [.main rand] = some s'' ∧ s''.verdicts = s.verdicts ++ [true] ∧
        s''.place = following p := by
    intro x n hx1 hx2 hx3 hx4
    have hver : verdict (payload a.size) a.count n l = .ok true := (C69_verdict_partial _ _ _ _).2 ⟨hx2, h5⟩
    refine ⟨{ x with place := following p, verdicts := x.verdicts ++ [true] }, ?_, by rw [← hx4], rfl⟩
    simp only [Test.run, Test.step, hx1, Place.ended, Test.mainStep, hx3, h2, hver]
    rfl
  -- leaving the loop at 224
  have leave : ∀ (x : Test) (n : Nat), x.place = .poll p n → (n : Int) = a.count → x.rx = r →
      x.verdicts = s.verdicts → ∃ s'', x.run a [.main rand, .main rand] = some s'' ∧
        s''.verdicts = s.verdicts ++ [true] ∧ s''.place = following p := by
    intro x n hx1 hx2 hx3 hx4
    obtain ⟨s'', f1, f2, f3⟩ := final { x with place := .check p n } n rfl hx2 hx3 hx4
    refine ⟨s'', ?_, f2, f3⟩
    rw [Test.run]
    have : x.step a (.main rand) = some { x with place := .check p n } := by
      have hno : ¬ (n : Int) < a.count := by omega
      simp only [Test.step, hx1, Place.ended, Test.mainStep]
      simp [hno]
    rw [this]
    exact f1
  have wrap : ∀ m s'', Test.run a { s' with rx := r } (List.replicate m (.main rand)) = some s'' →
      s'.run a (List.replicate k (.rxReader env) ++ List.replicate m (.main rand)) = some s'' := fun m s'' hm =>
    Tr.run_append.2 ⟨_, hlift, hm⟩
  cases hq : s'.place <;> rw [hq] at hw <;> simp only [Place.waits, decide_eq_true_eq, Bool.false_eq_true] at hw
  · next q n =>
    subst hw
    obtain ⟨-, l', hl', hle⟩ := hbound n (by show Tr.lastCount s'.place = _; rw [hq]; rfl)
    rw [show ({ s' with rx := r } : Test).rx.commands = r.commands from rfl, h2] at hl'
    cases hl'
    by_cases hlt : (n : Int) < a.count
    · obtain ⟨s'', f1, f2, f3⟩ := leave { s' with rx := r, place := .poll p l.length } l.length rfl h4 rfl hv
      refine ⟨k, 3, s'', wrap 3 s'' ?_, f2, f3⟩
      rw [List.replicate_succ, Test.run]
      have : Test.step a { s' with rx := r } (.main rand) = some { s' with rx := r, place := .poll p l.length } := by
        simp only [Test.step, hq, Place.ended, Test.mainStep, h2]
        simp [hlt]
      rw [this]
      exact f1
    · obtain ⟨s'', f1, f2, f3⟩ := leave { s' with rx := r } n hq (by omega) rfl hv
      exact ⟨k, 2, s'', wrap 2 s'' f1, f2, f3⟩
  · next q n =>
    subst hw
    obtain ⟨-, l', hl', hle⟩ := hbound n (by show Tr.lastCount s'.place = _; rw [hq]; rfl)
    rw [show ({ s' with rx := r } : Test).rx.commands = r.commands from rfl, h2] at hl'
    cases hl'
    have := hlate _ n hq
    obtain ⟨s'', f1, f2, f3⟩ := final { s' with rx := r } n hq (by omega) rfl hv
    exact ⟨k, 1, s'', wrap 1 s'' f1, f2, f3⟩

/-- C90, a run: the receiver is connected and quiet, and the main thread comes to the beginning of a run. Until it waits, and
while it waits, all messages arrive: as many as announced, each from a node, without a tag and with the payload; in
every interleaving, in pieces of any size, while the time is not over. Then some more steps of the reading thread
of the receiver and some steps of the main thread lead to the verdict "OK". -/
theorem C90_ok_partial {a : Args} {es es' : List TestEvent} {s s' : Test} {p : Phase} {r : UInt8}
    (h : Test.start.run a es = some s)
    (hp : s.place = .reset p) (hc : s.rx.modem.connected = true) (hr : s.rx.modem.reader = .reading)
    (h' : s.run a (.main r :: es') = some s') (he : ∀ e ∈ es', Undisturbed e)
    (hw : s'.place.waits p = true) (hv : s'.verdicts = s.verdicts)
    (fs fs' : List Sent) (hfs : ∀ f ∈ fs ++ fs', f.Valid false) (hn : (fs'.length : Int) = a.count)
    (ha : ∀ f ∈ fs', f.type.toNat ≤ 3 ∧ ∃ c, f.msg = .command c ∧ c.tagId = none ∧ fromNode c = true ∧
      FirstData c (payload a.size))
    (hb : (received es).flatten = (fs.map Sent.bytes).flatten)
    (hb' : (received es').flatten = (fs'.map Sent.bytes).flatten) (env : Print.Env) (rand : UInt8) :
    ∃ j k s'', s'.run a (List.replicate j (.rxReader env) ++ List.replicate k (.main rand)) = some s'' ∧
      s''.verdicts = s.verdicts ++ [true] ∧ s''.place = following p := by
  obtain ⟨s1, h1, h2, h3, h4, h5, h6⟩ := after_reset h hp h'
  rw [← h6]
  exact run_ok h1 h3 (by rw [h4]; exact hc) (by rw [h4]; exact hr) h5 h2 he hw (by rw [h6]; exact hv) fs fs' hfs hn ha
    (by rw [received_main]; exact hb) hb' env rand

/-- The first run; the message arrives in three pieces, the first one before the command is sent. -/
example : ∃ s s', Test.start.run ⟨1, 2⟩ (tready ++ texec 19) = some s ∧ s.place = .reset .broadcastQos ∧
    s.rx.modem.connected = true ∧ s.rx.modem.reader = .reading ∧
    s.run ⟨1, 2⟩ (.main 0 :: [.rxBytes ((frame 1 1 (nodePayload 1)).take 10)] ++ tmains 1 20 ++ treads 1 ++ texec 0 ++
      [.rxBytes (((frame 1 1 (nodePayload 1)).drop 10).take 10)] ++ tmains 2 0 ++ treads 1 ++
      [.rxBytes ((frame 1 1 (nodePayload 1)).drop 20)]) = some s' ∧ s'.place.waits .broadcastQos = true ∧
    s'.verdicts = s.verdicts ∧
    (s'.run ⟨1, 2⟩ (treads 4 ++ tmains 3 0)).map (fun s => (s.place, s.verdicts)) =
      some (.activate .broadcast, [true]) := by
  refine ⟨(Test.start.run ⟨1, 2⟩ (tready ++ texec 19)).get (by decide +kernel),
    (Test.start.run ⟨1, 2⟩ (tready ++ texec 19 ++ tmains 1 0 ++ ([.rxBytes ((frame 1 1 (nodePayload 1)).take 10)] ++
      tmains 1 20 ++ treads 1 ++ texec 0 ++ [.rxBytes (((frame 1 1 (nodePayload 1)).drop 10).take 10)] ++
      tmains 2 0 ++ treads 1 ++ [.rxBytes ((frame 1 1 (nodePayload 1)).drop 20)]))).get (by decide +kernel), ?_⟩
  decide +kernel

/-- C90, with a radio link that loses nothing: while the program waits in a run, the receiver has handed over as many
messages as were announced, each with the payload and some status. Then the verdict is "OK". -/
theorem C90_radio_partial {a : Args} {es es' : List TestEvent} {s s' : Test} {p : Phase} {r : UInt8}
    (h : Test.start.run a es = some s)
    (hp : s.place = .reset p) (hc : s.rx.modem.connected = true) (hr : s.rx.modem.reader = .reading)
    (h' : s.run a (.main r :: es') = some s') (he : ∀ e ∈ es', Undisturbed e)
    (hw : s'.place.waits p = true) (hv : s'.verdicts = s.verdicts)
    (fs : List Sent) (hfs : ∀ f ∈ fs, f.Valid false) (hb : (received es).flatten = (fs.map Sent.bytes).flatten)
    (xs : List (UInt8 × List UInt8)) (hn : (xs.length : Int) = a.count)
    (hx : ∀ x ∈ xs, (∃ st, Reports x.2 st ∧ st.rxLevel ≤ 127 ∧ st.addressee.idType ≠ .NBID) ∧
      (arrival x.2 a.size.toNat).length ≤ 255)
    (hb' : (received es').flatten = (xs.map fun x => frame x.1 1 (arrival x.2 a.size.toNat)).flatten)
    (env : Print.Env) (rand : UInt8) :
    ∃ j k s'', s'.run a (List.replicate j (.rxReader env) ++ List.replicate k (.main rand)) = some s'' ∧
      s''.verdicts = s.verdicts ++ [true] ∧ s''.place = following p := by
  obtain ⟨fs', h1, h2, h3⟩ : ∃ fs' : List Sent, fs'.length = xs.length ∧
      fs'.map Sent.bytes = xs.map (fun x => frame x.1 1 (arrival x.2 a.size.toNat)) ∧
      ∀ f ∈ fs', f.Valid false ∧ f.type.toNat ≤ 3 ∧ ∃ c, f.msg = .command c ∧ c.tagId = none ∧ fromNode c = true ∧
        FirstData c (payload a.size) := by
    clear hn hb'
    induction xs with
    | nil => exact ⟨[], rfl, rfl, by simp⟩
    | cons x xs ih =>
      obtain ⟨fs', h1, h2, h3⟩ := ih fun y hy => hx y (by simp [hy])
      obtain ⟨⟨st, h4, h5, h6⟩, h7⟩ := hx x (by simp)
      obtain ⟨-, c, h8, h9, h10, h11⟩ := C90_arrival h4 h5 h6 h7 x.1 1 (by decide)
      refine ⟨⟨x.1, 1, arrival x.2 a.size.toNat, .command c⟩ :: fs', by simp [h1], by simp [h2, Sent.bytes], ?_⟩
      intro f hf
      rcases List.mem_cons.1 hf with rfl | hf
      · exact ⟨h8, show (1 : UInt8).toNat ≤ 3 by decide, c, rfl, h9, h10, by
          have : payload (a.size.toNat : Int) = payload a.size := by unfold payload; rw [Int.toNat_natCast]
          rw [← this]; exact h11⟩
      · exact h3 f hf
  exact C90_ok_partial h hp hc hr h' he hw hv fs fs' (fun f hf => by
    rcases List.mem_append.1 hf with hf | hf
    · exact hfs f hf
    · exact (h3 f hf).1) (by rw [h1]; exact hn) (fun f hf => (h3 f hf).2) hb (by rw [h2]; exact hb') env rand

/-- What has arrived in the example above. -/
example : arrival (nodeStatusBytes 70 1) 2 = nodePayload 1 ∧ Reports (nodeStatusBytes 70 1) (nodeStatus 70 1) ∧
    ((frame 1 1 (nodePayload 1)).take 10 ++ ((frame 1 1 (nodePayload 1)).drop 10).take 10 ++
      (frame 1 1 (nodePayload 1)).drop 20) = frame 1 1 (arrival (nodeStatusBytes 70 1) 2) :=
  ⟨by decide, node_reports_70, by decide +kernel⟩

private theorem run_means {a : Args} {es es' : List TestEvent} {s s' s'' : Test} {p : Phase} {rand : UInt8}
    (h : Test.start.run a es = some s) (hp : s.place = .make p) (hc : s.rx.modem.connected = true)
    (hb : betweenMessages s.rx.modem.reader = true)
    (hl : s.rx.commands = some []) (h' : s.run a es' = some s') (hv : s'.verdicts = s.verdicts)
    (hst : s'.step a (.main rand) = some s'') (hok : s''.verdicts = s.verdicts ++ [true]) :
    ∃ new l, s'.rx.modem.received = s.rx.modem.received ++ new ∧
      l ++ (pending s'.rx.modem.reader).filterMap (counted s.rx.modem.tag) =
        (pending s.rx.modem.reader ++ new).filterMap (counted s.rx.modem.tag) ∧
      a.count ≤ l.length ∧ ∀ c ∈ l, FirstData c (payload a.size) := by
  obtain ⟨t, uid, ps, hwi, hcond⟩ := Tr.inv_run h
  rw [hp] at hcond
  obtain ⟨-, -, hs, -⟩ := hcond
  obtain ⟨gs, g1, -, -⟩ := Tr.run_rx h
  obtain ⟨-, gs', g3, -, g4, -⟩ := Tr.inside_run h' (p := p) (by rw [hp]; simp [Place.within]) hv
  obtain ⟨new, l0, l, h1, h2, h3, h4⟩ := C89_counted_partial g1 hs hc hb g3 g4
  rw [hl] at h2
  cases h2
  refine ⟨new, l, h1, by simpa using h4, ?_⟩
  have hne : s''.verdicts ≠ s'.verdicts := by rw [hok, hv]; simp
  have hbound := Tr.bound_run (Tr.run_append.2 ⟨_, h, h'⟩)
  unfold Test.step at hst
  split at hst
  · cases hst
  simp only [Test.mainStep] at hst
  split at hst
  case h_15 q n hq =>
    rw [h3] at hst
    simp only at hst
    split at hst <;> cases hst
    · exact absurd rfl hne
    · next b hver =>
      have : b = true := by
        have := List.append_cancel_left (hv ▸ hok : s'.verdicts ++ [b] = s'.verdicts ++ [true])
        cases this; rfl
      subst this
      obtain ⟨h5, h6⟩ := (C69_verdict_partial _ _ _ _).1 hver
      obtain ⟨-, l', hl', hle⟩ := hbound n (by rw [hq]; rfl)
      rw [h3] at hl'
      cases hl'
      exact ⟨by omega, h6⟩
  all_goals exfalso; apply hne
  · obtain ⟨m, _, rfl⟩ := Option.map_eq_some_iff.1 hst; rfl
  · exact (Tr.callStep_cases hst).2.1
  · rw [Tr.senderProfile_eq] at hst; exact (Tr.executeStep_ok hst).2.2.2
  · exact (Tr.callStep_cases hst).2.1
  · split at hst
    · cases hst; rfl
    split at hst
    · cases hst; rfl
    obtain ⟨m, _, rfl⟩ := Option.map_eq_some_iff.1 hst; rfl
  · rw [classCommand_eq] at hst; exact (Tr.executeStep_ok hst).2.2.2
  · exact (Tr.callStep_cases hst).2.1
  · obtain ⟨m, _, rfl⟩ := Option.map_eq_some_iff.1 hst; rfl
  · split at hst
    · cases hst
    split at hst <;> cases hst <;> rfl
  · cases hst; rfl
  · exact (Tr.executeStep_ok hst).2.2.2
  · exact (Tr.callStep_cases hst).2.1
  · cases hst; rfl
  · split at hst
    · split at hst <;> cases hst; rfl
    · cases hst; rfl
  · cases hst
  · cases hst

/-- C90, what an "OK" means: since the reset of the list at least as many messages have been received as were
announced, from nodes and without the tag of the last command of the receiver, and all that have been handed over have
the payload. -/
theorem C90_means_partial {a : Args} {es es' : List TestEvent} {s s' s'' : Test} {p : Phase} {r rand : UInt8}
    (h : Test.start.run a es = some s) (hp : s.place = .reset p) (hc : s.rx.modem.connected = true)
    (hb : betweenMessages s.rx.modem.reader = true)
    (h' : s.run a (.main r :: es') = some s') (hv : s'.verdicts = s.verdicts)
    (hst : s'.step a (.main rand) = some s'') (hok : s''.verdicts = s.verdicts ++ [true]) :
    ∃ new l, s'.rx.modem.received = s.rx.modem.received ++ new ∧
      l ++ (pending s'.rx.modem.reader).filterMap (counted s.rx.modem.tag) =
        (pending s.rx.modem.reader ++ new).filterMap (counted s.rx.modem.tag) ∧
      a.count ≤ l.length ∧ ∀ c ∈ l, FirstData c (payload a.size) := by
  obtain ⟨s1, h1, h2, h3, h4, h5, h6⟩ := after_reset h hp h'
  have := run_means h1 h3 (by rw [h4]; exact hc) (by rw [h4]; exact hb) h5 h2 (by rw [h6]; exact hv) hst
    (by rw [h6]; exact hok)
  rwa [h4] at this

/-- The message arrives while it is sent. -/
example : ∃ s s', Test.start.run ⟨1, 2⟩ (tready ++ texec 19) = some s ∧ s.place = .reset .broadcastQos ∧
    s.rx.modem.connected = true ∧ s.rx.modem.reader = .reading ∧
    s.run ⟨1, 2⟩ (.main 0 :: tmains 1 20 ++ tarrive 1 ++ texec 0 ++ tmains 4 0) = some s' ∧ s'.verdicts = s.verdicts ∧
    (s'.step ⟨1, 2⟩ (.main 0)).map (fun s => s.verdicts) = some (s.verdicts ++ [true]) := by
  refine ⟨(Test.start.run ⟨1, 2⟩ (tready ++ texec 19)).get (by decide +kernel),
    (Test.start.run ⟨1, 2⟩ (tready ++ texec 19 ++ tmains 1 0 ++ (tmains 1 20 ++ tarrive 1 ++ texec 0 ++ tmains 4 0))).get
      (by decide +kernel), ?_⟩
  decide +kernel

/-- C90, full statement: "OK" means that the messages of this run have arrived. This is false: in the first run the message
does not arrive in time, and that is said; it arrives in the second run, before anything has been sent there, and
is taken for the message of the second run, which never arrives. -/
theorem C90_late_refuted : ∃ s s', Test.start.run ⟨1, 2⟩ (tready ++ texec 19 ++ tsend 20 ++ [.late] ++ tmains 1 0 ++
      texec 21 ++ tmains 1 0) = some s ∧ s.verdicts = [false] ∧ s.place = .make .broadcast ∧ s.rx.commands = some [] ∧
    s.run ⟨1, 2⟩ (tarrive 1 ++ tmains 1 22 ++ texec 0 ++ tmains 5 0) = some s' ∧ s'.verdicts = [false, true] := by
  refine ⟨(Test.start.run ⟨1, 2⟩ (tready ++ texec 19 ++ tsend 20 ++ [.late] ++ tmains 1 0 ++
      texec 21 ++ tmains 1 0)).get (by decide +kernel), (Test.start.run ⟨1, 2⟩ (tready ++ texec 19 ++ tsend 20 ++ [.late] ++
      tmains 1 0 ++ texec 21 ++ tmains 1 0 ++ (tarrive 1 ++ tmains 1 22 ++ texec 0 ++ tmains 5 0))).get
      (by decide +kernel), ?_⟩
  decide +kernel

/-- C90, full statement: if all messages arrive in time, "OK" is printed. This is false: a message of the first run that comes
late is one too many in the second run, in which the message that was sent arrives too. -/
theorem C90_extra_refuted : ∃ s s', Test.start.run ⟨1, 2⟩ (tready ++ texec 19 ++ tsend 20 ++ [.late] ++ tmains 1 0 ++
      texec 21 ++ tmains 1 0) = some s ∧ s.verdicts = [false] ∧ s.place = .make .broadcast ∧ s.rx.commands = some [] ∧
    s.run ⟨1, 2⟩ (tarrive 1 ++ tmains 1 22 ++ texec 0 ++ tarrive 1 ++ tmains 5 0) = some s' ∧
    s'.verdicts = [false, false] := by
  refine ⟨(Test.start.run ⟨1, 2⟩ (tready ++ texec 19 ++ tsend 20 ++ [.late] ++ tmains 1 0 ++
      texec 21 ++ tmains 1 0)).get (by decide +kernel), (Test.start.run ⟨1, 2⟩ (tready ++ texec 19 ++ tsend 20 ++ [.late] ++
      tmains 1 0 ++ texec 21 ++ tmains 1 0 ++ (tarrive 1 ++ tmains 1 22 ++ texec 0 ++ tarrive 1 ++ tmains 5 0))).get
      (by decide +kernel), ?_⟩
  decide +kernel

/-- C90, full statement: the program ends with four verdicts, if the devices answer. This is false: with nothing to send, the
clock may not have advanced between the two readings; the quotient then raises. -/
theorem C90_nothing_refuted : ∃ s s', Test.start.run ⟨0, 2⟩ (tready ++ texec 19 ++ tmains 3 20) = some s ∧
    s.place = .rate .broadcastQos ∧ s.step ⟨0, 2⟩ .sameTime = some s' ∧ s'.place = .failed ∧ s'.verdicts = [] := by
  refine ⟨(Test.start.run ⟨0, 2⟩ (tready ++ texec 19 ++ tmains 3 20)).get (by decide +kernel),
    (Test.start.run ⟨0, 2⟩ (tready ++ texec 19 ++ tmains 3 20 ++ [.sameTime])).get (by decide +kernel), ?_⟩
  decide +kernel

end Verif.Throughput
