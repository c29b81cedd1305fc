import Verif.Lemmas.ThroughputOne
import Verif.Props.ThroughputRun

/-! C96: the throughput test with one device. -/

namespace Verif.Throughput

open Verif Verif.Serial Verif.Modem Verif.Examples

/-! ### Examples -/

/-- Steps of the main thread. -/
def smains (n : Nat) (r : UInt8) : List SenderEvent := List.replicate n (.main r)

/-- A command with the tag `r`; the device does not answer. -/
def sexec (r : UInt8) : List SenderEvent := smains 6 r ++ [.timeout] ++ smains 1 r

/-- A run with one message. -/
def srun (r : UInt8) : List SenderEvent := smains 1 r ++ sexec 0 ++ smains 2 0

/-- What happens to the receiver. -/
def ofRx : Event → ListenerEvent
  | .main r => .main r
  | .timeout => .timeout
  | .restart => .late
  | .rx bs => .rx bs
  | .reader v => .reader v
  | .serialError => .serialError

/-- The receiver is set up. -/
def lready : List ListenerEvent := ready.map ofRx ++ [.main 0]

/-- Steps of the reading thread and of the main thread. -/
def lreads (n : Nat) : List ListenerEvent := List.replicate n (.reader Print.env)
def lmains (n : Nat) : List ListenerEvent := List.replicate n (.main 0)

/-! ### C96: the arguments -/

/-- C96, the arguments: the program refuses to start exactly if there is no receiver, and no transmitter or no
address; it is a transmitter on its own exactly if there is an address and no receiver. -/
theorem C96_options (transmitter receiver : Bool) (uid : Option (List Char)) :
    (mode transmitter receiver uid = none ↔ receiver = false ∧ (transmitter = false ∨ uid = none)) ∧
    (∀ u, mode transmitter receiver uid = some (.sender u) ↔ transmitter = true ∧ receiver = false ∧ uid = some u) ∧
    (mode transmitter receiver uid = some .receiver ↔ transmitter = false ∧ receiver = true) := by
  cases transmitter <;> cases receiver <;> cases uid <;> simp [mode]

example : mode true false (some "1f".toList) = some (.sender "1f".toList) ∧ mode true false none = none := by decide

/-- C96, the address: exactly the hexadecimal numbers are accepted, and they are read as what they are. -/
theorem C96_address (s : List Char) :
    (∀ v, hexInt s = .ok v ↔ Hexadecimal s v) ∧ ((¬ ∃ v, Hexadecimal s v) ↔ hexInt s = .error .valueError) := by
  refine ⟨fun v => So.hexInt_iff s v, ?_⟩
  constructor
  · intro h
    cases hx : hexInt s with
    | ok v => exact absurd ⟨v, (So.hexInt_iff s v).1 hx⟩ h
    | error e =>
      unfold hexInt at hx
      simp only at hx
      split at hx <;> cases hx
      rfl
  · rintro h ⟨v, hv⟩
    rw [(So.hexInt_iff s v).2 hv] at h
    cases h

/-- A number with everything that may occur, and texts that are not numbers: a prefix without digits, two signs, a
blank between digits, an `L` at the end. -/
example : Hexadecimal " - 0xBeEf\n".toList (-48879) ∧ hexInt "433bf9f6001cc33f".toList = .ok 0x433bf9f6001cc33f ∧
    (["", "0x", "--1", "1 2", "1fL", "g", "0x 1"].map fun s => hexInt s.toList) =
      List.replicate 7 (.error .valueError) := by
  refine ⟨(So.hexInt_iff _ _).1 ?_, ?_, ?_⟩ <;> decide +kernel

/-! ### C96: a transmitter without a receiver -/

/-- C96, what the transmitter gets if the address is a number of 64 bits: in every interleaving, whatever arrives and
whatever fails, a beginning of the frames for one sequence: identification, access profile, access class, the messages of
the first run, access class, the messages of the other three runs, those of the last two addressed to this number. -/
theorem C96_written {a : Args} {u : List Char} {v : Int} (hv : Hexadecimal u v) (h0 : 0 ≤ v) (h1 : v < 2 ^ 64)
    {es : List SenderEvent} {s : Sender} (h : Sender.start.run a u es = some s) :
    ∃ t, s.tx.written <+: framesFrom 0 (script a v.toNat t) := by
  obtain ⟨t, ht⟩ := So.written_run h
  refine ⟨t, ?_⟩
  unfold So.whole at ht
  rw [(So.hexInt_iff u v).2 hv] at ht
  simp only [if_pos (show 0 ≤ v ∧ v ≤ 0xFFFFFFFFFFFFFFFF by omega)] at ht
  exact ht

example : Hexadecimal "5".toList 5 ∧ (Sender.start.run ⟨2, 2⟩ "5".toList (sexec 17 ++ sexec 18 ++ smains 1 0 ++ sexec 19 ++
    smains 1 20 ++ sexec 0 ++ sexec 0)).map (fun s => s.tx.written) =
      some (framesFrom 0 ((script ⟨2, 2⟩ 5 ⟨17, 18, 19, 0, fun _ => 20⟩).take 5)) :=
  ⟨(So.hexInt_iff _ _).1 (by decide +kernel), by decide +kernel⟩

/-- C96, at the end: if the program ends without an exception, the address is a number of 64 bits, all of this has been
written, and, unless there was nothing to send, the payload is not larger than fits into a unicast message. -/
theorem C96_done {a : Args} {u : List Char} {es : List SenderEvent} {s : Sender} (h : Sender.start.run a u es = some s)
    (hd : s.place = .done) : ∃ v t, Hexadecimal u v ∧ 0 ≤ v ∧ v < 2 ^ 64 ∧
      s.tx.written = framesFrom 0 (script a v.toNat t) ∧ (a.size ≤ 234 ∨ a.count ≤ 0) := by
  obtain ⟨t, ps, hw, hc, hk, hb, -⟩ := So.inv_run h
  rw [hd] at hc hk hb
  obtain ⟨v, hv, -⟩ := hk rfl
  obtain ⟨h0, h1⟩ := hb rfl v hv
  obtain ⟨hps, hm, -, -, hl⟩ := hc
  refine ⟨v, t, (So.hexInt_iff u v).1 hv, h0, by omega, ?_, hl.imp_right fun h => by omega⟩
  have := hw.2
  rw [hm, hps] at this
  unfold So.target at this
  rw [hv] at this
  simpa [unwritten] using this

/-- Four times one message. -/
example : (Sender.start.run ⟨1, 2⟩ "0x5".toList (sexec 17 ++ sexec 18 ++ smains 1 0 ++ sexec 19 ++ srun 20 ++ sexec 21 ++
    srun 22 ++ srun 23 ++ srun 24)).map (fun s => (s.place, s.tx.written)) =
      some (.done, framesFrom 0 (script ⟨1, 2⟩ 5 ⟨17, 18, 19, 21, fun
        | .broadcastQos => 20 | .broadcast => 22 | .unicastQos => 23 | .unicast => 24⟩)) := by decide +kernel

/-- C96, a text that is no number: nothing but the identification and the access profile is ever written, and the program
does not end well. -/
theorem C96_no_number {a : Args} {u : List Char} (hu : ¬ ∃ v, Hexadecimal u v) {es : List SenderEvent} {s : Sender}
    (h : Sender.start.run a u es = some s) :
    s.place ≠ .done ∧ ∃ t, s.tx.written <+: framesFrom 0 (preparation t) := by
  refine ⟨fun hd => ?_, ?_⟩
  · obtain ⟨v, -, hv, -⟩ := C96_done h hd
    exact hu ⟨v, hv⟩
  obtain ⟨t, ht⟩ := So.written_run h
  refine ⟨t, ?_⟩
  unfold So.whole at ht
  rw [(C96_address u).2.1 hu] at ht
  exact ht

/-- The access profile has been written when the text is looked at. -/
example : (¬ ∃ v, Hexadecimal "receiver".toList v) ∧ (Sender.start.run ⟨2, 2⟩ "receiver".toList (sexec 17 ++ sexec 18 ++
    smains 1 0)).map (fun s => (s.place, s.tx.written)) =
      some (.failed, framesFrom 0 (preparation ⟨17, 18, 0, 0, fun _ => 0⟩)) :=
  ⟨(C96_address _).2.2 (by decide +kernel), by decide +kernel⟩

/-- C96, a number that is negative or has more than 64 bits: the two runs with broadcast messages may be sent, but nothing
more, and the program does not end well. -/
theorem C96_far {a : Args} {u : List Char} {v : Int} (hv : Hexadecimal u v) (hr : v < 0 ∨ 2 ^ 64 ≤ v)
    {es : List SenderEvent} {s : Sender} (h : Sender.start.run a u es = some s) :
    s.place ≠ .done ∧ ∃ t, s.tx.written <+: framesFrom 0 (broadcasts a t) := by
  have hx := (So.hexInt_iff u v).2 hv
  refine ⟨fun hd => ?_, ?_⟩
  · obtain ⟨w, -, hw, h0, h1, -⟩ := C96_done h hd
    have := (So.hexInt_iff u w).2 hw
    rw [hx] at this
    cases this
    omega
  obtain ⟨t, ht⟩ := So.written_run h
  refine ⟨t, ?_⟩
  unfold So.whole at ht
  rw [hx] at ht
  simp only [if_neg (show ¬ (0 ≤ v ∧ v ≤ 0xFFFFFFFFFFFFFFFF) by omega)] at ht
  exact ht

/-- It takes two runs to find out that the address is no address. -/
example : Hexadecimal "10000000000000000".toList (2 ^ 64) ∧ (Sender.start.run ⟨1, 2⟩ "10000000000000000".toList (sexec 17 ++
    sexec 18 ++ smains 1 0 ++ sexec 19 ++ srun 20 ++ sexec 21 ++ srun 22 ++ smains 1 0)).map
      (fun s => (s.place, s.tx.written)) = some (.failed, framesFrom 0 (broadcasts ⟨1, 2⟩ ⟨17, 18, 19, 21, fun
        | .broadcastQos => 20 | _ => 22⟩)) :=
  ⟨(So.hexInt_iff _ _).1 (by decide +kernel), by decide +kernel⟩

/-- C96, no deadlock: wherever the program is, and whatever the device did, the main thread can come to an end without
anything more from the device. -/
theorem C96_ends {a : Args} {u : List Char} {es : List SenderEvent} {s : Sender} (h : Sender.start.run a u es = some s) :
    ∃ es' s', (∀ e ∈ es', Unanswered e = true) ∧ s.run a u es' = some s' ∧ (s'.place = .done ∨ s'.place = .failed) := by
  obtain ⟨s', ⟨es', h1, h2⟩, h3⟩ := So.can_end _ (Nat.lt_succ_self _) (So.inv_run h)
  exact ⟨es', s', h1, h2, h3⟩

/-- While the first message waits for its answer. -/
example : (Sender.start.run ⟨1, 2⟩ "5".toList (sexec 17 ++ sexec 18 ++ smains 1 0 ++ sexec 19 ++ smains 7 20)).map
    (fun s => (s.place == .done, s.tx.main == .idle)) = some (false, false) := by decide +kernel

/-- C96, full statement: the transmitter is a device that answers, if the program ends well. This is false, for all
arguments: the program sends everything to a device that never answers, and prints its throughput. -/
theorem C96_silent_refuted {a : Args} {u : List Char} {v : Int} (hv : Hexadecimal u v) (h0 : 0 ≤ v) (h1 : v < 2 ^ 64)
    (hl : a.size ≤ 234) : ∃ es s, (∀ e ∈ es, Unanswered e = true) ∧ Sender.start.run a u es = some s ∧ s.place = .done := by
  obtain ⟨s, ⟨es, h2, h3⟩, h4, -⟩ := So.at_done (a := a) ((So.hexInt_iff u v).2 hv) ⟨h0, by omega⟩ hl
  exact ⟨es, s, h2, h3, h4⟩

example : Hexadecimal "+ff ".toList 255 := (So.hexInt_iff _ _).1 (by decide +kernel)

/-! ### C96: a receiver without a transmitter -/

/-- C96, the receiver: it is set up, connected and quiet. From then on all messages arrive: as many as announced, each
from a node, without a tag and with the payload; in every interleaving, in pieces of any size, while the time is not
over. Then some more steps of the reading thread and of the main thread lead to the verdict "OK". -/
theorem C96_listen_partial {a : Args} {es es' : List ListenerEvent} {s s' : Listener}
    (h : Listener.start.run a es = some s) (hs : s.rx.stage = .running) (hp : ∀ n, s.place ≠ .check n)
    (hc : s.rx.modem.connected = true) (hr : s.rx.modem.reader = .reading) (hl : s.rx.commands = some [])
    (h' : s.run a es' = some s') (he : ∀ e ∈ es', Quiet e) (hd : s'.place.ended = false)
    (fs fs' : List Sent) (hfs : ∀ f ∈ fs ++ fs', f.Valid false) (hn : (fs'.length : Int) = a.count)
    (ha : ∀ f ∈ fs', f.type.toNat ≤ 3 ∧ ∃ c, f.msg = .command c ∧ c.tagId = none ∧ fromNode c = true ∧
      FirstData c (payload a.size))
    (hb : (heard es).flatten = (fs.map Sent.bytes).flatten)
    (hb' : (heard es').flatten = (fs'.map Sent.bytes).flatten) (env : Print.Env) (rand : UInt8) :
    ∃ j k s'', s'.run a (List.replicate j (.reader env) ++ List.replicate k (.main rand)) = some s'' ∧
      s''.place = .done true := by
  obtain ⟨gs, g1, g2, -, -⟩ := So.lrun_rx h
  obtain ⟨gs', g3, g4, -, g5⟩ := So.lrun_rx h'
  have hst := g5 fun e hm hx => by have := he e hm; rw [hx] at this; exact this
  obtain ⟨k, r, l, h1, h2, h3⟩ := C89_ok_partial g1 hs hc hr hl g3 hst fs fs' hfs (payload a.size) ha
    (by rw [g2]; exact hb) (by rw [g4]; exact hb') env
  rw [hn] at h3
  obtain ⟨h4, h5⟩ := (C69_verdict_partial _ _ _ _).1 h3
  have hlift := So.lift_reader (a := a) hd h1
  have hrun := So.lrun_append.2 ⟨_, h, So.lrun_append.2 ⟨_, h', hlift⟩⟩
  obtain ⟨⟨ks, hks⟩, hbound⟩ := So.bound_run hrun
  have hlate := So.check_run h' (fun e hm hx => by have := he e hm; rw [hx] at this; exact this) hp
  have hrunning : r.stage = .running := by
    have : ∀ (fs : List Event) (x y : State), (∃ es, init.run es = some x) → x.run fs = some y → x.stage = .running →
        y.stage = .running := by
      intro fs
      induction fs with
      | nil => intro x y _ hx hs; cases hx; exact hs
      | cons f fs ih =>
        intro x y ⟨es, hes⟩ hx hs
        unfold State.run at hx
        cases hst : x.step f with
        | none => rw [hst] at hx; cases hx
        | some x1 =>
          rw [hst] at hx
          refine ih x1 y ⟨es ++ [f], Throughput.run_append.2 ⟨_, hes, ?_⟩⟩ hx
            (Tr.running_step hst hs (Tr.rx_idle hes hs).1).1
          unfold State.run; rw [hst]; rfl
    exact this _ _ _ ⟨_, Throughput.run_append.2 ⟨_, g1, g3⟩⟩ h1 (this _ _ _ ⟨_, g1⟩ g3 hs)
  -- the verdict at 237
  have final : ∀ (x : Listener) (n : Nat), x.place = .check n → (n : Int) = a.count → x.rx = r →
      ∃ s'', x.run a [.main rand] = some s'' ∧ s''.place = .done true := by
    intro x n hx1 hx2 hx3
    have hver : verdict (payload a.size) a.count n l = .ok true := (C69_verdict_partial _ _ _ _).2 ⟨hx2, h5⟩
    refine ⟨{ x with place := .done true }, ?_, rfl⟩
    simp only [Listener.run, Listener.step, hx1, LPlace.ended, Listener.mainStep, hx3, h2, hver]
    rfl
  -- leaving the loop at 224
  have leave : ∀ (x : Listener) (n : Nat), x.place = .poll n → (n : Int) = a.count → x.rx = r →
      ∃ s'', x.run a [.main rand, .main rand] = some s'' ∧ s''.place = .done true := by
    intro x n hx1 hx2 hx3
    obtain ⟨s'', f1, f2⟩ := final { x with place := .check n } n rfl hx2 hx3
    refine ⟨s'', ?_, f2⟩
    rw [Listener.run]
    have : x.step a (.main rand) = some { x with place := .check n } := by
      have hno : ¬ (n : Int) < a.count := by omega
      simp only [Listener.step, hx1, LPlace.ended, Listener.mainStep]
      simp [hno]
    rw [this]
    exact f1
  -- counting at 224
  have count : ∀ (x : Listener) (n : Nat), x.place = .poll n → n ≤ l.length → x.rx = r →
      ∃ m s'', x.run a (List.replicate m (.main rand)) = some s'' ∧ s''.place = .done true := by
    intro x n hx1 hx2 hx3
    by_cases hlt : (n : Int) < a.count
    · obtain ⟨s'', f1, f2⟩ := leave { x with place := .poll l.length } l.length rfl h4 hx3
      refine ⟨3, s'', ?_, f2⟩
      rw [List.replicate_succ, Listener.run]
      have : x.step a (.main rand) = some { x with place := .poll l.length } := by
        simp only [Listener.step, hx1, LPlace.ended, Listener.mainStep, hx3, h2]
        simp [hlt]
      rw [this]
      exact f1
    · obtain ⟨s'', f1, f2⟩ := leave x n hx1 (by omega) hx3
      exact ⟨2, s'', f1, f2⟩
  have wrap : ∀ m s'', Listener.run a { s' with rx := r } (List.replicate m (.main rand)) = some s'' →
      s'.run a (List.replicate k (.reader env) ++ List.replicate m (.main rand)) = some s'' := fun m s'' hm =>
    So.lrun_append.2 ⟨_, hlift, hm⟩
  cases hq : s'.place with
  | setup =>
    have hstep : Listener.step a { s' with rx := r } (.main rand) = some { s' with rx := r, place := .poll 0 } := by
      simp [Listener.step, hq, LPlace.ended, Listener.mainStep, hrunning]
    obtain ⟨m, s'', f1, f2⟩ := count { s' with rx := r, place := .poll 0 } 0 rfl (Nat.zero_le _) rfl
    refine ⟨k, m + 1, s'', wrap (m + 1) s'' ?_, f2⟩
    rw [List.replicate_succ, Listener.run, hstep]
    exact f1
  | poll n =>
    obtain ⟨-, l', hl', hle⟩ := hbound (by show s'.place ≠ _; rw [hq]; simp) (by show s'.place ≠ _; rw [hq]; simp)
    rw [show ({ s' with rx := r } : Listener).rx.commands = r.commands from rfl, h2] at hl'
    cases hl'
    obtain ⟨m, s'', f1, f2⟩ := count { s' with rx := r } n hq (hle n (by show So.lastCount s'.place = _; rw [hq]; rfl)) rfl
    exact ⟨k, m, s'', wrap m s'' f1, f2⟩
  | check n =>
    obtain ⟨-, l', hl', hle⟩ := hbound (by show s'.place ≠ _; rw [hq]; simp) (by show s'.place ≠ _; rw [hq]; simp)
    rw [show ({ s' with rx := r } : Listener).rx.commands = r.commands from rfl, h2] at hl'
    cases hl'
    have := hle n (by show So.lastCount s'.place = _; rw [hq]; rfl)
    have := hlate n hq
    obtain ⟨s'', f1, f2⟩ := final { s' with rx := r } n hq (by omega) rfl
    exact ⟨k, 1, s'', wrap 1 s'' f1, f2⟩
  | done b => rw [hq] at hd; cases hd
  | failed => rw [hq] at hd; cases hd

/-- Two messages, the first one in two pieces; the main thread counts in between. -/
example : ∃ s s', Listener.start.run ⟨2, 2⟩ lready = some s ∧ s.rx.stage = .running ∧ s.place = .poll 0 ∧
    s.rx.modem.connected = true ∧ s.rx.modem.reader = .reading ∧ s.rx.commands = some [] ∧
    s.run ⟨2, 2⟩ ([.rx ((frame 1 1 (nodePayload 1)).take 9)] ++ lreads 1 ++ lmains 1 ++
      [.rx ((frame 1 1 (nodePayload 1)).drop 9)] ++ lreads 4 ++ lmains 1 ++ [.rx (frame 2 1 (nodePayload 2))]) = some s' ∧
    s'.place.ended = false ∧
    (s'.run ⟨2, 2⟩ (lreads 4 ++ lmains 3)).map (fun s => s.place) = some (.done true) := by
  refine ⟨(Listener.start.run ⟨2, 2⟩ lready).get (by decide +kernel), (Listener.start.run ⟨2, 2⟩ (lready ++
    ([.rx ((frame 1 1 (nodePayload 1)).take 9)] ++ lreads 1 ++ lmains 1 ++ [.rx ((frame 1 1 (nodePayload 1)).drop 9)] ++
      lreads 4 ++ lmains 1 ++ [.rx (frame 2 1 (nodePayload 2))]))).get (by decide +kernel), ?_⟩
  decide +kernel

/-- C96, what an "OK" of the receiver means: since it was set up, at least as many messages have been received as were
announced, from nodes and without the tag of the last command, and all that have been handed over have the payload. -/
theorem C96_means_partial {a : Args} {es es' : List ListenerEvent} {s s' : Listener}
    (h : Listener.start.run a es = some s) (hs : s.rx.stage = .running) (hc : s.rx.modem.connected = true)
    (hb : betweenMessages s.rx.modem.reader = true) (hl : s.rx.commands = some []) (hp : ¬ s.place.ended = true)
    (h' : s.run a es' = some s') (hok : s'.place = .done true) :
    ∃ new l, s'.rx.modem.received = s.rx.modem.received ++ new ∧
      l ++ (pending s'.rx.modem.reader).filterMap (counted s.rx.modem.tag) =
        (pending s.rx.modem.reader ++ new).filterMap (counted s.rx.modem.tag) ∧
      a.count ≤ l.length ∧ ∀ c ∈ l, FirstData c (payload a.size) := by
  -- the verdict is given in the last step
  have last : ∀ (es : List ListenerEvent) (x y : Listener), x.run a es = some y → ¬ x.place.ended = true →
      y.place = .done true → ∃ z n l, x.run a (es.dropLast) = some z ∧ z.place = .check n ∧ z.rx = y.rx ∧
        z.rx.commands = some l ∧ verdict (payload a.size) a.count n l = .ok true := by
    intro es
    induction es with
    | nil => intro x y hx hn hy; cases hx; rw [hy] at hn; exact absurd rfl hn
    | cons e es ih =>
      intro x y hx hn hy
      unfold Listener.run at hx
      cases hst : x.step a e with
      | none => rw [hst] at hx; cases hx
      | some x1 =>
        rw [hst] at hx
        change x1.run a es = some y at hx
        by_cases hend : x1.place.ended = true
        · cases es with
          | cons e' es =>
            unfold Listener.run at hx
            rw [show x1.step a e' = none by simp [Listener.step, hend]] at hx
            cases hx
          | nil =>
            cases hx
            unfold Listener.step at hst
            rw [if_neg hn] at hst
            cases e with
            | main r =>
              simp only [Listener.mainStep] at hst
              split at hst
              · split at hst
                · cases hst; cases hy
                split at hst
                · cases hst; cases hy
                obtain ⟨m, -, rfl⟩ := Option.map_eq_some_iff.1 hst
                exact absurd hend hn
              · split at hst
                · split at hst <;> cases hst; cases hy
                · cases hst; cases hy
              · next n hp =>
                split at hst
                · cases hst
                next l hl =>
                split at hst <;> cases hst
                · cases hy
                · next b hver =>
                  cases hy
                  exact ⟨x, n, l, rfl, hp, rfl, hl, hver⟩
              · cases hst
              · cases hst
            | late =>
              simp only at hst
              split at hst
              · split at hst <;> cases hst; cases hy
              · cases hst
            | timeout => obtain ⟨m, -, rfl⟩ := Option.map_eq_some_iff.1 hst; exact absurd hend hn
            | rx bs => obtain ⟨m, -, rfl⟩ := Option.map_eq_some_iff.1 hst; exact absurd hend hn
            | reader v => obtain ⟨m, -, rfl⟩ := Option.map_eq_some_iff.1 hst; exact absurd hend hn
            | serialError => obtain ⟨m, -, rfl⟩ := Option.map_eq_some_iff.1 hst; exact absurd hend hn
        · obtain ⟨z, n, l, k1, k2⟩ := ih x1 y hx hend hy
          refine ⟨z, n, l, ?_, k2⟩
          cases es with
          | nil => cases hx; rw [hy] at hend; exact absurd rfl hend
          | cons e' es =>
            rw [List.dropLast_cons_cons, Listener.run, hst]
            exact k1
  obtain ⟨z, n, l, k1, k2, k3, k4, k5⟩ := last es' s s' h' hp hok
  obtain ⟨gs, g1, -, -, -⟩ := So.lrun_rx h
  obtain ⟨gs', g3, -, g4, -⟩ := So.lrun_rx k1
  obtain ⟨new, l0, l1, h1, h2, h3, h4⟩ := C89_counted_partial g1 hs hc hb g3 g4
  rw [hl] at h2
  cases h2
  rw [k4] at h3
  cases h3
  obtain ⟨h5, h6⟩ := (C69_verdict_partial _ _ _ _).1 k5
  obtain ⟨-, hbound⟩ := So.bound_run (So.lrun_append.2 ⟨_, h, k1⟩)
  obtain ⟨-, l', hl', hle⟩ := hbound (by rw [k2]; simp) (by rw [k2]; simp)
  rw [k4] at hl'
  cases hl'
  have := hle n (by rw [k2]; rfl)
  rw [← k3]
  exact ⟨new, l, h1, by simpa using h4, by omega, h6⟩

/-- The first example, to the end. -/
example : ∃ s s', Listener.start.run ⟨2, 2⟩ lready = some s ∧ s.rx.stage = .running ∧ ¬ s.place.ended = true ∧
    s.rx.modem.connected = true ∧ betweenMessages s.rx.modem.reader = true ∧ s.rx.commands = some [] ∧
    s.run ⟨2, 2⟩ ([.rx (frame 1 1 (nodePayload 1) ++ frame 2 1 (nodePayload 2))] ++ lreads 7 ++ lmains 3) = some s' ∧
    s'.place = .done true := by
  refine ⟨(Listener.start.run ⟨2, 2⟩ lready).get (by decide +kernel), (Listener.start.run ⟨2, 2⟩ (lready ++
    ([.rx (frame 1 1 (nodePayload 1) ++ frame 2 1 (nodePayload 2))] ++ lreads 7 ++ lmains 3))).get (by decide +kernel), ?_⟩
  decide +kernel

/-- C96, no deadlock: once the receiver is set up, the program can always come to its verdict or to an exception. -/
theorem C96_listen_ends {a : Args} {es : List ListenerEvent} {s : Listener} (h : Listener.start.run a es = some s)
    (hs : s.rx.stage = .running) :
    ∃ es' s', es'.length ≤ 3 ∧ s.run a es' = some s' ∧ s'.place.ended = true := by
  obtain ⟨⟨fs, hfs⟩, hb⟩ := So.bound_run h
  have hd := doing_run hfs
  unfold Doing at hd
  rw [hs] at hd
  obtain ⟨l, hl⟩ := Option.isSome_iff_exists.1 hd.2.2.1
  have final : ∀ (x : Listener) (n : Nat), x.place = .check n → x.rx = s.rx →
      ∃ s', x.run a [.main 0] = some s' ∧ s'.place.ended = true := by
    intro x n hx1 hx2
    cases hv : verdict (payload a.size) a.count n l with
    | error e =>
      refine ⟨{ x with place := .failed }, ?_, rfl⟩
      simp [Listener.run, Listener.step, hx1, LPlace.ended, Listener.mainStep, hx2, hl, hv]
    | ok b =>
      refine ⟨{ x with place := .done b }, ?_, rfl⟩
      simp [Listener.run, Listener.step, hx1, LPlace.ended, Listener.mainStep, hx2, hl, hv]
  have leave : ∀ (x : Listener) (n : Nat), x.place = .poll n → x.rx = s.rx →
      ∃ es' s', es'.length ≤ 2 ∧ x.run a es' = some s' ∧ s'.place.ended = true := by
    intro x n hx1 hx2
    obtain ⟨s', f1, f2⟩ := final { x with place := .check n } n rfl hx2
    by_cases hlt : (n : Int) < a.count
    · refine ⟨[.late, .main 0], s', by simp, ?_, f2⟩
      rw [Listener.run, show x.step a .late = some { x with place := .check n } by
        simp [Listener.step, hx1, LPlace.ended, hlt]]
      exact f1
    · refine ⟨[.main 0, .main 0], s', by simp, ?_, f2⟩
      rw [Listener.run, show x.step a (.main 0) = some { x with place := .check n } by
        simp [Listener.step, hx1, LPlace.ended, Listener.mainStep, hlt]]
      exact f1
  cases hp : s.place with
  | setup =>
    obtain ⟨es', s', f0, f1, f2⟩ := leave { s with place := .poll 0 } 0 rfl rfl
    refine ⟨.main 0 :: es', s', by simpa using f0, ?_, f2⟩
    rw [Listener.run, show s.step a (.main 0) = some { s with place := .poll 0 } by
      simp [Listener.step, hp, LPlace.ended, Listener.mainStep, hs]]
    exact f1
  | poll n =>
    obtain ⟨es', s', f0, f1, f2⟩ := leave s n hp rfl
    exact ⟨es', s', by omega, f1, f2⟩
  | check n =>
    obtain ⟨s', f1, f2⟩ := final s n hp rfl
    exact ⟨_, s', by simp, f1, f2⟩
  | done b => exact ⟨[], s, by simp, rfl, by rw [hp]; rfl⟩
  | failed => exact ⟨[], s, by simp, rfl, by rw [hp]; rfl⟩

/-- Nothing arrives. -/
example : (Listener.start.run ⟨2, 2⟩ lready).map (fun s => (s.rx.stage, s.place)) = some (.running, .poll 0) ∧
    (Listener.start.run ⟨2, 2⟩ (lready ++ [.late] ++ lmains 1)).map (fun s => s.place) = some (.done false) := by
  decide +kernel

/-- C96, full statement: with a transmitter that runs the same test elsewhere and a link that loses nothing, the receiver says
"OK". This is false: the transmitter makes four runs, the receiver waits for the messages of one; if a message of the
second run arrives before it has counted those of the first, it says "NOK". -/
theorem C96_four_runs_refuted : ∃ s s', Listener.start.run ⟨1, 2⟩ lready = some s ∧ s.place = .poll 0 ∧
    s.rx.modem.connected = true ∧ s.rx.modem.reader = .reading ∧ s.rx.commands = some [] ∧
    s.run ⟨1, 2⟩ ([.rx (frame 1 1 (arrival (nodeStatusBytes 70 1) 2) ++ frame 2 1 (arrival (nodeStatusBytes 70 1) 2))] ++
      lreads 7 ++ lmains 3) = some s' ∧ s'.place = .done false := by
  refine ⟨(Listener.start.run ⟨1, 2⟩ lready).get (by decide +kernel), (Listener.start.run ⟨1, 2⟩ (lready ++
    ([.rx (frame 1 1 (arrival (nodeStatusBytes 70 1) 2) ++ frame 2 1 (arrival (nodeStatusBytes 70 1) 2))] ++
      lreads 7 ++ lmains 3))).get (by decide +kernel), ?_⟩
  decide +kernel

end Verif.Throughput
