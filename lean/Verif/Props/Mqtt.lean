import Verif.Lemmas.Mqtt

/-! C58: the MQTT bridge. -/

namespace Verif.Mqtt

open Verif Verif.Serial Verif.Modem

/-- The program up to the point where `connect` has returned, and up to the end of the set-up. -/
def connected : List Event := List.replicate 7 (.main 7)
def setUp : List Event := connected ++ List.replicate 2 (.main 7)

/-- Steps of the reading thread. -/
def reads (n : Nat) : List Event := List.replicate n (.reader none)

/-- C58: whatever is received and whatever the MQTT client raises, the reading thread survives (serial errors
excepted, see C55). -/
theorem C58_survives {es : List Event} {s : State} (h : init.run es = some s)
    (hser : Event.serialError ∉ es) : s.modem.reader.isDead = false := by
  obtain ⟨fs, h1, -, h3, h4⟩ := run_modem h
  exact C55_skip_mode (config := config) rfl h1 (h4 hser) h3

example : (init.run (setUp ++ [.rx (frame 1 1 [0x32, 0]), .reader none, .reader none,
    .reader (some .valueError), .reader none, .rx (frame 2 1 [7])] ++ reads 4)).map
    (fun s => (s.published, s.modem.reader)) = some ([[7]], .reading) := by decide +kernel

/-- C58: nothing else is ever published: in every state the published payloads are, in order and unchanged,
payloads of different ALP or ping messages that were received. -/
theorem C58_sound {es : List Event} {s : State} (h : init.run es = some s) :
    s.published.Sublist (payloads s.modem.received) := by
  have h1 : s.published.Sublist (s.modem.called.filterMap bytesOf) := by
    refine run_induction (P := fun s => s.published.Sublist (s.modem.called.filterMap bytesOf)) h
      (List.Sublist.refl _) ?_
    intro a e b ha _ hst
    have hcalled : ∀ f, a.modem.step f = some b.modem → b.published = a.published →
        b.published.Sublist (b.modem.called.filterMap bytesOf) := by
      intro f hf hp
      obtain ⟨l, hl⟩ := called_grows hf
      rw [hp, hl, List.filterMap_append]
      exact ha.trans (List.sublist_append_left _ _)
    cases e with
    | main r =>
      simp only [State.step, State.mainStep] at hst
      split at hst
      · obtain ⟨m, h1, rfl⟩ := Option.map_eq_some_iff.1 hst; exact hcalled _ h1 rfl
      · split at hst
        · cases hst; exact ha
        · obtain ⟨m, h1, rfl⟩ := Option.map_eq_some_iff.1 hst; exact hcalled _ h1 rfl
      · cases hst; exact ha
      · cases hst; exact ha
      · cases hst
    | rx bs => obtain ⟨m, h1, rfl⟩ := Option.map_eq_some_iff.1 hst; exact hcalled _ h1 rfl
    | serialError => obtain ⟨m, h1, rfl⟩ := Option.map_eq_some_iff.1 hst; exact hcalled _ h1 rfl
    | reader r =>
      obtain ⟨g1, -, g3⟩ := readerStep_eq hst
      split at g3
      · next t m q hr =>
        have hc : b.modem.called = a.modem.called ++ [m] := by
          simp only [Modem.State.step, Modem.State.readerStep, hr, Option.some.injEq] at g1
          rw [← g1]
        rw [g3, hc, List.filterMap_append]
        rcases onCommandReceived_published a r m with h | ⟨x, rfl, h⟩
        · rw [h]; exact ha.trans (List.sublist_append_left _ _)
        · rw [h]; exact ha.append (List.Sublist.refl _)
      · exact hcalled _ g1 g3
  obtain ⟨fs, hr, -⟩ := run_modem h
  obtain ⟨log, hl⟩ := C44_one_sink (config := config) hr
  obtain ⟨new, g1, g2⟩ := hl.messages
  refine h1.trans ?_
  have hrec : s.modem.received = log.map Prod.snd ++ pending s.modem.reader := by rw [g2, g1]; rfl
  rw [hrec, payloads, List.filterMap_append, hl.called]
  refine List.Sublist.trans ?_ (List.sublist_append_left _ _)
  exact callback_payloads log fun x hx hk => by
    have := hl.right x hx
    rw [hk] at this
    exact this.1

/-- One of two payloads is published, since the client raised for the other. -/
example : (init.run (setUp ++ [.rx (frame 1 1 [0x32, 0]), .reader none, .reader none,
    .reader (some .valueError), .reader none, .rx (frame 2 1 [7])] ++ reads 4)).map
    (fun s => (s.published, payloads s.modem.received)) = some ([[7]], [[0x32, 0], [7]]) := by decide +kernel

/-- C58, what holds: once the set-up is done, and the client accepts what is published, every ALP and ping
message that is handed over is published, exactly once, in order, unchanged. `done` are the messages that
were waiting or have arrived since, but for those still waiting. Missing for the full claim: messages handed
over between `connect` and the end of the set-up are lost (`C58_refuted`, `C58_window`). -/
theorem C58_published_partial {es es' : List Event} {s s' : State} (h : init.run es = some s)
    (hs : s.stage = .ready) (hb : betweenMessages s.modem.reader = true)
    (h' : s.run es' = some s') (hp : PublishWorks es') :
    ∃ new done, s'.modem.received = s.modem.received ++ new ∧
      pending s.modem.reader ++ new = done ++ pending s'.modem.reader ∧
      s'.published = s.published ++ payloads done := by
  have h0 : Inv s := inv_run h
  have := run_induction (P := fun x => (Inv x ∧ ReaderOk x.modem) ∧ x.stage = .ready ∧ Steady x.modem.reader ∧
      ∃ new done, x.modem.received = s.modem.received ++ new ∧
      pending s.modem.reader ++ new = done ++ pending x.modem.reader ∧
      x.published = s.published ++ payloads done) h'
    ⟨⟨h0, readerOk_run h⟩, hs, steady_between hb, [], [], by simp, by simp, by simp [payloads]⟩
    fun a e b ha he hst => by
      obtain ⟨p1, p2⟩ := published_step ha.1.1 ha.1.2 ha.2.1 ha.2.2.1 ha.2.2.2
        (fun x hx => hp x (hx ▸ he)) hst
      exact ⟨⟨p1, readerOk_step ha.1.2 hst⟩, p2⟩
  exact this.2.2.2

example : (init.run (setUp ++ [.rx (frame 1 1 [1, 2])])).map
    (fun s => (s.stage, betweenMessages s.modem.reader, (s.run (reads 4)).map (·.published))) =
    some (.ready, true, some [[1, 2]]) := by decide +kernel

/-- C58: if the bytes that arrive after the set-up are frames, cut in any way, then once they are processed
exactly the payloads of the frames of types 1 to 3 (and 0) have been published. -/
theorem C58_frames_partial {es es' : List Event} {s s' : State} (h : init.run es = some s)
    (hs : s.stage = .ready) (hr : s.modem.reader = .reading) (hb : s.modem.parser.buffer = [])
    (h' : s.run es' = some s') (hp : PublishWorks es') (hser : Event.serialError ∉ es')
    (hdone : pending s'.modem.reader = [])
    (fs : List (UInt8 × UInt8 × List UInt8)) (hfs : ∀ f ∈ fs, f.2.1 ≠ 5 ∧ f.2.2.length ≤ 255)
    (hbytes : (chunks es').flatten = (fs.map fun f => frame f.1 f.2.1 f.2.2).flatten) :
    s'.published = s.published ++ (fs.filter fun f => f.2.1 ≤ 3).map fun f => f.2.2 := by
  obtain ⟨new, done, g1, g2, g3⟩ := C58_published_partial h hs (by rw [hr]; rfl) h' hp
  rw [hr, hdone] at g2
  simp only [pending, List.nil_append, List.append_nil] at g2
  subst g2
  have hk := (inv_run h).2.1
  obtain ⟨ms, m1, m2, m3, m4⟩ := run_modem h'
  have hnew : new = fs.map fun f => ((f.2.1.toNat : Int), Msg.bytes f.2.2) := by
    by_cases hne : chunks es' = []
    · have hfs0 : fs = [] := by
        rw [hne] at hbytes
        cases fs with
        | nil => rfl
        | cons f fs => simp [frame] at hbytes
      have hd := not_dead m1 (by rw [hr]; rfl) s.modem.parser ⟨rfl, rfl⟩
        (by rw [m2, hne]; exact ⟨_, rfl⟩) (m4 hser) m3
      obtain ⟨p, nw, errs, f1, -, f3⟩ := received_feed m1 hd s.modem.parser ⟨rfl, rfl⟩
      rw [m2, hne] at f1
      injection f1 with f1
      have e1 : nw = [] := (congrArg (fun x => x.2.1) f1).symm
      rw [f3] at g1
      rw [← List.append_cancel_left g1, e1, hfs0]
      rfl
    · obtain ⟨q, hf, -⟩ := C38_frames s.modem.parser hb hk fs hfs (chunks es') hne hbytes
      have hd := not_dead m1 (by rw [hr]; rfl) s.modem.parser ⟨rfl, rfl⟩
        (by rw [m2]; exact ⟨_, hf⟩) (m4 hser) m3
      obtain ⟨p, nw, errs, f1, -, f3⟩ := received_feed m1 hd s.modem.parser ⟨rfl, rfl⟩
      rw [m2, hf] at f1
      injection f1 with f1
      have e1 : nw = _ := (congrArg (fun x => x.2.1) f1).symm
      rw [f3] at g1
      rw [← List.append_cancel_left g1, e1]
  rw [g3, hnew]
  congr 1
  clear hnew g3 g1 hbytes hfs
  induction fs with
  | nil => rfl
  | cons f fs ih =>
    have hiff : ((f.2.1.toNat : Int) ≤ 3) ↔ f.2.1 ≤ 3 := by
      rw [UInt8.le_iff_toNat_le]; exact Int.ofNat_le (n := 3)
    unfold payloads at ih ⊢
    by_cases hf : f.2.1 ≤ 3
    · simp [payload, hiff, hf, ih]
    · simp [payload, hiff, hf, ih]

/-- Two messages and a log text in between, in two chunks, after the set-up. -/
example : (init.run (setUp ++ [.rx (frame 1 1 [1, 2] ++ frame 2 4 [65] ++ [0xc0, 0])] ++ reads 6 ++
    [.rx ((frame 3 1 [3]).drop 2)] ++ reads 4)).map (fun s => (s.stage, s.published, s.modem.reader)) =
    some (.ready, [[1, 2], [3]], .reading) := by decide +kernel

/-- The hypotheses on the state after the set-up are met. -/
example : (init.run setUp).map (fun s => (s.stage, s.modem.reader, s.modem.parser.buffer,
    s.modem.connected, s.modem.outcomes)) =
    some (.ready, .reading, [], true, [.bool true]) := by decide +kernel

/-- C58 is false as stated: `connect` has returned, a message is received and processed, the set-up ends: the
message was not published and nothing waits. -/
theorem C58_refuted : ∃ s s', init.run connected = some s ∧ s.modem.outcomes = [.bool true] ∧
    s.modem.received = [] ∧
    s.run ([.rx (frame 1 1 [1, 2])] ++ reads 4 ++ [.main 7, .main 7]) = some s' ∧ s'.stage = .ready ∧
    s'.modem.received = [(1, .bytes [1, 2])] ∧ pending s'.modem.reader = [] ∧ s'.published = [] := by
  obtain ⟨s, h, hs⟩ := Option.map_eq_some_iff.1 (show (init.run connected).map (fun s =>
    (s.modem.outcomes, s.modem.received, (s.run ([.rx (frame 1 1 [1, 2])] ++ reads 4 ++
      [.main 7, .main 7])).map fun s' =>
      (s'.stage, s'.modem.received, pending s'.modem.reader, s'.published))) =
    some ([.bool true], [], some (.ready, [(1, .bytes [1, 2])], [], [])) by
      set_option synthInstance.maxSize 2000 in decide +kernel)
  simp only [Prod.mk.injEq] at hs
  obtain ⟨h1, h2, h3⟩ := hs
  obtain ⟨s', g, gs⟩ := Option.map_eq_some_iff.1 h3
  simp only [Prod.mk.injEq] at gs
  exact ⟨s, s', h, h1, h2, g, gs.1, gs.2.1, gs.2.2.1, gs.2.2.2⟩

/-- C58: before the end of the set-up nothing at all is published, so every message handed over by then is
lost. -/
theorem C58_window {es : List Event} {s : State} (h : init.run es = some s) (hs : s.stage ≠ .ready) :
    s.published = [] := by
  have := run_induction (P := fun s => s.stage ≠ .ready → s.published = []) h (fun _ => rfl) ?_
  · exact this hs
  intro a e b ha _ hst hb
  cases e with
  | main r =>
    simp only [State.step, State.mainStep] at hst
    split at hst
    · next hg => obtain ⟨m, h1, rfl⟩ := Option.map_eq_some_iff.1 hst; exact ha (by rw [hg]; simp)
    · next hg =>
      split at hst
      · cases hst; exact ha (by rw [hg]; simp)
      · obtain ⟨m, h1, rfl⟩ := Option.map_eq_some_iff.1 hst; exact ha (by rw [hg]; simp)
    · next hg => cases hst; exact ha (by rw [hg]; simp)
    · cases hst; exact absurd rfl hb
    · cases hst
  | rx bs => obtain ⟨m, h1, rfl⟩ := Option.map_eq_some_iff.1 hst; exact ha hb
  | serialError => obtain ⟨m, h1, rfl⟩ := Option.map_eq_some_iff.1 hst; exact ha hb
  | reader r =>
    obtain ⟨-, g2, g3⟩ := readerStep_eq hst
    rw [g2] at hb
    rw [g3]
    split
    · next t m q hr => rw [onCommandReceived_early hb]; exact ha hb
    · exact ha hb

example : (init.run (connected ++ [.main 7, .rx (frame 1 1 [1, 2])] ++ reads 4)).map
    (fun s => (s.stage, s.published, s.modem.called)) = some (.client, [], [.bytes [1, 2]]) := by
  decide +kernel

end Verif.Mqtt
