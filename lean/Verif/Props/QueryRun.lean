import Verif.Lemmas.QueryRun
import Verif.Props.LateConnect

/-! C104: examples/query_nodes.py from its first call until it ends. -/

namespace Verif.Modem.Query

open Verif Verif.Serial

variable {D : Type}

/-- A gateway that tells its UID and its firmware version and is in reach of two nodes. -/
def town : Gateway Nat where
  handle n
    | 0xB4 :: tag :: 1 :: xs => naming.handle n (0xB4 :: tag :: 1 :: xs)
    | bs => (relay 75).handle n bs

theorem town_forwards : town.Forwards (twoNodes 75) := by
  intro d tag cfg raw ops _ _
  rfl

theorem town_conforms : town.Conforms := by
  intro d c bs tag h1 h2 h3 h4
  unfold town
  dsimp only
  split
  · exact naming_conforms d c _ tag h1 h2 h3 h4
  · exact relay_conforms d c bs tag h1 h2 h3 h4

/-- Steps of the modem and the device. -/
def others (es : List NetEvent) : List Event := es.map fun e => .other (.net e)

/-- The program connects. -/
def connecting : List Event :=
  .connect 9 :: others ([.main, .main, .main, .main, .main, .take, .send 1, .read 42] ++ List.replicate 4 .reader ++ [.main])

/-- It asks, and the nodes answer; a log text comes in between. -/
def answering : List Event :=
  others ([.reader, .main, .main, .main, .main, .main, .take, .send 1, .log 2 [104, 105], .send 3, .send 4, .read 92] ++
    List.replicate 11 .reader)

/-- C104, it ends where it should: examples/query_nodes.py connects, asks and logs what comes in; it ends after the first
message that says that the execution is completed, and not before; whatever the device sends, whatever times out or
fails, in every interleaving. -/
theorem C104_stops {g : Gateway D} {d : D} {es : List Event} {s : Run D} (h : (start d).run g es = some s) :
    (s.place = .ended → ∃ l c, s.net.modem.called = l ++ [.command c] ∧ c.executionCompleted = true ∧
      ∀ x, .command x ∈ l → x.executionCompleted = false) ∧
    (s.place ≠ .ended → ∀ x, .command x ∈ s.net.modem.called → x.executionCompleted = false) := by
  rcases stops_run h with ⟨h1, l, m, h2, h3, h4⟩ | ⟨h1, h2⟩
  · refine ⟨fun _ => ?_, fun h => absurd h1 h⟩
    cases m with
    | command c => exact ⟨l, c, h2, h3, fun x hx => h4 _ hx⟩
    | _ => cases h3
  · exact ⟨fun h => absurd h h1, fun _ x hx => h2 _ hx⟩

example : ((start 5).run town (connecting ++ .ask 7 :: answering)).map (fun s => (s.place, s.net.modem.outcomes,
    s.net.modem.called)) = some (.ended, [.bool true, .empty], [.command (heard 7 (nodeStatus 70 1) [(0x40, 0, [6])]),
      .command (heard 7 (nodeStatus 75 2) [(0x40, 0, [6])]), .command (answered 7 [])]) := by
  decide +kernel

/-- C104, when the set-up fails: `connect` returns False, which the program does not look at. From then on it runs
without an end and logs nothing, whatever arrives. -/
theorem C104_silent {g : Gateway D} {d : D} {before es : List Event} {s0 s : Run D} {tag : UInt8}
    (h0 : (start d).run g before = some s0) (hc : s0.net.modem.outcomes = [.bool false])
    (h : s0.run g (.ask tag :: es) = some s) : s.net.modem.called = [] ∧ s.place = .waiting := by
  obtain ⟨s1, h1, h2⟩ := run_cons h
  obtain ⟨hp, -, hm, hp1, -⟩ := ask_step h1
  have h3 : s.net.modem.connected = false := by
    rw [connected_after h]
    rcases (told_run h0).2.2 hp with ⟨-, h3, -⟩ | ⟨-, h3 | ⟨e, h3⟩⟩
    · rw [h3] at hc; cases hc
    · rw [h3] at hc
      injection hc with hc
      injection hc
    · rw [h3] at hc; cases hc
  have h4 := silent (run_append.2 ⟨s0, h0, h⟩) h3
  refine ⟨h4, ?_⟩
  rcases (asked_run (.inl hp1) h2).1 with h5 | h5
  · exact h5
  · obtain ⟨l, m, h6, -⟩ := (C104_stops (run_append.2 ⟨s0, h0, h⟩)).1 h5
    rw [h4] at h6
    cases l <;> cases h6

/-- The answer to `connect` comes too late. -/
def tooSlow : List Event :=
  .connect 9 :: (others [.main, .main, .main, .main, .main, .take] ++ [.other .timeout])

/-- The program asks; everything that the gateway has sent arrives. -/
def allThere : List Event :=
  others ([.main, .main, .main, .main, .main, .take, .send 0, .send 1, .send 2, .send 3, .read 125] ++
    List.replicate 17 .reader)

example : ((start 5).run town tooSlow).map (fun s => s.net.modem.outcomes) = some [.bool false] ∧
    ((start 5).run town (tooSlow ++ .ask 7 :: allThere)).map (fun s => (s.place, s.net.modem.called, s.net.modem.received.length)) =
      some (.waiting, [], 4) := by
  decide +kernel

/-- The claim that the program logs the answers and ends does not hold: `connect` times out and returns False, the device
answers everything, all of it is read, and the program logs nothing and sleeps for ever. -/
theorem C104_always_refuted : town.Conforms ∧ ∃ s, (start 5).run town (tooSlow ++ .ask 7 :: allThere) = some s ∧
    s.net.Settled ∧ s.net.modem.received.length = 4 ∧ s.net.modem.called = [] ∧ s.place = .waiting := by
  refine ⟨town_conforms, ((start 5).run town (tooSlow ++ .ask 7 :: allThere)).get (by decide +kernel), by simp, ⟨?_, ?_, ?_, ?_, ?_⟩,
    ?_, ?_, ?_⟩ <;> decide +kernel

/-- C104, what it has logged, for receive levels up to 127 and runs in which everything is in time: when the program has
ended it has logged the answers of exactly the nodes that answered, in order, each with the status of that node and the
data it returned, and then the message that the execution is completed. -/
theorem C104_logged_partial {g : Gateway D} (hg : g.Conforms) {air : Air D} (hf : g.Forwards air) {d : D}
    {before es : List Event} {s0 s : Run D} {tag : UInt8} (hq : ∀ e ∈ before ++ es, InTime e)
    (h0 : (start d).run g before = some s0)
    (hx : ∀ x ∈ (air s0.net.data interface [.read 0x40 0 2]).2, x.Readable)
    (h : s0.run g (.ask tag :: es) = some s) (he : s.place = .ended) :
    ∃ cs, s.net.modem.called = cs.map Msg.command ∧ Brings tag (air s0.net.data interface [.read 0x40 0 2]).2 cs ∧
      s.net.data = (air s0.net.data interface [.read 0x40 0 2]).1 := by
  obtain ⟨hpol, r0, hm, hcalls, r1⟩ := flow hq h0 h
  obtain ⟨l, m, hl, hme, -⟩ := (C104_stops (run_append.2 ⟨s0, h0, h⟩)).1 he
  have hc : s0.net.modem.connected = true := by
    cases hc : s0.net.modem.connected with
    | true => rfl
    | false =>
      have := silent (run_append.2 ⟨s0, h0, h⟩) ((connected_after h).trans hc)
      rw [this] at hl
      cases l <;> cases hl
  obtain ⟨done, rs, e1, e2, e3, e4⟩ := C79_called (config := config) rfl rfl hg hpol r0 hm hc (background_query tag hcalls) r1
  rw [payloads_query tag hcalls] at e1
  obtain ⟨cs, e5, e6⟩ := message_answers (tag := tag) hx
  have hdone : done = [] ∨ done = [askingBytes tag [1, 0, 0x10, 0x11] [.read 0x40 0 2]] := by
    obtain ⟨z, hz⟩ := e1
    cases done with
    | nil => exact .inl rfl
    | cons a done => cases done <;> simp_all
  rcases hdone with rfl | rfl
  · cases e3
    rw [hl] at e4
    cases l <;> cases (List.prefix_nil.1 e4)
  · simp only [Gateway.replies, List.append_nil, hf s0.net.data tag everyone _ _ describes_everyone query_valid] at e2 e3
    have hrs : rs = cs := meaning_unique e3 e5.meaning
    subst hrs
    refine ⟨rs, ?_, e6, e2⟩
    obtain ⟨l', x, e7, e8, e9, e10⟩ := C81_end e6
    obtain ⟨z, hz⟩ := e4
    rcases List.eq_nil_or_concat z with rfl | ⟨z, y, rfl⟩
    · simpa using hz
    · rw [hl, e7, List.map_append, List.concat_eq_append, ← List.append_assoc] at hz
      have h3 := (List.append_inj' hz rfl).1
      have h4 : .command m ∈ l'.map Msg.command := by rw [← h3]; simp
      obtain ⟨c, h5, h6⟩ := List.mem_map.1 h4
      injection h6 with h6; subst h6
      rw [e10 c h5] at hme
      cases hme

example : town.Conforms ∧ town.Forwards (twoNodes 75) ∧ (∀ e ∈ connecting ++ answering, InTime e) ∧
    (∀ x ∈ (twoNodes 75 6 interface [.read 0x40 0 2]).2, x.Readable) ∧
    ((start 5).run town connecting).map (fun s => s.net.data) = some 6 ∧
    ((start 5).run town (connecting ++ .ask 7 :: answering)).map (fun s => s.place) = some .ended := by
  refine ⟨town_conforms, town_forwards, ?_, twoNodes_readable 6 _ _, by decide +kernel, by decide +kernel⟩
  intro e he
  simp only [connecting, answering, others, List.mem_append, List.mem_cons, List.mem_map] at he
  rcases he with (rfl | ⟨x, -, rfl⟩) | ⟨x, -, rfl⟩ <;> trivial

/-- C104, it does end, for runs in which everything is in time: if `connect` has returned True there is a number such that
after the question at most that many steps can be made (and 11 for each byte of log texts and reboot messages that come in
between), and until the program has ended there is always a step that can be made. -/
theorem C104_ends_partial {g : Gateway D} (hg : g.Conforms) {air : Air D} (hf : g.Forwards air) {d : D}
    {before es : List Event} {s0 s : Run D} {tag : UInt8} (hq : ∀ e ∈ before ++ es, InTime e)
    (h0 : (start d).run g before = some s0) (hc : s0.net.modem.outcomes = [.bool true])
    (hx : ∀ x ∈ (air s0.net.data interface [.read 0x40 0 2]).2, x.Readable)
    (h : s0.run g (.ask tag :: es) = some s) :
    ∃ k, ∀ rest s', (∀ e ∈ rest, InTime e) → s.run g rest = some s' → rest.length ≤ k + 11 * notices rest ∧
      (s'.place = .ended ∨ ∃ e s2, s'.step g (.other (.net e)) = some s2 ∧ noticeBytes [e] = 0) := by
  obtain ⟨hpol, r0, hm, hcalls, r1⟩ := flow hq h0 h
  obtain ⟨s1, h1, h2⟩ := run_cons h
  obtain ⟨hp, -, -, hp1, -⟩ := ask_step h1
  have hcon : s0.net.modem.connected = true := by
    rcases (told_run h0).2.2 hp with ⟨-, h3, -⟩ | ⟨-, h3 | ⟨e, h3⟩⟩
    · rw [h3] at hc; cases hc
    · rw [h3] at hc
      injection hc with hc
      injection hc
    · rw [h3] at hc; cases hc
  obtain ⟨k, hk⟩ := C79_settles (config := config) rfl rfl hg hpol r0 hm hcon (background_query tag hcalls) r1
  refine ⟨k, ?_⟩
  intro rest s' hr h3
  have has := (asked_run (.inl hp1) h2).1
  have hcr := quiet_after has h3 hr
  obtain ⟨e1, e2⟩ := hk (rest.map netOf) s'.net hcr (inTime_run h3 hr)
  rw [List.length_map, notices_netOf hr] at e1
  refine ⟨e1, ?_⟩
  have hfull : s0.run g (.ask tag :: (es ++ rest)) = some s' := run_append (es := .ask tag :: es).2 ⟨s, h, h3⟩
  by_cases hend : s'.place = .ended
  · exact .inl hend
  refine .inr ?_
  rcases e2 with hs | ⟨e, s2, e3, e4, e5⟩
  · exfalso
    obtain ⟨-, -, -, hcalls', r2⟩ := flow (es := es ++ rest) (by
      intro e he
      simp only [List.mem_append] at he
      rcases he with he | he | he
      · exact hq e (by simp [he])
      · exact hq e (by simp [he])
      · exact hr e he) h0 hfull
    obtain ⟨cs, a1, a2, -⟩ := C81_query_partial (config := config) rfl rfl hg hf describes_everyone query_valid
      (by simp [askingBytes, FileOp.bytes, encode]) hx hpol r0 hm hcon hcalls' r2 hs
    obtain ⟨l, x, a3, -, a4, -⟩ := C81_end a2
    have := (C104_stops (run_append.2 ⟨s0, h0, hfull⟩)).2 hend x (by rw [a1, a3]; simp)
    rw [a4] at this
    cases this
  · refine ⟨e, ⟨s2, if (s2.modem.called.drop s'.net.modem.called.length).any ends then .ended else s'.place⟩, ?_, e5⟩
    simp only [Run.step]
    rw [if_neg (by
      rintro (h | h)
      · exact hend h
      · cases e <;> first | exact e4 _ rfl | cases h)]
    simp only [Net.stepLate, e3, Option.map_some]

example : ((start 5).run town connecting).map (fun s => s.net.modem.outcomes) = some [.bool true] ∧
    ((start 5).run town (connecting ++ .ask 7 :: answering.take 10)).map (fun s => (s.place, s.net.modem.called)) =
      some (.waiting, []) := by
  decide +kernel

end Verif.Modem.Query
