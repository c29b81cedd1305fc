import Verif.Lemmas.Kept

/-! The modem together with a device that answers with any number of messages, when the application neither waits for the
answers nor has a callback (or is not connected): it looks at the list of unsolicited messages. -/

namespace Verif.Modem

open Verif Verif.Serial

variable {D : Type}

theorem kept_start {config : Config} (hk : config.skip = false) {g : Gateway D} (hg : g.Conforms) {d : D}
    {before : List NetEvent} {s0 : Net D} (hp : ∀ e ∈ before, Polite e)
    (h0 : (Net.start config d).run g before = some s0) (hm : s0.modem.main = .idle)
    (hc : config.callback = false ∨ s0.modem.connected = false) :
    Kept.Ok s0.modem ∧ Kept.Single s0.modem ∧
      Gwa.Flow g (Kept.image s0) (Kept.image s0) s0.modem.parser.upCounter.toNat [] [] [] := by
  rcases Gw.reachable hg (.inl (Gw.start_idle hk d)) hp h0 with h1 | ⟨j, h1⟩
  · obtain ⟨evs, h2⟩ := net_modem h0
    obtain ⟨h3, -, -, h4⟩ := run_handedOver (init_ok config) h2
    have hu : s0.modem.unsolicited ≠ [] := h3.2.1
    exact ⟨Kept.ok_idle h1 (by rw [h4]; exact hc) hu, Kept.single_idle h1 hu,
      Gwa.flow_start (Kept.idle_image h1) rfl rfl g⟩
  · exact absurd hm (Gw.serving_main h1)

theorem kept_flow {config : Config} (hk : config.skip = false) {g : Gateway D} (hg : g.Conforms) {d : D}
    {before es : List NetEvent} {s0 s : Net D} (hp : ∀ e ∈ before, Polite e)
    (h0 : (Net.start config d).run g before = some s0) (hm : s0.modem.main = .idle)
    (hc : config.callback = false ∨ s0.modem.connected = false) (hb : ∀ e ∈ es, Background e)
    (hn : ∀ a r, .call (.connect a r) ∉ es) (h : s0.run g es = some s) :
    Kept.Ok s.modem ∧ ∃ n done rs, Gwa.Flow g (Kept.image s0) (Kept.image s) n (payloads es) done rs := by
  obtain ⟨h1, -, h2⟩ := kept_start hk hg hp h0 hm hc
  obtain ⟨h3, es', h4, h5, h6⟩ := Kept.net_run h1 hn h
  obtain ⟨done, rs, h7⟩ := Gwa.flow_run hg h2 (fun e he => hb e (h6 e he)) h4
  rw [List.nil_append, h5] at h7
  exact ⟨h3, _, done, rs, h7⟩

/-! ### C82: commands executed without waiting and without a callback -/

/-- One command without waiting; the list is cleared while the reading thread is adding the first answer to it. -/
def keptEvents : List NetEvent :=
  [.call (.execute (request 7 [.read 0x40 0 1]) 0), .main, .main, .main, .main, .main, .take, .send 0, .log 9 [104, 105],
    .send 1, .read 32, .reader, .reader, .reader, .call .clearUnsolicited, .reader]

theorem keptEvents_background : ∀ e ∈ keptEvents ++ List.replicate 7 .reader, Background e := by
  intro e he
  simp only [keptEvents, List.mem_append, List.mem_cons, List.mem_replicate, List.not_mem_nil, or_false] at he
  rcases he with (rfl | rfl | rfl | rfl | rfl | rfl | rfl | rfl | rfl | rfl | rfl | rfl | rfl | rfl | rfl | rfl) | ⟨-, rfl⟩
  · exact ⟨rfl, _, rfl, rfl, rfl⟩
  all_goals trivial

/-- C82, at any time: without a callback, or before the modem is connected, the device has processed the first of the
commands, in order, each once, and what is in the lists of unsolicited messages (those from before each
`clear_unsolicited_responses_received` and the current one) are the first of its answers to them, in order. -/
theorem C82_kept {config : Config} (hk : config.skip = false) {g : Gateway D} (hg : g.Conforms) {d : D}
    {before es : List NetEvent} {s0 s : Net D} (hp : ∀ e ∈ before, Polite e)
    (h0 : (Net.start config d).run g before = some s0) (hm : s0.modem.main = .idle)
    (hc : config.callback = false ∨ s0.modem.connected = false) (hb : ∀ e ∈ es, Background e)
    (hn : ∀ a r, .call (.connect a r) ∉ es) (h : s0.run g es = some s) :
    ∃ done rs, done <+: payloads es ∧ s.data = (g.replies s0.data done).1 ∧ Meaning (g.replies s0.data done).2 rs ∧
      s.modem.unsolicited.flatten <+: rs.map Msg.command := by
  obtain ⟨-, n, done, rs, h1⟩ := kept_flow hk hg hp h0 hm hc hb hn h
  exact ⟨done, rs, Kept.flow_called h1⟩

example : (∀ e ∈ keptEvents, Background e) ∧ (∀ a r, .call (.connect a r) ∉ keptEvents) ∧
    ((Net.start ⟨false, false, false⟩ (5 : Nat)).run counting (.call (.connect false 0) :: keptEvents)).map (fun s =>
      (s.data, s.modem.unsolicited, s.modem.connected)) = some (6, [[.command (counted 7 5)], []], true) :=
  ⟨fun e he => keptEvents_background e (List.mem_append_left _ he), by simp [keptEvents], by decide +kernel⟩

/-- C82, at rest: when nothing is going on any more, the device has processed all the commands that fit in a frame, each
once, in the order of the calls, and the lists hold exactly its answers, each once, in order. -/
theorem C82_settled {config : Config} (hk : config.skip = false) {g : Gateway D} (hg : g.Conforms) {d : D}
    {before es : List NetEvent} {s0 s : Net D} (hp : ∀ e ∈ before, Polite e)
    (h0 : (Net.start config d).run g before = some s0) (hm : s0.modem.main = .idle)
    (hc : config.callback = false ∨ s0.modem.connected = false) (hb : ∀ e ∈ es, Background e)
    (hn : ∀ a r, .call (.connect a r) ∉ es) (h : s0.run g es = some s) (hs : s.Settled) :
    s.data = (g.replies s0.data (payloads es)).1 ∧
      ∃ rs, Meaning (g.replies s0.data (payloads es)).2 rs ∧ s.modem.unsolicited.flatten = rs.map Msg.command := by
  obtain ⟨-, n, done, rs, h1⟩ := kept_flow hk hg hp h0 hm hc hb hn h
  obtain ⟨h2, h3, h4⟩ := Kept.flow_settled h1 (Kept.settled_of hs)
  exact ⟨h2, rs, h3, h4⟩

example : ((Net.start ⟨false, false, false⟩ (5 : Nat)).run counting
      (.call (.connect false 0) :: (keptEvents ++ List.replicate 7 .reader))).map (fun s =>
      (s.data, s.modem.unsolicited, decide (s.modem.main = .idle ∧ s.taken = s.modem.written.length ∧ s.pending = [] ∧
      s.line = [] ∧ s.modem.reader = .reading))) =
    some (6, [[.command (counted 7 5)], [.command (answered 7 [])]], true) := by
  decide +kernel

/-- C82, one list: as long as `clear_unsolicited_responses_received` is not called, everything is in the current list,
which `get_unsolicited_responses_received` returns. -/
theorem C82_current {config : Config} (hk : config.skip = false) {g : Gateway D} (hg : g.Conforms) {d : D}
    {before es : List NetEvent} {s0 s : Net D} (hp : ∀ e ∈ before, Polite e)
    (h0 : (Net.start config d).run g before = some s0) (hm : s0.modem.main = .idle)
    (hc : config.callback = false ∨ s0.modem.connected = false)
    (hn : ∀ a r, .call (.connect a r) ∉ es) (hu : .call .clearUnsolicited ∉ es) (h : s0.run g es = some s) :
    s.modem.unsolicited.getLast? = some s.modem.unsolicited.flatten := by
  obtain ⟨h1, h2, -⟩ := kept_start hk hg hp h0 hm hc
  obtain ⟨k, l, h3, -⟩ := Kept.single_run h2 h1 hu hn h
  rw [h3]; simp

/-- With a callback, but not connected; the callback is not called. -/
example : ((Net.start ⟨false, true, false⟩ (5 : Nat)).run counting (.call .clearUnsolicited ::
      (keptEvents.filter (· ≠ .call .clearUnsolicited) ++ List.replicate 7 .reader))).map (fun s => (s.modem.unsolicited, s.modem.called)) =
    some ([[], [.command (counted 7 5), .command (answered 7 [])]], []) := by
  decide +kernel

/-- C82, nothing goes anywhere else: the lists returned by earlier calls stay as they are, the lists of the calls in the
background stay empty, the callback is not called. -/
theorem C82_nowhere_else {config : Config} (hk : config.skip = false) {g : Gateway D} (hg : g.Conforms) {d : D}
    {before es : List NetEvent} {s0 s : Net D} (hp : ∀ e ∈ before, Polite e)
    (h0 : (Net.start config d).run g before = some s0) (hm : s0.modem.main = .idle)
    (hc : config.callback = false ∨ s0.modem.connected = false) (hb : ∀ e ∈ es, Background e)
    (hn : ∀ a r, .call (.connect a r) ∉ es) (h : s0.run g es = some s) :
    (∃ k, s.modem.responses = s0.modem.responses ++ List.replicate k []) ∧ s.modem.called = [] := by
  obtain ⟨h1, n, done, rs, todo, fs, pr, ht, -, -⟩ := kept_flow hk hg hp h0 hm hc hb hn h
  exact ⟨ht.responses, h1.called⟩

example : ((Net.start ⟨false, false, false⟩ (5 : Nat)).run counting
      (.call (.connect false 0) :: (exchange 6 ++ [.main, .reader] ++ keptEvents))).map (fun s =>
    (s.modem.responses, s.modem.unsolicited, s.modem.called)) =
      some ([[], [counted 6 5, answered 6 []], []], [[.command (counted 7 6)], []], []) := by
  decide +kernel

/-- C82, everything comes to rest: for every state there is a number such that without further calls at most that many
steps can be made (and 22 for each byte of log texts and reboot messages that come in between), and until nothing is
going on any more there is always a step that can be made. -/
theorem C82_settles {config : Config} (hk : config.skip = false) {g : Gateway D} (hg : g.Conforms) {d : D}
    {before es : List NetEvent} {s0 s : Net D} (hp : ∀ e ∈ before, Polite e)
    (h0 : (Net.start config d).run g before = some s0) (hm : s0.modem.main = .idle)
    (hc : config.callback = false ∨ s0.modem.connected = false) (hb : ∀ e ∈ es, Background e)
    (hn : ∀ a r, .call (.connect a r) ∉ es) (h : s0.run g es = some s) :
    ∃ k, ∀ rest s', (∀ c, .call c ∉ rest) → s.run g rest = some s' → rest.length ≤ k + 22 * noticeBytes rest ∧
      (s'.Settled ∨ ∃ e s2, s'.step g e = some s2 ∧ (∀ c, e ≠ .call c) ∧ noticeBytes [e] = 0) := by
  obtain ⟨h1, n, done, rs, hf⟩ := kept_flow hk hg hp h0 hm hc hb hn h
  refine ⟨2 * Gwa.left g (Kept.image s) ((payloads es).drop done.length) + Kept.extra s.modem.reader, ?_⟩
  intro rest s' hr h2
  obtain ⟨done', rs', h3, h4, h5⟩ := Kept.rest_run h1 hf hr h2
  refine ⟨le_trans (Nat.le_add_right _ _) h5, ?_⟩
  by_cases hs : s'.Settled
  · exact .inl hs
  · obtain ⟨e, t, h6, h7, h8⟩ := Gwa.flow_enabled h4 fun hs' => hs (Kept.settled_image hs')
    obtain ⟨s2, h9⟩ := Kept.net_back h3 h7 h6
    exact .inr ⟨e, s2, h9, h7, h8⟩

example : ((Net.start ⟨false, false, false⟩ (5 : Nat)).run counting (.call (.connect false 0) :: keptEvents)).map (fun s =>
    ((s.step counting .reader).isSome, (s.run counting (List.replicate 7 .reader)).isSome)) = some (true, true) := by
  decide +kernel

end Verif.Modem
