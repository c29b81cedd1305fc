import Verif.Lemmas.Late

/-! C83: answers that come too late, or that nobody waits for, when calls time out, callbacks raise and the line fails. -/

namespace Verif.Modem

open Verif Verif.Serial

variable {D : Type}

/-! ### C83: what arrives -/

/-- The command of the first call is processed by the device after the call has timed out; its answers arrive during the
second call. -/
def tooLate : List LateEvent :=
  [.net (.call (.execute (request 7 [.read 0x40 0 1]) 1)), .net .main, .net .main, .net .main, .net .main, .net .main,
    .timeout, .net .take]

/-- The second call, and what arrives meanwhile. -/
def secondCall (tag : UInt8) : List LateEvent :=
  [.net (.call (.execute (request tag [.read 0x40 0 1]) 1)), .net .main, .net .main, .net .main, .net .main, .net .main,
    .net (.send 0), .net .take, .net (.send 1), .net (.send 2), .net (.read 37)] ++
    List.replicate 13 (.net .reader) ++ [.net (.send 3), .net (.read 9)] ++ List.replicate 4 (.net .reader)

/-- C83, what arrives: whatever calls are made, with or without waiting, and however they end, by an answer, a timeout or an
exception; and if callbacks raise or the line fails: the device processes the payloads of the calls in order, each once, and
the ALP messages that the modem has handed over to lists and callbacks are the first of the device's answers, in order,
each once. -/
theorem C83_delivered {config : Config} (hk : config.skip = false) {g : Gateway D} (hg : g.Conforms) {d : D}
    {es : List LateEvent} {s : Net D} (ht : ∀ e ∈ es, Tagged e) (h : (Net.start config d).runLate g es = some s) :
    ∃ done rs log, done <+: ((Net.start config d).requested g es).filterMap sendable ∧ s.data = (g.replies d done).1 ∧
      Meaning (g.replies d done).2 rs ∧ HandedOver (init config) s.modem log ∧ alpMessages (log.map Prod.snd) <+: rs := by
  obtain ⟨done, todo, fs, pr, rs, hs⟩ := Lt.stream_reach hk hg ht h
  obtain ⟨evs, h1, -, -⟩ := Lt.late_modem h
  obtain ⟨-, log, hl, -⟩ := run_handedOver (init_ok config) h1
  refine ⟨done, rs, log, (List.prefix_append _ _).trans (Lt.split_prefix hs), hs.data, hs.meaning, hl, ?_⟩
  obtain ⟨new, h2, h3⟩ := hl.messages
  rw [show (init config).received = [] from rfl,
    List.nil_append] at h2
  rw [show pending (init config).reader = [] from rfl, List.nil_append] at h3
  rw [← hs.order, h2, ← h3, List.append_assoc, Lt.alp_append, List.append_assoc]
  exact List.prefix_append _ _

theorem tooLate_tagged : ∀ e ∈ tooLate, Tagged e := by
  intro e he
  simp only [tooLate, List.mem_cons, List.not_mem_nil, or_false] at he
  rcases he with rfl | rfl | rfl | rfl | rfl | rfl | rfl | rfl
  · exact ⟨7, rfl, rfl, rfl⟩
  all_goals trivial

theorem secondCall_tagged (tag : UInt8) : ∀ e ∈ secondCall tag, Tagged e := by
  intro e he
  simp only [secondCall, List.mem_append, List.mem_cons, List.not_mem_nil, or_false, List.mem_replicate] at he
  rcases he with (((rfl | rfl | rfl | rfl | rfl | rfl | rfl | rfl | rfl | rfl | rfl) | ⟨-, rfl⟩) | rfl | rfl) | ⟨-, rfl⟩
  · exact ⟨tag.toNat, rfl, rfl, rfl⟩
  all_goals trivial

example : ((Net.start noCallbacks (5 : Nat)).runLate counting (tooLate ++ secondCall 8)).map (fun s =>
    (s.data, s.modem.outcomes, content s.modem.responses 2, content s.modem.unsolicited 0)) =
      some (7, [.empty], [counted 8 6, answered 8 []], [.command (counted 7 5), .command (answered 7 [])]) := by
  decide +kernel

/-- The line fails, and a callback raises, before all has arrived. -/
example : ((Net.start ⟨false, true, false⟩ (5 : Nat)).runLate counting (.net (.call (.connect false 0)) :: (tooLate ++
      [.net (.call .clearUnsolicited), .net (.call (.execute (request 8 [.read 0x40 0 1]) 0)), .net .main, .net .main,
        .net (.send 0), .net (.read 14), .net .reader, .net .reader, .callbackRaises]))).map (fun s =>
    (s.data, s.modem.called, decide (s.modem.reader = .dead []))) = some (6, [.command (counted 7 5)], true) ∧
    ((Net.start noCallbacks (5 : Nat)).runLate counting (tooLate ++ [.net (.send 0), .net (.read 3), .net .reader,
      .serialError])).map (fun s => decide (s.modem.reader = .dead [])) = some true := by
  decide +kernel

/-- C83, at rest: when nothing is going on any more and the reading thread is alive, the device has processed all the
payloads and all of its answers have been handed over. -/
theorem C83_settled {config : Config} (hk : config.skip = false) {g : Gateway D} (hg : g.Conforms) {d : D}
    {es : List LateEvent} {s : Net D} (ht : ∀ e ∈ es, Tagged e) (h : (Net.start config d).runLate g es = some s)
    (hs : s.Settled) :
    ∃ rs log, s.data = (g.replies d (((Net.start config d).requested g es).filterMap sendable)).1 ∧
      Meaning (g.replies d (((Net.start config d).requested g es).filterMap sendable)).2 rs ∧
      HandedOver (init config) s.modem log ∧ alpMessages (log.map Prod.snd) = rs := by
  obtain ⟨done, todo, fs, pr, rs, hst⟩ := Lt.stream_reach hk hg ht h
  obtain ⟨evs, h1, -, -⟩ := Lt.late_modem h
  obtain ⟨-, log, hl, -⟩ := run_handedOver (init_ok config) h1
  have h3 := hst.split
  rw [hs.main, if_neg (by simp [Lt.busy])] at h3
  have h4 : todo = [] := by
    cases todo with
    | nil => rfl
    | cons p todo =>
      have h5 := hs.taken
      rw [hst.taken, hst.written, framesFrom_append] at h5
      simp [framesFrom, frame_length] at h5
  have h5 : pr = [] := by
    have := hst.pend
    rw [hs.pending] at this
    cases this; rfl
  have h6 : fs = [] := hst.wire.empty hs.line
  subst h4 h5 h6
  rw [List.append_nil] at h3
  rw [h3]
  refine ⟨rs, log, hst.data, hst.meaning, hl, ?_⟩
  obtain ⟨new, h7, h8⟩ := hl.messages
  rw [show (init config).received = [] from rfl,
    List.nil_append] at h7
  rw [show pending (init config).reader = [] from rfl, List.nil_append, hs.reader,
    show pending .reading = [] from rfl, List.append_nil] at h8
  rw [← hst.order, h7, h8]
  simp

example : ((Net.start noCallbacks (5 : Nat)).runLate counting (tooLate ++ secondCall 8 ++ [.net .main, .net .reader])).map
    (fun s => (s.data, content s.modem.responses 2 ++ content s.modem.responses 1, content s.modem.unsolicited 0,
      decide (s.modem.main = .idle ∧ s.taken = s.modem.written.length ∧ s.pending = [] ∧ s.line = [] ∧
        s.modem.reader = .reading))) =
      some (7, [counted 8 6, answered 8 []], [.command (counted 7 5), .command (answered 7 [])], true) := by
  decide +kernel

/-- C83, whose answer it is: every ALP message in a list of responses or of unsolicited messages, and every one the
callback was called with, is one of the answers that the device gave to a command that was asked for before, and carries
the tag of that command. -/
theorem C83_origin {config : Config} (hk : config.skip = false) {g : Gateway D} (hg : g.Conforms) {d : D}
    {es : List LateEvent} {s : Net D} (ht : ∀ e ∈ es, Tagged e) (h : (Net.start config d).runLate g es = some s)
    {c : Command} (hc : (∃ n, c ∈ content s.modem.responses n) ∨ .command c ∈ s.modem.called ∨
      ∃ n, .command c ∈ content s.modem.unsolicited n) :
    ∃ l q l' tag bs rs, (Net.start config d).requested g es = l ++ q :: l' ∧ Taggable q tag ∧ sendable q = some bs ∧
      g.Reply d (l.filterMap sendable) tag bs rs ∧ c ∈ rs ∧ c.tagId = some tag := by
  obtain ⟨l, q, l', tag, bs, rs, -, h1, h2, h3, h4, h5, h6, -⟩ := Lt.origin_of hk hg ht h hc
  exact ⟨l, q, l', tag, bs, rs, h1, h2, h3, h4, h5, h6⟩

example : (Net.start noCallbacks (5 : Nat)).requested counting (tooLate ++ secondCall 8) =
      [request 7 [.read 0x40 0 1], request 8 [.read 0x40 0 1]] ∧
    ((Net.start noCallbacks (5 : Nat)).runLate counting (tooLate ++ secondCall 8)).map (fun s =>
      (decide (counted 8 6 ∈ content s.modem.responses 2), decide (.command (counted 7 5) ∈ content s.modem.unsolicited 0))) =
      some (true, true) ∧
    counting.Reply 5 [[0xB4, 7, 1, 0x40, 0, 1]] 8 [0xB4, 8, 1, 0x40, 0, 1] [counted 8 6, answered 8 []] :=
  ⟨by decide +kernel, by decide +kernel, counting_answers 8 6⟩

/-! ### C83: what a call returns -/

/-- C83, a call with a tag that no earlier command had, in an interleaving in which no hand-over of an ALP message overlaps with
the lines of `execute_command` that prepare for the responses (modem/modem.py 152-157): the call returns exactly the
answers of the device to its own command, or it returns nothing; whatever arrives meanwhile that belongs to earlier calls
that have timed out or did not wait. -/
theorem C83_fresh_partial {config : Config} (hk : config.skip = false) {g : Gateway D} (hg : g.Conforms) {d : D}
    {before during : List LateEvent} {last : LateEvent} {s s1 s' : Net D} {c : Command} {tag timeout : Int}
    {bs : List UInt8} {o : Outcome} (hc : Taggable c tag) (hb : sendable c = some bs) (ht : timeout > 0)
    (hp : ∀ e ∈ before ++ during, Tagged e) (h0 : (Net.start config d).runLate g before = some s)
    (hf : ∀ q ∈ (Net.start config d).requested g before, q.tagId ≠ some tag)
    (h1 : s.runLate g (.net (.call (.execute c timeout)) :: during) = some s1)
    (ho1 : s1.modem.outcomes = s.modem.outcomes) (h2 : s1.stepLate g last = some s')
    (ho : s'.modem.outcomes = s.modem.outcomes ++ [o])
    (hcalm : s.Calm g (.net (.call (.execute c timeout)) :: during)) :
    o = .empty ∨
    (o = .list s.modem.responses.length ∧
      g.Reply d (((Net.start config d).requested g before).filterMap sendable) tag bs
        (content s'.modem.responses s.modem.responses.length) ∧
      s'.data = (g.replies d (((Net.start config d).requested g before).filterMap sendable ++ [bs])).1) := by
  obtain ⟨evs0, evs1, a1, a2, a3, -, done, todo, fs, pr, rs, a4, a5, a6⟩ := Lt.fresh_core hk hg hc hb hp h0 hf h1 ho1 hcalm
  rcases Lt.late_step h2 with ⟨ev, c1, -, -, -, -, c2, -, -⟩ | ⟨c1, -⟩
  swap
  · rw [c1, ho1] at ho
    simpa using congrArg List.length ho
  obtain ⟨new, handed, d1, d2, ⟨rfl, d3, x, hx, hxc⟩ | ⟨rfl, -⟩⟩ := C46_result_partial hk ht a1 a2 ho1 c1 ho a3
  swap
  · exact .inl rfl
  refine .inr ⟨rfl, ?_⟩
  have hpre : handed.filterMap (response c.tagId) <+: rs.filter (fun c => decide (c.tagId = some tag)) := by
    rw [a5 new handed d1 d2, List.filterMap_append, List.append_assoc]
    exact List.prefix_append _ _
  rw [d3] at hx
  rcases a6 with ⟨rfl, a6⟩ | ⟨-, a6⟩
  · refine ⟨?_, by rw [c2, a4.data]⟩
    obtain ⟨l, y, g0, g1, g2⟩ := a6.final
    have : handed.filterMap (response c.tagId) = l ++ [y] := by
      rw [g0] at hpre
      rcases List.prefix_concat_iff.1 hpre with h | h
      · exact h
      · exact absurd hxc (by rw [g2 x (h.subset hx)]; simp)
    rw [d3, this, ← g0]
    exact a6
  · rw [a6] at hpre
    rw [List.prefix_nil.1 hpre] at hx
    cases hx

example : (∀ e ∈ tooLate ++ (secondCall 8).tail, Tagged e) ∧ Taggable (request 8 [.read 0x40 0 1]) 8 ∧
    sendable (request 8 [.read 0x40 0 1]) = some [0xB4, 8, 1, 0x40, 0, 1] ∧
    (∀ q ∈ (Net.start noCallbacks (5 : Nat)).requested counting tooLate, q.tagId ≠ some 8) ∧
    ((Net.start noCallbacks (5 : Nat)).runLate counting tooLate).bind (fun s =>
      (s.runLate counting (secondCall 8)).bind fun s1 => (s1.stepLate counting (.net .main)).map fun s' =>
        decide (s1.modem.outcomes = s.modem.outcomes ∧ s.Calm counting (secondCall 8) ∧
          s'.modem.outcomes = s.modem.outcomes ++ [.list s.modem.responses.length] ∧
          content s'.modem.responses s.modem.responses.length = [counted 8 6, answered 8 []])) = some true ∧
    (secondCall 8).head? = some (.net (.call (.execute (request 8 [.read 0x40 0 1]) 1))) := by
  refine ⟨?_, ⟨rfl, rfl, rfl⟩, by decide +kernel, by decide +kernel, by decide +kernel, by decide⟩
  intro e he
  rcases List.mem_append.1 he with he | he
  · exact tooLate_tagged e he
  · exact secondCall_tagged 8 e (List.mem_of_mem_tail he)

/-- C83, the call is answered: in such a call, as long as the reading thread is alive, there is always something that happens
next, other than the timeout, until the call returns; the next theorem says that this cannot go on for ever. -/
theorem C83_answered_partial {config : Config} (hk : config.skip = false) {g : Gateway D} (hg : g.Conforms) {d : D}
    {before during : List LateEvent} {s s1 : Net D} {c : Command} {tag timeout : Int}
    {bs : List UInt8} (hc : Taggable c tag) (hb : sendable c = some bs) (ht : timeout > 0)
    (hp : ∀ e ∈ before ++ during, Tagged e) (h0 : (Net.start config d).runLate g before = some s)
    (hf : ∀ q ∈ (Net.start config d).requested g before, q.tagId ≠ some tag)
    (h1 : s.runLate g (.net (.call (.execute c timeout)) :: during) = some s1)
    (ho1 : s1.modem.outcomes = s.modem.outcomes)
    (hcalm : s.Calm g (.net (.call (.execute c timeout)) :: during)) (hd : ∀ q, s1.modem.reader ≠ .dead q) :
    ∃ e s', s1.step g e = some s' ∧ (∀ c, e ≠ .call c) ∧ noticeBytes [e] = 0 := by
  obtain ⟨evs0, evs1, a1, a2, a3, a7, done, todo, fs, pr, rs, a4, a5, a6⟩ :=
    Lt.fresh_core hk hg hc hb hp h0 hf h1 ho1 hcalm
  rcases Lt.stream_enabled hg a4 with h | ⟨h | ⟨⟨caller, tg, f, t, h⟩, hcm⟩, rfl, hpe, ⟨hr, hl⟩ | ⟨q, hq⟩⟩
  · exact h
  · exact absurd h a7
  · exact absurd h a7
  swap
  · exact absurd hq (hd q)
  exfalso
  obtain ⟨o, hfin⟩ := finishExecute_outcomes s1.modem caller none
  have hto : s1.modem.step .timeout = some (s1.modem.finishExecute caller none) := by
    simp [State.step, State.timeoutStep, h, hcm]
  obtain ⟨new, handed, d1, d2, ⟨rfl, -, -⟩ | ⟨rfl, d3⟩⟩ :=
    C46_result_partial (o := o) hk ht a1 a2 ho1 hto (by rw [hfin, ho1]) a3
  · have := hfin
    revert this
    unfold State.finishExecute
    cases caller <;> simp [State.finish, State.finishConnect]
  · have h2 := a5 new handed d1 d2
    have h3 : fs = [] := a4.wire.empty hl
    have h4 : pr = [] := by
      have := a4.pend
      rw [hpe] at this
      cases this; rfl
    subst h3 h4
    rw [hr, show pending .reading = [] from rfl, List.append_nil] at h2
    have h5 := a4.split
    rw [h, if_neg (by simp [Lt.busy]), List.filterMap_append, List.append_nil] at h5
    rcases a6 with ⟨-, a6⟩ | ⟨a6, -⟩
    · obtain ⟨l, y, g0, g1, -⟩ := a6.final
      rw [h2] at g0
      have := d3 (by rw [hr]; rfl) y (by
        have : y ∈ handed.filterMap (response c.tagId) ++
            (alpMessages ([].map Sent.delivered) ++ []).filter (fun c => decide (c.tagId = some tag)) := by rw [g0]; simp
        simpa [alpMessages] using this)
      rw [g1] at this
      cases this
    · exact a6 (by rw [← h5]; simp [hb])

example : ((Net.start noCallbacks (5 : Nat)).runLate counting tooLate).bind (fun s =>
      (s.runLate counting (secondCall 8)).map fun s1 =>
        (decide (s1.modem.outcomes = s.modem.outcomes ∧ s.Calm counting (secondCall 8) ∧
          s1.modem.reader = .next []), (s1.step counting .main).isSome)) = some (true, true) := by
  decide +kernel

/-- C83, everything comes to rest: in every state, whatever has happened, at most a certain number of steps can be made
without further calls (and 11 more for each byte of log texts and reboot messages that come in between), and until
everything is at rest there is always a step that can be made. So every call returns, by its timeout if by nothing else. -/
theorem C83_settles {config : Config} (hk : config.skip = false) {g : Gateway D} (hg : g.Conforms) {d : D}
    {es : List LateEvent} {s : Net D} (ht : ∀ e ∈ es, Tagged e) (h : (Net.start config d).runLate g es = some s) :
    ∃ k, ∀ rest s', (∀ c, .net (.call c) ∉ rest) → s.runLate g rest = some s' → rest.length ≤ k + 11 * lateNotices rest ∧
      (s'.AtRest ∨ ∃ e s2, s'.stepLate g e = some s2 ∧ (∀ c, e ≠ .net (.call c)) ∧ lateNotices [e] = 0) := by
  obtain ⟨done, todo, fs, pr, rs, hs⟩ := Lt.stream_reach hk hg ht h
  refine ⟨Lt.left g s ((((Net.start config d).requested g es).filterMap sendable).drop done.length), ?_⟩
  intro rest s' hr h1
  obtain ⟨done', todo', fs', pr', rs', h2, h3⟩ := Lt.stream_rest hg hs hr h1
  refine ⟨le_trans (Nat.le_add_right _ _) h3, ?_⟩
  rcases Lt.stream_enabled hg h2 with ⟨e, s2, h4, h5, h6⟩ | ⟨h4 | ⟨⟨caller, tg, f, t, h4⟩, -⟩, rfl, h5, h6⟩
  · exact .inr ⟨.net e, s2, h4, by simpa using h5, by simpa [lateNotices] using h6⟩
  · refine .inl ⟨h4, ?_, h5, h6⟩
    rw [h2.taken, h2.written]; simp
  · exact .inr ⟨.timeout, { s' with modem := _ }, by simp only [Net.stepLate, State.step, State.timeoutStep, h4]; rfl,
      by simp, rfl⟩

example : ((Net.start noCallbacks (5 : Nat)).runLate counting (tooLate ++ secondCall 8)).map (fun s =>
      ((s.stepLate counting .timeout).isSome, (s.runLate counting [.net .main, .net .reader]).map fun s =>
        decide (s.modem.main = .idle ∧ s.taken = s.modem.written.length ∧ s.pending = [] ∧ s.line = [] ∧
          s.modem.reader = .reading))) = some (true, some true) := by
  decide +kernel

/-- A second call with the tag of the first. -/
def sameTag : List LateEvent :=
  .net (.call (.execute (request 7 [.read 0x40 0 1]) 1)) :: (List.replicate 5 (.net .main) ++
    [.net (.send 0), .net (.send 1), .net (.read 23)] ++ List.replicate 8 (.net .reader))

/-- C83 without a new tag is false: a call with the tag of an earlier call that has timed out returns the answers to that
earlier call; the device has not even got the command of this call. -/
theorem C83_refuted_tag : ∃ s s1 s', (Net.start noCallbacks (5 : Nat)).runLate counting tooLate = some s ∧
    s.runLate counting sameTag = some s1 ∧ s1.modem.outcomes = s.modem.outcomes ∧ s.Calm counting sameTag ∧
    s1.stepLate counting (.net .main) = some s' ∧
    s'.modem.outcomes = s.modem.outcomes ++ [.list s.modem.responses.length] ∧ s'.data = 6 ∧
    content s'.modem.responses s.modem.responses.length = [counted 7 5, answered 7 []] ∧
    ¬ counting.Reply 5 [[0xB4, 7, 1, 0x40, 0, 1]] 7 [0xB4, 7, 1, 0x40, 0, 1]
      (content s'.modem.responses s.modem.responses.length) := by
  have key : ((Net.start noCallbacks (5 : Nat)).runLate counting tooLate).bind (fun s =>
      (s.runLate counting sameTag).bind fun s1 => (s1.stepLate counting (.net .main)).map fun s' =>
        decide (s1.modem.outcomes = s.modem.outcomes ∧ s.Calm counting sameTag ∧
          s'.modem.outcomes = s.modem.outcomes ++ [.list s.modem.responses.length] ∧ s'.data = 6 ∧
          content s'.modem.responses s.modem.responses.length = [counted 7 5, answered 7 []])) = some true := by
    decide +kernel
  obtain ⟨s, h1, h2⟩ := Option.bind_eq_some_iff.1 key
  obtain ⟨s1, h3, h4⟩ := Option.bind_eq_some_iff.1 h2
  obtain ⟨s', h5, h6⟩ := Option.map_eq_some_iff.1 h4
  obtain ⟨a, b, c, e, f⟩ := of_decide_eq_true h6
  refine ⟨s, s1, s', h1, h3, a, b, h5, c, e, f, ?_⟩
  rw [f]
  intro h
  exact absurd (meaning_unique h.meaning (counting_answers 7 6).meaning) (by decide)

/-- The reading thread has just found that the late answer is one of the responses when the next call makes its list. -/
def overlapping : List LateEvent :=
  tooLate ++ [.net (.send 0), .net (.send 1), .net (.read 23), .net .reader]

/-- The next call, with another tag. -/
def overlapped : List LateEvent :=
  [.net (.call (.execute (request 8 [.read 0x40 0 1]) 1)), .net .main, .net .reader, .net .reader, .net .main, .net .main,
    .net .main, .net .main, .net .take, .net (.send 2), .net (.send 3)] ++ List.replicate 6 (.net .reader) ++
    [.net (.read 23)] ++ List.replicate 8 (.net .reader)

/-- C83 without the restriction on the interleaving is false: an answer to a call that has timed out gets into the list
that the next call returns, although that call has another tag. -/
theorem C83_refuted_overlap : ∃ s s1 s', (Net.start noCallbacks (5 : Nat)).runLate counting overlapping = some s ∧
    (∀ q ∈ (Net.start noCallbacks (5 : Nat)).requested counting overlapping, q.tagId ≠ some 8) ∧
    s.runLate counting overlapped = some s1 ∧ s1.modem.outcomes = s.modem.outcomes ∧
    s1.stepLate counting (.net .main) = some s' ∧
    s'.modem.outcomes = s.modem.outcomes ++ [.list s.modem.responses.length] ∧
    content s'.modem.responses s.modem.responses.length = [counted 7 5, counted 8 6, answered 8 []] := by
  have key : ((Net.start noCallbacks (5 : Nat)).runLate counting overlapping).bind (fun s =>
      (s.runLate counting overlapped).bind fun s1 => (s1.stepLate counting (.net .main)).map fun s' =>
        decide (s1.modem.outcomes = s.modem.outcomes ∧
          s'.modem.outcomes = s.modem.outcomes ++ [.list s.modem.responses.length] ∧
          content s'.modem.responses s.modem.responses.length = [counted 7 5, counted 8 6, answered 8 []])) = some true := by
    decide +kernel
  obtain ⟨s, h1, h2⟩ := Option.bind_eq_some_iff.1 key
  obtain ⟨s1, h3, h4⟩ := Option.bind_eq_some_iff.1 h2
  obtain ⟨s', h5, h6⟩ := Option.map_eq_some_iff.1 h4
  obtain ⟨a, b, c⟩ := of_decide_eq_true h6
  exact ⟨s, s1, s', h1, by decide +kernel, h3, a, h5, b, c⟩

end Verif.Modem
