import Verif.Lemmas.Recover
import Verif.Props.Retry
import Verif.Props.Every

/-! C113: after calls that were given up the connection recovers, as long as the reading thread is alive. -/

namespace Verif.Modem

open Verif Verif.Serial

variable {D : Type}

/-- C113, coming to rest: whatever has happened (calls with any tags that were answered, given up or did not wait, late
answers), if no call is in progress and the reading thread is alive, then by steps of the thread and the device alone
everything comes to rest, with the reading thread alive; the device has then processed everything it was asked. -/
theorem C113_rest {config : Config} (hk : config.skip = false) {g : Gateway D} (hg : g.Conforms) {d : D}
    {before : List LateEvent} {s : Net D} (hp : ∀ e ∈ before, Tagged e)
    (h0 : (Net.start config d).runLate g before = some s) (hm : s.modem.main = .idle) (hd : s.modem.reader.isDead = false) :
    ∃ es s', Steady es ∧ s.runLate g es = some s' ∧ s'.AtRest ∧ s'.modem.reader.isDead = false ∧
      s'.data = (g.replies d (((Net.start config d).requested g before).filterMap sendable)).1 := by
  obtain ⟨done, todo, fs, pr, rs, st⟩ := Lt.stream_reach hk hg hp h0
  obtain ⟨es, s', h1, h2, h3, h4, h5, h6, h7⟩ := Rc.settle hg _ st (le_refl _) hd
  have hi : s'.modem.main = .idle := (Rt.idle_outcomes hm (Rc.steady_no_call h1) h2).1
  obtain ⟨done', todo', fs', pr', rs', st', -⟩ := Lt.stream_rest hg st (Rc.steady_no_call h1) h2
  refine ⟨es, s', h1, h2, ⟨hi, h7, h5, .inl ⟨h3, h4⟩⟩, by rw [h3]; rfl, ?_⟩
  have hsplit := st'.split
  rw [hi] at hsplit
  simp only [Lt.busy, Bool.false_eq_true, if_false] at hsplit
  have htodo : todo' = [] := by
    have e1 := st'.written
    have e2 := st'.taken
    rw [h7, e1, framesFrom_append] at e2
    simp only [List.length_append] at e2
    cases todo' with
    | nil => rfl
    | cons p todo =>
      exfalso
      simp [framesFrom, frame] at e2
  rw [htodo, List.append_nil] at hsplit
  rw [hsplit, st'.data]

/-- After a call that was given up; its answer is still on its way. -/
example : ∃ s, (Net.start noCallbacks (5 : Nat)).runLate counting tooLate = some s ∧ ¬ s.AtRest ∧
    ∃ es s', Steady es ∧ s.runLate counting es = some s' ∧ s'.AtRest := by
  have key : ((Net.start noCallbacks (5 : Nat)).runLate counting tooLate).map (fun s =>
      decide (s.modem.main = .idle ∧ s.modem.reader.isDead = false ∧ s.pending ≠ [])) = some true := by decide +kernel
  obtain ⟨s, h1, h2⟩ := Option.map_eq_some_iff.1 key
  obtain ⟨h3, h4, h5⟩ := of_decide_eq_true h2
  obtain ⟨es, s', a1, a2, a3, -⟩ := C113_rest rfl counting_conforms tooLate_tagged h1 h3 h4
  exact ⟨s, h1, fun h => h5 h.pending, es, s', a1, a2, a3⟩

/-- A call has been given up, then its answer has arrived. -/
def recovered : List LateEvent :=
  tooLate ++ ([.net (.send 0), .net (.send 1), .net (.read 23)] ++ List.replicate 9 (.net .reader))

theorem recovered_tagged : ∀ e ∈ recovered, Tagged e := by
  intro e he
  rcases List.mem_append.1 he with he | he
  · exact tooLate_tagged e he
  · simp only [List.mem_append, List.mem_cons, List.not_mem_nil, or_false, List.mem_replicate] at he
    rcases he with (rfl | rfl | rfl) | ⟨-, rfl⟩ <;> trivial

theorem recovered_runs : ∃ s, (Net.start noCallbacks (5 : Nat)).runLate counting recovered = some s ∧ s.AtRest ∧
    s.modem.reader.isDead = false ∧ s.modem.outcomes = [.empty] := by
  have key : ((Net.start noCallbacks (5 : Nat)).runLate counting recovered).map (fun s =>
      decide (s.modem.main = .idle ∧ s.taken = s.modem.written.length ∧ s.pending = [] ∧ s.modem.reader = .reading ∧
        s.line = [] ∧ s.modem.outcomes = [.empty])) = some true := by decide +kernel
  obtain ⟨s, h1, h2⟩ := Option.map_eq_some_iff.1 key
  obtain ⟨h3, h4, h5, h6, h7, h8⟩ := of_decide_eq_true h2
  exact ⟨s, h1, ⟨h3, h4, h5, .inl ⟨h6, h7⟩⟩, by rw [h6]; rfl, h8⟩

/-- The same command again, with the same tag, and its answer. -/
def answeredAgain : List LateEvent :=
  List.replicate 5 (.net .main) ++ [.net .take, .net (.send 2), .net (.send 3), .net (.read 23)] ++
    List.replicate 8 (.net .reader) ++ [.net .main]

/-- C113, the call is answered: a call that begins when everything has come to rest and the reading thread is alive, with any
tag, also one that was used before. In every interleaving without a timeout, at any time, the call has returned exactly the
answers of the device to its own command, given in the state in which all earlier commands have left the device; or it has not
ended yet, and if the reading thread is alive then there is something else than the timeout that can happen next and that does
not end the thread. `C83_settles` says that this cannot go on for ever. -/
theorem C113_answered {config : Config} (hk : config.skip = false) {g : Gateway D} (hg : g.Conforms) {d : D}
    {before es : List LateEvent} {s s1 : Net D} {c : Command} {tag : Int} {bs : List UInt8} (hc : Taggable c tag)
    (hb : sendable c = some bs) (hp : ∀ e ∈ before, Tagged e) (h0 : (Net.start config d).runLate g before = some s)
    (hr : s.AtRest) (hd : s.modem.reader.isDead = false) (hn : ∀ call, .net (.call call) ∉ es) (ht : .timeout ∉ es)
    (h : s.runLate g (.net (.call (.execute c 10)) :: es) = some s1) :
    let earlier := ((Net.start config d).requested g before).filterMap sendable
    (∃ rs, Net.Called g c s (.ok rs) s1 ∧ g.Reply d earlier tag bs rs ∧ s1.data = (g.replies d (earlier ++ [bs])).1) ∨
    (s1.modem.outcomes = s.modem.outcomes ∧ (s1.modem.reader.isDead = false →
      ∃ e s2, s1.step g e = some s2 ∧ (∀ call, e ≠ .call call) ∧ noticeBytes [e] = 0 ∧ s2.modem.reader.isDead = false)) := by
  intro earlier
  obtain ⟨hq, hca⟩ := Rc.at_rest hk hg hp h0 hr hd
  rcases Rc.returned hk hg hc hb hp h0 hca hq hn ht h with ⟨h1, h2⟩ | ⟨rs, -, h1, h2, h3⟩
  swap
  · exact .inl ⟨rs, h1, h2, h3⟩
  refine .inr ⟨h2, fun hd1 => ?_⟩
  obtain ⟨done, todo, fs, pr, rs, st⟩ := Lt.stream_reach hk hg (es := before ++ .net (.call (.execute c 10)) :: es) (by
    intro e he
    rcases List.mem_append.1 he with he | he
    · exact hp e he
    · exact Rt.tagged_call hc hn e he) (Lt.runLate_append h0 h)
  rcases Lt.stream_enabled hg st with ⟨e, s2, a1, a2, a3⟩ | ⟨a1, rfl, a2, ⟨a3, a4⟩ | ⟨q, a3⟩⟩
  · exact ⟨e, s2, a1, a2, a3, Rc.alive_step st hd1 a2 a1⟩
  · exfalso
    rcases a1 with a1 | ⟨⟨caller, tg, f, t, a1⟩, a5⟩
    · exact h1 a1
    · exact Rc.not_waiting hk hg hc hb hp h0 hca hq hn h h2 a1 a5 a3 a4 a2 (by rw [st.taken, st.written]; simp)
  · rw [a3] at hd1; cases hd1

/-- The same command with the same tag as the call that was given up: it gets its own answer; before that it has not ended. -/
example : sendable (request 7 [.read 0x40 0 1]) = some [0xB4, 7, 1, 0x40, 0, 1] ∧
    (∀ call, .net (.call call) ∉ answeredAgain) ∧ .timeout ∉ answeredAgain ∧
    (((Net.start noCallbacks (5 : Nat)).runLate counting recovered).bind fun s =>
      (s.runLate counting (.net (.call (.execute (request 7 [.read 0x40 0 1]) 10)) :: answeredAgain)).map fun s1 =>
        (s1.modem.outcomes, content s1.modem.responses s.modem.responses.length)) =
      some ([.empty, .list 2], [counted 7 6, answered 7 []]) ∧
    (((Net.start noCallbacks (5 : Nat)).runLate counting recovered).bind fun s =>
      (s.runLate counting (.net (.call (.execute (request 7 [.read 0x40 0 1]) 10)) :: answeredAgain.take 9)).map fun s1 =>
        (s1.modem.outcomes, s1.modem.reader.isDead, (s1.step counting .reader).isSome)) = some ([.empty], false, true) := by
  refine ⟨by decide +kernel, by simp [answeredAgain], by simp [answeredAgain], by decide +kernel, by decide +kernel⟩

/-- C113, it can be answered: from such a state there is a run without timeouts and failures in which the call returns the
answers to its command, and everything is at rest again. -/
theorem C113_returns {config : Config} (hk : config.skip = false) {g : Gateway D} (hg : g.Conforms) {d : D}
    {before : List LateEvent} {s : Net D} {c : Command} {tag : Int} {bs : List UInt8} (hc : Taggable c tag)
    (hb : sendable c = some bs) (hp : ∀ e ∈ before, Tagged e) (h0 : (Net.start config d).runLate g before = some s)
    (hr : s.AtRest) (hd : s.modem.reader.isDead = false) :
    let earlier := ((Net.start config d).requested g before).filterMap sendable
    ∃ es s' rs, Steady es ∧ s.runLate g (.net (.call (.execute c 10)) :: es) = some s' ∧
      Net.Called g c s (.ok rs) s' ∧ g.Reply d earlier tag bs rs ∧ s'.AtRest ∧ s'.modem.reader.isDead = false := by
  intro earlier
  obtain ⟨hq, hca⟩ := Rc.at_rest hk hg hp h0 hr hd
  obtain ⟨s0, b1⟩ : ∃ s0, s.stepLate g (.net (.call (.execute c 10))) = some s0 := by
    simp only [Net.stepLate, Net.step, State.step, hr.main, if_true]
    exact ⟨_, rfl⟩
  have hrun0 : s.runLate g (.net (.call (.execute c 10)) :: []) = some s0 := by
    show Option.bind _ _ = _
    rw [b1]; rfl
  obtain ⟨done, todo, fs, pr, rs, st⟩ := Lt.stream_reach hk hg (es := before ++ [.net (.call (.execute c 10))]) (by
    intro e he
    rcases List.mem_append.1 he with he | he
    · exact hp e he
    · exact Rt.tagged_call (es := []) hc (by simp) e he) (Lt.runLate_append h0 hrun0)
  have hd0 : s0.modem.reader.isDead = false := by rw [Ev.call_reader b1]; exact hd
  obtain ⟨es, s', h1, h2, h3, h4, h5, h6, h7⟩ := Rc.settle hg _ st (le_refl _) hd0
  have hrun : s.runLate g (.net (.call (.execute c 10)) :: es) = some s' := Lt.runLate_append hrun0 h2
  have hn := Rc.steady_no_call h1
  rcases Rc.returned hk hg hc hb hp h0 hca hq hn (Rc.steady_no_timeout h1) hrun with ⟨k1, k2⟩ | ⟨rs, k0, k1, k2, k3⟩
  · exfalso
    rcases h6 with h6 | ⟨⟨caller, tg, f, t, h6⟩, h8⟩
    · exact k1 h6
    · exact Rc.not_waiting hk hg hc hb hp h0 hca hq hn hrun k2 h6 h8 h3 h4 h5 h7
  · exact ⟨es, s', rs, h1, hrun, k1, k2, ⟨k0, h7, h5, .inl ⟨h3, h4⟩⟩, by rw [h3]; rfl⟩

/-- A command that was given up before, with the same tag. -/
example : ∃ s es s' rs, (Net.start noCallbacks (5 : Nat)).runLate counting recovered = some s ∧ Steady es ∧
    s.runLate counting (.net (.call (.execute (request 7 [.read 0x40 0 1]) 10)) :: es) = some s' ∧
    Net.Called counting (request 7 [.read 0x40 0 1]) s (.ok rs) s' ∧ rs = [counted 7 6, answered 7 []] := by
  obtain ⟨s, h1, h2, h3, -⟩ := recovered_runs
  obtain ⟨es, s', rs, a1, a2, a3, a4, -⟩ := C113_returns rfl counting_conforms (c := request 7 [.read 0x40 0 1]) (tag := 7)
    (bs := [0xB4, 7, 1, 0x40, 0, 1]) ⟨rfl, rfl, rfl⟩ (by decide +kernel) recovered_tagged h1 h2 h3
  rw [show ((Net.start noCallbacks (5 : Nat)).requested counting recovered).filterMap sendable =
    [[0xB4, 7, 1, 0x40, 0, 1]] by decide +kernel] at a4
  exact ⟨s, es, s', rs, h1, a1, a2, a3, meaning_unique a4.meaning (counting_answers 7 6).meaning⟩

/-- C113, the loop of the engineering mode program (examples/engineering_mode.py 160-172) can always end: whatever has happened,
if no call is in progress and the reading thread is alive, and the device confirms the command after all that it was asked
before, and says in every answer whether there was an error, then there is a run in which everything comes to rest and the next call ends the
loop. -/
theorem C113_loop {config : Config} (hk : config.skip = false) {g : Gateway D} (hg : g.Conforms) (hrep : g.Reports) {d : D}
    {before : List LateEvent} {s : Net D} {c : Command} {tag : Int} {bs : List UInt8} (hc : Taggable c tag)
    (hb : sendable c = some bs) (hp : ∀ e ∈ before, Tagged e)
    (hconf : g.Confirms (g.replies d (((Net.start config d).requested g before).filterMap sendable)).1 tag bs)
    (h0 : (Net.start config d).runLate g before = some s) (hm : s.modem.main = .idle) (hd : s.modem.reader.isDead = false) :
    ∃ es s1 s', Steady es ∧ s.runLate g es = some s1 ∧ Examples.Repeat (Net.Called g c) s1 1 none s' := by
  obtain ⟨es, s1, h1, h2, h3, h4, -⟩ := C113_rest hk hg hp h0 hm hd
  have hp1 : ∀ e ∈ before ++ es, Tagged e := by
    intro e he
    rcases List.mem_append.1 he with he | he
    · exact hp e he
    · exact Ev.untagged_free (Rc.steady_no_call h1) e he
  obtain ⟨fs, s', rs, -, -, k1, k2, -⟩ := C113_returns hk hg hc hb hp1 (Lt.runLate_append h0 h2) h3 h4
  refine ⟨es, s1, s', h1, h2, .done _ _ rs k1 (Rt.confirm_ok.2 ⟨fun x hx => hrep _ _ _ _ _ k2 hx, ?_⟩)⟩
  obtain ⟨rs', x, e1, e2, e3⟩ := hconf
  rw [Lt.requested_append h0, Rt.requested_none (Rc.steady_no_call h1), List.append_nil] at k2
  obtain rfl := meaning_unique e1.meaning k2.meaning
  simp only [Bool.false_eq_true, false_or, true_iff]
  exact ⟨x, e2, e3⟩

/-- The device refuses the first command, whose call has been given up, and confirms the next one. -/
example : ∃ s, (Net.start noCallbacks [false]).runLate moody tooLate = some s ∧ s.modem.outcomes = [.empty] ∧
    ∃ es s1 s', Steady es ∧ s.runLate moody es = some s1 ∧
      Examples.Repeat (Net.Called moody (request 7 [.write 0x40 0 [1]])) s1 1 none s' := by
  have key : ((Net.start noCallbacks [false]).runLate moody tooLate).map (fun s =>
      decide (s.modem.main = .idle ∧ s.modem.reader.isDead = false ∧ s.modem.outcomes = [.empty])) = some true := by
    decide +kernel
  obtain ⟨s, h1, h2⟩ := Option.map_eq_some_iff.1 key
  obtain ⟨h3, h4, h5⟩ := of_decide_eq_true h2
  refine ⟨s, h1, h5, C113_loop rfl moody_conforms moody_reports (tag := 7) (bs := [0xB4, 7, 4, 0x40, 0, 1, 1])
    ⟨rfl, rfl, rfl⟩ (by decide +kernel) tooLate_tagged ?_ h1 h3 h4⟩
  rw [show ((Net.start noCallbacks [false]).requested moody tooLate).filterMap sendable =
    [[0xB4, 7, 1, 0x40, 0, 1]] by decide +kernel]
  exact ⟨_, _, moody_answers [] 7 _, List.mem_singleton_self _, rfl, rfl⟩

/-- C113, `connect` can succeed: whatever has happened (also calls of `connect` that returned False), if no call is in progress,
the modem is not connected and the reading thread is alive, and if the first answer of the device to the question, after all
that it was asked before, tells a UID and a firmware version: then there is a run in which everything comes to rest, and from
there one in which `connect` (with any tag) returns True, knows exactly these two, and leaves the thread alive. -/
theorem C113_connect {config : Config} (hk : config.skip = false) {g : Gateway D} (hg : g.Conforms) {d : D}
    {before : List LateEvent} {s : Net D} {r : UInt8} {x : Command} {xs : List Command} {u : Nat} {f : FirmwareVersionFile}
    (hp : ∀ e ∈ before, Tagged e) (h0 : (Net.start config d).runLate g before = some s) (hm : s.modem.main = .idle)
    (hn : s.modem.connected = false) (hd : s.modem.reader.isDead = false)
    (hx : g.Reply d (((Net.start config d).requested g before).filterMap sendable) r.toNat
      [0xB4, r, 1, 0, 0, 8, 1, 2, 0, 17] (x :: xs)) (hi : Identifies x u f) :
    ∃ es s1, Steady es ∧ s.runLate g es = some s1 ∧ s1.AtRest ∧
      ∃ fs s', Steady fs ∧ s1.runLate g (.net (.call (.connect true r)) :: fs) = some s' ∧
        s'.modem.outcomes = s.modem.outcomes ++ [.bool true] ∧ s'.modem.uid = some u ∧ s'.modem.firmwareVersion = some f ∧
        s'.modem.connected = true ∧ s'.modem.reader.isDead = false := by
  obtain ⟨es, s1, h1, h2, h3, h4, -⟩ := C113_rest hk hg hp h0 hm hd
  have hp1 : ∀ e ∈ before ++ es, Tagged e := by
    intro e he
    rcases List.mem_append.1 he with he | he
    · exact hp e he
    · exact Ev.untagged_free (Rc.steady_no_call h1) e he
  have hn1 : s1.modem.connected = false := (Ev.boot_run hm (Rc.steady_no_call h1) h2).connected.trans hn
  obtain ⟨fs, s', a1, a2, a3, a4⟩ := Rc.connects hk hg hn1 hp1 (Lt.runLate_append h0 h2) h3 h4 (r := r) (x := x) (xs := xs)
    (by rw [Lt.requested_append h0, Rt.requested_none (Rc.steady_no_call h1), List.append_nil]; exact hx) hi
  refine ⟨es, s1, h1, h2, h3, fs, s', a1, a2, ?_, a4⟩
  rw [a3, (Rt.idle_outcomes hm (Rc.steady_no_call h1) h2).2.1]

/-- The first `connect` has returned False, its answer is on its way; the second one, with the same tag, learns the UID 6. -/
example : ∃ s f, (Net.start noCallbacks (5 : Nat)).runLate naming lateNames = some s ∧ s.modem.outcomes = [.bool false] ∧
    ∃ es s1, Steady es ∧ s.runLate naming es = some s1 ∧ s1.AtRest ∧
      ∃ fs s', Steady fs ∧ s1.runLate naming (.net (.call (.connect true 7)) :: fs) = some s' ∧
        s'.modem.outcomes = s.modem.outcomes ++ [.bool true] ∧ s'.modem.uid = some 6 ∧
        s'.modem.firmwareVersion = some f ∧ s'.modem.connected = true ∧ s'.modem.reader.isDead = false := by
  have key : ((Net.start noCallbacks (5 : Nat)).runLate naming lateNames).map (fun s =>
      decide (s.modem.main = .idle ∧ s.modem.connected = false ∧ s.modem.reader.isDead = false ∧
        s.modem.outcomes = [.bool false])) = some true := by decide +kernel
  obtain ⟨s, h1, h2⟩ := Option.map_eq_some_iff.1 key
  obtain ⟨h3, h4, h5, h6⟩ := of_decide_eq_true h2
  obtain ⟨f, hf⟩ := named_identifies 7 6
  refine ⟨s, f, h1, h6, C113_connect rfl naming_conforms (fun e he => lateNames_tagged e (List.mem_append.2 (.inl he))) h1 h3
    h4 h5 (xs := []) ?_ hf⟩
  rw [show ((Net.start noCallbacks (5 : Nat)).requested naming lateNames).filterMap sendable =
    [[0xB4, 7, 1, 0, 0, 8, 1, 2, 0, 17]] by decide +kernel]
  exact ⟨.cons ⟨by simp [answer, returned, encode], .alp 1 _ _ rfl
      (by decide) (by decide) (answer_parses _ _ (by simp) (by simp [answer, returned, encode]))⟩ .nil, by
      intro y hy
      rw [List.mem_singleton.1 hy]; rfl, [], _, rfl, rfl, by simp⟩

/-- C113, every conversation is possible: from a state in which everything is at rest and the reading thread is alive, whatever
commands are executed one after the other, with any tags: there is a run in which each call returns what the device answers to
it (`exec`) in the state that the commands before it have left, and everything is at rest again. -/
theorem C113_series {config : Config} (hk : config.skip = false) {g : Gateway D} (hg : g.Conforms) {d : D} (exec : Update.Exec)
    (cs : List Command) (n : Nat) : ∀ {before : List LateEvent} {s : Net D}, (∀ e ∈ before, Tagged e) →
    (Net.start config d).runLate g before = some s → s.AtRest → s.modem.reader.isDead = false →
    (∀ i (hi : i < cs.length), ∃ tag bs rs, Taggable cs[i] tag ∧ sendable cs[i] = some bs ∧ exec (n + i) cs[i] = .ok rs ∧
      g.Reply d (((Net.start config d).requested g before ++ cs.take i).filterMap sendable) tag bs rs) →
    ∃ s', Net.Series (Net.Called g) exec n cs s s' ∧ s'.AtRest ∧ s'.modem.reader.isDead = false := by
  induction cs generalizing n with
  | nil => intro before s _ _ hr hd _; exact ⟨s, .nil n s, hr, hd⟩
  | cons c cs ih =>
    intro before s hp h0 hr hd hcs
    obtain ⟨tag, bs, rs, h1, h2, h3, h4⟩ := hcs 0 (by simp)
    simp only [List.getElem_cons_zero, List.take_zero, List.append_nil, Nat.add_zero] at h1 h2 h3 h4
    obtain ⟨es, s1, rs', a1, a2, a3, a4, a5, a6⟩ := C113_returns hk hg h1 h2 hp h0 hr hd
    obtain rfl := meaning_unique h4.meaning a4.meaning
    have hn := Rc.steady_no_call a1
    obtain ⟨s', b1, b2⟩ := ih (n + 1) (before := before ++ .net (.call (.execute c 10)) :: es) (s := s1) (by
      intro e he
      rcases List.mem_append.1 he with he | he
      · exact hp e he
      · exact Rt.tagged_call h1 hn e he) (Lt.runLate_append h0 a2) a5 a6 (by
      intro i hi
      obtain ⟨tag, bs, rs, c1, c2, c3, c4⟩ := hcs (i + 1) (by simpa using hi)
      refine ⟨tag, bs, rs, c1, c2, by rw [← c3, Nat.add_assoc, Nat.add_comm 1]; rfl, ?_⟩
      rw [Lt.requested_append h0, Rt.requested_call hn a2, List.append_assoc]
      exact c4)
    exact ⟨s', .cons n c cs s s1 s' (by rw [h3]; exact a3) b1, b2⟩

/-- The same command twice, with the tag of the call that was given up. -/
example : ∃ s s', (Net.start noCallbacks (5 : Nat)).runLate counting recovered = some s ∧
    Net.Series (Net.Called counting) (fun n _ => .ok [counted 7 (6 + UInt8.ofNat n), answered 7 []]) 0
      [request 7 [.read 0x40 0 1], request 7 [.read 0x40 0 1]] s s' ∧ s'.AtRest := by
  obtain ⟨s, h1, h2, h3, -⟩ := recovered_runs
  obtain ⟨s', a1, a2, -⟩ := C113_series rfl counting_conforms
    (fun n _ => .ok [counted 7 (6 + UInt8.ofNat n), answered 7 []])
    [request 7 [.read 0x40 0 1], request 7 [.read 0x40 0 1]] 0 recovered_tagged h1 h2 h3 (by
      have hreq : (Net.start noCallbacks (5 : Nat)).requested counting recovered = [request 7 [.read 0x40 0 1]] := by
        decide +kernel
      have hb : sendable (request 7 [.read 0x40 0 1]) = some [0xB4, 7, 1, 0x40, 0, 1] := by decide +kernel
      intro i hi
      match i, hi with
      | 0, _ =>
        refine ⟨7, _, _, ⟨rfl, rfl, rfl⟩, hb, rfl, ?_⟩
        rw [hreq]
        simp only [List.take_zero, List.append_nil, List.filterMap_cons, hb, List.filterMap_nil]
        exact counting_answers 7 6
      | 1, _ =>
        refine ⟨7, _, _, ⟨rfl, rfl, rfl⟩, hb, rfl, ?_⟩
        rw [hreq]
        simp only [List.take_succ_cons, List.take_zero, List.filterMap_append, List.filterMap_cons, hb, List.filterMap_nil]
        exact counting_answers 7 7)
  exact ⟨s, s', h1, a1, a2⟩

/-- C113, every program can go on: whatever has happened, from a state in which everything is at rest and the reading thread is
alive, a program that decides from what its calls have returned which command it executes next (with any tags) has for every
`k` a run in which its next `k` calls are answered by the device, or fewer because the program has ended. -/
theorem C113_program {config : Config} (hk : config.skip = false) {g : Gateway D} (hg : g.Conforms) {d : D}
    (next : List (List Command) → Option Command)
    (hn : ∀ known c, next known = some c → ∃ tag bs, Taggable c tag ∧ sendable c = some bs) (k : Nat) :
    ∀ {before : List LateEvent} {s : Net D} (known : List (List Command)), (∀ e ∈ before, Tagged e) →
    (Net.start config d).runLate g before = some s → s.AtRest → s.modem.reader.isDead = false →
    ∃ answers s', Net.Talks g d next (((Net.start config d).requested g before).filterMap sendable) known answers s s' ∧
      (answers.length = k ∨ answers.length < k ∧ next (known ++ answers) = none) ∧ s'.AtRest ∧
      s'.modem.reader.isDead = false := by
  induction k with
  | zero => intro before s known _ _ hr hd; exact ⟨[], s, .stop _ _ s, .inl rfl, hr, hd⟩
  | succ k ih =>
    intro before s known hp h0 hr hd
    cases hc : next known with
    | none => exact ⟨[], s, .stop _ _ s, .inr ⟨by simp, by rw [List.append_nil, hc]⟩, hr, hd⟩
    | some c =>
      obtain ⟨tag, bs, h1, h2⟩ := hn known c hc
      obtain ⟨es, s1, rs, a1, a2, a3, a4, a5, a6⟩ := C113_returns hk hg h1 h2 hp h0 hr hd
      have hne := Rc.steady_no_call a1
      obtain ⟨answers, s', b1, b2, b3⟩ := ih (before := before ++ .net (.call (.execute c 10)) :: es) (s := s1) (known ++ [rs])
        (by
          intro e he
          rcases List.mem_append.1 he with he | he
          · exact hp e he
          · exact Rt.tagged_call h1 hne e he) (Lt.runLate_append h0 a2) a5 a6
      rw [Lt.requested_append h0, Rt.requested_call hne a2, List.filterMap_append] at b1
      simp only [List.filterMap_cons, h2, List.filterMap_nil] at b1
      refine ⟨rs :: answers, s', .call hc h1 h2 a3 a4 b1, ?_, b3⟩
      rcases b2 with b2 | ⟨b2, b4⟩
      · exact .inl (by simp [b2])
      · exact .inr ⟨by simpa using b2, by simpa using b4⟩

/-- Reads with tag 7 until the answer is 8. -/
def untilEight (known : List (List Command)) : Option Command :=
  if [counted 7 8, answered 7 []] ∈ known then none else some (request 7 [.read 0x40 0 1])

theorem untilEight_talks {sent : List (List UInt8)} {known answers : List (List Command)} {s s' : Net Nat}
    (h : Net.Talks counting 5 untilEight sent known answers s s') (hl : answers ≠ [] ∨ untilEight known = none) :
    untilEight known = none ∧ answers = [] ∨ ∃ more s1,
      answers = [counted 7 (UInt8.ofNat (counting.replies 5 sent).1), answered 7 []] :: more ∧
      Net.Talks counting 5 untilEight (sent ++ [[0xB4, 7, 1, 0x40, 0, 1]])
        (known ++ [[counted 7 (UInt8.ofNat (counting.replies 5 sent).1), answered 7 []]]) more s1 s' := by
  cases h with
  | stop => exact .inl ⟨hl.resolve_left (by simp), rfl⟩
  | @call _ _ more _ s1 _ c tag bs rs e1 e2 e3 e4 e5 e6 =>
    right
    unfold untilEight at e1
    split at e1
    · cases e1
    · injection e1 with e1
      subst e1
      obtain rfl : [0xB4, 7, 1, 0x40, 0, 1] = bs := by
        have hb : sendable (request 7 [.read 0x40 0 1]) = some [0xB4, 7, 1, 0x40, 0, 1] := by decide +kernel
        exact Option.some.inj (hb.symm.trans e3)
      obtain rfl := meaning_unique e5.meaning (counting_answers 7 (UInt8.ofNat (counting.replies 5 sent).1)).meaning
      exact ⟨more, s1, rfl, e6⟩

/-- With the tag of the call that was given up: the program makes three calls and ends, also if it may make ten. -/
example : ∃ s s', (Net.start noCallbacks (5 : Nat)).runLate counting recovered = some s ∧
    Net.Talks counting 5 untilEight [[0xB4, 7, 1, 0x40, 0, 1]] []
      [[counted 7 6, answered 7 []], [counted 7 7, answered 7 []], [counted 7 8, answered 7 []]] s s' ∧ s'.AtRest := by
  obtain ⟨s, h1, h2, h3, -⟩ := recovered_runs
  have hb : sendable (request 7 [.read 0x40 0 1]) = some [0xB4, 7, 1, 0x40, 0, 1] := by decide +kernel
  obtain ⟨answers, s', a1, a2, a3, -⟩ := C113_program rfl counting_conforms untilEight
    (by
      intro known c hc
      unfold untilEight at hc
      split at hc
      · cases hc
      · injection hc with hc
        subst hc
        exact ⟨7, _, ⟨rfl, rfl, rfl⟩, hb⟩) 10 [] recovered_tagged h1 h2 h3
  have hreq : (Net.start noCallbacks (5 : Nat)).requested counting recovered = [request 7 [.read 0x40 0 1]] := by
    decide +kernel
  rw [hreq] at a1
  simp only [List.filterMap_cons, hb, List.filterMap_nil] at a1
  refine ⟨s, s', h1, ?_, a3⟩
  have n0 : untilEight [] ≠ none := by decide +kernel
  have n1 : untilEight [[counted 7 6, answered 7 []]] ≠ none := by decide +kernel
  have n2 : untilEight [[counted 7 6, answered 7 []], [counted 7 7, answered 7 []]] ≠ none := by decide +kernel
  have n3 : untilEight [[counted 7 6, answered 7 []], [counted 7 7, answered 7 []], [counted 7 8, answered 7 []]] = none := by
    decide +kernel
  rcases untilEight_talks a1 (.inl (by rintro rfl; simp at a2; exact n0 a2)) with ⟨h, -⟩ | ⟨m1, s1, rfl, b1⟩
  · exact absurd h n0
  rcases untilEight_talks b1 (.inl (by rintro rfl; simp at a2; exact n1 a2)) with ⟨h, -⟩ | ⟨m2, s2, rfl, b2⟩
  · exact absurd h n1
  rcases untilEight_talks b2 (.inl (by rintro rfl; simp at a2; exact n2 a2)) with ⟨h, -⟩ | ⟨m3, s3, rfl, b3⟩
  · exact absurd h n2
  rcases untilEight_talks b3 (.inr n3) with ⟨-, rfl⟩ | ⟨m4, s4, rfl, -⟩
  · exact a1
  · cases b3 with | call e => exact absurd (n3.symm.trans e) (by simp)

/-- C113, the update program can succeed: whatever has happened, from a state in which everything is at rest and the reading
thread is alive there is a run of the program (examples/write_update.py) in which no call is given up. If the device confirms
every piece and the file has at most 1073741916 bytes, the program ends normally in it. -/
theorem C113_update {config : Config} (hk : config.skip = false) {g : Gateway D} (hg : g.Conforms) {d : D}
    {before : List LateEvent} {s : Net D} (hp : ∀ e ∈ before, Tagged e)
    (h0 : (Net.start config d).runLate g before = some s) (hr : s.AtRest) (hd : s.modem.reader.isDead = false)
    (rand : Nat → UInt8) (file : List UInt8) :
    let base := ((Net.start config d).requested g before).filterMap sendable
    ∃ exec s', Net.Series (Net.Called g) exec 0 (Update.update rand exec file).1 s s' ∧ s'.AtRest ∧
      s'.modem.reader.isDead = false ∧
      (∀ i (hi : i < (Update.update rand exec file).1.length), exec i (Update.update rand exec file).1[i] ≠ .ok []) ∧
      ((∀ j < pieceCount file, g.Stored d base rand file j) → file.length ≤ 1073741916 →
        (Update.update rand exec file).2 = .done ∧
        s'.data = (g.replies d (base ++ programBytes rand file (pieceCount file))).1) := by
  intro base
  have hR : ∀ n, ∃ rs, (n = 0 → g.Reply d base (rand 0).toNat (requestBytes (rand 0) [.write 199 0 [0]]) rs) ∧
      ∀ k, n = k + 1 → 239 * k < 2 ^ 30 → 239 * k < file.length →
        g.Reply d (base ++ programBytes rand file k) (rand (k + 1)).toNat (pieceBytes rand file k) rs := by
    intro n
    cases n with
    | zero =>
      obtain ⟨rs, h⟩ := hg (g.replies d base).1 _ _ _ rfl rfl rfl (Upl.first_sendable (rand 0))
      exact ⟨rs, fun _ => h, fun k hk => by cases hk⟩
    | succ k =>
      by_cases hc : 239 * k < 2 ^ 30 ∧ 239 * k < file.length
      · obtain ⟨rs, h⟩ := hg (g.replies d (base ++ programBytes rand file k)).1 _ _ _ rfl rfl rfl
          (Upl.piece_sendable rand hc.1 hc.2)
        refine ⟨rs, (fun h => by cases h), ?_⟩
        intro j hj _ _
        obtain rfl : k = j := by omega
        exact h
      · refine ⟨[], (fun h => by cases h), ?_⟩
        intro j hj h1 h2
        obtain rfl : k = j := by omega
        exact absurd ⟨h1, h2⟩ hc
  choose R hR0 hR1 using hR
  let exec : Update.Exec := fun n _ => .ok (R n)
  have hne : ∀ {tag : Int} {l : List (List UInt8)} {p : List UInt8} {rs}, g.Reply d l tag p rs → rs ≠ [] := by
    intro tag l p rs h he
    obtain ⟨l, y, e, -⟩ := h.final
    rw [he] at e; simp at e
  obtain ⟨m, hm, hloop⟩ := Upl.loop_commands rand exec file 0
  have hcs : (Update.update rand exec file).1 = request (rand 0) [.write 199 0 [0]] ::
      (List.range m).map fun i => request (rand (i + 1)) [piece file i] := by
    unfold Update.update
    rw [Upd.first_request]
    simp only [Nat.mul_zero, List.drop_zero, Nat.zero_add] at hloop
    simp only [exec] at hloop ⊢
    rw [hloop]
  simp only [Nat.zero_add] at hm
  have htake : ∀ k ≤ m, ((List.range m).map fun i => request (rand (i + 1)) [piece file i]).take k =
      (List.range k).map fun i => request (rand (i + 1)) [piece file i] := by
    intro k hk
    rw [← List.map_take, List.take_range, Nat.min_eq_left hk]
  have hbytes : ∀ k ≤ m, ((List.range k).map fun i => request (rand (i + 1)) [piece file i]).filterMap sendable =
      (List.range k).map (pieceBytes rand file) := by
    intro k hk
    rw [List.filterMap_map]
    rw [show (List.range k).filterMap (sendable ∘ fun i => request (rand (i + 1)) [piece file i]) =
      (List.range k).filterMap (fun i => some (pieceBytes rand file i)) from List.filterMap_congr (by
        intro i hi
        have hi' := List.mem_range.1 hi
        exact Upl.piece_sendable rand (hm i (by omega)).1 (hm i (by omega)).2)]
    rw [List.filterMap_eq_map']
  have hall : ∀ i (hi : i < (Update.update rand exec file).1.length), ∃ tag bs rs,
      Taggable (Update.update rand exec file).1[i] tag ∧ sendable (Update.update rand exec file).1[i] = some bs ∧
      exec (0 + i) (Update.update rand exec file).1[i] = .ok rs ∧
      g.Reply d (((Net.start config d).requested g before ++ (Update.update rand exec file).1.take i).filterMap sendable)
        tag bs rs := by
    rw [hcs]
    intro i hi
    cases i with
    | zero =>
      refine ⟨_, _, R 0, Upl.request_taggable _ _, Upl.first_sendable (rand 0), rfl, ?_⟩
      simpa using hR0 0 rfl
    | succ k =>
      simp only [List.length_cons, List.length_map, List.length_range] at hi
      have hk' : k < m := by omega
      refine ⟨(rand (k + 1)).toNat, pieceBytes rand file k, R (k + 1), ?_, ?_, by simp [exec], ?_⟩
      · simpa using Upl.request_taggable (rand (k + 1)) [piece file k]
      · simpa using Upl.piece_sendable rand (hm k hk').1 (hm k hk').2
      · rw [List.take_succ_cons, htake k (by omega), List.filterMap_append, List.filterMap_cons, Upl.first_sendable,
          hbytes k (by omega)]
        exact hR1 (k + 1) k rfl (hm k hk').1 (hm k hk').2
  obtain ⟨s', h1, h2, h3⟩ := C113_series hk hg exec (Update.update rand exec file).1 0 hp h0 hr hd hall
  have hfirst : exec 0 (request (rand 0) [.write 199 0 [0]]) ≠ .ok [] := by
    intro he
    exact hne (hR0 0 rfl) (by simpa [exec] using he)
  refine ⟨exec, s', h1, h2, h3, ?_, ?_⟩
  · intro i hi he
    obtain ⟨tag, bs, rs, -, -, k1, k2⟩ := hall i hi
    rw [Nat.zero_add, he] at k1
    exact hne k2 (by simpa using k1.symm)
  · intro hst hlen
    obtain ⟨k, -, -, ⟨e1, rfl, e2⟩ | ⟨e1, e2, e3 | e3⟩ | ⟨e1, e2⟩⟩ := C108_update hk hg hp h0 hr rand exec file hfirst h1
    · exact ⟨e1, e2⟩
    · exfalso
      have hkl : 239 * k < file.length := by unfold pieceCount at e2; omega
      exact hne (hR1 (k + 1) k rfl (by omega) hkl) (by simpa [exec] using e3)
    · exact absurd (hst k e2) e3
    · omega

theorem moody_calm (l : List (List UInt8)) : (moody.replies [] l).1 = [] := by
  induction l with
  | nil => rfl
  | cons p l ih =>
    have : (moody.handle [] p).1 = [] := by
      simp only [moody]
      split <;> rfl
    simp only [Gateway.replies, this, ih]

/-- After a call that was given up, with a device that refused that command: every file, with all tags. -/
example (rand : Nat → UInt8) (file : List UInt8) (hf : file.length ≤ 1073741916) :
    ∃ s es s1 exec s', (Net.start noCallbacks [false]).runLate moody tooLate = some s ∧ Steady es ∧
      s.runLate moody es = some s1 ∧ Net.Series (Net.Called moody) exec 0 (Update.update rand exec file).1 s1 s' ∧
      (Update.update rand exec file).2 = .done := by
  have key : ((Net.start noCallbacks [false]).runLate moody tooLate).map (fun s =>
      decide (s.modem.main = .idle ∧ s.modem.reader.isDead = false)) = some true := by
    decide +kernel
  obtain ⟨s, h1, h2⟩ := Option.map_eq_some_iff.1 key
  obtain ⟨h3, h4⟩ := of_decide_eq_true h2
  obtain ⟨es, s1, a1, a2, a3, a4, -⟩ := C113_rest rfl moody_conforms tooLate_tagged h1 h3 h4
  obtain ⟨exec, s', b1, -, -, -, b2⟩ := C113_update rfl moody_conforms (before := tooLate ++ es) (by
    intro e he
    rcases List.mem_append.1 he with he | he
    · exact tooLate_tagged e he
    · exact Ev.untagged_free (Rc.steady_no_call a1) e he) (Lt.runLate_append h1 a2) a3 a4 rand file
  refine ⟨s, es, s1, exec, s', h1, a1, a2, b1, (b2 ?_ hf).1⟩
  intro j _
  rw [Lt.requested_append h1, Rt.requested_none (Rc.steady_no_call a1), List.append_nil]
  rw [show ((Net.start noCallbacks [false]).requested moody tooLate).filterMap sendable =
    [[0xB4, 7, 1, 0x40, 0, 1]] by decide +kernel]
  unfold Gateway.Stored
  rw [show (moody.replies [false] ([[0xB4, 7, 1, 0x40, 0, 1]] ++ programBytes rand file j)).1 = [] from
    moody_calm (programBytes rand file j)]
  exact ⟨_, _, moody_answers [] (rand (j + 1)) _, List.mem_singleton_self _, rfl, rfl⟩

/-- C113, without the reading thread there is no recovery: once it has ended, every call returns nothing, in every interleaving,
whatever was going on and whatever the device answers. -/
theorem C113_dead {config : Config} (hk : config.skip = false) {g : Gateway D} (hg : g.Conforms) {d : D} {exec : Update.Exec}
    {cs : List Command} {n : Nat} : ∀ {before : List LateEvent} {s s' : Net D}, (∀ e ∈ before, Tagged e) →
    (Net.start config d).runLate g before = some s → s.modem.reader.isDead = true →
    (∀ c ∈ cs, ∃ tag bs, Taggable c tag ∧ sendable c = some bs) → Net.Series (Net.Called g) exec n cs s s' →
    (∀ i (hi : i < cs.length), exec (n + i) cs[i] = .ok []) ∧ s'.modem.reader.isDead = true := by
  induction cs generalizing n with
  | nil => intro before s s' _ _ hd _ h; cases h; exact ⟨nofun, hd⟩
  | cons c cs ih =>
    intro before s s' hp h0 hd hcs h
    cases h with
    | cons _ _ _ _ s1 _ h1 h2 =>
      obtain ⟨es, o, a1, a2, a3, a4⟩ := h1
      obtain ⟨tag, bs, b1, b2⟩ := hcs c (by simp)
      rw [Rt.dead_call hk hg hp h0 hd (by rw [b2]; simp) a1 a2 a3] at a4
      obtain ⟨evs, c1, -⟩ := Lt.late_modem a2
      obtain ⟨d1, d2⟩ := ih (before := before ++ .net (.call (.execute c 10)) :: es) (by
        intro e he
        rcases List.mem_append.1 he with he | he
        · exact hp e he
        · exact Rt.tagged_call b1 a1 e he) (Lt.runLate_append h0 a2) (C55_dead_forever hd c1).1
        (fun x hx => hcs x (List.mem_cons_of_mem _ hx)) h2
      refine ⟨fun i hi => ?_, d2⟩
      cases i with
      | zero => exact a4
      | succ i =>
        have := d1 i (by simpa using hi)
        rw [Nat.add_assoc, Nat.add_comm 1] at this
        exact this

/-- The device gets the command and answers it, but nobody reads. -/
def unheard : List LateEvent := List.replicate 5 (.net .main) ++ [.net .take, .net (.send 0), .timeout]

theorem unheard_runs : ∃ s s1 s2, (Net.start noCallbacks (5 : Nat)).runLate counting [.serialError] = some s ∧
    s.modem.reader.isDead = true ∧
    Net.Called counting (request 7 [.write 199 0 [0]]) s (.ok []) s1 ∧
    Net.Called counting (request 7 [.write 200 0 [5, 6]]) s1 (.ok []) s2 ∧ s2.data = 7 := by
  have key : (((Net.start noCallbacks (5 : Nat)).runLate counting [.serialError]).bind fun s =>
      (s.runLate counting (.net (.call (.execute (request 7 [.write 199 0 [0]]) 10)) :: unheard)).bind fun s1 =>
      (s1.runLate counting (.net (.call (.execute (request 7 [.write 200 0 [5, 6]]) 10)) :: unheard)).map fun s2 =>
        decide (s.modem.reader.isDead = true ∧ s1.modem.outcomes = s.modem.outcomes ++ [.empty] ∧
          s2.modem.outcomes = s1.modem.outcomes ++ [.empty] ∧ s2.data = 7)) = some true := by decide +kernel
  obtain ⟨s, h1, key⟩ := Option.bind_eq_some_iff.1 key
  obtain ⟨s1, h2, key⟩ := Option.bind_eq_some_iff.1 key
  obtain ⟨s2, h3, key⟩ := Option.map_eq_some_iff.1 key
  obtain ⟨k1, k2, k3, k4⟩ := of_decide_eq_true key
  exact ⟨s, s1, s2, h1, k1, ⟨unheard, .empty, by simp [unheard], h2, k2, rfl⟩, ⟨unheard, .empty, by simp [unheard], h3, k3, rfl⟩, k4⟩

/-- Both calls return nothing although the device has processed the commands. -/
example : ∃ s s', (Net.start noCallbacks (5 : Nat)).runLate counting [.serialError] = some s ∧
    Net.Series (Net.Called counting) (fun _ _ => .ok []) 0 [request 7 [.write 199 0 [0]], request 7 [.write 200 0 [5, 6]]] s s' ∧
    s'.data = 7 ∧ s'.modem.reader.isDead = true := by
  obtain ⟨s, s1, s2, h1, h2, h3, h4, h5⟩ := unheard_runs
  have hs : Net.Series (Net.Called counting) (fun _ _ => .ok []) 0 [request 7 [.write 199 0 [0]],
    request 7 [.write 200 0 [5, 6]]] s s2 := .cons _ _ _ _ _ _ h3 (.cons _ _ _ _ _ _ h4 (.nil _ _))
  refine ⟨s, s2, h1, hs, h5, (C113_dead rfl counting_conforms (by simp [Tagged]) h1 h2 ?_ hs).2⟩
  simp only [List.mem_cons, List.not_mem_nil, or_false]
  rintro c (rfl | rfl)
  · exact ⟨7, [0xB4, 7, 4, 199, 0, 1, 0], ⟨rfl, rfl, rfl⟩, by decide +kernel⟩
  · exact ⟨7, [0xB4, 7, 4, 200, 0, 2, 5, 6], ⟨rfl, rfl, rfl⟩, by decide +kernel⟩

/-- C113: then `connect` can only return False (or it has not ended), and nothing is learned about the modem. -/
theorem C113_dead_connect {config : Config} (hk : config.skip = false) {g : Gateway D} (hg : g.Conforms) {d : D}
    {before es : List LateEvent} {s s' : Net D} {r : UInt8} (hp : ∀ e ∈ before, Tagged e)
    (h0 : (Net.start config d).runLate g before = some s) (hd : s.modem.reader.isDead = true)
    (hn : s.modem.connected = false) (hc : ∀ call, .net (.call call) ∉ es)
    (h : s.runLate g (.net (.call (.connect true r)) :: es) = some s') :
    (s'.modem.outcomes = s.modem.outcomes ∨ s'.modem.outcomes = s.modem.outcomes ++ [.bool false]) ∧
      s'.modem.connected = false ∧ s'.modem.uid = s.modem.uid ∧ s'.modem.firmwareVersion = s.modem.firmwareVersion := by
  obtain ⟨s0, h1, h2⟩ := Lt.late_cons h
  obtain ⟨-, a1, a2, a3, a4⟩ := Rc.unheard_run (Rc.unheard_start hk hg hn hp h0 hd h1) hc h2
  refine ⟨?_, a1, a2, a3⟩
  rcases a4 with ⟨st, tag, f, t, -, b, -⟩ | ⟨-, b⟩
  · exact .inl b
  · exact .inr b

set_option synthInstance.maxSize 1000 in
/-- The device gets the question and answers it. -/
example : (((Net.start noCallbacks (5 : Nat)).runLate counting [.serialError]).bind fun s =>
    (s.runLate counting (.net (.call (.connect true 7)) :: unheard)).map fun s' =>
      (s.modem.reader.isDead, s.modem.connected, s'.modem.outcomes, s'.modem.connected, s'.data)) =
    some (true, false, [.bool false], false, 6) ∧ ∀ call, .net (.call call) ∉ unheard :=
  ⟨by decide +kernel, by simp [unheard]⟩

/-- C113: then the update program says 'write failed' for every file that is not empty, at its first piece. -/
theorem C113_dead_update {config : Config} (hk : config.skip = false) {g : Gateway D} (hg : g.Conforms) {d : D}
    {before : List LateEvent} {s s' : Net D} (hp : ∀ e ∈ before, Tagged e)
    (h0 : (Net.start config d).runLate g before = some s) (hd : s.modem.reader.isDead = true) (rand : Nat → UInt8)
    (exec : Update.Exec) {file : List UInt8} (hf : file ≠ [])
    (h : Net.Series (Net.Called g) exec 0 (Update.update rand exec file).1 s s') :
    (Update.update rand exec file).2 = .failed ∧ (Update.update rand exec file).1 =
      [request (rand 0) [.write 199 0 [0]], request (rand 1) [.write 200 0 (file.take 239)]] := by
  have hlen := List.length_pos_iff.2 hf
  have hchunk := Upd.chunk_request (rand 1) (offset := 0) (data := file.take 239) (by decide) (by simp)
  have hs1 : sendable (request (rand 1) [.write 200 0 (file.take 239)]) = some (pieceBytes rand file 0) :=
    Upl.piece_sendable rand (k := 0) (by decide) (by omega)
  have first : ∀ {l}, Net.Series (Net.Called g) exec 0 (request (rand 0) [.write 199 0 [0]] :: l) s s' →
      exec 0 (request (rand 0) [.write 199 0 [0]]) = .ok [] := by
    intro l h
    cases h with
    | cons _ _ _ _ s1 _ h1 h2 =>
      exact (C113_dead hk hg hp h0 hd (cs := [request (rand 0) [.write 199 0 [0]]]) (by
        simp only [List.mem_singleton]
        rintro c rfl
        exact ⟨_, _, ⟨rfl, rfl, rfl⟩, Upl.first_sendable (rand 0)⟩) (.cons _ _ _ _ _ _ h1 (.nil _ _))).1 0 (by simp)
  have second : ∀ {l}, Net.Series (Net.Called g) exec 0 (request (rand 0) [.write 199 0 [0]] ::
      request (rand 1) [.write 200 0 (file.take 239)] :: l) s s' →
      exec 1 (request (rand 1) [.write 200 0 (file.take 239)]) = .ok [] := by
    intro l h
    cases h with
    | cons _ _ _ _ s1 _ h1 h2 =>
      cases h2 with
      | cons _ _ _ _ s2 _ h2 h3 =>
        exact (C113_dead hk hg hp h0 hd (cs := [request (rand 0) [.write 199 0 [0]],
          request (rand 1) [.write 200 0 (file.take 239)]]) (by
          simp only [List.mem_cons, List.not_mem_nil, or_false]
          rintro c (rfl | rfl)
          · exact ⟨_, _, ⟨rfl, rfl, rfl⟩, Upl.first_sendable (rand 0)⟩
          · exact ⟨_, _, ⟨rfl, rfl, rfl⟩, hs1⟩) (.cons _ _ _ _ _ _ h1 (.cons _ _ _ _ _ _ h2 (.nil _ _)))).1 1 (by simp)
  have hloop : ∃ l, (Update.loop rand exec 1 0 file).1 = request (rand 1) [.write 200 0 (file.take 239)] :: l := by
    rw [Update.loop, dif_neg hf, hchunk]
    simp only
    split
    · exact ⟨_, rfl⟩
    · split
      · exact ⟨_, rfl⟩
      · exact ⟨_, rfl⟩
      · exact ⟨_, rfl⟩
  obtain ⟨l, hloop⟩ := hloop
  have e0 : exec 0 (request (rand 0) [.write 199 0 [0]]) = .ok [] := by
    unfold Update.update at h
    rw [Upd.first_request] at h
    simp only at h
    split at h
    · exact first h
    · exact first h
  have hu : Update.update rand exec file = (request (rand 0) [.write 199 0 [0]] :: (Update.loop rand exec 1 0 file).1,
      (Update.loop rand exec 1 0 file).2) := by
    unfold Update.update
    rw [Upd.first_request]
    simp only [e0]
  rw [hu, hloop] at h
  have e1 := second h
  have hl : Update.loop rand exec 1 0 file = ([request (rand 1) [.write 200 0 (file.take 239)]], .failed) := by
    rw [Update.loop, dif_neg hf, hchunk]
    simp only [e1, Update.worked]
  rw [hu, hl]
  exact ⟨rfl, rfl⟩

/-- The program fails although the device has executed and confirmed both commands. -/
example : ∃ s s', (Net.start noCallbacks (5 : Nat)).runLate counting [.serialError] = some s ∧
    Net.Series (Net.Called counting) (fun _ _ => .ok []) 0 (Update.update (fun _ => 7) (fun _ _ => .ok []) [5, 6]).1 s s' ∧
    (Update.update (fun _ => 7) (fun _ _ => .ok []) [5, 6]).2 = .failed ∧ s'.data = 7 := by
  obtain ⟨s, s1, s2, h1, h2, h3, h4, h5⟩ := unheard_runs
  have hc : (Update.update (fun _ => 7) (fun _ _ => .ok []) [5, 6]).1 =
      [request 7 [.write 199 0 [0]], request 7 [.write 200 0 [5, 6]]] := by decide +kernel
  have hs : Net.Series (Net.Called counting) (fun _ _ => .ok []) 0
      (Update.update (fun _ => 7) (fun _ _ => .ok []) [5, 6]).1 s s2 := by
    rw [hc]; exact .cons _ _ _ _ _ _ h3 (.cons _ _ _ _ _ _ h4 (.nil _ _))
  exact ⟨s, s2, h1, hs, (C113_dead_update rfl counting_conforms (by simp [Tagged]) h1 h2 _ _ (by simp) hs).1, h5⟩

end Verif.Modem
