import Verif.Lemmas.ModemFaults

/-! C99: writes that fail. -/

namespace Verif.Modem

open Verif Verif.Serial Faults

/-- C99: whatever writes fail, each message received is handed over once and in order, to the sink for it. -/
theorem C99_one_sink {config : Config} {es : List FaultyEvent} {s : Faulty}
    (h : (Faulty.init config).run es = some s) : ∃ log, HandedOver (init config) s.modem log := by
  obtain ⟨-, log, hl, -⟩ := run_handed (s := Faulty.init config) (init_ok config) h
  exact ⟨log, hl⟩

/-- A write fails, then a node sends file content: the callback gets it. -/
example : ((Faulty.init ⟨false, true, false⟩).run ((([Event.call (.connect false 0), .call (.execute cmd7 10)] ++ mains 4).map FaultyEvent.inner ++
      [FaultyEvent.writeFails 3] ++ ([Event.rx push] ++ reads 4).map FaultyEvent.inner))).map
      (fun s => (s.failures, s.modem.reader, s.modem.called.length)) = some (1, .reading, 1) := by decide +kernel

/-- C99: what reaches the serial port: the frames of the commands asked for, numbered in order, each of them whole or, if its
write failed, only the beginning of it. A failure uses up its number. -/
theorem C99_written {config : Config} {es : List FaultyEvent} {s : Faulty} (h : (Faulty.init config).run es = some s) :
    ∃ xs rest, ((Faulty.init config).requested es).filterMap sendable = xs.map Prod.fst ++ rest ∧
      s.modem.written = cutFrames 0 xs ∧ (xs.filter fun x => x.2.isSome).length = s.failures ∧
      (∀ p k, (p, some k) ∈ xs → k ≤ p.length + 7) ∧ rest.length ≤ 1 ∧ (s.modem.main = .idle → rest = []) := by
  obtain ⟨xs, rest, h1, h2, h3, h4, h5, h6, h7, -⟩ := inv_run (inv_init config) h
  refine ⟨xs, rest, h2, h5, h6, h7, h4, fun hm => ?_⟩
  rw [hm] at h3
  exact framesFrom_nil h3.symm

/-- The first command of two leaves the port only in part. -/
example : ((Faulty.init plain).run ((([Event.call (.execute cmd7 10)] ++ mains 4).map FaultyEvent.inner ++ [FaultyEvent.writeFails 3] ++
      ([Event.call (.execute cmd9 10)] ++ mains 5).map FaultyEvent.inner))).map (fun s => (s.failures, s.modem.written)) =
    some (1, cutFrames 0 [([0xb4, 7], some 3), ([0xb4, 9], none)]) := by decide +kernel

/-- C99: after any number of failed writes a call gives what it would give after successful ones: exactly the responses to
its command that are handed over while it waits, or nothing if none of them is final. -/
theorem C99_next_call {config : Config} (hk : config.skip = false) {before : List FaultyEvent} {during : List Event}
    {last : Event} {s : Faulty} {s1 s' : State} {cmd : Command} {timeout : Int} {o : Outcome} (ht : timeout > 0)
    (h0 : (Faulty.init config).run before = some s)
    (h1 : s.modem.run (.call (.execute cmd timeout) :: during) = some s1) (hp : s1.outcomes = s.modem.outcomes)
    (h2 : s1.step last = some s') (ho : s'.outcomes = s.modem.outcomes ++ [o])
    (hc : Calm s.modem (.call (.execute cmd timeout) :: during)) :
    ∃ new handed, s1.received = s.modem.received ++ new ∧
      handed ++ pending s1.reader = pending s.modem.reader ++ new ∧
      ((o = .list s.modem.responses.length ∧
          content s'.responses s.modem.responses.length = handed.filterMap (response cmd.tagId) ∧
          ∃ c ∈ content s'.responses s.modem.responses.length, c.executionCompleted = true) ∨
        (o = .empty ∧ (betweenMessages s1.reader = true →
          ∀ c ∈ handed.filterMap (response cmd.tagId), c.executionCompleted = false))) := by
  obtain ⟨hok, -, -, hcfg⟩ := run_handed (s := Faulty.init config) (init_ok config) h0
  have hk' : s.modem.config.skip = false := by rw [hcfg]; exact hk
  have hst : s.modem.step (.call (.execute cmd timeout)) = some (s.modem.startExecute .app cmd timeout) := by
    unfold State.run at h1
    simp only [State.step] at h1 ⊢
    by_cases hm : s.modem.main = .idle
    · rw [if_pos hm]; rfl
    · rw [if_neg hm] at h1; cases h1
  have h1' : (s.modem.startExecute .app cmd timeout).run during = some s1 := by
    unfold State.run at h1
    rw [hst] at h1
    exact h1
  have hst' := run_outcomes_left (es := [Event.call (.execute cmd timeout)])
    (by simp [State.run, hst]) h1' hp
  obtain ⟨new, handed, a1, a2, a3, a4, s2, l, a5, a6, a7, -, -, -, a11⟩ :=
    calm_call ht hok.1 hk' h1' hst' hp (hc.2 _ hst) h2
      (by rw [ho, hp]; intro h; simpa using congrArg List.length h)
  refine ⟨new, handed, a1, a2, ?_⟩
  have hres : s'.responses = s1.responses := by rw [a5, (finishExecute_rest s2 .app l).2.1, a7]
  rcases a11 with ⟨rfl, hx⟩ | ⟨rfl, hx⟩
  · refine .inl ⟨?_, by rw [hres]; exact a3, by rw [hres, a3]; exact hx⟩
    rw [a5, show (s2.finishExecute .app (some s.modem.responses.length)).outcomes =
      s2.outcomes ++ [.list s.modem.responses.length] from rfl, a6, hp] at ho
    simpa using (List.append_cancel_left ho).symm
  · refine .inr ⟨?_, hx⟩
    rw [a5, show (s2.finishExecute .app none).outcomes = s2.outcomes ++ [.empty] from rfl, a6, hp] at ho
    simpa using (List.append_cancel_left ho).symm

/-- The first write fails, the second call is answered. -/
example : ((Faulty.init plain).run ((([Event.call (.execute cmd7 10)] ++ mains 4).map FaultyEvent.inner ++ [FaultyEvent.writeFails 3] ++
      ([Event.call (.execute cmd9 10)] ++ mains 5 ++ [Event.rx final9] ++ reads 5 ++ [Event.main]).map FaultyEvent.inner))).map
      (fun s => (s.failures, s.modem.outcomes, s.modem.responses)) =
    some (1, [.list 2], [[], [], [cFinal9]]) := by decide +kernel

/-- C99: a `connect` whose write fails leaves the modem as it was, except with `skip_alp_parsing`: there the modem counts as
connected although nothing may have been sent, and the next `connect` does nothing. -/
theorem C99_connect {config : Config} {before : List FaultyEvent} {during : List Event} {s s' : Faulty} {s1 : State}
    {tag : UInt8} {n : Nat} (h0 : (Faulty.init config).run before = some s)
    (h1 : s.modem.run (.call (.connect true tag) :: during) = some s1) (hp : s1.outcomes = s.modem.outcomes)
    (h2 : Faulty.step ⟨s1, s.failures⟩ (.writeFails n) = some s') :
    s'.failures = s.failures + 1 ∧ s'.modem.main = .idle ∧ s'.modem.outcomes = s.modem.outcomes ∧
      s'.modem.uid = s.modem.uid ∧ s'.modem.firmwareVersion = s.modem.firmwareVersion ∧
      s.modem.connected = false ∧ s'.modem.connected = config.skip := by
  obtain ⟨-, -, -, hcfg⟩ := run_handed (s := Faulty.init config) (init_ok config) h0
  have hcfg : s.modem.config = config := hcfg
  have hm : s.modem.main = .idle := by
    by_contra hm
    unfold State.run at h1
    simp only [State.step] at h1
    rw [if_neg hm] at h1; cases h1
  have hst : s.modem.step (.call (.connect true tag)) = some (s.modem.startCall (.connect true tag)) := by
    simp only [State.step]; rw [if_pos hm]
  have h1' : (s.modem.startCall (.connect true tag)).run during = some s1 := by
    unfold State.run at h1
    rw [hst] at h1
    exact h1
  have hst' := run_outcomes_left (es := [Event.call (.connect true tag)]) (by simp [State.run, hst]) h1' hp
  have hcon : s.modem.connected = false := by
    cases hc : s.modem.connected with
    | false => rfl
    | true =>
      exfalso
      simp only [State.startCall, hc, if_true] at hst'
      exact absurd (congrArg List.length hst') (by simp [State.finish])
  have hs' : s'.failures = s.failures + 1 ∧ s'.modem.main = .idle ∧ s'.modem.outcomes = s1.outcomes ∧
      s'.modem.uid = s1.uid ∧ s'.modem.firmwareVersion = s1.firmwareVersion ∧ s'.modem.connected = s1.connected := by
    simp only [Faulty.step, Faulty.failStep] at h2
    split at h2
    · split at h2
      · cases h2; exact ⟨rfl, rfl, rfl, rfl, rfl, rfl⟩
      · cases h2
    · cases h2
  obtain ⟨e1, e2, e3, e4, e5, e6⟩ := hs'
  have run : ∀ {a : State} {caller : Caller} {t : Int}, s.modem.startCall (.connect true tag) = a.startExecute caller (question tag) t →
      a.outcomes = s.modem.outcomes →
      s1.uid = a.uid ∧ s1.firmwareVersion = a.firmwareVersion ∧ s1.connected = a.connected := by
    intro a caller t ha hao
    rw [ha] at h1' hst'
    rcases startExecute_running (s := a) (caller := caller) (cmd := question tag) (timeout := t) with ⟨e, he⟩ | ⟨-, f, hr⟩
    · rw [hst', hao] at he
      exact absurd (congrArg List.length he) (by simp)
    · obtain ⟨-, r1, r2, r3⟩ := running_run hr h1' (by rw [hp, hst'])
      have hsame : (a.startExecute caller (question tag) t).uid = a.uid ∧
          (a.startExecute caller (question tag) t).firmwareVersion = a.firmwareVersion ∧
          (a.startExecute caller (question tag) t).connected = a.connected := by
        unfold State.startExecute
        simp only
        split <;> exact ⟨rfl, rfl, rfl⟩
      exact ⟨r1.trans hsame.1, r2.trans hsame.2.1, r3.trans hsame.2.2⟩
  refine ⟨e1, e2, e3.trans hp, ?_⟩
  rw [e4, e5, e6]
  cases hsk : config.skip with
  | true =>
    obtain ⟨r1, r2, r3⟩ := run (a := { s.modem with connected := true }) (caller := .connectSkip) (t := 0) (by
      simp [State.startCall, hcon, infoCommand_eq, hcfg, hsk]) rfl
    exact ⟨r1, r2, hcon, r3⟩
  | false =>
    obtain ⟨r1, r2, r3⟩ := run (a := s.modem) (caller := .connect) (t := 10) (by
      simp [State.startCall, hcon, infoCommand_eq, hcfg, hsk]) rfl
    exact ⟨r1, r2, hcon, r3.trans hcon⟩

/-- The first `connect` fails and raises; with `skip_alp_parsing` the second one returns `None` and writes nothing. -/
example : ((Faulty.init ⟨true, false, false⟩).run ((([Event.call (.connect true 7)] ++ mains 4).map FaultyEvent.inner ++ [FaultyEvent.writeFails 0] ++
      [FaultyEvent.inner (.call (.connect true 8))]))).map
      (fun s => (s.failures, s.modem.connected, s.modem.outcomes, s.modem.written)) = some (1, true, [.none], []) ∧
    ((Faulty.init plain).run ((([Event.call (.connect true 7)] ++ mains 4).map FaultyEvent.inner ++ [FaultyEvent.writeFails 0] ++
      ([Event.call (.connect true 8)] ++ mains 5).map FaultyEvent.inner))).map
      (fun s => (s.failures, s.modem.connected, s.modem.outcomes, s.modem.written.length)) =
        some (1, false, [], 17) := by decide +kernel

/-- C99: if the flush fails after the frame has left, the device answers a call that has already raised. Until the next call
such an answer is put in a list that nobody has; the application does not get it. -/
theorem C99_late_answer {config : Config} (hk : config.skip = false) {before : List FaultyEvent} {during after : List Event}
    {s s' : Faulty} {s1 s2 : State} {cmd : Command} {timeout : Int} {n : Nat} (ht : timeout > 0)
    (h0 : (Faulty.init config).run before = some s)
    (h1 : s.modem.run (.call (.execute cmd timeout) :: during) = some s1) (hp : s1.outcomes = s.modem.outcomes)
    (h2 : Faulty.step ⟨s1, s.failures⟩ (.writeFails n) = some s') (hn : ∀ e ∈ after, isMain e = false)
    (h3 : s'.modem.run after = some s2) (t : Int) (h4 : t ≤ 3) (c : Command) (q : List (Int × Msg))
    (hr : s2.reader = .next ((t, .command c) :: q)) (hc : c.tagId = cmd.tagId) :
    ∃ s3, s2.run (reads 4) = some s3 ∧ s3.reader = .next q ∧ s3.called = s2.called ∧ s3.unsolicited = s2.unsolicited ∧
      s3.outcomes = s2.outcomes := by
  obtain ⟨hok, -, -, hcfg⟩ := run_handed (s := Faulty.init config) (init_ok config) h0
  have hcfg : s.modem.config = config := hcfg
  have hm : s.modem.main = .idle := by
    by_contra hm
    unfold State.run at h1
    simp only [State.step] at h1
    rw [if_neg hm] at h1; cases h1
  have hst : s.modem.step (.call (.execute cmd timeout)) = some (s.modem.startExecute .app cmd timeout) := by
    simp only [State.step]; rw [if_pos hm]; rfl
  have h1' : (s.modem.startExecute .app cmd timeout).run during = some s1 := by
    unfold State.run at h1
    rw [hst] at h1
    exact h1
  have hst' := run_outcomes_left (es := [.call (.execute cmd timeout)]) (by simp [State.run, hst]) h1' hp
  rcases startExecute_running (s := s.modem) (caller := .app) (cmd := cmd) (timeout := timeout) with ⟨e, he⟩ | ⟨-, f, hrun⟩
  · rw [hst'] at he
    exact absurd (congrArg List.length he) (by simp)
  have htag : TagSet s1 := tagSet_run hrun (tagSet_startExecute hm _ _ _) h1' (by rw [hp, hst'])
  obtain ⟨⟨stage, hs1, -⟩, -⟩ := running_run hrun h1' (by rw [hp, hst'])
  obtain ⟨hok1, -, -, hcfg1⟩ := run_handedOver hok h1
  obtain ⟨hok', -, -, hcfg'⟩ := step_handed (s := ⟨s1, s.failures⟩) hok1 h2
  have hs' : s'.modem.tag = cmd.tagId := by
    simp only [Faulty.step, Faulty.failStep] at h2
    split at h2
    · next hw =>
      split at h2
      · cases h2
        simp only [hs1, Main.run.injEq] at hw
        exact htag _ _ _ _ _ hs1 (.inl hw.1) (by rw [hcfg, hk]; exact ht)
      · cases h2
    · cases h2
  obtain ⟨a, b⟩ := untouched_tag hn h3
  obtain ⟨hok2, -⟩ := run_handedOver hok' h3
  obtain ⟨s3, r1, r2, -, r3, r4, r5⟩ := C45_swallowed s2 (by rw [b, hcfg', hcfg1, hcfg]; exact hk) hok2.1 t h4 c q hr
    (by rw [a, hs', hc])
  exact ⟨s3, r1, r2, r3, r4, r5⟩

/-- The flush fails after all nine bytes of the frame have left; the answer comes and nobody gets it. -/
example : ((Faulty.init ⟨false, true, false⟩).run ((([Event.call (.execute cmd7 10)] ++ mains 4).map FaultyEvent.inner ++
      [FaultyEvent.writeFails 9] ++ [Event.rx final7].map FaultyEvent.inner))).map
      (fun s => (s.failures, s.modem.reader, s.modem.written)) =
    some (1, .next [(1, .command cFinal7)], frame 0 1 [0xb4, 7]) ∧
    ((Faulty.init ⟨false, true, false⟩).run ((([Event.call (.execute cmd7 10)] ++ mains 4).map FaultyEvent.inner ++
      [FaultyEvent.writeFails 9] ++ ([Event.rx final7] ++ reads 5).map FaultyEvent.inner))).map
      (fun s => (s.modem.reader, s.modem.outcomes, s.modem.called, s.modem.unsolicited)) =
    some (.reading, [], [], [[]]) := by decide +kernel

end Verif.Modem
