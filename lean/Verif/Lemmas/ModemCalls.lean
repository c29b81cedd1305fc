import Verif.Lemmas.ModemTags

/-! Calls of `execute_command` and `connect`. -/

namespace Verif.Modem

open Verif Verif.Serial

/-- What the reading thread leaves alone. -/
structure Untouched (s s' : State) : Prop where
  main : s'.main = s.main
  outcomes : s'.outcomes = s.outcomes
  length : s'.responses.length = s.responses.length
  tag : s'.tag = s.tag
  uid : s'.uid = s.uid
  firmware : s'.firmwareVersion = s.firmwareVersion
  connected : s'.connected = s.connected
  config : s'.config = s.config
  written : s'.written = s.written

theorem Untouched.refl (s : State) : Untouched s s := ⟨rfl, rfl, rfl, rfl, rfl, rfl, rfl, rfl, rfl⟩

theorem readerStep_untouched {s s' : State} (h : s.readerStep = some s') : Untouched s s' := by
  unfold State.readerStep at h
  split at h
  · cases h
  · cases h
  · cases h; exact ⟨rfl, rfl, rfl, rfl, rfl, rfl, rfl, rfl, rfl⟩
  · split at h <;> cases h <;> exact ⟨rfl, rfl, rfl, rfl, rfl, rfl, rfl, rfl, rfl⟩
  · cases h; exact ⟨rfl, rfl, rfl, rfl, rfl, rfl, rfl, rfl, rfl⟩
  · cases h; exact ⟨rfl, rfl, by simp, rfl, rfl, rfl, rfl, rfl, rfl⟩
  · cases h; exact ⟨rfl, rfl, rfl, rfl, rfl, rfl, rfl, rfl, rfl⟩
  · split at h
    · cases h; exact ⟨rfl, rfl, rfl, rfl, rfl, rfl, rfl, rfl, rfl⟩
    · split at h
      · split at h <;> cases h <;> exact ⟨rfl, rfl, rfl, rfl, rfl, rfl, rfl, rfl, rfl⟩
      · split at h
        · cases h; exact ⟨rfl, rfl, rfl, rfl, rfl, rfl, rfl, rfl, rfl⟩
        · split at h <;> cases h <;> exact ⟨rfl, rfl, rfl, rfl, rfl, rfl, rfl, rfl, rfl⟩
  all_goals cases h; exact ⟨rfl, rfl, rfl, rfl, rfl, rfl, rfl, rfl, rfl⟩

/-- The event belongs to the application thread. -/
def isMain : Event → Bool
  | .call _ => true
  | .main => true
  | .timeout => true
  | _ => false

theorem step_untouched {s s' : State} {e : Event} (h : s.step e = some s') (he : isMain e = false) :
    Untouched s s' := by
  cases e with
  | call c => cases he
  | main => cases he
  | timeout => cases he
  | rx bs =>
    simp only [State.step] at h
    unfold State.rxStep at h
    split at h
    · split at h <;> cases h <;> exact ⟨rfl, rfl, rfl, rfl, rfl, rfl, rfl, rfl, rfl⟩
    · cases h
  | serialError =>
    simp only [State.step] at h
    unfold State.serialErrorStep at h
    split at h <;> cases h
    exact ⟨rfl, rfl, rfl, rfl, rfl, rfl, rfl, rfl, rfl⟩
  | callbackRaises =>
    simp only [State.step] at h
    unfold State.raiseStep at h
    split at h <;> cases h <;> exact ⟨rfl, rfl, rfl, rfl, rfl, rfl, rfl, rfl, rfl⟩
  | reader => exact readerStep_untouched h

/-- Every call that ends adds an outcome. -/
theorem finishExecute_outcomes (s : State) (c : Caller) (l : Option Nat) :
    ∃ o, (s.finishExecute c l).outcomes = s.outcomes ++ [o] := by
  unfold State.finishExecute
  cases c with
  | app => exact ⟨_, rfl⟩
  | connectSkip => exact ⟨_, rfl⟩
  | connect =>
    simp only
    unfold State.finishConnect
    split
    · exact ⟨_, rfl⟩
    · exact ⟨_, rfl⟩
    · split <;> exact ⟨_, rfl⟩

theorem finishExecute_main (s : State) (c : Caller) (l : Option Nat) :
    (s.finishExecute c l).main = .idle := by
  unfold State.finishExecute
  cases c with
  | app => rfl
  | connectSkip => rfl
  | connect =>
    simp only
    unfold State.finishConnect
    split
    · rfl
    · rfl
    · split <;> rfl

theorem finishExecute_rest (s : State) (c : Caller) (l : Option Nat) :
    (s.finishExecute c l).tag = s.tag ∧ (s.finishExecute c l).responses = s.responses ∧
    (s.finishExecute c l).completed = s.completed ∧ (s.finishExecute c l).reader = s.reader := by
  unfold State.finishExecute
  cases c with
  | app => exact ⟨rfl, rfl, rfl, rfl⟩
  | connectSkip => exact ⟨rfl, rfl, rfl, rfl⟩
  | connect =>
    simp only
    unfold State.finishConnect
    split
    · exact ⟨rfl, rfl, rfl, rfl⟩
    · exact ⟨rfl, rfl, rfl, rfl⟩
    · split <;> exact ⟨rfl, rfl, rfl, rfl⟩

/-- A call of `execute_command` is under way. -/
def Running (caller : Caller) (tag : Option Int) (frame : List UInt8) (timeout : Int) (n : Nat)
    (s : State) : Prop :=
  ∃ stage, s.main = .run stage caller tag frame timeout ∧
    (s.responses.length = if stage = .resetList then n else n + 1) ∧ (stage = .wait → timeout ≠ 0)

/-- A step during a call: it goes on, or ends by returning from `execute_command`. -/
theorem running_step {caller : Caller} {tag : Option Int} {frame : List UInt8} {timeout : Int} {n : Nat}
    {s s' : State} {e : Event} (hr : Running caller tag frame timeout n s) (h : s.step e = some s') :
    (Running caller tag frame timeout n s' ∧ s'.outcomes = s.outcomes ∧ s'.uid = s.uid ∧
      s'.firmwareVersion = s.firmwareVersion ∧ s'.connected = s.connected) ∨
    (∃ (s1 : State) (l : Option Nat), s' = s1.finishExecute caller l ∧ s1.responses = s.responses ∧
      s1.outcomes = s.outcomes ∧ s1.tag = s.tag ∧ s1.completed = s.completed ∧
      s1.reader = s.reader ∧ s1.uid = s.uid ∧ s1.firmwareVersion = s.firmwareVersion ∧
      s1.connected = s.connected ∧ s.responses.length = n + 1 ∧
      ((timeout = 0 ∧ l = none ∧ s.main = .run .write caller tag frame timeout) ∨
       (timeout ≠ 0 ∧ s.main = .run .wait caller tag frame timeout ∧ l = if s.completed then some n else none))) := by
  obtain ⟨stage, hm, hl, hw⟩ := hr
  cases he : isMain e with
  | false =>
    have u := step_untouched h he
    exact .inl ⟨⟨stage, by rw [u.main, hm], by rw [u.length, hl], hw⟩, u.outcomes, u.uid, u.firmware,
      u.connected⟩
  | true =>
    cases e with
    | call c => simp only [State.step, hm] at h; simp at h
    | main =>
      simp only [State.step] at h
      unfold State.mainStep at h
      rw [hm] at h
      cases stage with
      | resetList =>
        simp only at h
        cases h
        exact .inl ⟨⟨.resetTag, rfl, by simpa using hl, fun h => by cases h⟩, rfl, rfl, rfl, rfl⟩
      | resetTag => simp only at h; cases h; exact .inl ⟨⟨.resetCompleted, rfl, hl, fun h => by cases h⟩, rfl, rfl, rfl, rfl⟩
      | resetCompleted => simp only at h; cases h; exact .inl ⟨⟨.setTag, rfl, hl, fun h => by cases h⟩, rfl, rfl, rfl, rfl⟩
      | setTag => simp only at h; cases h; exact .inl ⟨⟨.write, rfl, hl, fun h => by cases h⟩, rfl, rfl, rfl, rfl⟩
      | write =>
        simp only at h
        split at h
        · next ht =>
          cases h
          exact .inr ⟨_, _, rfl, rfl, rfl, rfl, rfl, rfl, rfl, rfl, rfl, by simpa using hl,
            .inl ⟨ht, rfl, hm⟩⟩
        · next ht => cases h; exact .inl ⟨⟨.wait, rfl, hl, fun _ => ht⟩, rfl, rfl, rfl, rfl⟩
      | wait =>
        simp only at h
        split at h
        · next hc =>
          cases h
          have hl' : s.responses.length = n + 1 := by simpa using hl
          refine .inr ⟨s, some (s.responses.length - 1), rfl, rfl, rfl, rfl, rfl, rfl, rfl, rfl, rfl, hl',
            .inr ⟨hw rfl, hm, by simp [hc, hl']⟩⟩
        · cases h
    | timeout =>
      simp only [State.step] at h
      unfold State.timeoutStep at h
      rw [hm] at h
      cases stage with
      | wait =>
        simp only at h
        cases h
        have hl' : s.responses.length = n + 1 := by simpa using hl
        exact .inr ⟨s, _, rfl, rfl, rfl, rfl, rfl, rfl, rfl, rfl, rfl, hl',
          .inr ⟨hw rfl, hm, by rw [hl', Nat.add_sub_cancel]⟩⟩
      | _ => cases h
    | rx bs => cases he
    | reader => cases he
    | callbackRaises => cases he
    | serialError => cases he

theorem startCall_outcomes (s : State) (c : Call) :
    ∃ l, (s.startCall c).outcomes = s.outcomes ++ l := by
  have hx : ∀ (s : State) cl cmd t, ∃ l, (s.startExecute cl cmd t).outcomes = s.outcomes ++ l := by
    intro s cl cmd t
    unfold State.startExecute
    simp only
    split
    · exact ⟨_, rfl⟩
    · exact ⟨[], by simp⟩
  cases c with
  | execute cmd t => exact hx _ _ _ _
  | connect ca r =>
    simp only [State.startCall]
    split
    · exact ⟨_, rfl⟩
    · split
      · exact ⟨_, rfl⟩
      · split
        · exact ⟨_, rfl⟩
        · split
          · exact hx { s with connected := true } _ _ _
          · exact hx _ _ _ _
  | clearUnsolicited => exact ⟨_, rfl⟩
  | clearRebooted => exact ⟨_, rfl⟩

theorem step_outcomes {s s' : State} {e : Event} (h : s.step e = some s') :
    ∃ l, s'.outcomes = s.outcomes ++ l := by
  cases he : isMain e with
  | false => exact ⟨[], by rw [(step_untouched h he).outcomes]; simp⟩
  | true =>
    cases e with
    | call c =>
      simp only [State.step] at h
      split at h <;> cases h
      exact startCall_outcomes s c
    | main =>
      simp only [State.step] at h
      unfold State.mainStep at h
      split at h
      · cases h
      · cases h; exact ⟨[], by simp⟩
      · cases h; exact ⟨[], by simp⟩
      · cases h; exact ⟨[], by simp⟩
      · cases h; exact ⟨[], by simp⟩
      · simp only at h
        split at h <;> cases h
        · obtain ⟨o, ho⟩ := finishExecute_outcomes { s with written := s.written ++ _ } _ none
          exact ⟨[o], ho⟩
        · exact ⟨[], by simp⟩
      · split at h <;> cases h
        obtain ⟨o, ho⟩ := finishExecute_outcomes s _ _
        exact ⟨[o], ho⟩
    | timeout =>
      simp only [State.step] at h
      unfold State.timeoutStep at h
      split at h <;> cases h
      obtain ⟨o, ho⟩ := finishExecute_outcomes s _ _
      exact ⟨[o], ho⟩
    | rx bs => cases he
    | reader => cases he
    | callbackRaises => cases he
    | serialError => cases he

theorem run_outcomes {s s' : State} {es : List Event} (h : s.run es = some s') :
    ∃ l, s'.outcomes = s.outcomes ++ l := by
  refine run_induction (P := fun t => ∃ l, t.outcomes = s.outcomes ++ l) h ⟨[], by simp⟩ ?_
  rintro a e b ⟨l, hl⟩ - hst
  obtain ⟨l', hl'⟩ := step_outcomes hst
  exact ⟨l ++ l', by rw [hl', hl, List.append_assoc]⟩

/-- As long as no outcome is added, the call is under way. -/
theorem running_run {caller : Caller} {tag : Option Int} {frame : List UInt8} {timeout : Int} {n : Nat}
    {s s' : State} {es : List Event} (hr : Running caller tag frame timeout n s)
    (h : s.run es = some s') (ho : s'.outcomes = s.outcomes) :
    Running caller tag frame timeout n s' ∧ s'.uid = s.uid ∧ s'.firmwareVersion = s.firmwareVersion ∧
      s'.connected = s.connected := by
  induction es generalizing s with
  | nil => cases h; exact ⟨hr, rfl, rfl, rfl⟩
  | cons e es ih =>
    unfold State.run at h
    cases hst : s.step e with
    | none => rw [hst] at h; cases h
    | some s1 =>
      rw [hst] at h
      rcases running_step hr hst with ⟨h1, h2, h3, h4, h5⟩ | ⟨s2, l, h1, -, h2, -⟩
      · obtain ⟨a, b, c, d⟩ := ih h1 h (by rw [ho, h2])
        exact ⟨a, b.trans h3, c.trans h4, d.trans h5⟩
      · obtain ⟨o, hx⟩ := finishExecute_outcomes s2 caller l
        obtain ⟨l', hy⟩ := run_outcomes h
        rw [h1] at hy
        rw [hx, h2] at hy
        rw [ho] at hy
        have := congrArg List.length hy
        simp at this

theorem startExecute_running {s : State} {caller : Caller} {cmd : Command} {timeout : Int} :
    (∃ e, (s.startExecute caller cmd timeout).outcomes = s.outcomes ++ [.raised e]) ∨
    ((s.startExecute caller cmd timeout).outcomes = s.outcomes ∧
      ∃ frame, Running caller cmd.tagId frame (if s.config.skip then 0 else timeout)
        s.responses.length (s.startExecute caller cmd timeout)) := by
  unfold State.startExecute
  simp only
  split
  · exact .inl ⟨_, rfl⟩
  · exact .inr ⟨rfl, _, _, rfl, by simp, fun h => by cases h⟩

/-! ### Calm interleavings -/

theorem Calm.append {s s1 : State} {es fs : List Event} (h : Calm s (es ++ fs))
    (hr : s.run es = some s1) : Calm s1 fs := by
  induction es generalizing s with
  | nil => cases hr; exact h
  | cons e es ih =>
    unfold State.run at hr
    cases hst : s.step e with
    | none => rw [hst] at hr; cases hr
    | some s2 => rw [hst] at hr; exact ih (h.2 s2 hst) hr

/-- A step of the reading thread that has nothing to do with an ALP message. -/
theorem reader_quiet {s s' : State} (h1 : handingAlp s.reader = false) (h2 : nextAlp s.reader = false)
    (h : s.step .reader = some s') :
    handingAlp s'.reader = false ∧ s'.responses = s.responses ∧ s'.tag = s.tag ∧ s'.completed = s.completed ∧
      s'.main = s.main ∧ s'.config = s.config ∧ s'.received = s.received ∧ s'.outcomes = s.outcomes ∧
      s'.called = s.called ∧ s'.unsolicited = s.unsolicited ∧
      (pending s'.reader = pending s.reader ∨ ∃ x : Int × Msg, 3 < x.1 ∧ pending s.reader = x :: pending s'.reader) := by
  simp only [State.step, State.readerStep] at h
  split at h
  · cases h
  · cases h
  · next hr => cases h; exact ⟨rfl, rfl, rfl, rfl, rfl, rfl, rfl, rfl, rfl, rfl, .inl (by rw [hr]; rfl)⟩
  · next t m q hr =>
    rw [hr] at h2
    have ht : ¬ t ≤ 3 := by simpa [nextAlp] using h2
    split at h
    · next c hc =>
      unfold State.isSync at hc
      split at hc
      · rw [if_neg (fun hx => ht hx.2.2)] at hc; cases hc
      · cases hc
    · cases h
      exact ⟨by simpa [handingAlp] using ht, rfl, rfl, rfl, rfl, rfl, rfl, rfl, rfl, rfl, .inl (by rw [hr]; rfl)⟩
  · next hr => rw [hr] at h1; cases h1
  · next hr => rw [hr] at h1; cases h1
  · next hr => rw [hr] at h1; cases h1
  · next t m q hr =>
    rw [hr] at h1
    have ht : ¬ t ≤ 3 := by simpa [handingAlp] using h1
    rw [if_neg (fun hx => ht hx.2.2)] at h
    have hx : ∃ x : Int × Msg, 3 < x.1 ∧ pending s.reader = x :: q := ⟨(t, m), by simpa using ht, by rw [hr]; rfl⟩
    split at h
    · split at h <;> cases h <;>
        exact ⟨by simpa [handingAlp] using ht, rfl, rfl, rfl, rfl, rfl, rfl, rfl, rfl, rfl, .inl (by rw [hr]; rfl)⟩
    · split at h
      · cases h; exact ⟨rfl, rfl, rfl, rfl, rfl, rfl, rfl, rfl, rfl, rfl, .inr hx⟩
      · cases h; exact ⟨rfl, rfl, rfl, rfl, rfl, rfl, rfl, rfl, rfl, rfl, .inr hx⟩
  · next hr => rw [hr] at h1; cases h1
  · next t m q hr =>
    rw [hr] at h1
    have ht : ¬ t ≤ 3 := by simpa [handingAlp] using h1
    cases h
    exact ⟨rfl, rfl, rfl, rfl, rfl, rfl, rfl, rfl, rfl, rfl, .inr ⟨(t, m), by simpa using ht, by rw [hr]; rfl⟩⟩
  · next t m q hr =>
    rw [hr] at h1
    cases h
    exact ⟨h1, rfl, rfl, rfl, rfl, rfl, rfl, rfl, rfl, rfl, .inl (by rw [hr]; rfl)⟩
  · next t m n q hr =>
    rw [hr] at h1
    have ht : ¬ t ≤ 3 := by simpa [handingAlp] using h1
    cases h
    exact ⟨rfl, rfl, rfl, rfl, rfl, rfl, rfl, rfl, rfl, rfl, .inr ⟨(t, m), by simpa using ht, by rw [hr]; rfl⟩⟩
  · next hr => rw [hr] at h1; cases h1
  · next hr => rw [hr] at h1; cases h1

/-- The current list of responses. -/
def current (s : State) : List Command := content s.responses (s.responses.length - 1)

/-- In a calm interleaving the current list belongs to the current tag. -/
structure Sound (s : State) : Prop where
  nonempty : s.responses ≠ []
  fresh : ∀ st caller tag frame timeout, s.main = .run st caller tag frame timeout →
    st = .resetTag ∨ st = .resetCompleted ∨ st = .setTag →
    current s = [] ∧ handingAlp s.reader = false ∧ (st = .resetTag ∨ s.tag = none) ∧
    (st = .setTag → s.completed = false)
  steady : resetting s.main = false →
    (∀ c ∈ current s, c.tagId = s.tag) ∧
    (s.completed = true → ∃ c ∈ current s, c.executionCompleted = true) ∧
    ((∃ c ∈ current s, c.executionCompleted = true) →
      s.completed = true ∨ ∃ c q, s.reader = .syncDone c q ∧ c.executionCompleted = true) ∧
    match s.reader with
    | .sync _ c _ => c.tagId = s.tag
    | .syncAppend _ c n _ => c.tagId = s.tag ∧ n = s.responses.length - 1
    | .syncDone c _ => c ∈ current s
    | _ => True
  waiting : ∀ st caller tag frame timeout, s.main = .run st caller tag frame timeout →
    st = .write ∨ st = .wait → timeout > 0 → s.tag = tag

theorem current_append (s : State) (m : Main) :
    current { s with responses := s.responses ++ [[]], main := m } = [] := by
  unfold current content
  simp

theorem current_modify {s : State} (h : s.responses ≠ []) (c : Command) (r : Reader) :
    current { s with
      responses := s.responses.modify (s.responses.length - 1) (· ++ [c]), reader := r } =
      current s ++ [c] := by
  unfold current
  simp only [List.length_modify]
  rw [content_modify _ _ _ (length_pred_lt h)]
  simp

theorem init_sound (c : Config) : Sound (init c) := by
  refine ⟨by simp [init], ?_, ?_, ?_⟩
  · intro st caller tag frame timeout h; cases h
  · intro _
    refine ⟨?_, ?_, ?_, trivial⟩
    · intro c hc; simp [current, content, init] at hc
    · intro h; cases h
    · rintro ⟨c, hc, -⟩; simp [current, content, init] at hc
  · intro st caller tag frame timeout h; cases h

/-- A step that only changes the rest of the state. -/
theorem Sound.idle {s s' : State} (hs : Sound s) (hm : resetting s.main = false)
    (h1 : s'.responses = s.responses) (h2 : s'.tag = s.tag) (h3 : s'.completed = s.completed)
    (h4 : s'.reader = s.reader) (h5 : s'.main = .idle) : Sound s' := by
  have hc : current s' = current s := by unfold current; rw [h1]
  obtain ⟨a, b, c, d⟩ := hs
  refine ⟨by rw [h1]; exact a, ?_, ?_, ?_⟩
  · intro st caller tag frame timeout h; rw [h5] at h; cases h
  · intro _; rw [hc, h2, h3, h4, h1]; exact c hm
  · intro st caller tag frame timeout h; rw [h5] at h; cases h

theorem sound_startExecute {s : State} (hs : Sound s) (hm : s.main = .idle) (cl : Caller)
    (cmd : Command) (t : Int) : Sound (s.startExecute cl cmd t) := by
  unfold State.startExecute
  simp only
  have hr : resetting s.main = false := by rw [hm]; rfl
  split
  · exact hs.idle hr rfl rfl rfl rfl rfl
  · refine ⟨hs.nonempty, ?_, ?_, ?_⟩
    · intro st caller tag frame timeout h hst
      simp only [Main.run.injEq] at h
      rw [← h.1] at hst
      rcases hst with h | h | h <;> cases h
    · intro h; cases h
    · intro st caller tag frame timeout h hst
      simp only [Main.run.injEq] at h
      rw [← h.1] at hst
      rcases hst with h | h <;> cases h

theorem sound_step {s s' : State} {e : Event} (hs : Sound s)
    (hc : resetting s.main = true → handingAlp s.reader = false ∧ (e = .reader → nextAlp s.reader = false))
    (h : s.step e = some s') : Sound s' := by
  cases e with
  | call c =>
    simp only [State.step] at h
    split at h
    · next hm =>
      cases h
      have hr : resetting s.main = false := by rw [hm]; rfl
      cases c with
      | execute cmd t => exact sound_startExecute hs hm _ _ _
      | connect ca r =>
        simp only [State.startCall]
        split
        · exact hs.idle hr rfl rfl rfl rfl rfl
        · split
          · exact hs.idle hr rfl rfl rfl rfl rfl
          · split
            · exact hs.idle hr rfl rfl rfl rfl rfl
            · split
              · refine sound_startExecute (s := { s with connected := true }) ?_ hm _ _ _
                exact hs.idle hr rfl rfl rfl rfl hm
              · exact sound_startExecute hs hm _ _ _
      | clearUnsolicited => exact hs.idle hr rfl rfl rfl rfl rfl
      | clearRebooted => exact hs.idle hr rfl rfl rfl rfl rfl
    · cases h
  | main =>
    simp only [State.step] at h
    unfold State.mainStep at h
    obtain ⟨a, b, c, d⟩ := hs
    split at h
    · cases h
    · next hm =>
      cases h
      have hb := (hc (by rw [hm]; rfl)).1
      refine ⟨by simp, ?_, ?_, ?_⟩
      · intro st caller tag frame timeout h hst
        simp only [Main.run.injEq] at h
        obtain ⟨rfl, -⟩ := h
        exact ⟨current_append s _, hb, .inl rfl, fun h => by cases h⟩
      · intro h; cases h
      · intro st caller tag frame timeout h hst
        simp only [Main.run.injEq] at h
        rw [← h.1] at hst
        rcases hst with h | h <;> cases h
    · next hm =>
      cases h
      obtain ⟨b1, b2, b3, b4⟩ := b _ _ _ _ _ hm (by simp)
      refine ⟨a, ?_, ?_, ?_⟩
      · intro st caller tag frame timeout h hst
        simp only [Main.run.injEq] at h
        obtain ⟨rfl, -⟩ := h
        exact ⟨b1, b2, .inr rfl, fun h => by cases h⟩
      · intro h; cases h
      · intro st caller tag frame timeout h hst
        simp only [Main.run.injEq] at h
        rw [← h.1] at hst
        rcases hst with h | h <;> cases h
    · next hm =>
      cases h
      obtain ⟨b1, b2, b3, b4⟩ := b _ _ _ _ _ hm (by simp)
      refine ⟨a, ?_, ?_, ?_⟩
      · intro st caller tag frame timeout h hst
        simp only [Main.run.injEq] at h
        obtain ⟨rfl, -⟩ := h
        refine ⟨b1, b2, .inr ?_, fun _ => rfl⟩
        rcases b3 with h | h
        · cases h
        · exact h
      · intro h; cases h
      · intro st caller tag frame timeout h hst
        simp only [Main.run.injEq] at h
        rw [← h.1] at hst
        rcases hst with h | h <;> cases h
    · next caller tag frame timeout hm =>
      cases h
      obtain ⟨b1, b2, b3, b4⟩ := b _ _ _ _ _ hm (by simp)
      have b4 := b4 rfl
      refine ⟨a, ?_, ?_, ?_⟩
      · intro st caller tag frame timeout h hst
        simp only [Main.run.injEq] at h
        rw [← h.1] at hst
        rcases hst with h | h | h <;> cases h
      · intro _
        have hcur : ∀ t m, current { s with tag := t, main := m } = [] := fun _ _ => b1
        refine ⟨?_, ?_, ?_, ?_⟩
        · intro c hc; rw [hcur] at hc; cases hc
        · intro h; simp only [b4] at h; cases h
        · rintro ⟨c, hc, -⟩; rw [hcur] at hc; cases hc
        · simp only
          cases hr : s.reader <;> rw [hr] at b2 <;> first | trivial | cases b2
      · intro st caller' tag' frame' timeout' h hst ht
        simp only [Main.run.injEq] at h
        obtain ⟨-, -, rfl, -, rfl⟩ := h
        simp only [if_pos ht]
    · next caller tag frame timeout hm =>
      simp only at h
      have hr : resetting s.main = false := by rw [hm]; rfl
      split at h <;> cases h
      · obtain ⟨f1, f2, f3, f4⟩ :=
          finishExecute_rest { s with written := s.written ++ frame } caller none
        exact Sound.idle ⟨a, b, c, d⟩ hr f2 f1 f3 f4 (finishExecute_main _ _ _)
      · refine ⟨a, ?_, ?_, ?_⟩
        · intro st caller tag frame timeout h hst
          simp only [Main.run.injEq] at h
          rw [← h.1] at hst
          rcases hst with h | h | h <;> cases h
        · intro _; exact c hr
        · intro st caller' tag' frame' timeout' h hst ht
          simp only [Main.run.injEq] at h
          obtain ⟨-, -, rfl, -, rfl⟩ := h
          exact d _ _ _ _ _ hm (.inl rfl) ht
    · next caller tag frame timeout hm =>
      have hr : resetting s.main = false := by rw [hm]; rfl
      split at h <;> cases h
      obtain ⟨f1, f2, f3, f4⟩ := finishExecute_rest s caller (some (s.responses.length - 1))
      exact Sound.idle ⟨a, b, c, d⟩ hr f2 f1 f3 f4 (finishExecute_main _ _ _)
  | timeout =>
    simp only [State.step] at h
    unfold State.timeoutStep at h
    split at h
    · next caller tag frame timeout hm =>
      have hr : resetting s.main = false := by rw [hm]; rfl
      cases h
      obtain ⟨f1, f2, f3, f4⟩ := finishExecute_rest s caller
        (if s.completed then some (s.responses.length - 1) else none)
      exact hs.idle hr f2 f1 f3 f4 (finishExecute_main _ _ _)
    · cases h
  | rx bs =>
    simp only [State.step] at h
    unfold State.rxStep at h
    obtain ⟨a, b, c, d⟩ := hs
    split at h
    · next hr =>
      have key : ∀ (p : Parser) (r : Reader) (l : List (Int × Msg)), (∃ q, r = .next q ∨ r = .dead q) →
          Sound { s with parser := p, reader := r, received := l } := by
        rintro p r l ⟨q, hq⟩
        refine ⟨a, ?_, ?_, d⟩
        · intro st caller tag frame timeout h hst
          obtain ⟨b1, b2, b3, b4⟩ := b _ _ _ _ _ h hst
          refine ⟨b1, ?_, b3, b4⟩
          rcases hq with rfl | rfl <;> rfl
        · intro hm
          obtain ⟨c1, c2, c3, -⟩ := c hm
          refine ⟨c1, c2, fun h => ?_, ?_⟩
          · rcases c3 h with h | ⟨x, y, h, -⟩
            · exact .inl h
            · rw [hr] at h; cases h
          · rcases hq with rfl | rfl <;> trivial
      split at h <;> cases h
      · exact key _ _ _ ⟨[], .inr rfl⟩
      · exact key _ _ _ ⟨_, .inl rfl⟩
    · cases h
  | serialError =>
    simp only [State.step] at h
    unfold State.serialErrorStep at h
    obtain ⟨a, b, c, d⟩ := hs
    split at h
    · next hr =>
      cases h
      refine ⟨a, ?_, ?_, d⟩
      · intro st caller tag frame timeout h hst
        obtain ⟨b1, b2, b3, b4⟩ := b _ _ _ _ _ h hst
        exact ⟨b1, rfl, b3, b4⟩
      · intro hm
        obtain ⟨c1, c2, c3, -⟩ := c hm
        refine ⟨c1, c2, fun h => ?_, trivial⟩
        rcases c3 h with h | ⟨x, y, h, -⟩
        · exact .inl h
        · rw [hr] at h; cases h
    · cases h
  | callbackRaises =>
    simp only [State.step] at h
    unfold State.raiseStep at h
    obtain ⟨a, b, c, d⟩ := hs
    have key : ∀ (q : List (Int × Msg)) (l l' : List Msg), (∀ c q, s.reader ≠ .syncDone c q) →
        Sound { s with called := l, rebootedCalled := l', reader := .dead q } := by
      intro q l l' hd
      refine ⟨a, ?_, ?_, d⟩
      · intro st caller tag frame timeout h hst
        obtain ⟨b1, b2, b3, b4⟩ := b _ _ _ _ _ h hst
        exact ⟨b1, rfl, b3, b4⟩
      · intro hm
        obtain ⟨c1, c2, c3, -⟩ := c hm
        refine ⟨c1, c2, fun h => ?_, trivial⟩
        rcases c3 h with h | ⟨x, y, h, -⟩
        · exact .inl h
        · exact absurd h (hd x y)
    split at h
    · next hr => cases h; exact key _ _ _ (by rw [hr]; simp)
    · next hr => cases h; exact key _ _ _ (by rw [hr]; simp)
    · cases h
  | reader =>
    by_cases hmr : resetting s.main = true
    · obtain ⟨q1, q2, q3, q4, q5, -⟩ := reader_quiet (hc hmr).1 ((hc hmr).2 rfl) h
      obtain ⟨a, b, c, d⟩ := hs
      refine ⟨by rw [q2]; exact a, ?_, fun hx => ?_, ?_⟩
      · intro st caller tag frame timeout hx hst
        rw [q5] at hx
        obtain ⟨b1, b2, b3, b4⟩ := b _ _ _ _ _ hx hst
        refine ⟨?_, q1, by rw [q3]; exact b3, by rw [q4]; exact b4⟩
        unfold current at b1 ⊢
        rw [q2]; exact b1
      · rw [q5, hmr] at hx; cases hx
      · intro st caller tag frame timeout hx hst
        rw [q5] at hx
        rw [q3]
        exact d _ _ _ _ _ hx hst
    have hm : resetting s.main = false := by simpa using hmr
    simp only [State.step] at h
    unfold State.readerStep at h
    obtain ⟨a, b, c, d⟩ := hs
    obtain ⟨c1, c2, c3, c4⟩ := c hm
    have noreset : ∀ st caller tag frame timeout, s.main = .run st caller tag frame timeout →
        ¬ (st = .resetTag ∨ st = .resetCompleted ∨ st = .setTag) := by
      rintro st caller tag frame timeout h (rfl | rfl | rfl) <;> rw [h] at hm <;> cases hm
    have key : ∀ (r : Reader) (u : List (List Msg)) (v : List (List Msg)) (l l' : List Msg),
        (∀ c q, s.reader ≠ .syncDone c q) →
        (match r with
          | .sync _ c _ => c.tagId = s.tag
          | .syncAppend _ c n _ => c.tagId = s.tag ∧ n = s.responses.length - 1
          | .syncDone c _ => c ∈ current s
          | _ => True) →
        Sound { s with
          reader := r, unsolicited := u, rebooted := v, called := l, rebootedCalled := l' } := by
      intro r u v l l' hd hr
      refine ⟨a, ?_, ?_, d⟩
      · intro st caller tag frame timeout h hst
        exact absurd hst (noreset _ _ _ _ _ h)
      · intro _
        refine ⟨c1, c2, fun h => ?_, hr⟩
        rcases c3 h with h | ⟨x, y, h, -⟩
        · exact .inl h
        · exact absurd h (hd x y)
    split at h
    · cases h
    · cases h
    · next hr => cases h; exact key _ _ _ _ _ (by rw [hr]; simp) trivial
    · next t m q hr =>
      split at h
      · next x hx =>
        cases h
        refine key _ _ _ _ _ (by rw [hr]; simp) ?_
        unfold State.isSync at hx
        split at hx
        · split at hx <;> cases hx
          next hy => exact hy.2.1.symm
        · cases hx
      · cases h; exact key _ _ _ _ _ (by rw [hr]; simp) trivial
    · next t x q hr =>
      cases h
      rw [hr] at c4
      exact key _ _ _ _ _ (by rw [hr]; simp) ⟨c4, rfl⟩
    · next t x n q hr =>
      cases h
      rw [hr] at c4
      obtain ⟨ct, rfl⟩ := c4
      refine ⟨by simpa [List.modify_eq_nil_iff] using a, ?_, ?_, d⟩
      · intro st caller tag frame timeout h hst
        exact absurd hst (noreset _ _ _ _ _ h)
      · intro _
        rw [current_modify a]
        refine ⟨?_, ?_, ?_, by simp⟩
        · intro y hy
          rcases List.mem_append.1 hy with hy | hy
          · exact c1 y hy
          · rw [List.mem_singleton] at hy; rw [hy]; exact ct
        · intro hcomp
          obtain ⟨y, hy, hz⟩ := c2 hcomp
          exact ⟨y, by simp [hy], hz⟩
        · rintro ⟨y, hy, hz⟩
          rcases List.mem_append.1 hy with hy | hy
          · rcases c3 ⟨y, hy, hz⟩ with h | ⟨u, v, h, -⟩
            · exact .inl h
            · rw [hr] at h; cases h
          · rw [List.mem_singleton] at hy; subst hy
            exact .inr ⟨_, _, rfl, hz⟩
    · next x q hr =>
      cases h
      rw [hr] at c4
      refine ⟨a, ?_, ?_, d⟩
      · intro st caller tag frame timeout h hst
        exact absurd hst (noreset _ _ _ _ _ h)
      · intro _
        have c4' : x ∈ current s := c4
        refine ⟨c1, ?_, ?_, trivial⟩
        · intro h
          simp only [Bool.or_eq_true] at h
          rcases h with h | h
          · exact c2 h
          · exact ⟨x, c4', h⟩
        · intro h
          simp only [Bool.or_eq_true]
          rcases c3 h with h | ⟨u, v, h, h'⟩
          · exact .inl (.inl h)
          · rw [hr] at h
            cases h
            exact .inl (.inr h')
    · next hr =>
      split at h
      · cases h; exact key _ _ _ _ _ (by rw [hr]; simp) trivial
      · split at h
        · split at h <;> cases h <;> exact key _ _ _ _ _ (by rw [hr]; simp) trivial
        · split at h
          · cases h; exact key _ _ _ _ _ (by rw [hr]; simp) trivial
          · split at h <;> cases h <;> exact key _ _ _ _ _ (by rw [hr]; simp) trivial
    all_goals next hr => cases h; exact key _ _ _ _ _ (by rw [hr]; simp) trivial

theorem sound_run {s s' : State} {es : List Event} (hs : Sound s) (hc : Calm s es)
    (h : s.run es = some s') : Sound s' := by
  induction es generalizing s with
  | nil => cases h; exact hs
  | cons e es ih =>
    unfold State.run at h
    cases hst : s.step e with
    | none => rw [hst] at h; cases h
    | some s1 =>
      rw [hst] at h
      exact ih (sound_step hs hc.1 hst) (hc.2 s1 hst) h

/-! ### One call in a calm interleaving -/

/-- What the reading thread has decided about the message it is handing over. -/
def Decided (tag : Option Int) (n : Nat) : Reader → Prop
  | .sync t c _ => response tag (t, .command c) = some c
  | .syncAppend t c m _ => response tag (t, .command c) = some c ∧ m = n
  | .other t m _ => response tag (t, m) = none
  | .callback t m _ => response tag (t, m) = none
  | .rebootedCallback t m _ => response tag (t, m) = none
  | .rebooted t m _ => response tag (t, m) = none
  | .rebootedAppend t m _ _ => response tag (t, m) = none
  | .unsolicited t m _ => response tag (t, m) = none
  | .unsolicitedAppend t m _ _ => response tag (t, m) = none
  | _ => True

theorem response_high {tag : Option Int} {x : Int × Msg} (h : ¬ x.1 ≤ 3) : response tag x = none := by
  obtain ⟨t, m⟩ := x
  cases m <;> simp_all [response]

theorem decided_quiet {tag : Option Int} {n : Nat} {r : Reader} (h : handingAlp r = false) :
    Decided tag n r := by
  cases r <;> first | trivial | cases h | exact response_high (by simpa [handingAlp] using h)

/-- `execute_command` with a positive timeout under way since state `s0`. -/
def Progress (s0 : State) (caller : Caller) (tag : Option Int) (frame : List UInt8) (timeout : Int) (s : State) : Prop :=
  s.config.skip = false ∧ Running caller tag frame timeout s0.responses.length s ∧
  ∃ new handed, s.received = s0.received ++ new ∧
    handed ++ pending s.reader = pending s0.reader ++ new ∧
    content s.responses s0.responses.length = handed.filterMap (response tag) ∧
    (resetting s.main = true → ∀ x ∈ handed, ¬ x.1 ≤ 3) ∧
    (resetting s.main = false → s.tag = tag ∧ Decided tag s0.responses.length s.reader)

theorem content_length {α : Type} (l : List (List α)) : content l l.length = [] := by
  simp [content]

theorem isSync_response {s : State} (h : s.config.skip = false) (t : Int) (m : Msg) :
    s.isSync t m = response s.tag (t, m) := by
  cases m with
  | command c =>
    unfold State.isSync response
    simp only [h, Bool.false_eq_true, not_false_eq_true, true_and]
    by_cases h1 : t ≤ 3 <;> by_cases h2 : c.tagId = s.tag <;> simp [h1, h2]
    exact fun h => h2 h.symm
  | bytes _ => rfl
  | rebooted _ => rfl

theorem progress_step {s0 s s' : State} {caller : Caller} {tag : Option Int} {frame : List UInt8} {timeout : Int}
    {e : Event} (ht : timeout > 0) (hp : Progress s0 caller tag frame timeout s)
    (hc : resetting s.main = true → handingAlp s.reader = false ∧ (e = .reader → nextAlp s.reader = false))
    (h : s.step e = some s') (hr' : Running caller tag frame timeout s0.responses.length s') :
    Progress s0 caller tag frame timeout s' := by
  obtain ⟨hk, hr, new, handed, h1, h2, h3, h4, h5⟩ := hp
  cases e with
  | call c =>
    obtain ⟨st, hm, -⟩ := hr
    simp only [State.step, hm] at h; simp at h
  | timeout =>
    simp only [State.step] at h
    unfold State.timeoutStep at h
    split at h
    · cases h
      obtain ⟨st, hm, -⟩ := hr'
      rw [finishExecute_main] at hm
      cases hm
    · cases h
  | main =>
    obtain ⟨st, hm, hl, -⟩ := hr
    simp only [State.step] at h
    unfold State.mainStep at h
    rw [hm] at h
    cases st with
    | resetList =>
      simp only at h; cases h
      exact ⟨hk, hr', new, handed, h1, h2, by rw [content_append_nil]; exact h3,
        fun _ => h4 (by rw [hm]; rfl), fun h => by cases h⟩
    | resetTag =>
      simp only at h; cases h
      exact ⟨hk, hr', new, handed, h1, h2, h3, fun _ => h4 (by rw [hm]; rfl), fun h => by cases h⟩
    | resetCompleted =>
      simp only at h; cases h
      exact ⟨hk, hr', new, handed, h1, h2, h3, fun _ => h4 (by rw [hm]; rfl), fun h => by cases h⟩
    | setTag =>
      simp only at h; cases h
      have hb := (hc (by rw [hm]; rfl)).1
      exact ⟨hk, hr', new, handed, h1, h2, h3, fun h => by (cases h),
        fun _ => ⟨by simp only [if_pos ht], decided_quiet hb⟩⟩
    | write =>
      simp only at h
      rw [if_neg (by omega)] at h
      cases h
      exact ⟨hk, hr', new, handed, h1, h2, h3, fun h => by (cases h), fun _ => h5 (by rw [hm]; rfl)⟩
    | wait =>
      simp only at h
      split at h <;> cases h
      obtain ⟨st, hm, -⟩ := hr'
      rw [finishExecute_main] at hm
      cases hm
  | rx bs =>
    simp only [State.step] at h
    unfold State.rxStep at h
    split at h
    · next hrd =>
      rw [hrd] at h2
      simp only [pending, List.append_nil] at h2
      split at h <;> cases h
      · exact ⟨hk, hr', new, handed, h1, by simpa [pending] using h2, h3, h4,
          fun h => ⟨(h5 h).1, trivial⟩⟩
      · next o _ =>
        refine ⟨hk, hr', new ++ o.cmds, handed, ?_, ?_, h3, h4, fun h => ⟨(h5 h).1, trivial⟩⟩
        · simp only [h1, List.append_assoc]
        · simp only [pending, h2, List.append_assoc]
    · cases h
  | serialError =>
    simp only [State.step] at h
    unfold State.serialErrorStep at h
    split at h
    · next hrd =>
      cases h
      rw [hrd] at h2
      exact ⟨hk, hr', new, handed, h1, h2, h3, h4, fun h => ⟨(h5 h).1, trivial⟩⟩
    · cases h
  | callbackRaises =>
    simp only [State.step] at h
    unfold State.raiseStep at h
    split at h
    · next hrd =>
      cases h
      have hx : resetting s.main = false := by
        cases hx : resetting s.main with
        | false => rfl
        | true =>
          have := (hc hx).1
          rw [hrd] at this; cases this
      rw [hrd] at h2 h5
      obtain ⟨h5, h6⟩ := h5 hx
      refine ⟨hk, hr', new, handed ++ [_], h1, by simpa [pending] using h2, ?_, ?_, ?_⟩
      · rw [h3]
        simp only [List.filterMap_append, List.filterMap_cons, List.filterMap_nil]
        have h6' : response tag _ = none := h6
        rw [h6']; simp
      · intro hy; exact absurd hx (by rw [show resetting s.main = true from hy]; simp)
      · intro _; exact ⟨h5, trivial⟩
    · next t m q hrd =>
      cases h
      have h6 : response tag (t, m) = none ∧ (resetting s.main = true → ¬ t ≤ 3) := by
        cases hx : resetting s.main with
        | false =>
          have := (h5 hx).2
          rw [hrd] at this
          exact ⟨this, fun h => by cases h⟩
        | true =>
          have := (hc hx).1
          rw [hrd] at this
          have ht : ¬ t ≤ 3 := by simpa [handingAlp] using this
          exact ⟨response_high ht, fun _ => ht⟩
      rw [hrd] at h2
      refine ⟨hk, hr', new, handed ++ [(t, m)], h1, by simpa [pending] using h2, ?_, ?_, ?_⟩
      · rw [h3]
        simp only [List.filterMap_append, List.filterMap_cons, List.filterMap_nil, h6.1]
        simp
      · intro hy x hx
        rcases List.mem_append.1 hx with hx | hx
        · exact h4 hy x hx
        · rw [List.mem_singleton.1 hx]; exact h6.2 hy
      · intro hy; exact ⟨(h5 hy).1, trivial⟩
    · cases h
  | reader =>
    by_cases hmr : resetting s.main = true
    · obtain ⟨q1, q2, q3, q4, q5, q6, q7, -, -, -, q8⟩ := reader_quiet (hc hmr).1 ((hc hmr).2 rfl) h
      rcases q8 with q8 | ⟨x, hx, q8⟩
      · exact ⟨by rw [q6]; exact hk, hr', new, handed, by rw [q7]; exact h1, by rw [q8]; exact h2, by rw [q2]; exact h3,
          fun _ => h4 hmr, fun hy => by rw [q5, hmr] at hy; cases hy⟩
      · refine ⟨by rw [q6]; exact hk, hr', new, handed ++ [x], by rw [q7]; exact h1, ?_, ?_, ?_,
          fun hy => by rw [q5, hmr] at hy; cases hy⟩
        · rw [← h2, q8]; simp
        · rw [q2, h3, List.filterMap_append]
          simp [response_high (tag := tag) (x := x) (by omega)]
        · intro _ y hy
          rcases List.mem_append.1 hy with hy | hy
          · exact h4 hmr y hy
          · rw [List.mem_singleton.1 hy]; omega
    have hx : resetting s.main = false := by simpa using hmr
    have hlen : s.responses.length = s0.responses.length + 1 := by
      obtain ⟨st, hm, hl, -⟩ := hr
      rw [hl, if_neg]
      rintro rfl
      rw [hm] at hx; cases hx
    obtain ⟨h5, h6⟩ := h5 hx
    -- nothing handed over
    have stay : ∀ (r : Reader), pending r = pending s.reader → Decided tag s0.responses.length r →
        Running caller tag frame timeout s0.responses.length { s with reader := r } →
        Progress s0 caller tag frame timeout { s with reader := r } := by
      intro r hr1 hr2 hr3
      exact ⟨hk, hr3, new, handed, h1, by simp only [hr1, h2], h3,
        fun hy => absurd hx (by rw [show resetting s.main = true from hy]; simp), fun _ => ⟨h5, hr2⟩⟩
    -- one message handed over, not to the list of responses
    have pass : ∀ (x : Int × Msg) (q : List (Int × Msg)) (u v : List (List Msg)) (l l' : List Msg),
        pending s.reader = x :: q → response tag x = none →
        Running caller tag frame timeout s0.responses.length { s with
          reader := .next q, unsolicited := u, rebooted := v, called := l, rebootedCalled := l' } →
        Progress s0 caller tag frame timeout { s with
          reader := .next q, unsolicited := u, rebooted := v, called := l, rebootedCalled := l' } := by
      intro x q u v l l' hr1 hr2 hr3
      refine ⟨hk, hr3, new, handed ++ [x], h1, ?_, ?_,
        fun hy => absurd hx (by rw [show resetting s.main = true from hy]; simp), fun _ => ⟨h5, trivial⟩⟩
      · rw [hr1] at h2; simpa [pending] using h2
      · simp [h3, List.filterMap_append, hr2]
    simp only [State.step] at h
    unfold State.readerStep at h
    split at h
    · cases h
    · cases h
    · next hrd => cases h; exact stay _ (by rw [hrd]; rfl) trivial hr'
    · next t m q hrd =>
      rw [isSync_response hk] at h
      split at h
      · next c hs =>
        cases h
        rw [h5] at hs
        have hm : m = .command c := by
          cases m with
          | command c' =>
            unfold response at hs
            simp only at hs
            split at hs <;> cases hs
            rfl
          | bytes _ => cases hs
          | rebooted _ => cases hs
        subst hm
        exact stay (.sync t c q) (by rw [hrd]; rfl) hs hr'
      · next hs => cases h; rw [h5] at hs; exact stay (.other t m q) (by rw [hrd]; rfl) hs hr'
    · next t c q hrd =>
      cases h
      rw [hrd] at h6
      exact stay _ (by rw [hrd]; rfl) ⟨h6, by rw [hlen, Nat.add_sub_cancel]⟩ hr'
    · next t c n q hrd =>
      cases h
      rw [hrd] at h6 h2
      obtain ⟨h6, rfl⟩ := h6
      refine ⟨hk, hr', new, handed ++ [(t, .command c)], h1, by simpa [pending] using h2, ?_,
        fun hy => absurd hx (by rw [show resetting s.main = true from hy]; simp), fun _ => ⟨h5, trivial⟩⟩
      rw [content_modify _ _ _ (by omega), h3]
      simp [List.filterMap_append, h6]
    · next c q hrd =>
      cases h
      rw [hrd] at h2
      exact ⟨hk, hr', new, handed, h1, h2, h3,
        fun hy => absurd hx (by rw [show resetting s.main = true from hy]; simp), fun _ => ⟨h5, trivial⟩⟩
    · next t m q hrd =>
      rw [hrd] at h6
      split at h
      · cases h; exact stay _ (by rw [hrd]; rfl) h6 hr'
      · split at h
        · split at h <;> cases h <;> exact stay _ (by rw [hrd]; rfl) h6 hr'
        · split at h
          · cases h; exact pass (t, m) q _ _ _ _ (by rw [hrd]; rfl) h6 hr'
          · split at h <;> cases h
            · exact stay _ (by rw [hrd]; rfl) h6 hr'
            · exact pass (t, m) q _ _ _ _ (by rw [hrd]; rfl) h6 hr'
    · next t m q hrd =>
      cases h; rw [hrd] at h6; exact pass (t, m) q _ _ _ _ (by rw [hrd]; rfl) h6 hr'
    · next t m q hrd =>
      cases h; rw [hrd] at h6; exact pass (t, m) q _ _ _ _ (by rw [hrd]; rfl) h6 hr'
    · next t m q hrd => cases h; rw [hrd] at h6; exact stay _ (by rw [hrd]; rfl) h6 hr'
    · next t m n q hrd =>
      cases h; rw [hrd] at h6; exact pass (t, m) q _ _ _ _ (by rw [hrd]; rfl) h6 hr'
    · next t m q hrd => cases h; rw [hrd] at h6; exact stay _ (by rw [hrd]; rfl) h6 hr'
    · next t m n q hrd =>
      cases h; rw [hrd] at h6; exact pass (t, m) q _ _ _ _ (by rw [hrd]; rfl) h6 hr'

theorem progress_run {s0 s s' : State} {caller : Caller} {tag : Option Int} {frame : List UInt8} {timeout : Int}
    {es : List Event} (ht : timeout > 0) (hp : Progress s0 caller tag frame timeout s) (hc : Calm s es)
    (h : s.run es = some s') (ho : s'.outcomes = s.outcomes) : Progress s0 caller tag frame timeout s' := by
  induction es generalizing s with
  | nil => cases h; exact hp
  | cons e es ih =>
    unfold State.run at h
    cases hst : s.step e with
    | none => rw [hst] at h; cases h
    | some s1 =>
      rw [hst] at h
      obtain ⟨l1, hl1⟩ := step_outcomes hst
      obtain ⟨l2, hl2⟩ := run_outcomes h
      have hl : s1.outcomes = s.outcomes := by
        rw [hl2, hl1, List.append_assoc] at ho
        have := List.append_right_eq_self.1 ho
        rw [hl1, (List.append_eq_nil_iff.1 this).1, List.append_nil]
      have hr : Running caller tag frame timeout s0.responses.length s1 :=
        (running_run (es := [e]) hp.2.1 (by simp [State.run, hst]) hl).1
      exact ih (progress_step ht hp hc.1 hst hr) (hc.2 s1 hst) h (by rw [ho, hl])

theorem running_no_call {caller : Caller} {tag : Option Int} {frame : List UInt8} {timeout : Int}
    {n : Nat} {s s' : State} {es : List Event} (hr : Running caller tag frame timeout n s)
    (h : s.run es = some s') (ho : s'.outcomes = s.outcomes) : ∀ e ∈ es, ∀ c, e ≠ .call c := by
  induction es generalizing s with
  | nil => simp
  | cons e es ih =>
    unfold State.run at h
    cases hst : s.step e with
    | none => rw [hst] at h; cases h
    | some s1 =>
      rw [hst] at h
      obtain ⟨l1, hl1⟩ := step_outcomes hst
      obtain ⟨l2, hl2⟩ := run_outcomes h
      have hl : s1.outcomes = s.outcomes := by
        rw [hl2, hl1, List.append_assoc] at ho
        have := List.append_right_eq_self.1 ho
        rw [hl1, (List.append_eq_nil_iff.1 this).1, List.append_nil]
      have hr1 : Running caller tag frame timeout n s1 :=
        (running_run (es := [e]) hr (by simp [State.run, hst]) hl).1
      intro x hx c
      rcases List.mem_cons.1 hx with rfl | hx
      · rintro rfl
        obtain ⟨st, hm, -⟩ := hr
        simp only [State.step, hm] at hst; simp at hst
      · exact ih hr1 h (by rw [ho, hl]) x hx c

/-- The end of a call in a calm interleaving. -/
theorem calm_end {s s1 s' : State} {caller : Caller} {tag : Option Int} {frame : List UInt8}
    {timeout : Int} {e : Event} (ht : timeout > 0) (hs : Sound s1)
    (hp : Progress s caller tag frame timeout s1) (h : s1.step e = some s')
    (ho : s'.outcomes ≠ s1.outcomes) :
    ∃ new handed, s1.received = s.received ++ new ∧
      handed ++ pending s1.reader = pending s.reader ++ new ∧
      content s1.responses s.responses.length = handed.filterMap (response tag) ∧
      s.responses.length < s1.responses.length ∧
      ∃ (s2 : State) (l : Option Nat), s' = s2.finishExecute caller l ∧ s2.outcomes = s1.outcomes ∧
        s2.responses = s1.responses ∧ s2.uid = s1.uid ∧ s2.firmwareVersion = s1.firmwareVersion ∧
        s2.connected = s1.connected ∧
        ((l = some s.responses.length ∧
            ∃ c ∈ handed.filterMap (response tag), c.executionCompleted = true) ∨
          (l = none ∧ (betweenMessages s1.reader = true →
            ∀ c ∈ handed.filterMap (response tag), c.executionCompleted = false))) := by
  obtain ⟨hk, hr, new, handed, h1, h2, h3, h4, h5⟩ := hp
  rcases running_step hr h with ⟨-, h6, -⟩ | ⟨s2, l, a1, a2, a3, a4, a5, a6, a7, a8, a9, a10, a11⟩
  · exact absurd h6 ho
  · refine ⟨new, handed, h1, h2, h3, by omega, s2, l, a1, a3, a2, a7, a8, a9, ?_⟩
    rcases a11 with ⟨h0, -⟩ | ⟨-, hm, hl⟩
    · omega
    · obtain ⟨b1, b2, b3, -⟩ := hs.steady (by rw [hm]; rfl)
      have hcur : current s1 = handed.filterMap (response tag) := by
        rw [← h3]; unfold current; rw [a10, Nat.add_sub_cancel]
      rw [hcur] at b1 b2 b3
      cases hc : s1.completed with
      | true => exact .inl ⟨by simp [hl, hc], b2 hc⟩
      | false =>
        refine .inr ⟨by simp [hl, hc], fun hb c hcm => ?_⟩
        cases hx : c.executionCompleted with
        | false => rfl
        | true =>
          rcases b3 ⟨c, hcm, hx⟩ with h | ⟨u, v, h, -⟩
          · rw [hc] at h; cases h
          · rw [h] at hb; cases hb

/-- The start of a call with a positive timeout. -/
theorem progress_start {s : State} {caller : Caller} {cmd : Command} {timeout : Int}
    (hk : s.config.skip = false)
    (ho : (s.startExecute caller cmd timeout).outcomes = s.outcomes) :
    ∃ frame, Progress s caller cmd.tagId frame timeout (s.startExecute caller cmd timeout) := by
  unfold State.startExecute at ho ⊢
  simp only [hk, Bool.false_eq_true, if_false] at ho ⊢
  split at ho
  · next e =>
    have := congrArg List.length ho
    simp [State.finish] at this
  · next p frame e =>
    refine ⟨frame, hk, ⟨.resetList, rfl, by simp, fun h => by cases h⟩, [], [], by simp, by simp, ?_, fun _ => by simp,
      fun h => by cases h⟩
    simp [content_length]

theorem sound_start {s : State} {caller : Caller} {cmd : Command} {timeout : Int}
    (hne : s.responses ≠ []) (ho : (s.startExecute caller cmd timeout).outcomes = s.outcomes) :
    Sound (s.startExecute caller cmd timeout) := by
  unfold State.startExecute at ho ⊢
  simp only at ho ⊢
  split at ho
  · have := congrArg List.length ho
    simp [State.finish] at this
  · refine ⟨hne, ?_, ?_, ?_⟩
    · intro st caller tag frame timeout h hst
      simp only [Main.run.injEq] at h
      rw [← h.1] at hst
      rcases hst with h | h | h <;> cases h
    · intro h; cases h
    · intro st caller tag frame timeout h hst
      simp only [Main.run.injEq] at h
      rw [← h.1] at hst
      rcases hst with h | h <;> cases h

theorem Calm.left {s : State} {es fs : List Event} (h : Calm s (es ++ fs)) : Calm s es := by
  induction es generalizing s with
  | nil => trivial
  | cons e es ih => exact ⟨h.1, fun s' hs => ih (h.2 s' hs)⟩

theorem run_outcomes_left {s s1 s2 : State} {es fs : List Event} (h1 : s.run es = some s1)
    (h2 : s1.run fs = some s2) (ho : s2.outcomes = s.outcomes) : s1.outcomes = s.outcomes := by
  obtain ⟨l1, hl1⟩ := run_outcomes h1
  obtain ⟨l2, hl2⟩ := run_outcomes h2
  rw [hl2, hl1, List.append_assoc] at ho
  have := List.append_right_eq_self.1 ho
  rw [hl1, (List.append_eq_nil_iff.1 this).1, List.append_nil]

/-- A whole call in a calm interleaving. -/
theorem calm_call {s s1 s' : State} {caller : Caller} {cmd : Command} {timeout : Int}
    {during : List Event} {last : Event} (ht : timeout > 0) (hne : s.responses ≠ [])
    (hk : s.config.skip = false) (h1 : (s.startExecute caller cmd timeout).run during = some s1)
    (hst : (s.startExecute caller cmd timeout).outcomes = s.outcomes)
    (hp : s1.outcomes = s.outcomes) (hc : Calm (s.startExecute caller cmd timeout) during)
    (h2 : s1.step last = some s') (ho : s'.outcomes ≠ s1.outcomes) :
    ∃ new handed, s1.received = s.received ++ new ∧
      handed ++ pending s1.reader = pending s.reader ++ new ∧
      content s1.responses s.responses.length = handed.filterMap (response cmd.tagId) ∧
      s.responses.length < s1.responses.length ∧
      ∃ (s2 : State) (l : Option Nat), s' = s2.finishExecute caller l ∧ s2.outcomes = s1.outcomes ∧
        s2.responses = s1.responses ∧ s2.uid = s.uid ∧ s2.firmwareVersion = s.firmwareVersion ∧
        s2.connected = s.connected ∧
        ((l = some s.responses.length ∧
            ∃ c ∈ handed.filterMap (response cmd.tagId), c.executionCompleted = true) ∨
          (l = none ∧ (betweenMessages s1.reader = true →
            ∀ c ∈ handed.filterMap (response cmd.tagId), c.executionCompleted = false))) := by
  obtain ⟨frame, hpr⟩ := progress_start (caller := caller) (cmd := cmd) (timeout := timeout) hk hst
  have hp' : s1.outcomes = (s.startExecute caller cmd timeout).outcomes := by rw [hp, hst]
  have hpr1 := progress_run ht hpr hc h1 hp'
  have hs1 := sound_run (sound_start hne hst) hc h1
  obtain ⟨-, u1, u2, u3⟩ := running_run hpr.2.1 h1 hp'
  have v : (s.startExecute caller cmd timeout).uid = s.uid ∧
      (s.startExecute caller cmd timeout).firmwareVersion = s.firmwareVersion ∧
      (s.startExecute caller cmd timeout).connected = s.connected := by
    unfold State.startExecute
    simp only
    split <;> exact ⟨rfl, rfl, rfl⟩
  obtain ⟨new, handed, a1, a2, a3, a4, s2, l, a5, a6, a7, a8, a9, a10, a11⟩ :=
    calm_end ht hs1 hpr1 h2 ho
  exact ⟨new, handed, a1, a2, a3, a4, s2, l, a5, a6, a7, by rw [a8, u1, v.1], by rw [a9, u2, v.2.1],
    by rw [a10, u3, v.2.2], a11⟩

end Verif.Modem
