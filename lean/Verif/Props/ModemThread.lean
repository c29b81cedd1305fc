import Verif.Spec.ModemThread
import Verif.Props.Modem

/-! C71: stopping and restarting the reading thread. -/

namespace Verif.Modem

open Verif Verif.Serial

/-- Inversion of the steps of the modem. -/
private theorem innerStep_inv {s t : Threads} {e : Event} (h : s.innerStep e = some t) :
    s.inner.step e = some t.inner ∧ t.active = s.active ∧ t.ended = s.ended ∧ t.stopping = s.stopping ∧
    ((∃ bs, e = .rx bs) ∨ e = .serialError → s.inRead = true ∧ t.inRead = false) ∧
    (¬ ((∃ bs, e = .rx bs) ∨ e = .serialError) → t.inRead = s.inRead) ∧
    (e = .reader ∨ e = .callbackRaises → s.ended = false) ∧
    (s.stopping = true → (∃ bs, e = .rx bs) ∨ e = .serialError ∨ e = .reader ∨ e = .callbackRaises) := by
  cases e <;> simp only [Threads.innerStep] at h <;> split at h <;>
    first
    | cases h
    | (obtain ⟨i, h1, rfl⟩ := Option.map_eq_some_iff.1 h
       simp_all)

private theorem run_ind {P : Threads → Prop} {s s' : Threads} {es : List ThreadEvent} (h : s.run es = some s')
    (hs : P s) (ih : ∀ s e s', P s → e ∈ es → s.step e = some s' → P s') : P s' := by
  induction es generalizing s with
  | nil => cases h; exact hs
  | cons e es ih' =>
    unfold Threads.run at h
    cases hst : s.step e with
    | none => rw [hst] at h; cases h
    | some s1 =>
      rw [hst] at h
      exact ih' h (ih s e s1 hs (by simp) hst) fun s e' s' a b => ih s e' s' a (by simp [b])

/-- In `dev.read` and after the loop there is nothing to hand over. -/
private def Settled (s : Threads) : Prop :=
  (s.inRead = true → s.inner.reader = .reading ∧ s.ended = false) ∧ (s.ended = true → s.inner.reader = .reading) ∧
  (s.ended = true → s.active = false) ∧ (s.stopping = true → s.active = false ∧ s.inner.main = .idle)

/-- The application's steps leave the reading thread alone. -/
private theorem reader_same {s t : State} {e : Event} (h : s.step e = some t)
    (he : (∃ c, e = .call c) ∨ e = .main ∨ e = .timeout) : t.reader = s.reader := by
  rcases he with ⟨c, rfl⟩ | rfl | rfl
  · simp only [State.step] at h
    split at h <;> cases h
    exact (same_startCall s c).2.1
  · exact (same_mainStep h).2.1
  · exact (same_timeoutStep h).2.1

/-- The reading thread's steps leave the application alone. -/
private theorem main_same {s t : State} {e : Event} (h : s.step e = some t)
    (he : ¬ ((∃ c, e = .call c) ∨ e = .main ∨ e = .timeout)) : t.main = s.main := by
  cases e with
  | call c => exact absurd (.inl ⟨c, rfl⟩) he
  | main => exact absurd (.inr (.inl rfl)) he
  | timeout => exact absurd (.inr (.inr rfl)) he
  | rx bs =>
    simp only [State.step, State.rxStep] at h
    repeat' split at h
    all_goals first | (cases h; done) | (cases h; rfl)
  | reader =>
    simp only [State.step, State.readerStep] at h
    repeat' split at h
    all_goals first | (cases h; done) | (cases h; rfl)
  | callbackRaises =>
    simp only [State.step, State.raiseStep] at h
    split at h <;> cases h <;> rfl
  | serialError =>
    simp only [State.step, State.serialErrorStep] at h
    split at h <;> cases h
    rfl

private theorem reader_reading {s t : State} {e : Event} (h : s.step e = some t) (hr : s.reader = .reading)
    (he : ¬ ((∃ bs, e = .rx bs) ∨ e = .serialError)) : t.reader = .reading := by
  cases e with
  | call c => rw [reader_same h (.inl ⟨c, rfl⟩), hr]
  | main => rw [reader_same h (.inr (.inl rfl)), hr]
  | timeout => rw [reader_same h (.inr (.inr rfl)), hr]
  | rx bs => exact absurd (.inl ⟨bs, rfl⟩) he
  | serialError => exact absurd (.inr rfl) he
  | reader => simp [State.step, State.readerStep, hr] at h
  | callbackRaises => simp [State.step, State.raiseStep, hr] at h

private theorem settled_step {s t : Threads} {e : ThreadEvent} (hs : Settled s) (h : s.step e = some t) : Settled t := by
  obtain ⟨h1, h2, h3, h4⟩ := hs
  cases e with
  | inner e =>
    obtain ⟨g1, g2, g3, g4, g5, g6, g7, g8⟩ := innerStep_inv h
    by_cases hx : (∃ bs, e = .rx bs) ∨ e = .serialError
    · obtain ⟨g9, g10⟩ := g5 hx
      obtain ⟨-, g11⟩ := h1 g9
      refine ⟨fun hi => (by rw [g10] at hi; cases hi), fun he => (by rw [g3, g11] at he; cases he),
        fun he => (by rw [g3, g11] at he; cases he), fun hst => ?_⟩
      rw [g4] at hst
      refine ⟨by rw [g2]; exact (h4 hst).1, ?_⟩
      rw [main_same g1 (by rintro (⟨c, rfl⟩ | rfl | rfl) <;> simp at hx)]
      exact (h4 hst).2
    · refine ⟨fun hi => ?_, fun he => ?_, fun he => ?_, fun hst => ?_⟩
      · rw [g6 hx] at hi
        exact ⟨reader_reading g1 (h1 hi).1 hx, by rw [g3]; exact (h1 hi).2⟩
      · rw [g3] at he
        exact reader_reading g1 (h2 he) hx
      · rw [g3] at he; rw [g2]; exact h3 he
      · rw [g4] at hst
        refine ⟨by rw [g2]; exact (h4 hst).1, ?_⟩
        rw [main_same g1 (by rintro (⟨c, rfl⟩ | rfl | rfl) <;> simpa using g8 hst)]
        exact (h4 hst).2
  | test =>
    simp only [Threads.step] at h
    split at h
    · next hc =>
      split at h <;> cases h
      · next ha => exact ⟨fun _ => ⟨hc.1, hc.2.2⟩, fun he => (by simp [hc.2.2] at he), fun he => (by simp [hc.2.2] at he), h4⟩
      · next ha => exact ⟨fun hi => (by simp [hc.2.1] at hi), fun _ => hc.1, fun _ => (by simpa using ha), h4⟩
    · cases h
  | emptyRead =>
    simp only [Threads.step] at h
    split at h <;> cases h
    exact ⟨fun hi => (by cases hi), h2, h3, h4⟩
  | stop =>
    simp only [Threads.step] at h
    split at h
    · next hc => cases h; exact ⟨h1, h2, fun _ => rfl, fun _ => ⟨rfl, hc.1⟩⟩
    · cases h
  | joined =>
    simp only [Threads.step] at h
    split at h <;> cases h
    exact ⟨h1, h2, h3, fun hst => (by cases hst)⟩
  | start =>
    simp only [Threads.step] at h
    split at h
    · next hc =>
      cases h
      exact ⟨fun hi => (by cases hi), fun he => (by cases he), fun he => (by cases he),
        fun hst => (by simp [hc.2.1] at hst)⟩
    · cases h

private theorem settled {config : Config} {es : List ThreadEvent} {s : Threads}
    (h : (Threads.init config).run es = some s) : Settled s :=
  run_ind h ⟨fun hi => (by cases hi), fun he => (by cases he), fun he => (by cases he), fun hs => (by cases hs)⟩
    fun _ _ _ a _ b => settled_step a b

private theorem run_cons {s t : Threads} {e : ThreadEvent} {es : List ThreadEvent} (h : s.run (e :: es) = some t) :
    ∃ s1, s.step e = some s1 ∧ s1.run es = some t := by
  unfold Threads.run at h
  cases hst : s.step e with
  | none => rw [hst] at h; cases h
  | some s1 => rw [hst] at h; exact ⟨s1, rfl, h⟩

/-- C71: stopping and restarting is invisible: if every restart follows an orderly end of the thread, the modem is
in a state that it also reaches without any stop or start, by the same events. Everything that C44 to C51 say
about its states holds then as well. -/
theorem C71_transparent {config : Config} {es : List ThreadEvent} {s : Threads}
    (h : (Threads.init config).run es = some s) (ho : OrderlyStarts (Threads.init config) es) :
    (Modem.init config).run (modemEvents es) = some s.inner := by
  have key : ∀ (es : List ThreadEvent) (t : Threads), Settled t → OrderlyStarts t es → t.run es = some s →
      t.inner.run (modemEvents es) = some s.inner := by
    intro es
    induction es with
    | nil => intro t _ _ h; cases h; rfl
    | cons e es ih =>
      intro t hs ho h
      obtain ⟨t1, h1, h2⟩ := run_cons h
      have ho' : OrderlyStarts t1 es := fun pre post u he hr =>
        ho (e :: pre) post u (by rw [he]; rfl) (by unfold Threads.run; rw [h1]; exact hr)
      have := ih t1 (settled_step hs h1) ho' h2
      cases e with
      | inner e =>
        have g := (innerStep_inv h1).1
        show (t.inner.step e).bind _ = _
        rw [g]
        exact this
      | test =>
        simp only [Threads.step] at h1
        split at h1
        · split at h1 <;> cases h1 <;> exact this
        · cases h1
      | emptyRead => simp only [Threads.step] at h1; split at h1 <;> cases h1; exact this
      | stop => simp only [Threads.step] at h1; split at h1 <;> cases h1; exact this
      | joined => simp only [Threads.step] at h1; split at h1 <;> cases h1; exact this
      | start =>
        have he : t.ended = true := ho [] es t rfl rfl
        simp only [Threads.step] at h1
        split at h1
        · cases h1
          have hr := hs.2.1 he
          have : ({ t.inner with reader := .reading } : State) = t.inner := by rw [← hr]
          simp only [this] at *
          assumption
        · cases h1
  exact key es _ (settled (es := []) rfl) ho h

/-- A message before the stop and one after the restart. -/
example :
    let es : List ThreadEvent := [.test, .inner (.rx final9)] ++ List.replicate 5 (.inner .reader) ++
      [.stop, .test, .joined, .start, .test, .inner (.rx final7)]
    ((Threads.init plain).run es).map (fun s => s.inner.received.length) = some 2 ∧
    ((Modem.init plain).run (modemEvents es)).map (fun s => s.received.length) = some 2 := by decide +kernel

/-- C71: after an orderly end nothing that was received is waiting. -/
theorem C71_delivered {config : Config} {es : List ThreadEvent} {s : Threads}
    (h : (Threads.init config).run es = some s) (he : s.ended = true) : pending s.inner.reader = [] := by
  rw [(settled h).2.1 he]; rfl

example : ((Threads.init plain).run ([.test, .stop, .inner (.rx final9)] ++ List.replicate 5 (.inner .reader) ++
    [.test])).map (fun s => (s.ended, s.inner.received.length)) = some (true, 1) := by decide +kernel

/-- C71: once the thread is over, and so after `stop_reading` has returned, nothing is received or handed over
until `start_reading` is called. -/
theorem C71_silent {config : Config} {es es' : List ThreadEvent} {s s' : Threads}
    (h : (Threads.init config).run es = some s) (ho : s.over = true) (h' : s.run es' = some s')
    (hn : ThreadEvent.start ∉ es') :
    s'.over = true ∧ s'.inner.received = s.inner.received ∧ s'.inner.called = s.inner.called ∧
    s'.inner.rebootedCalled = s.inner.rebootedCalled ∧
    (∀ n, content s'.inner.responses n = content s.inner.responses n) ∧
    (∀ n, content s'.inner.unsolicited n = content s.inner.unsolicited n) ∧
    ∀ n, content s'.inner.rebooted n = content s.inner.rebooted n := by
  suffices (Settled s' ∧ s'.over = true) ∧ s'.inner.received = s.inner.received ∧ s'.inner.called = s.inner.called ∧
      s'.inner.rebootedCalled = s.inner.rebootedCalled ∧
      (∀ n, content s'.inner.responses n = content s.inner.responses n) ∧
      (∀ n, content s'.inner.unsolicited n = content s.inner.unsolicited n) ∧
      ∀ n, content s'.inner.rebooted n = content s.inner.rebooted n from ⟨this.1.2, this.2⟩
  refine run_ind (P := fun s' => (Settled s' ∧ s'.over = true) ∧ s'.inner.received = s.inner.received ∧
      s'.inner.called = s.inner.called ∧ s'.inner.rebootedCalled = s.inner.rebootedCalled ∧
      (∀ n, content s'.inner.responses n = content s.inner.responses n) ∧
      (∀ n, content s'.inner.unsolicited n = content s.inner.unsolicited n) ∧
      ∀ n, content s'.inner.rebooted n = content s.inner.rebooted n) h'
    ⟨⟨settled h, ho⟩, rfl, rfl, rfl, fun _ => rfl, fun _ => rfl, fun _ => rfl⟩ ?_
  rintro a e b ⟨⟨hs, ho⟩, h2, h3, h4, h5, h6, h7⟩ hmem hst
  have hsb := settled_step hs hst
  cases e with
  | start => exact absurd hmem hn
  | test =>
    simp only [Threads.step] at hst
    split at hst
    · next hc => simp [Threads.over, hc.1, hc.2.2] at ho
    · cases hst
  | emptyRead => simp only [Threads.step] at hst; split at hst <;> cases hst; exact ⟨⟨hsb, ho⟩, h2, h3, h4, h5, h6, h7⟩
  | stop => simp only [Threads.step] at hst; split at hst <;> cases hst; exact ⟨⟨hsb, ho⟩, h2, h3, h4, h5, h6, h7⟩
  | joined => simp only [Threads.step] at hst; split at hst <;> cases hst; exact ⟨⟨hsb, ho⟩, h2, h3, h4, h5, h6, h7⟩
  | inner e =>
    obtain ⟨g1, g2, g3, g4, g5, g6, g7, g8⟩ := innerStep_inv hst
    have hro : a.ended = true ∨ ∃ q, a.inner.reader = .dead q := by
      unfold Threads.over at ho
      cases he : a.ended with
      | true => exact .inl rfl
      | false =>
        right
        rw [he] at ho
        cases hr : a.inner.reader <;> rw [hr] at ho <;> first | exact ⟨_, rfl⟩ | cases ho
    have happ : (∃ c, e = .call c) ∨ e = .main ∨ e = .timeout := by
      rcases hro with he | ⟨q, hq⟩
      · cases e with
        | call c => exact .inl ⟨c, rfl⟩
        | main => exact .inr (.inl rfl)
        | timeout => exact .inr (.inr rfl)
        | rx bs => have := (hs.1 (g5 (.inl ⟨bs, rfl⟩)).1).2; rw [he] at this; cases this
        | serialError => have := (hs.1 (g5 (.inr rfl)).1).2; rw [he] at this; cases this
        | reader => have := g7 (.inl rfl); rw [he] at this; cases this
        | callbackRaises => have := g7 (.inr rfl); rw [he] at this; cases this
      · cases e with
        | call c => exact .inl ⟨c, rfl⟩
        | main => exact .inr (.inl rfl)
        | timeout => exact .inr (.inr rfl)
        | rx bs => simp [State.step, State.rxStep, hq] at g1
        | reader => simp [State.step, State.readerStep, hq] at g1
        | callbackRaises => simp [State.step, State.raiseStep, hq] at g1
        | serialError => simp [State.step, State.serialErrorStep, hq] at g1
    have hsame : Same a.inner b.inner := by
      rcases happ with ⟨c, rfl⟩ | rfl | rfl
      · simp only [State.step] at g1
        split at g1
        · rw [← Option.some.inj g1]; exact same_startCall _ c
        · cases g1
      · exact same_mainStep g1
      · exact same_timeoutStep g1
    have hh := hsame.handedOver
    obtain ⟨-, k2, k3, -⟩ := hsame
    refine ⟨⟨hsb, ?_⟩, by rw [k3, h2], ?_, ?_, fun n => ?_, fun n => ?_, fun n => ?_⟩
    · unfold Threads.over at ho ⊢
      rw [g3, k2]
      exact ho
    · rw [hh.called, h3]; simp
    · rw [hh.rebootedCalled, h4]; simp
    · rw [← h5 n]
      have := hh.responses n
      simp only [toSink_nil, List.append_nil] at this
      exact (List.map_inj_right (fun x y hxy => by cases hxy; rfl)).1 this
    · rw [hh.unsolicited n, h6 n]; simp
    · rw [hh.rebooted n, h7 n]; simp

example : ((Threads.init plain).run [.stop, .test, .joined]).map (fun s =>
    (s.over, (s.run [.inner (.call (.connect false 0))]).isSome)) = some (true, true) := by decide +kernel

/-- C71: when `stop_reading` returns, the thread is over: from then on nothing is received or handed over until
`start_reading` is called. -/
theorem C71_after_stop {config : Config} {es es' : List ThreadEvent} {s s' : Threads}
    (h : (Threads.init config).run es = some s) (h' : s.run (.joined :: es') = some s')
    (hn : ThreadEvent.start ∉ es') :
    s'.over = true ∧ s'.inner.received = s.inner.received ∧ s'.inner.called = s.inner.called ∧
    s'.inner.rebootedCalled = s.inner.rebootedCalled ∧
    (∀ n, content s'.inner.responses n = content s.inner.responses n) ∧
    (∀ n, content s'.inner.unsolicited n = content s.inner.unsolicited n) ∧
    ∀ n, content s'.inner.rebooted n = content s.inner.rebooted n := by
  obtain ⟨t, h1, -⟩ := run_cons h'
  refine C71_silent h ?_ h' (by simp [hn])
  simp only [Threads.step] at h1
  split at h1
  · next hc => exact hc.2
  · cases h1

example : ((Threads.init plain).run ([.test, .stop, .inner (.rx final9)] ++ List.replicate 5 (.inner .reader) ++
    [.test])).map (fun s => (s.run [.joined, .inner (.call (.execute cmd7 10)), .inner .main]).map (fun s' =>
      (s.inner.received.length, s'.inner.received.length))) = some (some (1, 1)) := by decide +kernel

/-- C71: once `stop_reading` is called, bytes are read at most once more, and only if the thread is in `dev.read`. -/
theorem C71_one_read {s s' : Threads} {es : List ThreadEvent} (ha : s.active = false) (h : s.run es = some s')
    (hn : ThreadEvent.start ∉ es) : readCount es ≤ if s.inRead then 1 else 0 := by
  induction es generalizing s s' with
  | nil => exact Nat.zero_le _
  | cons e es ih =>
    obtain ⟨t, h1, h2⟩ := run_cons h
    have hn' : ThreadEvent.start ∉ es := fun hm => hn (by simp [hm])
    cases e with
    | inner e =>
      obtain ⟨g1, g2, g3, g4, g5, g6, g7, g8⟩ := innerStep_inv h1
      have := ih (by rw [g2]; exact ha) h2 hn'
      by_cases hx : (∃ bs, e = .rx bs) ∨ e = .serialError
      · obtain ⟨g9, g10⟩ := g5 hx
        rw [g10] at this
        rw [g9]
        have hc : readCount (.inner e :: es) ≤ readCount es + 1 := by
          rcases hx with ⟨bs, rfl⟩ | rfl <;> simp [readCount]
        simp at this ⊢
        omega
      · rw [g6 hx] at this
        have hc : readCount (.inner e :: es) = readCount es := by
          cases e <;> first | rfl | (exact absurd (.inl ⟨_, rfl⟩) hx)
        rw [hc]; exact this
    | test =>
      simp only [Threads.step] at h1
      rw [ha] at h1
      split at h1
      · simp only [Bool.false_eq_true, if_false] at h1; cases h1; have := ih (by first | exact ha | rfl) h2 hn'; exact this
      · cases h1
    | emptyRead =>
      simp only [Threads.step] at h1; split at h1 <;> cases h1
      have := ih (by first | exact ha | rfl) h2 hn'
      simp only [Bool.false_eq_true, if_false] at this
      exact Nat.le_trans this (Nat.zero_le _)
    | stop => simp only [Threads.step] at h1; split at h1 <;> cases h1; have := ih (by rfl) h2 hn'; exact this
    | joined => simp only [Threads.step] at h1; split at h1 <;> cases h1; have := ih (by first | exact ha | rfl) h2 hn'; exact this
    | start => exact absurd (List.mem_cons_self ..) hn

/-- The stop comes while the thread is in `dev.read`. -/
example : ((Threads.init plain).run [.test, .stop]).map (fun s => (s.active, s.inRead,
    (s.run [.inner (.rx final9)]).isSome)) = some (false, true, true) ∧
    readCount [.inner (.rx final9)] = 1 := by decide +kernel

/-- The steps the thread has left before it ends, if nothing is read. -/
private def left (s : Threads) : Nat :=
  work s.inner.reader + (if s.inRead then 1 else 0) + (if s.ended then 0 else 1)

/-- C71: `stop_reading` returns: while the application waits there is always a step that needs no further input,
and the number of such steps is limited. -/
theorem C71_stop_returns {config : Config} {es : List ThreadEvent} {s : Threads}
    (h : (Threads.init config).run es = some s) (hs : s.stopping = true) :
    (∃ e t, s.step e = some t ∧ ∀ bs, e ≠ .inner (.rx bs)) ∧
    ∃ n, ∀ es' s', s.run es' = some s' → (∀ bs, ThreadEvent.inner (.rx bs) ∉ es') → ThreadEvent.joined ∉ es' →
      es'.length ≤ n := by
  have hsound := settled h
  constructor
  · by_cases ho : s.over = true
    · exact ⟨.joined, _, by simp [Threads.step, hs, ho]; rfl, fun _ h => (by cases h)⟩
    · have he : s.ended = false := by
        cases h : s.ended with
        | false => rfl
        | true => simp [Threads.over, h] at ho
      have hd : s.inner.reader.isDead = false := by
        cases hr : s.inner.reader <;> first | rfl | (simp [Threads.over, hr] at ho)
      by_cases hr : s.inner.reader = .reading
      · cases hi : s.inRead with
        | true => exact ⟨.emptyRead, _, by simp [Threads.step, hi]; rfl, fun _ h => (by cases h)⟩
        | false =>
          refine ⟨.test, { s with ended := true }, ?_, fun _ h => (by cases h)⟩
          simp [Threads.step, hr, hi, he, (hsound.2.2.2 hs).1]
      · obtain ⟨t, ht, -⟩ := work_step hr hd
        refine ⟨.inner .reader, { s with inner := t }, ?_, fun _ h => (by cases h)⟩
        simp [Threads.step, Threads.innerStep, he, ht]
  · refine ⟨left s, ?_⟩
    intro es'
    clear h
    induction es' generalizing s with
    | nil => intros; exact Nat.zero_le _
    | cons e es' ih =>
      intro s' h' hr hj
      obtain ⟨t, h1, h2⟩ := run_cons h'
      have hst := settled_step hsound h1
      suffices t.stopping = true ∧ left t < left s by
        have := ih this.1 hst s' h2 (fun bs hm => hr bs (by simp [hm])) (fun hm => hj (by simp [hm]))
        simp only [List.length_cons]
        omega
      have ha := (hsound.2.2.2 hs).1
      cases e with
      | joined => exact absurd (List.mem_cons_self ..) hj
      | stop => simp [Threads.step, hs] at h1
      | start => simp [Threads.step, hs] at h1
      | test =>
        simp only [Threads.step, ha] at h1
        split at h1
        · next hc =>
          simp only [Bool.false_eq_true, if_false] at h1
          cases h1
          refine ⟨hs, ?_⟩
          simp [left, hc]
        · cases h1
      | emptyRead =>
        simp only [Threads.step] at h1
        split at h1
        · next hc => cases h1; refine ⟨hs, ?_⟩; simp [left, hc]
        · cases h1
      | inner e =>
        obtain ⟨g1, g2, g3, g4, g5, g6, g7, g8⟩ := innerStep_inv h1
        refine ⟨by rw [g4]; exact hs, ?_⟩
        rcases g8 hs with ⟨bs, rfl⟩ | rfl | rfl | rfl
        · exact absurd (List.mem_cons_self ..) (hr bs)
        · obtain ⟨g9, g10⟩ := g5 (.inr rfl)
          have : t.inner.reader.isDead = true := C55_serial_error g1
          have hw : work t.inner.reader = 0 := by
            cases hr : t.inner.reader <;> rw [hr] at this <;> first | rfl | cases this
          simp only [left, hw, g10, g9, g3]
          simp
        · have h0 := g6 (by simp)
          have hne : s.inner.reader ≠ .reading := fun hc => by simp [State.step, State.readerStep, hc] at g1
          have hnd : s.inner.reader.isDead = false := by
            cases hc : s.inner.reader <;> first | rfl | (simp [State.step, State.readerStep, hc] at g1)
          obtain ⟨u, hu, -, hw⟩ := work_step hne hnd
          rw [g1] at hu
          cases hu
          simp only [left, h0, g3]
          omega
        · have h0 := g6 (by simp)
          simp only [State.step, State.raiseStep] at g1
          split at g1
          · next hc =>
            simp only [Option.some.injEq] at g1
            simp only [left, h0, g3, ← g1, hc, work]
            omega
          · next hc =>
            simp only [Option.some.injEq] at g1
            simp only [left, h0, g3, ← g1, hc, work]
            omega
          · cases g1

/-- The full cycle: a message arrives while the thread is stopping, is still handed over, and after the restart
the next one is. -/
example :
    let es : List ThreadEvent := [.test, .stop, .inner (.rx final9)] ++ List.replicate 5 (.inner .reader) ++
      [.test, .joined, .start, .test, .inner (.rx final7)] ++ List.replicate 5 (.inner .reader)
    (((Threads.init plain).run es).map fun s => (s.inner.unsolicited, s.ended)) =
      some ([[.command cFinal9, .command cFinal7]], false) ∧
    (((Threads.init plain).run (es.take 9)).map fun s => (s.ended, s.stopping, s.over)) = some (true, true, true) := by
  decide +kernel

/-- The restriction of `C71_transparent` is needed: a message behind one for which the callback raises is lost by
the restart. -/
theorem C71_lost : ∃ s, (Threads.init ⟨false, true, false⟩).run ([.inner (.call (.connect false 0)), .test,
      .inner (.rx (final9 ++ final7)), .inner .reader, .inner .reader, .inner .callbackRaises, .stop, .joined,
      .start]) = some s ∧
    s.inner.received.length = 2 ∧ s.inner.called.length = 1 ∧ pending s.inner.reader = [] := by
  obtain ⟨s, h, hs⟩ := Option.map_eq_some_iff.1 (show ((Threads.init ⟨false, true, false⟩).run
    ([.inner (.call (.connect false 0)), .test,
      .inner (.rx (final9 ++ final7)), .inner .reader, .inner .reader, .inner .callbackRaises, .stop, .joined,
      .start])).map (fun s => (s.inner.received.length, s.inner.called.length, pending s.inner.reader)) =
    some (2, 1, []) by decide +kernel)
  simp only [Prod.mk.injEq] at hs
  exact ⟨s, h, hs⟩

end Verif.Modem
