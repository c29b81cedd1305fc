import Verif.Spec.QueryRun
import Verif.Props.QueryNodes
import Verif.Props.Pushes
import Verif.Lemmas.Late

/-! Lemmas about the whole program examples/query_nodes.py. -/

namespace Verif.Modem.Query

open Verif Verif.Serial

variable {D : Type}

theorem query_ok (tag : UInt8) : query tag = .ok (asking tag everyone [.read 0x40 0 2]) := C81_command tag

theorem run_cons {g : Gateway D} {s s' : Run D} {e : Event} {es : List Event} (h : s.run g (e :: es) = some s') :
    ∃ s1, s.step g e = some s1 ∧ s1.run g es = some s' := Option.bind_eq_some_iff.1 h

theorem run_append {g : Gateway D} {es fs : List Event} : ∀ {s s' : Run D}, s.run g (es ++ fs) = some s' ↔
    ∃ s1, s.run g es = some s1 ∧ s1.run g fs = some s' := by
  induction es with
  | nil => intro s s'; simp [Run.run]
  | cons e es ih =>
    intro s s'
    simp only [List.cons_append, Run.run]
    cases s.step g e with
    | none => simp
    | some s1 => simpa using ih

theorem run_induction {P : Run D → Prop} {g : Gateway D} {es : List Event} : ∀ {s s' : Run D}, s.run g es = some s' → P s →
    (∀ a e b, P a → e ∈ es → a.step g e = some b → P b) → P s' := by
  induction es with
  | nil => intro s s' h hs _; cases h; exact hs
  | cons e es ih =>
    intro s s' h hs hi
    obtain ⟨s1, h1, h2⟩ := run_cons h
    exact ih h2 (hi s e s1 hs (by simp) h1) fun a e b ha he => hi a e b ha (by simp [he])

/-- The step of modem and device in a step of the program. -/
def late : Event → LateEvent
  | .connect tag => .net (.call (.connect true tag))
  | .ask tag => .net (.call (.execute (asking tag everyone [.read 0x40 0 2]) 0))
  | .other e => e

theorem step_net {g : Gateway D} {s s' : Run D} {e : Event} (h : s.step g e = some s') :
    s.net.stepLate g (late e) = some s'.net := by
  cases e with
  | connect tag =>
    simp only [Run.step] at h
    split at h
    · obtain ⟨n, h1, rfl⟩ := Option.map_eq_some_iff.1 h; exact h1
    · cases h
  | ask tag =>
    simp only [Run.step, query_ok] at h
    split at h
    · obtain ⟨n, h1, rfl⟩ := Option.map_eq_some_iff.1 h; exact h1
    · cases h
  | other e =>
    simp only [Run.step] at h
    split at h
    · cases h
    · obtain ⟨n, h1, rfl⟩ := Option.map_eq_some_iff.1 h; exact h1

theorem run_net {g : Gateway D} {es : List Event} : ∀ {s s' : Run D}, s.run g es = some s' →
    s.net.runLate g (es.map late) = some s'.net := by
  induction es with
  | nil => intro s s' h; cases h; rfl
  | cons e es ih =>
    intro s s' h
    obtain ⟨s1, h1, h2⟩ := run_cons h
    simp only [List.map_cons, Net.runLate, step_net h1, Option.bind_some]
    exact ih h2

theorem late_run {g : Gateway D} {es : List NetEvent} : ∀ {s s' : Net D}, s.runLate g (es.map .net) = some s' →
    s.run g es = some s' := by
  induction es with
  | nil => intro s s' h; exact h
  | cons e es ih =>
    intro s s' h
    simp only [List.map_cons, Net.runLate, Net.stepLate] at h
    obtain ⟨s1, h1, h2⟩ := Option.bind_eq_some_iff.1 h
    simp only [Net.run, h1, Option.bind_some]
    exact ih h2

/-- A step adds at most one message to those the callback was called with. -/
theorem step_called {s s' : State} {e : Modem.Event} (h : s.step e = some s') :
    s'.called = s.called ∨ ((∀ c, e ≠ .call c) ∧ ∃ m, s'.called = s.called ++ [m]) := by
  cases e with
  | call c =>
    simp only [State.step] at h
    split at h <;> cases h
    exact .inl (same_startCall s c).2.2.2.1
  | main => exact .inl (same_mainStep h).2.2.2.1
  | timeout => exact .inl (same_timeoutStep h).2.2.2.1
  | rx bs =>
    simp only [State.step, State.rxStep] at h
    split at h
    · split at h <;> cases h <;> exact .inl rfl
    · cases h
  | reader =>
    simp only [State.step, State.readerStep] at h
    repeat' split at h
    all_goals first | (cases h; done) | (cases h; exact .inl rfl) | (cases h; exact .inr ⟨by simp, _, rfl⟩)
  | callbackRaises =>
    simp only [State.step, State.raiseStep] at h
    split at h <;> cases h
    · exact .inr ⟨by simp, _, rfl⟩
    · exact .inl rfl
  | serialError =>
    simp only [State.step, State.serialErrorStep] at h
    split at h <;> cases h
    exact .inl rfl

theorem late_called {g : Gateway D} {s s' : Net D} {e : LateEvent} (h : s.stepLate g e = some s') :
    s'.modem.called = s.modem.called ∨ (isCall e = false ∧ ∃ m, s'.modem.called = s.modem.called ++ [m]) := by
  cases he : isCall e with
  | false =>
    rcases Lt.late_step h with ⟨ev, h1, -⟩ | ⟨h1, -⟩
    · rcases step_called h1 with h2 | ⟨-, h2⟩
      · exact .inl h2
      · exact .inr ⟨rfl, h2⟩
    · exact .inl (by rw [h1])
  | true =>
    left
    cases e with
    | net e =>
      cases e with
      | call c =>
        obtain ⟨m, h1, rfl⟩ := Option.map_eq_some_iff.1 h
        rcases step_called h1 with h2 | ⟨h2, -⟩
        · exact h2
        · exact absurd rfl (h2 c)
      | _ => cases he
    | _ => cases he

/-- The program has ended if and only if a message at which it ends was given to the callback, and this is the last. -/
def Stops (s : Run D) : Prop :=
  (s.place = .ended ∧ ∃ l m, s.net.modem.called = l ++ [m] ∧ ends m = true ∧ ∀ x ∈ l, ends x = false) ∨
  (s.place ≠ .ended ∧ ∀ x ∈ s.net.modem.called, ends x = false)

theorem stops_step {g : Gateway D} {s s' : Run D} {e : Event} (hs : Stops s) (h : s.step g e = some s') : Stops s' := by
  have hn := late_called (step_net h)
  cases e with
  | connect tag =>
    simp only [Run.step] at h
    split at h
    · next hp =>
      obtain ⟨n, h1, rfl⟩ := Option.map_eq_some_iff.1 h
      rcases hs with ⟨h2, -⟩ | ⟨-, h2⟩
      · rw [hp] at h2; cases h2
      · rcases hn with hn | ⟨hn, -⟩
        · exact .inr ⟨by simp, by rw [hn]; exact h2⟩
        · cases hn
    · cases h
  | ask tag =>
    simp only [Run.step, query_ok] at h
    split at h
    · next hp =>
      obtain ⟨n, h1, rfl⟩ := Option.map_eq_some_iff.1 h
      rcases hs with ⟨h2, -⟩ | ⟨-, h2⟩
      · rw [hp.1] at h2; cases h2
      · rcases hn with hn | ⟨hn, -⟩
        · exact .inr ⟨by simp, by rw [hn]; exact h2⟩
        · cases hn
    · cases h
  | other e =>
    simp only [Run.step] at h
    split at h
    · cases h
    next hp =>
    obtain ⟨n, h1, rfl⟩ := Option.map_eq_some_iff.1 h
    rcases hs with ⟨h2, -⟩ | ⟨h2, h3⟩
    · exact absurd (.inl h2) hp
    · rcases hn with hn | ⟨-, m, hn⟩
      · simp only at hn
        refine .inr ⟨by simpa [hn] using h2, by simpa [hn] using h3⟩
      · simp only at hn
        cases hm : ends m with
        | true => exact .inl ⟨by simp [hn, hm], _, m, hn, hm, h3⟩
        | false =>
          refine .inr ⟨by simpa [hn, hm] using h2, ?_⟩
          intro x hx
          simp only [hn, List.mem_append, List.mem_singleton] at hx
          rcases hx with hx | rfl
          · exact h3 x hx
          · exact hm

theorem stops_run {g : Gateway D} {d : D} {es : List Event} {s : Run D} (h : (start d).run g es = some s) : Stops s :=
  run_induction h (.inr ⟨by simp [start], by simp [start, Net.start, init]⟩) fun _ _ _ ha _ hb => stops_step ha hb

/-- No `connect` is in progress. -/
def Calling (m : State) : Prop := m.main = .idle ∨ ∃ st tag f t, m.main = .run st .app tag f t

theorem calling_step {s s' : State} {e : Modem.Event} (hs : Calling s) (he : ∀ c, e ≠ .call c) (h : s.step e = some s') :
    Calling s' ∧ s'.connected = s.connected := by
  rcases hs with hs | ⟨st, tag, f, t, hs⟩
  · have := (Pu.noCall_main (e := e) (by cases e <;> first | trivial | exact (he _ rfl).elim) h).1 hs
    exact ⟨.inl this.1, this.2⟩
  · have reader : ((∃ bs, e = .rx bs) ∨ e = .reader ∨ e = .callbackRaises ∨ e = .serialError) →
        Calling s' ∧ s'.connected = s.connected := by
      intro hr
      have hq := Pu.readerEvent_same hr h
      exact ⟨.inr ⟨st, tag, f, t, by rw [hq.main]; exact hs⟩, hq.connected⟩
    cases e with
    | call c => exact (he c rfl).elim
    | main =>
      simp only [State.step] at h
      unfold State.mainStep at h
      rw [hs] at h
      cases st <;> simp only at h
      · cases h; exact ⟨.inr ⟨_, _, _, _, rfl⟩, rfl⟩
      · cases h; exact ⟨.inr ⟨_, _, _, _, rfl⟩, rfl⟩
      · cases h; exact ⟨.inr ⟨_, _, _, _, rfl⟩, rfl⟩
      · cases h; exact ⟨.inr ⟨_, _, _, _, rfl⟩, rfl⟩
      · split at h
        · cases h; exact ⟨.inl rfl, rfl⟩
        · cases h; exact ⟨.inr ⟨_, _, _, _, rfl⟩, rfl⟩
      · split at h
        · cases h; exact ⟨.inl rfl, rfl⟩
        · cases h
    | timeout =>
      simp only [State.step] at h
      unfold State.timeoutStep at h
      rw [hs] at h
      cases st <;> simp only at h <;> first | cases h; done | (cases h; exact ⟨.inl rfl, rfl⟩)
    | rx bs => exact reader (.inl ⟨bs, rfl⟩)
    | reader => exact reader (.inr (.inl rfl))
    | callbackRaises => exact reader (.inr (.inr (.inl rfl)))
    | serialError => exact reader (.inr (.inr (.inr rfl)))

/-- The query was asked. -/
def Asked (s : Run D) : Prop := s.place = .waiting ∨ s.place = .ended

theorem asked_step {g : Gateway D} {s s' : Run D} {e : Event} (hs : Asked s) (h : s.step g e = some s') :
    Asked s' ∧ ∃ e', e = .other e' ∧ isCall e' = false := by
  cases e with
  | connect tag =>
    simp only [Run.step] at h
    split at h
    · next hp => rcases hs with hs | hs <;> rw [hp] at hs <;> cases hs
    · cases h
  | ask tag =>
    simp only [Run.step] at h
    split at h
    · next hp => rcases hs with hs | hs <;> rw [hp.1] at hs <;> cases hs
    · cases h
  | other e =>
    simp only [Run.step] at h
    split at h
    · cases h
    next hp =>
    obtain ⟨n, h1, rfl⟩ := Option.map_eq_some_iff.1 h
    refine ⟨?_, e, rfl, by simpa using fun hc => hp (.inr hc)⟩
    unfold Asked
    dsimp only
    split
    · exact .inr rfl
    · exact hs

theorem asked_run {g : Gateway D} {es : List Event} : ∀ {s s' : Run D}, Asked s → s.run g es = some s' →
    Asked s' ∧ ∀ e ∈ es, ∃ e', e = .other e' ∧ isCall e' = false := by
  induction es with
  | nil => intro s s' hs h; cases h; exact ⟨hs, by simp⟩
  | cons e es ih =>
    intro s s' hs h
    obtain ⟨s1, h1, h2⟩ := run_cons h
    obtain ⟨h3, h4⟩ := asked_step hs h1
    obtain ⟨h5, h6⟩ := ih h3 h2
    refine ⟨h5, ?_⟩
    intro x hx
    rcases List.mem_cons.1 hx with rfl | hx
    · exact h4
    · exact h6 x hx

theorem ask_step {g : Gateway D} {s s' : Run D} {tag : UInt8} (h : s.step g (.ask tag) = some s') :
    s.place = .connecting ∧ (s.net.modem.outcomes = [.bool true] ∨ s.net.modem.outcomes = [.bool false]) ∧
      s.net.modem.main = .idle ∧ s'.place = .waiting ∧
      s.net.step g (.call (.execute (asking tag everyone [.read 0x40 0 2]) 0)) = some s'.net := by
  simp only [Run.step, query_ok] at h
  split at h
  · next hp =>
    obtain ⟨n, h1, rfl⟩ := Option.map_eq_some_iff.1 h
    refine ⟨hp.1, hp.2, ?_, rfl, h1⟩
    obtain ⟨m, h2, -⟩ := Option.map_eq_some_iff.1 h1
    simp only [State.step] at h2
    split at h2
    · assumption
    · cases h2
  · cases h

/-- In a program that has not asked yet. -/
theorem before_ask {g : Gateway D} {es : List Event} : ∀ {s s' : Run D}, s.run g es = some s' → ¬ Asked s' →
    ∀ e ∈ es, (∃ tag, e = .connect tag) ∨ ∃ e', e = .other e' ∧ isCall e' = false := by
  induction es with
  | nil => simp
  | cons e es ih =>
    intro s s' h hn x hx
    obtain ⟨s1, h1, h2⟩ := run_cons h
    rcases List.mem_cons.1 hx with rfl | hx
    · cases x with
      | connect tag => exact .inl ⟨tag, rfl⟩
      | ask tag => exact absurd (asked_run (.inl (ask_step h1).2.2.2.1) h2).1 hn
      | other e =>
        refine .inr ⟨e, rfl, ?_⟩
        simp only [Run.step] at h1
        split at h1
        · cases h1
        next hp => simpa using fun hc => hp (.inr hc)
    · exact ih h2 hn x hx

/-- `connect` goes on, or it has returned whether the modem is connected, or it has raised. -/
def Connecting (m : State) : Prop :=
  ((∃ st tag f t, m.main = .run st .connect tag f t) ∧ m.outcomes = [] ∧ m.connected = false) ∨
  (m.main = .idle ∧ (m.outcomes = [.bool m.connected] ∨ ∃ e, m.outcomes = [.raised e]))

theorem connecting_finish {s : State} (ho : s.outcomes = []) (hc : s.connected = false) (l : Option Nat) :
    Connecting (s.finishExecute .connect l) := by
  right
  simp only [State.finishExecute]
  unfold State.finishConnect
  split
  · exact ⟨rfl, .inl (by simp [State.finish, ho, hc])⟩
  · exact ⟨rfl, .inl (by simp [State.finish, ho, hc])⟩
  · split
    · exact ⟨rfl, .inr ⟨_, by simp only [State.finish, ho]; rfl⟩⟩
    · exact ⟨rfl, .inl (by simp [State.finish, ho])⟩

theorem connecting_start {s : State} (hk : s.config.skip = false) (ho : s.outcomes = []) (hc : s.connected = false)
    (r : UInt8) : Connecting (s.startCall (.connect true r)) := by
  simp only [State.startCall, hc, hk]
  split
  · exact absurd ‹_› (by decide)
  · split
    · exact absurd ‹_› (by decide)
    · split
      · exact .inr ⟨rfl, .inr ⟨_, by simp only [State.finish, ho]; rfl⟩⟩
      · unfold State.startExecute
        simp only [hk]
        split
        · exact .inr ⟨rfl, .inr ⟨_, by simp only [State.finish, ho]; rfl⟩⟩
        · exact .inl ⟨⟨_, _, _, _, rfl⟩, ho, hc⟩

theorem connecting_step {s s' : State} {e : Modem.Event} (hs : Connecting s) (he : ∀ c, e ≠ .call c)
    (h : s.step e = some s') : Connecting s' := by
  have reader : ((∃ bs, e = .rx bs) ∨ e = .reader ∨ e = .callbackRaises ∨ e = .serialError) → Connecting s' := by
    intro hr
    have hq := Pu.readerEvent_same hr h
    have ho := (step_untouched h (by rcases hr with ⟨bs, rfl⟩ | rfl | rfl | rfl <;> rfl)).outcomes
    unfold Connecting
    rw [hq.main, hq.connected, ho]
    exact hs
  cases e with
  | call c => exact (he c rfl).elim
  | main =>
    rcases hs with ⟨⟨st, tag, f, t, hm⟩, ho, hc⟩ | ⟨hm, -⟩
    · simp only [State.step] at h
      unfold State.mainStep at h
      rw [hm] at h
      cases st <;> simp only at h
      · cases h; exact .inl ⟨⟨_, _, _, _, rfl⟩, ho, hc⟩
      · cases h; exact .inl ⟨⟨_, _, _, _, rfl⟩, ho, hc⟩
      · cases h; exact .inl ⟨⟨_, _, _, _, rfl⟩, ho, hc⟩
      · cases h; exact .inl ⟨⟨_, _, _, _, rfl⟩, ho, hc⟩
      · split at h
        · cases h; exact connecting_finish (s := { s with main := .run .write .connect tag f t, written := s.written ++ f }) ho hc _
        · cases h; exact .inl ⟨⟨_, _, _, _, rfl⟩, ho, hc⟩
      · split at h
        · cases h; exact connecting_finish ho hc _
        · cases h
    · simp only [State.step, State.mainStep, hm] at h; cases h
  | timeout =>
    rcases hs with ⟨⟨st, tag, f, t, hm⟩, ho, hc⟩ | ⟨hm, -⟩
    · simp only [State.step] at h
      unfold State.timeoutStep at h
      rw [hm] at h
      cases st <;> simp only at h <;> first | cases h; done | (cases h; exact connecting_finish ho hc _)
    · simp only [State.step, State.timeoutStep, hm] at h; cases h
  | rx bs => exact reader (.inl ⟨bs, rfl⟩)
  | reader => exact reader (.inr (.inl rfl))
  | callbackRaises => exact reader (.inr (.inr (.inl rfl)))
  | serialError => exact reader (.inr (.inr (.inr rfl)))

/-- What `connect` has told so far. -/
def Told (s : Run D) : Prop :=
  s.net.modem.config.skip = false ∧
  (s.place = .starting → s.net.modem.main = .idle ∧ s.net.modem.outcomes = [] ∧ s.net.modem.connected = false) ∧
  (s.place = .connecting → Connecting s.net.modem)

theorem late_modem_step {g : Gateway D} {s s' : Net D} {e : LateEvent} (he : isCall e = false)
    (h : s.stepLate g e = some s') : s'.modem = s.modem ∨ ∃ ev, (∀ c, ev ≠ .call c) ∧ s.modem.step ev = some s'.modem := by
  rcases Lt.late_step h with ⟨ev, h1, -, -, h2, -⟩ | ⟨h1, -⟩
  · refine .inr ⟨ev, ?_, h1⟩
    rintro c rfl
    rw [h2 c rfl] at he
    cases he
  · exact .inl h1

theorem step_config {s s' : State} {e : Modem.Event} (h : s.step e = some s') : s'.config = s.config := by
  cases e with
  | call c =>
    simp only [State.step] at h
    split at h <;> cases h
    exact (same_startCall s c).1
  | main => exact (same_mainStep h).1
  | timeout => exact (same_timeoutStep h).1
  | rx bs => exact (Pu.readerEvent_same (.inl ⟨bs, rfl⟩) h).config
  | reader => exact (Pu.readerEvent_same (.inr (.inl rfl)) h).config
  | callbackRaises => exact (Pu.readerEvent_same (.inr (.inr (.inl rfl))) h).config
  | serialError => exact (Pu.readerEvent_same (.inr (.inr (.inr rfl))) h).config

theorem told_step {g : Gateway D} {s s' : Run D} {e : Event} (hs : Told s) (h : s.step g e = some s') : Told s' := by
  obtain ⟨hk, hs1, hs2⟩ := hs
  have hk' : s'.net.modem.config.skip = false := by
    rcases Lt.late_step (step_net h) with ⟨ev, h1, -⟩ | ⟨h1, -⟩
    · rw [step_config h1]; exact hk
    · rw [h1]; exact hk
  refine ⟨hk', ?_⟩
  cases e with
  | connect tag =>
    simp only [Run.step] at h
    split at h
    · next hp =>
      obtain ⟨n, h1, rfl⟩ := Option.map_eq_some_iff.1 h
      obtain ⟨m, h2, rfl⟩ := Option.map_eq_some_iff.1 h1
      refine ⟨by simp, fun _ => ?_⟩
      obtain ⟨h3, h4, h5⟩ := hs1 hp
      simp only [State.step, h3, if_true, Option.some.injEq] at h2
      subst h2
      exact connecting_start hk h4 h5 tag
    · cases h
  | ask tag =>
    have := (ask_step h).2.2.2.1
    exact ⟨fun hp => (by rw [this] at hp; cases hp), fun hp => (by rw [this] at hp; cases hp)⟩
  | other e =>
    simp only [Run.step] at h
    split at h
    · cases h
    next hp =>
    obtain ⟨n, h1, rfl⟩ := Option.map_eq_some_iff.1 h
    have he : isCall e = false := by simpa using fun hc => hp (.inr hc)
    have hst : ∀ p : Place, (if (n.modem.called.drop s.net.modem.called.length).any ends = true then Place.ended else s.place) = p →
        p ≠ .ended → s.place = p := by
      intro p h2 h3
      split at h2
      · exact absurd h2.symm h3
      · exact h2
    refine ⟨fun h2 => ?_, fun h2 => ?_⟩
    · obtain ⟨a1, a2, a3⟩ := hs1 (hst _ h2 (by simp))
      rcases late_modem_step he h1 with h3 | ⟨ev, h3, h4⟩
      · dsimp only; rw [h3]; exact ⟨a1, a2, a3⟩
      · obtain ⟨b1, b2⟩ := calling_step (.inl a1) h3 h4
        have b3 := (Pu.noCall_main (e := ev) (by cases ev <;> first | trivial | exact (h3 _ rfl).elim) h4).1 a1
        refine ⟨b3.1, ?_, b2.trans a3⟩
        cases hm : isMain ev with
        | false => rw [(step_untouched h4 hm).outcomes]; exact a2
        | true =>
          cases ev with
          | call c => exact (h3 c rfl).elim
          | main => simp only [State.step, State.mainStep, a1] at h4; cases h4
          | timeout => simp only [State.step, State.timeoutStep, a1] at h4; cases h4
          | _ => cases hm
    · have a := hs2 (hst _ h2 (by simp))
      rcases late_modem_step he h1 with h3 | ⟨ev, h3, h4⟩
      · dsimp only; rw [h3]; exact a
      · exact connecting_step a h3 h4

theorem told_run {g : Gateway D} {d : D} {es : List Event} {s : Run D} (h : (start d).run g es = some s) : Told s :=
  run_induction h ⟨rfl, fun _ => ⟨rfl, rfl, rfl⟩, fun h => by cases h⟩ fun _ _ _ ha _ hb => told_step ha hb

/-- The step of modem and device, if everything is in time. -/
def netOf : Event → NetEvent
  | .connect tag => .call (.connect true tag)
  | .ask tag => .call (.execute (asking tag everyone [.read 0x40 0 2]) 0)
  | .other (.net e) => e
  | .other _ => .main

theorem late_netOf {e : Event} (h : InTime e) : late e = .net (netOf e) := by
  cases e with
  | other e => cases e <;> first | rfl | exact h.elim
  | _ => rfl

theorem map_netOf {es : List Event} (h : ∀ e ∈ es, InTime e) : es.map late = (es.map netOf).map .net := by
  rw [List.map_map]
  exact List.map_congr_left fun e he => late_netOf (h e he)

theorem inTime_run {g : Gateway D} {es : List Event} {s s' : Run D} (h : s.run g es = some s') (hq : ∀ e ∈ es, InTime e) :
    s.net.run g (es.map netOf) = some s'.net :=
  late_run (by rw [← map_netOf hq]; exact run_net h)

theorem notices_netOf {es : List Event} (h : ∀ e ∈ es, InTime e) : noticeBytes (es.map netOf) = notices es := by
  induction es with
  | nil => rfl
  | cons e es ih =>
    have := ih fun e he => h e (by simp [he])
    cases e with
    | connect tag => simpa [netOf, noticeBytes, notices] using this
    | ask tag => simpa [netOf, noticeBytes, notices] using this
    | other e =>
      cases e with
      | net e => cases e <;> simp [netOf, noticeBytes, notices, this]
      | _ => exact False.elim (h _ List.mem_cons_self)

theorem polite_before {g : Gateway D} {es : List Event} {s s' : Run D} (h : s.run g es = some s') (hn : ¬ Asked s')
    (hq : ∀ e ∈ es, InTime e) : ∀ e ∈ es.map netOf, Polite e := by
  intro e he
  obtain ⟨x, hx, rfl⟩ := List.mem_map.1 he
  rcases before_ask h hn x hx with ⟨tag, rfl⟩ | ⟨e', rfl, hc⟩
  · trivial
  · cases e' with
    | net e => cases e <;> trivial
    | _ => exact (hq _ hx).elim

theorem quiet_after {g : Gateway D} {es : List Event} {s s' : Run D} (hs : Asked s) (h : s.run g es = some s')
    (hq : ∀ e ∈ es, InTime e) : ∀ c, .call c ∉ es.map netOf := by
  intro c hc
  obtain ⟨x, hx, he⟩ := List.mem_map.1 hc
  obtain ⟨e', rfl, hc⟩ := (asked_run hs h).2 x hx
  cases e' with
  | net e => simp only [netOf] at he; subst he; cases hc
  | _ => exact (hq _ hx).elim

theorem calling_run {g : Gateway D} {es : List Event} : ∀ {s s' : Run D}, Asked s → Calling s.net.modem →
    s.run g es = some s' → Calling s'.net.modem ∧ s'.net.modem.connected = s.net.modem.connected := by
  induction es with
  | nil => intro s s' _ hc h; cases h; exact ⟨hc, rfl⟩
  | cons e es ih =>
    intro s s' ha hc h
    obtain ⟨s1, h1, h2⟩ := run_cons h
    obtain ⟨h3, e', rfl, h4⟩ := asked_step ha h1
    have h5 : Calling s1.net.modem ∧ s1.net.modem.connected = s.net.modem.connected := by
      rcases late_modem_step h4 (step_net h1) with h5 | ⟨ev, h5, h6⟩
      · rw [h5]; exact ⟨hc, rfl⟩
      · exact calling_step hc h5 h6
    obtain ⟨h6, h7⟩ := ih h3 h5.1 h2
    exact ⟨h6, h7.trans h5.2⟩

/-- After the question the modem is as connected as before. -/
theorem connected_after {g : Gateway D} {s0 s : Run D} {tag : UInt8} {es : List Event}
    (h : s0.run g (.ask tag :: es) = some s) : s.net.modem.connected = s0.net.modem.connected := by
  obtain ⟨s1, h1, h2⟩ := run_cons h
  obtain ⟨-, -, hm, hp, hn⟩ := ask_step h1
  obtain ⟨m, h3, h4⟩ := Option.map_eq_some_iff.1 hn
  simp only [State.step, hm, if_true, Option.some.injEq, State.startCall] at h3
  have h5 : Calling s1.net.modem ∧ s1.net.modem.connected = s0.net.modem.connected := by
    rw [← h4]
    dsimp only
    rw [← h3]
    unfold State.startExecute
    simp only
    split
    · exact ⟨.inl rfl, rfl⟩
    · exact ⟨.inr ⟨_, _, _, _, rfl⟩, rfl⟩
  exact (calling_run (.inl hp) h5.1 h2).2.trans h5.2

theorem silent {g : Gateway D} {d : D} {es : List Event} {s : Run D} (h : (start d).run g es = some s)
    (hc : s.net.modem.connected = false) : s.net.modem.called = [] := by
  obtain ⟨evs, h1, -⟩ := Lt.late_modem (run_net h)
  exact C88_silent_before h1 hc

theorem payloads_none : ∀ l : List NetEvent, (∀ c, .call c ∉ l) → payloads l = [] := by
  intro l
  induction l with
  | nil => intro; rfl
  | cons e l ih =>
    intro hn
    have := ih fun c hc => hn c (by simp [hc])
    cases e with
    | call c => exact absurd (List.mem_cons_self) (hn c)
    | _ => simpa [payloads] using this

theorem describes_everyone : Describes [1, 0, 0x10, 0x11] everyone :=
  ⟨⟨by decide, by decide, (by intro c h; cases h)⟩, by decide⟩

theorem query_valid : ∀ op ∈ [FileOp.read 0x40 0 2], op.Valid := by
  intro op h
  rw [List.mem_singleton.1 h]
  exact ⟨by decide, by decide⟩

theorem payloads_query (tag : UInt8) {es : List NetEvent} (hn : ∀ c, .call c ∉ es) :
    payloads (.call (.execute (asking tag everyone [.read 0x40 0 2]) 0) :: es) =
      [askingBytes tag [1, 0, 0x10, 0x11] [.read 0x40 0 2]] := by
  have hb : sendable (asking tag everyone [.read 0x40 0 2]) = some (askingBytes tag [1, 0, 0x10, 0x11] [.read 0x40 0 2]) := by
    unfold sendable
    rw [C78_sent tag describes_everyone query_valid]
    exact if_pos (by simp [askingBytes, FileOp.bytes, encode])
  simp only [payloads, hb, payloads_none es hn]
  rfl

theorem background_query (tag : UInt8) {es : List NetEvent} (hn : ∀ c, .call c ∉ es) :
    ∀ e ∈ .call (.execute (asking tag everyone [.read 0x40 0 2]) 0) :: es, Background e := by
  intro e he
  rcases List.mem_cons.1 he with rfl | he
  · exact ⟨rfl, tag.toNat, rfl, rfl, rfl⟩
  · cases e with
    | call c => exact absurd he (hn c)
    | _ => trivial

/-- The run of modem and device in a run of the program in which everything is in time. -/
theorem flow {g : Gateway D} {d : D} {before es : List Event}
    {s0 s : Run D} {tag : UInt8} (hq : ∀ e ∈ before ++ es, InTime e)
    (h0 : (start d).run g before = some s0) (h : s0.run g (.ask tag :: es) = some s) :
    (∀ e ∈ before.map netOf, Polite e) ∧ (Net.start config d).run g (before.map netOf) = some s0.net ∧
      s0.net.modem.main = .idle ∧ (∀ c, .call c ∉ es.map netOf) ∧
      s0.net.run g (.call (.execute (asking tag everyone [.read 0x40 0 2]) 0) :: es.map netOf) = some s.net := by
  obtain ⟨s1, h1, h2⟩ := run_cons h
  obtain ⟨hp, hout, hm, hp1, hn1⟩ := ask_step h1
  have hq1 : ∀ e ∈ before, InTime e := fun e he => hq e (by simp [he])
  have hq2 : ∀ e ∈ es, InTime e := fun e he => hq e (by simp [he])
  have hna : ¬ Asked s0 := by rintro (h | h) <;> rw [hp] at h <;> cases h
  refine ⟨polite_before h0 hna hq1, inTime_run h0 hq1, hm, quiet_after (.inl hp1) h2 hq2, ?_⟩
  simp only [Net.run, hn1, Option.bind_some]
  exact inTime_run h2 hq2

end Verif.Modem.Query
