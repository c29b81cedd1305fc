import Verif.Spec.Clock
import Verif.Lemmas.ModemCalls

/-! Lemmas about the modem with time. -/

namespace Verif.Modem.Clk

open Verif Verif.Serial

theorem step_completed {s s' : State} {e : Event} (h : s.step e = some s') (he : isMain e = false)
    (hc : s.completed = true) : s'.completed = true := by
  cases e with
  | call c => cases he
  | main => cases he
  | timeout => cases he
  | rx bs =>
    simp only [State.step] at h
    unfold State.rxStep at h
    split at h
    · split at h <;> cases h <;> exact hc
    · cases h
  | serialError =>
    simp only [State.step] at h
    unfold State.serialErrorStep at h
    split at h <;> cases h
    exact hc
  | callbackRaises =>
    simp only [State.step] at h
    unfold State.raiseStep at h
    split at h <;> cases h <;> exact hc
  | reader =>
    simp only [State.step] at h
    unfold State.readerStep at h
    split at h
    · cases h
    · cases h
    · cases h; exact hc
    · split at h <;> cases h <;> exact hc
    · cases h; exact hc
    · cases h; exact hc
    · cases h; simp [hc]
    · split at h
      · cases h; exact hc
      · split at h
        · split at h <;> cases h <;> exact hc
        · split at h
          · cases h; exact hc
          · split at h <;> cases h <;> exact hc
    all_goals cases h; exact hc

theorem waiting_some {m : State} {timeout : Int} (h : m.waiting = some timeout) :
    ∃ caller tag frame, m.main = .run .wait caller tag frame timeout := by
  unfold State.waiting at h
  split at h
  · cases h; exact ⟨_, _, _, by assumption⟩
  · cases h

/-- A step in the wait loop that does not end it. -/
inductive Move (clock : Int → Int) (timeout : Int) (completed : Bool) (t : Int) : WaitPlace → WaitPlace → Int → Prop
  | start : Move clock timeout completed t .start (.check (clock t)) t
  | seen (b : Int) : completed = true → Move clock timeout completed t (.check b) .final t
  | unseen (b : Int) : completed = false → Move clock timeout completed t (.check b) (.compare b) t
  | again (b : Int) : clock t - b < micros timeout →
      Move clock timeout completed t (.compare b) (.sleep b (t + 50000)) (t + 50000)
  | late (b : Int) : ¬ clock t - b < micros timeout → Move clock timeout completed t (.compare b) .final t
  | woke (b u : Int) : u ≤ t → Move clock timeout completed t (.sleep b u) (.check b) t

theorem wait_cases {clock : Int → Int} {s s' : Timed} {t : Int}
    (h : s.waitStep clock t = some s') : ∃ caller tag frame timeout, s.modem.main = .run .wait caller tag frame timeout ∧
      s'.now = t ∧
      ((s.place = .final ∧ s'.place = .off ∧ s'.modem = s.modem.finishExecute caller
          (if s.modem.completed then some (s.modem.responses.length - 1) else none)) ∨
       (s'.modem = s.modem ∧ Move clock timeout s.modem.completed t s.place s'.place s'.due)) := by
  unfold Timed.waitStep at h
  split at h
  · next hw hp =>
    obtain ⟨c, tag, f, hm⟩ := waiting_some hw
    cases h
    exact ⟨c, tag, f, _, hm, rfl, .inr ⟨rfl, hp ▸ .start⟩⟩
  · next b hw hp =>
    obtain ⟨c, tag, f, hm⟩ := waiting_some hw
    split at h
    · next hc => cases h; exact ⟨c, tag, f, _, hm, rfl, .inr ⟨rfl, hp ▸ .seen b hc⟩⟩
    · next hc => cases h; exact ⟨c, tag, f, _, hm, rfl, .inr ⟨rfl, hp ▸ .unseen b (by simpa using hc)⟩⟩
  · next b hw hp =>
    obtain ⟨c, tag, f, hm⟩ := waiting_some hw
    split at h
    · next hc => cases h; exact ⟨c, tag, f, _, hm, rfl, .inr ⟨rfl, hp ▸ .again b hc⟩⟩
    · next hc => cases h; exact ⟨c, tag, f, _, hm, rfl, .inr ⟨rfl, hp ▸ .late b hc⟩⟩
  · next b u hw hp =>
    obtain ⟨c, tag, f, hm⟩ := waiting_some hw
    split at h
    · cases h
    · next hc => cases h; exact ⟨c, tag, f, _, hm, rfl, .inr ⟨rfl, hp ▸ .woke b u (by omega)⟩⟩
  · next hw hp =>
    obtain ⟨c, tag, f, hm⟩ := waiting_some hw
    simp only [State.timeoutStep, hm, Option.map_some, Option.some.injEq] at h
    cases h
    exact ⟨c, tag, f, _, hm, rfl, .inl ⟨hp, rfl, rfl⟩⟩
  · cases h

theorem step_seen {clock : Int → Int} {s s' : Timed} {t : Int} {e : TimedEvent} (h : s.step clock t e = some s') :
    s.modem.run (s.visible e) = some s'.modem := by
  unfold Timed.step at h
  split at h
  · cases h
  cases e with
  | other e =>
    simp only [Timed.otherStep] at h
    split at h
    · cases h
    · cases hm : s.modem.step e with
      | none => rw [hm] at h; cases h
      | some m =>
        rw [hm] at h
        simp only [Option.map_some, Option.some.injEq] at h
        simp only [Timed.visible, State.run, hm, Option.bind_some]
        split at h <;> cases h <;> rfl
  | wait =>
    simp only [Timed.visible] at h ⊢
    obtain ⟨c, tag, f, timeout, hm, -, ⟨hp, -, hm'⟩ | ⟨hm', hmv⟩⟩ := wait_cases h
    · rw [if_pos hp, hm']
      cases hc : s.modem.completed <;> simp [State.run, State.step, State.timeoutStep, State.mainStep, hm, hc]
    · rw [if_neg (by intro hp; rw [hp] at hmv; cases hmv), hm']
      rfl

theorem step_outcomes {clock : Int → Int} {s s' : Timed} {t : Int} {e : TimedEvent} (h : s.step clock t e = some s') :
    ∃ l, s'.modem.outcomes = s.modem.outcomes ++ l := run_outcomes (step_seen h)

theorem run_seen {clock : Int → Int} {es : List (Int × TimedEvent)} : ∀ {s s' : Timed}, s.run clock es = some s' →
    s.modem.run (s.seen clock es) = some s'.modem := by
  induction es with
  | nil => intro s s' h; cases h; rfl
  | cons x es ih =>
    obtain ⟨t, e⟩ := x
    intro s s' h
    simp only [Timed.run] at h
    cases hs : s.step clock t e with
    | none => rw [hs] at h; cases h
    | some s1 =>
      rw [hs] at h
      simp only [Timed.seen, hs]
      rw [run_append]
      exact ⟨_, step_seen hs, ih h⟩

theorem run_outcomes' {clock : Int → Int} {es : List (Int × TimedEvent)} {s s' : Timed} (h : s.run clock es = some s') :
    ∃ l, s'.modem.outcomes = s.modem.outcomes ++ l := run_outcomes (run_seen h)

theorem run_append' {clock : Int → Int} {es fs : List (Int × TimedEvent)} : ∀ {s : Timed},
    s.run clock (es ++ fs) = (s.run clock es).bind fun s => s.run clock fs := by
  induction es with
  | nil => intro s; rfl
  | cons x es ih =>
    obtain ⟨t, e⟩ := x
    intro s
    simp only [List.cons_append, Timed.run]
    cases s.step clock t e with
    | none => rfl
    | some s1 => exact ih

/-- The wait loop is entered exactly when the application thread waits. -/
def Ok (s : Timed) : Prop := s.place = .off ↔ s.modem.waiting = none

/-- The call waits. -/
structure Waiting (o0 : List Outcome) (caller : Caller) (tag : Option Int) (frame : List UInt8) (timeout : Int) (s : Timed) :
    Prop where
  main : s.modem.main = .run .wait caller tag frame timeout
  outcomes : s.modem.outcomes = o0
  place : s.place ≠ .off

theorem finishExecute_waiting (s : State) (c : Caller) (l : Option Nat) : (s.finishExecute c l).waiting = none := by
  unfold State.waiting
  rw [finishExecute_main]

theorem startExecute_waiting (s : State) (c : Caller) (cmd : Command) (t : Int) (h : s.main = .idle) :
    (s.startExecute c cmd t).waiting = none := by
  unfold State.startExecute
  simp only
  split <;> rfl

theorem startCall_waiting (s : State) (c : Call) (h : s.main = .idle) : (s.startCall c).waiting = none := by
  cases c with
  | execute cmd t => exact startExecute_waiting s _ _ _ h
  | connect ca r =>
    simp only [State.startCall]
    split
    · rfl
    · split
      · rfl
      · split
        · rfl
        · split
          · exact startExecute_waiting { s with connected := true } _ _ _ h
          · exact startExecute_waiting s _ _ _ h
  | clearUnsolicited => rfl
  | clearRebooted => rfl

/-- What a step does while the call waits. -/
theorem waiting_step {clock : Int → Int} {o0 : List Outcome} {caller : Caller} {tag : Option Int} {frame : List UInt8}
    {timeout : Int} {s s' : Timed} {t : Int} {e : TimedEvent} (hw : Waiting o0 caller tag frame timeout s)
    (h : s.step clock t e = some s') : s.now ≤ t ∧ s'.now = t ∧
    ((∃ e0, e = .other e0 ∧ isMain e0 = false ∧ s.modem.step e0 = some s'.modem ∧ s'.place = s.place ∧ s'.due = s.due ∧
        Waiting o0 caller tag frame timeout s') ∨
     (e = .wait ∧ s.place = .final ∧ s'.place = .off ∧ s'.modem = s.modem.finishExecute caller
        (if s.modem.completed then some (s.modem.responses.length - 1) else none)) ∨
     (e = .wait ∧ s'.modem = s.modem ∧ Move clock timeout s.modem.completed t s.place s'.place s'.due ∧
        Waiting o0 caller tag frame timeout s')) := by
  unfold Timed.step at h
  split at h
  · cases h
  next hnow =>
  refine ⟨by omega, ?_⟩
  cases e with
  | other e =>
    simp only [Timed.otherStep] at h
    split at h
    · cases h
    · next hne =>
      cases hm : s.modem.step e with
      | none => rw [hm] at h; cases h
      | some m =>
        rw [hm] at h
        simp only [Option.map_some, Option.some.injEq] at h
        rw [if_neg (fun hh => hw.place hh.1)] at h
        cases h
        have he : isMain e = false := by
          cases e with
          | call c => simp only [State.step, hw.main] at hm; simp at hm
          | main => exact absurd ⟨hw.place, .inl rfl⟩ hne
          | timeout => exact absurd ⟨hw.place, .inr rfl⟩ hne
          | _ => rfl
        have u := step_untouched hm he
        exact ⟨rfl, .inl ⟨e, rfl, he, hm, rfl, rfl, by rw [← hw.main]; exact u.main,
          by rw [← hw.outcomes]; exact u.outcomes, hw.place⟩⟩
  | wait =>
    simp only at h
    obtain ⟨c, tag', f, timeout', hm, h1, ⟨hp, hp', hm'⟩ | ⟨hm', hmv⟩⟩ := wait_cases h
    · rw [hw.main] at hm
      cases hm
      exact ⟨h1, .inr (.inl ⟨rfl, hp, hp', hm'⟩)⟩
    · rw [hw.main] at hm
      cases hm
      refine ⟨h1, .inr (.inr ⟨rfl, hm', hmv, by rw [hm']; exact hw.main, by rw [hm']; exact hw.outcomes, ?_⟩)⟩
      intro hoff
      rw [hoff] at hmv
      generalize s.place = p at hmv
      cases hmv

theorem finished_longer {o0 : List Outcome} {caller : Caller} {tag : Option Int} {frame : List UInt8}
    {timeout : Int} {s s' : Timed} (hw : Waiting o0 caller tag frame timeout s) {l : Option Nat}
    (h : s'.modem = s.modem.finishExecute caller l) : ∃ o, s'.modem.outcomes = o0 ++ [o] := by
  obtain ⟨o, ho⟩ := finishExecute_outcomes s.modem caller l
  exact ⟨o, by rw [h, ho, hw.outcomes]⟩

/-- As long as the call has not ended, it waits, and every step keeps what each step keeps. -/
theorem call_induction {clock : Int → Int} {o0 : List Outcome} {caller : Caller} {tag : Option Int} {frame : List UInt8}
    {timeout : Int} (P : Timed → List (Int × TimedEvent) → Prop) {es : List (Int × TimedEvent)} (rest : List (Int × TimedEvent)) :
    ∀ {s s' : Timed}, Waiting o0 caller tag frame timeout s → P s (es ++ rest) →
    (∀ a t e b fs, Waiting o0 caller tag frame timeout a → P a ((t, e) :: fs) → a.step clock t e = some b →
      Waiting o0 caller tag frame timeout b → P b fs) →
    s.run clock es = some s' → s'.modem.outcomes = o0 → Waiting o0 caller tag frame timeout s' ∧ P s' rest := by
  induction es with
  | nil => intro s s' hw hP _ h _; cases h; exact ⟨hw, hP⟩
  | cons x es ih =>
    obtain ⟨t, e⟩ := x
    intro s s' hw hP hstep h ho
    simp only [Timed.run] at h
    cases hs : s.step clock t e with
    | none => rw [hs] at h; cases h
    | some s1 =>
      rw [hs] at h
      have hw1 : Waiting o0 caller tag frame timeout s1 := by
        obtain ⟨-, -, ⟨e0, -, -, -, -, -, hw1⟩ | ⟨-, -, -, hf⟩ | ⟨-, -, -, hw1⟩⟩ := waiting_step hw hs
        · exact hw1
        · obtain ⟨o, ho1⟩ := finished_longer hw hf
          obtain ⟨l, hl⟩ := run_outcomes' (s := s1) h
          rw [ho, ho1] at hl
          have := congrArg List.length hl
          simp at this
        · exact hw1
      exact ih hw1 (hstep _ _ _ _ _ hw hP hs hw1) hstep h ho

/-- What the place says about the past, for a loop entered at `t0`. -/
def Past (clock : Int → Int) (t0 timeout : Int) (s : Timed) : Prop :=
  match s.place with
  | .off => False
  | .start => t0 ≤ s.now
  | .check b => ∃ u, t0 ≤ u ∧ u ≤ s.now ∧ b = clock u
  | .compare b => ∃ u, t0 ≤ u ∧ u ≤ s.now ∧ b = clock u
  | .sleep b _ => ∃ u, t0 ≤ u ∧ u ≤ s.now ∧ b = clock u
  | .final => s.modem.completed = true ∨ ∃ u v, t0 ≤ u ∧ u ≤ v ∧ v ≤ s.now ∧ micros timeout ≤ clock v - clock u

theorem past_step {clock : Int → Int} {o0 : List Outcome} {caller : Caller} {tag : Option Int} {frame : List UInt8}
    {timeout t0 : Int} {s s' : Timed} {t : Int} {e : TimedEvent} (hw : Waiting o0 caller tag frame timeout s)
    (hp : Past clock t0 timeout s) (h : s.step clock t e = some s') (hw' : Waiting o0 caller tag frame timeout s') :
    Past clock t0 timeout s' := by
  obtain ⟨hn, hn', ⟨e0, -, he, hm, hpl, -, -⟩ | ⟨-, -, hoff, -⟩ | ⟨-, hm, hmv, -⟩⟩ := waiting_step hw h
  · unfold Past at hp ⊢
    rw [hpl, hn']
    cases hc : s.place with
    | off => exact absurd hc hw.place
    | start => simp only [hc] at hp ⊢; omega
    | check b => simp only [hc] at hp ⊢; obtain ⟨u, h1, h2, h3⟩ := hp; exact ⟨u, h1, by omega, h3⟩
    | compare b => simp only [hc] at hp ⊢; obtain ⟨u, h1, h2, h3⟩ := hp; exact ⟨u, h1, by omega, h3⟩
    | sleep b _ => simp only [hc] at hp ⊢; obtain ⟨u, h1, h2, h3⟩ := hp; exact ⟨u, h1, by omega, h3⟩
    | final =>
      simp only [hc] at hp ⊢
      rcases hp with hp | ⟨u, v, h1, h2, h3, h4⟩
      · exact .inl (step_completed hm he hp)
      · exact .inr ⟨u, v, h1, h2, by omega, h4⟩
  · exact absurd hoff hw'.place
  · unfold Past at hp ⊢
    rw [hn', hm]
    generalize hpl : s.place = p at hp hmv
    generalize hpl' : s'.place = p' at hmv ⊢
    generalize s'.due = dd at hmv
    cases hmv with
    | start => exact ⟨t, by simp only at hp; omega, by omega, rfl⟩
    | seen b hc => exact .inl hc
    | unseen b hc => obtain ⟨u, h1, h2, h3⟩ := hp; exact ⟨u, h1, by omega, h3⟩
    | again b hc => obtain ⟨u, h1, h2, h3⟩ := hp; exact ⟨u, h1, by omega, h3⟩
    | late b hc => obtain ⟨u, h1, h2, h3⟩ := hp; exact .inr ⟨u, t, h1, by omega, by omega, by rw [← h3]; omega⟩
    | woke b u hc => obtain ⟨u, h1, h2, h3⟩ := hp; exact ⟨u, h1, by omega, h3⟩

theorem ok_step {clock : Int → Int} {s s' : Timed} {t : Int} {e : TimedEvent} (hok : Ok s)
    (h : s.step clock t e = some s') : Ok s' := by
  by_cases hoff : s.place = .off
  · have hn := hok.1 hoff
    unfold Timed.step at h
    split at h
    · cases h
    cases e with
    | other e =>
      simp only [Timed.otherStep] at h
      split at h
      · cases h
      · cases hm : s.modem.step e with
        | none => rw [hm] at h; cases h
        | some m =>
          rw [hm] at h
          simp only [Option.map_some, Option.some.injEq] at h
          split at h
          · next hh =>
            cases h
            refine ⟨fun hx => ?_, fun hx => ?_⟩
            · cases hx
            · simp only at hx
              rw [hx] at hh
              simp at hh
          · next hh =>
            cases h
            refine ⟨fun _ => ?_, fun _ => hoff⟩
            simp only
            cases hx : m.waiting with
            | none => rfl
            | some t => exact absurd ⟨hoff, by rw [hx]; rfl⟩ hh
    | wait =>
      obtain ⟨c, tag, f, timeout, hm, -⟩ := wait_cases h
      simp [State.waiting, hm] at hn
  · cases hx : s.modem.waiting with
    | none => exact absurd (hok.2 hx) hoff
    | some timeout =>
      obtain ⟨c, tag, f, hm⟩ := waiting_some hx
      obtain ⟨-, -, ⟨e0, -, -, -, -, -, hw⟩ | ⟨-, -, hp', hf⟩ | ⟨-, -, -, hw⟩⟩ :=
        waiting_step (o0 := s.modem.outcomes) ⟨hm, rfl, hoff⟩ h
      · exact ⟨fun h => absurd h hw.place, fun h => by simp [State.waiting, hw.main] at h⟩
      · exact ⟨fun _ => by rw [hf]; exact finishExecute_waiting _ _ _, fun _ => hp'⟩
      · exact ⟨fun h => absurd h hw.place, fun h => by simp [State.waiting, hw.main] at h⟩

theorem ok_run {clock : Int → Int} {es : List (Int × TimedEvent)} : ∀ {s s' : Timed}, Ok s → s.run clock es = some s' →
    Ok s' := by
  induction es with
  | nil => intro s s' hok h; cases h; exact hok
  | cons x es ih =>
    obtain ⟨t, e⟩ := x
    intro s s' hok h
    simp only [Timed.run] at h
    cases hs : s.step clock t e with
    | none => rw [hs] at h; cases h
    | some s1 => rw [hs] at h; exact ih (ok_step hok hs) h

theorem ok_init (config : Config) (n : Int) : Ok (Timed.init config n) := ⟨fun _ => rfl, fun _ => rfl⟩

/-- The write: the loop is entered. -/
theorem entered {clock : Int → Int} {caller : Caller} {tag : Option Int} {frame : List UInt8} {timeout t0 : Int}
    {s s1 : Timed} (hok : Ok s) (hm : s.modem.main = .run .write caller tag frame timeout) (ht : timeout ≠ 0)
    (h : s.step clock t0 (.other .main) = some s1) :
    Waiting s.modem.outcomes caller tag frame timeout s1 ∧ s1.place = .start ∧ s1.now = t0 ∧ s1.due = t0 ∧
      s1.modem.completed = s.modem.completed ∧ s1.modem.responses = s.modem.responses := by
  have hoff : s.place = .off := hok.2 (by unfold State.waiting; rw [hm])
  unfold Timed.step at h
  split at h
  · cases h
  simp only [Timed.otherStep, hoff, ne_eq, not_true_eq_false, false_and, if_false, State.step, State.mainStep, hm, if_neg ht,
    Option.map_some, true_and] at h
  rw [if_pos (by rfl)] at h
  cases h
  exact ⟨⟨rfl, rfl, by simp⟩, rfl, rfl, rfl, rfl, rfl⟩

/-- Rounds of the wait loop while the clock says that there is time left. -/
theorem rounds {clock : Int → Int} {o0 : List Outcome} {caller : Caller} {tag : Option Int} {frame : List UInt8}
    {timeout b t : Int} : ∀ (k : Nat) {s : Timed}, Waiting o0 caller tag frame timeout s → s.modem.completed = false →
    s.place = .check b → s.now = t → s.due = t →
    (∀ v, t ≤ v → v ≤ t + 50000 * k → clock v - b < micros timeout) →
    ∃ es s', s.run clock es = some s' ∧ s.Prompt clock 0 es ∧ Waiting o0 caller tag frame timeout s' ∧
      s'.now = t + 50000 * k := by
  intro k
  induction k generalizing t with
  | zero => intro s hw _ _ hn _ _; exact ⟨[], s, rfl, trivial, hw, by simpa using hn⟩
  | succ k ih =>
    intro s hw hc hp hn hd hv
    have hwt : s.modem.waiting = some timeout := by simp [State.waiting, hw.main]
    have h1 : s.step clock t .wait = some { s with now := t, place := .compare b, due := t } := by
      unfold Timed.step
      rw [if_neg (by omega)]
      simp [Timed.waitStep, hwt, hp, hc]
    have h2 : ({ s with now := t, place := .compare b, due := t } : Timed).step clock t .wait =
        some { s with now := t, place := .sleep b (t + 50000), due := t + 50000 } := by
      unfold Timed.step
      rw [if_neg (by simp)]
      simp only [Timed.waitStep, hwt]
      rw [if_pos (hv t (by omega) (by omega))]
    have h3 : ({ s with now := t, place := .sleep b (t + 50000), due := t + 50000 } : Timed).step clock (t + 50000) .wait =
        some { s with now := t + 50000, place := .check b, due := t + 50000 } := by
      unfold Timed.step
      rw [if_neg (by simp)]
      simp [Timed.waitStep, hwt]
    obtain ⟨es, s', x1, x2, x3, x4⟩ := ih (t := t + 50000)
      (s := { s with now := t + 50000, place := .check b, due := t + 50000 }) ⟨hw.main, hw.outcomes, by simp⟩ hc rfl rfl rfl
      (fun v hv1 hv2 => hv v (by omega) (by push_cast at hv2 ⊢; omega))
    refine ⟨(t, .wait) :: (t, .wait) :: (t + 50000, .wait) :: es, s', ?_, ?_, x3, by rw [x4]; push_cast; omega⟩
    · simp only [Timed.run, h1, h2, h3, Option.bind_some]
      exact x1
    · simp only [Timed.Prompt, h1, h2, h3]
      exact ⟨fun _ => by omega, fun _ => by omega, fun _ => by omega, x2⟩

end Verif.Modem.Clk
