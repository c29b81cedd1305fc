import Verif.Lemmas.Clock
import Verif.Props.Modem

/-! C101: how long a call waits. -/

namespace Verif.Modem

open Verif Verif.Serial Clk

/-- C101: the modem with time does what the modem of Model/Modem does: leaving out the steps inside the wait loop gives one of
its sequences of steps, with the same state at the end. -/
theorem C101_refines {clock : Int → Int} {config : Config} {n : Int} {es : List (Int × TimedEvent)} {s : Timed}
    (h : (Timed.init config n).run clock es = some s) :
    (init config).run ((Timed.init config n).seen clock es) = some s.modem := run_seen h

/-- The steps of a call up to and with the write, one microsecond each. -/
def sending (timeout : Int) : List (Int × TimedEvent) :=
  [(1, .other (.call (.execute cmd7 timeout))), (2, .other .main), (3, .other .main), (4, .other .main), (5, .other .main),
    (6, .other .main)]

/-- A call with a timeout of one second that nobody answers, with a machine that is slow: the steps of the wait loop. -/
def unanswered : List (Int × TimedEvent) :=
  [(10, .wait), (11, .wait), (12, .wait), (700000, .wait), (700001, .wait), (700002, .wait), (1000020, .wait), (1000021, .wait),
    (1000022, .wait), (1000023, .wait)]

example : ((Timed.init plain 0).run id (sending 1 ++ unanswered)).map (fun s => (s.now, s.modem.outcomes)) =
    some (1000023, [.empty]) := by decide +kernel

/-- C101, with a clock that is not set forward: a call does not give up before its time is over. From the moment of the write
at least `timeout` seconds pass before it returns an empty list. -/
theorem C101_not_early_partial {clock : Int → Int} (hclock : NotFast clock) {config : Config} {n : Int}
    {before during : List (Int × TimedEvent)} {s0 s1 s2 s3 : Timed} {tag : Option Int} {frame : List UInt8} {timeout t0 t : Int}
    {e : TimedEvent} (h0 : (Timed.init config n).run clock before = some s0)
    (hm : s0.modem.main = .run .write .app tag frame timeout) (ht : timeout ≠ 0)
    (h1 : s0.step clock t0 (.other .main) = some s1) (h2 : s1.run clock during = some s2)
    (hp : s2.modem.outcomes = s0.modem.outcomes) (h3 : s2.step clock t e = some s3)
    (ho : s3.modem.outcomes = s0.modem.outcomes ++ [.empty]) : timeout * 1000000 ≤ t - t0 := by
  obtain ⟨hw, hpl, hn, -⟩ := entered (ok_run (ok_init config n) h0) hm ht h1
  obtain ⟨hw2, hpast⟩ := call_induction (fun s _ => Past clock t0 timeout s) [] hw
    (by unfold Past; rw [hpl]; simp only; omega)
    (fun a t e b fs ha hP hs hb => past_step ha hP hs hb) h2 hp
  obtain ⟨hle, -, ⟨e0, -, -, -, -, -, hw3⟩ | ⟨-, hfin, -, hf⟩ | ⟨-, -, -, hw3⟩⟩ := waiting_step hw2 h3
  · rw [hw3.outcomes] at ho; simp at ho
  · unfold Past at hpast
    rw [hfin] at hpast
    simp only at hpast
    rcases hpast with hc | ⟨u, v, a1, a2, a3, a4⟩
    · rw [hf, hc] at ho
      simp only [State.finishExecute, State.finish, hw2.outcomes, if_true] at ho
      have := List.append_cancel_left ho
      simp at this
    · have := hclock u v a2
      unfold micros at a4
      omega
  · rw [hw3.outcomes] at ho; simp at ho

/-- The call above: it returns an empty list 1.000017 s after the write. -/
example : ∃ s0 s1 s2 s3, (Timed.init plain 0).run id ((sending 1).take 5) = some s0 ∧
    s0.modem.main = .run .write .app (some 7) [192, 0, 0, 1, 2, 191, 33, 180, 7] 1 ∧
    s0.step id 6 (.other .main) = some s1 ∧ s1.run id (unanswered.take 9) = some s2 ∧
    s2.modem.outcomes = s0.modem.outcomes ∧ s2.step id 1000023 .wait = some s3 ∧
    s3.modem.outcomes = s0.modem.outcomes ++ [.empty] := by
  refine ⟨_, _, _, _, rfl, ?_, rfl, rfl, ?_, rfl, ?_⟩ <;> decide +kernel

/-- C101, with a clock that is not set forward, for every caller, so also for `connect` with its 10 seconds: a call that ends
although no message said that the execution is completed has waited for at least `timeout` seconds since the write. -/
theorem C101_gives_up_partial {clock : Int → Int} (hclock : NotFast clock) {config : Config} {n : Int}
    {before during : List (Int × TimedEvent)} {s0 s1 s2 s3 : Timed} {caller : Caller} {tag : Option Int} {frame : List UInt8}
    {timeout t0 t : Int} {e : TimedEvent} (h0 : (Timed.init config n).run clock before = some s0)
    (hm : s0.modem.main = .run .write caller tag frame timeout) (ht : timeout ≠ 0)
    (h1 : s0.step clock t0 (.other .main) = some s1) (h2 : s1.run clock during = some s2)
    (hp : s2.modem.outcomes = s0.modem.outcomes) (hc : s2.modem.completed = false) (h3 : s2.step clock t e = some s3)
    (ho : s3.modem.outcomes ≠ s0.modem.outcomes) : timeout * 1000000 ≤ t - t0 := by
  obtain ⟨hw, hpl, hn, -⟩ := entered (ok_run (ok_init config n) h0) hm ht h1
  obtain ⟨hw2, hpast⟩ := call_induction (fun s _ => Past clock t0 timeout s) [] hw
    (by unfold Past; rw [hpl]; simp only; omega)
    (fun a t e b fs ha hP hs hb => past_step ha hP hs hb) h2 hp
  obtain ⟨hle, -, ⟨e0, -, -, -, -, -, hw3⟩ | ⟨-, hfin, -, hf⟩ | ⟨-, -, -, hw3⟩⟩ := waiting_step hw2 h3
  · exact absurd hw3.outcomes ho
  · unfold Past at hpast
    rw [hfin] at hpast
    simp only at hpast
    rcases hpast with hc' | ⟨u, v, a1, a2, a3, a4⟩
    · rw [hc] at hc'; cases hc'
    · have := hclock u v a2
      unfold micros at a4
      omega
  · exact absurd hw3.outcomes ho

/-- `connect` that nobody answers: it returns False 10.000017 s after the write. -/
def unansweredConnect : List (Int × TimedEvent) :=
  [(10, .wait), (11, .wait), (12, .wait), (5700000, .wait), (5700001, .wait), (5700002, .wait), (10000020, .wait),
    (10000021, .wait), (10000022, .wait)]

example : ∃ s0 s1 s2 s3 frame, (Timed.init plain 0).run id ((1, .other (.call (.connect true 7))) :: ((sending 1).take 5).tail) =
      some s0 ∧
    s0.modem.main = .run .write .connect (some 7) frame 10 ∧
    s0.step id 6 (.other .main) = some s1 ∧ s1.run id unansweredConnect = some s2 ∧
    s2.modem.outcomes = s0.modem.outcomes ∧ s2.modem.completed = false ∧ s2.step id 10000023 .wait = some s3 ∧
    s3.modem.outcomes = s0.modem.outcomes ++ [.bool false] := by
  refine ⟨_, _, _, _, [192, 0, 0, 1, 10, 235, 50, 180, 7, 1, 0, 0, 8, 1, 2, 0, 17], rfl, ?_, rfl, rfl, ?_, ?_, rfl, ?_⟩ <;> decide +kernel

/-- C101, with a clock that is not set forward: before its time is over, a call still waits or has returned the list of the
responses. -/
theorem C101_before_timeout_partial {clock : Int → Int} (hclock : NotFast clock) {config : Config} {n : Int}
    {before during : List (Int × TimedEvent)} {s0 s1 s2 : Timed} {tag : Option Int} {frame : List UInt8} {timeout t0 : Int}
    (h0 : (Timed.init config n).run clock before = some s0)
    (hm : s0.modem.main = .run .write .app tag frame timeout) (ht : timeout ≠ 0)
    (h1 : s0.step clock t0 (.other .main) = some s1) (h2 : s1.run clock during = some s2)
    (hnow : ∀ x ∈ during, x.1 - t0 < timeout * 1000000) :
    (s2.modem.outcomes = s0.modem.outcomes ∧ s2.modem.main = .run .wait .app tag frame timeout) ∨
      ∃ l rest, s2.modem.outcomes = s0.modem.outcomes ++ .list l :: rest := by
  obtain ⟨hw, hpl, hn, -⟩ := entered (ok_run (ok_init config n) h0) hm ht h1
  have hpast : Past clock t0 timeout s1 := by unfold Past; rw [hpl]; simp only; omega
  clear h1 hpl hn
  generalize s0.modem.outcomes = o0 at *
  induction during generalizing s1 with
  | nil => cases h2; exact .inl ⟨hw.outcomes, hw.main⟩
  | cons x es ih =>
    obtain ⟨t, e⟩ := x
    simp only [Timed.run] at h2
    cases hs : s1.step clock t e with
    | none => rw [hs] at h2; cases h2
    | some s' =>
      rw [hs] at h2
      have hx := hnow _ (List.mem_cons_self ..)
      have hrest := fun x hx => hnow x (List.mem_cons_of_mem _ hx)
      obtain ⟨hle, -, ⟨e0, -, -, -, -, -, hw'⟩ | ⟨-, hfin, -, hf⟩ | ⟨-, -, -, hw'⟩⟩ := waiting_step hw hs
      · exact ih h2 hrest (past_step hw hpast hs hw') hw'
      · unfold Past at hpast
        rw [hfin] at hpast
        simp only at hpast
        rcases hpast with hc | ⟨u, v, a1, a2, a3, a4⟩
        · obtain ⟨l, hl⟩ := run_outcomes' (s := s') h2
          rw [hl, hf, hc]
          simp only [State.finishExecute, State.finish, hw.outcomes, if_true]
          exact .inr ⟨_, l, by rw [List.append_assoc]; rfl⟩
        · have := hclock u v a2
          unfold micros at a4
          simp only at hx
          omega
      · exact ih h2 hrest (past_step hw hpast hs hw') hw'

/-- The answer arrives 0.3 s after the write of the call above; the call notices it 0.7 s after the write, when it wakes up. -/
def answeredInTime : List (Int × TimedEvent) :=
  [(10, .wait), (11, .wait), (12, .wait), (300000, .other (.rx final7)), (300001, .other .reader), (300002, .other .reader),
    (300003, .other .reader), (300004, .other .reader), (700000, .wait), (700001, .wait), (700002, .wait)]

example : (∀ x ∈ answeredInTime, x.1 - 6 < 1 * 1000000) ∧
    ((Timed.init plain 0).run id (sending 1 ++ answeredInTime)).map (fun s => (s.modem.outcomes, s.modem.responses)) =
      some ([.list 1], [[], [cFinal7]]) := by decide +kernel

/-- C101: whatever the clock says, once the last response is there the call returns the list, even if the time is over
before it looks: the flag is read again after the loop. -/
theorem C101_answered {clock : Int → Int} {config : Config} {n : Int}
    {before during after : List (Int × TimedEvent)} {s0 s1 s2 s3 s4 : Timed} {tag : Option Int} {frame : List UInt8}
    {timeout t0 t : Int} {e : TimedEvent} (h0 : (Timed.init config n).run clock before = some s0)
    (hm : s0.modem.main = .run .write .app tag frame timeout) (ht : timeout ≠ 0)
    (h1 : s0.step clock t0 (.other .main) = some s1) (h2 : s1.run clock during = some s2)
    (hp : s2.modem.outcomes = s0.modem.outcomes) (hc : s2.modem.completed = true) (h3 : s2.run clock after = some s3)
    (hp3 : s3.modem.outcomes = s0.modem.outcomes) (h4 : s3.step clock t e = some s4)
    (ho : s4.modem.outcomes ≠ s0.modem.outcomes) :
    s4.modem.outcomes = s0.modem.outcomes ++ [.list (s4.modem.responses.length - 1)] := by
  obtain ⟨hw, -⟩ := entered (ok_run (ok_init config n) h0) hm ht h1
  obtain ⟨hw2, -⟩ := call_induction (fun _ _ => True) [] hw trivial (fun _ _ _ _ _ _ _ _ _ => trivial) h2 hp
  obtain ⟨hw3, hc3⟩ := call_induction (fun s _ => s.modem.completed = true) [] hw2 hc
    (fun a t e b fs ha hP hs hb => by
      obtain ⟨-, -, ⟨e0, -, he, hst, -, -, -⟩ | ⟨-, -, hoff, -⟩ | ⟨-, hst, -, -⟩⟩ := waiting_step ha hs
      · exact step_completed hst he hP
      · exact absurd hoff hb.place
      · rw [hst]; exact hP) h3 hp3
  obtain ⟨-, -, ⟨e0, -, -, -, -, -, hw4⟩ | ⟨-, -, -, hf⟩ | ⟨-, -, -, hw4⟩⟩ := waiting_step hw3 h4
  · exact absurd hw4.outcomes ho
  · rw [hf, hc3]
    simp [State.finishExecute, State.finish, hw3.outcomes]
  · exact absurd hw4.outcomes ho

/-- The answer arrives after the last look at the clock, when the time is over already: the list is returned. -/
def justInTime : List (Int × TimedEvent) :=
  sending 1 ++ unanswered.take 9 ++ [(1000023, .other (.rx final7)), (1000024, .other .reader), (1000025, .other .reader),
    (1000026, .other .reader), (1000027, .other .reader)]

example : ((Timed.init plain 0).run id justInTime).map (fun s => (s.place, s.modem.completed, s.modem.outcomes)) =
      some (.final, true, []) ∧
    ((Timed.init plain 0).run id (justInTime ++ [(1000030, .wait)])).map (fun s => (s.modem.outcomes, s.modem.responses)) =
      some ([.list 1], [[], [cFinal7]]) := by decide +kernel

/-- C101, with a clock that is not set back, and a thread that gets to make each of its steps at most `d` after it could: every
step of a call, the return among them, comes at most `timeout` seconds, 0.05 s and `5 * d` after the write. -/
theorem C101_ends_partial {clock : Int → Int} (hclock : NotSlow clock) {config : Config} {n : Int}
    {before during : List (Int × TimedEvent)} {s0 s1 s2 : Timed} {caller : Caller} {tag : Option Int} {frame : List UInt8}
    {timeout t0 t d : Int} {e : TimedEvent} (h0 : (Timed.init config n).run clock before = some s0)
    (hm : s0.modem.main = .run .write caller tag frame timeout) (ht : 0 < timeout)
    (h1 : s0.step clock t0 (.other .main) = some s1) (h2 : s1.run clock during = some s2)
    (hp : s2.modem.outcomes = s0.modem.outcomes) (hd : 0 ≤ d) (hprompt : s1.Prompt clock d (during ++ [(t, e)])) :
    t - t0 ≤ timeout * 1000000 + 50000 + 5 * d := by
  obtain ⟨hw, hpl, hn, hdue, -⟩ := entered (ok_run (ok_init config n) h0) hm (by omega) h1
  obtain ⟨hw2, hP⟩ := call_induction (clock := clock)
    (fun s es => s.Prompt clock d es ∧ (match s.place with
      | .off => False
      | .start => s.due = t0 ∧ t0 ≤ s.now
      | .check b => (∃ u, t0 ≤ u ∧ u ≤ t0 + d ∧ u ≤ s.now ∧ b = clock u) ∧ s.due ≤ t0 + micros timeout + 50000 + 2 * d
      | .compare b => (∃ u, t0 ≤ u ∧ u ≤ t0 + d ∧ u ≤ s.now ∧ b = clock u) ∧ s.due ≤ t0 + micros timeout + 50000 + 3 * d
      | .sleep b _ => (∃ u, t0 ≤ u ∧ u ≤ t0 + d ∧ u ≤ s.now ∧ b = clock u) ∧ s.due ≤ t0 + micros timeout + 50000 + d
      | .final => s.due ≤ t0 + micros timeout + 50000 + 4 * d)) [(t, e)] hw ⟨hprompt, by rw [hpl]; exact ⟨hdue, by omega⟩⟩
    (fun a t e b fs ha hP hs hb => by
      obtain ⟨⟨hpr, hrest⟩, hP⟩ := hP
      rw [hs] at hrest
      have hpr := hpr (by simp [State.waiting, ha.main])
      refine ⟨hrest, ?_⟩
      obtain ⟨hle, hnow, ⟨e0, -, he, hst, hpl, hdue, -⟩ | ⟨-, -, hoff, -⟩ | ⟨-, hst, hmv, -⟩⟩ := waiting_step ha hs
      · rw [hpl, hnow, hdue]
        generalize a.place = p at hP ⊢
        cases p with
        | off => exact hP
        | start => exact ⟨hP.1, by have := hP.2; omega⟩
        | check b => obtain ⟨⟨u, x1, x2, x3, x4⟩, x5⟩ := hP; exact ⟨⟨u, x1, x2, by omega, x4⟩, x5⟩
        | compare b => obtain ⟨⟨u, x1, x2, x3, x4⟩, x5⟩ := hP; exact ⟨⟨u, x1, x2, by omega, x4⟩, x5⟩
        | sleep b _ => obtain ⟨⟨u, x1, x2, x3, x4⟩, x5⟩ := hP; exact ⟨⟨u, x1, x2, by omega, x4⟩, x5⟩
        | final => exact hP
      · exact absurd hoff hb.place
      · rw [hnow]
        generalize a.place = p at hP hmv
        generalize b.place = p' at hmv ⊢
        generalize b.due = dd at hmv ⊢
        have hmic : micros timeout = timeout * 1000000 := rfl
        cases hmv with
        | start => obtain ⟨hP, hP'⟩ := hP; exact ⟨⟨t, by omega, by omega, by omega, rfl⟩, by omega⟩
        | seen b hc => obtain ⟨⟨u, x1, x2, x3, x4⟩, x5⟩ := hP; simp only; omega
        | unseen b hc => obtain ⟨⟨u, x1, x2, x3, x4⟩, x5⟩ := hP; exact ⟨⟨u, x1, x2, by omega, x4⟩, by omega⟩
        | again b hc =>
          obtain ⟨⟨u, x1, x2, x3, x4⟩, x5⟩ := hP
          have := hclock u t (by omega)
          exact ⟨⟨u, x1, x2, by omega, x4⟩, by omega⟩
        | late b hc => obtain ⟨⟨u, x1, x2, x3, x4⟩, x5⟩ := hP; simp only; omega
        | woke b v hc => obtain ⟨⟨u, x1, x2, x3, x4⟩, x5⟩ := hP; exact ⟨⟨u, x1, x2, by omega, x4⟩, by omega⟩) h2 hp
  obtain ⟨⟨hpr, -⟩, hP⟩ := hP
  have hpr := hpr (by simp [State.waiting, hw2.main])
  have hmic : micros timeout = timeout * 1000000 := rfl
  generalize s2.place = p at hP
  cases p with
  | off => exact hP.elim
  | start => have := hP.1; omega
  | check b => have := hP.2; omega
  | compare b => have := hP.2; omega
  | sleep b _ => have := hP.2; omega
  | final => simp only at hP; omega

/-- A call of one second that nobody answers, with delays of 0.7 s at most. -/
example : ∃ s0 s1 s2, (Timed.init plain 0).run id ((sending 1).take 5) = some s0 ∧
    s0.modem.main = .run .write .app (some 7) [192, 0, 0, 1, 2, 191, 33, 180, 7] 1 ∧
    s0.step id 6 (.other .main) = some s1 ∧ s1.run id (unanswered.take 9) = some s2 ∧
    s2.modem.outcomes = s0.modem.outcomes ∧ s1.Prompt id 700000 (unanswered.take 9 ++ [(1000023, .wait)]) := by
  refine ⟨_, _, _, rfl, ?_, rfl, rfl, ?_, ?_⟩
  · decide +kernel
  · decide +kernel
  · decide +kernel

/-- C101, whatever the clock says: once the last response is there, every step of the call, the return among them, comes at
most 0.05 s and `4 * d` later. -/
theorem C101_noticed {clock : Int → Int} {config : Config} {n : Int}
    {before during after : List (Int × TimedEvent)} {s0 s1 s2 s3 : Timed} {caller : Caller} {tag : Option Int}
    {frame : List UInt8} {timeout t0 t d : Int} {e : TimedEvent} (h0 : (Timed.init config n).run clock before = some s0)
    (hm : s0.modem.main = .run .write caller tag frame timeout) (ht : timeout ≠ 0)
    (h1 : s0.step clock t0 (.other .main) = some s1) (h2 : s1.run clock during = some s2)
    (hp : s2.modem.outcomes = s0.modem.outcomes) (hc : s2.modem.completed = true) (h3 : s2.run clock after = some s3)
    (hp3 : s3.modem.outcomes = s0.modem.outcomes) (hd : 0 ≤ d) (hprompt : s2.Prompt clock d (after ++ [(t, e)])) :
    t - s2.now ≤ 50000 + 4 * d := by
  obtain ⟨hw, hpl, hn, hdue, -⟩ := entered (ok_run (ok_init config n) h0) hm ht h1
  obtain ⟨hw2, hP2⟩ := call_induction (clock := clock)
    (fun s _ => (∀ b u, s.place ≠ .sleep b u) ∧ s.due ≤ s.now ∨ (∃ b u, s.place = .sleep b u) ∧ s.due ≤ s.now + 50000) []
    hw (.inl ⟨fun b u h => (by rw [hpl] at h; cases h), by omega⟩)
    (fun a t e b fs ha hP hs hb => by
      obtain ⟨hle, hnow, ⟨e0, -, he, hst, hpl, hdue, -⟩ | ⟨-, -, hoff, -⟩ | ⟨-, hst, hmv, -⟩⟩ := waiting_step ha hs
      · rw [hpl, hnow, hdue]
        rcases hP with ⟨x1, x2⟩ | ⟨x1, x2⟩
        · exact .inl ⟨x1, by omega⟩
        · exact .inr ⟨x1, by omega⟩
      · exact absurd hoff hb.place
      · rw [hnow]
        generalize a.place = p at hP hmv
        generalize b.place = p' at hmv ⊢
        generalize b.due = dd at hmv ⊢
        cases hmv with
        | again b hc => exact .inr ⟨⟨_, _, rfl⟩, by omega⟩
        | _ => exact .inl ⟨fun b u h => (by cases h), by omega⟩) h2 hp
  obtain ⟨hw3, hP⟩ := call_induction (clock := clock)
    (fun s es => s.Prompt clock d es ∧ s.modem.completed = true ∧ (match s.place with
      | .off => False
      | .start => s.due ≤ s2.now
      | .check _ => s.due ≤ s2.now + 50000 + 2 * d
      | .compare _ => s.due ≤ s2.now
      | .sleep _ _ => s.due ≤ s2.now + 50000 + d
      | .final => s.due ≤ s2.now + 50000 + 3 * d)) [(t, e)] hw2
    ⟨hprompt, hc, by
      generalize hpl : s2.place = p at hP2 ⊢
      cases p with
      | off => exact absurd hpl hw2.place
      | start => rcases hP2 with ⟨x1, x2⟩ | ⟨⟨_, _, x1⟩, x2⟩ <;> first | cases x1; done | (simp only; omega)
      | check b => rcases hP2 with ⟨x1, x2⟩ | ⟨⟨_, _, x1⟩, x2⟩ <;> first | cases x1; done | (simp only; omega)
      | compare b => rcases hP2 with ⟨x1, x2⟩ | ⟨⟨_, _, x1⟩, x2⟩ <;> first | cases x1; done | (simp only; omega)
      | sleep b u => rcases hP2 with ⟨x1, x2⟩ | ⟨x1, x2⟩ <;> (simp only; omega)
      | final => rcases hP2 with ⟨x1, x2⟩ | ⟨⟨_, _, x1⟩, x2⟩ <;> first | cases x1; done | (simp only; omega)⟩
    (fun a t e b fs ha hP hs hb => by
      obtain ⟨⟨hpr, hrest⟩, hcc, hP⟩ := hP
      rw [hs] at hrest
      have hpr := hpr (by simp [State.waiting, ha.main])
      refine ⟨hrest, ?_⟩
      obtain ⟨hle, hnow, ⟨e0, -, he, hst, hpl, hdue, -⟩ | ⟨-, -, hoff, -⟩ | ⟨-, hst, hmv, -⟩⟩ := waiting_step ha hs
      · rw [hpl, hdue]
        exact ⟨step_completed hst he hcc, hP⟩
      · exact absurd hoff hb.place
      · refine ⟨by rw [hst]; exact hcc, ?_⟩
        rw [hcc] at hmv
        generalize a.place = p at hP hmv
        generalize b.place = p' at hmv ⊢
        generalize b.due = dd at hmv ⊢
        cases hmv with
        | unseen b hc => cases hc
        | _ => simp only at hP ⊢; omega) h3 hp3
  obtain ⟨⟨hpr, -⟩, -, hP⟩ := hP
  have hpr := hpr (by simp [State.waiting, hw3.main])
  generalize s3.place = p at hP
  cases p with
  | off => exact hP.elim
  | _ => simp only at hP; omega

/-- The call above, answered 0.3 s after the write; with delays of 0.7 s. -/
example : ((Timed.init plain 0).run id (sending 1 ++ answeredInTime.take 8)).map (fun s => (s.now, s.modem.outcomes, s.modem.completed,
      decide (s.Prompt id 700000 [(700000, .wait), (700001, .wait), (700002, .wait)]))) =
    some (300004, [], true, true) := by decide +kernel

/-- The number of steps of the application thread in a sequence of steps. -/
def waits (es : List (Int × TimedEvent)) : Nat := (es.filter fun x => x.2 = .wait).length

/-- C101, with a clock that is not set back: the wait loop has a bounded number of steps, so that a call ends whatever the
scheduler does, if only it lets the application thread run again and again. -/
theorem C101_steps_partial {clock : Int → Int} (hclock : NotSlow clock) {config : Config} {n : Int}
    {before during : List (Int × TimedEvent)} {s0 s1 s2 : Timed} {caller : Caller} {tag : Option Int} {frame : List UInt8}
    {timeout t0 : Int} (h0 : (Timed.init config n).run clock before = some s0)
    (hm : s0.modem.main = .run .write caller tag frame timeout) (ht : 0 < timeout)
    (h1 : s0.step clock t0 (.other .main) = some s1) (h2 : s1.run clock during = some s2)
    (hp : s2.modem.outcomes = s0.modem.outcomes) : (waits during : Int) ≤ 60 * timeout + 3 := by
  obtain ⟨hw, hpl, hn, hdue, -⟩ := entered (ok_run (ok_init config n) h0) hm (by omega) h1
  obtain ⟨-, hP⟩ := call_induction (clock := clock)
    (fun s es => ∃ k : Nat, k + waits es = waits during ∧ (match s.place with
      | .off => False
      | .start => k = 0
      | .check b => ∃ (u : Int) (j : Nat), b = clock u ∧ u + 50000 * j ≤ s.now ∧ k = 3 * j + 1 ∧ (j : Int) ≤ 20 * timeout
      | .compare b => ∃ (u : Int) (j : Nat), b = clock u ∧ u + 50000 * j ≤ s.now ∧ k = 3 * j + 2 ∧ (j : Int) ≤ 20 * timeout
      | .sleep b til => ∃ (u : Int) (j : Nat), b = clock u ∧ u + 50000 * (j + 1) ≤ til ∧ k = 3 * j + 3 ∧
          (j : Int) + 1 ≤ 20 * timeout
      | .final => (k : Int) ≤ 60 * timeout + 3)) [] hw
    ⟨0, by simp, by rw [hpl]⟩
    (fun a t e b fs ha hP hs hb => by
      obtain ⟨k, hk, hP⟩ := hP
      obtain ⟨hle, hnow, ⟨e0, rfl, he, hst, hpl, hdue, -⟩ | ⟨-, -, hoff, -⟩ | ⟨rfl, hst, hmv, -⟩⟩ := waiting_step ha hs
      · refine ⟨k, by rw [← hk]; simp [waits], ?_⟩
        rw [hpl, hnow]
        generalize a.place = p at hP ⊢
        cases p with
        | check b => obtain ⟨u, j, x1, x2, x3, x4⟩ := hP; exact ⟨u, j, x1, by omega, x3, x4⟩
        | compare b => obtain ⟨u, j, x1, x2, x3, x4⟩ := hP; exact ⟨u, j, x1, by omega, x3, x4⟩
        | _ => exact hP
      · exact absurd hoff hb.place
      · refine ⟨k + 1, by rw [← hk]; simp [waits]; omega, ?_⟩
        rw [hnow]
        generalize a.place = p at hP hmv
        generalize b.place = p' at hmv ⊢
        generalize b.due = dd at hmv ⊢
        cases hmv with
        | start => simp only at hP; exact ⟨t, 0, rfl, by omega, by omega, by omega⟩
        | seen b hc => obtain ⟨u, j, x1, x2, x3, x4⟩ := hP; simp only; omega
        | unseen b hc => obtain ⟨u, j, x1, x2, x3, x4⟩ := hP; exact ⟨u, j, x1, by omega, by omega, x4⟩
        | again b hc =>
          obtain ⟨u, j, x1, x2, x3, x4⟩ := hP
          have := hclock u t (by omega)
          unfold micros at hc
          exact ⟨u, j, x1, by omega, by omega, by omega⟩
        | late b hc => obtain ⟨u, j, x1, x2, x3, x4⟩ := hP; simp only; omega
        | woke b v hc => obtain ⟨u, j, x1, x2, x3, x4⟩ := hP; exact ⟨u, j + 1, x1, by push_cast; omega, by omega, by push_cast; omega⟩) h2 hp
  obtain ⟨k, hk, hP⟩ := hP
  have hk : k = waits during := by simpa [waits] using hk
  rw [← hk]
  generalize s2.place = p at hP
  cases p with
  | off => exact hP.elim
  | start => simp only at hP; omega
  | check b => obtain ⟨u, j, x1, x2, x3, x4⟩ := hP; omega
  | compare b => obtain ⟨u, j, x1, x2, x3, x4⟩ := hP; omega
  | sleep b v => obtain ⟨u, j, x1, x2, x3, x4⟩ := hP; omega
  | final => exact hP

example : waits (unanswered.take 9) = 9 ∧ ((Timed.init plain 0).run id (sending 1 ++ unanswered.take 9)).map
    (fun s => s.modem.outcomes) = some [] := by decide +kernel

/-- C101: a call that waits can always make its next step, when it is due. -/
theorem C101_goes_on {clock : Int → Int} {config : Config} {n : Int} {es : List (Int × TimedEvent)} {s : Timed}
    (h : (Timed.init config n).run clock es = some s) (hw : s.modem.waiting.isSome) :
    ∃ s', s.step clock (max s.now s.due) .wait = some s' := by
  have key : ∀ (es : List (Int × TimedEvent)) (a b : Timed), (∀ c u, a.place = .sleep c u → u ≤ a.due) → Ok a →
      a.run clock es = some b → (∀ c u, b.place = .sleep c u → u ≤ b.due) := by
    intro es
    induction es with
    | nil => intro a b ha _ h; cases h; exact ha
    | cons x es ih =>
      obtain ⟨t, e⟩ := x
      intro a b ha hok h
      simp only [Timed.run] at h
      cases hs : a.step clock t e with
      | none => rw [hs] at h; cases h
      | some a1 =>
        rw [hs] at h
        refine ih a1 b ?_ (ok_step hok hs) h
        cases hx : a.modem.waiting with
        | some timeout =>
          obtain ⟨c, tag, f, hm⟩ := waiting_some hx
          have hoff : a.place ≠ .off := fun h => by rw [hok.1 h] at hx; cases hx
          obtain ⟨-, -, ⟨e0, -, -, -, hpl, hdue, -⟩ | ⟨-, -, hp', hf⟩ | ⟨-, -, hmv, -⟩⟩ :=
            waiting_step (o0 := a.modem.outcomes) ⟨hm, rfl, hoff⟩ hs
          · rw [hpl, hdue]; exact ha
          · rw [hp']; intro _ _ h; cases h
          · generalize a.place = p at hmv
            generalize a1.place = p' at hmv ⊢
            generalize a1.due = dd at hmv ⊢
            intro c u hcu
            cases hmv <;> cases hcu
            exact Int.le_refl _
        | none =>
          have hoff := hok.2 hx
          unfold Timed.step at hs
          split at hs
          · cases hs
          cases e with
          | wait =>
            obtain ⟨c, tag, f, timeout, hm, -⟩ := wait_cases hs
            simp [State.waiting, hm] at hx
          | other e =>
            simp only [Timed.otherStep] at hs
            split at hs
            · cases hs
            · cases hm : a.modem.step e with
              | none => rw [hm] at hs; cases hs
              | some m =>
                rw [hm] at hs
                simp only [Option.map_some, Option.some.injEq] at hs
                split at hs
                · cases hs; intro _ _ h; cases h
                · cases hs; intro _ _ h; simp only at h; rw [hoff] at h; cases h
  have hdue := key es _ _ (fun c u h => by cases h) (ok_init config n) h
  have hok := ok_run (ok_init config n) h
  obtain ⟨timeout, hx⟩ := Option.isSome_iff_exists.1 hw
  obtain ⟨c, tag, f, hm⟩ := waiting_some hx
  unfold Timed.step
  rw [if_neg (by omega)]
  simp only [Timed.waitStep, hx]
  cases hp : s.place with
  | off => rw [hok.1 hp] at hx; cases hx
  | start => exact ⟨_, rfl⟩
  | check b => simp only; split <;> exact ⟨_, rfl⟩
  | compare b => simp only; split <;> exact ⟨_, rfl⟩
  | sleep b u => have := hdue b u hp; simp only; rw [if_neg (by omega)]; exact ⟨_, rfl⟩
  | final => simp only [State.timeoutStep, hm]; exact ⟨_, rfl⟩

example : ((Timed.init plain 0).run id (sending 1 ++ unanswered.take 3)).map (fun s => (s.modem.waiting, s.place, s.now, s.due)) =
    some (some 1, .sleep 10 50012, 12, 50012) := by decide +kernel

/-- C101, full statement: a call waits at least as long as it is told to. This is false if the clock is set forward while it
waits (`datetime.now()` is the time of day): a call of ten seconds gives up after a few microseconds. -/
theorem C101_forward_refuted : ∃ clock : Int → Int, (∀ a b, a ≤ b → clock a ≤ clock b) ∧
    ((Timed.init plain 0).run clock (sending 10 ++ [(7, .wait), (8, .wait), (9, .wait), (10, .wait)])).map
      (fun s => s.modem.outcomes) = some [.empty] := by
  refine ⟨fun t => if t ≤ 8 then t else t + 3600000000, fun a b h => ?_, by decide +kernel⟩
  simp only
  split <;> split <;> omega

/-- C101, full statement: a call ends at most a little after the time it is told to wait. This is false if the clock is set
back while it waits: however long a time is given, a call of one second can wait longer, without any delay on its side. -/
theorem C101_back_refuted : ∀ long : Nat, ∃ (clock : Int → Int) (s1 s2 : Timed) (es : List (Int × TimedEvent)),
    (∃ moment back, 0 ≤ back ∧ ∀ t, clock t = if t ≤ moment then t else t - back) ∧
    (Timed.init plain 0).run clock (sending 1) = some s1 ∧ s1.run clock es = some s2 ∧ s1.Prompt clock 0 es ∧
    s2.modem.outcomes = [] ∧ s2.modem.waiting = some 1 ∧ (long : Int) ≤ s2.now - s1.now := by
  intro long
  obtain ⟨s1, hs1, h1, h2, h3, h4, h5, h6⟩ : ∃ s1, (∀ clock, (Timed.init plain 0).run clock (sending 1) = some s1) ∧
      s1.modem.main = .run .wait .app (some 7) [192, 0, 0, 1, 2, 191, 33, 180, 7] 1 ∧ s1.modem.outcomes = [] ∧
      s1.modem.completed = false ∧ s1.place = .start ∧ s1.now = 6 ∧ s1.due = 6 := by
    refine ⟨_, fun clock => rfl, ?_, ?_, ?_, ?_, ?_, ?_⟩ <;> decide +kernel
  let clock : Int → Int := fun t => if t ≤ 6 then t else t - (50000 * long)
  have hst : s1.step clock 6 .wait = some { s1 with now := 6, place := .check 6, due := 6 } := by
    unfold Timed.step
    rw [if_neg (by omega)]
    simp [Timed.waitStep, State.waiting, h1, h4, clock]
  obtain ⟨es, s', x1, x2, x3, x4⟩ := rounds (clock := clock) (t := 6) (b := 6) long
    (s := { s1 with now := 6, place := .check 6, due := 6 }) (o0 := []) ⟨h1, h2, by simp⟩ h3 rfl rfl rfl
    (fun v hv1 hv2 => by
      simp only [clock, micros]
      split <;> omega)
  refine ⟨clock, s1, s', (6, .wait) :: es, ⟨6, 50000 * long, by omega, fun _ => rfl⟩, hs1 clock, ?_, ?_, x3.outcomes,
    by simp [State.waiting, x3.main], by rw [x4, h5]; omega⟩
  · simp only [Timed.run, hst, Option.bind_some]; exact x1
  · simp only [Timed.Prompt, hst]
    exact ⟨fun _ => by omega, x2⟩

end Verif.Modem
