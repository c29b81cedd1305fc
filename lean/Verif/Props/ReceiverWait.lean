import Verif.Spec.Clock
import Verif.Model.ReceiverWait
import Verif.Props.Examples

/-! C102: how long the throughput test waits for the receiver, and which messages it counts. -/

namespace Verif.Examples

open Verif Modem

variable {clock : Int → Int} {count : Int → Nat} {msgCount timeout d t0 : Int}

/-- C102: the loop with time does what the loop of C69 does, with the numbers counted at moments two seconds or more apart. -/
theorem C102_wait {total : Nat} {t : Int} (h : Ends clock count msgCount timeout d t0 total t) :
    ∃ (late : Nat → Bool) (counted : Nat → Nat) (moment : Nat → Int), Wait late counted msgCount 0 0 total ∧
      (∀ i, counted i = count (moment i)) ∧ t0 ≤ moment 0 ∧ ∀ i, moment i + 2000000 ≤ moment (i + 1) := by
  have key : ∀ {k total t}, Rounds clock count msgCount timeout d t0 k t total →
      ∃ moment : Nat → Int, t0 ≤ moment 0 ∧ (∀ i, moment i + 2000000 ≤ moment (i + 1)) ∧ t0 ≤ t ∧
        (k = 0 → total = 0) ∧ (∀ j, k = j + 1 → total = count (moment j)) ∧ (∀ j, k = j + 1 → t = moment j + 2000000) ∧
        (∀ i < k, ((if i = 0 then 0 else count (moment (i - 1)) : Nat) : Int) < msgCount) := by
    intro k total t h
    induction h with
    | zero =>
      exact ⟨fun i => t0 + 2000000 * i, by simp, fun i => by simp only; push_cast; omega, Int.le_refl _, fun _ => rfl,
        fun j h => (by cases h), fun j h => (by cases h), fun i h => (by cases h)⟩
    | @more k total t u v _ hlt h1 h2 h3 h4 h5 ih =>
      obtain ⟨moment, m0, m1, m2, m3, m4, m5, m6⟩ := ih
      refine ⟨fun i => if i < k then moment i else v + 2000000 * ((i : Int) - k), ?_, ?_, by omega, fun h => (by cases h), ?_, ?_, ?_⟩
      · simp only
        split
        · exact m0
        · have : k = 0 := by omega
          subst this
          push_cast
          omega
      · intro i
        simp only
        by_cases hi : i + 1 < k
        · rw [if_pos (by omega), if_pos hi]; exact m1 i
        · by_cases hi' : i < k
          · have := m5 i (by omega)
            rw [if_pos hi', if_neg hi]
            push_cast
            omega
          · rw [if_neg hi', if_neg hi]
            push_cast
            omega
      · intro j hj
        have : j = k := by omega
        subst this
        simp
      · intro j hj
        have : j = k := by omega
        subst this
        simp
      · intro i hi
        by_cases h0 : i = 0
        · subst h0
          by_cases hk : k = 0
          · have := m3 hk; simp only [if_true]; omega
          · exact m6 0 (by omega)
        · rw [if_neg h0]
          simp only
          rw [if_pos (show i - 1 < k by omega)]
          by_cases hik : i = k
          · have := m4 (i - 1) (by omega)
            rw [← this]
            exact hlt
          · have := m6 i (by omega)
            rwa [if_neg h0] at this
  have build : ∀ {k total t}, Rounds clock count msgCount timeout d t0 k t total →
      ∀ (last : Bool), ((total : Int) < msgCount → last = true) →
      ∃ (late : Nat → Bool) (counted : Nat → Nat) (moment : Nat → Int), Wait late counted msgCount 0 0 total ∧
        (∀ i, counted i = count (moment i)) ∧ t0 ≤ moment 0 ∧ ∀ i, moment i + 2000000 ≤ moment (i + 1) := by
    intro k total t h last hlast
    obtain ⟨moment, m0, m1, m2, m3, m4, m5, m6⟩ := key h
    refine ⟨fun i => decide (k ≤ i) && last, fun i => count (moment i), moment, ?_, fun _ => rfl, m0, m1⟩
    rw [C69_wait]
    refine ⟨k, ?_, fun hh => by simp [hlast hh], fun i hi => ⟨by simp; omega, m6 i hi⟩⟩
    cases k with
    | zero => simp [m3 rfl]
    | succ j => simp [m4 j rfl]
  cases h with
  | enough h hn => exact build h false fun hh => absurd hh hn
  | late h _ _ _ _ => exact build h true fun _ => rfl

/-- Three messages are expected; they come after 1 s, 3 s and 5 s. The clock is right and nobody is late. -/
def arriving (t : Int) : Nat := if t < 1000000 then 0 else if t < 3000000 then 1 else if t < 5000000 then 2 else 3

/-- The loop after 4 rounds, at the moment of 8 s. -/
theorem four_rounds : Rounds id arriving 3 10 0 0 4 8000000 3 :=
  .more (u := 6000000) (v := 6000000) (.more (u := 4000000) (v := 4000000) (.more (u := 2000000) (v := 2000000)
    (.more (u := 0) (v := 0) .zero (by decide) (by decide) (by decide) (by decide) (by decide) (by decide))
    (by decide) (by decide) (by decide) (by decide) (by decide) (by decide))
    (by decide) (by decide) (by decide) (by decide) (by decide) (by decide))
    (by decide) (by decide) (by decide) (by decide) (by decide) (by decide)

example : Ends id arriving 3 10 0 0 3 8000000 := .enough four_rounds (by decide)

/-- C102, with a clock that is not set forward: the messages that have come two seconds before the time is over are counted
(and `d` earlier, if the thread is kept waiting). If they suffice, the number counted suffices. -/
theorem C102_counted_partial (hclock : NotFast clock) (hmono : ∀ a b, a ≤ b → count a ≤ count b) (hd : d < timeout * 1000000)
    {total : Nat} {t : Int} (h : Ends clock count msgCount timeout d t0 total t)
    (hc : msgCount ≤ count (t0 + timeout * 1000000 - 2000000 - d)) : msgCount ≤ total := by
  cases h with
  | enough h hn => omega
  | @late k total t1 _ h hlt h1 h2 h3 =>
    have hu : ∀ {k total t}, Rounds clock count msgCount timeout d t0 k t total → t0 ≤ t := by
      intro k total t h
      induction h with
      | zero => omega
      | more _ h1 h2 h3 h4 h5 h6 ih => omega
    have hcl := hclock t0 t (by have := hu h; omega)
    unfold micros at h3
    cases h with
    | zero => omega
    | @more k total t w v _ _ _ _ _ _ _ =>
      have := hmono (t0 + timeout * 1000000 - 2000000 - d) v (by omega)
      omega

example : (3 : Int) ≤ arriving (0 + 10 * 1000000 - 2000000 - 0) := by decide

/-- C102, full statement: all messages that come before the time is over are counted. This is false for every time: messages
that come in the last two seconds are not, and the test does not print "OK". -/
theorem C102_last_seconds_refuted : ∀ n : Nat, 0 < n → ∃ (count : Int → Nat) (t : Int), (∀ a b, a ≤ b → count a ≤ count b) ∧
    count ((n : Int) * 1000000 - 1) = 1 ∧ Ends id count 1 n 0 0 0 t ∧
    ∀ payload cmds, verdict payload 1 0 cmds ≠ .ok true := by
  intro n hn
  have key : ∀ k : Nat, (k : Int) * 2 < n + 2 →
      Rounds id (fun t => if t < (n : Int) * 1000000 - 1 then 0 else 1) 1 n 0 0 k ((k : Int) * 2000000) 0 := by
    intro k
    induction k with
    | zero => intro _; exact .zero
    | succ k ih =>
      intro hk
      have h := Rounds.more (u := (k : Int) * 2000000) (v := (k : Int) * 2000000) (ih (by push_cast at hk; omega)) (by decide)
        (by omega) (by omega) (by unfold micros; simp only [id]; push_cast at hk; omega) (by omega) (by omega)
      rw [if_pos (by push_cast at hk; omega)] at h
      rw [show (((k + 1 : Nat) : Int) * 2000000) = (k : Int) * 2000000 + 2000000 by push_cast; omega]
      exact h
  refine ⟨fun t => if t < (n : Int) * 1000000 - 1 then 0 else 1, (((n + 1) / 2 : Nat) : Int) * 2000000, fun a b hab => ?_, by simp,
    .late (key ((n + 1) / 2) (by omega)) (by decide) (by omega) (by omega) (by unfold micros; simp only [id]; omega), ?_⟩
  · simp only
    split <;> split <;> omega
  · intro payload cmds h
    rw [C69_verdict_partial] at h
    cases h.1

/-- C102, with a clock that is not set back: the loop ends at most two seconds after the time is over (and `2 * d`, if the thread
is kept waiting). -/
theorem C102_ends_partial (hclock : NotSlow clock) (ht : 0 ≤ timeout) (hd : 0 ≤ d) {total : Nat} {t : Int}
    (h : Ends clock count msgCount timeout d t0 total t) : t - t0 ≤ timeout * 1000000 + 2000000 + 2 * d := by
  have key : ∀ {k total t}, Rounds clock count msgCount timeout d t0 k t total →
      t0 ≤ t ∧ t ≤ t0 + timeout * 1000000 + 2000000 + d := by
    intro k total t h
    induction h with
    | zero => omega
    | @more k total t u v _ h1 h2 h3 h4 h5 h6 ih =>
      have := hclock t0 u (by omega)
      unfold micros at h4
      omega
  cases h with
  | enough h hn => have := key h; omega
  | late h h1 h2 h3 h4 => have := key h; omega

example : ∃ t, Ends id arriving 4 7 0 0 3 t :=
  ⟨8000000, .late (k := 4) (t := 8000000) (.more (u := 6000000) (v := 6000000) (.more (u := 4000000) (v := 4000000)
    (.more (u := 2000000) (v := 2000000)
    (.more (u := 0) (v := 0) .zero (by decide) (by decide) (by decide) (by decide) (by decide) (by decide))
    (by decide) (by decide) (by decide) (by decide) (by decide) (by decide))
    (by decide) (by decide) (by decide) (by decide) (by decide) (by decide))
    (by decide) (by decide) (by decide) (by decide) (by decide) (by decide)) (by decide) (by decide) (by decide) (by decide)⟩

/-- C102, with a clock that is not set back: the number of rounds is bounded, so that the loop ends whatever the scheduler
does. -/
theorem C102_rounds_partial (hclock : NotSlow clock) (ht : 0 ≤ timeout) {k total : Nat} {t : Int}
    (h : Rounds clock count msgCount timeout d t0 k t total) : 2 * (k : Int) ≤ timeout + 1 := by
  have key : ∀ {k total t}, Rounds clock count msgCount timeout d t0 k t total →
      t0 + 2000000 * k ≤ t ∧ 2 * (k : Int) ≤ timeout + 1 := by
    intro k total t h
    induction h with
    | zero => constructor <;> push_cast <;> omega
    | @more k total t u v _ h1 h2 h3 h4 h5 h6 ih =>
      have := hclock t0 u (by omega)
      unfold micros at h4
      push_cast
      omega
  exact (key h).2

example : ∃ t total, Rounds id arriving 3 10 0 0 4 t total := ⟨_, _, four_rounds⟩

/-- C102: the loop never gets stuck. -/
theorem C102_goes_on (hd : 0 ≤ d) {k total : Nat} {t : Int} (h : Rounds clock count msgCount timeout d t0 k t total) :
    Ends clock count msgCount timeout d t0 total t ∨
      Rounds clock count msgCount timeout d t0 (k + 1) (t + 2000000) (count t) := by
  by_cases h1 : (total : Int) < msgCount
  · by_cases h2 : clock t - clock t0 < micros timeout
    · exact .inr (.more h h1 (Int.le_refl _) (by omega) h2 (Int.le_refl _) (by omega))
    · exact .inl (.late h h1 (Int.le_refl _) (by omega) h2)
  · exact .inl (.enough h h1)

example : Ends id arriving 3 10 0 0 3 8000000 ∨ Rounds id arriving 3 10 0 0 5 10000000 (arriving 8000000) :=
  C102_goes_on (Int.le_refl _) four_rounds

/-- C102: when all messages have come, the loop ends at most four seconds later (and `2 * d`), whatever the clock says. -/
theorem C102_noticed (hmono : ∀ a b, a ≤ b → count a ≤ count b) (hd : 0 ≤ d) {total : Nat} {t moment : Int}
    (h : Ends clock count msgCount timeout d t0 total t) (hm : t0 ≤ moment) (hc : msgCount ≤ count moment) :
    t - moment ≤ 4000000 + 2 * d := by
  have key : ∀ {k total t}, Rounds clock count msgCount timeout d t0 k t total →
      t ≤ moment + 2000000 ∨ (msgCount ≤ total ∧ t ≤ moment + 4000000 + 2 * d) := by
    intro k total t h
    induction h with
    | zero => left; omega
    | @more k total t u v _ h1 h2 h3 h4 h5 h6 ih =>
      by_cases hv : v < moment
      · left; omega
      · right
        have := hmono moment v (by omega)
        omega
  cases h with
  | enough h hn => have := key h; omega
  | late h h1 h2 h3 h4 => have := key h; omega

example : (3 : Int) ≤ arriving 5000000 ∧ Ends id arriving 3 10 0 0 3 8000000 := ⟨by decide, .enough four_rounds (by decide)⟩

/-- C102, full statement: messages that come long before the time is over are counted. This is false if the clock is set
forward: a message that comes after a millisecond is not counted, although there should be an hour for it. -/
theorem C102_forward_refuted : ∃ (clock : Int → Int) (count : Int → Nat) (t : Int), (∀ a b, a ≤ b → clock a ≤ clock b) ∧
    (∀ a b, a ≤ b → count a ≤ count b) ∧ count 1000 = 1 ∧ Ends clock count 1 3600 0 0 0 t := by
  refine ⟨fun t => if t ≤ 0 then t else t + 3600000000, fun t => if t < 1000 then 0 else 1, 2000000, fun a b h => ?_,
    fun a b h => ?_, by decide, .late (.more (u := 0) (v := 0) .zero ?_ ?_ ?_ ?_ ?_ ?_) ?_ ?_ ?_ ?_⟩
  · simp only
    split <;> split <;> omega
  · simp only
    split <;> split <;> omega
  all_goals decide

/-- C102, full statement: the loop ends at most a little after the time is over. This is false if the clock is set back: with
one second given, it can go on for any time. -/
theorem C102_back_refuted : ∀ long : Nat, ∃ (clock : Int → Int) (t : Int),
    (∃ moment back, 0 ≤ back ∧ ∀ t, clock t = if t ≤ moment then t else t - back) ∧
    (long : Int) ≤ t ∧ Rounds clock (fun _ => 0) 1 1 0 0 long t 0 := by
  intro long
  refine ⟨fun t => if t ≤ 0 then t else t - 2000000 * long, 2000000 * long, ⟨0, 2000000 * long, by omega, fun _ => rfl⟩, by omega, ?_⟩
  have key : ∀ k : Nat, k ≤ long →
      Rounds (fun t => if t ≤ 0 then t else t - 2000000 * long) (fun _ => 0) 1 1 0 0 k (2000000 * k) 0 := by
    intro k
    induction k with
    | zero => intro _; exact .zero
    | succ k ih =>
      intro hk
      have hlt : (if 2000000 * (k : Int) ≤ 0 then 2000000 * (k : Int) else 2000000 * (k : Int) - 2000000 * (long : Int)) -
          (if (0 : Int) ≤ 0 then 0 else 0 - 2000000 * (long : Int)) < micros 1 := by
        unfold micros
        rw [if_pos (Int.le_refl 0)]
        split <;> omega
      have h := Rounds.more (u := 2000000 * (k : Int)) (v := 2000000 * (k : Int)) (ih (by omega)) (by decide)
        (by omega) (by omega) hlt (by omega) (by omega)
      rw [show (2000000 * ((k + 1 : Nat) : Int)) = 2000000 * (k : Int) + 2000000 by push_cast; omega]
      exact h
  exact key long (Nat.le_refl _)

end Verif.Examples
