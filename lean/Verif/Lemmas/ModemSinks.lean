import Verif.Lemmas.ModemTags

/-! Draining the reading thread, and where untagged messages go. -/

namespace Verif.Modem

open Verif Verif.Serial

/-- How many steps the reading thread needs before it reads again. -/
def work : Reader → Nat
  | .reading => 0
  | .next q => 5 * q.length + 1
  | .sync _ _ q => 5 * q.length + 4
  | .syncAppend _ _ _ q => 5 * q.length + 3
  | .syncDone _ q => 5 * q.length + 2
  | .other _ _ q => 5 * q.length + 5
  | .callback _ _ q => 5 * q.length + 4
  | .rebootedCallback _ _ q => 5 * q.length + 4
  | .rebooted _ _ q => 5 * q.length + 4
  | .rebootedAppend _ _ _ q => 5 * q.length + 3
  | .unsolicited _ _ q => 5 * q.length + 4
  | .unsolicitedAppend _ _ _ q => 5 * q.length + 3
  | .dead _ => 0

theorem work_step {s : State} (h : s.reader ≠ .reading) (hd : s.reader.isDead = false) :
    ∃ s', s.step .reader = some s' ∧ s'.reader.isDead = false ∧ work s'.reader < work s.reader := by
  simp only [State.step]
  unfold State.readerStep
  split
  · next hr => exact absurd hr h
  · next hr => rw [hr] at hd; cases hd
  · next hr => exact ⟨_, rfl, rfl, by rw [hr]; simp [work]⟩
  · next hr =>
    split
    · exact ⟨_, rfl, rfl, by rw [hr]; simp [work]; omega⟩
    · exact ⟨_, rfl, rfl, by rw [hr]; simp [work]; omega⟩
  · next hr => exact ⟨_, rfl, rfl, by rw [hr]; simp [work]⟩
  · next hr => exact ⟨_, rfl, rfl, by rw [hr]; simp [work]⟩
  · next hr => exact ⟨_, rfl, rfl, by rw [hr]; simp [work]⟩
  · next hr =>
    split
    · exact ⟨_, rfl, rfl, by rw [hr]; simp [work]⟩
    · split
      · split <;> exact ⟨_, rfl, rfl, by rw [hr]; simp [work]⟩
      · split
        · exact ⟨_, rfl, rfl, by rw [hr]; simp [work]⟩
        · split <;> exact ⟨_, rfl, rfl, by rw [hr]; simp [work]⟩
  all_goals next hr => exact ⟨_, rfl, rfl, by rw [hr]; simp [work]⟩

theorem drains (n : Nat) : ∀ s : State, work s.reader ≤ n → s.reader.isDead = false →
    ∃ k s', s.run (List.replicate k .reader) = some s' ∧ s'.reader = .reading := by
  induction n with
  | zero =>
    intro s hn hd
    refine ⟨0, s, rfl, ?_⟩
    cases hr : s.reader with
    | reading => rfl
    | dead q => rw [hr] at hd; cases hd
    | _ => rw [hr] at hn; simp [work] at hn
  | succ n ih =>
    intro s hn hd
    by_cases hr : s.reader = .reading
    · exact ⟨0, s, rfl, hr⟩
    · obtain ⟨s1, h1, h2, h3⟩ := work_step hr hd
      obtain ⟨k, s2, h4, h5⟩ := ih s1 (by omega) h2
      exact ⟨k + 1, s2, by simp [List.replicate_succ, State.run, h1, h4], h5⟩

/-- The message is a command without a tag. -/
def untagged (m : Msg) : Prop := ∃ c : Command, m = .command c ∧ c.tagId = none

/-- No tag was ever set, so commands without a tag are taken for responses. -/
def NoTag (s : State) : Prop :=
  s.tag = none ∧ s.config.skip = false ∧
  (match s.main with
    | .idle => True
    | .run _ _ _ _ timeout => ¬ timeout > 0) ∧
  (match s.reader with
    | .other t m _ => t ≤ 3 → ¬ untagged m
    | .callback _ m _ => ¬ untagged m
    | .unsolicited _ m _ => ¬ untagged m
    | .unsolicitedAppend _ m _ _ => ¬ untagged m
    | _ => True) ∧
  (∀ m ∈ s.called, ¬ untagged m) ∧ ∀ n, ∀ m ∈ content s.unsolicited n, ¬ untagged m

theorem noTag_startExecute {s : State} (hs : NoTag s) (c : Caller) (cmd : Command) (timeout : Int)
    (h : ¬ timeout > 0) : NoTag (s.startExecute c cmd timeout) := by
  obtain ⟨h1, h2, h3, h4, h5, h6⟩ := hs
  unfold State.startExecute
  simp only [h2, Bool.false_eq_true, if_false]
  split
  · exact ⟨h1, h2, trivial, h4, h5, h6⟩
  · exact ⟨h1, h2, h, h4, h5, h6⟩

theorem noTag_finishExecute {s : State} (hs : NoTag s) (c : Caller) (l : Option Nat) :
    NoTag (s.finishExecute c l) := by
  obtain ⟨h1, h2, h3, h4, h5, h6⟩ := hs
  unfold State.finishExecute
  cases c with
  | app => exact ⟨h1, h2, trivial, h4, h5, h6⟩
  | connectSkip => exact ⟨h1, h2, trivial, h4, h5, h6⟩
  | connect =>
    simp only
    unfold State.finishConnect
    split
    · exact ⟨h1, h2, trivial, h4, h5, h6⟩
    · exact ⟨h1, h2, trivial, h4, h5, h6⟩
    · split <;> exact ⟨h1, h2, trivial, h4, h5, h6⟩

theorem noTag_step {s s' : State} {e : Event} (hs : NoTag s) (he : syncTag e = none)
    (h : s.step e = some s') : NoTag s' := by
  have hs' := hs
  obtain ⟨h1, h2, h3, h4, h5, h6⟩ := hs
  cases e with
  | call c =>
    simp only [State.step] at h
    split at h <;> cases h
    cases c with
    | execute cmd t =>
      refine noTag_startExecute hs' _ _ _ fun ht => ?_
      simp [syncTag, ht] at he
    | connect ca r =>
      simp only [State.startCall]
      split
      · exact ⟨h1, h2, trivial, h4, h5, h6⟩
      · split
        · exact ⟨h1, h2, trivial, h4, h5, h6⟩
        · next hca =>
          have : ca = true := by simpa using hca
          subst this
          cases he
    | clearUnsolicited =>
      exact ⟨h1, h2, trivial, h4, h5, fun n m hm => h6 n m (by
        simpa [State.startCall, State.finish, content_append_nil] using hm)⟩
    | clearRebooted => exact ⟨h1, h2, trivial, h4, h5, h6⟩
  | main =>
    simp only [State.step] at h
    unfold State.mainStep at h
    split at h
    · cases h
    · next hm => rw [hm] at h3; cases h; exact ⟨h1, h2, h3, h4, h5, h6⟩
    · next hm => rw [hm] at h3; cases h; exact ⟨rfl, h2, h3, h4, h5, h6⟩
    · next hm => rw [hm] at h3; cases h; exact ⟨h1, h2, h3, h4, h5, h6⟩
    · next hm =>
      rw [hm] at h3
      cases h
      refine ⟨?_, h2, h3, h4, h5, h6⟩
      simp only at h3 ⊢
      rw [if_neg h3]
      exact h1
    · next hm =>
      rw [hm] at h3
      simp only at h
      split at h <;> cases h
      · refine noTag_finishExecute ?_ _ _
        refine ⟨h1, h2, ?_, h4, h5, h6⟩
        simp only [hm]
        exact h3
      · exact ⟨h1, h2, h3, h4, h5, h6⟩
    · split at h <;> cases h
      exact noTag_finishExecute hs' _ _
  | timeout =>
    simp only [State.step] at h
    unfold State.timeoutStep at h
    split at h <;> cases h
    exact noTag_finishExecute hs' _ _
  | rx bs =>
    simp only [State.step] at h
    unfold State.rxStep at h
    split at h
    · split at h <;> cases h <;> exact ⟨h1, h2, h3, trivial, h5, h6⟩
    · cases h
  | serialError =>
    simp only [State.step] at h
    unfold State.serialErrorStep at h
    split at h <;> cases h
    exact ⟨h1, h2, h3, trivial, h5, h6⟩
  | callbackRaises =>
    simp only [State.step] at h
    unfold State.raiseStep at h
    split at h
    · next hr =>
      rw [hr] at h4; cases h
      refine ⟨h1, h2, h3, trivial, fun m hm => ?_, h6⟩
      rcases List.mem_append.1 hm with hm | hm
      · exact h5 m hm
      · rw [List.mem_singleton.1 hm]; exact h4
    · cases h; exact ⟨h1, h2, h3, trivial, h5, h6⟩
    · cases h
  | reader =>
    simp only [State.step] at h
    unfold State.readerStep at h
    split at h
    · cases h
    · cases h
    · cases h; exact ⟨h1, h2, h3, trivial, h5, h6⟩
    · next t m q hr =>
      split at h
      · cases h; exact ⟨h1, h2, h3, trivial, h5, h6⟩
      · next hx =>
        cases h
        refine ⟨h1, h2, h3, ?_, h5, h6⟩
        rintro ht ⟨c, rfl, hc⟩
        simp [State.isSync, h1, h2, hc, ht] at hx
    · cases h; exact ⟨h1, h2, h3, trivial, h5, h6⟩
    · cases h; exact ⟨h1, h2, h3, trivial, h5, h6⟩
    · cases h; exact ⟨h1, h2, h3, trivial, h5, h6⟩
    · next hr =>
      rw [hr] at h4
      split at h
      · next hx => cases h; exact ⟨h1, h2, h3, h4 hx.2.2, h5, h6⟩
      · split at h
        · split at h <;> cases h <;> exact ⟨h1, h2, h3, trivial, h5, h6⟩
        · split at h
          · cases h; exact ⟨h1, h2, h3, trivial, h5, h6⟩
          · split at h
            · next hx => cases h; exact ⟨h1, h2, h3, h4 hx, h5, h6⟩
            · cases h; exact ⟨h1, h2, h3, trivial, h5, h6⟩
    · next hr =>
      rw [hr] at h4; cases h
      refine ⟨h1, h2, h3, trivial, fun m hm => ?_, h6⟩
      rcases List.mem_append.1 hm with hm | hm
      · exact h5 m hm
      · rw [List.mem_singleton.1 hm]; exact h4
    · cases h; exact ⟨h1, h2, h3, trivial, h5, h6⟩
    · cases h; exact ⟨h1, h2, h3, trivial, h5, h6⟩
    · cases h; exact ⟨h1, h2, h3, trivial, h5, h6⟩
    · next hr => rw [hr] at h4; cases h; exact ⟨h1, h2, h3, h4, h5, h6⟩
    · next hr =>
      rw [hr] at h4; cases h
      refine ⟨h1, h2, h3, trivial, h5, fun n m hm => ?_⟩
      rcases mem_content_modify hm with hm | rfl
      · exact h6 n m hm
      · exact h4

theorem toSink_mem {log : List (Sink × Int × Msg)} {x : Sink × Int × Msg} (h : x ∈ log) :
    x.2.2 ∈ toSink log x.1 := by
  unfold toSink
  refine List.mem_map.2 ⟨x, ?_, rfl⟩
  simp [h]

theorem toSink_sublist (log : List (Sink × Int × Msg)) (k : Sink) :
    (toSink log k).Sublist ((log.map Prod.snd).map Prod.snd) := by
  unfold toSink
  rw [List.map_map]
  exact List.Sublist.map _ List.filter_sublist

end Verif.Modem
