import Verif.Props.GatewayAsync

/-! Helper lemmas: a modem without a callback keeps the messages of nobody in its lists. Such a modem is compared with one
that has a callback: what one keeps is what the other gives to the callback. -/

namespace Verif.Modem.Kept

open Verif Verif.Serial Verif.Modem.Gw

variable {D : Type}

/-- The reading thread of the modem with a callback. -/
def shift : Reader → Reader
  | .unsolicited t m q => .callback t m q
  | .unsolicitedAppend t m _ q => .callback t m q
  | r => r

/-- The modem with a callback. -/
def other (s : State) : State :=
  { s with
    config := { s.config with callback := true }
    connected := true
    called := s.unsolicited.flatten
    unsolicited := s.unsolicited.map fun _ => []
    reader := shift s.reader }

/-- The system with that modem. -/
def image (s : Net D) : Net D := { s with modem := other s.modem }

/-- Where the thread appends is the last list, or only empty lists follow. -/
def Place (u : List (List Msg)) : Reader → Prop
  | .unsolicitedAppend _ _ n _ => n < u.length ∧ ∀ l ∈ u.drop (n + 1), l = []
  | .callback _ _ _ => False
  | _ => True

/-- What is always so. -/
structure Ok (m : State) : Prop where
  keeps : m.config.callback = false ∨ m.connected = false
  called : m.called = []
  some : m.unsolicited ≠ []
  place : Place m.unsolicited m.reader
  app : ∀ stage caller tag f t, m.main = .run stage caller tag f t → caller = .app

theorem place_next (u : List (List Msg)) (q : List (Int × Msg)) : Place u (.next q) := trivial

theorem flatten_modify {n : Nat} {m : Msg} : ∀ {u : List (List Msg)}, n < u.length → (∀ l ∈ u.drop (n + 1), l = []) →
    (u.modify n (· ++ [m])).flatten = u.flatten ++ [m] := by
  induction n with
  | zero =>
    intro u h1 h2
    cases u with
    | nil => simp at h1
    | cons l u =>
      have : u.flatten = [] := List.flatten_eq_nil_iff.2 (by simpa using h2)
      simp [this]
  | succ n ih =>
    intro u h1 h2
    cases u with
    | nil => simp at h1
    | cons l u =>
      simp only [List.modify_succ_cons, List.flatten_cons, List.append_assoc]
      rw [ih (by simpa using h1) (by simpa using h2)]

theorem map_modify {n : Nat} {m : Msg} (u : List (List Msg)) :
    (u.modify n (· ++ [m])).map (fun _ => ([] : List Msg)) = u.map fun _ => [] := by
  apply List.ext_getElem
  · simp
  · intro i h1 h2; simp

theorem reader_step {m m' : State} (h : Ok m) (hs : m.readerStep = some m') :
    Ok m' ∧ ((other m).readerStep = some (other m') ∧ (∀ t x q, m'.reader = .unsolicited t x q → ∃ t x q, m.reader = .other t x q) ∨
      other m' = other m ∧ (∃ t x q, m.reader = .unsolicited t x q) ∧ ∃ t x n q, m'.reader = .unsolicitedAppend t x n q) := by
  obtain ⟨h1, h0, h2, h3, h4⟩ := h
  unfold State.readerStep at hs
  cases hr : m.reader with
  | reading => rw [hr] at hs; cases hs
  | dead q => rw [hr] at hs; cases hs
  | callback t x q => rw [hr] at h3; exact h3.elim
  | next q =>
    rw [hr] at hs
    cases q with
    | nil =>
      simp only [Option.some.injEq] at hs
      subst hs
      exact ⟨⟨h1, h0, h2, trivial, h4⟩, .inl ⟨by simp [State.readerStep, other, shift, hr], by simp⟩⟩
    | cons x q =>
      obtain ⟨t, x⟩ := x
      simp only at hs
      have hi : (other m).isSync t x = m.isSync t x := by cases x <;> rfl
      have hr' : (other m).reader = .next ((t, x) :: q) := by simp [other, shift, hr]
      split at hs <;> simp only [Option.some.injEq] at hs <;> subst hs
      · exact ⟨⟨h1, h0, h2, trivial, h4⟩, .inl ⟨by simp only [State.readerStep, hr', hi, *]; rfl, by simp⟩⟩
      · exact ⟨⟨h1, h0, h2, trivial, h4⟩, .inl ⟨by simp only [State.readerStep, hr', hi, *]; rfl, by simp⟩⟩
  | sync t c q =>
    rw [hr] at hs; simp only [Option.some.injEq] at hs; subst hs
    exact ⟨⟨h1, h0, h2, trivial, h4⟩, .inl ⟨by simp [State.readerStep, other, shift, hr], by simp⟩⟩
  | syncAppend t c n q =>
    rw [hr] at hs; simp only [Option.some.injEq] at hs; subst hs
    exact ⟨⟨h1, h0, h2, trivial, h4⟩, .inl ⟨by simp [State.readerStep, other, shift, hr], by simp⟩⟩
  | syncDone c q =>
    rw [hr] at hs; simp only [Option.some.injEq] at hs; subst hs
    exact ⟨⟨h1, h0, h2, trivial, h4⟩, .inl ⟨by simp [State.readerStep, other, shift, hr], by simp⟩⟩
  | rebootedCallback t c q =>
    rw [hr] at hs; simp only [Option.some.injEq] at hs; subst hs
    exact ⟨⟨h1, h0, h2, trivial, h4⟩, .inl ⟨by simp [State.readerStep, other, shift, hr], by simp⟩⟩
  | rebooted t c q =>
    rw [hr] at hs; simp only [Option.some.injEq] at hs; subst hs
    exact ⟨⟨h1, h0, h2, trivial, h4⟩, .inl ⟨by simp [State.readerStep, other, shift, hr], by simp⟩⟩
  | rebootedAppend t c n q =>
    rw [hr] at hs; simp only [Option.some.injEq] at hs; subst hs
    exact ⟨⟨h1, h0, h2, trivial, h4⟩, .inl ⟨by simp [State.readerStep, other, shift, hr], by simp⟩⟩
  | unsolicited t x q =>
    rw [hr] at hs; simp only [Option.some.injEq] at hs; subst hs
    have hp := List.length_pos_iff.2 h2
    refine ⟨⟨h1, h0, h2, ⟨by simp only; omega, ?_⟩, h4⟩, .inr ⟨by simp [other, shift, hr], ⟨_, _, _, rfl⟩, _, _, _, _, rfl⟩⟩
    rw [show m.unsolicited.length - 1 + 1 = m.unsolicited.length by omega]
    simp
  | unsolicitedAppend t x n q =>
    rw [hr] at hs h3; simp only [Option.some.injEq] at hs; subst hs
    refine ⟨⟨h1, h0, ?_, trivial, h4⟩, .inl ⟨?_, by simp⟩⟩
    · intro h; apply h2; have := congrArg List.length h; simpa using this
    · simp only [State.readerStep, other, shift, hr, flatten_modify h3.1 h3.2, map_modify]
  | other t x q =>
    rw [hr] at hs
    simp only at hs
    have hneg : ¬ (m.config.callback = true ∧ m.connected = true ∧ t ≤ 3) := by
      rintro ⟨a, b, -⟩; rcases h1 with h1 | h1
      · rw [h1] at a; cases a
      · rw [h1] at b; cases b
    rw [if_neg hneg] at hs
    have hr' : (other m).reader = .other t x q := by simp [other, shift, hr]
    refine ⟨?_, .inl ⟨?_, fun _ _ _ _ => ⟨t, x, q, rfl⟩⟩⟩
    · repeat' split at hs
      all_goals (simp only [Option.some.injEq] at hs; subst hs; exact ⟨h1, h0, h2, trivial, h4⟩)
    · simp only [State.readerStep, hr']
      by_cases h5 : t = 5
      · subst h5
        rw [if_pos rfl] at hs
        rw [if_neg (by rintro ⟨-, -, h⟩; omega), if_pos rfl]
        have e : (other m).config.rebootedCallback = m.config.rebootedCallback := rfl
        rw [e]
        split at hs <;> (rename_i hb; simp only [Option.some.injEq] at hs; subst hs; simp only [hb]; rfl)
      · rw [if_neg h5] at hs
        by_cases h6 : t = 4
        · subst h6
          rw [if_pos rfl, Option.some.injEq] at hs
          subst hs
          rw [if_neg (by rintro ⟨-, -, h⟩; omega), if_neg h5, if_pos rfl]
          rfl
        · rw [if_neg h6] at hs
          by_cases h7 : t ≤ 3
          · rw [if_pos h7, Option.some.injEq] at hs
            subst hs
            rw [if_pos ⟨rfl, rfl, h7⟩]
            rfl
          · rw [if_neg h7, Option.some.injEq] at hs
            subst hs
            rw [if_neg (by rintro ⟨-, -, h⟩; omega), if_neg h5, if_neg h6, if_neg h7]
            rfl

theorem rx_step {m m' : State} (h : Ok m) {bytes : List UInt8} (hs : m.rxStep bytes = some m') :
    Ok m' ∧ (other m).rxStep bytes = some (other m') ∧ ∀ t x q, m'.reader ≠ .unsolicited t x q := by
  obtain ⟨h1, h0, h2, h3, h4⟩ := h
  unfold State.rxStep at hs
  cases hr : m.reader with
  | reading =>
    rw [hr] at hs
    have hr' : (other m).reader = .reading := by simp [other, shift, hr]
    have hp : (other m).parser = m.parser := rfl
    simp only at hs
    split at hs <;> (rename_i heq; simp only [Option.some.injEq] at hs; subst hs)
    · exact ⟨⟨h1, h0, h2, trivial, h4⟩, by simp only [State.rxStep, hr', hp, heq]; rfl, by simp⟩
    · exact ⟨⟨h1, h0, h2, trivial, h4⟩, by simp only [State.rxStep, hr', hp, heq]; rfl, by simp⟩
  | _ => rw [hr] at hs; cases hs

theorem main_step {m m' : State} (h : Ok m) (hs : m.mainStep = some m') :
    Ok m' ∧ (other m).mainStep = some (other m') ∧ m'.reader = m.reader := by
  obtain ⟨h1, h0, h2, h3, h4⟩ := h
  unfold State.mainStep at hs
  cases hm : m.main with
  | idle => rw [hm] at hs; cases hs
  | run stage caller tag f t =>
    obtain rfl := h4 _ _ _ _ _ hm
    rw [hm] at hs
    have hm' : (other m).main = .run stage .app tag f t := hm
    have next : ∀ st s', (∃ tg r c, s' = { m with tag := tg, responses := r, completed := c, main := .run st .app tag f t }) →
        Ok s' ∧ s'.reader = m.reader := by
      rintro st s' ⟨tg, r, c, rfl⟩
      exact ⟨⟨h1, h0, h2, h3, by intro a b c d e h; cases h; rfl⟩, rfl⟩
    cases stage with
    | resetList =>
      simp only [Option.some.injEq] at hs
      obtain ⟨a, b⟩ := next .resetTag m' ⟨m.tag, _, m.completed, hs.symm⟩
      subst hs
      exact ⟨a, by simp only [State.mainStep, hm']; rfl, b⟩
    | resetTag =>
      simp only [Option.some.injEq] at hs
      obtain ⟨a, b⟩ := next .resetCompleted m' ⟨none, m.responses, m.completed, hs.symm⟩
      subst hs
      exact ⟨a, by simp only [State.mainStep, hm']; rfl, b⟩
    | resetCompleted =>
      simp only [Option.some.injEq] at hs
      obtain ⟨a, b⟩ := next .setTag m' ⟨m.tag, m.responses, false, hs.symm⟩
      subst hs
      exact ⟨a, by simp only [State.mainStep, hm']; rfl, b⟩
    | setTag =>
      simp only [Option.some.injEq] at hs
      obtain ⟨a, b⟩ := next .write m' ⟨_, m.responses, m.completed, hs.symm⟩
      subst hs
      exact ⟨a, by simp only [State.mainStep, hm']; rfl, b⟩
    | write =>
      simp only at hs
      split at hs <;> (rename_i ht; simp only [Option.some.injEq] at hs; subst hs)
      · refine ⟨⟨h1, h0, h2, h3, by intro a b c d e h; cases h⟩, ?_, rfl⟩
        simp only [State.mainStep, hm']
        rw [if_pos ht]; rfl
      · refine ⟨⟨h1, h0, h2, h3, by intro a b c d e h; cases h; rfl⟩, ?_, rfl⟩
        simp only [State.mainStep, hm']
        rw [if_neg ht]; rfl
    | wait =>
      simp only at hs
      split at hs
      · rename_i ht
        simp only [Option.some.injEq] at hs
        subst hs
        refine ⟨⟨h1, h0, h2, h3, by intro a b c d e h; cases h⟩, ?_, rfl⟩
        simp only [State.mainStep, hm']
        rw [if_pos (show (other m).completed = true from ht)]; rfl
      · cases hs

theorem call_step {m m' : State} (h : Ok m) {c : Call} (hc : ∀ a r, c ≠ .connect a r) (hs : m.step (.call c) = some m') :
    Ok m' ∧ (other m).step (.call c) = some (other m') ∧ m'.reader = m.reader := by
  obtain ⟨h1, h0, h2, h3, h4⟩ := h
  simp only [State.step] at hs ⊢
  have hm' : (other m).main = m.main := rfl
  split at hs
  · rename_i hm
    rw [hm', if_pos hm]
    simp only [Option.some.injEq] at hs ⊢
    cases c with
    | connect a r => exact absurd rfl (hc a r)
    | clearUnsolicited =>
      subst hs
      refine ⟨⟨h1, h0, by simp [State.startCall, State.finish], ?_, by intro a b c d e h; cases h⟩, ?_, rfl⟩
      · simp only [State.startCall, State.finish]
        cases hr : m.reader with
        | unsolicitedAppend t x n q =>
          rw [hr] at h3
          refine ⟨by have := h3.1; simp only [List.length_append]; omega, ?_⟩
          intro l hl
          rw [List.drop_append_of_le_length (by have := h3.1; omega)] at hl
          rcases List.mem_append.1 hl with hl | hl
          · exact h3.2 l hl
          · exact List.mem_singleton.1 hl
        | callback t x q => rw [hr] at h3; exact h3
        | _ => trivial
      · simp [State.startCall, State.finish, other]
    | clearRebooted =>
      subst hs
      exact ⟨⟨h1, h0, h2, h3, by intro a b c d e h; cases h⟩, rfl, rfl⟩
    | execute c t =>
      subst hs
      simp only [State.startCall, State.startExecute]
      have hp : (other m).parser = m.parser := rfl
      have hk : (other m).config.skip = m.config.skip := rfl
      rw [hp, hk]
      split
      · exact ⟨⟨h1, h0, h2, h3, by intro a b c d e h; cases h⟩, rfl, rfl⟩
      · exact ⟨⟨h1, h0, h2, h3, by intro a b c d e h; cases h; rfl⟩, rfl, rfl⟩
  · cases hs

/-- One step of a modem without a callback is one of the modem with a callback, or none. -/
theorem net_step {g : Gateway D} {s s' : Net D} {e : NetEvent} (h : Ok s.modem) (hc : ∀ a r, e ≠ .call (.connect a r))
    (hs : s.step g e = some s') : Ok s'.modem ∧ ((image s).step g e = some (image s') ∧
      ((∃ t x q, s'.modem.reader = .unsolicited t x q) → (∃ t x q, s.modem.reader = .unsolicited t x q) ∨
        ∃ t x q, s.modem.reader = .other t x q) ∨
      e = .reader ∧ image s' = image s ∧ (∃ t x q, s.modem.reader = .unsolicited t x q) ∧
        ∃ t x n q, s'.modem.reader = .unsolicitedAppend t x n q) := by
  cases e with
  | call c =>
    obtain ⟨m, h1, rfl⟩ := Option.map_eq_some_iff.1 hs
    obtain ⟨a, b, d⟩ := call_step h (fun a r hcc => hc a r (by rw [hcc])) h1
    refine ⟨a, .inl ⟨by show Option.map _ _ = _; rw [show (image s).modem = other s.modem from rfl, b]; rfl, ?_⟩⟩
    simp only [d]; exact .inl
  | main =>
    obtain ⟨m, h1, rfl⟩ := Option.map_eq_some_iff.1 hs
    obtain ⟨a, b, d⟩ := main_step h h1
    refine ⟨a, .inl ⟨by show Option.map _ ((other s.modem).mainStep) = _; rw [b]; rfl, ?_⟩⟩
    simp only [d]; exact .inl
  | reader =>
    obtain ⟨m, h1, rfl⟩ := Option.map_eq_some_iff.1 hs
    obtain ⟨a, ⟨b, d⟩ | ⟨b, d⟩⟩ := reader_step h h1
    · exact ⟨a, .inl ⟨by show Option.map _ ((other s.modem).readerStep) = _; rw [b]; rfl,
        fun ⟨t, x, q, e⟩ => .inr (d t x q e)⟩⟩
    · exact ⟨a, .inr ⟨rfl, by simp only [image, b], d⟩⟩
  | read n =>
    simp only [Net.step] at hs ⊢
    split at hs
    · rename_i hl
      obtain ⟨m, h1, rfl⟩ := Option.map_eq_some_iff.1 hs
      obtain ⟨a, b, d⟩ := rx_step h h1
      refine ⟨a, .inl ⟨?_, fun ⟨t, x, q, e⟩ => absurd e (d t x q)⟩⟩
      rw [if_pos (show 0 < n ∧ n ≤ (image s).line.length from hl)]
      show Option.map _ ((other s.modem).rxStep _) = _
      rw [show (image s).line = s.line from rfl, b]; rfl
    · cases hs
  | take =>
    simp only [Net.step] at hs ⊢
    rw [show (image s).modem.written = s.modem.written from rfl, show (image s).taken = s.taken from rfl]
    split at hs
    · cases hs
    · simp only [Option.some.injEq] at hs
      subst hs
      exact ⟨h, .inl ⟨rfl, .inl⟩⟩
  | send k =>
    simp only [Net.step] at hs ⊢
    rw [show (image s).pending = s.pending from rfl]
    split at hs
    · cases hs
    · simp only [Option.some.injEq] at hs
      subst hs
      exact ⟨h, .inl ⟨rfl, .inl⟩⟩
  | log k text =>
    simp only [Net.step] at hs ⊢
    split at hs
    · rename_i hl
      simp only [Option.some.injEq] at hs
      subst hs
      rw [if_pos hl]
      exact ⟨h, .inl ⟨rfl, .inl⟩⟩
    · cases hs
  | reboot k r =>
    simp only [Net.step, Option.some.injEq] at hs ⊢
    subst hs
    exact ⟨h, .inl ⟨rfl, .inl⟩⟩

/-- A step of the modem with a callback means that the other one has one. -/
theorem net_back {g : Gateway D} {s t : Net D} {e : NetEvent} (h : Ok s.modem) (hc : ∀ c, e ≠ .call c)
    (hs : (image s).step g e = some t) : ∃ s', s.step g e = some s' := by
  cases e with
  | call c => exact absurd rfl (hc c)
  | main =>
    obtain ⟨m, h1, rfl⟩ := Option.map_eq_some_iff.1 hs
    have h1 : (other s.modem).mainStep = some m := h1
    unfold State.mainStep at h1
    rw [show (other s.modem).main = s.modem.main from rfl] at h1
    cases hm : s.modem.main with
    | idle => rw [hm] at h1; cases h1
    | run stage caller tag f t =>
      rw [hm] at h1
      cases stage with
      | wait =>
        simp only at h1
        split at h1
        · rename_i hcm
          have hcm : s.modem.completed = true := hcm
          exact ⟨_, by simp only [Net.step, State.step, State.mainStep, hm]; rw [if_pos hcm]; rfl⟩
        · cases h1
      | write =>
        by_cases ht : t = 0
        · exact ⟨_, by simp only [Net.step, State.step, State.mainStep, hm]; rw [if_pos ht]; rfl⟩
        · exact ⟨_, by simp only [Net.step, State.step, State.mainStep, hm]; rw [if_neg ht]; rfl⟩
      | _ => exact ⟨_, by simp only [Net.step, State.step, State.mainStep, hm]; rfl⟩
  | reader =>
    obtain ⟨m, h1, rfl⟩ := Option.map_eq_some_iff.1 hs
    have h1 : (other s.modem).readerStep = some m := h1
    unfold State.readerStep at h1
    have hp : ∃ m', s.modem.readerStep = some m' := by
      unfold State.readerStep
      cases hr : s.modem.reader with
      | reading => simp [other, shift, hr] at h1
      | dead q => simp [other, shift, hr] at h1
      | next q =>
        cases q with
        | nil => exact ⟨_, rfl⟩
        | cons x q => simp only; split <;> exact ⟨_, rfl⟩
      | other t x q =>
        simp only
        repeat' split
        all_goals exact ⟨_, rfl⟩
      | _ => exact ⟨_, rfl⟩
    obtain ⟨m', hm'⟩ := hp
    exact ⟨_, by simp only [Net.step, State.step, hm']; rfl⟩
  | read n =>
    simp only [Net.step] at hs ⊢
    rw [show (image s).line = s.line from rfl] at hs
    split at hs
    · obtain ⟨m, h1, rfl⟩ := Option.map_eq_some_iff.1 hs
      have h1 : (other s.modem).rxStep _ = some m := h1
      have hp : ∃ m', s.modem.rxStep (s.line.take n) = some m' := by
        have hsh : (other s.modem).reader = shift s.modem.reader := rfl
        unfold State.rxStep at h1 ⊢
        rw [hsh] at h1
        cases hr : s.modem.reader with
        | reading =>
          simp only
          split <;> exact ⟨_, rfl⟩
        | _ => rw [hr] at h1; cases h1
      obtain ⟨m', hm'⟩ := hp
      exact ⟨_, by rw [if_pos ‹_›]; simp only [State.step, hm']; rfl⟩
    · cases hs
  | take =>
    simp only [Net.step] at hs ⊢
    rw [show (image s).modem.written = s.modem.written from rfl, show (image s).taken = s.taken from rfl] at hs
    split at hs
    · cases hs
    · exact ⟨_, rfl⟩
  | send k =>
    simp only [Net.step] at hs ⊢
    rw [show (image s).pending = s.pending from rfl] at hs
    split at hs
    · cases hs
    · exact ⟨_, rfl⟩
  | log k text =>
    simp only [Net.step] at hs ⊢
    split at hs
    · exact ⟨_, if_pos ‹_›⟩
    · cases hs
  | reboot k r => exact ⟨_, rfl⟩

/-- A run. -/
theorem net_run {g : Gateway D} {es : List NetEvent} : ∀ {s s' : Net D}, Ok s.modem →
    (∀ a r, .call (.connect a r) ∉ es) → s.run g es = some s' →
    Ok s'.modem ∧ ∃ es', (image s).run g es' = some (image s') ∧ payloads es' = payloads es ∧ ∀ e ∈ es', e ∈ es := by
  induction es with
  | nil =>
    intro s s' h _ hs
    simp only [Net.run, Option.some.injEq] at hs
    subst hs
    exact ⟨h, [], rfl, rfl, by simp⟩
  | cons e es ih =>
    intro s s' h hn hs
    obtain ⟨s1, h1, h2⟩ := net_cons hs
    obtain ⟨a, b⟩ := net_step h (fun a r he => hn a r (by simp [he])) h1
    obtain ⟨a', es', c1, c2, c3⟩ := ih a (fun a r he => hn a r (by simp [he])) h2
    refine ⟨a', ?_⟩
    rcases b with ⟨b, -⟩ | ⟨rfl, b, -⟩
    · refine ⟨e :: es', ?_, ?_, ?_⟩
      · show Option.bind _ _ = _
        rw [b]; exact c1
      · rw [Gwa.payloads_cons, Gwa.payloads_cons e es, c2]
      · intro x hx
        rcases List.mem_cons.1 hx with rfl | hx
        · simp
        · simp [c3 x hx]
    · exact ⟨es', by rw [← b]; exact c1, by rw [c2]; rfl, fun x hx => by simp [c3 x hx]⟩

/-- The start. -/
theorem idle_image {s : Net D} (h : Gw.Idle s) : Gw.Idle (image s) := by
  obtain ⟨fs, ⟨h1, h2, h3, h4⟩, h5, h6, h7, h8⟩ := h
  have hr : shift s.modem.reader = s.modem.reader := by
    cases hr : s.modem.reader with
    | unsolicited t x q => rw [hr] at h2; exact h2.elim
    | unsolicitedAppend t x n q => rw [hr] at h2; exact h2.elim
    | _ => rfl
  refine ⟨fs, ⟨h1, ?_, ?_, h4⟩, h5, h6, List.flatten_eq_nil_iff.2 h8, ?_⟩
  · show Minor (shift s.modem.reader); rw [hr]; exact h2
  · show ∀ x ∈ waiting (shift s.modem.reader) fs, Note x; rw [hr]; exact h3
  · intro l hl
    obtain ⟨x, -, rfl⟩ := List.mem_map.1 hl
    rfl

theorem ok_idle {s : Net D} (h : Gw.Idle s) (hk : s.modem.config.callback = false ∨ s.modem.connected = false)
    (hu : s.modem.unsolicited ≠ []) : Ok s.modem := by
  obtain ⟨fs, ⟨h1, h2, h3, h4⟩, h5, h6, h7, h8⟩ := h
  refine ⟨hk, h7, hu, ?_, by intro a b c d e h; rw [h6] at h; cases h⟩
  cases hr : s.modem.reader with
  | unsolicitedAppend t x n q => rw [hr] at h2; exact h2.elim
  | callback t x q => rw [hr] at h2; exact h2.elim
  | _ => trivial

/-- One more step for a message that is about to be kept. -/
def extra : Reader → Nat
  | .unsolicited _ _ _ => 1
  | _ => 0

theorem extra_le (r : Reader) : extra r ≤ 1 := by cases r <;> simp [extra]

/-- Steps without calls. -/
theorem rest_run {g : Gateway D} {es : List NetEvent} : ∀ {o s s' : Net D} {n ps done rs}, Ok s.modem →
    Gwa.Flow g o (image s) n ps done rs → (∀ c, .call c ∉ es) → s.run g es = some s' →
    ∃ done' rs', Ok s'.modem ∧ Gwa.Flow g o (image s') n ps done' rs' ∧
      es.length + (2 * Gwa.left g (image s') (ps.drop done'.length) + extra s'.modem.reader) ≤
        2 * Gwa.left g (image s) (ps.drop done.length) + extra s.modem.reader + 22 * noticeBytes es := by
  induction es with
  | nil =>
    intro o s s' n ps done rs hk h _ hs
    simp only [Net.run, Option.some.injEq] at hs
    subst hs
    exact ⟨done, rs, hk, h, by simp⟩
  | cons e es ih =>
    intro o s s' n ps done rs hk h hb hs
    obtain ⟨s1, h1, h2⟩ := net_cons hs
    obtain ⟨a, ⟨b, -⟩ | ⟨rfl, b, ⟨t, x, q, c⟩, t', x', n', q', d⟩⟩ := net_step hk (fun a r he => hb (.connect a r) (by rw [he]; exact List.mem_cons_self)) h1
    · obtain ⟨done', rs', h3, h4⟩ := Gwa.flow_step h (fun c hce => hb c (by simp [hce])) b
      obtain ⟨done2, rs2, h5, h6, h7⟩ := ih a h3 (fun c hx => hb c (by simp [hx])) h2
      refine ⟨done2, rs2, h5, h6, ?_⟩
      have := extra_le s1.modem.reader
      rw [noticeBytes_cons, List.length_cons]
      omega
    · obtain ⟨done2, rs2, h5, h6, h7⟩ := ih a (by rw [b]; exact h) (fun c hx => hb c (by simp [hx])) h2
      refine ⟨done2, rs2, h5, h6, ?_⟩
      rw [b, d] at h7
      rw [c]
      simp only [extra] at h7 ⊢
      rw [noticeBytes_cons, List.length_cons]
      omega

theorem settled_image {s : Net D} : (image s).Settled → s.Settled := by
  rintro ⟨h1, h2, h3, h4, h5⟩
  refine ⟨h1, h2, h3, h4, ?_⟩
  have h5 : shift s.modem.reader = .reading := h5
  cases hr : s.modem.reader with
  | reading => rfl
  | _ => rw [hr] at h5; cases h5

theorem settled_of {s : Net D} : s.Settled → (image s).Settled := by
  rintro ⟨h1, h2, h3, h4, h5⟩
  refine ⟨h1, h2, h3, h4, ?_⟩
  show shift s.modem.reader = .reading
  rw [h5]; rfl

/-! ### What a flow says -/

theorem flow_called {g : Gateway D} {o s : Net D} {n ps done rs} (h : Gwa.Flow g o s n ps done rs) :
    done <+: ps ∧ s.data = (g.replies o.data done).1 ∧ Meaning (g.replies o.data done).2 rs ∧
      s.modem.called <+: rs.map Msg.command := by
  obtain ⟨todo, fs, pr, ht, hh, hme⟩ := h
  refine ⟨?_, ht.data, hme, ?_⟩
  · have h2 := ht.main
    cases hmn : s.modem.main with
    | idle => rw [hmn] at h2; rw [show ps = done ++ todo from h2]; exact List.prefix_append _ _
    | run stage caller tag f t =>
      rw [hmn] at h2
      obtain ⟨-, -, -, -, p, h3, -⟩ := h2
      rw [h3, List.append_assoc]; exact List.prefix_append _ _
  · rw [← hh.order]; exact List.prefix_append _ _

theorem flow_settled {g : Gateway D} {o s : Net D} {n ps done rs} (h : Gwa.Flow g o s n ps done rs) (hs : s.Settled) :
    s.data = (g.replies o.data ps).1 ∧ Meaning (g.replies o.data ps).2 rs ∧ s.modem.called = rs.map Msg.command := by
  obtain ⟨todo, fs, pr, ht, hh, hme⟩ := h
  have h2 := ht.main
  rw [hs.main] at h2
  have h3 : ps = done ++ todo := h2
  have h4 : todo = [] := by
    cases todo with
    | nil => rfl
    | cons p todo =>
      have h5 := hs.taken
      rw [ht.taken, ht.written, framesFrom_append] at h5
      simp [framesFrom, frame_length] at h5
  have h5 : pr = [] := by
    have := hh.pend
    rw [hs.pending] at this
    cases this; rfl
  have h6 : fs = [] := hh.wire.empty hs.line
  subst h4 h5 h6
  rw [List.append_nil] at h3
  rw [h3]
  refine ⟨ht.data, hme, ?_⟩
  have h7 := hh.order
  rw [hs.reader] at h7
  simpa [Gwa.handing, waiting, queued] using h7

/-! ### Without `clear_unsolicited_responses_received` -/

/-- Only the last list has anything in it. -/
def Single (m : State) : Prop :=
  ∃ k l, m.unsolicited = List.replicate k [] ++ [l] ∧ ∀ t x n q, m.reader = .unsolicitedAppend t x n q → n = k

theorem modify_last {α : Type} (n : Nat) (l : List α) (f : List α → List α) :
    (List.replicate n [] ++ [l]).modify n f = List.replicate n [] ++ [f l] := by
  induction n with
  | zero => rfl
  | succ n ih => simp only [List.replicate_succ, List.cons_append, List.modify_succ_cons, ih]

theorem single_modem {m m' : State} {e : Event} (h : Single m) (hk : Ok m) (hc : e ≠ .call .clearUnsolicited)
    (hd : ∀ a r, e ≠ .call (.connect a r)) (hs : m.step e = some m') : Single m' := by
  obtain ⟨k, l, h1, h2⟩ := h
  have same : m'.unsolicited = m.unsolicited → (∀ t x n q, m'.reader = .unsolicitedAppend t x n q → m'.reader = m.reader) →
      Single m' := by
    intro a b
    refine ⟨k, l, by rw [a, h1], ?_⟩
    intro t x n q hr
    exact h2 t x n q (by rw [← b t x n q hr, hr])
  cases e with
  | call c =>
    simp only [State.step] at hs
    split at hs
    · simp only [Option.some.injEq] at hs
      subst hs
      cases c with
      | clearUnsolicited => exact absurd rfl hc
      | clearRebooted => exact same rfl fun _ _ _ _ _ => rfl
      | connect a r => exact absurd rfl (hd a r)
      | execute c t =>
        simp only [State.startCall, State.startExecute] at same ⊢
        split at same <;> exact same rfl fun _ _ _ _ _ => rfl
    · cases hs
  | main =>
    simp only [State.step, State.mainStep] at hs
    cases hm : m.main with
    | idle => rw [hm] at hs; cases hs
    | run stage caller tag f t =>
      obtain rfl := hk.app _ _ _ _ _ hm
      rw [hm] at hs
      cases stage with
      | write =>
        simp only [State.finishExecute] at hs
        split at hs <;> (simp only [Option.some.injEq] at hs; subst hs; exact same rfl fun _ _ _ _ _ => rfl)
      | wait =>
        simp only [State.finishExecute] at hs
        split at hs
        · simp only [Option.some.injEq] at hs; subst hs; exact same rfl fun _ _ _ _ _ => rfl
        · cases hs
      | _ => simp only [Option.some.injEq] at hs; subst hs; exact same rfl fun _ _ _ _ _ => rfl
  | timeout =>
    simp only [State.step, State.timeoutStep] at hs
    cases hm : m.main with
    | idle => rw [hm] at hs; cases hs
    | run stage caller tag f t =>
      obtain rfl := hk.app _ _ _ _ _ hm
      rw [hm] at hs
      cases stage with
      | wait =>
        simp only [State.finishExecute, Option.some.injEq] at hs; subst hs; exact same rfl fun _ _ _ _ _ => rfl
      | _ => cases hs
  | rx bytes =>
    simp only [State.step, State.rxStep] at hs
    split at hs
    · split at hs <;> (simp only [Option.some.injEq] at hs; subst hs; exact same rfl (by simp))
    · cases hs
  | callbackRaises =>
    simp only [State.step, State.raiseStep] at hs
    split at hs
    · simp only [Option.some.injEq] at hs; subst hs; exact same rfl (by simp)
    · simp only [Option.some.injEq] at hs; subst hs; exact same rfl (by simp)
    · cases hs
  | serialError =>
    simp only [State.step, State.serialErrorStep] at hs
    split at hs
    · simp only [Option.some.injEq] at hs; subst hs; exact same rfl (by simp)
    · cases hs
  | reader =>
    simp only [State.step, State.readerStep] at hs
    cases hr : m.reader with
    | reading => rw [hr] at hs; cases hs
    | dead q => rw [hr] at hs; cases hs
    | next q =>
      rw [hr] at hs
      cases q with
      | nil => simp only [Option.some.injEq] at hs; subst hs; exact same rfl (by simp)
      | cons x q =>
        simp only at hs
        split at hs <;> (simp only [Option.some.injEq] at hs; subst hs; exact same rfl (by simp))
    | other t x q =>
      rw [hr] at hs
      simp only at hs
      repeat' split at hs
      all_goals (simp only [Option.some.injEq] at hs; subst hs; exact same rfl (by simp))
    | unsolicited t x q =>
      rw [hr] at hs
      simp only [Option.some.injEq] at hs
      subst hs
      refine ⟨k, l, h1, ?_⟩
      intro t x n q hx
      simp only [h1, List.length_append, List.length_replicate, List.length_singleton, Nat.add_sub_cancel,
        Reader.unsolicitedAppend.injEq] at hx
      exact hx.2.2.1.symm
    | unsolicitedAppend t x n q =>
      obtain rfl := h2 _ _ _ _ hr
      rw [hr] at hs
      simp only [Option.some.injEq] at hs
      subst hs
      refine ⟨n, l ++ [x], ?_, by simp⟩
      simp only [h1]
      exact modify_last n l _
    | _ => rw [hr] at hs; simp only [Option.some.injEq] at hs; subst hs; exact same rfl (by simp)

theorem single_step {g : Gateway D} {s s' : Net D} {e : NetEvent} (h : Single s.modem) (hk : Ok s.modem)
    (hc : e ≠ .call .clearUnsolicited) (hd : ∀ a r, e ≠ .call (.connect a r)) (hs : s.step g e = some s') :
    Single s'.modem := by
  cases e with
  | call c =>
    obtain ⟨m, h1, rfl⟩ := Option.map_eq_some_iff.1 hs
    exact single_modem h hk (by simpa using hc) (by simpa using hd) h1
  | main => obtain ⟨m, h1, rfl⟩ := Option.map_eq_some_iff.1 hs; exact single_modem h hk (by simp) (by simp) h1
  | reader => obtain ⟨m, h1, rfl⟩ := Option.map_eq_some_iff.1 hs; exact single_modem h hk (by simp) (by simp) h1
  | read n =>
    simp only [Net.step] at hs
    split at hs
    · obtain ⟨m, h1, rfl⟩ := Option.map_eq_some_iff.1 hs; exact single_modem h hk (by simp) (by simp) h1
    · cases hs
  | take =>
    simp only [Net.step] at hs
    split at hs
    · cases hs
    · cases hs; exact h
  | send k =>
    simp only [Net.step] at hs
    split at hs
    · cases hs
    · cases hs; exact h
  | log k text =>
    simp only [Net.step] at hs
    split at hs
    · cases hs; exact h
    · cases hs
  | reboot k r => simp only [Net.step, Option.some.injEq] at hs; subst hs; exact h

theorem single_run {g : Gateway D} {es : List NetEvent} : ∀ {s s' : Net D}, Single s.modem → Ok s.modem →
    .call .clearUnsolicited ∉ es → (∀ a r, .call (.connect a r) ∉ es) → s.run g es = some s' → Single s'.modem := by
  induction es with
  | nil => intro s s' h _ _ _ hs; cases hs; exact h
  | cons e es ih =>
    intro s s' h hk hc hd hs
    obtain ⟨s1, h1, h2⟩ := net_cons hs
    have hd' : ∀ a r, e ≠ .call (.connect a r) := fun a r he => hd a r (by simp [he])
    exact ih (single_step h hk (fun he => hc (by simp [he])) hd' h1) (net_step hk hd' h1).1
      (fun he => hc (by simp [he])) (fun a r he => hd a r (by simp [he])) h2

theorem single_idle {s : Net D} (h : Gw.Idle s) (hu : s.modem.unsolicited ≠ []) : Single s.modem := by
  obtain ⟨fs, ⟨h1, h2, h3, h4⟩, h5, h6, h7, h8⟩ := h
  refine ⟨s.modem.unsolicited.length - 1, [], ?_, ?_⟩
  · have hp := List.length_pos_iff.2 hu
    rw [List.eq_replicate_of_mem h8, ← List.replicate_succ']
    congr 1
    simp; omega
  · intro t x n q hr
    rw [hr] at h2; exact h2.elim

end Verif.Modem.Kept
