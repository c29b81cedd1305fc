import Verif.Spec.Pushes
import Verif.Lemmas.ModemCalls
import Verif.Props.Modem

/-! Messages that nobody asked for: the invariant. -/

namespace Verif.Modem.Pu

open Verif Verif.Serial Verif.Modem

/-- The call in progress will compare with a tag in `T`. -/
def MainOk (T : Option Int → Prop) (s : State) : Prop :=
  match s.main with
  | .idle => True
  | .run st _ tag _ timeout =>
    T (if timeout > 0 then tag else none) ∧ (st = .resetCompleted ∨ st = .setTag → s.tag = none)

/-- Where a message being handed over goes. -/
def ReaderOk (T : Option Int → Prop) : Reader → Prop
  | .sync _ c _ => T c.tagId
  | .syncAppend _ c _ _ => T c.tagId
  | .callback t _ _ => t ≤ 3
  | .rebootedCallback t _ _ => 3 < t
  | .rebooted t _ _ => 3 < t
  | .rebootedAppend t _ _ _ => 3 < t
  | .unsolicited _ _ _ => False
  | .unsolicitedAppend _ _ _ _ => False
  | _ => True

/-- Something was written, or is about to be. -/
def Begun (s : State) : Prop :=
  s.written ≠ [] ∨ ∃ c tag f t, s.main = .run .write c tag f t

/-- From the start on. -/
structure Early (T : Option Int → Prop) (s : State) : Prop where
  skip : s.config.skip = false
  main : MainOk T s
  tag : resetting s.main = false → Begun s → T s.tag

/-- From the first command on. -/
structure Ready (T : Option Int → Prop) (s : State) : Prop where
  skip : s.config.skip = false
  callback : s.config.callback = true
  connected : s.connected = true
  main : MainOk T s
  tag : resetting s.main = false → T s.tag
  reader : ReaderOk T s.reader

/-- Nothing but the call in progress changed. -/
structure Rest (s s' : State) : Prop where
  config : s'.config = s.config
  connected : s.connected = true → s'.connected = true
  tag : s'.tag = s.tag
  reader : s'.reader = s.reader
  received : s'.received = s.received
  called : s'.called = s.called
  written : s'.written = s.written

theorem Rest.refl (s : State) : Rest s s := ⟨rfl, id, rfl, rfl, rfl, rfl, rfl⟩

theorem finishExecute_rest (s : State) (caller : Caller) (l : Option Nat) :
    Rest s (s.finishExecute caller l) ∧ (s.finishExecute caller l).main = .idle := by
  cases caller with
  | app => exact ⟨⟨rfl, id, rfl, rfl, rfl, rfl, rfl⟩, rfl⟩
  | connectSkip => exact ⟨⟨rfl, id, rfl, rfl, rfl, rfl, rfl⟩, rfl⟩
  | connect =>
    simp only [State.finishExecute]
    unfold State.finishConnect
    split
    · exact ⟨⟨rfl, id, rfl, rfl, rfl, rfl, rfl⟩, rfl⟩
    · exact ⟨⟨rfl, id, rfl, rfl, rfl, rfl, rfl⟩, rfl⟩
    · split
      · exact ⟨⟨rfl, id, rfl, rfl, rfl, rfl, rfl⟩, rfl⟩
      · exact ⟨⟨rfl, fun h => by simp [State.finish, h], rfl, rfl, rfl, rfl, rfl⟩, rfl⟩

theorem startExecute_rest (s : State) (caller : Caller) (cmd : Command) (timeout : Int)
    (hk : s.config.skip = false) :
    Rest s (s.startExecute caller cmd timeout) ∧ ((s.startExecute caller cmd timeout).main = .idle ∨
      ∃ f, (s.startExecute caller cmd timeout).main = .run .resetList caller cmd.tagId f timeout) := by
  unfold State.startExecute
  simp only [hk]
  split
  · exact ⟨⟨rfl, id, rfl, rfl, rfl, rfl, rfl⟩, .inl rfl⟩
  · exact ⟨⟨rfl, id, rfl, rfl, rfl, rfl, rfl⟩, .inr ⟨_, rfl⟩⟩

theorem startCall_rest {T : Option Int → Prop} {s : State} {c : Call} (hk : s.config.skip = false)
    (hm : s.main = .idle) (hT : ∀ t, awaited (.call c) = some t → T t) :
    Rest s (s.startCall c) ∧ ((s.startCall c).main = .idle ∨
      ∃ k tag f t, (s.startCall c).main = .run .resetList k tag f t ∧ T (if t > 0 then tag else none)) := by
  cases c with
  | execute cmd t =>
    obtain ⟨h1, h2 | ⟨f, h2⟩⟩ := startExecute_rest s .app cmd t hk
    · exact ⟨h1, .inl h2⟩
    · exact ⟨h1, .inr ⟨_, _, _, _, h2, hT _ rfl⟩⟩
  | connect ca r =>
    simp only [State.startCall]
    split
    · exact ⟨⟨rfl, id, rfl, rfl, rfl, rfl, rfl⟩, .inl rfl⟩
    · split
      · exact ⟨⟨rfl, fun _ => rfl, rfl, rfl, rfl, rfl, rfl⟩, .inl rfl⟩
      · next hca =>
        have : ca = true := by simpa using hca
        subst this
        split
        · exact ⟨⟨rfl, id, rfl, rfl, rfl, rfl, rfl⟩, .inl rfl⟩
        · next cmd hcmd =>
          rw [hk]
          simp only [Bool.false_eq_true, if_false]
          obtain ⟨h1, h2 | ⟨f, h2⟩⟩ := startExecute_rest s .connect cmd 10 hk
          · exact ⟨h1, .inl h2⟩
          · refine ⟨h1, .inr ⟨_, _, _, _, h2, ?_⟩⟩
            rw [if_pos (by decide), infoCommand_tag hcmd]
            exact hT _ rfl
  | clearUnsolicited => exact ⟨⟨rfl, id, rfl, rfl, rfl, rfl, rfl⟩, .inl rfl⟩
  | clearRebooted => exact ⟨⟨rfl, id, rfl, rfl, rfl, rfl, rfl⟩, .inl rfl⟩

/-- A step of the application thread. -/
theorem mainStep_cases {T : Option Int → Prop} {s s' : State} (hm : MainOk T s)
    (h : s.mainStep = some s') :
    s'.config = s.config ∧ (s.connected = true → s'.connected = true) ∧ s'.reader = s.reader ∧
    s'.received = s.received ∧ s'.called = s.called ∧ MainOk T s' ∧
    (resetting s'.main = false →
      (T s'.tag ∧ ∃ c tag f t, s'.main = .run .write c tag f t) ∨
      (resetting s.main = false ∧ s'.tag = s.tag ∧ (Begun s' → Begun s))) := by
  unfold State.mainStep at h
  unfold MainOk at hm
  split at h
  · cases h
  · next hmm =>
    cases h; rw [hmm] at hm
    exact ⟨rfl, id, rfl, rfl, rfl, ⟨hm.1, fun h => by rcases h with h | h <;> cases h⟩, fun h => by cases h⟩
  · next hmm =>
    cases h; rw [hmm] at hm
    exact ⟨rfl, id, rfl, rfl, rfl, ⟨hm.1, fun _ => rfl⟩, fun h => by cases h⟩
  · next hmm =>
    cases h; rw [hmm] at hm
    exact ⟨rfl, id, rfl, rfl, rfl, ⟨hm.1, fun _ => hm.2 (.inl rfl)⟩, fun h => by cases h⟩
  · next hmm =>
    cases h; rw [hmm] at hm
    refine ⟨rfl, id, rfl, rfl, rfl, ⟨hm.1, fun h => by rcases h with h | h <;> cases h⟩, fun _ => .inl ⟨?_, _, _, _, _, rfl⟩⟩
    have h2 := hm.2 (.inr rfl)
    have h1 := hm.1
    simp only [h2]
    exact h1
  · next caller tag f t hmm =>
    rw [hmm] at hm
    have hb : Begun s := .inr ⟨_, _, _, _, hmm⟩
    simp only at h
    split at h
    · cases h
      obtain ⟨hr, hi⟩ := finishExecute_rest { s with written := s.written ++ f } caller none
      refine ⟨hr.config, hr.connected, hr.reader, hr.received, hr.called, ?_, fun _ => .inr ⟨?_, hr.tag, fun _ => hb⟩⟩
      · unfold MainOk; rw [hi]; trivial
      · rw [hmm]; rfl
    · cases h
      refine ⟨rfl, id, rfl, rfl, rfl, ⟨hm.1, fun h => by rcases h with h | h <;> cases h⟩,
        fun _ => .inr ⟨by rw [hmm]; rfl, rfl, fun _ => hb⟩⟩
  · next caller tag f t hmm =>
    split at h
    · cases h
      obtain ⟨hr, hi⟩ := finishExecute_rest s caller (some (s.responses.length - 1))
      refine ⟨hr.config, hr.connected, hr.reader, hr.received, hr.called, ?_, fun _ => .inr ⟨?_, hr.tag, ?_⟩⟩
      · unfold MainOk; rw [hi]; trivial
      · rw [hmm]; rfl
      · rintro (hb | ⟨_, _, _, _, hb⟩)
        · exact .inl (by rw [← hr.written]; exact hb)
        · rw [hi] at hb; cases hb
    · cases h

theorem timeoutStep_cases {T : Option Int → Prop} {s s' : State} (h : s.timeoutStep = some s') :
    Rest s s' ∧ MainOk T s' ∧ resetting s.main = false ∧ (Begun s' → Begun s) := by
  unfold State.timeoutStep at h
  split at h
  · next caller tag f t hmm =>
    cases h
    obtain ⟨hr, hi⟩ := finishExecute_rest s caller
      (if s.completed then some (s.responses.length - 1) else none)
    refine ⟨hr, ?_, by rw [hmm]; rfl, ?_⟩
    · unfold MainOk; rw [hi]; trivial
    · rintro (hb | ⟨_, _, _, _, hb⟩)
      · exact .inl (by rw [← hr.written]; exact hb)
      · rw [hi] at hb; cases hb
  · cases h

/-- What the reading thread leaves alone. -/
structure Same (s s' : State) : Prop where
  config : s'.config = s.config
  connected : s'.connected = s.connected
  tag : s'.tag = s.tag
  main : s'.main = s.main
  written : s'.written = s.written

/-- The events of the reading thread. -/
theorem readerEvent_same {s s' : State} {e : Event}
    (he : (∃ bs, e = .rx bs) ∨ e = .reader ∨ e = .callbackRaises ∨ e = .serialError)
    (h : s.step e = some s') : Same s s' := by
  rcases he with ⟨bs, rfl⟩ | rfl | rfl | rfl
  · simp only [State.step, State.rxStep] at h
    repeat' split at h
    all_goals first | cases h; done | (cases h; exact ⟨rfl, rfl, rfl, rfl, rfl⟩)
  · simp only [State.step, State.readerStep] at h
    repeat' split at h
    all_goals first | cases h; done | (cases h; exact ⟨rfl, rfl, rfl, rfl, rfl⟩)
  · simp only [State.step, State.raiseStep] at h
    repeat' split at h
    all_goals first | cases h; done | (cases h; exact ⟨rfl, rfl, rfl, rfl, rfl⟩)
  · simp only [State.step, State.serialErrorStep] at h
    repeat' split at h
    all_goals first | cases h; done | (cases h; exact ⟨rfl, rfl, rfl, rfl, rfl⟩)

theorem mainOk_same {T : Option Int → Prop} {s s' : State} (h : Same s s') (hm : MainOk T s) :
    MainOk T s' := by
  unfold MainOk at hm ⊢
  rw [h.main, h.tag]; exact hm

theorem mainOk_call {T : Option Int → Prop} {s' : State} (h : s'.main = .idle ∨
      ∃ k tag f t, s'.main = .run .resetList k tag f t ∧ T (if t > 0 then tag else none)) : MainOk T s' := by
  unfold MainOk
  rcases h with h | ⟨k, tag, f, t, h, hT⟩
  · rw [h]; trivial
  · rw [h]; exact ⟨hT, fun h => by rcases h with h | h <;> cases h⟩

theorem early_step {T : Option Int → Prop} {s s' : State} {e : Event} (hs : Early T s)
    (hT : ∀ t, awaited e = some t → T t) (h : s.step e = some s') : Early T s' := by
  have reader : ((∃ bs, e = .rx bs) ∨ e = .reader ∨ e = .callbackRaises ∨ e = .serialError) → Early T s' := by
    intro he
    have hq := readerEvent_same he h
    refine ⟨by rw [hq.config]; exact hs.skip, mainOk_same hq hs.main, fun hr hb => ?_⟩
    rw [hq.tag]
    refine hs.tag (by rw [← hq.main]; exact hr) ?_
    unfold Begun at hb ⊢
    rw [hq.written, hq.main] at hb
    exact hb
  cases e with
  | call c =>
    simp only [State.step] at h
    split at h <;> cases h
    next hi =>
    obtain ⟨hr, hm⟩ := startCall_rest hs.skip hi hT
    refine ⟨by rw [hr.config]; exact hs.skip, mainOk_call hm, fun hq hb => ?_⟩
    rw [hr.tag]
    refine hs.tag (by rw [hi]; rfl) ?_
    rcases hb with hb | ⟨_, _, _, _, hb⟩
    · exact .inl (by rw [← hr.written]; exact hb)
    · rcases hm with hm | ⟨_, _, _, _, hm, _⟩ <;> rw [hm] at hb <;> cases hb
  | main =>
    obtain ⟨h1, -, -, -, -, h2, h3⟩ := mainStep_cases hs.main h
    refine ⟨by rw [h1]; exact hs.skip, h2, fun hq hb => ?_⟩
    rcases h3 hq with h | ⟨ha, hb', hc⟩
    · exact h.1
    · rw [hb']; exact hs.tag ha (hc hb)
  | timeout =>
    obtain ⟨hr, h2, h3, h4⟩ := timeoutStep_cases (T := T) h
    exact ⟨by rw [hr.config]; exact hs.skip, h2, fun _ hb => by rw [hr.tag]; exact hs.tag h3 (h4 hb)⟩
  | rx bs => exact reader (.inl ⟨bs, rfl⟩)
  | reader => exact reader (.inr (.inl rfl))
  | callbackRaises => exact reader (.inr (.inr (.inl rfl)))
  | serialError => exact reader (.inr (.inr (.inr rfl)))

theorem early_init (T : Option Int → Prop) (config : Config) (hk : config.skip = false) :
    Early T (init config) :=
  ⟨hk, trivial, fun _ h => by rcases h with h | ⟨_, _, _, _, h⟩; exacts [absurd rfl h, by cases h]⟩

/-- From `s` to `s'` the callback got the messages `u` picks, and no other of them is gone. -/
def Passed (u : Msg → Option Command) (s s' : State) : Prop :=
  ∃ new calls, s'.received = s.received ++ new ∧ s'.called = s.called ++ calls ∧
    calls.filterMap u ++ (pending s'.reader).filterMap (fun x => if x.1 ≤ 3 then u x.2 else none) =
      (pending s.reader ++ new).filterMap (fun x => if x.1 ≤ 3 then u x.2 else none)

theorem Passed.none {u : Msg → Option Command} {s s' : State} (h1 : s'.received = s.received)
    (h2 : s'.called = s.called) (h3 : s'.reader = s.reader) : Passed u s s' :=
  ⟨[], [], by simp [h1], by simp [h2], by simp [h3]⟩

theorem Passed.trans {u : Msg → Option Command} {s s1 s' : State} (h1 : Passed u s s1)
    (h2 : Passed u s1 s') : Passed u s s' := by
  obtain ⟨n1, c1, a1, b1, d1⟩ := h1
  obtain ⟨n2, c2, a2, b2, d2⟩ := h2
  refine ⟨n1 ++ n2, c1 ++ c2, by rw [a2, a1, List.append_assoc], by rw [b2, b1, List.append_assoc], ?_⟩
  rw [List.filterMap_append, List.append_assoc, d2, List.filterMap_append, ← List.append_assoc, d1,
    ← List.append_assoc, ← List.filterMap_append]

theorem ready_step {T : Option Int → Prop} {u : Msg → Option Command}
    (hu : ∀ c, T c.tagId → u (.command c) = none) {s s' : State} {e : Event}
    (hs : Ready T s) (hT : ∀ t, awaited e = some t → T t)
    (hc : resetting s.main = true → handingAlp s.reader = false ∧ (e = .reader → nextAlp s.reader = false))
    (h : s.step e = some s') : Ready T s' ∧ Passed u s s' := by
  have reader : ((∃ bs, e = .rx bs) ∨ e = .reader ∨ e = .callbackRaises ∨ e = .serialError) →
      ReaderOk T s'.reader → Ready T s' := by
    intro he hr
    have hq := readerEvent_same he h
    exact ⟨by rw [hq.config]; exact hs.skip, by rw [hq.config]; exact hs.callback,
      by rw [hq.connected]; exact hs.connected, mainOk_same hq hs.main,
      fun h => by rw [hq.tag]; exact hs.tag (by rw [← hq.main]; exact h), hr⟩
  cases e with
  | call c =>
    simp only [State.step] at h
    split at h <;> cases h
    next hi =>
    obtain ⟨hr, hm⟩ := startCall_rest hs.skip hi hT
    refine ⟨⟨by rw [hr.config]; exact hs.skip, by rw [hr.config]; exact hs.callback,
      hr.connected hs.connected, mainOk_call hm, fun hq => ?_, by rw [hr.reader]; exact hs.reader⟩,
      .none hr.received hr.called hr.reader⟩
    rw [hr.tag]
    exact hs.tag (by rw [hi]; rfl)
  | main =>
    obtain ⟨h1, h2, h3, h4, h5, h6, h7⟩ := mainStep_cases hs.main h
    refine ⟨⟨by rw [h1]; exact hs.skip, by rw [h1]; exact hs.callback, h2 hs.connected, h6,
      fun hq => ?_, by rw [h3]; exact hs.reader⟩, .none h4 h5 h3⟩
    rcases h7 hq with h | ⟨ha, hb, -⟩
    · exact h.1
    · rw [hb]; exact hs.tag ha
  | timeout =>
    obtain ⟨hr, h2, h3, -⟩ := timeoutStep_cases (T := T) h
    exact ⟨⟨by rw [hr.config]; exact hs.skip, by rw [hr.config]; exact hs.callback,
      hr.connected hs.connected, h2, fun _ => by rw [hr.tag]; exact hs.tag h3,
      by rw [hr.reader]; exact hs.reader⟩, .none hr.received hr.called hr.reader⟩
  | rx bs =>
    have hready := reader (.inl ⟨bs, rfl⟩)
    simp only [State.step, State.rxStep] at h
    split at h
    · next hr =>
      split at h
      · cases h
        exact ⟨hready trivial, [], [], by simp, by simp, by simp [pending, hr]⟩
      · next o _ =>
        cases h
        exact ⟨hready trivial, o.cmds, [], rfl, by simp, by simp [pending, hr]⟩
    · cases h
  | serialError =>
    have hready := reader (.inr (.inr (.inr rfl)))
    simp only [State.step, State.serialErrorStep] at h
    split at h
    · next hr =>
      cases h
      exact ⟨hready trivial, [], [], by simp, by simp, by simp [pending, hr]⟩
    · cases h
  | callbackRaises =>
    have hready := reader (.inr (.inr (.inl rfl)))
    have ho := hs.reader
    simp only [State.step, State.raiseStep] at h
    split at h
    · next t m q hr =>
      cases h
      rw [hr] at ho
      have ho : t ≤ 3 := ho
      refine ⟨hready trivial, [], [m], by simp, rfl, ?_⟩
      simp only [pending, hr, List.append_nil, List.filterMap_cons, if_pos ho, List.filterMap_nil]
      cases u m <;> rfl
    · next t m q hr =>
      cases h
      rw [hr] at ho
      have ho : ¬ t ≤ 3 := by have : 3 < t := ho; omega
      refine ⟨hready trivial, [], [], by simp, by simp, ?_⟩
      simp [pending, hr, ho]
    · cases h
  | reader =>
    have hready := reader (.inr (.inl rfl))
    have ho := hs.reader
    by_cases hmr : resetting s.main = true
    · obtain ⟨q1, -, -, -, -, -, q2, -, q3, -, q4⟩ := reader_quiet (hc hmr).1 ((hc hmr).2 rfl) h
      refine ⟨hready ?_, [], [], by simp [q2], by simp [q3], ?_⟩
      · cases hr : s'.reader <;> rw [hr] at q1 <;>
          first | trivial | cases q1 | simpa [handingAlp, ReaderOk] using q1
      · rcases q4 with q4 | ⟨x, hx, q4⟩
        · simp [q4]
        · simp [q4, show ¬ x.1 ≤ 3 by omega]
    have hnr : resetting s.main = false := by simpa using hmr
    have htag := hs.tag hnr
    simp only [State.step, State.readerStep] at h
    split at h
    · cases h
    · cases h
    · next hr => cases h; exact ⟨hready trivial, [], [], by simp, by simp, by simp [pending, hr]⟩
    · next t m q hr =>
      split at h
      · next c hi =>
        cases h
        have hmc : m = .command c ∧ s.tag = c.tagId := by
          unfold State.isSync at hi
          split at hi
          · split at hi
            · next hh => cases hi; exact ⟨rfl, hh.2.1⟩
            · cases hi
          · cases hi
        refine ⟨hready (by show T c.tagId; rw [← hmc.2]; exact htag), [], [], by simp, by simp, ?_⟩
        simp [pending, hr, hmc.1]
      · cases h
        exact ⟨hready trivial, [], [], by simp, by simp, by simp [pending, hr]⟩
    · next t c q hr =>
      cases h
      rw [hr] at ho
      exact ⟨hready ho, [], [], by simp, by simp, by simp [pending, hr]⟩
    · next t c n q hr =>
      cases h
      rw [hr] at ho
      exact ⟨hready trivial, [], [], by simp, by simp, by simp [pending, hr, hu c ho]⟩
    · next c q hr =>
      cases h
      exact ⟨hready trivial, [], [], by simp, by simp, by simp [pending, hr]⟩
    · next t m q hr =>
      split at h
      · next hh =>
        cases h
        exact ⟨hready hh.2.2, [], [], by simp, by simp, by simp [pending, hr]⟩
      · next hh =>
        have ht : ¬ t ≤ 3 := fun ht => hh ⟨hs.callback, hs.connected, ht⟩
        split at h
        · split at h
          · cases h
            exact ⟨hready (by show 3 < t; omega), [], [], by simp, by simp, by simp [pending, hr]⟩
          · cases h
            exact ⟨hready (by show 3 < t; omega), [], [], by simp, by simp, by simp [pending, hr]⟩
        · split at h
          · cases h
            exact ⟨hready trivial, [], [], by simp, by simp, by simp [pending, hr, ht]⟩
          · cases h
            exact ⟨hready trivial, [], [], by simp, by simp, by simp [pending, hr, ht]⟩
    · next t m q hr =>
      cases h
      rw [hr] at ho
      have ho : t ≤ 3 := ho
      refine ⟨hready trivial, [], [m], by simp, rfl, ?_⟩
      simp only [pending, hr, List.append_nil, List.filterMap_cons, if_pos ho, List.filterMap_nil]
      cases u m <;> rfl
    · next t m q hr =>
      cases h
      rw [hr] at ho
      have ho : ¬ t ≤ 3 := by have : 3 < t := ho; omega
      exact ⟨hready trivial, [], [], by simp, by simp, by simp [pending, hr, ho]⟩
    · next t m q hr =>
      cases h
      rw [hr] at ho
      exact ⟨hready ho, [], [], by simp, by simp, by simp [pending, hr]⟩
    · next t m n q hr =>
      cases h
      rw [hr] at ho
      have ho : ¬ t ≤ 3 := by have : 3 < t := ho; omega
      exact ⟨hready trivial, [], [], by simp, by simp, by simp [pending, hr, ho]⟩
    · next t m q hr => rw [hr] at ho; exact ho.elim
    · next t m n q hr => rw [hr] at ho; exact ho.elim

theorem ready_run {T : Option Int → Prop} {u : Msg → Option Command}
    (hu : ∀ c, T c.tagId → u (.command c) = none) {es : List Event} {s s' : State} (hs : Ready T s)
    (hT : ∀ e ∈ es, ∀ t, awaited e = some t → T t) (hc : Calm s es) (h : s.run es = some s') :
    Ready T s' ∧ Passed u s s' := by
  induction es generalizing s with
  | nil => cases h; exact ⟨hs, .none rfl rfl rfl⟩
  | cons e es ih =>
    unfold State.run at h
    cases hst : s.step e with
    | none => rw [hst] at h; cases h
    | some s1 =>
      rw [hst] at h
      obtain ⟨h1, h2⟩ := ready_step hu hs (hT e (by simp)) hc.1 hst
      obtain ⟨h3, h4⟩ := ih h1 (fun e he => hT e (by simp [he])) (hc.2 s1 hst) h
      exact ⟨h3, h2.trans h4⟩

theorem ready_start {T : Option Int → Prop} {es : List Event} {s : State} {config : Config}
    (hk : config.skip = false) (hcb : config.callback = true)
    (h : (init config).run es = some s) (hT : ∀ e ∈ es, ∀ t, awaited e = some t → T t)
    (hcon : s.connected = true) (hw : s.written ≠ []) (hb : betweenMessages s.reader = true) :
    Ready T s := by
  have h1 : Early T s := run_induction h (early_init T config hk)
    fun a e b ha he hst => early_step ha (hT e he) hst
  obtain ⟨-, log, -, h2⟩ := run_handedOver (init_ok config) h
  refine ⟨h1.skip, by rw [h2]; exact hcb, hcon, h1.main, fun hr => h1.tag hr (.inl hw), ?_⟩
  cases hr : s.reader <;> rw [hr] at hb <;> first | trivial | cases hb

theorem chunks_append (a b : List Event) : chunks (a ++ b) = chunks a ++ chunks b := by
  induction a with
  | nil => rfl
  | cons e a ih => cases e <;> simp [chunks, ih]

/-- If the reading thread is alive, it received the frames whose bytes arrived. -/
theorem received_frames {config : Config} {es : List Event} {s : State}
    (h : (init config).run es = some s) (hd : s.reader.isDead = false) (fs : List Sent)
    (hfs : ∀ f ∈ fs, f.Valid config.skip) (hb : (chunks es).flatten = (fs.map Sent.bytes).flatten) :
    s.received = fs.map Sent.delivered := by
  obtain ⟨p, errs, h1⟩ := C44_received h hd
  by_cases hne : chunks es = []
  · have hfs0 : fs = [] := by
      rw [hne] at hb
      cases fs with
      | nil => rfl
      | cons f fs => simp [Sent.bytes, frame] at hb
    rw [hne] at h1
    injection h1 with h1
    rw [hfs0]
    exact (congrArg (fun x => x.2.1) h1).symm
  · rw [feed_frames (chunks es) (Parser.new config.skip) fs hfs hne hb] at h1
    injection h1 with h1
    exact (congrArg (fun x => x.2.1) h1).symm

theorem calm_readers : ∀ (k : Nat) (s : State), resetting s.main = false →
    Calm s (List.replicate k .reader) := by
  intro k
  induction k with
  | zero => intro s _; trivial
  | succ k ih =>
    intro s hr
    refine ⟨fun h => (by rw [hr] at h; cases h), fun s' hs' => ih s' ?_⟩
    rw [(readerEvent_same (.inr (.inl rfl)) hs').main]
    exact hr

/-- Being connected means that something was written. -/
structure Wrote (s : State) : Prop where
  skip : s.config.skip = false
  frame : ∀ st c tag f t, s.main = .run st c tag f t → f ≠ []
  wait : ∀ c tag f t, s.main = .run .wait c tag f t → s.written ≠ []
  connected : s.connected = true → s.written ≠ []

theorem build_ne_nil {p q : Parser} {g : Gen} {f : List UInt8} (h : p.buildSerialFrame g = (q, .ok f)) :
    f ≠ [] := by
  unfold Parser.buildSerialFrame at h
  split at h
  · cases h
  · split at h
    · cases h
    · simp only [Prod.mk.injEq, Except.ok.injEq] at h
      rw [← h.2]
      simp

theorem wrote_idle {s s' : State} (hs : Wrote s) (hc : s'.config = s.config) (hm : s'.main = .idle)
    (hw : s.written ≠ [] → s'.written ≠ [])
    (hk : s'.connected = true → s.connected = true ∨ s'.written ≠ []) : Wrote s' :=
  ⟨by rw [hc]; exact hs.skip, fun _ _ _ _ _ h => (by rw [hm] at h; cases h),
    fun _ _ _ _ h => (by rw [hm] at h; cases h),
    fun h => (hk h).elim (fun h => hw (hs.connected h)) id⟩

theorem wrote_startExecute {s : State} (hs : Wrote s) (caller : Caller) (cmd : Command) (timeout : Int) :
    Wrote (s.startExecute caller cmd timeout) := by
  unfold State.startExecute
  simp only [hs.skip]
  split
  · exact wrote_idle hs rfl rfl id .inl
  · next f heq =>
    refine ⟨hs.skip, fun _ _ _ _ _ h => ?_, fun _ _ _ _ h => (by cases h), hs.connected⟩
    cases h
    exact build_ne_nil heq

theorem wrote_step {s s' : State} {e : Event} (hs : Wrote s) (he : ∀ r, e ≠ .call (.connect false r))
    (h : s.step e = some s') : Wrote s' := by
  have reader : ((∃ bs, e = .rx bs) ∨ e = .reader ∨ e = .callbackRaises ∨ e = .serialError) → Wrote s' := by
    intro he
    have hq := readerEvent_same he h
    exact ⟨by rw [hq.config]; exact hs.skip, by rw [hq.main]; exact hs.frame,
      by rw [hq.main, hq.written]; exact hs.wait, by rw [hq.connected, hq.written]; exact hs.connected⟩
  cases e with
  | call c =>
    simp only [State.step] at h
    split at h <;> cases h
    cases c with
    | execute cmd t => exact wrote_startExecute hs _ _ _
    | connect ca r =>
      have : ca = true := by cases ca; exacts [absurd rfl (he r), rfl]
      subst this
      simp only [State.startCall]
      split
      · exact wrote_idle hs rfl rfl id .inl
      · rw [if_neg (by decide)]
        split
        · exact wrote_idle hs rfl rfl id .inl
        · rw [hs.skip]
          exact wrote_startExecute hs _ _ _
    | clearUnsolicited => exact wrote_idle hs rfl rfl id .inl
    | clearRebooted => exact wrote_idle hs rfl rfl id .inl
  | main =>
    simp only [State.step] at h
    unfold State.mainStep at h
    have goOn : ∀ {st st' c tag f t}, s.main = .run st c tag f t → st' ≠ .wait → ∀ s' : State,
        s'.config = s.config → s'.main = .run st' c tag f t → s'.written = s.written →
        s'.connected = s.connected → Wrote s' := by
      intro st st' c tag f t hm hst s' h1 h2 h3 h4
      refine ⟨by rw [h1]; exact hs.skip, fun _ _ _ _ _ h => ?_, fun _ _ _ _ h => ?_,
        by rw [h3, h4]; exact hs.connected⟩
      · rw [h2] at h; cases h; exact hs.frame _ _ _ _ _ hm
      · rw [h2] at h; cases h; exact absurd rfl hst
    split at h
    · cases h
    · next hm => cases h; exact goOn hm (st' := .resetTag) (by decide) _ rfl rfl rfl rfl
    · next hm => cases h; exact goOn hm (st' := .resetCompleted) (by decide) _ rfl rfl rfl rfl
    · next hm => cases h; exact goOn hm (st' := .setTag) (by decide) _ rfl rfl rfl rfl
    · next hm => cases h; exact goOn hm (st' := .write) (by decide) _ rfl rfl rfl rfl
    · next caller tag f t hm =>
      have hf := hs.frame _ _ _ _ _ hm
      have hne : s.written ++ f ≠ [] := by simp [hf]
      simp only at h
      split at h
      · cases h
        obtain ⟨hr, hi⟩ := finishExecute_rest { s with written := s.written ++ f } caller none
        exact wrote_idle hs hr.config hi (fun _ => by rw [hr.written]; exact hne)
          (fun _ => .inr (by rw [hr.written]; exact hne))
      · cases h
        refine ⟨hs.skip, fun _ _ _ _ _ h => ?_, fun _ _ _ _ _ => hne, fun _ => hne⟩
        cases h; exact hf
    · next caller tag f t hm =>
      have hne := hs.wait _ _ _ _ hm
      split at h
      · cases h
        obtain ⟨hr, hi⟩ := finishExecute_rest s caller (some (s.responses.length - 1))
        exact wrote_idle hs hr.config hi (fun _ => by rw [hr.written]; exact hne)
          (fun _ => .inr (by rw [hr.written]; exact hne))
      · cases h
  | timeout =>
    simp only [State.step] at h
    unfold State.timeoutStep at h
    split at h
    · next caller tag f t hm =>
      have hne := hs.wait _ _ _ _ hm
      cases h
      obtain ⟨hr, hi⟩ := finishExecute_rest s caller
        (if s.completed then some (s.responses.length - 1) else none)
      exact wrote_idle hs hr.config hi (fun _ => by rw [hr.written]; exact hne)
        (fun _ => .inr (by rw [hr.written]; exact hne))
    · cases h
  | rx bs => exact reader (.inl ⟨bs, rfl⟩)
  | reader => exact reader (.inr (.inl rfl))
  | callbackRaises => exact reader (.inr (.inr (.inl rfl)))
  | serialError => exact reader (.inr (.inr (.inr rfl)))

theorem noCall_awaited {e : Event} (h : NoCall e) : awaited e = none := by
  cases e <;> first | rfl | exact h.elim

/-- Without calls, what is idle stays so, and what is not connected is so only while a call is in progress. -/
theorem noCall_main {s s' : State} {e : Event} (he : NoCall e) (h : s.step e = some s') :
    (s.main = .idle → s'.main = .idle ∧ s'.connected = s.connected) ∧
    ((s.connected = true → s.main = .idle) → s'.connected = true → s'.main = .idle) := by
  have reader : ((∃ bs, e = .rx bs) ∨ e = .reader ∨ e = .callbackRaises ∨ e = .serialError) →
      (s.main = .idle → s'.main = .idle ∧ s'.connected = s.connected) ∧
      ((s.connected = true → s.main = .idle) → s'.connected = true → s'.main = .idle) := by
    intro he
    have hq := readerEvent_same he h
    exact ⟨fun hm => ⟨by rw [hq.main]; exact hm, hq.connected⟩,
      fun hi hc => by rw [hq.main]; exact hi (by rw [← hq.connected]; exact hc)⟩
  cases e with
  | call c => exact he.elim
  | main =>
    simp only [State.step] at h
    unfold State.mainStep at h
    have goOn : ∀ {st c tag f t}, s.main = .run st c tag f t → s'.connected = s.connected →
        (s.main = .idle → s'.main = .idle ∧ s'.connected = s.connected) ∧
        ((s.connected = true → s.main = .idle) → s'.connected = true → s'.main = .idle) := by
      intro st c tag f t hm hc
      refine ⟨fun hi => (by rw [hm] at hi; cases hi), fun hi hc' => ?_⟩
      rw [hc] at hc'
      have := hi hc'
      rw [hm] at this; cases this
    split at h
    · cases h
    · next hm => cases h; exact goOn hm rfl
    · next hm => cases h; exact goOn hm rfl
    · next hm => cases h; exact goOn hm rfl
    · next hm => cases h; exact goOn hm rfl
    · next caller tag f t hm =>
      simp only at h
      split at h
      · cases h
        obtain ⟨-, hi⟩ := finishExecute_rest { s with written := s.written ++ f } caller none
        exact ⟨fun hi => (by rw [hm] at hi; cases hi), fun _ _ => hi⟩
      · cases h; exact goOn hm rfl
    · next caller tag f t hm =>
      split at h
      · cases h
        obtain ⟨-, hi⟩ := finishExecute_rest s caller (some (s.responses.length - 1))
        exact ⟨fun hi => (by rw [hm] at hi; cases hi), fun _ _ => hi⟩
      · cases h
  | timeout =>
    simp only [State.step] at h
    unfold State.timeoutStep at h
    split at h
    · next caller tag f t hm =>
      cases h
      obtain ⟨-, hi⟩ := finishExecute_rest s caller
        (if s.completed then some (s.responses.length - 1) else none)
      exact ⟨fun hi => (by rw [hm] at hi; cases hi), fun _ _ => hi⟩
    · cases h
  | rx bs => exact reader (.inl ⟨bs, rfl⟩)
  | reader => exact reader (.inr (.inl rfl))
  | callbackRaises => exact reader (.inr (.inr (.inl rfl)))
  | serialError => exact reader (.inr (.inr (.inr rfl)))

theorem calm_noCall {s : State} {es : List Event} (hm : s.main = .idle) (he : ∀ e ∈ es, NoCall e) :
    Calm s es := by
  induction es generalizing s with
  | nil => trivial
  | cons e es ih =>
    refine ⟨fun h => (by rw [hm] at h; cases h), fun s' hs' => ih ?_ fun e h => he e (by simp [h])⟩
    exact ((noCall_main (he e (by simp)) hs').1 hm).1

theorem logger_idle {rand : UInt8} {es : List Event} {s : State} {config : Config}
    (h : (init config).run (loggerRun rand es) = some s) (hk : config.skip = false)
    (he : ∀ e ∈ es, NoCall e) (hc : s.connected = true) : s.main = .idle := by
  have h0 : (((init config).startCall (.connect true rand)).connected = true →
      ((init config).startCall (.connect true rand)).main = .idle) := by
    intro hc
    have := (startCall_rest (T := fun _ => True) (s := init config) (c := .connect true rand) hk rfl
      fun _ _ => trivial).1
    simp only [State.startCall, init] at hc ⊢
    rw [if_neg (by decide), if_neg (by decide)] at hc ⊢
    split at hc
    · cases hc
    · simp only [hk, Bool.false_eq_true, if_false, State.startExecute] at hc
      split at hc <;> cases hc
  have h1 : ((init config).startCall (.connect true rand)).run es = some s := h
  exact run_induction (P := fun s => s.connected = true → s.main = .idle) h1 h0
    (fun a e b ha hm hst => (noCall_main (he e hm) hst).2 ha) hc

theorem calm_logged {rand : UInt8} {es es' : List Event} {s s' : State} {u : Msg → Option Command}
    (hu : ∀ c : Command, c.tagId = some (rand.toNat : Int) → u (.command c) = none)
    (h : (init loggerConfig).run (loggerRun rand es) = some s) (he : ∀ e ∈ es, NoCall e)
    (h' : s.run es' = some s') (he' : ∀ e ∈ es', NoCall e)
    (hc : s.connected = true) (hb : betweenMessages s.reader = true) : Passed u s s' := by
  have hm := logger_idle h rfl he hc
  have hw : s.written ≠ [] := by
    refine (run_induction (P := Wrote) h ⟨rfl, fun _ _ _ _ _ h => (by cases h),
      fun _ _ _ _ h => (by cases h), fun h => (by cases h)⟩
      fun _ e _ hp hm hst => wrote_step hp (fun r hr => ?_) hst).connected hc
    subst hr
    rcases List.mem_cons.1 hm with hm | hm
    · cases hm
    · exact he _ hm
  have hr := ready_start (T := fun t => t = some (rand.toNat : Int)) rfl rfl h ?_ hc hw hb
  · exact (ready_run (u := u) hu hr (fun e hm t ht => by rw [noCall_awaited (he' e hm)] at ht; cases ht)
      (calm_noCall hm he') h').2
  · intro e hm t ht
    rcases List.mem_cons.1 hm with rfl | hm
    · exact (Option.some.inj ht).symm
    · rw [noCall_awaited (he e hm)] at ht; cases ht

/-- Not connected, nothing called. -/
structure Silent (s : State) : Prop where
  connected : s.connected = false
  called : s.called = []
  reader : ∀ t m q, s.reader ≠ .callback t m q

theorem silent_reader {s s' : State} {e : Event} (hs : Silent s)
    (he : (∃ bs, e = .rx bs) ∨ e = .reader ∨ e = .callbackRaises ∨ e = .serialError)
    (h : s.step e = some s') : Silent s' := by
  have hq := readerEvent_same he h
  have hcn : s'.connected = false := by rw [hq.connected]; exact hs.connected
  rcases he with ⟨bs, rfl⟩ | rfl | rfl | rfl
  · simp only [State.step, State.rxStep] at h
    repeat' split at h
    all_goals first | cases h; done | (cases h; exact ⟨hcn, hs.called, fun _ _ _ h => by cases h⟩)
  · simp only [State.step, State.readerStep] at h
    split at h
    case h_9 => exact absurd (by assumption) (hs.reader _ _ _)
    case h_8 =>
      rw [if_neg (by rw [hs.connected]; simp)] at h
      repeat' split at h
      all_goals (cases h; exact ⟨hcn, hs.called, fun _ _ _ h => by cases h⟩)
    all_goals
      repeat' split at h
    all_goals first | cases h; done | (cases h; exact ⟨hcn, hs.called, fun _ _ _ h => by cases h⟩)
  · simp only [State.step, State.raiseStep] at h
    split at h
    · next hr => exact absurd hr (hs.reader _ _ _)
    · cases h; exact ⟨hcn, hs.called, fun _ _ _ h => by cases h⟩
    · cases h
  · simp only [State.step, State.serialErrorStep] at h
    repeat' split at h
    all_goals first | cases h; done | (cases h; exact ⟨hcn, hs.called, fun _ _ _ h => by cases h⟩)

theorem startCall_same (s : State) (c : Call) :
    (s.connected = true → (s.startCall c).connected = true) ∧ (s.startCall c).reader = s.reader ∧
      (s.startCall c).called = s.called := by
  have ex : ∀ (s : State) caller cmd t, (s.connected = true →
      (s.startExecute caller cmd t).connected = true) ∧ (s.startExecute caller cmd t).reader = s.reader ∧
      (s.startExecute caller cmd t).called = s.called := by
    intro s caller cmd t
    unfold State.startExecute
    simp only
    split <;> exact ⟨id, rfl, rfl⟩
  cases c with
  | execute cmd t => exact ex _ _ _ _
  | connect ca r =>
    simp only [State.startCall]
    split
    · exact ⟨id, rfl, rfl⟩
    · split
      · exact ⟨fun _ => rfl, rfl, rfl⟩
      · split
        · exact ⟨id, rfl, rfl⟩
        · split
          · obtain ⟨h1, h2, h3⟩ := ex { s with connected := true } .connectSkip _ 0
            exact ⟨fun _ => h1 rfl, h2, h3⟩
          · exact ex _ _ _ _
  | clearUnsolicited => exact ⟨id, rfl, rfl⟩
  | clearRebooted => exact ⟨id, rfl, rfl⟩

theorem silent_step {s s' : State} {e : Event} (hs : s.connected = true ∨ Silent s)
    (h : s.step e = some s') : s'.connected = true ∨ Silent s' := by
  have reader : ((∃ bs, e = .rx bs) ∨ e = .reader ∨ e = .callbackRaises ∨ e = .serialError) →
      s'.connected = true ∨ Silent s' := by
    intro he
    rcases hs with hs | hs
    · exact .inl (by rw [(readerEvent_same he h).connected]; exact hs)
    · exact .inr (silent_reader hs he h)
  have other : (s.connected = true → s'.connected = true) → s'.reader = s.reader → s'.called = s.called →
      s'.connected = true ∨ Silent s' := by
    intro h1 h2 h3
    rcases hs with hs | hs
    · exact .inl (h1 hs)
    · cases hc : s'.connected with
      | true => exact .inl rfl
      | false => exact .inr ⟨hc, by rw [h3]; exact hs.called, by rw [h2]; exact hs.reader⟩
  cases e with
  | call c =>
    simp only [State.step] at h
    split at h <;> cases h
    obtain ⟨h1, h2, h3⟩ := startCall_same s c
    exact other h1 h2 h3
  | main =>
    simp only [State.step] at h
    unfold State.mainStep at h
    split at h
    · cases h
    · cases h; exact other id rfl rfl
    · cases h; exact other id rfl rfl
    · cases h; exact other id rfl rfl
    · cases h; exact other id rfl rfl
    · next caller tag f t hm =>
      simp only at h
      split at h
      · cases h
        obtain ⟨hr, -⟩ := finishExecute_rest { s with written := s.written ++ f } caller none
        exact other hr.connected hr.reader hr.called
      · cases h; exact other id rfl rfl
    · next caller tag f t hm =>
      split at h
      · cases h
        obtain ⟨hr, -⟩ := finishExecute_rest s caller (some (s.responses.length - 1))
        exact other hr.connected hr.reader hr.called
      · cases h
  | timeout =>
    obtain ⟨hr, -⟩ := timeoutStep_cases (T := fun _ => True) h
    exact other hr.connected hr.reader hr.called
  | rx bs => exact reader (.inl ⟨bs, rfl⟩)
  | reader => exact reader (.inr (.inl rfl))
  | callbackRaises => exact reader (.inr (.inr (.inl rfl)))
  | serialError => exact reader (.inr (.inr (.inr rfl)))

end Verif.Modem.Pu
