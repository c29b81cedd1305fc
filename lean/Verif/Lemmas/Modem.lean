import Verif.Spec.Modem

/-! Invariants of the modem model. -/

namespace Verif.Modem

open Verif Verif.Serial

/-- The reading thread holds existing lists and messages of the right type. -/
def ReaderOk (s : State) : Prop :=
  s.responses ≠ [] ∧ s.unsolicited ≠ [] ∧ s.rebooted ≠ [] ∧
  match s.reader with
  | .sync t _ _ => t ≤ 3 ∧ s.config.skip = false
  | .syncAppend t _ n _ => t ≤ 3 ∧ s.config.skip = false ∧ n < s.responses.length
  | .callback t _ _ => t ≤ 3 ∧ s.config.callback = true
  | .rebootedCallback t _ _ => t = 5 ∧ s.config.rebootedCallback = true
  | .rebooted t _ _ => t = 5 ∧ s.config.rebootedCallback = false
  | .rebootedAppend t _ n _ =>
    t = 5 ∧ s.config.rebootedCallback = false ∧ n < s.rebooted.length
  | .unsolicited t _ _ => t ≤ 3
  | .unsolicitedAppend t _ n _ => t ≤ 3 ∧ n < s.unsolicited.length
  | _ => True

theorem init_ok (c : Config) : ReaderOk (init c) := by simp [ReaderOk, init]

theorem content_append_nil {α : Type} (l : List (List α)) (n : Nat) :
    content (l ++ [[]]) n = content l n := by
  unfold content
  by_cases h : n < l.length
  · rw [List.getElem?_append_left h]
  · rw [List.getElem?_append_right (by omega), List.getElem?_eq_none (by omega : l.length ≤ n)]
    rcases Nat.eq_zero_or_pos (n - l.length) with h0 | h0
    · rw [h0]; rfl
    · rw [List.getElem?_eq_none (by simp; omega)]

theorem content_modify {α : Type} (l : List (List α)) (n : Nat) (a : α) (h : n < l.length) (m : Nat) :
    content (l.modify n (· ++ [a])) m = content l m ++ if n = m then [a] else [] := by
  unfold content
  rw [List.getElem?_modify]
  by_cases hm : n = m
  · subst hm
    rw [List.getElem?_eq_getElem h]
    simp
  · simp only [hm, if_false, List.append_nil]
    cases l[m]? <;> simp

theorem toSink_append (l₁ l₂ : List (Sink × Int × Msg)) (k : Sink) :
    toSink (l₁ ++ l₂) k = toSink l₁ k ++ toSink l₂ k := by simp [toSink]

@[simp] theorem toSink_nil (k : Sink) : toSink [] k = [] := rfl

theorem toSink_one (k k' : Sink) (t : Int) (m : Msg) :
    toSink [(k, t, m)] k' = if k = k' then [m] else [] := by
  unfold toSink
  by_cases h : k = k' <;> simp [h]

/-- The parts of the state that the hand-over looks at. -/
def Same (s s' : State) : Prop :=
  s'.config = s.config ∧ s'.reader = s.reader ∧ s'.received = s.received ∧ s'.called = s.called ∧
  s'.rebootedCalled = s.rebootedCalled ∧
  (s'.responses = s.responses ∨ s'.responses = s.responses ++ [[]]) ∧
  (s'.unsolicited = s.unsolicited ∨ s'.unsolicited = s.unsolicited ++ [[]]) ∧
  (s'.rebooted = s.rebooted ∨ s'.rebooted = s.rebooted ++ [[]])

theorem Same.handedOver {s s' : State} (h : Same s s') : HandedOver s s' [] := by
  obtain ⟨h0, h1, h2, h3, h4, h5, h6, h7⟩ := h
  have key : ∀ {α : Type} (a b : List (List α)) (n : Nat), b = a ∨ b = a ++ [[]] →
      content b n = content a n := by
    rintro α a b n (h | h)
    · rw [h]
    · rw [h, content_append_nil]
  refine ⟨⟨[], by simp [h2], by simp [h1]⟩, fun n => by simp [key _ _ n h5], by simp [h3],
    fun n => by simp [key _ _ n h6], by simp [h4], fun n => by simp [key _ _ n h7], by simp⟩

theorem Same.readerOk {s s' : State} (h : Same s s') (hs : ReaderOk s) : ReaderOk s' := by
  obtain ⟨h0, h1, h2, h3, h4, h5, h6, h7⟩ := h
  obtain ⟨a, b, c, d⟩ := hs
  have ne : ∀ {α : Type} (a b : List (List α)), b = a ∨ b = a ++ [[]] → a ≠ [] → b ≠ [] := by
    rintro α a b (h | h) ha <;> simp [h, ha]
  have le : ∀ {α : Type} (a b : List (List α)), b = a ∨ b = a ++ [[]] → a.length ≤ b.length := by
    rintro α a b (h | h) <;> simp [h]
  have l1 := le _ _ h5
  have l2 := le _ _ h6
  have l3 := le _ _ h7
  refine ⟨ne _ _ h5 a, ne _ _ h6 b, ne _ _ h7 c, ?_⟩
  rw [h1, h0]
  revert d
  cases s.reader <;> simp only <;> intro d <;> first | exact d | trivial | skip
  · exact ⟨d.1, d.2.1, by omega⟩
  · exact ⟨d.1, d.2.1, by omega⟩
  · exact ⟨d.1, by omega⟩

theorem Same.finish {s s' : State} (h : Same s s') (o : Outcome) : Same s (s'.finish o) := h

theorem Same.refl (s : State) : Same s s := ⟨rfl, rfl, rfl, rfl, rfl, .inl rfl, .inl rfl, .inl rfl⟩

theorem same_startExecute {s s' : State} (h : Same s s') (c : Caller) (cmd : Command) (t : Int) :
    Same s (s'.startExecute c cmd t) := by
  unfold State.startExecute
  simp only
  split <;> exact h

theorem same_startCall (s : State) (c : Call) : Same s (s.startCall c) := by
  cases c with
  | execute cmd t => exact same_startExecute (.refl s) _ _ _
  | connect ca r =>
    simp only [State.startCall]
    split
    · exact Same.refl s
    · split
      · exact Same.refl s
      · split
        · exact Same.refl s
        · split
          · exact same_startExecute (s' := { s with connected := true }) (.refl s) _ _ _
          · exact same_startExecute (.refl s) _ _ _
  | clearUnsolicited => exact ⟨rfl, rfl, rfl, rfl, rfl, .inl rfl, .inr rfl, .inl rfl⟩
  | clearRebooted => exact ⟨rfl, rfl, rfl, rfl, rfl, .inl rfl, .inl rfl, .inr rfl⟩

theorem same_finishExecute {s s' : State} (h : Same s s') (c : Caller) (l : Option Nat) :
    Same s (s'.finishExecute c l) := by
  unfold State.finishExecute
  cases c with
  | app => exact h
  | connectSkip => exact h
  | connect =>
    simp only
    unfold State.finishConnect
    split
    · exact h
    · exact h
    · split <;> exact h

theorem same_mainStep {s s' : State} (h : s.mainStep = some s') : Same s s' := by
  unfold State.mainStep at h
  split at h
  · cases h
  · cases h; exact ⟨rfl, rfl, rfl, rfl, rfl, .inr rfl, .inl rfl, .inl rfl⟩
  · cases h; exact Same.refl s
  · cases h; exact Same.refl s
  · cases h; exact Same.refl s
  · simp only at h
    split at h <;> cases h
    · refine same_finishExecute ?_ _ _
      exact Same.refl s
    · exact Same.refl s
  · split at h <;> cases h
    exact same_finishExecute (.refl s) _ _

theorem same_timeoutStep {s s' : State} (h : s.timeoutStep = some s') : Same s s' := by
  unfold State.timeoutStep at h
  split at h <;> cases h
  exact same_finishExecute (.refl s) _ _

theorem length_pred_lt {α : Type} {l : List α} (h : l ≠ []) : l.length - 1 < l.length := by
  have := List.length_pos_iff.2 h
  omega

/-- One step hands over at most one message. -/
theorem step_handedOver {s s' : State} {e : Event} (hs : ReaderOk s) (h : s.step e = some s') :
    ReaderOk s' ∧ ∃ log, HandedOver s s' log ∧ s'.config = s.config := by
  have same : Same s s' → ReaderOk s' ∧ ∃ log, HandedOver s s' log ∧ s'.config = s.config :=
    fun h => ⟨h.readerOk hs, [], h.handedOver, h.1⟩
  obtain ⟨h1, h2, h3, h4⟩ := hs
  cases e with
  | call c =>
    simp only [State.step] at h
    split at h <;> cases h
    exact same (same_startCall s c)
  | main => exact same (same_mainStep h)
  | timeout => exact same (same_timeoutStep h)
  | rx bs =>
    simp only [State.step] at h
    unfold State.rxStep at h
    split at h
    · next hr =>
      split at h <;> cases h
      · exact ⟨⟨h1, h2, h3, trivial⟩, [], ⟨⟨[], by simp, by simp [pending, hr]⟩, by simp, by simp,
          by simp, by simp, by simp, by simp⟩, rfl⟩
      · exact ⟨⟨h1, h2, h3, trivial⟩, [], ⟨⟨_, rfl, by simp [pending, hr]⟩, by simp, by simp,
          by simp, by simp, by simp, by simp⟩, rfl⟩
    · cases h
  | serialError =>
    simp only [State.step] at h
    unfold State.serialErrorStep at h
    split at h
    · next hr =>
      cases h
      exact ⟨⟨h1, h2, h3, trivial⟩, [], ⟨⟨[], by simp, by simp [pending, hr]⟩, by simp, by simp,
          by simp, by simp, by simp, by simp⟩, rfl⟩
    · cases h
  | callbackRaises =>
    simp only [State.step] at h
    unfold State.raiseStep at h
    split at h
    · next t m q hr =>
      cases h
      rw [hr] at h4
      refine ⟨⟨h1, h2, h3, trivial⟩, [(.callback, t, m)], ⟨⟨[], by simp, by simp [pending, hr]⟩,
        ?_, ?_, ?_, ?_, ?_, ?_⟩, rfl⟩
      all_goals simp [toSink_one, RightSink, h4]
    · next t m q hr =>
      cases h
      rw [hr] at h4
      refine ⟨⟨h1, h2, h3, trivial⟩, [(.rebootedCallback, t, m)],
        ⟨⟨[], by simp, by simp [pending, hr]⟩, ?_, ?_, ?_, ?_, ?_, ?_⟩, rfl⟩
      all_goals simp [toSink_one, RightSink, h4]
    · cases h
  | reader =>
    simp only [State.step] at h
    unfold State.readerStep at h
    have quiet : ∀ r : Reader, pending r = pending s.reader → ReaderOk { s with reader := r } →
        ReaderOk { s with reader := r } ∧ ∃ log, HandedOver s { s with reader := r } log ∧
          ({ s with reader := r } : State).config = s.config := by
      intro r hr ho
      exact ⟨ho, [], ⟨⟨[], by simp, by simp [hr]⟩, by simp, by simp, by simp, by simp, by simp,
        by simp⟩, rfl⟩
    split at h
    · cases h
    · cases h
    · next hr => cases h; exact quiet _ (by simp [pending, hr]) ⟨h1, h2, h3, trivial⟩
    · next t m q hr =>
      split at h
      · next c hc =>
        cases h
        unfold State.isSync at hc
        split at hc
        · split at hc <;> cases hc
          next hx =>
          exact quiet _ (by simp [pending, hr]) ⟨h1, h2, h3, hx.2.2, by simpa using hx.1⟩
        · cases hc
      · cases h
        exact quiet _ (by simp [pending, hr]) ⟨h1, h2, h3, trivial⟩
    · next t c q hr =>
      cases h
      rw [hr] at h4
      exact quiet _ (by simp [pending, hr]) ⟨h1, h2, h3, h4.1, h4.2, length_pred_lt h1⟩
    · next t c n q hr =>
      cases h
      rw [hr] at h4
      refine ⟨⟨by simpa [List.modify_eq_nil_iff] using h1, h2, h3, trivial⟩,
        [(.response n, t, .command c)], ⟨⟨[], by simp, by simp [pending, hr]⟩, ?_, ?_, ?_, ?_, ?_,
        ?_⟩, rfl⟩
      · intro k
        simp only [content_modify _ _ _ h4.2.2, toSink_one, List.map_append, Sink.response.injEq]
        split <;> simp
      all_goals simp [toSink_one, RightSink, h4.1, h4.2.1]
    · next c q hr =>
      cases h
      exact ⟨⟨h1, h2, h3, trivial⟩, [], ⟨⟨[], by simp, by simp [pending, hr]⟩, by simp, by simp,
        by simp, by simp, by simp, by simp⟩, rfl⟩
    · next t m q hr =>
      have drop : t = 4 ∨ 5 < t → ReaderOk { s with reader := .next q } ∧
          ∃ log, HandedOver s { s with reader := .next q } log ∧
          ({ s with reader := .next q } : State).config = s.config := by
        intro ht
        refine ⟨⟨h1, h2, h3, trivial⟩, [(.nowhere, t, m)], ⟨⟨[], by simp, by simp [pending, hr]⟩,
          ?_, ?_, ?_, ?_, ?_, ?_⟩, rfl⟩
        all_goals simp [toSink_one, RightSink, ht]
      split at h
      · next hx =>
        cases h
        exact quiet _ (by simp [pending, hr]) ⟨h1, h2, h3, hx.2.2, hx.1⟩
      · split at h
        · next h5 =>
          split at h <;> cases h
          · next hb => exact quiet _ (by simp [pending, hr]) ⟨h1, h2, h3, h5, hb⟩
          · next hb => exact quiet _ (by simp [pending, hr]) ⟨h1, h2, h3, h5, by simpa using hb⟩
        · split at h
          · cases h; exact drop (by omega)
          · split at h
            · next h5 => cases h; exact quiet _ (by simp [pending, hr]) ⟨h1, h2, h3, h5⟩
            · cases h; exact drop (by omega)
    · next t m q hr =>
      cases h
      rw [hr] at h4
      refine ⟨⟨h1, h2, h3, trivial⟩, [(.callback, t, m)], ⟨⟨[], by simp, by simp [pending, hr]⟩,
        ?_, ?_, ?_, ?_, ?_, ?_⟩, rfl⟩
      all_goals simp [toSink_one, RightSink, h4]
    · next t m q hr =>
      cases h
      rw [hr] at h4
      refine ⟨⟨h1, h2, h3, trivial⟩, [(.rebootedCallback, t, m)],
        ⟨⟨[], by simp, by simp [pending, hr]⟩, ?_, ?_, ?_, ?_, ?_, ?_⟩, rfl⟩
      all_goals simp [toSink_one, RightSink, h4]
    · next t m q hr =>
      cases h
      rw [hr] at h4
      exact quiet _ (by simp [pending, hr]) ⟨h1, h2, h3, h4.1, h4.2, length_pred_lt h3⟩
    · next t m n q hr =>
      cases h
      rw [hr] at h4
      refine ⟨⟨h1, h2, by simpa [List.modify_eq_nil_iff] using h3, trivial⟩,
        [(.rebooted n, t, m)], ⟨⟨[], by simp, by simp [pending, hr]⟩, ?_, ?_, ?_, ?_, ?_, ?_⟩, rfl⟩
      case refine_5 =>
        intro k
        simp only [content_modify _ _ _ h4.2.2, toSink_one, Sink.rebooted.injEq]
      all_goals simp [toSink_one, RightSink, h4.1, h4.2.1]
    · next t m q hr =>
      cases h
      rw [hr] at h4
      exact quiet _ (by simp [pending, hr]) ⟨h1, h2, h3, h4, length_pred_lt h2⟩
    · next t m n q hr =>
      cases h
      rw [hr] at h4
      refine ⟨⟨h1, by simpa [List.modify_eq_nil_iff] using h2, h3, trivial⟩,
        [(.unsolicited n, t, m)], ⟨⟨[], by simp, by simp [pending, hr]⟩, ?_, ?_, ?_, ?_, ?_, ?_⟩,
        rfl⟩
      case refine_3 =>
        intro k
        simp only [content_modify _ _ _ h4.2, toSink_one, Sink.unsolicited.injEq]
      all_goals simp [toSink_one, RightSink, h4.1]

theorem HandedOver.trans {s s' s'' : State} {l₁ l₂ : List (Sink × Int × Msg)}
    (h : HandedOver s s' l₁) (h' : HandedOver s' s'' l₂) (hc : s'.config = s.config) :
    HandedOver s s'' (l₁ ++ l₂) := by
  obtain ⟨⟨n1, a1, b1⟩, c1, d1, e1, f1, g1, k1⟩ := h
  obtain ⟨⟨n2, a2, b2⟩, c2, d2, e2, f2, g2, k2⟩ := h'
  refine ⟨⟨n1 ++ n2, by simp [a1, a2], ?_⟩, ?_, ?_, ?_, ?_, ?_, ?_⟩
  · rw [List.map_append, List.append_assoc, b2, ← List.append_assoc, b1, List.append_assoc]
  · intro n; rw [c2, c1, toSink_append, List.append_assoc]
  · rw [d2, d1, toSink_append, List.append_assoc]
  · intro n; rw [e2, e1, toSink_append, List.append_assoc]
  · rw [f2, f1, toSink_append, List.append_assoc]
  · intro n; rw [g2, g1, toSink_append, List.append_assoc]
  · intro x hx
    rcases List.mem_append.1 hx with hx | hx
    · exact k1 x hx
    · rw [← hc]; exact k2 x hx

theorem run_handedOver {s s' : State} {es : List Event} (hs : ReaderOk s) (h : s.run es = some s') :
    ReaderOk s' ∧ ∃ log, HandedOver s s' log ∧ s'.config = s.config := by
  induction es generalizing s with
  | nil => cases h; exact ⟨hs, [], (Same.refl _).handedOver, rfl⟩
  | cons e es ih =>
    unfold State.run at h
    cases hst : s.step e with
    | none => rw [hst] at h; cases h
    | some s1 =>
      rw [hst] at h
      obtain ⟨h1, l1, h2, h3⟩ := step_handedOver hs hst
      obtain ⟨h4, l2, h5, h6⟩ := ih h1 h
      exact ⟨h4, l1 ++ l2, h2.trans h5 h3, h6.trans h3⟩

end Verif.Modem
