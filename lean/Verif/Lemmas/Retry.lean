import Verif.Props.Late
import Verif.Props.Examples
import Verif.Spec.Retry

/-! Helper lemmas: a command that is executed until it is confirmed. -/

namespace Verif.Modem.Rt

open Verif Verif.Serial Verif.Modem.Lt

variable {D : Type}

/-! ### The lists of a call hold only messages with its tag -/

theorem mem_content_modify {α : Type} {l : List (List α)} {n m : Nat} {a x : α}
    (h : x ∈ content (l.modify n (· ++ [a])) m) : x ∈ content l m ∨ x = a := by
  by_cases hn : n < l.length
  · rw [content_modify l n a hn] at h
    rcases List.mem_append.1 h with h | h
    · exact .inl h
    · split at h
      · exact .inr (List.mem_singleton.1 h)
      · cases h
  · rw [List.modify_eq_self (by omega)] at h
    exact .inl h

/-- This tag or none. -/
def TagOk (tag : Int) (c : Command) : Prop := c.tagId = some tag ∨ c.tagId = none

/-- The message that is being handed over as a response has the tag. -/
def HandOk (tag : Int) : Reader → Prop
  | .sync _ c _ => TagOk tag c
  | .syncAppend _ c _ _ => TagOk tag c
  | _ => True

/-- During and after a call with this tag; `k` is the number of lists before it, `k'` the number of outcomes. -/
structure Own (tag : Int) (k k' : Nat) (m : State) : Prop where
  lists : ∀ n, k ≤ n → ∀ c ∈ content m.responses n, TagOk tag c
  main : m.main = .idle ∨ ∃ stage f t, m.main = .run stage .app (some tag) f t ∧
    (stage = .resetList ∧ k ≤ m.responses.length ∨ k < m.responses.length)
  late : (handingAlp m.reader = false ∧ ∃ stage f t, m.main = .run stage .app (some tag) f t ∧
      (stage = .resetList ∨ stage = .resetTag)) ∨ (m.tag = some tag ∨ m.tag = none) ∧ HandOk tag m.reader
  out : ∀ n, .list n ∈ m.outcomes.drop k' → k ≤ n
  bound : k' ≤ m.outcomes.length

theorem own_finish {tag : Int} {k k' : Nat} {m : State} {stage : Stage} {f : List UInt8} {t : Int} {l : Option Nat}
    (h : Own tag k k' m) (hm : m.main = .run stage .app (some tag) f t) (hs : stage ≠ .resetList ∧ stage ≠ .resetTag)
    (hl : ∀ n, l = some n → n = m.responses.length - 1) : Own tag k k' (m.finishExecute .app l) := by
  have h1 : k < m.responses.length := by
    rcases h.main with h1 | ⟨stage', f', t', h1, h2⟩
    · rw [hm] at h1; cases h1
    · rw [hm] at h1; cases h1
      rcases h2 with ⟨h2, -⟩ | h2
      · exact absurd h2 hs.1
      · exact h2
  have h2 : (m.tag = some tag ∨ m.tag = none) ∧ HandOk tag m.reader := by
    rcases h.late with ⟨-, stage', f', t', h3, h4⟩ | h3
    · rw [hm] at h3; cases h3
      rcases h4 with h4 | h4
      · exact absurd h4 hs.1
      · exact absurd h4 hs.2
    · exact h3
  refine ⟨h.lists, .inl rfl, .inr h2, ?_, ?_⟩
  · intro n hn
    cases l with
    | none =>
      rw [show (m.finishExecute .app none).outcomes = m.outcomes ++ [.empty] from rfl,
        List.drop_append_of_le_length h.bound] at hn
      exact h.out n (by simpa using hn)
    | some i =>
      rw [show (m.finishExecute .app (some i)).outcomes = m.outcomes ++ [.list i] from rfl,
        List.drop_append_of_le_length h.bound] at hn
      rcases List.mem_append.1 hn with hn | hn
      · exact h.out n hn
      · have := hl i rfl
        simp at hn
        omega
  · have := h.bound
    cases l <;> simp [State.finishExecute, State.finish] <;> omega

theorem own_step {tag : Int} {k k' : Nat} {m m' : State} {e : Event} (h : Own tag k k' m) (hs : m.step e = some m')
    (he : ∀ c, e ≠ .call c) (hc : resetting m.main = true →
      handingAlp m.reader = false ∧ (e = .reader → nextAlp m.reader = false)) :
    Own tag k k' m' := by
  cases e with
  | call c => exact absurd rfl (he c)
  | main =>
    simp only [State.step, State.mainStep] at hs
    cases hm : m.main with
    | idle => rw [hm] at hs; cases hs
    | run stage caller tg f t =>
      obtain ⟨rfl, rfl, hl⟩ : caller = .app ∧ tg = some tag ∧
          (stage = .resetList ∧ k ≤ m.responses.length ∨ k < m.responses.length) := by
        rcases h.main with h1 | ⟨stage', f', t', h1, h2⟩
        · rw [hm] at h1; cases h1
        · rw [hm] at h1; cases h1; exact ⟨rfl, rfl, h2⟩
      have hlate : stage ≠ .resetList → stage ≠ .resetTag → (m.tag = some tag ∨ m.tag = none) ∧ HandOk tag m.reader := by
        intro h1 h2
        rcases h.late with ⟨-, stage', f', t', h3, h4⟩ | h3
        · rw [hm] at h3; cases h3
          rcases h4 with h4 | h4
          · exact absurd h4 h1
          · exact absurd h4 h2
        · exact h3
      rw [hm] at hs
      cases stage with
      | resetList =>
        simp only [Option.some.injEq] at hs; subst hs
        have hk : k ≤ m.responses.length := by rcases hl with ⟨-, h⟩ | h <;> omega
        refine ⟨fun n hn c hx => h.lists n hn c (by rwa [content_append_nil] at hx), .inr ⟨_, _, _, rfl, .inr ?_⟩, ?_,
          h.out, h.bound⟩
        · simp; omega
        · rcases h.late with ⟨h1, -⟩ | h1
          · exact .inl ⟨h1, _, _, _, rfl, .inr rfl⟩
          · exact .inr h1
      | resetTag =>
        simp only [Option.some.injEq] at hs; subst hs
        have hk : k < m.responses.length := by
          rcases hl with ⟨h, -⟩ | h
          · cases h
          · exact h
        refine ⟨h.lists, .inr ⟨_, _, _, rfl, .inr hk⟩, .inr ⟨.inr rfl, ?_⟩, h.out, h.bound⟩
        have := (hc (by rw [hm]; rfl)).1
        show HandOk tag m.reader
        cases hr : m.reader <;> rw [hr] at this <;> first | trivial | cases this
      | resetCompleted =>
        simp only [Option.some.injEq] at hs; subst hs
        have hk : k < m.responses.length := by
          rcases hl with ⟨h, -⟩ | h
          · cases h
          · exact h
        exact ⟨h.lists, .inr ⟨_, _, _, rfl, .inr hk⟩, .inr (hlate (by simp) (by simp)), h.out, h.bound⟩
      | setTag =>
        simp only [Option.some.injEq] at hs; subst hs
        have hk : k < m.responses.length := by
          rcases hl with ⟨h, -⟩ | h
          · cases h
          · exact h
        refine ⟨h.lists, .inr ⟨_, _, _, rfl, .inr hk⟩, .inr ⟨?_, (hlate (by simp) (by simp)).2⟩, h.out, h.bound⟩
        show (if t > 0 then some tag else m.tag) = _ ∨ _
        split
        · exact .inl rfl
        · exact (hlate (by simp) (by simp)).1
      | write =>
        have hk : k < m.responses.length := by
          rcases hl with ⟨h, -⟩ | h
          · cases h
          · exact h
        simp only at hs
        split at hs
        · simp only [Option.some.injEq] at hs; subst hs
          refine own_finish (l := none) (m := { m with written := m.written ++ f }) ⟨h.lists, ?_, ?_, h.out, h.bound⟩ hm (by simp)
            (by simp)
          · exact .inr ⟨_, _, _, hm, .inr hk⟩
          · exact .inr (hlate (by simp) (by simp))
        · simp only [Option.some.injEq] at hs; subst hs
          exact ⟨h.lists, .inr ⟨_, _, _, rfl, .inr hk⟩, .inr (hlate (by simp) (by simp)), h.out, h.bound⟩
      | wait =>
        simp only at hs
        split at hs
        · simp only [Option.some.injEq] at hs; subst hs
          exact own_finish h hm (by simp) (by simp)
        · cases hs
  | timeout =>
    simp only [State.step, State.timeoutStep] at hs
    split at hs
    · rename_i caller tg f t hm
      simp only [Option.some.injEq] at hs; subst hs
      obtain ⟨rfl, rfl⟩ : caller = Caller.app ∧ tg = some tag := by
        rcases h.main with h1 | ⟨stage', f', t', h1, h2⟩
        · rw [hm] at h1; cases h1
        · rw [hm] at h1; cases h1; exact ⟨rfl, rfl⟩
      refine own_finish h hm (by simp) ?_
      intro n hn
      split at hn
      · cases hn; rfl
      · cases hn
    · cases hs
  | rx bs =>
    simp only [State.step, State.rxStep] at hs
    split at hs
    · split at hs <;> cases hs <;>
      · refine ⟨h.lists, h.main, ?_, h.out, h.bound⟩
        rcases h.late with ⟨-, h1⟩ | h1
        · exact .inl ⟨rfl, h1⟩
        · exact .inr ⟨h1.1, trivial⟩
    · cases hs
  | reader =>
    rcases h.late with ⟨h1, stage, f, t, h2, h3⟩ | ⟨h1, h2⟩
    · have hx := hc (by rw [h2]; rcases h3 with rfl | rfl <;> rfl)
      obtain ⟨q1, q2, q3, q4, q5, -, -, q6, -⟩ := reader_quiet hx.1 (hx.2 rfl) hs
      exact ⟨by rw [q2]; exact h.lists, by rw [q5, q2]; exact h.main, .inl ⟨q1, stage, f, t, by rw [q5]; exact h2, h3⟩,
        by rw [q6]; exact h.out, by rw [q6]; exact h.bound⟩
    simp only [State.step, State.readerStep] at hs
    split at hs
    case h_4 =>
      rename_i t x q hr
      split at hs
      · rename_i c hx
        cases hs
        refine ⟨h.lists, h.main, .inr ⟨h1, ?_⟩, h.out, h.bound⟩
        show TagOk tag c
        unfold State.isSync at hx
        split at hx
        · split at hx
          · rename_i hy
            cases hx
            rcases h1 with h1 | h1
            · exact .inl (by rw [← hy.2.1, h1])
            · exact .inr (by rw [← hy.2.1, h1])
          · cases hx
        · cases hx
      · cases hs
        exact ⟨h.lists, h.main, .inr ⟨h1, trivial⟩, h.out, h.bound⟩
    case h_5 =>
      rename_i t c q hr
      cases hs
      rw [hr] at h2
      exact ⟨h.lists, h.main, .inr ⟨h1, h2⟩, h.out, h.bound⟩
    case h_6 =>
      rename_i t c n q hr
      cases hs
      rw [hr] at h2
      refine ⟨?_, ?_, .inr ⟨h1, trivial⟩, h.out, h.bound⟩
      · intro i hi x hx
        rcases mem_content_modify hx with hx | rfl
        · exact h.lists i hi x hx
        · exact h2
      · simpa using h.main
    all_goals
      repeat' split at hs
      all_goals first
        | (cases hs; done)
        | (cases hs; exact ⟨h.lists, h.main, .inr ⟨h1, trivial⟩, h.out, h.bound⟩)
  | callbackRaises =>
    simp only [State.step, State.raiseStep] at hs
    have hl : ∀ q, (handingAlp (.dead q) = false ∧ ∃ stage f t, m.main = .run stage .app (some tag) f t ∧
        (stage = .resetList ∨ stage = .resetTag)) ∨ (m.tag = some tag ∨ m.tag = none) ∧ HandOk tag (.dead q) := by
      intro q
      rcases h.late with ⟨-, h1⟩ | h1
      · exact .inl ⟨rfl, h1⟩
      · exact .inr ⟨h1.1, trivial⟩
    split at hs
    all_goals first
      | (cases hs; done)
      | (cases hs; exact ⟨h.lists, h.main, hl _, h.out, h.bound⟩)
  | serialError =>
    simp only [State.step, State.serialErrorStep] at hs
    split at hs
    · cases hs
      refine ⟨h.lists, h.main, ?_, h.out, h.bound⟩
      rcases h.late with ⟨-, h1⟩ | h1
      · exact .inl ⟨rfl, h1⟩
      · exact .inr ⟨h1.1, trivial⟩
    · cases hs

theorem own_run {g : Gateway D} {tag : Int} {k k' : Nat} {es : List LateEvent} : ∀ {s s' : Net D}, Own tag k k' s.modem →
    s.runLate g es = some s' → (∀ call, .net (.call call) ∉ es) → s.Calm g es → Own tag k k' s'.modem := by
  induction es with
  | nil => intro s s' h hr _ _; cases hr; exact h
  | cons e es ih =>
    intro s s' h hr hn hc
    obtain ⟨s1, h1, h2⟩ := late_cons hr
    refine ih ?_ h2 (fun call hx => hn call (by simp [hx])) (hc.2 _ h1)
    rcases late_step h1 with ⟨ev, a1, -, a3, a4, -⟩ | ⟨a1, -⟩
    · exact own_step h a1 (fun c hx => hn c (by rw [← a4 c hx]; simp)) fun hx =>
        ⟨(hc.1 hx).1, fun hy => (hc.1 hx).2 (a3 hy)⟩
    · rw [a1]; exact h

/-- A call has returned a list: everything in it has the tag. -/
theorem called_tag {g : Gateway D} {c : Command} {tag : Int} (hc : c.tagId = some tag)
    {s s' : Net D} {es : List LateEvent} {o : Outcome}
    (hn : ∀ call, .net (.call call) ∉ es) (h : s.runLate g (.net (.call (.execute c 10)) :: es) = some s')
    (hcalm : s.Calm g (.net (.call (.execute c 10)) :: es)) (ho : s'.modem.outcomes = s.modem.outcomes ++ [o]) {n : Nat}
    (hl : o = .list n) : ∀ x ∈ content s'.modem.responses n, TagOk tag x := by
  obtain ⟨s1, h1, h2⟩ := late_cons h
  obtain ⟨m, h3, rfl⟩ := Option.map_eq_some_iff.1 (show (s.modem.step (.call (.execute c 10))).map
    (fun m => { s with modem := m }) = some s1 from h1)
  simp only [State.step] at h3
  split at h3
  swap
  · cases h3
  rename_i hidle
  simp only [Option.some.injEq] at h3
  have hm : m = s.modem.startExecute .app c 10 := h3.symm
  obtain ⟨evs, h4, -, -⟩ := late_modem h2
  obtain ⟨l, h5⟩ := run_outcomes h4
  rcases hx : s.modem.parser.buildSerialFrame c.iter with ⟨p, e | f⟩
  · have h6 : m.outcomes = s.modem.outcomes ++ [.raised e] := by
      rw [hm]; unfold State.startExecute; simp only [hx]; rfl
    have h5' : s'.modem.outcomes = m.outcomes ++ l := h5
    rw [h6, ho, List.append_assoc] at h5'
    have := List.append_cancel_left h5'
    subst hl
    simp at this
  · have h6 : m = { s.modem with
        parser := p, main := .run .resetList .app c.tagId f (if s.modem.config.skip then 0 else 10) } := by
      rw [hm]; unfold State.startExecute; simp only [hx]
    cases es with
    | nil =>
      cases h2
      have : m.outcomes = s.modem.outcomes := by rw [h6]
      rw [show ({ s with modem := m } : Net D).modem = m from rfl, this] at ho
      simpa using congrArg List.length ho
    | cons e es =>
      have hb := ((hcalm.2 _ h1).1 (by show resetting m.main = true; rw [h6]; rfl)).1
      have hown : Own tag s.modem.responses.length s.modem.outcomes.length m := by
        refine ⟨?_, .inr ⟨.resetList, f, _, by rw [h6, hc], .inl ⟨rfl, by rw [h6]⟩⟩, .inl ⟨hb, _, f, _, by rw [h6, hc],
          .inl rfl⟩, ?_, by rw [h6]⟩
        · intro i hi x hx
          rw [h6] at hx
          simp [content, List.getElem?_eq_none hi] at hx
        · intro i hi
          rw [h6] at hi
          simp at hi
      have := own_run (s := { s with modem := m }) hown h2 hn (hcalm.2 _ h1)
      refine this.lists n (this.out n ?_)
      rw [ho, hl]; simp

/-! ### The calls of the loop -/

theorem asked_none {s : Net D} {e : LateEvent} (h : ∀ call, e ≠ .net (.call call)) : s.asked e = [] := by
  cases e with
  | net e => cases e <;> first | rfl | exact absurd rfl (h _)
  | _ => rfl

theorem requested_none {g : Gateway D} {es : List LateEvent} : ∀ {s : Net D}, (∀ call, .net (.call call) ∉ es) →
    s.requested g es = [] := by
  induction es with
  | nil => intro s _; rfl
  | cons e es ih =>
    intro s h
    simp only [Net.requested, asked_none (s := s) (e := e) (fun call hx => h call (by simp [hx])), List.nil_append]
    split
    · exact ih fun call hx => h call (by simp [hx])
    · rfl

theorem requested_call {g : Gateway D} {s s' : Net D} {c : Command} {t : Int} {es : List LateEvent}
    (hn : ∀ call, .net (.call call) ∉ es) (h : s.runLate g (.net (.call (.execute c t)) :: es) = some s') :
    s.requested g (.net (.call (.execute c t)) :: es) = [c] := by
  obtain ⟨s1, h1, -⟩ := late_cons h
  simp only [Net.requested, h1, requested_none hn, List.append_nil]
  rfl

theorem tagged_call {c : Command} {tag t : Int} (hc : Taggable c tag) {es : List LateEvent}
    (hn : ∀ call, .net (.call call) ∉ es) : ∀ e ∈ .net (.call (.execute c t)) :: es, Tagged e := by
  intro e he
  rcases List.mem_cons.1 he with rfl | he
  · exact ⟨tag, hc⟩
  · cases e with
    | net e =>
      cases e with
      | call call => exact absurd he (hn call)
      | _ => trivial
    | _ => trivial

theorem late_outcomes {g : Gateway D} {s s' : Net D} {es : List LateEvent} (h : s.runLate g es = some s') :
    ∃ l, s'.modem.outcomes = s.modem.outcomes ++ l := by
  obtain ⟨evs, h1, -⟩ := late_modem h
  exact run_outcomes h1

/-- The step in which the call returns. -/
theorem split_end {g : Gateway D} {es : List LateEvent} {os : List Outcome} {o : Outcome} : ∀ {s s' : Net D},
    s.runLate g es = some s' → s.modem.outcomes = os → s'.modem.outcomes = os ++ [o] →
    ∃ during last after s1 s2, es = during ++ last :: after ∧ s.runLate g during = some s1 ∧ s1.modem.outcomes = os ∧
      s1.stepLate g last = some s2 ∧ s2.modem.outcomes = os ++ [o] ∧ s2.runLate g after = some s' := by
  induction es with
  | nil =>
    intro s s' h h1 h2
    cases h
    rw [h1] at h2
    simpa using congrArg List.length h2
  | cons e es ih =>
    intro s s' h h1 h2
    obtain ⟨s3, h3, h4⟩ := late_cons h
    obtain ⟨l, hl⟩ := late_outcomes (es := [e]) (s := s) (s' := s3) (g := g) (by simp [Net.runLate, h3])
    obtain ⟨l', hl'⟩ := late_outcomes h4
    rw [h1] at hl
    cases l with
    | nil =>
      rw [List.append_nil] at hl
      obtain ⟨during, last, after, t1, t2, rfl, a1, a2, a3, a4, a5⟩ := ih h4 hl h2
      refine ⟨e :: during, last, after, t1, t2, rfl, ?_, a2, a3, a4, a5⟩
      show Option.bind _ _ = _
      rw [h3]; exact a1
    | cons x l =>
      rw [h2, hl, List.append_assoc] at hl'
      have := List.append_cancel_left hl'
      simp only [List.cons_append, List.cons.injEq] at this
      obtain ⟨rfl, this⟩ := this
      obtain ⟨rfl, -⟩ := List.append_eq_nil_iff.1 this.symm
      exact ⟨[], e, es, s, s3, rfl, rfl, h1, h3, hl, h4⟩

theorem calm_left {g : Gateway D} {es fs : List LateEvent} : ∀ {s : Net D}, s.Calm g (es ++ fs) → s.Calm g es := by
  induction es with
  | nil => intro s _; trivial
  | cons e es ih => intro s h; exact ⟨h.1, fun s' hs => ih (h.2 s' hs)⟩

/-- How a call starts: it raises at once, without writing anything, if the command does not fit in a frame. -/
theorem call_start {g : Gateway D} {s s1 : Net D} {c : Command} {ps : List (List UInt8)} (hw : WriteInv ps s.modem)
    (h : s.stepLate g (.net (.call (.execute c 10))) = some s1) :
    s.modem.main = .idle ∧
    (sendable c = none ∧ (∃ e, s1.modem.outcomes = s.modem.outcomes ++ [.raised e]) ∧ s1.modem.main = .idle ∧
      s1.modem.written = s.modem.written ∨
    sendable c ≠ none ∧ s1.modem.outcomes = s.modem.outcomes ∧
      ∃ frame, Running .app c.tagId frame (if s.modem.config.skip then 0 else 10) s.modem.responses.length s1.modem) := by
  obtain ⟨m, h1, rfl⟩ := Option.map_eq_some_iff.1 (show (s.modem.step (.call (.execute c 10))).map
    (fun m => { s with modem := m }) = some s1 from h)
  simp only [State.step] at h1
  split at h1
  swap
  · cases h1
  rename_i hm
  refine ⟨hm, ?_⟩
  simp only [Option.some.injEq] at h1
  have h2 : m = s.modem.startExecute .app c 10 := h1.symm
  have hb := buildSerialFrame_sendable hw.1 c
  cases hs : sendable c with
  | none =>
    rw [hs] at hb
    obtain ⟨e, hb⟩ := hb
    have : m = s.modem.finish (.raised e) := by rw [h2]; unfold State.startExecute; simp only [hb]
    subst this
    exact .inl ⟨rfl, ⟨e, rfl⟩, rfl, rfl⟩
  | some bs =>
    rw [hs] at hb
    obtain ⟨q, hb, -⟩ := hb
    refine .inr ⟨by simp, ?_, ?_⟩
    · rw [h2]; unfold State.startExecute; simp only [hb]
    · refine ⟨frame (UInt8.ofNat ps.length) 1 bs, .resetList, ?_, ?_, by simp⟩
      · show m.main = _
        rw [h2]; unfold State.startExecute; simp only [hb]
      · show m.responses.length = _
        rw [h2]; unfold State.startExecute; simp only [hb]; rfl

/-- Nothing can end while no call is in progress. -/
theorem idle_outcomes {g : Gateway D} {es : List LateEvent} : ∀ {s s' : Net D}, s.modem.main = .idle →
    (∀ call, .net (.call call) ∉ es) → s.runLate g es = some s' →
    s'.modem.main = .idle ∧ s'.modem.outcomes = s.modem.outcomes ∧ s'.modem.written = s.modem.written := by
  induction es with
  | nil => intro s s' h _ hr; cases hr; exact ⟨h, rfl, rfl⟩
  | cons e es ih =>
    intro s s' h hn hr
    obtain ⟨s1, h1, h2⟩ := late_cons hr
    have key : s1.modem.main = .idle ∧ s1.modem.outcomes = s.modem.outcomes ∧ s1.modem.written = s.modem.written := by
      rcases late_step h1 with ⟨ev, a1, -, a3, a4, -⟩ | ⟨a1, -⟩
      · cases ev with
        | call c => exact absurd (by rw [a4 c rfl]; simp) (hn c)
        | main => simp [State.step, State.mainStep, h] at a1
        | timeout => simp [State.step, State.timeoutStep, h] at a1
        | rx bs =>
          simp only [State.step, State.rxStep] at a1
          repeat' split at a1
          all_goals first | (cases a1; done) | (simp only [Option.some.injEq] at a1; rw [← a1]; exact ⟨h, rfl, rfl⟩)
        | reader =>
          simp only [State.step, State.readerStep] at a1
          repeat' split at a1
          all_goals first | (cases a1; done) | (simp only [Option.some.injEq] at a1; rw [← a1]; exact ⟨h, rfl, rfl⟩)
        | callbackRaises =>
          simp only [State.step, State.raiseStep] at a1
          repeat' split at a1
          all_goals first | (cases a1; done) | (simp only [Option.some.injEq] at a1; rw [← a1]; exact ⟨h, rfl, rfl⟩)
        | serialError =>
          simp only [State.step, State.serialErrorStep] at a1
          repeat' split at a1
          all_goals first | (cases a1; done) | (simp only [Option.some.injEq] at a1; rw [← a1]; exact ⟨h, rfl, rfl⟩)
      · rw [a1]; exact ⟨h, rfl, rfl⟩
    obtain ⟨b1, b2, b3⟩ := ih key.1 (fun call hx => hn call (by simp [hx])) h2
    exact ⟨b1, b2.trans key.2.1, b3.trans key.2.2⟩

/-- The call returns something, unless the command does not fit in a frame: then it raises and nothing is written. -/
theorem call_end {g : Gateway D} {s s' : Net D} {c : Command} {ps : List (List UInt8)} {es : List LateEvent}
    {o : Outcome} (hw : WriteInv ps s.modem) (hn : ∀ call, .net (.call call) ∉ es)
    (h : s.runLate g (.net (.call (.execute c 10)) :: es) = some s')
    (ho : s'.modem.outcomes = s.modem.outcomes ++ [o]) :
    sendable c = none ∧ (∃ e, o = .raised e) ∧ s'.modem.written = s.modem.written ∨
    sendable c ≠ none ∧ (o = .empty ∨ ∃ n, o = .list n) ∧
    ∃ during last after s1 s2, es = during ++ last :: after ∧
      s.runLate g (.net (.call (.execute c 10)) :: during) = some s1 ∧ s1.modem.outcomes = s.modem.outcomes ∧
      s1.stepLate g last = some s2 ∧ s2.modem.outcomes = s.modem.outcomes ++ [o] ∧ s2.runLate g after = some s' := by
  obtain ⟨s0, h1, h2⟩ := late_cons h
  obtain ⟨-, ⟨a1, ⟨e, a2⟩, a3, a4⟩ | ⟨a1, a2, frame, a3⟩⟩ := call_start hw h1
  · obtain ⟨b1, b2, b3⟩ := idle_outcomes a3 hn h2
    rw [a2, ho] at b2
    have := List.append_cancel_left b2
    simp only [List.cons.injEq, and_true] at this
    exact .inl ⟨a1, ⟨e, this⟩, by rw [b3, a4]⟩
  · obtain ⟨during, last, after, s1, s2, rfl, c1, c2, c3, c4, c5⟩ := split_end h2 a2 ho
    refine .inr ⟨a1, ?_, during, last, after, s1, s2, rfl, ?_, c2, c3, c4, c5⟩
    swap
    · show Option.bind _ _ = _
      rw [h1]; exact c1
    obtain ⟨evs, d1, -⟩ := late_modem c1
    obtain ⟨d2, -⟩ := running_run a3 d1 (by rw [c2, a2])
    rcases late_step c3 with ⟨ev, e1, -⟩ | ⟨e1, -⟩
    · rcases running_step d2 e1 with ⟨-, e2, -⟩ | ⟨t, l, e2, -, e3, -⟩
      · rw [e2, c2] at c4
        simpa using congrArg List.length c4
      · rw [e2] at c4
        cases l with
        | none =>
          rw [show (t.finishExecute .app none).outcomes = t.outcomes ++ [.empty] from rfl, e3, c2] at c4
          have := List.append_cancel_left c4
          simp only [List.cons.injEq, and_true] at this
          exact .inl this.symm
        | some n =>
          rw [show (t.finishExecute .app (some n)).outcomes = t.outcomes ++ [.list n] from rfl, e3, c2] at c4
          have := List.append_cancel_left c4
          simp only [List.cons.injEq, and_true] at this
          exact .inr ⟨n, this.symm⟩
    · rw [e1, c2] at c4
      simpa using congrArg List.length c4

/-- Everything that a call returns is an answer to this command, given to this or to an earlier execution of it. -/
theorem call_origin {config : Config} (hk : config.skip = false) {g : Gateway D} (hg : g.Conforms) {d : D}
    {before : List LateEvent} {s s' : Net D} {c : Command} {tag : Int} {bs : List UInt8} {as : List Command}
    (hc : Taggable c tag) (hb : sendable c = some bs) (hp : ∀ e ∈ before, Tagged e)
    (h0 : (Net.start config d).runLate g before = some s)
    (hf : ∀ q ∈ (Net.start config d).requested g before, q.tagId = some tag → q = c)
    (h : Net.CalledCalmly g c s (.ok as) s') {x : Command} (hx : x ∈ as) :
    ∃ l l' rs done, (Net.start config d).requested g before ++ [c] = l ++ c :: l' ∧
      Answers tag (g.handle (g.replies d (l.filterMap sendable)).1 bs).2 rs ∧ x ∈ rs ∧ s'.data = (g.replies d done).1 ∧
      done <+: ((Net.start config d).requested g before ++ [c]).filterMap sendable ∧
      l.filterMap sendable ++ [bs] <+: done := by
  obtain ⟨es, o, h1, h2, h3, h4, h5⟩ := h
  have hfull := runLate_append h0 h2
  have hreq := requested_append (fs := .net (.call (.execute c 10)) :: es) h0
  rw [requested_call h1 h2] at hreq
  have hp' : ∀ e ∈ before ++ .net (.call (.execute c 10)) :: es, Tagged e := by
    intro e he
    rcases List.mem_append.1 he with he | he
    · exact hp e he
    · exact tagged_call hc h1 e he
  cases o with
  | list n =>
    simp only [Except.ok.injEq] at h5
    subst h5
    have ht := called_tag hc.2.2 h1 h2 h3 h4 rfl x hx
    obtain ⟨l, q, l', tg, bs', rs, done, a1, a2, a3, a4, a5, a6, a7, a8, a9⟩ :=
      origin_of hk hg hp' hfull (c := x) (.inl ⟨n, hx⟩)
    rw [hreq] at a1 a8
    have e1 : tg = tag := by
      rcases ht with ht | ht <;> rw [a6] at ht <;> cases ht
      rfl
    subst e1
    have e2 : q = c := by
      have : q ∈ (Net.start config d).requested g before ++ [c] := by rw [a1]; simp
      rcases List.mem_append.1 this with hq | hq
      · exact hf q hq a2.2.2
      · exact List.mem_singleton.1 hq
    subst e2
    rw [hb] at a3
    cases a3
    exact ⟨l, l', rs, done, a1, a4, a5, a7, a8, a9⟩
  | raised e => cases h5
  | _ => simp only [Except.ok.injEq] at h5; subst h5; cases hx

theorem confirm_ok {as : List Command} : ∀ {b r : Bool}, Examples.confirm b as = .ok r ↔
    (∀ x ∈ as, x.completedWithError ≠ none) ∧ (r = true ↔ b = true ∨ ∃ x ∈ as, Clean x) := by
  induction as with
  | nil => intro b r; cases b <;> cases r <;> simp [Examples.confirm]
  | cons a as ih =>
    intro b r
    cases h : a.completedWithError with
    | none => simp [Examples.confirm, h]
    | some e =>
      simp only [Examples.confirm, h, ih, List.mem_cons, exists_eq_or_imp, forall_eq_or_imp, Clean]
      cases a.executionCompleted <;> cases b <;> cases e <;> simp

theorem confirm_error {as : List Command} {x : PyErr} : ∀ {b : Bool}, Examples.confirm b as = .error x →
    x = .attributeError ∧ ∃ y ∈ as, y.completedWithError = none := by
  induction as with
  | nil => intro b h; cases h
  | cons a as ih =>
    intro b h
    cases e : a.completedWithError with
    | none =>
      rw [Examples.confirm, e] at h
      cases h
      exact ⟨rfl, a, by simp, e⟩
    | some e' =>
      rw [Examples.confirm, e] at h
      obtain ⟨h1, y, h2, h3⟩ := ih h
      exact ⟨h1, y, by simp [h2], h3⟩

/-- The loop as a run. -/
theorem repeat_run {g : Gateway D} {c : Command} {tag : Int} (hc : Taggable c tag) {s s' : Net D} {k : Nat}
    {r : Option PyErr} (h : Examples.Repeat (Net.Called g c) s k r s') :
    ∃ es, s.runLate g es = some s' ∧ (∀ e ∈ es, Tagged e) ∧ s.requested g es = List.replicate k c := by
  have one : ∀ {s s' : Net D} {r}, Net.Called g c s r s' → ∃ es, s.runLate g es = some s' ∧ (∀ e ∈ es, Tagged e) ∧
      s.requested g es = [c] := by
    rintro s s' r ⟨es, o, h1, h2, -⟩
    exact ⟨_, h2, tagged_call hc h1, requested_call h1 h2⟩
  induction h with
  | raised s s' e h => exact one h
  | done s s' as h _ => exact one h
  | broken s s' as e h _ => exact one h
  | again s s1 s' as n r h _ _ ih =>
    obtain ⟨es, a1, a2, a3⟩ := one h
    obtain ⟨fs, b1, b2, b3⟩ := ih
    refine ⟨es ++ fs, runLate_append a1 b1, ?_, ?_⟩
    · intro e he
      rcases List.mem_append.1 he with he | he
      · exact a2 e he
      · exact b2 e he
    · rw [requested_append a1, a3, b3]; rfl

theorem calmly_called {g : Gateway D} {c : Command} {s s' : Net D} {r} (h : Net.CalledCalmly g c s r s') :
    Net.Called g c s r s' := by
  obtain ⟨es, o, h1, h2, -, h3, h4⟩ := h
  exact ⟨es, o, h1, h2, h3, h4⟩

theorem repeat_mono {S : Type} {p q : S → Except PyErr (List Command) → S → Prop} (hpq : ∀ s r s', p s r s' → q s r s')
    {s s' : S} {k : Nat} {r : Option PyErr} (h : Examples.Repeat p s k r s') : Examples.Repeat q s k r s' := by
  induction h with
  | raised s s' e h => exact .raised _ _ _ (hpq _ _ _ h)
  | done s s' as h h' => exact .done _ _ _ (hpq _ _ _ h) h'
  | broken s s' as e h h' => exact .broken _ _ _ _ (hpq _ _ _ h) h'
  | again s s1 s' as n r h h' _ ih => exact .again _ _ _ _ _ _ (hpq _ _ _ h) h' ih

/-- The last call of the loop. -/
theorem repeat_last {g : Gateway D} {c : Command} {tag : Int} (hc : Taggable c tag) {s s' : Net D} {k : Nat}
    (h : Examples.Repeat (Net.CalledCalmly g c) s k none s') :
    ∃ es s1 as x, s.runLate g es = some s1 ∧ (∀ e ∈ es, Tagged e) ∧ s.requested g es ++ [c] = List.replicate k c ∧
      Net.CalledCalmly g c s1 (.ok as) s' ∧ x ∈ as ∧ Clean x := by
  generalize hr : (none : Option PyErr) = r at h
  induction h with
  | raised s s' e h => cases hr
  | done s s' as h h' =>
    obtain ⟨x, hx, hx'⟩ := ((confirm_ok.1 h').2.1 rfl).resolve_left (by simp)
    exact ⟨[], s, as, x, rfl, by simp, rfl, h, hx, hx'⟩
  | broken s s' as e h h' => cases hr
  | again s s1 s' as n r h _ _ ih =>
    obtain ⟨fs, s2, as2, x, b1, b2, b3, b4, b5, b6⟩ := ih hr
    obtain ⟨es, o, h1, h2, -⟩ := h
    refine ⟨_ ++ fs, s2, as2, x, runLate_append h2 b1, ?_, ?_, b4, b5, b6⟩
    · intro e he
      rcases List.mem_append.1 he with he | he
      · exact tagged_call hc h1 e he
      · exact b2 e he
    · rw [requested_append h2, requested_call h1 h2, List.append_assoc, b3]; rfl

/-! ### The reading thread has ended -/

theorem dead_calm {es : List Event} : ∀ {m m' : State}, m.reader.isDead = true → m.run es = some m' →
    Modem.Calm m es := by
  induction es with
  | nil => intro m _ _ _; trivial
  | cons e es ih =>
    intro m m' hd hr
    obtain ⟨m1, h1, h2⟩ := Option.bind_eq_some_iff.1 (show (m.step e).bind (fun s => s.run es) = some m' from hr)
    obtain ⟨q, hq⟩ : ∃ q, m.reader = .dead q := by
      cases hr : m.reader <;> rw [hr] at hd <;> first | exact ⟨_, rfl⟩ | cases hd
    have he : e ≠ .reader := by
      rintro rfl
      simp [State.step, State.readerStep, hq] at h1
    refine ⟨fun _ => ⟨by rw [hq]; rfl, fun hx => absurd hx he⟩, fun m2 hm => ?_⟩
    rw [h1] at hm
    cases hm
    exact ih (C55_dead_forever (es := [e]) hd (by simp [State.run, h1])).1 h2

/-- Then a call returns an empty list. -/
theorem dead_call {config : Config} (hk : config.skip = false) {g : Gateway D} (hg : g.Conforms) {d : D}
    {before es : List LateEvent} {s s' : Net D} {c : Command} {o : Outcome} (hp : ∀ e ∈ before, Tagged e)
    (h0 : (Net.start config d).runLate g before = some s) (hd : s.modem.reader.isDead = true) (hb : sendable c ≠ none)
    (hn : ∀ call, .net (.call call) ∉ es) (h : s.runLate g (.net (.call (.execute c 10)) :: es) = some s')
    (ho : s'.modem.outcomes = s.modem.outcomes ++ [o]) : o = .empty := by
  obtain ⟨evs0, a1, -, -⟩ := late_modem h0
  obtain ⟨done, todo, fs, pr, rs, st⟩ := stream_reach hk hg hp h0
  rcases call_end st.write hn h ho with ⟨b1, -⟩ | ⟨-, -, during, last, after, s1, s2, rfl, c1, c2, c3, c4, c5⟩
  · exact absurd b1 hb
  obtain ⟨s0, c6, c7⟩ := late_cons c1
  obtain ⟨evs1, d1, -⟩ := late_modem c7
  obtain ⟨m, c8, rfl⟩ := Option.map_eq_some_iff.1 (show (s.modem.step (.call (.execute c 10))).map
    (fun m => { s with modem := m }) = some s0 from c6)
  have hrun : s.modem.run (.call (.execute c 10) :: evs1) = some s1.modem := by unfold State.run; rw [c8]; exact d1
  rcases late_step c3 with ⟨ev, e1, -⟩ | ⟨e1, -⟩
  swap
  · rw [e1, c2] at c4
    simpa using congrArg List.length c4
  obtain ⟨new, handed, -, -, ⟨rfl, -, y, hy, -⟩ | ⟨rfl, -⟩⟩ := C46_result_partial (timeout := 10) hk (by decide) a1
    hrun c2 e1 c4 (dead_calm hd hrun)
  · have := (C55_dead_forever (es := .call (.execute c 10) :: evs1 ++ [ev]) (s' := s2.modem) hd (by
      rw [run_append, hrun]; simp [State.run, e1])).2.2.2.2.1 s.modem.responses.length
    rw [this, content_length] at hy
    cases hy
  · rfl

/-! ### The command of the program -/

theorem layout_length {g : Gen} {fs : List (Nat × Nat)} (h : HasLayout g fs) :
    ∃ bs, bytearray g = .ok bs ∧ bs.length * 8 = (fs.map Prod.fst).sum := by
  obtain ⟨bs, h1, h2, -⟩ := h
  refine ⟨bs, h1, ?_⟩
  have := congrArg List.length h2
  rw [bytesToBits_length] at this
  rw [Nat.mul_comm, this]
  clear h1 h2 this
  induction fs with
  | nil => rfl
  | cons f fs ih => simp [fieldBits] at ih ⊢

theorem engineering_taggable {rand : UInt8} {a : Examples.EngineeringArgs} {c : Command} (h : Examples.engineeringCommand rand a = .ok c) :
    Taggable c rand.toNat := by
  unfold Examples.engineeringCommand at h
  simp only [bind, Except.bind, pure, Except.pure] at h
  split at h <;> try cases h
  split at h <;> try cases h
  split at h <;> try cases h
  rename_i em _ _ _ _ _ c1 h1
  split at h <;> try cases h
  rename_i fact h2
  split at h <;> try cases h
  rename_i c2 h3
  split at h <;> try cases h
  split at h <;> try cases h
  have t1 : Taggable c1 rand.toNat := by
    unfold Examples.forwardIf at h1
    split at h1
    · cases h1; exact ⟨rfl, rfl, rfl⟩
    · cases h1; exact ⟨rfl, rfl, rfl⟩
  have t2 : Taggable c2 rand.toNat := by
    unfold Examples.addFactory at h3
    split at h3
    · simp only [bind, Except.bind, pure, Except.pure] at h3
      split at h3 <;> try cases h3
      split at h3 <;> try cases h3
      exact t1
    · cases h3; exact t1
  exact t2

end Verif.Modem.Rt
