import Verif.Props.QueryNodes
import Verif.Spec.Late

/-! Helper lemmas: a modem and a device when calls time out, callbacks raise and the line fails. -/

namespace Verif.Modem.Lt

open Verif Verif.Serial Verif.Modem.Gw

variable {D : Type}

/-! ### The modem in it -/

theorem late_cons {g : Gateway D} {s s' : Net D} {e : LateEvent} {es : List LateEvent}
    (h : s.runLate g (e :: es) = some s') : ∃ s1, s.stepLate g e = some s1 ∧ s1.runLate g es = some s' :=
  Option.bind_eq_some_iff.1 h

/-- A step of the modem, or none. -/
theorem late_step {g : Gateway D} {s s' : Net D} {e : LateEvent} (h : s.stepLate g e = some s') :
    (∃ ev, s.modem.step ev = some s'.modem ∧ Modem.asked s.modem ev = s.asked e ∧ (ev = .reader → e = .net .reader) ∧
      (∀ c, ev = .call c → e = .net (.call c)) ∧ s'.taken = s.taken ∧ s'.data = s.data ∧ s'.pending = s.pending ∧
      (s'.line = s.line ∧ (∀ bs, ev ≠ .rx bs) ∨ ∃ n, ev = .rx (s.line.take n) ∧ s'.line = s.line.drop n ∧
        0 < n ∧ n ≤ s.line.length)) ∨
    (s'.modem = s.modem ∧ s.asked e = [] ∧ ∃ f, e = .net f ∧ ((f = .take) ∨ (∃ k, f = .send k) ∨ (∃ k t, f = .log k t) ∨
      ∃ k r, f = .reboot k r)) := by
  cases e with
  | timeout =>
    obtain ⟨m, h1, rfl⟩ := Option.map_eq_some_iff.1 h
    exact .inl ⟨.timeout, h1, rfl, by simp, by simp, rfl, rfl, rfl, .inl ⟨rfl, by simp⟩⟩
  | callbackRaises =>
    obtain ⟨m, h1, rfl⟩ := Option.map_eq_some_iff.1 h
    exact .inl ⟨.callbackRaises, h1, rfl, by simp, by simp, rfl, rfl, rfl, .inl ⟨rfl, by simp⟩⟩
  | serialError =>
    obtain ⟨m, h1, rfl⟩ := Option.map_eq_some_iff.1 h
    exact .inl ⟨.serialError, h1, rfl, by simp, by simp, rfl, rfl, rfl, .inl ⟨rfl, by simp⟩⟩
  | net e =>
    cases e with
    | call c =>
      obtain ⟨m, h1, rfl⟩ := Option.map_eq_some_iff.1 h
      exact .inl ⟨.call c, h1, rfl, by simp, by simp, rfl, rfl, rfl, .inl ⟨rfl, by simp⟩⟩
    | main =>
      obtain ⟨m, h1, rfl⟩ := Option.map_eq_some_iff.1 h
      exact .inl ⟨.main, h1, rfl, by simp, by simp, rfl, rfl, rfl, .inl ⟨rfl, by simp⟩⟩
    | reader =>
      obtain ⟨m, h1, rfl⟩ := Option.map_eq_some_iff.1 h
      exact .inl ⟨.reader, h1, rfl, by simp, by simp, rfl, rfl, rfl, .inl ⟨rfl, by simp⟩⟩
    | read n =>
      simp only [Net.stepLate, Net.step] at h
      split at h
      · rename_i hl
        obtain ⟨m, h1, rfl⟩ := Option.map_eq_some_iff.1 h
        exact .inl ⟨.rx (s.line.take n), h1, rfl, by simp, by simp, rfl, rfl, rfl, .inr ⟨n, rfl, rfl, hl⟩⟩
      · cases h
    | take =>
      simp only [Net.stepLate, Net.step] at h
      split at h
      · cases h
      · cases h; exact .inr ⟨rfl, rfl, _, rfl, .inl rfl⟩
    | send k =>
      simp only [Net.stepLate, Net.step] at h
      split at h
      · cases h
      · cases h; exact .inr ⟨rfl, rfl, _, rfl, .inr (.inl ⟨_, rfl⟩)⟩
    | log k t =>
      simp only [Net.stepLate, Net.step] at h
      split at h
      · cases h; exact .inr ⟨rfl, rfl, _, rfl, .inr (.inr (.inl ⟨_, _, rfl⟩))⟩
      · cases h
    | reboot k r =>
      simp only [Net.stepLate, Net.step, Option.some.injEq] at h
      subst h
      exact .inr ⟨rfl, rfl, _, rfl, .inr (.inr (.inr ⟨_, _, rfl⟩))⟩

/-- What the modem does in such a run is a run of the modem. -/
theorem late_modem {g : Gateway D} {es : List LateEvent} : ∀ {s s' : Net D}, s.runLate g es = some s' →
    ∃ evs, s.modem.run evs = some s'.modem ∧ Modem.requested s.modem evs = s.requested g es ∧
      (s.Calm g es → Modem.Calm s.modem evs) := by
  induction es with
  | nil => intro s s' h; cases h; exact ⟨[], rfl, rfl, fun _ => trivial⟩
  | cons e es ih =>
    intro s s' h
    obtain ⟨s1, h1, h2⟩ := late_cons h
    obtain ⟨evs, h3, h4, h5⟩ := ih h2
    rcases late_step h1 with ⟨ev, a1, a2, a3, -⟩ | ⟨a1, a2, -⟩
    · refine ⟨ev :: evs, ?_, ?_, ?_⟩
      · unfold State.run; rw [a1, Option.bind_some, h3]
      · simp only [Modem.requested, Net.requested, a1, h1, a2, h4]
      · rintro ⟨b1, b2⟩
        refine ⟨fun hr => ⟨(b1 hr).1, fun he => (b1 hr).2 (a3 he)⟩, ?_⟩
        intro m hm
        rw [a1] at hm
        cases hm
        exact h5 (b2 _ h1)
    · refine ⟨evs, by rw [← a1, h3], ?_, ?_⟩
      · simp only [Net.requested, h1, a2, List.nil_append]
        rw [← a1]; exact h4
      · rintro ⟨-, b2⟩
        rw [← a1]
        exact h5 (b2 _ h1)

theorem requested_append {g : Gateway D} {es fs : List LateEvent} : ∀ {s s1 : Net D}, s.runLate g es = some s1 →
    s.requested g (es ++ fs) = s.requested g es ++ s1.requested g fs := by
  induction es with
  | nil => intro s s1 h; cases h; rfl
  | cons e es ih =>
    intro s s1 h
    obtain ⟨s2, h1, h2⟩ := late_cons h
    simp only [List.cons_append, Net.requested, h1, ih h2, List.append_assoc]

theorem runLate_append {g : Gateway D} {es fs : List LateEvent} : ∀ {s s1 s2 : Net D}, s.runLate g es = some s1 →
    s1.runLate g fs = some s2 → s.runLate g (es ++ fs) = some s2 := by
  induction es with
  | nil => intro s s1 s2 h h'; cases h; exact h'
  | cons e es ih =>
    intro s s1 s2 h h'
    obtain ⟨s3, h1, h2⟩ := late_cons h
    show Option.bind _ _ = _
    rw [h1]; exact ih h2 h'

/-! ### What a step writes -/

/-- The frame of the call is not written yet. -/
def busy : Main → Bool
  | .idle => false
  | .run .wait _ _ _ _ => false
  | .run _ _ _ _ _ => true

theorem unwritten_busy {m : Main} (h : busy m = false) : unwritten m = [] := by
  cases m with
  | idle => rfl
  | run stage caller tag f t => cases stage <;> first | rfl | cases h

/-- A step of the modem as to the writing. -/
theorem write_kind {ps : List (List UInt8)} {m m' : State} {e : Event} (hw : WriteInv ps m) (hs : m.step e = some m') :
    (m'.written = m.written ∧ busy m'.main = busy m.main ∧ (Modem.asked m e).filterMap sendable = []) ∨
    (m'.written = m.written ∧ busy m.main = false ∧ busy m'.main = true ∧
      ∃ bs, (Modem.asked m e).filterMap sendable = [bs]) ∨
    (busy m.main = true ∧ busy m'.main = false ∧ Modem.asked m e = []) := by
  have start : m.main = .idle → ∀ caller c t (m1 : State), m1.parser = m.parser → m1.written = m.written →
      (m1.startExecute caller c t).written = m.written ∧
      ((busy (m1.startExecute caller c t).main = false ∧ sendable c = none) ∨
        (busy (m1.startExecute caller c t).main = true ∧ ∃ bs, sendable c = some bs)) := by
    intro hm caller c t m1 hp hwr
    have hb := buildSerialFrame_sendable hw.1 c
    cases hc : sendable c with
    | none =>
      rw [hc] at hb
      obtain ⟨e, he⟩ := hb
      simp only [State.startExecute, hp, he]
      exact ⟨hwr, .inl ⟨rfl, trivial⟩⟩
    | some bs =>
      rw [hc] at hb
      obtain ⟨q, he, -⟩ := hb
      simp only [State.startExecute, hp, he]
      exact ⟨hwr, .inr ⟨rfl, bs, rfl⟩⟩
  cases e with
  | call c =>
    simp only [State.step] at hs
    split at hs
    · rename_i hm
      simp only [Option.some.injEq] at hs
      subst hs
      cases c with
      | clearUnsolicited => exact .inl ⟨rfl, by rw [hm]; rfl, rfl⟩
      | clearRebooted => exact .inl ⟨rfl, by rw [hm]; rfl, rfl⟩
      | execute c t =>
        obtain ⟨a, ⟨b1, b2⟩ | ⟨b1, bs, b2⟩⟩ := start hm .app c t m rfl rfl
        · exact .inl ⟨a, by rw [hm]; exact b1, by simp [Modem.asked, b2]⟩
        · exact .inr (.inl ⟨a, by rw [hm]; rfl, b1, bs, by simp [Modem.asked, b2]⟩)
      | connect a r =>
        by_cases hc : m.connected = true
        · refine .inl ?_
          simp only [State.startCall, hc, if_true]
          refine ⟨rfl, by rw [hm]; rfl, ?_⟩
          cases a <;> simp [Modem.asked, hc]
        · cases a with
          | false =>
            refine .inl ?_
            simp only [State.startCall, hc]
            exact ⟨rfl, by rw [hm]; rfl, rfl⟩
          | true =>
            have e1 : Modem.asked m (.call (.connect true r)) = [question r] := by simp [Modem.asked, hc]
            rw [e1]
            simp only [State.startCall, hc, infoCommand_eq, not_true, if_false, Bool.false_eq_true]
            split
            · obtain ⟨a, ⟨b1, b2⟩ | ⟨b1, bs, b2⟩⟩ := start hm .connectSkip (question r) 0 { m with connected := true } rfl rfl
              · exact .inl ⟨a, by rw [hm]; exact b1, by simp [b2]⟩
              · exact .inr (.inl ⟨a, by rw [hm]; rfl, b1, bs, by simp [b2]⟩)
            · obtain ⟨a, ⟨b1, b2⟩ | ⟨b1, bs, b2⟩⟩ := start hm .connect (question r) 10 m rfl rfl
              · exact .inl ⟨a, by rw [hm]; exact b1, by simp [b2]⟩
              · exact .inr (.inl ⟨a, by rw [hm]; rfl, b1, bs, by simp [b2]⟩)
    · cases hs
  | main =>
    simp only [State.step, State.mainStep] at hs
    cases hm : m.main with
    | idle => rw [hm] at hs; cases hs
    | run stage caller tag f t =>
      rw [hm] at hs
      cases stage with
      | write =>
        simp only at hs
        split at hs <;> (simp only [Option.some.injEq] at hs; subst hs)
        · exact .inr (.inr ⟨rfl, by rw [(unwritten_finishExecute _ _ _).2.1]; rfl, rfl⟩)
        · exact .inr (.inr ⟨rfl, rfl, rfl⟩)
      | wait =>
        simp only at hs
        split at hs
        · simp only [Option.some.injEq] at hs; subst hs
          obtain ⟨a1, a2, -⟩ := unwritten_finishExecute m caller (some (m.responses.length - 1))
          exact .inl ⟨a1, by rw [a2]; rfl, rfl⟩
        · cases hs
      | _ => simp only [Option.some.injEq] at hs; subst hs; exact .inl ⟨rfl, rfl, rfl⟩
  | timeout =>
    simp only [State.step, State.timeoutStep] at hs
    split at hs
    · rename_i hm
      simp only [Option.some.injEq] at hs; subst hs
      obtain ⟨a1, a2, -⟩ := unwritten_finishExecute m _ (if m.completed = true then some (m.responses.length - 1) else none)
      exact .inl ⟨a1, by rw [a2, hm]; rfl, rfl⟩
    · cases hs
  | rx bytes =>
    simp only [State.step, State.rxStep] at hs
    repeat' split at hs
    all_goals first | (cases hs; done) | (cases hs; exact .inl ⟨rfl, rfl, rfl⟩)
  | reader =>
    simp only [State.step, State.readerStep] at hs
    repeat' split at hs
    all_goals first | (cases hs; done) | (cases hs; exact .inl ⟨rfl, rfl, rfl⟩)
  | callbackRaises =>
    simp only [State.step, State.raiseStep] at hs
    split at hs
    all_goals first | (cases hs; done) | (cases hs; exact .inl ⟨rfl, rfl, rfl⟩)
  | serialError =>
    simp only [State.step, State.serialErrorStep] at hs
    split at hs
    all_goals first | (cases hs; done) | (cases hs; exact .inl ⟨rfl, rfl, rfl⟩)

/-! ### The stream of answers -/

theorem alp_append (l l' : List (Int × Msg)) : alpMessages (l ++ l') = alpMessages l ++ alpMessages l' := by
  simp [alpMessages]

theorem alp_note {x : Int × Msg} (h : Note x) : alpMessages [x] = [] := by
  obtain ⟨t, m⟩ := x
  cases m with
  | command c =>
    have : ¬ t ≤ 3 := by rcases h with h | h <;> simp only at h <;> omega
    simp [alpMessages, this]
  | _ => rfl

theorem alp_answer (r : Command) : alpMessages [(1, .command r)] = [r] := by
  simp [alpMessages]

/-- A message on the way. -/
def Kind (x : Int × Msg) : Prop := Note x ∨ ∃ r, x = (1, .command r)

/-- `qs` are the commands asked for so far; `done` the payloads the device has processed, `todo` those that are written
as well; `fs` are frames on the line, `pr` answers that were not sent, `rs` everything the device has answered. -/
structure Stream (g : Gateway D) (d : D) (s : Net D) (qs : List Command) (done todo : List (List UInt8)) (fs : List Sent)
    (pr rs : List Command) : Prop where
  ok : ReaderOk s.modem
  write : WriteInv (qs.filterMap sendable) s.modem
  fine : ∀ q ∈ qs, ∃ tag, Taggable q tag
  split : if busy s.modem.main = true then ∃ p, qs.filterMap sendable = done ++ todo ++ [p]
    else qs.filterMap sendable = done ++ todo
  written : s.modem.written = framesFrom 0 (done ++ todo)
  taken : s.taken = (framesFrom 0 done).length
  data : s.data = (g.replies d done).1
  wire : Wire s.modem.config.skip s.modem.parser s.line fs
  pend : Meaning s.pending pr
  kinds : ∀ x ∈ s.modem.received ++ fs.map Sent.delivered, Kind x
  order : alpMessages (s.modem.received ++ fs.map Sent.delivered) ++ pr = rs
  meaning : Meaning (g.replies d done).2 rs

/-- Steps of the reading thread left, at most. -/
def readLeft (r : Reader) : Nat :=
  6 * (queued r).length + match r with
    | .reading => 1
    | .next _ => 2
    | .sync _ _ _ => 7
    | .syncAppend _ _ _ _ => 6
    | .other _ _ _ => 7
    | .rebooted _ _ _ => 6
    | .unsolicited _ _ _ => 6
    | .dead _ => 0
    | _ => 5

/-- Steps left, at most. -/
def left (g : Gateway D) (s : Net D) (todo : List (List UInt8)) : Nat :=
  stageLeft s.modem.main + Gwa.askLeft g s.data todo + sendLeft s.pending +
    8 * (s.modem.parser.buffer.length + s.line.length) + 2 * s.line.length + readLeft s.modem.reader

/-- Steps of the two threads. -/
theorem step_left {m m' : State} {e : Event} (hs : m.step e = some m') (hc : ∀ c, e ≠ .call c) (hr : ∀ bs, e ≠ .rx bs) :
    stageLeft m'.main + readLeft m'.reader < stageLeft m.main + readLeft m.reader := by
  have fin : ∀ (m1 : State) c l, (m1.finishExecute c l).main = .idle ∧ (m1.finishExecute c l).reader = m1.reader :=
    fun m1 c l => ⟨finishExecute_main _ _ _, (finishExecute_rest _ _ _).2.2.2⟩
  cases e with
  | call c => exact absurd rfl (hc c)
  | rx bs => exact absurd rfl (hr bs)
  | main =>
    simp only [State.step, State.mainStep] at hs
    cases hm : m.main with
    | idle => rw [hm] at hs; cases hs
    | run stage caller tag f t =>
      rw [hm] at hs
      cases stage with
      | write =>
        simp only at hs
        split at hs <;> (simp only [Option.some.injEq] at hs; subst hs)
        · rw [(fin _ _ _).1, (fin _ _ _).2]; simp [stageLeft]
        · simp [stageLeft]
      | wait =>
        simp only at hs
        split at hs
        · simp only [Option.some.injEq] at hs; subst hs
          rw [(fin _ _ _).1, (fin _ _ _).2]; simp [stageLeft]
        · cases hs
      | _ => simp only [Option.some.injEq] at hs; subst hs; simp [stageLeft]
  | timeout =>
    simp only [State.step, State.timeoutStep] at hs
    split at hs
    · rename_i hm
      simp only [Option.some.injEq] at hs; subst hs
      rw [(fin _ _ _).1, (fin _ _ _).2, hm]; simp [stageLeft]
    · cases hs
  | reader =>
    simp only [State.step, State.readerStep] at hs
    cases hm : m.reader with
    | reading => rw [hm] at hs; cases hs
    | dead q => rw [hm] at hs; cases hs
    | next q =>
      rw [hm] at hs
      cases q with
      | nil => cases hs; simp [readLeft, queued]
      | cons x q =>
        simp only at hs
        split at hs <;> (cases hs; simp [readLeft, queued]; omega)
    | other t x q =>
      rw [hm] at hs
      simp only at hs
      repeat' split at hs
      all_goals (cases hs; simp [readLeft, queued])
    | _ => rw [hm] at hs; cases hs; simp [readLeft, queued]
  | callbackRaises =>
    simp only [State.step, State.raiseStep] at hs
    split at hs
    all_goals first | (cases hs; done) | (rename_i hm; cases hs; simp [hm, readLeft, queued])
  | serialError =>
    simp only [State.step, State.serialErrorStep] at hs
    split at hs
    all_goals first | (cases hs; done) | (rename_i hm; cases hs; simp [hm, readLeft, queued])

theorem question_taggable (r : UInt8) : Taggable (question r) r.toNat := ⟨rfl, rfl, rfl⟩

theorem asked_fine {s : Net D} {e : LateEvent} (h : Tagged e) : ∀ q ∈ s.asked e, ∃ tag, Taggable q tag := by
  intro q hq
  cases e with
  | net e =>
    cases e with
    | call c =>
      cases c with
      | execute c t =>
        simp only [Net.asked, Modem.asked, List.mem_singleton] at hq
        subst hq; exact h
      | connect a r =>
        cases a with
        | false => simp [Net.asked, Modem.asked] at hq
        | true =>
          simp only [Net.asked, Modem.asked] at hq
          split at hq
          · cases hq
          · rw [List.mem_singleton.1 hq]; exact ⟨_, question_taggable r⟩
      | _ => simp [Net.asked, Modem.asked] at hq
    | _ => simp [Net.asked] at hq
  | _ => simp [Net.asked] at hq

theorem split_prefix {g : Gateway D} {d : D} {s : Net D} {qs done todo fs pr rs} (h : Stream g d s qs done todo fs pr rs) :
    done ++ todo <+: qs.filterMap sendable := by
  have := h.split
  split at this
  · obtain ⟨p, hp⟩ := this
    rw [hp]; exact List.prefix_append _ _
  · rw [this]; exact List.prefix_rfl

/-- A payload that was asked for is answered properly. -/
theorem answers {g : Gateway D} (hg : g.Conforms) {qs : List Command} (hq : ∀ q ∈ qs, ∃ tag, Taggable q tag)
    {p : List UInt8} (hp : p ∈ qs.filterMap sendable) :
    p.length ≤ 255 ∧ ∃ q tag, q ∈ qs ∧ sendable q = some p ∧ Taggable q tag ∧ ∀ d, ∃ rs, Answers tag (g.handle d p).2 rs := by
  obtain ⟨q, h1, h2⟩ := List.mem_filterMap.1 hp
  obtain ⟨tag, h3⟩ := hq q h1
  exact ⟨(sendable_some h2).2, q, tag, h1, h2, h3, fun d => hg d q p tag h3.1 h3.2.1 h3.2.2 h2⟩

theorem parse_ok_up {p q : Parser} {bs : List UInt8} {o} (h : p.parse bs = (q, o)) : q.upCounter = p.upCounter := by
  have := parse_up p bs
  rw [h] at this
  exact this

theorem stream_step {g : Gateway D} (hg : g.Conforms) {d : D} {s s' : Net D} {e : LateEvent} {qs done todo fs pr rs}
    (h : Stream g d s qs done todo fs pr rs) (ht : Tagged e) (hs : s.stepLate g e = some s') :
    ∃ done' todo' fs' pr' rs', Stream g d s' (qs ++ s.asked e) done' todo' fs' pr' rs' ∧
      ((∀ c, e ≠ .net (.call c)) → left g s' ((qs.filterMap sendable).drop done'.length) <
        left g s ((qs.filterMap sendable).drop done.length) + 11 * lateNotices [e]) := by
  obtain ⟨h1, h2, h3, h4, h5, h6, h7, h8, h9, h10, h11, h12⟩ := h
  have h3' : ∀ q ∈ qs ++ s.asked e, ∃ tag, Taggable q tag := by
    intro q hq
    rcases List.mem_append.1 hq with hq | hq
    · exact h3 q hq
    · exact asked_fine ht q hq
  rcases late_step hs with ⟨ev, a1, a2, a3, acall, a4, a5, a6, a7⟩ | ⟨a1, a2, f, rfl, hf⟩
  · obtain ⟨b1, -, -, b2⟩ := step_handedOver h1 a1
    have b3 := writeInv_step h2 a1
    rw [a2, ← List.filterMap_append] at b3
    have b4 : ∃ todo', (if busy s'.modem.main = true then
        ∃ p, (qs ++ s.asked e).filterMap sendable = done ++ todo' ++ [p]
        else (qs ++ s.asked e).filterMap sendable = done ++ todo') ∧ s'.modem.written = framesFrom 0 (done ++ todo') := by
      have hk := write_kind h2 a1
      rw [a2] at hk
      rcases hk with ⟨c1, c2, c3⟩ | ⟨c1, c2, c3, bs, c4⟩ | ⟨c1, c2, c3⟩
      · refine ⟨todo, ?_, by rw [c1, h5]⟩
        rw [c2, List.filterMap_append, c3, List.append_nil]; exact h4
      · refine ⟨todo, ?_, by rw [c1, h5]⟩
        rw [if_pos c3]
        rw [c2] at h4
        exact ⟨bs, by rw [List.filterMap_append, c4, if_neg (by simp)] at *; rw [h4]⟩
      · rw [if_pos c1] at h4
        obtain ⟨p, hp⟩ := h4
        refine ⟨todo ++ [p], ?_, ?_⟩
        · rw [if_neg (by rw [c2]; simp), c3, List.append_nil, hp, List.append_assoc]
        · have := b3.2
          rw [unwritten_busy c2, List.append_nil, c3, List.append_nil, hp, List.append_assoc] at this
          exact this
    obtain ⟨todo', b5, b6⟩ := b4
    rcases a7 with ⟨a7, a8⟩ | ⟨n, rfl, a8⟩
    · obtain ⟨⟨c1, c2⟩, c3⟩ := step_parser a1 a8
      refine ⟨done, todo', fs, pr, rs, ⟨b1, b3, h3', b5, b6, by rw [a4, h6], by rw [a5, h7], ?_, by rw [a6]; exact h9,
        by rw [c3]; exact h10, by rw [c3]; exact h11, h12⟩, ?_⟩
      rotate_left
      · intro hnc
        have hl := step_left a1 (fun c hc => hnc c (acall c hc)) a8
        simp only [left, a5, a6, a7, c1]
        omega
      have hb := b3.1
      refine ⟨by rw [b2]; exact h8.skip, by rw [c2]; exact h8.parser, by omega, by omega, h8.valid, ?_, ?_⟩
      · rw [c1, a7]; exact h8.bytes
      · rw [a7]; exact h8.empty
    · obtain ⟨a8, hn0, hn1⟩ := a8
      obtain ⟨q, o, f1, f2, c1, c2, c3, c4⟩ := wire_read h8 n
      simp only [State.step, State.rxStep] at a1
      cases hr : s.modem.reader with
      | reading =>
        rw [hr, c1] at a1
        simp only [Option.some.injEq] at a1
        have e1 : s'.modem.received = s.modem.received ++ f1.map Sent.delivered := by rw [← a1, c3]
        have e2 : s'.modem.parser = q := by rw [← a1]
        have e3 : s'.modem.received ++ f2.map Sent.delivered = s.modem.received ++ fs.map Sent.delivered := by
          rw [e1, c2]; simp
        refine ⟨done, todo', f2, pr, rs, ⟨b1, b3, h3', b5, b6, by rw [a4, h6], by rw [a5, h7],
          by rw [b2, e2, a8]; exact c4, by rw [a6]; exact h9, by rw [e3]; exact h10, by rw [e3]; exact h11, h12⟩, ?_⟩
        intro _
        have e4 : s'.modem.main = s.modem.main := by rw [← a1]
        have e5 : s'.modem.reader = .next o.cmds := by rw [← a1]
        have g1 := congrArg List.length h8.bytes
        have g2 := congrArg List.length c4.bytes
        have g3 := frames_length f1
        rw [c2, List.map_append, List.flatten_append] at g1
        simp only [List.length_append] at g1 g2
        simp only [left, a5, a6, a8, e2, e4, e5, hr, readLeft, c3, List.length_map, queued, List.length_nil,
          List.length_drop] at g2 ⊢
        omega
      | _ => rw [hr] at a1; cases a1
  · rw [a2, List.append_nil]
    rcases hf with rfl | ⟨k, rfl⟩ | ⟨k, t, rfl⟩ | ⟨k, r, rfl⟩
    · simp only [Net.stepLate, Net.step] at hs
      rw [h5, h6, show (framesFrom 0 (done ++ todo)).drop (framesFrom 0 done).length = framesFrom done.length todo by
        have := Gwa.framesFrom_drop 0 done todo []; simpa using this] at hs
      cases todo with
      | nil => simp only [framesFrom, nextFrame_nil] at hs; cases hs
      | cons p todo =>
        have hpre : done ++ p :: todo <+: qs.filterMap sendable := by
          split at h4
          · obtain ⟨x, hx⟩ := h4
            rw [hx]; exact List.prefix_append _ _
          · rw [h4]; exact List.prefix_rfl
        obtain ⟨c1, q, tag, -, -, -, c2⟩ := answers hg h3 (hpre.subset (show p ∈ done ++ p :: todo by simp))
        obtain ⟨ts, c3⟩ := c2 s.data
        simp only [framesFrom, nextFrame_frame _ _ _ c1, Option.some.injEq] at hs
        subst hs
        refine ⟨done ++ [p], todo, fs, pr ++ ts, rs ++ ts, ⟨h1, h2, h3, by simpa using h4, by simpa using h5, ?_, ?_, h8,
          Gwa.meaning_append h9 c3.meaning, h10, by rw [← List.append_assoc, h11], ?_⟩, ?_⟩
        · simp only [framesFrom_append, framesFrom, List.append_nil, List.length_append, frame_length]
          omega
        · simp only [Gwa.replies_snoc, ← h7]
        · rw [Gwa.replies_snoc, ← h7]
          exact Gwa.meaning_append h12 c3.meaning
        · intro _
          obtain ⟨x, hx⟩ := hpre
          rw [← hx]
          simp only [left, List.length_append, List.length_singleton, Gwa.sendLeft_append]
          rw [show done ++ p :: todo ++ x = done ++ (p :: (todo ++ x)) by simp, List.drop_left,
            show done ++ p :: (todo ++ x) = (done ++ [p]) ++ (todo ++ x) by simp,
            show done.length + 1 = (done ++ [p]).length by simp, List.drop_left]
          simp only [Gwa.askLeft, Gateway.replies, Gwa.sendLeft_append, List.length_cons]
          omega
    · simp only [Net.stepLate, Net.step] at hs
      cases hp : s.pending with
      | nil => rw [hp] at hs; cases hs
      | cons p pend =>
        rw [hp] at hs h9
        simp only [Option.some.injEq] at hs
        subst hs
        cases h9 with
        | @cons _ r _ pr c1 c2 =>
          have hw : Wire s.modem.config.skip s.modem.parser (s.line ++ frame k 1 p) (fs ++ [(⟨k, 1, p, .command r⟩ : Sent)]) :=
            wire_send (f := ⟨k, 1, p, .command r⟩) h8 ⟨c1.1, c1.2⟩
          have hd : Sent.delivered ⟨k, 1, p, .command r⟩ = (1, .command r) := rfl
          refine ⟨done, todo, fs ++ [⟨k, 1, p, .command r⟩], pr, rs, ⟨h1, h2, h3, h4, h5, h6, h7, hw, c2, ?_, ?_, h12⟩, ?_⟩
          rotate_right
          · intro _
            simp only [left, hp, sendLeft, List.map_cons, List.sum_cons, List.length_append, frame_length]
            omega
          · intro x hx
            rw [List.map_append, ← List.append_assoc] at hx
            rcases List.mem_append.1 hx with hx | hx
            · exact h10 x hx
            · rw [List.map_singleton, List.mem_singleton, hd] at hx
              exact .inr ⟨r, hx⟩
          · rw [List.map_append, ← List.append_assoc, alp_append, List.map_singleton, hd, alp_answer, ← h11]; simp
    · simp only [Net.stepLate, Net.step] at hs
      split at hs
      · rename_i hl
        simp only [Option.some.injEq] at hs
        obtain ⟨f, c1, c2, c3⟩ := note_log k t hl
        have hw := wire_send h8 c1
        rw [c2] at hw
        subst hs
        refine ⟨done, todo, fs ++ [f], pr, rs, ⟨h1, h2, h3, h4, h5, h6, h7, hw, h9, ?_, ?_, h12⟩, ?_⟩
        rotate_right
        · intro _
          simp only [left, List.length_append, frame_length, lateNotices, noticeBytes]
          omega
        · intro x hx
          rw [List.map_append, ← List.append_assoc] at hx
          rcases List.mem_append.1 hx with hx | hx
          · exact h10 x hx
          · rw [List.map_singleton, List.mem_singleton] at hx
            rw [hx]; exact .inl c3
        · rw [List.map_append, ← List.append_assoc, alp_append, List.map_singleton, alp_note c3, List.append_nil, h11]
      · cases hs
    · simp only [Net.stepLate, Net.step, Option.some.injEq] at hs
      obtain ⟨f, c1, c2, c3⟩ := note_reboot k r
      have hw := wire_send h8 c1
      rw [c2] at hw
      subst hs
      refine ⟨done, todo, fs ++ [f], pr, rs, ⟨h1, h2, h3, h4, h5, h6, h7, hw, h9, ?_, ?_, h12⟩, ?_⟩
      rotate_right
      · intro _
        simp only [left, List.length_append, frame_length, lateNotices, noticeBytes, List.length_singleton]
        omega
      · intro x hx
        rw [List.map_append, ← List.append_assoc] at hx
        rcases List.mem_append.1 hx with hx | hx
        · exact h10 x hx
        · rw [List.map_singleton, List.mem_singleton] at hx
          rw [hx]; exact .inl c3
      · rw [List.map_append, ← List.append_assoc, alp_append, List.map_singleton, alp_note c3, List.append_nil, h11]

theorem stream_run {g : Gateway D} (hg : g.Conforms) {d : D} {es : List LateEvent} : ∀ {s s' : Net D} {qs done todo fs pr rs},
    Stream g d s qs done todo fs pr rs → (∀ e ∈ es, Tagged e) → s.runLate g es = some s' →
    ∃ done' todo' fs' pr' rs', Stream g d s' (qs ++ s.requested g es) done' todo' fs' pr' rs' := by
  induction es with
  | nil =>
    intro s s' qs done todo fs pr rs h _ hs
    cases hs
    exact ⟨done, todo, fs, pr, rs, by simpa [Net.requested] using h⟩
  | cons e es ih =>
    intro s s' qs done todo fs pr rs h ht hs
    obtain ⟨s1, h1, h2⟩ := late_cons hs
    obtain ⟨_, _, _, _, _, h3, -⟩ := stream_step hg h (ht e (by simp)) h1
    obtain ⟨a, b, c, x, y, h4⟩ := ih h3 (fun e he => ht e (by simp [he])) h2
    refine ⟨a, b, c, x, y, ?_⟩
    simp only [Net.requested, h1, ← List.append_assoc]
    exact h4

/-- Steps without calls. -/
theorem stream_rest {g : Gateway D} (hg : g.Conforms) {d : D} {es : List LateEvent} : ∀ {s s' : Net D} {qs done todo fs pr rs},
    Stream g d s qs done todo fs pr rs → (∀ c, .net (.call c) ∉ es) → s.runLate g es = some s' →
    ∃ done' todo' fs' pr' rs', Stream g d s' qs done' todo' fs' pr' rs' ∧
      es.length + left g s' ((qs.filterMap sendable).drop done'.length) ≤
        left g s ((qs.filterMap sendable).drop done.length) + 11 * lateNotices es := by
  induction es with
  | nil =>
    intro s s' qs done todo fs pr rs h _ hs
    cases hs
    exact ⟨done, todo, fs, pr, rs, h, by simp⟩
  | cons e es ih =>
    intro s s' qs done todo fs pr rs h hc hs
    obtain ⟨s1, h1, h2⟩ := late_cons hs
    have hc1 : ∀ c, e ≠ .net (.call c) := fun c hce => hc c (by simp [hce])
    have ht : Tagged e := by
      cases e with
      | net e => cases e <;> first | trivial | exact absurd rfl (hc1 _)
      | _ => trivial
    have ha : s.asked e = [] := by
      cases e with
      | net e => cases e <;> first | rfl | exact absurd rfl (hc1 _)
      | _ => rfl
    obtain ⟨_, _, _, _, _, h3, h4⟩ := stream_step hg h ht h1
    rw [ha, List.append_nil] at h3
    obtain ⟨a, b, c, x, y, h5, h6⟩ := ih h3 (fun c hce => hc c (by simp [hce])) h2
    refine ⟨a, b, c, x, y, h5, ?_⟩
    have h7 := h4 hc1
    have h8 : lateNotices (e :: es) = lateNotices [e] + lateNotices es := by
      cases e <;> simp [lateNotices]
    rw [h8, List.length_cons]
    omega

theorem stream_start {config : Config} (hk : config.skip = false) (g : Gateway D) (d : D) :
    Stream g d (Net.start config d) [] [] [] [] [] [] := by
  obtain ⟨fs, ⟨h1, -, h2, -⟩, -⟩ := Gw.start_idle hk d
  have : fs = [] := h1.empty rfl
  subst this
  exact ⟨init_ok config, ⟨rfl, rfl⟩, by simp, rfl, rfl, rfl, rfl, h1, .nil, by simp [Net.start, init], rfl, .nil⟩

theorem stream_reach {config : Config} (hk : config.skip = false) {g : Gateway D} (hg : g.Conforms) {d : D}
    {es : List LateEvent} {s : Net D} (ht : ∀ e ∈ es, Tagged e) (h : (Net.start config d).runLate g es = some s) :
    ∃ done todo fs pr rs, Stream g d s ((Net.start config d).requested g es) done todo fs pr rs := by
  simpa using stream_run hg (stream_start hk g d) ht h

/-! ### Whose answer -/

theorem meaning_split {ps qs : List (List UInt8)} {rs : List Command} (h : Meaning (ps ++ qs) rs) :
    ∃ r1 r2, rs = r1 ++ r2 ∧ Meaning ps r1 ∧ Meaning qs r2 := by
  induction ps generalizing rs with
  | nil => exact ⟨[], rs, rfl, .nil, h⟩
  | cons p ps ih =>
    cases h with
    | cons h1 h2 =>
      obtain ⟨r1, r2, rfl, h3, h4⟩ := ih h2
      exact ⟨_ :: r1, r2, rfl, .cons h1 h3, h4⟩

/-- A message of the device belongs to one of the payloads. -/
theorem origin {g : Gateway D} {done : List (List UInt8)} : ∀ {d : D} {rs : List Command} {c : Command},
    Meaning (g.replies d done).2 rs → c ∈ rs →
    ∃ a p b r, done = a ++ p :: b ∧ Meaning (g.handle (g.replies d a).1 p).2 r ∧ c ∈ r := by
  induction done with
  | nil => intro d rs c h hc; cases h; cases hc
  | cons p done ih =>
    intro d rs c h hc
    obtain ⟨r1, r2, rfl, h1, h2⟩ := meaning_split h
    rcases List.mem_append.1 hc with hc | hc
    · exact ⟨[], p, done, r1, rfl, h1, hc⟩
    · obtain ⟨a, q, b, r, rfl, h3, h4⟩ := ih h2 hc
      exact ⟨p :: a, q, b, r, rfl, h3, h4⟩

theorem foreign {g : Gateway D} (hg : g.Conforms) {qs : List Command} (hq : ∀ q ∈ qs, ∃ tag, Taggable q tag) {tag : Int}
    (hf : ∀ q ∈ qs, q.tagId ≠ some tag) {done : List (List UInt8)} (hd : ∀ p ∈ done, p ∈ qs.filterMap sendable) {d : D}
    {rs : List Command} (h : Meaning (g.replies d done).2 rs) : ∀ c ∈ rs, c.tagId ≠ some tag := by
  intro c hc
  obtain ⟨a, p, b, r, rfl, h1, h2⟩ := origin h hc
  obtain ⟨-, q, t, h3, -, h4, h5⟩ := answers hg hq (hd p (by simp))
  obtain ⟨r', h6⟩ := h5 (g.replies d a).1
  rw [meaning_unique h1 h6.meaning] at h2
  rw [h6.tagged c h2, ← h4.2.2]
  exact hf q h3

/-! ### One call at a time -/

/-- During a call the only thing that can happen to it is that it ends. -/
theorem step_calling {m m' : State} {e : Event} (hm : m.main ≠ .idle) (hs : m.step e = some m')
    (ho : m'.outcomes = m.outcomes) : m'.main ≠ .idle ∧ Modem.asked m e = [] := by
  have fin : ∀ (m1 : State) c l, m1.outcomes = m.outcomes → (m1.finishExecute c l).outcomes = m.outcomes → False := by
    intro m1 c l h1 h2
    obtain ⟨o, h3⟩ := finishExecute_outcomes m1 c l
    rw [h3, h1] at h2
    simpa using congrArg List.length h2
  cases e with
  | call c => simp only [State.step, if_neg hm] at hs; cases hs
  | main =>
    refine ⟨?_, rfl⟩
    simp only [State.step, State.mainStep] at hs
    cases hm' : m.main with
    | idle => exact absurd hm' hm
    | run stage caller tag f t =>
      rw [hm'] at hs
      cases stage with
      | write =>
        simp only at hs
        split at hs <;> (simp only [Option.some.injEq] at hs; subst hs)
        · refine (fin _ _ _ ?_ ho).elim; rfl
        · simp
      | wait =>
        simp only at hs
        split at hs
        · simp only [Option.some.injEq] at hs; subst hs
          exact (fin _ _ _ rfl ho).elim
        · cases hs
      | _ => simp only [Option.some.injEq] at hs; subst hs; simp
  | timeout =>
    simp only [State.step, State.timeoutStep] at hs
    split at hs
    · simp only [Option.some.injEq] at hs; subst hs
      exact (fin _ _ _ rfl ho).elim
    · cases hs
  | rx bytes =>
    refine ⟨?_, rfl⟩
    simp only [State.step, State.rxStep] at hs
    repeat' split at hs
    all_goals first | (cases hs; done) | (cases hs; exact hm)
  | reader =>
    refine ⟨?_, rfl⟩
    simp only [State.step, State.readerStep] at hs
    repeat' split at hs
    all_goals first | (cases hs; done) | (cases hs; exact hm)
  | callbackRaises =>
    refine ⟨?_, rfl⟩
    simp only [State.step, State.raiseStep] at hs
    split at hs
    all_goals first | (cases hs; done) | (cases hs; exact hm)
  | serialError =>
    refine ⟨?_, rfl⟩
    simp only [State.step, State.serialErrorStep] at hs
    split at hs
    all_goals first | (cases hs; done) | (cases hs; exact hm)

theorem run_calling {es : List Event} : ∀ {m m' : State}, m.main ≠ .idle → m.run es = some m' → m'.outcomes = m.outcomes →
    Modem.requested m es = [] := by
  induction es with
  | nil => intro m m' _ _ _; rfl
  | cons e es ih =>
    intro m m' hm hs ho
    obtain ⟨m1, h1, h2⟩ := Option.bind_eq_some_iff.1 (show (m.step e).bind (fun s => s.run es) = some m' from hs)
    have h3 : m1.outcomes = m.outcomes :=
      run_outcomes_left (es := [e]) (by simp [State.run, h1]) h2 ho
    obtain ⟨h4, h5⟩ := step_calling hm h1 h3
    simp only [Modem.requested, h1, h5, List.nil_append]
    exact ih h4 h2 (by rw [ho, h3])

/-! ### The answers with one tag -/

theorem response_alp (tag : Option Int) (l : List (Int × Msg)) :
    l.filterMap (response tag) = (alpMessages l).filter fun c => decide (c.tagId = tag) := by
  induction l with
  | nil => rfl
  | cons x l ih =>
    rw [show x :: l = [x] ++ l from rfl, List.filterMap_append, ih, alp_append, List.filter_append]
    congr 1
    obtain ⟨t, m⟩ := x
    cases m with
    | command c =>
      by_cases h1 : t ≤ 3 <;> by_cases h2 : c.tagId = tag <;> simp [alpMessages, response, h1, h2]
    | _ => rfl

/-- The messages that were not handed over yet are the last ones received. -/
theorem pending_suffix {config : Config} {evs : List Event} {m : State} (h : (init config).run evs = some m) :
    pending m.reader <:+ m.received := by
  obtain ⟨-, log, ⟨⟨new, h1, h2⟩, -⟩, -⟩ := run_handedOver (init_ok config) h
  rw [show (init config).received = [] from rfl, List.nil_append] at h1
  rw [show pending (init config).reader = [] from rfl, List.nil_append] at h2
  exact ⟨log.map Prod.snd, by rw [h2, h1]⟩

/-- As long as something is going on there is a step, other than a timeout, unless a call waits in vain. -/
theorem stream_enabled {g : Gateway D} (hg : g.Conforms) {d : D} {s : Net D} {qs done todo fs pr rs}
    (h : Stream g d s qs done todo fs pr rs) :
    (∃ e s', s.step g e = some s' ∧ (∀ c, e ≠ .call c) ∧ noticeBytes [e] = 0) ∨
    ((s.modem.main = .idle ∨ (∃ caller tag f t, s.modem.main = .run .wait caller tag f t) ∧ s.modem.completed = false) ∧
      todo = [] ∧ s.pending = [] ∧ (s.modem.reader = .reading ∧ s.line = [] ∨ ∃ q, s.modem.reader = .dead q)) := by
  by_cases hst : s.modem.main = .idle ∨ (∃ caller tag f t, s.modem.main = .run .wait caller tag f t) ∧
      s.modem.completed = false
  swap
  · refine .inl ?_
    cases hmn : s.modem.main with
    | idle => exact absurd (.inl hmn) hst
    | run stage caller tag f t =>
      cases stage with
      | wait =>
        have hcm : s.modem.completed = true := by
          cases hc : s.modem.completed with
          | true => rfl
          | false => exact absurd (.inr ⟨⟨_, _, _, _, hmn⟩, hc⟩) hst
        exact ⟨.main, _, by simp only [Net.step, State.step, State.mainStep, hmn, hcm, if_true]; rfl, by simp, rfl⟩
      | write =>
        by_cases ht : t = 0
        · exact ⟨.main, _, by simp only [Net.step, State.step, State.mainStep, hmn, ht, if_true]; rfl, by simp, rfl⟩
        · exact ⟨.main, _, by simp only [Net.step, State.step, State.mainStep, hmn, if_neg ht]; rfl, by simp, rfl⟩
      | _ => exact ⟨.main, _, by simp only [Net.step, State.step, State.mainStep, hmn]; rfl, by simp, rfl⟩
  cases todo with
  | cons p todo =>
    obtain ⟨b1, -⟩ := answers hg h.fine ((split_prefix h).subset (show p ∈ done ++ p :: todo by simp))
    have b2 : s.modem.written.drop s.taken = framesFrom done.length (p :: todo) := by
      rw [h.written, h.taken]
      have := Gwa.framesFrom_drop 0 done (p :: todo) []
      simpa using this
    exact .inl ⟨.take, _, by simp only [Net.step, b2, framesFrom, nextFrame_frame _ _ _ b1]; rfl, by simp, rfl⟩
  | nil =>
    cases hp : s.pending with
    | cons p pend => exact .inl ⟨.send 0, _, by simp only [Net.step, hp]; rfl, by simp, rfl⟩
    | nil =>
      have hrd : s.modem.reader ≠ .reading → (∃ m, s.modem.readerStep = some m) ∨ ∃ q, s.modem.reader = .dead q := by
        intro hne
        unfold State.readerStep
        cases hr : s.modem.reader with
        | reading => exact absurd hr hne
        | dead q => exact .inr ⟨q, rfl⟩
        | next q =>
          cases q with
          | nil => exact .inl ⟨_, rfl⟩
          | cons x q =>
            simp only
            split <;> exact .inl ⟨_, rfl⟩
        | other t x q =>
          simp only
          repeat' split
          all_goals exact .inl ⟨_, rfl⟩
        | _ => exact .inl ⟨_, rfl⟩
      by_cases hr : s.modem.reader = .reading
      · cases hl : s.line with
        | nil => exact .inr ⟨hst, rfl, rfl, .inl ⟨hr, rfl⟩⟩
        | cons b l =>
          obtain ⟨q, ou, f1, f2, a1, -⟩ := wire_read h.wire 1
          rw [hl] at a1
          exact .inl ⟨.read 1, _, by simp only [Net.step, hl, List.length_cons]; rw [if_pos (by omega)]; simp only [State.step, State.rxStep, hr, a1]; rfl, by simp, rfl⟩
      · rcases hrd hr with ⟨m, hm'⟩ | ⟨q, hq⟩
        · exact .inl ⟨.reader, _, by simp only [Net.step, State.step, hm']; rfl, by simp, rfl⟩
        · exact .inr ⟨hst, rfl, rfl, .inr ⟨q, hq⟩⟩

theorem run_calling_main {es : List Event} : ∀ {m m' : State}, m.main ≠ .idle → m.run es = some m' →
    m'.outcomes = m.outcomes → m'.main ≠ .idle := by
  induction es with
  | nil => intro m m' hm h _; cases h; exact hm
  | cons e es ih =>
    intro m m' hm hs ho
    obtain ⟨m1, h1, h2⟩ := Option.bind_eq_some_iff.1 (show (m.step e).bind (fun s => s.run es) = some m' from hs)
    have h3 : m1.outcomes = m.outcomes :=
      run_outcomes_left (es := [e]) (by simp [State.run, h1]) h2 ho
    exact ih (step_calling hm h1 h3).1 h2 (by rw [ho, h3])

/-- A call with a new tag in progress: the answers with its tag. -/
theorem fresh_core {config : Config} (hk : config.skip = false) {g : Gateway D} (hg : g.Conforms) {d : D}
    {before during : List LateEvent} {s s1 : Net D} {c : Command} {tag timeout : Int}
    {bs : List UInt8} (hc : Taggable c tag) (hb : sendable c = some bs)
    (hp : ∀ e ∈ before ++ during, Tagged e) (h0 : (Net.start config d).runLate g before = some s)
    (hf : ∀ q ∈ (Net.start config d).requested g before, q.tagId ≠ some tag)
    (h1 : s.runLate g (.net (.call (.execute c timeout)) :: during) = some s1)
    (ho1 : s1.modem.outcomes = s.modem.outcomes)
    (hcalm : s.Calm g (.net (.call (.execute c timeout)) :: during)) :
    ∃ evs0 evs1, (init config).run evs0 = some s.modem ∧
      s.modem.run (.call (.execute c timeout) :: evs1) = some s1.modem ∧
      Modem.Calm s.modem (.call (.execute c timeout) :: evs1) ∧ s1.modem.main ≠ .idle ∧
      ∃ done todo fs pr rs, Stream g d s1 ((Net.start config d).requested g before ++ [c]) done todo fs pr rs ∧
        (∀ new handed, s1.modem.received = s.modem.received ++ new →
          handed ++ pending s1.modem.reader = pending s.modem.reader ++ new →
          rs.filter (fun c => decide (c.tagId = some tag)) =
            (handed ++ pending s1.modem.reader).filterMap (response c.tagId) ++
              ((alpMessages (fs.map Sent.delivered)) ++ pr).filter (fun c => decide (c.tagId = some tag))) ∧
        (done = ((Net.start config d).requested g before).filterMap sendable ++ [bs] ∧
            g.Reply d (((Net.start config d).requested g before).filterMap sendable) tag bs
              (rs.filter (fun c => decide (c.tagId = some tag))) ∨
          done ≠ ((Net.start config d).requested g before).filterMap sendable ++ [bs] ∧
            rs.filter (fun c => decide (c.tagId = some tag)) = []) := by
  obtain ⟨evs0, a1, -, -⟩ := late_modem h0
  rw [show (Net.start config d).modem = init config from rfl] at a1
  obtain ⟨s2, b1, b2⟩ := late_cons h1
  obtain ⟨evs1, b3, b4, b5⟩ := late_modem b2
  obtain ⟨m2, b6, rfl⟩ := Option.map_eq_some_iff.1 (show (s.modem.step (.call (.execute c timeout))).map
    (fun m => { s with modem := m }) = some s2 from b1)
  have hrun : s.modem.run (.call (.execute c timeout) :: evs1) = some s1.modem := by
    unfold State.run; rw [b6]; exact b3
  have hq0 : m2.outcomes = s.modem.outcomes :=
    run_outcomes_left (es := [.call (.execute c timeout)]) (by simp [State.run, b6]) b3 ho1
  have hidle : m2.main ≠ .idle := by
    have hst : s.modem.step (.call (.execute c timeout)) = some (s.modem.startExecute .app c timeout) := by
      simp only [State.step] at b6 ⊢
      split at b6
      · rename_i hm; rw [if_pos hm]; rfl
      · cases b6
    rw [b6] at hst
    cases hst
    rcases startExecute_running (s := s.modem) (caller := .app) (cmd := c) (timeout := timeout) with ⟨e, he⟩ | ⟨-, f, hr⟩
    · rw [he] at hq0
      simpa using congrArg List.length hq0
    · obtain ⟨stage, hr, -⟩ := hr
      rw [hr]; simp
  have hreq1 : Net.requested g { s with modem := m2 } during = [] := by
    rw [← b4]; exact run_calling hidle b3 (by rw [ho1, hq0])
  have hreq : s.requested g (.net (.call (.execute c timeout)) :: during) = [c] := by
    simp only [Net.requested, b1, hreq1, List.append_nil]
    rfl
  have hcalm' : Modem.Calm s.modem (.call (.execute c timeout) :: evs1) := by
    refine ⟨fun hr => ⟨(hcalm.1 hr).1, by simp⟩, ?_⟩
    intro m hm
    rw [b6] at hm
    cases hm
    exact b5 (hcalm.2 _ b1)
  refine ⟨evs0, evs1, a1, hrun, hcalm', run_calling_main hidle b3 (by rw [ho1, hq0]), ?_⟩
  have hfull := runLate_append h0 h1
  have hreqs := requested_append (fs := .net (.call (.execute c timeout)) :: during) h0
  rw [hreq] at hreqs
  have hp0 : ∀ e ∈ before, Tagged e := fun e he => hp e (by simp [he])
  have hp1 : ∀ e ∈ before ++ .net (.call (.execute c timeout)) :: during, Tagged e := by
    intro e he
    simp only [List.mem_append, List.mem_cons] at he
    rcases he with he | rfl | he
    · exact hp e (by simp [he])
    · exact ⟨tag, hc⟩
    · exact hp e (by simp [he])
  obtain ⟨done0, todo0, fs0, pr0, rs0, st0⟩ := stream_reach hk hg hp0 h0
  obtain ⟨done, todo, fs, pr, rs, st⟩ := stream_reach hk hg hp1 hfull
  rw [hreqs] at st
  generalize hqs : (Net.start config d).requested g before = qs at *
  have hsub0 : ∀ p ∈ done0, p ∈ qs.filterMap sendable := fun p hp =>
    (((List.prefix_append _ _).trans (split_prefix st0)).subset hp)
  have hfor0 := foreign hg st0.fine hf hsub0 st0.meaning
  have hold : ∀ x ∈ alpMessages s.modem.received, x.tagId ≠ some tag := by
    intro x hx
    refine hfor0 x ?_
    rw [← st0.order, alp_append]
    simp [hx]
  have hpend : ∀ x ∈ alpMessages (pending s.modem.reader), x.tagId ≠ some tag := by
    intro x hx
    obtain ⟨l, hl⟩ := pending_suffix a1
    refine hold x ?_
    rw [← hl, alp_append]
    simp [hx]
  have hnil : ∀ l : List Command, (∀ x ∈ l, x.tagId ≠ some tag) → l.filter (fun c => decide (c.tagId = some tag)) = [] := by
    intro l hl
    rw [List.filter_eq_nil_iff]
    intro x hx
    simpa using hl x hx
  refine ⟨done, todo, fs, pr, rs, st, ?_, ?_⟩
  · intro new handed d1 d2
    have e1 : (handed ++ pending s1.modem.reader).filterMap (response (some tag)) =
        (alpMessages new).filter (fun c => decide (c.tagId = some tag)) := by
      rw [d2, response_alp, alp_append, List.filter_append, hnil _ hpend, List.nil_append]
    rw [← st.order, d1, alp_append, alp_append, hc.2.2, e1]
    simp only [List.filter_append, hnil _ hold, List.nil_append, List.append_assoc]
  have hps : (qs ++ [c]).filterMap sendable = qs.filterMap sendable ++ [bs] := by
    simp [List.filterMap_append, hb]
  have hdone : done <+: qs.filterMap sendable ++ [bs] := by
    rw [← hps]; exact (List.prefix_append _ _).trans (split_prefix st)
  have hfine : ∀ q ∈ qs, ∃ tag, Taggable q tag := st0.fine
  by_cases hd : done = qs.filterMap sendable ++ [bs]
  · subst hd
    refine .inl ⟨rfl, ?_⟩
    obtain ⟨r0, r1, rfl, f1, f2⟩ := meaning_split (by
      have := st.meaning
      rwa [Gwa.replies_snoc] at this)
    obtain ⟨r, f3⟩ := hg (g.replies d (qs.filterMap sendable)).1 c bs tag hc.1 hc.2.1 hc.2.2 hb
    rw [meaning_unique f2 f3.meaning]
    have f4 := foreign hg hfine hf (fun p hp => hp) f1
    rw [List.filter_append, hnil _ f4, List.nil_append, List.filter_eq_self.2 (by
      intro y hy; simpa using f3.tagged y hy)]
    exact f3
  · rcases List.prefix_concat_iff.1 hdone with h | h
    · exact absurd h hd
    · exact .inr ⟨hd, hnil _ (foreign hg hfine hf (fun p hp => h.subset hp) st.meaning)⟩

/-- A message that was handed over to a list or the callback is an answer to one of the payloads that the device has
processed. -/
theorem origin_of {config : Config} (hk : config.skip = false) {g : Gateway D} (hg : g.Conforms) {d : D}
    {es : List LateEvent} {s : Net D} (ht : ∀ e ∈ es, Tagged e) (h : (Net.start config d).runLate g es = some s)
    {c : Command} (hc : (∃ n, c ∈ content s.modem.responses n) ∨ .command c ∈ s.modem.called ∨
      ∃ n, .command c ∈ content s.modem.unsolicited n) :
    ∃ l q l' tag bs rs done, (Net.start config d).requested g es = l ++ q :: l' ∧ Taggable q tag ∧ sendable q = some bs ∧
      g.Reply d (l.filterMap sendable) tag bs rs ∧ c ∈ rs ∧ c.tagId = some tag ∧ s.data = (g.replies d done).1 ∧
      done <+: ((Net.start config d).requested g es).filterMap sendable ∧ l.filterMap sendable ++ [bs] <+: done := by
  obtain ⟨done, todo, fs, pr, rs, hst⟩ := stream_reach hk hg ht h
  obtain ⟨evs, h1, -, -⟩ := late_modem h
  obtain ⟨-, log, hl, -⟩ := run_handedOver (init_ok config) h1
  have hx : ∃ x ∈ log, x.2.2 = .command c ∧ x.2.1 ≤ 3 := by
    have key : ∀ k, (∀ t, RightSink (init config).config t k → t ≤ 3) → Msg.command c ∈ toSink log k →
        ∃ x ∈ log, x.2.2 = .command c ∧ x.2.1 ≤ 3 := by
      intro k hk' hm
      obtain ⟨x, hx, hx'⟩ := List.mem_map.1 hm
      obtain ⟨hx1, hx2⟩ := List.mem_filter.1 hx
      refine ⟨x, hx1, hx', hk' _ ?_⟩
      have := hl.right x hx1
      rwa [of_decide_eq_true hx2] at this
    rcases hc with ⟨n, hc⟩ | hc | ⟨n, hc⟩
    · have h2 := hl.responses n
      have h3 : content (init config).responses n = [] := by
        rcases n with _ | n <;> rfl
      rw [h3, List.map_nil, List.nil_append] at h2
      refine key (.response n) (fun t h => h.1) ?_
      rw [← h2]; exact List.mem_map.2 ⟨c, hc, rfl⟩
    · have h2 := hl.called
      rw [show (init config).called = [] from rfl,
        List.nil_append] at h2
      exact key .callback (fun t h => h.1) (h2 ▸ hc)
    · have h2 := hl.unsolicited n
      have h3 : content (init config).unsolicited n = [] := by
        rcases n with _ | n <;> rfl
      rw [h3, List.nil_append] at h2
      exact key (.unsolicited n) (fun t h => h) (h2 ▸ hc)
  obtain ⟨⟨k, t, m⟩, hx1, rfl, hx3⟩ := hx
  have hr : c ∈ rs := by
    obtain ⟨new, h7, h8⟩ := hl.messages
    rw [show (init config).received = [] from rfl,
      List.nil_append] at h7
    rw [show pending (init config).reader = [] from rfl, List.nil_append] at h8
    rw [← hst.order, h7, ← h8]
    refine List.mem_append.2 (.inl ?_)
    rw [List.append_assoc, alp_append]
    refine List.mem_append.2 (.inl (List.mem_filterMap.2 ⟨(t, .command c), List.mem_map.2 ⟨_, hx1, rfl⟩, ?_⟩))
    simp only [if_pos hx3]
  obtain ⟨a, p, b, r, hd, h2, h3⟩ := origin hst.meaning hr
  have h4 := split_prefix hst
  rw [hd] at h4
  obtain ⟨todo', h4⟩ := h4
  have h5 : List.filterMap sendable ((Net.start config d).requested g es) = a ++ p :: (b ++ todo ++ todo') := by
    rw [← h4]; simp
  obtain ⟨l1, l2, e1, e2, e3⟩ := List.filterMap_eq_append_iff.1 h5
  obtain ⟨l3, q, l4, rfl, e4, e5, -⟩ := List.filterMap_eq_cons_iff.1 e3
  have e6 : (Net.start config d).requested g es = (l1 ++ l3) ++ q :: l4 := by rw [e1]; simp
  obtain ⟨tag, e7⟩ := hst.fine q (by rw [e6]; simp)
  have e8 : (l1 ++ l3).filterMap sendable = a := by
    rw [List.filterMap_append, e2, List.filterMap_eq_nil_iff.2 e4, List.append_nil]
  obtain ⟨rs', e9⟩ := hg (g.replies d a).1 q p tag e7.1 e7.2.1 e7.2.2 e5
  rw [meaning_unique h2 e9.meaning] at h3
  exact ⟨l1 ++ l3, q, l4, tag, p, rs', done, e6, e7, e5, by unfold Gateway.Reply; rw [e8]; exact e9, h3, e9.tagged c h3,
    hst.data, (List.prefix_append _ _).trans (split_prefix hst), by rw [e8, hd]; exact ⟨b, by simp⟩⟩

end Verif.Modem.Lt
