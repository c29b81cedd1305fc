import Verif.Props.Late
import Verif.Lemmas.ModemConnect
import Verif.Lemmas.Retry
import Verif.Spec.LateConnect

/-! Helper lemmas: `connect` with late answers. It is compared with executing its question. -/

namespace Verif.Modem.Lt

open Verif Verif.Serial Verif.Modem.Gw

variable {D : Type}

/-- The same modem, if the application had executed the question itself. -/
def asApp (m : State) : State :=
  { m with main := match m.main with | .run st .connect tag f t => .run st .app tag f t | x => x }

theorem asApp_run {m : State} {st tag f t} (h : m.main = .run st .connect tag f t) :
    asApp m = { m with main := .run st .app tag f t } := by
  unfold asApp; rw [h]

/-- Two states that know the same about the node. -/
structure Knows (m m' : State) : Prop where
  uid : m'.uid = m.uid
  firmware : m'.firmwareVersion = m.firmwareVersion
  connected : m'.connected = m.connected

theorem Knows.trans {a b c : State} (h : Knows a b) (h' : Knows b c) : Knows a c :=
  ⟨h'.uid.trans h.uid, h'.firmware.trans h.firmware, h'.connected.trans h.connected⟩

/-- What the reading thread does does not depend on the application thread, and the other way round. -/
theorem reading_step (x : Main) {m m' : State} {e : Event} (he : (∃ bs, e = .rx bs) ∨ e = .reader ∨ e = .callbackRaises ∨
    e = .serialError) (hs : m.step e = some m') :
    m'.main = m.main ∧ m'.outcomes = m.outcomes ∧ Knows m m' ∧
      ({ m with main := x } : State).step e = some { m' with main := x } := by
  obtain ⟨config, parser, uid, fw, connected, tag, completed, responses, unsolicited, rebooted, main, reader, received, called,
    rebootedCalled, written, outcomes⟩ := m
  rcases he with ⟨bs, rfl⟩ | rfl | rfl | rfl
  · cases reader <;> simp only [State.step, State.rxStep, reduceCtorEq] at hs ⊢
    split at hs <;> rename_i h1 <;> cases hs <;> exact ⟨rfl, rfl, ⟨rfl, rfl, rfl⟩, rfl⟩
  · cases reader with
    | reading => simp [State.step, State.readerStep] at hs
    | dead => simp [State.step, State.readerStep] at hs
    | next q =>
      cases q with
      | nil =>
        cases hs
        exact ⟨rfl, rfl, ⟨rfl, rfl, rfl⟩, rfl⟩
      | cons y q =>
        obtain ⟨t, y⟩ := y
        simp only [State.step, State.readerStep, State.isSync] at hs ⊢
        cases y <;> simp only at hs ⊢
        all_goals repeat' split at hs
        all_goals first
          | (cases hs; exact ⟨rfl, rfl, ⟨rfl, rfl, rfl⟩, rfl⟩)
          | skip
        all_goals
          cases hs
          rename_i h1
          refine ⟨rfl, rfl, ⟨rfl, rfl, rfl⟩, ?_⟩
          simp only [h1]
    | other t y q =>
      simp only [State.step, State.readerStep] at hs ⊢
      repeat' split at hs
      all_goals
        cases hs
        refine ⟨rfl, rfl, ⟨rfl, rfl, rfl⟩, ?_⟩
        repeat first | rw [if_pos (by assumption)] | rw [if_neg (by assumption)]
    | _ =>
      cases hs
      exact ⟨rfl, rfl, ⟨rfl, rfl, rfl⟩, rfl⟩
  · cases reader <;> simp only [State.step, State.raiseStep, reduceCtorEq] at hs ⊢ <;> cases hs <;>
      exact ⟨rfl, rfl, ⟨rfl, rfl, rfl⟩, rfl⟩
  · cases reader <;> simp only [State.step, State.serialErrorStep, reduceCtorEq] at hs ⊢ <;> cases hs <;>
      exact ⟨rfl, rfl, ⟨rfl, rfl, rfl⟩, rfl⟩

/-- A step of `connect` is a step of executing the question, up to its end. -/
theorem asApp_step {m m' : State} {e : Event} {st tag f t} (h : m.main = .run st .connect tag f t) (hs : m.step e = some m') :
    (m'.outcomes = m.outcomes ∧ Knows m m' ∧ (∃ st', m'.main = .run st' .connect tag f t) ∧
        (asApp m).step e = some (asApp m')) ∨
    ∃ z l, Knows m z ∧ z.outcomes = m.outcomes ∧ m' = z.finishConnect (l.bind fun n => z.responses[n]?) ∧
      (asApp m).step e = some (z.finish (match l with | none => .empty | some n => .list n)) := by
  have key : ((∃ bs, e = .rx bs) ∨ e = .reader ∨ e = .callbackRaises ∨ e = .serialError) →
      m'.outcomes = m.outcomes ∧ Knows m m' ∧ (∃ st', m'.main = .run st' .connect tag f t) ∧
        (asApp m).step e = some (asApp m') := by
    intro he
    obtain ⟨h1, h2, h3, h4⟩ := reading_step (.run st .app tag f t) he hs
    exact ⟨h2, h3, ⟨st, h1.trans h⟩, by rw [asApp_run h, asApp_run (h1.trans h), h4]⟩
  cases e with
  | call c => simp [State.step, h] at hs
  | main =>
    rw [asApp_run h]
    simp only [State.step, State.mainStep, h] at hs ⊢
    cases st <;> simp only [Option.some.injEq] at hs
    · subst hs; exact .inl ⟨rfl, ⟨rfl, rfl, rfl⟩, ⟨_, rfl⟩, rfl⟩
    · subst hs; exact .inl ⟨rfl, ⟨rfl, rfl, rfl⟩, ⟨_, rfl⟩, rfl⟩
    · subst hs; exact .inl ⟨rfl, ⟨rfl, rfl, rfl⟩, ⟨_, rfl⟩, rfl⟩
    · subst hs; exact .inl ⟨rfl, ⟨rfl, rfl, rfl⟩, ⟨_, rfl⟩, rfl⟩
    · split at hs
      · rename_i h0
        simp only [Option.some.injEq] at hs
        subst hs
        refine .inr ⟨{ m with written := m.written ++ f }, none, ⟨rfl, rfl, rfl⟩, rfl, rfl, ?_⟩
        simp only [if_pos h0]; rfl
      · rename_i h0
        simp only [Option.some.injEq] at hs
        subst hs
        refine .inl ⟨rfl, ⟨rfl, rfl, rfl⟩, ⟨_, rfl⟩, ?_⟩
        simp only [if_neg h0]; rfl
    · split at hs
      · rename_i h0
        simp only [Option.some.injEq] at hs
        subst hs
        refine .inr ⟨m, some (m.responses.length - 1), ⟨rfl, rfl, rfl⟩, rfl, rfl, ?_⟩
        simp only [if_pos h0]; rfl
      · cases hs
  | timeout =>
    rw [asApp_run h]
    simp only [State.step, State.timeoutStep, h] at hs ⊢
    cases st <;> simp only [Option.some.injEq, reduceCtorEq] at hs
    subst hs
    refine .inr ⟨m, if m.completed then some (m.responses.length - 1) else none, ⟨rfl, rfl, rfl⟩, rfl, rfl, ?_⟩
    rfl
  | rx bs => exact .inl (key (.inl ⟨bs, rfl⟩))
  | reader => exact .inl (key (.inr (.inl rfl)))
  | callbackRaises => exact .inl (key (.inr (.inr (.inl rfl))))
  | serialError => exact .inl (key (.inr (.inr (.inr rfl))))

/-! ### With the device -/

/-- The same with the device. -/
def Net.asApp (s : Net D) : Net D := { s with modem := Lt.asApp s.modem }

theorem map_step {s : Net D} {e : Event} {f : State → Net D} {s' : Net D} (h : (s.modem.step e).map f = some s') :
    ∃ m, s.modem.step e = some m ∧ f m = s' := Option.map_eq_some_iff.1 h

theorem net_step {g : Gateway D} {s s' : Net D} {e : LateEvent} {st tag f t} (h : s.modem.main = .run st .connect tag f t)
    (hs : s.stepLate g e = some s') :
    (s'.modem.outcomes = s.modem.outcomes ∧ Knows s.modem s'.modem ∧ (∃ st', s'.modem.main = .run st' .connect tag f t) ∧
        (Net.asApp s).stepLate g e = some (Net.asApp s')) ∨
    ∃ z l, Knows s.modem z ∧ z.outcomes = s.modem.outcomes ∧ s'.modem = z.finishConnect (l.bind fun n => z.responses[n]?) ∧
      (Net.asApp s).stepLate g e =
        some { s' with modem := z.finish (match l with | none => .empty | some n => .list n) } := by
  have key : ∀ {ev : Event} {F : State → Net D} {m : State}, (∀ m, (F m).modem = m) →
      (∀ m m', { F m with modem := m' } = F m') → s.modem.step ev = some m → F m = s' →
      (Net.asApp s).stepLate g e = ((asApp s.modem).step ev).map F →
      (s'.modem.outcomes = s.modem.outcomes ∧ Knows s.modem s'.modem ∧ (∃ st', s'.modem.main = .run st' .connect tag f t) ∧
        (Net.asApp s).stepLate g e = some (Net.asApp s')) ∨
    ∃ z l, Knows s.modem z ∧ z.outcomes = s.modem.outcomes ∧ s'.modem = z.finishConnect (l.bind fun n => z.responses[n]?) ∧
      (Net.asApp s).stepLate g e =
        some { s' with modem := z.finish (match l with | none => .empty | some n => .list n) } := by
    intro ev F m hF hF' hm hs' hst
    subst hs'
    rcases asApp_step h hm with ⟨h1, h2, h3, h4⟩ | ⟨z, l, h1, h2, h3, h4⟩
    · refine .inl ⟨by rw [hF, h1], by rw [hF]; exact h2, by rw [hF]; exact h3, ?_⟩
      rw [hst, h4, Option.map_some, Net.asApp, hF, hF']
    · refine .inr ⟨z, l, h1, h2, by rw [hF, h3], ?_⟩
      rw [hst, h4, Option.map_some, hF']
  cases e with
  | timeout =>
    obtain ⟨m, h1, h2⟩ := map_step hs
    exact key (ev := .timeout) (F := fun m => { s with modem := m }) (fun _ => rfl) (fun _ _ => rfl) h1 h2 rfl
  | callbackRaises =>
    obtain ⟨m, h1, h2⟩ := map_step hs
    exact key (ev := .callbackRaises) (F := fun m => { s with modem := m }) (fun _ => rfl) (fun _ _ => rfl) h1 h2 rfl
  | serialError =>
    obtain ⟨m, h1, h2⟩ := map_step hs
    exact key (ev := .serialError) (F := fun m => { s with modem := m }) (fun _ => rfl) (fun _ _ => rfl) h1 h2 rfl
  | net e =>
    cases e with
    | call c =>
      obtain ⟨m, h1, h2⟩ := map_step hs
      exact key (ev := .call c) (F := fun m => { s with modem := m }) (fun _ => rfl) (fun _ _ => rfl) h1 h2 rfl
    | main =>
      obtain ⟨m, h1, h2⟩ := map_step hs
      exact key (ev := .main) (F := fun m => { s with modem := m }) (fun _ => rfl) (fun _ _ => rfl) h1 h2 rfl
    | reader =>
      obtain ⟨m, h1, h2⟩ := map_step hs
      exact key (ev := .reader) (F := fun m => { s with modem := m }) (fun _ => rfl) (fun _ _ => rfl) h1 h2 rfl
    | read n =>
      simp only [Net.stepLate, Net.step] at hs
      split at hs
      · rename_i hl
        obtain ⟨m, h1, h2⟩ := map_step hs
        refine key (ev := .rx (s.line.take n)) (F := fun m => { s with modem := m, line := s.line.drop n }) (fun _ => rfl)
          (fun _ _ => rfl) h1 h2 ?_
        exact if_pos hl
      · cases hs
    | take =>
      refine .inl ?_
      simp only [Net.stepLate, Net.step] at hs ⊢
      split at hs
      · cases hs
      · rename_i h1
        cases hs
        refine ⟨rfl, ⟨rfl, rfl, rfl⟩, ⟨_, h⟩, ?_⟩
        simp only [Net.asApp]
        rw [show (asApp s.modem).written = s.modem.written from rfl, h1]
    | send k =>
      refine .inl ?_
      simp only [Net.stepLate, Net.step] at hs ⊢
      split at hs
      · cases hs
      · rename_i h1
        cases hs
        refine ⟨rfl, ⟨rfl, rfl, rfl⟩, ⟨_, h⟩, ?_⟩
        simp only [Net.asApp]
        rw [h1]
    | log k x =>
      refine .inl ?_
      simp only [Net.stepLate, Net.step] at hs ⊢
      split at hs
      · rename_i h1
        cases hs
        refine ⟨rfl, ⟨rfl, rfl, rfl⟩, ⟨_, h⟩, ?_⟩
        rw [if_pos h1]; rfl
      · cases hs
    | reboot k x =>
      cases hs
      exact .inl ⟨rfl, ⟨rfl, rfl, rfl⟩, ⟨_, h⟩, rfl⟩

theorem resetting_asApp (m : State) : resetting (asApp m).main = resetting m.main := by
  unfold asApp
  simp only
  split
  · rename_i st tag f t h
    rw [h]; cases st <;> rfl
  · rfl

/-- Up to the end of `connect`. -/
theorem net_run {g : Gateway D} {tag f t} {es : List LateEvent} : ∀ {s s' : Net D} {st},
    s.modem.main = .run st .connect tag f t → s.runLate g es = some s' → s'.modem.outcomes = s.modem.outcomes → s.Calm g es →
    Knows s.modem s'.modem ∧ (∃ st', s'.modem.main = .run st' .connect tag f t) ∧
      (Net.asApp s).runLate g es = some (Net.asApp s') ∧ (Net.asApp s).Calm g es := by
  induction es with
  | nil => intro s s' st h hs _ _; cases hs; exact ⟨⟨rfl, rfl, rfl⟩, ⟨st, h⟩, rfl, trivial⟩
  | cons e es ih =>
    intro s s' st h hs ho hc
    obtain ⟨s1, h1, h2⟩ := late_cons hs
    rcases net_step h h1 with ⟨a1, a2, ⟨st', a3⟩, a4⟩ | ⟨z, l, a1, a2, a3, a4⟩
    · obtain ⟨b1, b2, b3, b4⟩ := ih a3 h2 (ho.trans a1.symm) (hc.2 _ h1)
      refine ⟨a2.trans b1, b2, ?_, ?_, ?_⟩
      · show Option.bind _ _ = _
        rw [a4]; exact b3
      · intro hr
        rw [show (Net.asApp s).modem = asApp s.modem from rfl, resetting_asApp] at hr
        exact hc.1 hr
      · intro s2 h3
        rw [a4] at h3
        cases h3
        exact b4
    · exfalso
      obtain ⟨os, h3⟩ := Rt.late_outcomes h2
      obtain ⟨o, h4⟩ := finishExecute_outcomes z .connect l
      have h5 : s1.modem.outcomes = z.outcomes ++ [o] := by rw [a3, ← h4]; rfl
      rw [h5, a2, ho] at h3
      have := congrArg List.length h3
      simp at this

/-- What executing the question can do, `connect` can do. -/
theorem asApp_enabled {m y : State} {e : Event} {st tag f t} (h : m.main = .run st .connect tag f t)
    (hs : (asApp m).step e = some y) : ∃ m', m.step e = some m' := by
  have key : ((∃ bs, e = .rx bs) ∨ e = .reader ∨ e = .callbackRaises ∨ e = .serialError) → ∃ m', m.step e = some m' := by
    intro he
    obtain ⟨-, -, -, h4⟩ := reading_step m.main he hs
    exact ⟨_, h4⟩
  rw [asApp_run h] at hs
  cases e with
  | call c => simp [State.step] at hs
  | main =>
    simp only [State.step, State.mainStep, h] at hs ⊢
    cases st <;> simp only at hs ⊢
    · exact ⟨_, rfl⟩
    · exact ⟨_, rfl⟩
    · exact ⟨_, rfl⟩
    · exact ⟨_, rfl⟩
    · split <;> exact ⟨_, rfl⟩
    · split at hs
      · rename_i h0
        rw [if_pos h0]; exact ⟨_, rfl⟩
      · cases hs
  | timeout =>
    simp only [State.step, State.timeoutStep, h] at hs ⊢
    cases st <;> simp only [reduceCtorEq] at hs ⊢
    exact ⟨_, rfl⟩
  | rx bs => exact key (.inl ⟨bs, rfl⟩)
  | reader => exact key (.inr (.inl rfl))
  | callbackRaises => exact key (.inr (.inr (.inl rfl)))
  | serialError => exact key (.inr (.inr (.inr rfl)))

theorem net_enabled {g : Gateway D} {s y : Net D} {e : NetEvent} {st tag f t} (h : s.modem.main = .run st .connect tag f t)
    (hs : (Net.asApp s).step g e = some y) : ∃ s', s.step g e = some s' := by
  cases e with
  | call c =>
    obtain ⟨m, h1, -⟩ := map_step hs
    obtain ⟨m', h2⟩ := asApp_enabled h h1
    exact ⟨_, by simp only [Net.step, h2]; rfl⟩
  | main =>
    obtain ⟨m, h1, -⟩ := map_step hs
    obtain ⟨m', h2⟩ := asApp_enabled h h1
    exact ⟨_, by simp only [Net.step, h2]; rfl⟩
  | reader =>
    obtain ⟨m, h1, -⟩ := map_step hs
    obtain ⟨m', h2⟩ := asApp_enabled h h1
    exact ⟨_, by simp only [Net.step, h2]; rfl⟩
  | read n =>
    simp only [Net.step] at hs ⊢
    split at hs
    · rename_i hl
      obtain ⟨m, h1, -⟩ := map_step hs
      obtain ⟨m', h2⟩ := asApp_enabled h h1
      have hl' : 0 < n ∧ n ≤ s.line.length := hl
      rw [if_pos hl', show s.modem.step (.rx (s.line.take n)) = some m' from h2]
      exact ⟨_, rfl⟩
    · cases hs
  | take =>
    simp only [Net.step] at hs ⊢
    split at hs
    · cases hs
    · rename_i h1
      rw [show nextFrame (s.modem.written.drop s.taken) = _ from h1]
      exact ⟨_, rfl⟩
  | send k =>
    simp only [Net.step] at hs ⊢
    split at hs
    · cases hs
    · rename_i h1
      rw [show s.pending = _ from h1]
      exact ⟨_, rfl⟩
  | log k x =>
    simp only [Net.step] at hs ⊢
    split at hs
    · rename_i h1
      rw [if_pos h1]; exact ⟨_, rfl⟩
    · cases hs
  | reboot k x => exact ⟨_, rfl⟩

/-- The start of `connect`. -/
theorem connect_start {g : Gateway D} {s s2 : Net D} {r : UInt8} (hk : s.modem.config.skip = false)
    (hn : s.modem.connected = false) (h : s.stepLate g (.net (.call (.connect true r))) = some s2)
    (ho : s2.modem.outcomes = s.modem.outcomes) :
    (∃ f t, s2.modem.main = .run .resetList .connect (question r).tagId f t) ∧ Knows s.modem s2.modem ∧
      s.stepLate g (.net (.call (.execute (question r) 10))) = some (Net.asApp s2) := by
  obtain ⟨m, h1, rfl⟩ := Option.map_eq_some_iff.1 (show (s.modem.step (.call (.connect true r))).map
    (fun m => { s with modem := m }) = some s2 from h)
  simp only [State.step] at h1
  split at h1
  swap
  · cases h1
  rename_i hm
  simp only [Option.some.injEq] at h1
  have h2 : m = s.modem.startExecute .connect (question r) 10 := by
    rw [← h1]
    simp [State.startCall, hn, hk, infoCommand_eq]
  have h3 : s.stepLate g (.net (.call (.execute (question r) 10))) =
      some { s with modem := s.modem.startExecute .app (question r) 10 } := by
    simp [Net.stepLate, Net.step, State.step, hm, State.startCall]
  rw [h3]
  cases hb : s.modem.parser.buildSerialFrame (question r).iter with
  | mk p x =>
    cases x with
    | error e =>
      exfalso
      have h4 : m.outcomes = s.modem.outcomes := ho
      rw [h2] at h4
      simp [State.startExecute, hb, State.finish] at h4
    | ok f =>
      have h4 : ∀ c, s.modem.startExecute c (question r) 10 =
          { s.modem with parser := p, main := .run .resetList c (question r).tagId f 10 } := by
        intro c
        simp [State.startExecute, hb, hk]
      rw [h4] at h2 ⊢
      subst h2
      exact ⟨⟨_, _, rfl⟩, ⟨rfl, rfl, rfl⟩, rfl⟩

/-- The run of `connect` as one that executes the question. -/
theorem connect_run {g : Gateway D} {s s1 : Net D} {r : UInt8} {during : List LateEvent} (hk : s.modem.config.skip = false)
    (hn : s.modem.connected = false) (h1 : s.runLate g (.net (.call (.connect true r)) :: during) = some s1)
    (ho1 : s1.modem.outcomes = s.modem.outcomes) (hcalm : s.Calm g (.net (.call (.connect true r)) :: during)) :
    Knows s.modem s1.modem ∧ (∃ st tag f t, s1.modem.main = .run st .connect tag f t) ∧
      s.runLate g (.net (.call (.execute (question r) 10)) :: during) = some (Net.asApp s1) ∧
      s.Calm g (.net (.call (.execute (question r) 10)) :: during) := by
  obtain ⟨s2, a1, a2⟩ := late_cons h1
  have a3 : s2.modem.outcomes = s.modem.outcomes := by
    obtain ⟨l1, b1⟩ := Rt.late_outcomes (g := g) (s := s) (s' := s2) (es := [.net (.call (.connect true r))]) (by
      show Option.bind _ _ = _
      rw [a1]; rfl)
    obtain ⟨l2, b2⟩ := Rt.late_outcomes a2
    rw [b1, ho1] at b2
    have := congrArg List.length b2
    simp only [List.length_append] at this
    have : l1 = [] := List.length_eq_zero_iff.1 (by omega)
    rw [b1, this, List.append_nil]
  obtain ⟨⟨f, t, c1⟩, c2, c3⟩ := connect_start hk hn a1 a3
  obtain ⟨d1, ⟨st, d2⟩, d3, d4⟩ := net_run c1 a2 (ho1.trans a3.symm) (hcalm.2 _ a1)
  refine ⟨c2.trans d1, ⟨_, _, _, _, d2⟩, ?_, ?_, ?_⟩
  · show Option.bind _ _ = _
    rw [c3]; exact d3
  · intro hr
    exact ⟨(hcalm.1 hr).1, by simp⟩
  · intro s3 h3
    rw [c3] at h3
    cases h3
    exact d4

theorem run_config {m m' : State} {es : List Event} (hr : ReaderOk m) (h : m.run es = some m') : m'.config = m.config := by
  have : ReaderOk m' ∧ m'.config = m.config := by
    refine run_induction (P := fun t => ReaderOk t ∧ t.config = m.config) h ⟨hr, rfl⟩ ?_
    rintro a e b ⟨h2, h3⟩ _ hst
    obtain ⟨h4, -, -, h5⟩ := step_handedOver h2 hst
    exact ⟨h4, by rw [h5, h3]⟩
  exact this.2

/-- What `execute_command` returns. -/
def returned (l : Option Nat) : Outcome := match l with | none => .empty | some n => .list n

/-- What `connect` makes of a complete answer. -/
theorem readInfo_identifies {x : Command} {u : Nat} {f : FirmwareVersionFile} (h : Identifies x u f) (u0 : Option Nat)
    (f0 : Option FirmwareVersionFile) : readInfo x.actions u0 f0 = (some u, some f, none) := by
  cases hr : readInfo x.actions u0 f0 with
  | mk u' y =>
    obtain ⟨f', e⟩ := y
    obtain ⟨h1, h2, h3⟩ := readInfo_spec hr
    have he : e = none := h1.2 h.proper
    subst he
    obtain ⟨a, ha, ha'⟩ := h.uid
    obtain ⟨b, hb, hb'⟩ := h.firmware
    rcases h2 with ⟨n, rfl, c, hc, hc'⟩ | ⟨-, h2⟩
    swap
    · exact absurd ha' (h2 rfl a ha u)
    rcases h3 with ⟨y, rfl, c2, hc2, hc2'⟩ | ⟨-, h3⟩
    swap
    · exact absurd hb' (h3 rfl b hb f)
    rw [h.uidOnly c hc n hc', h.firmwareOnly c2 hc2 y hc2']

end Verif.Modem.Lt
