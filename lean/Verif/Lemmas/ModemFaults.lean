import Verif.Spec.ModemFaults
import Verif.Props.ModemWrite

/-! Lemmas about the modem on a serial port whose writes can fail. -/

namespace Verif.Modem.Faults

open Verif Verif.Serial

/-- The state with another history of written bytes. -/
def wr (s : State) (w : List UInt8) : State := { s with written := w }

theorem wr_finish (s : State) (w : List UInt8) (o : Outcome) : (wr s w).finish o = wr (s.finish o) w := rfl

theorem wr_startExecute (s : State) (w : List UInt8) (c : Caller) (cmd : Command) (t : Int) :
    (wr s w).startExecute c cmd t = wr (s.startExecute c cmd t) w := by
  unfold State.startExecute wr
  simp only
  cases s.parser.buildSerialFrame cmd.iter with
  | mk p r => cases r <;> rfl

theorem wr_startCall (s : State) (w : List UInt8) (c : Call) : (wr s w).startCall c = wr (s.startCall c) w := by
  cases c with
  | execute cmd t => exact wr_startExecute s w _ _ _
  | connect ca r =>
    simp only [State.startCall, infoCommand_eq]
    show (if s.connected = true then _ else _) = wr (if s.connected = true then _ else _) w
    split
    · rfl
    · split
      · rfl
      · show (if s.config.skip = true then _ else _) = wr (if s.config.skip = true then _ else _) w
        split
        · exact wr_startExecute { s with connected := true } w _ _ _
        · exact wr_startExecute s w _ _ _
  | clearUnsolicited => rfl
  | clearRebooted => rfl

theorem startExecute_written (s : State) (c : Caller) (cmd : Command) (t : Int) :
    (s.startExecute c cmd t).written = s.written := by
  unfold State.startExecute
  simp only
  split <;> rfl

theorem startCall_written (s : State) (c : Call) : (s.startCall c).written = s.written := by
  cases c with
  | execute cmd t => exact startExecute_written s _ _ _
  | connect ca r =>
    simp only [State.startCall, infoCommand_eq]
    split
    · rfl
    · split
      · rfl
      · split
        · exact startExecute_written { s with connected := true } _ _ _
        · exact startExecute_written s _ _ _
  | clearUnsolicited => rfl
  | clearRebooted => rfl

theorem wr_finishExecute (s : State) (w : List UInt8) (c : Caller) (l : Option Nat) :
    (wr s w).finishExecute c l = wr (s.finishExecute c l) w := by
  unfold State.finishExecute
  cases c with
  | app => rfl
  | connectSkip => rfl
  | connect =>
    show (wr s w).finishConnect (l.bind fun n => s.responses[n]?) = wr (s.finishConnect (l.bind fun n => s.responses[n]?)) w
    cases l.bind fun n => s.responses[n]? with
    | none => rfl
    | some r =>
      cases r with
      | nil => rfl
      | cons c r =>
        simp only [State.finishConnect, show (wr s w).uid = s.uid from rfl,
          show (wr s w).firmwareVersion = s.firmwareVersion from rfl]
        generalize readInfo c.actions s.uid s.firmwareVersion = x
        obtain ⟨u, f, e⟩ := x
        cases e <;> rfl

/-- A step does not look at what was written before. It writes nothing, or all that was waiting to be written. -/
theorem step_wr {s s' : State} {e : Event} (h : s.step e = some s') :
    ∃ added, s'.written = s.written ++ added ∧ (∀ w, (wr s w).step e = some (wr s' (w ++ added))) ∧
      (added = [] ∨ unwritten s'.main = []) := by
  have plain : s'.written = s.written → (∀ w, (wr s w).step e = some (wr s' w)) →
      ∃ added, s'.written = s.written ++ added ∧ (∀ w, (wr s w).step e = some (wr s' (w ++ added))) ∧
        (added = [] ∨ unwritten s'.main = []) :=
    fun a b => ⟨[], by simp [a], fun w => by rw [b, List.append_nil], .inl rfl⟩
  cases e with
  | call c =>
    simp only [State.step] at h
    by_cases hm : s.main = .idle
    · rw [if_pos hm] at h
      cases h
      refine plain (startCall_written s c) fun w => ?_
      simp only [State.step]
      rw [if_pos (show (wr s w).main = .idle from hm), wr_startCall]
    · rw [if_neg hm] at h
      cases h
  | main =>
    simp only [State.step] at h
    unfold State.mainStep at h
    cases hm : s.main with
    | idle => rw [hm] at h; cases h
    | run st c tag f t =>
      have hm' : ∀ w, (wr s w).main = .run st c tag f t := fun _ => hm
      rw [hm] at h
      cases st <;> simp only at h
      · cases h; exact plain rfl fun w => by simp only [State.step]; unfold State.mainStep; rw [hm']; rfl
      · cases h; exact plain rfl fun w => by simp only [State.step]; unfold State.mainStep; rw [hm']; rfl
      · cases h; exact plain rfl fun w => by simp only [State.step]; unfold State.mainStep; rw [hm']; rfl
      · cases h; exact plain rfl fun w => by simp only [State.step]; unfold State.mainStep; rw [hm']; rfl
      · by_cases ht : t = 0
        · rw [if_pos ht] at h
          cases h
          refine ⟨f, (unwritten_finishExecute _ c none).1, fun w => ?_,
            .inr (by rw [(unwritten_finishExecute _ c none).2.1]; rfl)⟩
          simp only [State.step]
          unfold State.mainStep
          rw [hm']
          simp only [if_pos ht]
          exact congrArg some (wr_finishExecute
            { s with main := .run .write c tag f t, written := s.written ++ f } (w ++ f) c none)
        · rw [if_neg ht] at h
          cases h
          refine ⟨f, rfl, fun w => ?_, .inr rfl⟩
          simp only [State.step]
          unfold State.mainStep
          rw [hm']
          simp only [if_neg ht]
          rfl
      · by_cases hc : s.completed = true
        · rw [if_pos hc] at h
          cases h
          refine plain (unwritten_finishExecute s c _).1 fun w => ?_
          simp only [State.step]
          unfold State.mainStep
          rw [hm']
          simp only
          rw [if_pos (show (wr s w).completed = true from hc)]
          exact congrArg some (wr_finishExecute s w c _)
        · rw [if_neg hc] at h
          cases h
  | timeout =>
    simp only [State.step] at h
    unfold State.timeoutStep at h
    cases hm : s.main with
    | idle => rw [hm] at h; cases h
    | run st c tag f t =>
      have hm' : ∀ w, (wr s w).main = .run st c tag f t := fun _ => hm
      rw [hm] at h
      cases st <;> simp only at h <;> try cases h
      refine plain (unwritten_finishExecute s c _).1 fun w => ?_
      simp only [State.step]
      unfold State.timeoutStep
      rw [hm']
      exact congrArg some (wr_finishExecute s w c _)
  | rx bs =>
    simp only [State.step] at h
    unfold State.rxStep at h
    cases hr : s.reader <;> rw [hr] at h <;> simp only at h <;> try cases h
    have hr' : ∀ w, (wr s w).reader = .reading := fun _ => hr
    cases hp : s.parser.parse bs with
    | mk p r =>
      rw [hp] at h
      have hp' : ∀ w, (wr s w).parser.parse bs = (p, r) := fun _ => hp
      cases r <;> simp only at h <;> cases h <;>
        exact plain rfl fun w => by simp only [State.step]; unfold State.rxStep; rw [hr', hp']; rfl
  | reader =>
    simp only [State.step] at h
    unfold State.readerStep at h
    cases hr : s.reader with
    | reading => rw [hr] at h; cases h
    | dead q => rw [hr] at h; cases h
    | next q =>
      have hr' : ∀ w, (wr s w).reader = .next q := fun _ => hr
      rw [hr] at h
      cases q with
      | nil => cases h; exact plain rfl fun w => by simp only [State.step]; unfold State.readerStep; rw [hr']; rfl
      | cons x q =>
        obtain ⟨t, m⟩ := x
        simp only at h
        have hi : ∀ w, (wr s w).isSync t m = s.isSync t m := fun _ => rfl
        cases hs : s.isSync t m with
        | none =>
          rw [hs] at h; cases h
          exact plain rfl fun w => by simp only [State.step]; unfold State.readerStep; rw [hr']; simp only; rw [hi, hs]; rfl
        | some c =>
          rw [hs] at h; cases h
          exact plain rfl fun w => by simp only [State.step]; unfold State.readerStep; rw [hr']; simp only; rw [hi, hs]; rfl
    | other t m q =>
      have hr' : ∀ w, (wr s w).reader = .other t m q := fun _ => hr
      have e1 : ∀ w, (wr s w).config = s.config := fun _ => rfl
      have e2 : ∀ w, (wr s w).connected = s.connected := fun _ => rfl
      rw [hr] at h
      simp only at h
      split at h
      · next c => cases h; exact plain rfl fun w => by simp only [State.step]; unfold State.readerStep; rw [hr']; simp only [e1, e2, if_pos c]; rfl
      · next c =>
        split at h
        · next c1 =>
          split at h
          · next c2 => cases h; exact plain rfl fun w => by simp only [State.step]; unfold State.readerStep; rw [hr']; simp only [e1, e2, if_neg c, if_pos c1, if_pos c2]; rfl
          · next c2 => cases h; exact plain rfl fun w => by simp only [State.step]; unfold State.readerStep; rw [hr']; simp only [e1, e2, if_neg c, if_pos c1, if_neg c2]; rfl
        · next c1 =>
          split at h
          · next c2 => cases h; exact plain rfl fun w => by simp only [State.step]; unfold State.readerStep; rw [hr']; simp only [e1, e2, if_neg c, if_neg c1, if_pos c2]; rfl
          · next c2 =>
            split at h
            · next c3 => cases h; exact plain rfl fun w => by simp only [State.step]; unfold State.readerStep; rw [hr']; simp only [e1, e2, if_neg c, if_neg c1, if_neg c2, if_pos c3]; rfl
            · next c3 => cases h; exact plain rfl fun w => by simp only [State.step]; unfold State.readerStep; rw [hr']; simp only [e1, e2, if_neg c, if_neg c1, if_neg c2, if_neg c3]; rfl
    | _ =>
      rw [hr] at h
      cases h
      exact plain rfl fun w => by
        simp only [State.step]; unfold State.readerStep; rw [show (wr s w).reader = _ from hr]; rfl
  | callbackRaises =>
    simp only [State.step] at h
    unfold State.raiseStep at h
    cases hr : s.reader <;> rw [hr] at h <;> simp only at h <;> cases h <;>
      exact plain rfl fun w => by
        simp only [State.step]; unfold State.raiseStep; rw [show (wr s w).reader = _ from hr]; rfl
  | serialError =>
    simp only [State.step] at h
    unfold State.serialErrorStep at h
    cases hr : s.reader <;> rw [hr] at h <;> simp only at h <;> cases h
    exact plain rfl fun w => by
      simp only [State.step]; unfold State.serialErrorStep; rw [show (wr s w).reader = _ from hr]; rfl

theorem asked_length (s : State) (e : Event) : (asked s e).length ≤ 1 := by
  unfold asked
  split
  · simp
  · split <;> simp
  · simp

theorem asked_call {s : State} {e : Event} (h : asked s e ≠ []) : ∃ c, e = .call c := by
  unfold asked at h
  split at h
  · exact ⟨_, rfl⟩
  · exact ⟨_, rfl⟩
  · exact absurd rfl h

theorem framesFrom_nil {n : Nat} {ps : List (List UInt8)} (h : framesFrom n ps = []) : ps = [] := by
  cases ps with
  | nil => rfl
  | cons p ps => simp [framesFrom, frame] at h

theorem cutFrames_append (xs ys : List (List UInt8 × Option Nat)) : ∀ n,
    cutFrames n (xs ++ ys) = cutFrames n xs ++ cutFrames (n + xs.length) ys := by
  induction xs with
  | nil => intro n; simp [cutFrames]
  | cons x xs ih =>
    intro n
    have e : n + 1 + xs.length = n + (xs.length + 1) := by omega
    obtain ⟨p, k⟩ := x
    cases k <;> simp only [List.cons_append, cutFrames, ih, List.append_assoc, List.length_cons, e]

theorem cutFrames_whole (ps : List (List UInt8)) : ∀ n, cutFrames n (ps.map (·, none)) = framesFrom n ps := by
  induction ps with
  | nil => intro n; rfl
  | cons p ps ih => intro n; simp only [List.map_cons, cutFrames, framesFrom, ih]

/-- The frame of the call in progress is not empty. -/
def HasFrame (s : State) : Prop := ∀ st c tag f t, s.main = .run st c tag f t → f ≠ []

theorem build_ne {p q : Parser} {g : Gen} {f : List UInt8} (h : p.buildSerialFrame g = (q, .ok f)) : f ≠ [] := by
  unfold Parser.buildSerialFrame at h
  split at h
  · cases h
  · split at h
    · cases h
    · simp only [Prod.mk.injEq, Except.ok.injEq] at h
      rw [← h.2]
      simp

theorem hasFrame_startExecute (s : State) (c : Caller) (cmd : Command) (t : Int) : HasFrame (s.startExecute c cmd t) := by
  unfold State.startExecute
  simp only
  split
  · intro _ _ _ _ _ h; cases h
  · next he => intro _ _ _ _ _ h; cases h; exact build_ne he

theorem hasFrame_step {s s' : State} {e : Event} (h : HasFrame s) (hs : s.step e = some s') : HasFrame s' := by
  cases hm : s.main with
  | idle =>
    cases he : isMain e with
    | false =>
      intro _ _ _ _ _ h'
      rw [(step_untouched hs he).main, hm] at h'
      cases h'
    | true =>
      cases e with
      | call c =>
        simp only [State.step, if_pos hm, Option.some.injEq] at hs
        subst hs
        cases c with
        | execute cmd t => exact hasFrame_startExecute _ _ _ _
        | connect ca r =>
          simp only [State.startCall, infoCommand_eq]
          split
          · intro _ _ _ _ _ h; cases h
          · split
            · intro _ _ _ _ _ h; cases h
            · split <;> exact hasFrame_startExecute _ _ _ _
        | clearUnsolicited => intro _ _ _ _ _ h; cases h
        | clearRebooted => intro _ _ _ _ _ h; cases h
      | main => simp only [State.step, State.mainStep, hm] at hs; cases hs
      | timeout => simp only [State.step, State.timeoutStep, hm] at hs; cases hs
      | _ => cases he
  | run st c tag f t =>
    intro st' c' tag' f' t' h'
    cases he : isMain e with
    | false => rw [(step_untouched hs he).main] at h'; exact h _ _ _ _ _ h'
    | true =>
      cases e with
      | call c => simp only [State.step, hm] at hs; simp at hs
      | main =>
        simp only [State.step] at hs
        unfold State.mainStep at hs
        rw [hm] at hs
        cases st <;> simp only at hs
        · cases hs; cases h'; exact h _ _ _ _ _ hm
        · cases hs; cases h'; exact h _ _ _ _ _ hm
        · cases hs; cases h'; exact h _ _ _ _ _ hm
        · cases hs; cases h'; exact h _ _ _ _ _ hm
        · split at hs
          · cases hs; rw [(unwritten_finishExecute _ _ _).2.1] at h'; cases h'
          · cases hs; cases h'; exact h _ _ _ _ _ hm
        · split at hs
          · cases hs; rw [(unwritten_finishExecute _ _ _).2.1] at h'; cases h'
          · cases hs
      | timeout =>
        simp only [State.step] at hs
        unfold State.timeoutStep at hs
        rw [hm] at hs
        cases st <;> simp only at hs <;> try cases hs
        rw [(unwritten_finishExecute _ _ _).2.1] at h'; cases h'
      | _ => cases he

/-- `xs` are the frames whose write has ended, `rest` is the one that is still to be written. -/
structure Inv (ps : List (List UInt8)) (xs : List (List UInt8 × Option Nat)) (rest : List (List UInt8)) (s : Faulty) : Prop where
  inv : WriteInv ps (wr s.modem (framesFrom 0 (xs.map Prod.fst)))
  all : ps = xs.map Prod.fst ++ rest
  todo : unwritten s.modem.main = framesFrom xs.length rest
  few : rest.length ≤ 1
  written : s.modem.written = cutFrames 0 xs
  failures : (xs.filter fun x => x.2.isSome).length = s.failures
  cut : ∀ p k, (p, some k) ∈ xs → k ≤ p.length + 7
  frame : HasFrame s.modem

theorem inv_init (config : Config) : Inv [] [] [] (Faulty.init config) where
  inv := ⟨rfl, rfl⟩
  all := rfl
  todo := rfl
  few := by simp
  written := rfl
  failures := rfl
  cut := by simp
  frame := fun _ _ _ _ _ h => by cases h

theorem inv_step {ps : List (List UInt8)} {xs : List (List UInt8 × Option Nat)} {rest : List (List UInt8)} {s s' : Faulty}
    {e : FaultyEvent} (h : Inv ps xs rest s) (hs : s.step e = some s') :
    ∃ xs' rest', Inv (ps ++ ((match e with | .inner e => asked s.modem e | .writeFails _ => []) : List Command).filterMap sendable)
      xs' rest' s' := by
  obtain ⟨h1, h2, h3, h4, h5, h6, h7, h8⟩ := h
  cases e with
  | inner e =>
    simp only [Faulty.step, Option.map_eq_some_iff] at hs
    obtain ⟨m, hm, rfl⟩ := hs
    obtain ⟨added, a1, a2, a3⟩ := step_wr hm
    have h8 := hasFrame_step h8 hm
    show ∃ xs' rest', Inv (ps ++ (asked s.modem e).filterMap sendable) xs' rest' _
    have hw := writeInv_step h1 (a2 _)
    have hasked : asked (wr s.modem (framesFrom 0 (xs.map Prod.fst))) e = asked s.modem e := by
      unfold asked
      split <;> rfl
    rw [hasked] at hw
    have hl : ((asked s.modem e).filterMap sendable).length ≤ 1 :=
      (List.length_filterMap_le _ _).trans (asked_length _ _)
    have key : added ++ unwritten m.main =
        framesFrom xs.length rest ++ framesFrom ps.length ((asked s.modem e).filterMap sendable) := by
      have := hw.2
      rw [h2, framesFrom_append, framesFrom_append] at this
      simp only [wr, Nat.zero_add, List.append_assoc, List.length_map] at this
      have := List.append_cancel_left this
      rw [this, h2]
    by_cases ha : asked s.modem e = []
    · rw [ha] at hw key ⊢
      simp only [List.filterMap_nil, List.append_nil, framesFrom] at hw key ⊢
      rcases a3 with rfl | hu
      · refine ⟨xs, rest, ⟨?_, h2, by simpa using key, h4, by simpa [a1] using h5, h6, h7, h8⟩⟩
        simpa using hw
      · rw [hu, List.append_nil] at key
        refine ⟨xs ++ rest.map (·, none), [], ⟨?_, by simp [h2, Function.comp_def], by rw [hu]; rfl, by simp, ?_, ?_, ?_, h8⟩⟩
        · have : framesFrom 0 ((xs ++ rest.map (·, (none : Option Nat))).map Prod.fst) = framesFrom 0 (xs.map Prod.fst) ++ added := by
            rw [List.map_append, framesFrom_append, key]
            simp [Function.comp_def]
          rw [this]
          exact hw
        · rw [cutFrames_append, cutFrames_whole, Nat.zero_add, ← key, ← h5, a1]
        · simp [h6, List.filter_map, Function.comp_def]
        · intro p k hp
          rcases List.mem_append.1 hp with hp | hp
          · exact h7 p k hp
          · simp at hp
    · obtain ⟨c, rfl⟩ := asked_call ha
      have hi : s.modem.main = .idle := by
        by_contra hi
        simp only [State.step] at hm
        rw [if_neg hi] at hm; cases hm
      have hr : rest = [] := framesFrom_nil (n := xs.length) (by rw [← h3, hi]; rfl)
      have had : added = [] := by
        simp only [State.step, if_pos hi, Option.some.injEq] at hm
        have := startCall_written s.modem c
        rw [hm, a1] at this
        simpa using this
      subst hr had
      simp only [List.append_nil] at h2
      refine ⟨xs, (asked s.modem (.call c)).filterMap sendable, ⟨by simpa using hw, by rw [h2], ?_, hl, by simpa [a1] using h5, h6, h7, h8⟩⟩
      rw [h2] at key
      simpa [framesFrom] using key
  | writeFails n =>
    simp only [Faulty.step, Faulty.failStep] at hs
    cases hm : s.modem.main with
    | idle => rw [hm] at hs; cases hs
    | run st c tag f t =>
      rw [hm] at hs
      cases st <;> simp only at hs <;> try cases hs
      by_cases hn : n ≤ f.length
      · rw [if_pos hn] at hs
        cases hs
        rw [hm] at h3
        simp only [unwritten] at h3
        match rest, h2, h3, h4 with
        | [], h2, h3, h4 =>
          exact absurd h3 (h8 _ _ _ _ _ hm)
        | [p], h2, h3, h4 =>
          simp only [framesFrom, List.append_nil] at h3
          refine ⟨xs ++ [(p, some n)], [], ⟨?_, by simp [h2], rfl, by simp, ?_, ?_, ?_, fun _ _ _ _ _ h => by cases h⟩⟩
          · refine ⟨?_, ?_⟩
            · simp only [List.filterMap_nil, List.append_nil]
              exact h1.1
            · simp [wr, unwritten, h2]
          · rw [cutFrames_append, ← h5, h3]
            simp [cutFrames]
          · simp [h6]
          · intro q k hq
            rcases List.mem_append.1 hq with hq | hq
            · exact h7 q k hq
            · simp only [List.mem_singleton, Prod.mk.injEq, Option.some.injEq] at hq
              obtain ⟨rfl, rfl⟩ := hq
              rw [h3] at hn
              simp [frame] at hn
              omega
        | _ :: _ :: _, h2, h3, h4 => simp at h4
      · rw [if_neg hn] at hs
        cases hs

theorem inv_run {es : List FaultyEvent} : ∀ {ps : List (List UInt8)} {xs : List (List UInt8 × Option Nat)}
    {rest : List (List UInt8)} {s s' : Faulty}, Inv ps xs rest s → s.run es = some s' →
    ∃ xs' rest', Inv (ps ++ (s.requested es).filterMap sendable) xs' rest' s' := by
  induction es with
  | nil => intro ps xs rest s s' h hr; cases hr; exact ⟨xs, rest, by simpa [Faulty.requested] using h⟩
  | cons e es ih =>
    intro ps xs rest s s' h hr
    unfold Faulty.run at hr
    cases hst : s.step e with
    | none => rw [hst] at hr; cases hr
    | some s1 =>
      rw [hst] at hr
      obtain ⟨xs1, rest1, h1⟩ := inv_step h hst
      obtain ⟨xs2, rest2, h2⟩ := ih h1 hr
      refine ⟨xs2, rest2, ?_⟩
      unfold Faulty.requested
      rw [hst, List.filterMap_append, ← List.append_assoc]
      exact h2

theorem step_handed {s s' : Faulty} {e : FaultyEvent} (hs : ReaderOk s.modem) (h : s.step e = some s') :
    ReaderOk s'.modem ∧ ∃ log, HandedOver s.modem s'.modem log ∧ s'.modem.config = s.modem.config := by
  cases e with
  | inner e =>
    simp only [Faulty.step, Option.map_eq_some_iff] at h
    obtain ⟨m, hm, rfl⟩ := h
    exact step_handedOver hs hm
  | writeFails n =>
    simp only [Faulty.step, Faulty.failStep] at h
    split at h
    · split at h
      · cases h
        have hsame : ∀ w, Same s.modem { s.modem with main := .idle, written := w } :=
          fun w => ⟨rfl, rfl, rfl, rfl, rfl, .inl rfl, .inl rfl, .inl rfl⟩
        exact ⟨(hsame _).readerOk hs, [], (hsame _).handedOver, rfl⟩
      · cases h
    · cases h

theorem run_handed {es : List FaultyEvent} : ∀ {s s' : Faulty}, ReaderOk s.modem → s.run es = some s' →
    ReaderOk s'.modem ∧ ∃ log, HandedOver s.modem s'.modem log ∧ s'.modem.config = s.modem.config := by
  induction es with
  | nil => intro s s' hs h; cases h; exact ⟨hs, [], (Same.refl _).handedOver, rfl⟩
  | cons e es ih =>
    intro s s' hs h
    unfold Faulty.run at h
    cases hst : s.step e with
    | none => rw [hst] at h; cases h
    | some s1 =>
      rw [hst] at h
      obtain ⟨h1, l1, h2, h3⟩ := step_handed hs hst
      obtain ⟨h4, l2, h5, h6⟩ := ih h1 h
      exact ⟨h4, l1 ++ l2, h2.trans h5 h3, h6.trans h3⟩

/-- While `execute_command` writes, the tag of its command is the current one. -/
def TagSet (s : State) : Prop :=
  ∀ st caller tag frame timeout, s.main = .run st caller tag frame timeout →
    st = .write ∨ st = .wait → timeout > 0 → s.tag = tag

theorem tagSet_idle {s : State} (h : s.main = .idle) : TagSet s := by
  intro st caller tag frame timeout hm; rw [h] at hm; cases hm

theorem tagSet_startExecute {s : State} (hs : s.main = .idle) (c : Caller) (cmd : Command) (t : Int) :
    TagSet (s.startExecute c cmd t) := by
  unfold State.startExecute
  simp only
  split
  · exact tagSet_idle rfl
  · intro st caller tag frame timeout hm hst ht
    simp only [Main.run.injEq] at hm
    rw [← hm.1] at hst
    simp at hst

theorem tagSet_step {s s' : State} {e : Event} (hs : TagSet s) (hn : ∀ c, e ≠ .call c) (h : s.step e = some s') : TagSet s' := by
  cases he : isMain e with
  | false =>
    have u := step_untouched h he
    intro st caller tag frame timeout hm hst ht
    rw [u.tag]
    exact hs st caller tag frame timeout (by rw [← u.main]; exact hm) hst ht
  | true =>
    cases e with
    | call c => exact absurd rfl (hn c)
    | main =>
      simp only [State.step] at h
      unfold State.mainStep at h
      split at h
      · cases h
      · cases h; intro st caller tag frame timeout hm hst ht; cases hm; simp at hst
      · cases h; intro st caller tag frame timeout hm hst ht; cases hm; simp at hst
      · cases h; intro st caller tag frame timeout hm hst ht; cases hm; simp at hst
      · cases h
        intro st caller tag frame timeout hm hst ht
        cases hm
        simp [ht]
      · next hm0 =>
        simp only at h
        split at h
        · cases h; exact tagSet_idle (finishExecute_main _ _ _)
        · cases h
          intro st caller tag frame timeout hm hst ht
          cases hm
          exact hs _ _ _ _ _ hm0 (.inl rfl) ht
      · split at h
        · cases h; exact tagSet_idle (finishExecute_main _ _ _)
        · cases h
    | timeout =>
      simp only [State.step] at h
      unfold State.timeoutStep at h
      split at h
      · cases h; exact tagSet_idle (finishExecute_main _ _ _)
      · cases h
    | rx bs => cases he
    | reader => cases he
    | callbackRaises => cases he
    | serialError => cases he

theorem tagSet_run {cmd : Command} {caller : Caller} {frame : List UInt8} {timeout : Int} {n : Nat} {es : List Event} :
    ∀ {s s' : State}, Running caller cmd.tagId frame timeout n s → TagSet s → s.run es = some s' →
      s'.outcomes = s.outcomes → TagSet s' := by
  induction es with
  | nil => intro s s' _ ht h _; cases h; exact ht
  | cons e es ih =>
    intro s s' hr ht h ho
    unfold State.run at h
    cases hst : s.step e with
    | none => rw [hst] at h; cases h
    | some s1 =>
      rw [hst] at h
      have ho1 := run_outcomes_left (es := [e]) (by simp [State.run, hst]) h ho
      have hn : ∀ c, e ≠ .call c := by
        rintro c rfl
        obtain ⟨stage, hm, -⟩ := hr
        simp only [State.step, hm] at hst
        simp at hst
      obtain ⟨hr1, -⟩ := running_run (es := [e]) hr (by simp [State.run, hst]) ho1
      exact ih hr1 (tagSet_step ht hn hst) h (ho.trans ho1.symm)

theorem untouched_tag {es : List Event} : ∀ {s s' : State}, (∀ e ∈ es, isMain e = false) → s.run es = some s' →
    s'.tag = s.tag ∧ s'.config = s.config := by
  induction es with
  | nil => intro s s' _ h; cases h; exact ⟨rfl, rfl⟩
  | cons e es ih =>
    intro s s' hn h
    unfold State.run at h
    cases hst : s.step e with
    | none => rw [hst] at h; cases h
    | some s1 =>
      rw [hst] at h
      have u := step_untouched hst (hn e (by simp))
      obtain ⟨a, b⟩ := ih (fun e he => hn e (by simp [he])) h
      exact ⟨a.trans u.tag, b.trans u.config⟩

end Verif.Modem.Faults
