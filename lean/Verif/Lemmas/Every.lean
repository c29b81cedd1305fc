import Verif.Lemmas.Series
import Verif.Lemmas.Pushes

/-! Helper lemmas: calls that start when all earlier answers have been handed over, in every interleaving. -/

namespace Verif.Modem.Ev

open Verif Verif.Serial Verif.Modem.Lt

variable {D : Type}

/-! ### What the flag says -/

/-- The command whose flag is looked at next is the last one in the list; the flag speaks of one before it. -/
structure Exact (s : State) : Prop where
  last : resetting s.main = false → ∀ x q, s.reader = .syncDone x q → ∃ pre, current s = pre ++ [x]
  flag : resetting s.main = false → s.completed = true → ∃ pre c post, current s = pre ++ c :: post ∧
    c.executionCompleted = true ∧ (post = [] → ∀ x q, s.reader ≠ .syncDone x q)

theorem current_eq {s s' : State} (h : s'.responses = s.responses) : current s' = current s := by
  unfold current; rw [h]

/-- A step that changes neither the list nor the flag. -/
theorem Exact.same {s s' : State} (hs : Exact s) (h1 : s'.responses = s.responses) (h2 : s'.completed = s.completed)
    (h3 : s'.reader = s.reader ∨ ∀ x q, s'.reader ≠ .syncDone x q)
    (h4 : resetting s'.main = false → resetting s.main = false) : Exact s' := by
  constructor
  · intro hm x q hx
    rw [current_eq h1]
    rcases h3 with h3 | h3
    · exact hs.last (h4 hm) x q (by rw [← h3]; exact hx)
    · exact absurd hx (h3 x q)
  · intro hm hc
    rw [h2] at hc
    rw [current_eq h1]
    obtain ⟨pre, c, post, e1, e2, e3⟩ := hs.flag (h4 hm) hc
    refine ⟨pre, c, post, e1, e2, fun hp => ?_⟩
    rcases h3 with h3 | h3
    · rw [h3]; exact e3 hp
    · exact h3

theorem exact_resetting {s : State} (h : resetting s.main = true) : Exact s :=
  ⟨fun hm => absurd hm (by rw [h]; decide), fun hm => absurd hm (by rw [h]; decide)⟩

theorem exact_step {s s' : State} {e : Event} (hx : Exact s) (hs : Sound s) (he : ∀ c, e ≠ .call c)
    (hc : resetting s.main = true → handingAlp s.reader = false ∧ (e = .reader → nextAlp s.reader = false))
    (h : s.step e = some s') : Exact s' := by
  cases e with
  | call c => exact absurd rfl (he c)
  | main =>
    simp only [State.step, State.mainStep] at h
    cases hm : s.main with
    | idle => rw [hm] at h; cases h
    | run st caller tag frame timeout =>
      rw [hm] at h
      cases st with
      | setTag =>
        cases h
        obtain ⟨-, b2, -, b4⟩ := hs.fresh _ _ _ _ _ hm (by simp)
        constructor
        · intro _ x q hr
          simp only at hr
          rw [hr] at b2; cases b2
        · intro _ hcomp
          simp only [b4 rfl] at hcomp
          cases hcomp
      | write =>
        simp only at h
        split at h <;> cases h
        · obtain ⟨-, f2, f3, f4⟩ := finishExecute_rest { s with written := s.written ++ frame } caller none
          exact hx.same f2 f3 (.inl f4) (by rw [hm]; intro; rfl)
        · exact hx.same rfl rfl (.inl rfl) (by rw [hm]; intro; rfl)
      | wait =>
        simp only at h
        split at h
        · cases h
          obtain ⟨-, f2, f3, f4⟩ := finishExecute_rest s caller (some (s.responses.length - 1))
          exact hx.same f2 f3 (.inl f4) (by rw [hm]; intro; rfl)
        · cases h
      | _ => cases h; exact exact_resetting rfl
  | timeout =>
    simp only [State.step, State.timeoutStep] at h
    split at h
    · next hm =>
      cases h
      obtain ⟨-, f2, f3, f4⟩ := finishExecute_rest s _ (if s.completed then some (s.responses.length - 1) else none)
      exact hx.same f2 f3 (.inl f4) (by rw [hm]; intro; rfl)
    · cases h
  | rx bs =>
    simp only [State.step, State.rxStep] at h
    split at h
    · split at h <;> cases h <;> exact hx.same rfl rfl (.inr (by simp)) id
    · cases h
  | serialError =>
    simp only [State.step, State.serialErrorStep] at h
    split at h
    · cases h; exact hx.same rfl rfl (.inr (by simp)) id
    · cases h
  | callbackRaises =>
    simp only [State.step, State.raiseStep] at h
    split at h
    · cases h; exact hx.same rfl rfl (.inr (by simp)) id
    · cases h; exact hx.same rfl rfl (.inr (by simp)) id
    · cases h
  | reader =>
    by_cases hmr : resetting s.main = true
    · obtain ⟨-, -, -, -, q5, -⟩ := reader_quiet (hc hmr).1 ((hc hmr).2 rfl) h
      exact exact_resetting (by rw [q5]; exact hmr)
    have hm : resetting s.main = false := by simpa using hmr
    obtain ⟨-, -, -, c4⟩ := hs.steady hm
    simp only [State.step, State.readerStep] at h
    split at h
    · cases h
    · cases h
    · cases h; exact hx.same rfl rfl (.inr (by simp)) id
    · split at h <;> cases h <;> exact hx.same rfl rfl (.inr (by simp)) id
    · cases h; exact hx.same rfl rfl (.inr (by simp)) id
    · next t x n q hr =>
      cases h
      rw [hr] at c4
      obtain ⟨-, rfl⟩ := c4
      constructor
      · intro _ y p hy
        simp only [Reader.syncDone.injEq] at hy
        rw [current_modify hs.nonempty, hy.1]
        exact ⟨_, rfl⟩
      · intro _ hcomp
        obtain ⟨pre, c, post, e1, e2, -⟩ := hx.flag hm hcomp
        refine ⟨pre, c, post ++ [x], ?_, e2, by simp⟩
        rw [current_modify hs.nonempty, e1]
        simp
    · next x q hr =>
      cases h
      constructor
      · intro _ y p hy; cases hy
      · intro _ hcomp
        simp only [Bool.or_eq_true] at hcomp
        show ∃ pre c post, current s = _ ∧ _
        rcases hcomp with hcomp | hcomp
        · obtain ⟨pre, c, post, e1, e2, -⟩ := hx.flag hm hcomp
          exact ⟨pre, c, post, e1, e2, by simp⟩
        · obtain ⟨pre, e1⟩ := hx.last hm x q hr
          exact ⟨pre, x, [], e1, hcomp, by simp⟩
    · split at h
      · cases h; exact hx.same rfl rfl (.inr (by simp)) id
      · split at h
        · split at h <;> cases h <;> exact hx.same rfl rfl (.inr (by simp)) id
        · split at h
          · cases h; exact hx.same rfl rfl (.inr (by simp)) id
          · split at h <;> cases h <;> exact hx.same rfl rfl (.inr (by simp)) id
    all_goals cases h; exact hx.same rfl rfl (.inr (by simp)) id

theorem exact_late {g : Gateway D} {es : List LateEvent} : ∀ {s s' : Net D}, Exact s.modem → Sound s.modem →
    (∀ call, .net (.call call) ∉ es) → s.Calm g es → s.runLate g es = some s' → Exact s'.modem := by
  induction es with
  | nil => intro s s' hx _ _ _ h; cases h; exact hx
  | cons e es ih =>
    intro s s' hx hs hn hc h
    obtain ⟨s1, h1, h2⟩ := late_cons h
    have hn' : ∀ call, .net (.call call) ∉ es := fun call hx => hn call (by simp [hx])
    rcases late_step h1 with ⟨ev, a1, -, a2, a3, -⟩ | ⟨a1, -⟩
    · have hc' : resetting s.modem.main = true →
          handingAlp s.modem.reader = false ∧ (ev = .reader → nextAlp s.modem.reader = false) :=
        fun hr => ⟨(hc.1 hr).1, fun he => (hc.1 hr).2 (a2 he)⟩
      exact ih (exact_step hx hs (fun call he => hn call (by simp [a3 call he])) hc' a1) (sound_step hs hc' a1) hn'
        (hc.2 s1 h1) h2
    · exact ih (by rw [a1]; exact hx) (by rw [a1]; exact hs) hn' (hc.2 s1 h1) h2

theorem finish_outcome {s : State} {caller : Caller} {l : Option Nat} {n : Nat}
    (h : (s.finishExecute caller l).outcomes = s.outcomes ++ [.list n]) : l = some n := by
  cases caller with
  | app =>
    have := List.append_cancel_left (show s.outcomes ++ [_] = _ from h)
    cases l <;> simp_all
  | connectSkip =>
    have := List.append_cancel_left (show s.outcomes ++ [_] = _ from h)
    simp at this
  | connect =>
    exfalso
    simp only [State.finishExecute, State.finishConnect] at h
    repeat' split at h
    all_goals
      have := List.append_cancel_left (show s.outcomes ++ [_] = _ from h)
      simp at this

/-- A list is returned because of the flag. -/
theorem finish_list {s s' : State} {e : Event} {n : Nat} (he : ∀ c, e ≠ .call c) (h : s.step e = some s')
    (ho : s'.outcomes = s.outcomes ++ [.list n]) :
    s'.completed = true ∧ n = s'.responses.length - 1 ∧ s'.main = .idle := by
  have hne : s'.outcomes ≠ s.outcomes := by
    rw [ho]; simp
  cases hm : isMain e with
  | false => exact absurd (step_untouched h hm).outcomes hne
  | true =>
    cases e with
    | call c => exact absurd rfl (he c)
    | main =>
      simp only [State.step, State.mainStep] at h
      cases hm : s.main with
      | idle => rw [hm] at h; cases h
      | run st caller tag frame timeout =>
        rw [hm] at h
        cases st with
        | write =>
          simp only at h
          split at h <;> cases h
          · cases finish_outcome ho
          · exact absurd rfl hne
        | wait =>
          simp only at h
          split at h
          · next hc =>
            cases h
            obtain ⟨-, f2, f3, -⟩ := finishExecute_rest s caller (some (s.responses.length - 1))
            cases finish_outcome ho
            exact ⟨by rw [f3]; exact hc, by rw [f2], finishExecute_main _ _ _⟩
          · cases h
        | _ => cases h; exact absurd rfl hne
    | timeout =>
      simp only [State.step, State.timeoutStep] at h
      split at h
      · next caller _ _ _ _ =>
        cases h
        obtain ⟨-, f2, f3, -⟩ := finishExecute_rest s caller (if s.completed then some (s.responses.length - 1) else none)
        have := finish_outcome ho
        split at this
        · next hc =>
          cases this
          exact ⟨by rw [f3]; exact hc, by rw [f2], finishExecute_main _ _ _⟩
        · cases this
      · cases h
    | _ => cases hm

/-! ### No answer is on the way -/

/-- No message of an answer is waiting to be handed over. -/
theorem none_pending {g : Gateway D} {d : D} {s : Net D} {qs done todo fs pr rs} {ps : List (List UInt8)}
    (st : Stream g d s qs done todo fs pr rs) (hd : done <+: ps) (hca : Ct.Caught g d s ps) :
    ∀ x ∈ pending s.modem.reader, ¬ x.1 ≤ 3 := by
  obtain ⟨ra, past, e1, e2, u, hu⟩ := hca
  have ho := st.order
  rw [alp_append, e2, alp_append, ← hu] at ho
  obtain ⟨tail, r, g1, g2, g3, -⟩ := Ct.rest_of (rest := []) (by rw [List.append_nil]; exact hd) st.meaning e1 (by
    rw [← ho]; simp only [List.append_assoc]; exact List.prefix_append _ _)
  obtain rfl := List.prefix_nil.1 g1
  cases g3
  have hnil : alpMessages (pending s.modem.reader) = [] := by
    have := g2.symm.trans ho.symm
    simp only [List.append_assoc, List.append_cancel_left_eq] at this
    have := congrArg List.length this
    simp only [List.length_append, List.length_nil] at this
    exact List.length_eq_zero_iff.1 (by omega)
  intro x hx h3
  rcases st.kinds x (by rw [e2]; simp [hx]) with hn | ⟨c, rfl⟩
  · rcases hn with hn | hn <;> omega
  · have : c ∈ alpMessages (pending s.modem.reader) := List.mem_filterMap.2 ⟨_, hx, rfl⟩
    rw [hnil] at this
    cases this

theorem next_quiet {r : Reader} (h : ∀ x ∈ pending r, ¬ x.1 ≤ 3) : nextAlp r = false := by
  unfold nextAlp
  split
  · next t m q => exact decide_eq_false (h (t, m) (by simp [pending]))
  · rfl

theorem handing_quiet {s : State} (hok : ReaderOk s) (h : ∀ x ∈ pending s.reader, ¬ x.1 ≤ 3)
    (hd : ∀ x q, s.reader ≠ .syncDone x q) : handingAlp s.reader = false := by
  obtain ⟨-, -, -, hok⟩ := hok
  cases hr : s.reader <;> rw [hr] at h hok hd <;> simp only [pending, List.mem_cons, forall_eq_or_imp] at h hok
  case syncDone x q => exact absurd rfl (hd x q)
  all_goals first
    | rfl
    | exact absurd hok h.1
    | exact absurd hok.1 h.1
    | exact decide_eq_false h.1

theorem finish_reader (s : State) (c : Caller) (l : Option Nat) : (s.finishExecute c l).reader = s.reader :=
  (finishExecute_rest s c l).2.2.2

theorem handing_step {s s' : State} {e : Event} (he : ∀ c, e ≠ .call c) (h1 : handingAlp s.reader = false)
    (h2 : nextAlp s.reader = false) (h : s.step e = some s') : handingAlp s'.reader = false := by
  cases e with
  | call c => exact absurd rfl (he c)
  | main =>
    simp only [State.step, State.mainStep] at h
    cases hm : s.main with
    | idle => rw [hm] at h; cases h
    | run st caller tag frame timeout =>
      rw [hm] at h
      cases st with
      | write =>
        simp only at h
        split at h <;> cases h
        · rw [finish_reader]; exact h1
        · exact h1
      | wait =>
        simp only at h
        split at h
        · cases h; rw [finish_reader]; exact h1
        · cases h
      | _ => cases h; exact h1
  | timeout =>
    simp only [State.step, State.timeoutStep] at h
    split at h
    · cases h; rw [finish_reader]; exact h1
    · cases h
  | rx bs =>
    simp only [State.step, State.rxStep] at h
    split at h
    · split at h <;> cases h <;> rfl
    · cases h
  | serialError =>
    simp only [State.step, State.serialErrorStep] at h
    split at h
    · cases h; rfl
    · cases h
  | callbackRaises =>
    simp only [State.step, State.raiseStep] at h
    split at h
    · cases h; rfl
    · cases h; rfl
    · cases h
  | reader => exact (reader_quiet h1 h2 h).1

/-- Only a call begins to prepare for responses. -/
theorem resetting_step {s s' : State} {e : Event} (he : ∀ c, e ≠ .call c) (h : s.step e = some s')
    (hr : resetting s'.main = true) : resetting s.main = true := by
  cases e with
  | call c => exact absurd rfl (he c)
  | main =>
    simp only [State.step, State.mainStep] at h
    cases hm : s.main with
    | idle => rw [hm] at h; cases h
    | run st caller tag frame timeout =>
      rw [hm] at h
      cases st with
      | write =>
        simp only at h
        split at h <;> cases h
        · rw [finishExecute_main] at hr; cases hr
        · cases hr
      | wait =>
        simp only at h
        split at h
        · cases h; rw [finishExecute_main] at hr; cases hr
        · cases h
      | _ => rfl
  | timeout =>
    simp only [State.step, State.timeoutStep] at h
    split at h
    · cases h; rw [finishExecute_main] at hr; cases hr
    · cases h
  | rx bs =>
    simp only [State.step, State.rxStep] at h
    split at h
    · split at h <;> cases h <;> exact hr
    · cases h
  | serialError =>
    simp only [State.step, State.serialErrorStep] at h
    split at h
    · cases h; exact hr
    · cases h
  | callbackRaises =>
    simp only [State.step, State.raiseStep] at h
    split at h
    · cases h; exact hr
    · cases h; exact hr
    · cases h
  | reader =>
    have : s'.main = s.main := by
      simp only [State.step, State.readerStep] at h
      repeat' split at h
      all_goals cases h <;> rfl
    rw [← this]; exact hr

theorem resetting_busy {m : Main} (h : resetting m = true) : busy m = true := by
  cases m with
  | idle => cases h
  | run st _ _ _ _ => cases st <;> first | rfl | cases h

theorem call_reader {g : Gateway D} {s s' : Net D} {call : Call} (h : s.stepLate g (.net (.call call)) = some s') :
    s'.modem.reader = s.modem.reader := by
  obtain ⟨m, h1, rfl⟩ := Option.map_eq_some_iff.1 (show (s.modem.step (.call call)).map
    (fun m => { s with modem := m }) = some s' from h)
  simp only [State.step] at h1
  split at h1
  · cases h1; exact (Pu.startCall_same _ _).2.1
  · cases h1

/-- A step of the whole system that is not a call. -/
theorem net_step {g : Gateway D} {s s' : Net D} {e : LateEvent} (he : ∀ c, e ≠ .net (.call c))
    (h1 : handingAlp s.modem.reader = false) (h2 : nextAlp s.modem.reader = false) (h : s.stepLate g e = some s') :
    handingAlp s'.modem.reader = false := by
  rcases late_step h with ⟨ev, a1, -, -, a2, -⟩ | ⟨a1, -⟩
  · exact handing_step (fun c hc => he c (a2 c hc)) h1 h2 a1
  · rw [a1]; exact h1

theorem net_resetting {g : Gateway D} {s s' : Net D} {e : LateEvent} (he : ∀ c, e ≠ .net (.call c))
    (h : s.stepLate g e = some s') (hr : resetting s'.modem.main = true) : resetting s.modem.main = true := by
  rcases late_step h with ⟨ev, a1, -, -, a2, -⟩ | ⟨a1, -⟩
  · exact resetting_step (fun c hc => he c (a2 c hc)) a1 hr
  · rw [← a1]; exact hr

/-- No answer is handed over while a call prepares for its responses. -/
theorem calm_start {config : Config} (hk : config.skip = false) {g : Gateway D} (hg : g.Conforms) {d : D}
    {before es : List LateEvent} {s : Net D} {call : Call} {c : Command} {bs : List UInt8}
    (hc : s.asked (.net (.call call)) = [c]) (ht : Tagged (.net (.call call)))
    (hb : sendable c = some bs) (hp : ∀ e ∈ before, Tagged e) (h0 : (Net.start config d).runLate g before = some s)
    (hca : Ct.Caught g d s (((Net.start config d).requested g before).filterMap sendable) ∨ s.modem.reader.isDead = true)
    (hq : handingAlp s.modem.reader = false) (hn : ∀ call, .net (.call call) ∉ es) :
    s.Calm g (.net (.call call) :: es) := by
  obtain ⟨done0, todo0, fs0, pr0, rs0, st0⟩ := stream_reach hk hg hp h0
  have key : ∀ (fs pre : List LateEvent) (t : Net D), s.runLate g (.net (.call call) :: pre) = some t →
      (∀ call, .net (.call call) ∉ pre) → (∀ call, .net (.call call) ∉ fs) →
      (resetting t.modem.main = true → handingAlp t.modem.reader = false) → t.Calm g fs := by
    intro fs
    induction fs with
    | nil => intro pre t _ _ _ _; trivial
    | cons e fs ih =>
      intro pre t ht' hpre hfs hq
      have hnext : resetting t.modem.main = true → nextAlp t.modem.reader = false := by
        intro hr
        rcases hca with hca | hdead
        swap
        · obtain ⟨evs, k1, -⟩ := late_modem ht'
          have k2 := (C55_dead_forever hdead k1).1
          cases k3 : t.modem.reader <;> rw [k3] at k2 <;> first | rfl | cases k2
        obtain ⟨done, todo, fs, pr, rs, st⟩ := stream_reach hk hg (es := before ++ .net (.call call) :: pre) (by
          intro e he
          rcases List.mem_append.1 he with he | he
          · exact hp e he
          · rcases List.mem_cons.1 he with rfl | he
            · exact ht
            · cases e with
              | net e =>
                cases e with
                | call call => exact absurd he (hpre call)
                | _ => trivial
              | _ => trivial) (runLate_append h0 ht')
        have hreq : s.requested g (.net (.call call) :: pre) = [c] := by
          obtain ⟨s1, k1, -⟩ := late_cons ht'
          simp only [Net.requested, k1, Rt.requested_none hpre, List.append_nil]
          exact hc
        have hsplit := st.split
        rw [if_pos (resetting_busy hr), requested_append h0, hreq, List.filterMap_append] at hsplit
        obtain ⟨p, hsplit⟩ := hsplit
        have hd := (List.append_inj' hsplit (by simp [hb])).1
        exact next_quiet (none_pending st (by rw [hd]; exact List.prefix_append _ _) (Ct.caught_run st0.ok hca ht'))
      refine ⟨fun hr => ⟨hq hr, fun _ => hnext hr⟩, fun t' ht' => ?_⟩
      have he : ∀ call, e ≠ .net (.call call) := fun call he => hfs call (by simp [he])
      refine ih (pre ++ [e]) t' ?_ ?_ (fun call hx => hfs call (by simp [hx])) ?_
      · exact runLate_append (es := .net (.call call) :: pre) (by assumption) (by
          show Option.bind _ _ = _; rw [ht']; rfl)
      · intro call hx
        rcases List.mem_append.1 hx with hx | hx
        · exact hpre call hx
        · exact he call (List.mem_singleton.1 hx).symm
      · intro hr
        have := net_resetting he ht' hr
        exact net_step he (hq this) (hnext this) ht'
  refine ⟨fun hr => ⟨hq, by simp⟩, fun t ht => ?_⟩
  refine key es [] t ?_ (by simp) hn fun _ => ?_
  · show Option.bind _ _ = _; rw [ht]; rfl
  · rw [call_reader ht]; exact hq

theorem calm_call {config : Config} (hk : config.skip = false) {g : Gateway D} (hg : g.Conforms) {d : D}
    {before es : List LateEvent} {s : Net D} {c : Command} {tag : Int} {bs : List UInt8} (hc : Taggable c tag)
    (hb : sendable c = some bs) (hp : ∀ e ∈ before, Tagged e) (h0 : (Net.start config d).runLate g before = some s)
    (hca : Ct.Caught g d s (((Net.start config d).requested g before).filterMap sendable))
    (hq : handingAlp s.modem.reader = false) (hn : ∀ call, .net (.call call) ∉ es) :
    s.Calm g (.net (.call (.execute c 10)) :: es) :=
  calm_start hk hg rfl ⟨tag, hc⟩ hb hp h0 (.inl hca) hq hn

/-- Everything stays quiet when everything has been answered. -/
theorem quiet_run {config : Config} (hk : config.skip = false) {g : Gateway D} (hg : g.Conforms) {d : D}
    {after : List LateEvent} : ∀ {before : List LateEvent} {s s' : Net D}, (∀ e ∈ before, Tagged e) →
    (Net.start config d).runLate g before = some s →
    Ct.Caught g d s (((Net.start config d).requested g before).filterMap sendable) → (∀ call, .net (.call call) ∉ after) →
    handingAlp s.modem.reader = false → s.runLate g after = some s' → handingAlp s'.modem.reader = false := by
  induction after with
  | nil => intro before s s' _ _ _ _ hq h; cases h; exact hq
  | cons e es ih =>
    intro before s s' hp h0 hca hn hq h
    obtain ⟨s1, h1, h2⟩ := late_cons h
    have he : ∀ call, e ≠ .net (.call call) := fun call he => hn call (by simp [he])
    have h01 : s.runLate g [e] = some s1 := by show Option.bind _ _ = _; rw [h1]; rfl
    obtain ⟨done, todo, fs, pr, rs, st⟩ := stream_reach hk hg hp h0
    have hreq : (Net.start config d).requested g (before ++ [e]) = (Net.start config d).requested g before := by
      rw [requested_append h0, Rt.requested_none (fun call hx => he call (List.mem_singleton.1 hx).symm), List.append_nil]
    refine ih (before := before ++ [e]) ?_ (runLate_append h0 h01) ?_ (fun call hx => hn call (by simp [hx])) ?_ h2
    · intro x hx
      rcases List.mem_append.1 hx with hx | hx
      · exact hp x hx
      · obtain rfl := List.mem_singleton.1 hx
        cases x with
        | net x =>
          cases x with
          | call call => exact absurd rfl (he call)
          | _ => trivial
        | _ => trivial
    · rw [hreq]; exact Ct.caught_run st.ok hca h01
    · exact net_step he hq (next_quiet (none_pending st ((List.prefix_append done todo).trans (split_prefix st)) hca)) h1

/-- A call that starts when everything has been answered: it is calm, and if it returns something, everything has been
answered again. -/
theorem every_call {config : Config} (hk : config.skip = false) {g : Gateway D} (hg : g.Conforms) {d : D}
    {before : List LateEvent} {s s' : Net D} {c : Command} {tag : Int} {bs : List UInt8}
    {r : Except PyErr (List Command)} (hc : Taggable c tag) (hb : sendable c = some bs) (hp : ∀ e ∈ before, Tagged e)
    (h0 : (Net.start config d).runLate g before = some s)
    (hca : Ct.Caught g d s (((Net.start config d).requested g before).filterMap sendable))
    (hq : handingAlp s.modem.reader = false) (h : Net.Called g c s r s') :
    Net.CalledCalmly g c s r s' ∧ (r = .ok [] ∨ handingAlp s'.modem.reader = false) := by
  obtain ⟨es, o, h1, h2, h3, h4⟩ := h
  have hcalm := calm_call hk hg hc hb hp h0 hca hq h1
  refine ⟨⟨es, o, h1, h2, hcalm, h3, h4⟩, ?_⟩
  obtain ⟨done, todo, fs, pr, rs, st⟩ := stream_reach hk hg hp h0
  rcases Rt.call_end st.write h1 h2 h3 with ⟨b1, -⟩ | ⟨-, -, during, last, after, s1, s2, rfl, c1, c2, c3, c4, c5⟩
  · rw [hb] at b1; cases b1
  have hn2 : ∀ call, .net (.call call) ∉ during ++ [last] := by
    intro call hx
    refine h1 call ?_
    rcases List.mem_append.1 hx with hx | hx
    · simp [hx]
    · simp [List.mem_singleton.1 hx]
  have hp2 : ∀ e ∈ before ++ .net (.call (.execute c 10)) :: (during ++ [last]), Tagged e := by
    intro e he
    rcases List.mem_append.1 he with he | he
    · exact hp e he
    · exact Rt.tagged_call hc hn2 e he
  have hrun2 : s.runLate g (.net (.call (.execute c 10)) :: (during ++ [last])) = some s2 :=
    runLate_append (es := .net (.call (.execute c 10)) :: during) c1 (by show Option.bind _ _ = _; rw [c3]; rfl)
  have hcalm2 : s.Calm g (.net (.call (.execute c 10)) :: (during ++ [last])) :=
    Rt.calm_left (fs := after) (by simpa using hcalm)
  rcases Ct.caught_call (qb := []) hk hg hc hb (by decide) (before := before) (during := during) (by
      intro e he
      refine hp2 e ?_
      rcases List.mem_append.1 he with he | he <;> simp [he]) h0 (by simp) hca (by simp) c1 c2 c3 c4
      (Rt.calm_left (fs := [last]) hcalm2) with rfl | ⟨rfl, d1, -, d3⟩
  · exact .inl h4
  right
  have hreq2 := requested_append (fs := .net (.call (.execute c 10)) :: (during ++ [last])) h0
  rw [Rt.requested_call hn2 hrun2] at hreq2
  have hca2 : Ct.Caught g d s2 (((Net.start config d).requested g
      (before ++ .net (.call (.execute c 10)) :: (during ++ [last]))).filterMap sendable) := by
    rw [hreq2, List.filterMap_append]
    simpa [hb] using d3
  refine quiet_run hk hg hp2 (runLate_append h0 hrun2) hca2 (fun call hx => h1 call (by simp [hx])) ?_ c5
  obtain ⟨done2, todo2, fs2, pr2, rs2, st2⟩ := stream_reach hk hg hp2 (runLate_append h0 hrun2)
  refine handing_quiet st2.ok (none_pending st2 ((List.prefix_append done2 todo2).trans (split_prefix st2)) hca2) ?_
  -- the flag
  obtain ⟨s0, e1, e2⟩ := late_cons hrun2
  obtain ⟨-, ⟨a1, -⟩ | ⟨-, a2, frame, stage, a3, -, a4⟩⟩ := Rt.call_start st.write e1
  · rw [hb] at a1; cases a1
  obtain ⟨m, e3, rfl⟩ := Option.map_eq_some_iff.1 (show (s.modem.step (.call (.execute c 10))).map
    (fun m => { s with modem := m }) = some s0 from e1)
  have hst : m = s.modem.startExecute .app c 10 := by
    simp only [State.step] at e3
    split at e3
    · cases e3; rfl
    · cases e3
  have hsound : Sound m := by
    rw [hst]
    exact sound_start st.ok.1 (by rw [← hst]; exact a2)
  have hres : resetting m.main = true := by
    rw [hst] at a2 ⊢
    unfold State.startExecute at a2 ⊢
    simp only at a2 ⊢
    split at a2
    · have := congrArg List.length a2
      simp [State.finish] at this
    · rfl
  have hx := exact_late (s := { s with modem := m }) (exact_resetting hres) hsound hn2 (hcalm2.2 _ e1) e2
  rcases late_step c3 with ⟨ev, k1, -, -, k2, -⟩ | ⟨k1, -⟩
  swap
  · rw [k1, c2] at c4
    simpa using congrArg List.length c4
  obtain ⟨f1, f2, f3⟩ := finish_list (fun call he => h1 call (by simp [k2 call he])) k1 (by rw [c4, c2])
  intro x q hr
  obtain ⟨pre, y, post, g1, g2, g3⟩ := hx.flag (by rw [f3]; rfl) f1
  have hpost : post ≠ [] := fun he => g3 he x q hr
  obtain ⟨l, z, g4, -, g5⟩ := d1.final
  rw [f2, show content s2.modem.responses (s2.modem.responses.length - 1) = current s2.modem from rfl, g1] at g4
  rcases List.eq_nil_or_concat post with he | ⟨post', w, rfl⟩
  · exact hpost he
  · have : l = pre ++ y :: post' := by
      have : pre ++ y :: post' ++ [w] = l ++ [z] := by simpa using g4
      exact ((List.append_inj' this rfl).1).symm
    have := g5 y (by rw [this]; simp)
    rw [g2] at this
    cases this

/-- A series of calls that starts when everything has been answered. -/
theorem every_series {config : Config} (hk : config.skip = false) {g : Gateway D} (hg : g.Conforms) {d : D}
    (exec : Update.Exec) {s' : Net D} (cs : List Command) :
    ∀ {n : Nat} {s : Net D} {before : List LateEvent}, (∀ e ∈ before, Tagged e) →
    (Net.start config d).runLate g before = some s →
    Ct.Caught g d s (((Net.start config d).requested g before).filterMap sendable) →
    handingAlp s.modem.reader = false → (∀ c ∈ cs, ∃ tag bs, Taggable c tag ∧ sendable c = some bs) →
    (∀ pre c post, cs = pre ++ c :: post → post ≠ [] → exec (n + pre.length) c ≠ .ok []) →
    Net.Series (Net.Called g) exec n cs s s' → Net.Series (Net.CalledCalmly g) exec n cs s s' := by
  induction cs with
  | nil => intro n s before _ _ _ _ _ _ h; cases h; exact .nil _ _
  | cons c cs ih =>
    intro n s before hp h0 hca hq hcs hgive h
    obtain ⟨tag, bs, hc, hb⟩ := hcs c (by simp)
    cases h with
    | cons _ _ _ _ s1 _ h1 h2 =>
    obtain ⟨a1, a2⟩ := every_call hk hg hc hb hp h0 hca hq h1
    refine .cons _ _ _ _ s1 _ a1 ?_
    cases cs with
    | nil => cases h2; exact .nil _ _
    | cons c2 cs =>
      have hne : exec n c ≠ .ok [] := hgive [] c (c2 :: cs) rfl (by simp)
      obtain ⟨es, b1, b2, b3, b4⟩ := Ct.called (qb := []) hk hg hc hb hp h0 (by simp) hca (by simp) a1
      obtain ⟨rs, -, -, -, b5⟩ := b4.resolve_left hne
      refine ih b2 b1 (by rw [b3]; exact b5) (a2.resolve_left hne) (fun x hx => hcs x (by simp [hx])) ?_ h2
      intro pre x post hx hpost
      have := hgive (c :: pre) x post (by rw [hx]; rfl) hpost
      simpa [Nat.add_assoc, Nat.add_comm 1] using this

/-- When nothing is going on any more, all answers have been handed over, or the reading thread has ended. -/
theorem rest_caught {config : Config} (hk : config.skip = false) {g : Gateway D} (hg : g.Conforms) {d : D}
    {before : List LateEvent} {s : Net D} (hp : ∀ e ∈ before, Tagged e)
    (h0 : (Net.start config d).runLate g before = some s) (hr : s.AtRest) :
    handingAlp s.modem.reader = false ∧
    (Ct.Caught g d s (((Net.start config d).requested g before).filterMap sendable) ∨ s.modem.reader.isDead = true) := by
  obtain ⟨done, todo, fs, pr, rs, st⟩ := stream_reach hk hg hp h0
  rcases hr.reader with ⟨h1, h2⟩ | ⟨q, h1⟩
  swap
  · rw [h1]; exact ⟨rfl, .inr rfl⟩
  rw [h1]
  refine ⟨rfl, .inl ?_⟩
  have htodo : todo = [] := by
    have e1 := st.written
    have e2 := st.taken
    rw [hr.taken, e1, framesFrom_append] at e2
    simp only [List.length_append] at e2
    cases todo with
    | nil => rfl
    | cons p todo =>
      exfalso
      simp [framesFrom, frame] at e2
  subst htodo
  have hfs := st.wire.empty h2
  subst hfs
  have hpr : pr = [] := by
    have := st.pend
    rw [hr.pending] at this
    cases this
    rfl
  subst hpr
  have hsplit := st.split
  rw [hr.main] at hsplit
  simp only [busy, Bool.false_eq_true, if_false, List.append_nil] at hsplit
  rw [hsplit]
  refine ⟨rs, s.modem.received, st.meaning, by rw [h1]; simp [pending], ?_⟩
  rw [← st.order]
  simp

end Verif.Modem.Ev
