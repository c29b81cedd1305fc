import Verif.Lemmas.EveryRuns
import Verif.Spec.Recover
import Verif.Lemmas.EveryConnect

/-! Helper lemmas: everything comes to rest by steps of the threads and the device alone, and a call that begins when
everything has been answered is answered. -/

namespace Verif.Modem.Rc

open Verif Verif.Serial Verif.Modem.Lt

variable {D : Type}

theorem steady_no_call {es : List LateEvent} (h : Steady es) : ∀ call, .net (.call call) ∉ es := by
  intro call hx
  obtain ⟨x, h1, h2⟩ := h _ hx
  cases h1
  exact h2 call rfl

theorem steady_no_timeout {es : List LateEvent} (h : Steady es) : .timeout ∉ es := by
  intro hx
  obtain ⟨x, h1, -⟩ := h _ hx
  cases h1

/-- Such a step does not end the reading thread. -/
theorem alive_step {g : Gateway D} {d : D} {s s' : Net D} {e : NetEvent} {qs done todo fs pr rs}
    (h : Stream g d s qs done todo fs pr rs) (hd : s.modem.reader.isDead = false) (he : ∀ c, e ≠ .call c)
    (hs : s.step g e = some s') : s'.modem.reader.isDead = false := by
  cases e with
  | call c => exact absurd rfl (he c)
  | main =>
    obtain ⟨m, h1, rfl⟩ := Option.map_eq_some_iff.1 hs
    simp only [State.step, State.mainStep] at h1
    cases hm : s.modem.main with
    | idle => rw [hm] at h1; cases h1
    | run st caller tag frame timeout =>
      rw [hm] at h1
      cases st with
      | write =>
        simp only at h1
        split at h1 <;> cases h1
        · rw [Ev.finish_reader]; exact hd
        · exact hd
      | wait =>
        simp only at h1
        split at h1
        · cases h1; rw [Ev.finish_reader]; exact hd
        · cases h1
      | _ => cases h1; exact hd
  | reader =>
    obtain ⟨m, h1, rfl⟩ := Option.map_eq_some_iff.1 hs
    have hr : s.modem.reader ≠ .reading := by
      intro hr
      simp [State.step, State.readerStep, hr] at h1
    obtain ⟨m', h2, h3, -⟩ := work_step hr hd
    rw [h1] at h2
    cases h2
    exact h3
  | read n =>
    simp only [Net.step] at hs
    split at hs
    swap
    · cases hs
    obtain ⟨m, h1, rfl⟩ := Option.map_eq_some_iff.1 hs
    obtain ⟨q, ou, f1, f2, a1, -⟩ := Gw.wire_read h.wire n
    simp only [State.step, State.rxStep] at h1
    split at h1
    · rw [a1] at h1
      cases h1
      rfl
    · cases h1
  | take =>
    simp only [Net.step] at hs
    split at hs <;> cases hs
    exact hd
  | send k =>
    simp only [Net.step] at hs
    split at hs <;> cases hs
    exact hd
  | log k t =>
    simp only [Net.step] at hs
    split at hs <;> cases hs
    exact hd
  | reboot k r => cases hs; exact hd

/-- Without further calls, timeouts and failures everything comes to rest, but for a call that waits in vain. -/
theorem settle {g : Gateway D} (hg : g.Conforms) {d : D} {qs : List Command} (n : Nat) :
    ∀ {s : Net D} {done todo fs pr rs}, Stream g d s qs done todo fs pr rs →
    left g s ((qs.filterMap sendable).drop done.length) ≤ n → s.modem.reader.isDead = false →
    ∃ es s', Steady es ∧ s.runLate g es = some s' ∧ s'.modem.reader = .reading ∧ s'.line = [] ∧ s'.pending = [] ∧
      (s'.modem.main = .idle ∨ (∃ caller tag f t, s'.modem.main = .run .wait caller tag f t) ∧ s'.modem.completed = false) ∧
      s'.taken = s'.modem.written.length := by
  induction n with
  | zero =>
    intro s done todo fs pr rs h hn hd
    rcases stream_enabled hg h with ⟨e, s1, h1, h2, h3⟩ | ⟨h1, rfl, h3, ⟨h4, h5⟩ | ⟨q, h4⟩⟩
    · exfalso
      obtain ⟨_, _, _, _, _, -, h5⟩ := stream_step hg h (e := .net e) (by
        cases e with
        | call c => exact absurd rfl (h2 c)
        | _ => trivial) (show s.stepLate g (.net e) = some s1 from h1)
      have := h5 (by simpa using h2)
      simp only [lateNotices, h3] at this
      omega
    · refine ⟨[], s, by simp [Steady], rfl, h4, h5, h3, h1, ?_⟩
      rw [h.taken, h.written]; simp
    · rw [h4] at hd; cases hd
  | succ n ih =>
    intro s done todo fs pr rs h hn hd
    rcases stream_enabled hg h with ⟨e, s1, h1, h2, h3⟩ | ⟨h1, rfl, h3, ⟨h4, h5⟩ | ⟨q, h4⟩⟩
    · have ht : Tagged (.net e) := by
        cases e with
        | call c => exact absurd rfl (h2 c)
        | _ => trivial
      obtain ⟨_, _, _, _, _, h4, h5⟩ := stream_step hg h ht (show s.stepLate g (.net e) = some s1 from h1)
      rw [Rt.asked_none (by simpa using h2), List.append_nil] at h4
      have h6 := h5 (by simpa using h2)
      simp only [lateNotices, h3] at h6
      obtain ⟨es, s', a1, a2, a3⟩ := ih h4 (by omega) (alive_step h hd h2 h1)
      refine ⟨.net e :: es, s', ?_, ?_, a3⟩
      · intro x hx
        rcases List.mem_cons.1 hx with rfl | hx
        · exact ⟨e, rfl, h2⟩
        · exact a1 x hx
      · show Option.bind _ _ = _
        rw [show s.stepLate g (.net e) = some s1 from h1]
        exact a2
    · refine ⟨[], s, by simp [Steady], rfl, h4, h5, h3, h1, ?_⟩
      rw [h.taken, h.written]; simp
    · rw [h4] at hd; cases hd

/-- A call goes on, or it has ended; without a timeout it ends with a list. -/
theorem ends {g : Gateway D} {tag : Option Int} {frame : List UInt8} {n : Nat} {es : List LateEvent} :
    ∀ {s s' : Net D}, Running .app tag frame 10 n s.modem → (∀ call, .net (.call call) ∉ es) → .timeout ∉ es →
    s.runLate g es = some s' →
    (Running .app tag frame 10 n s'.modem ∧ s'.modem.outcomes = s.modem.outcomes) ∨
    (s'.modem.main = .idle ∧ s'.modem.outcomes = s.modem.outcomes ++ [.list n]) := by
  induction es with
  | nil => intro s s' h _ _ hs; cases hs; exact .inl ⟨h, rfl⟩
  | cons e es ih =>
    intro s s' h hn ht hs
    obtain ⟨s1, h1, h2⟩ := late_cons hs
    have hn' : ∀ call, .net (.call call) ∉ es := fun call hx => hn call (by simp [hx])
    have ht' : LateEvent.timeout ∉ es := fun hx => ht (by simp [hx])
    have key : (Running .app tag frame 10 n s1.modem ∧ s1.modem.outcomes = s.modem.outcomes) ∨
        (s1.modem.main = .idle ∧ s1.modem.outcomes = s.modem.outcomes ++ [.list n]) := by
      have quiet : ∀ ev, isMain ev = false → s.modem.step ev = some s1.modem →
          Running .app tag frame 10 n s1.modem ∧ s1.modem.outcomes = s.modem.outcomes := by
        intro ev hev hst
        rcases running_step h hst with ⟨k1, k2, -⟩ | ⟨t, l, k1, -, k2, -⟩
        · exact ⟨k1, k2⟩
        · have := (step_untouched hst hev).outcomes
          rw [k1] at this
          obtain ⟨o, k3⟩ := finishExecute_outcomes t .app l
          rw [k3, k2] at this
          simpa using congrArg List.length this
      cases e with
      | timeout => exact absurd (by simp) ht
      | callbackRaises =>
        obtain ⟨m, b1, rfl⟩ := Option.map_eq_some_iff.1 (show (s.modem.step .callbackRaises).map _ = some s1 from h1)
        exact .inl (quiet _ rfl b1)
      | serialError =>
        obtain ⟨m, b1, rfl⟩ := Option.map_eq_some_iff.1 (show (s.modem.step .serialError).map _ = some s1 from h1)
        exact .inl (quiet _ rfl b1)
      | net e =>
        cases e with
        | call c => exact absurd (by simp) (hn c)
        | main =>
          obtain ⟨m, a1, rfl⟩ := Option.map_eq_some_iff.1 (show (s.modem.step .main).map _ = some s1 from h1)
          rcases running_step h a1 with ⟨k1, k2, -⟩ | ⟨t, l, k1, -, k2, -, k3, -, -, -, -, -, ⟨k4, -⟩ | ⟨-, k4, k5⟩⟩
          · exact .inl ⟨k1, k2⟩
          · exact absurd k4 (by decide)
          · have hcm : s.modem.completed = true := by
              cases hcm : s.modem.completed with
              | true => rfl
              | false => simp [State.step, State.mainStep, k4, hcm] at a1
            rw [hcm, if_pos rfl] at k5
            subst k5
            refine .inr ⟨?_, ?_⟩
            · show m.main = _
              rw [k1]; exact finishExecute_main _ _ _
            · show m.outcomes = _
              rw [k1, ← k2]; rfl
        | reader =>
          obtain ⟨m, b1, rfl⟩ := Option.map_eq_some_iff.1 (show (s.modem.step .reader).map _ = some s1 from h1)
          exact .inl (quiet _ rfl b1)
        | read k =>
          simp only [Net.stepLate, Net.step] at h1
          split at h1
          · obtain ⟨m, b1, rfl⟩ := Option.map_eq_some_iff.1 h1
            exact .inl (quiet _ rfl b1)
          · cases h1
        | take =>
          simp only [Net.stepLate, Net.step] at h1
          split at h1 <;> cases h1
          exact .inl ⟨h, rfl⟩
        | send k =>
          simp only [Net.stepLate, Net.step] at h1
          split at h1 <;> cases h1
          exact .inl ⟨h, rfl⟩
        | log k t =>
          simp only [Net.stepLate, Net.step] at h1
          split at h1 <;> cases h1
          exact .inl ⟨h, rfl⟩
        | reboot k r => cases h1; exact .inl ⟨h, rfl⟩
    rcases key with ⟨k1, k2⟩ | ⟨k1, k2⟩
    · rcases ih k1 hn' ht' h2 with ⟨a1, a2⟩ | ⟨a1, a2⟩
      · exact .inl ⟨a1, a2.trans k2⟩
      · exact .inr ⟨a1, by rw [a2, k2]⟩
    · obtain ⟨a1, a2, -⟩ := Rt.idle_outcomes k1 hn' h2
      exact .inr ⟨a1, a2.trans k2⟩

/-- A call that begins when everything has been answered does not wait in vain. -/
theorem not_waiting {config : Config} (hk : config.skip = false) {g : Gateway D} (hg : g.Conforms) {d : D}
    {before es : List LateEvent} {s s1 : Net D} {c : Command} {tag : Int} {bs : List UInt8} (hc : Taggable c tag)
    (hb : sendable c = some bs) (hp : ∀ e ∈ before, Tagged e) (h0 : (Net.start config d).runLate g before = some s)
    (hca : Ct.Caught g d s (((Net.start config d).requested g before).filterMap sendable))
    (hq : handingAlp s.modem.reader = false) (hn : ∀ call, .net (.call call) ∉ es)
    (h1 : s.runLate g (.net (.call (.execute c 10)) :: es) = some s1) (ho1 : s1.modem.outcomes = s.modem.outcomes)
    {caller : Caller} {tg : Option Int} {f : List UInt8} {t : Int} (hm : s1.modem.main = .run .wait caller tg f t)
    (hcm : s1.modem.completed = false) (hr : s1.modem.reader = .reading) (hl : s1.line = []) (hpe : s1.pending = [])
    (htk : s1.taken = s1.modem.written.length) : False := by
  have hcalm := Ev.calm_call hk hg hc hb hp h0 hca hq hn
  obtain ⟨evs0, a1, -, -⟩ := late_modem h0
  rw [show (Net.start config d).modem = init config from rfl] at a1
  obtain ⟨s2, b1, b2⟩ := late_cons h1
  obtain ⟨evs1, b3, -, b5⟩ := late_modem b2
  obtain ⟨m2, b6, rfl⟩ := Option.map_eq_some_iff.1 (show (s.modem.step (.call (.execute c 10))).map
    (fun m => { s with modem := m }) = some s2 from b1)
  have hrun : s.modem.run (.call (.execute c 10) :: evs1) = some s1.modem := by
    unfold State.run; rw [b6]; exact b3
  have hcalm' : Modem.Calm s.modem (.call (.execute c 10) :: evs1) := by
    refine ⟨fun hr => ⟨(hcalm.1 hr).1, by simp⟩, ?_⟩
    intro m hm
    rw [b6] at hm
    cases hm
    exact b5 (hcalm.2 _ b1)
  obtain ⟨o, hfin⟩ := finishExecute_outcomes s1.modem caller none
  have hto : s1.modem.step .timeout = some (s1.modem.finishExecute caller none) := by
    simp [State.step, State.timeoutStep, hm, hcm]
  have hp1 : ∀ e ∈ before ++ .net (.call (.execute c 10)) :: es, Tagged e := by
    intro e he
    rcases List.mem_append.1 he with he | he
    · exact hp e he
    · exact Rt.tagged_call hc hn e he
  obtain ⟨done, todo, fs, pr, rs, st⟩ := stream_reach hk hg hp1 (runLate_append h0 h1)
  rw [requested_append h0, Rt.requested_call hn h1] at st
  have htodo : todo = [] := by
    have e1 := st.written
    have e2 := st.taken
    rw [htk, e1, framesFrom_append] at e2
    simp only [List.length_append] at e2
    cases todo with
    | nil => rfl
    | cons p todo =>
      exfalso
      simp [framesFrom, frame] at e2
  subst htodo
  have hfs := st.wire.empty hl
  subst hfs
  have hpr : pr = [] := by
    have := st.pend
    rw [hpe] at this
    cases this
    rfl
  subst hpr
  have hsplit := st.split
  rw [hm] at hsplit
  simp only [busy, Bool.false_eq_true, if_false, List.append_nil, List.filterMap_append] at hsplit
  have hbs : [c].filterMap sendable = [bs] := by simp [hb]
  rw [hbs] at hsplit
  obtain ⟨ra, past, e1, e2, e3⟩ := hca
  have hmean := st.meaning
  rw [← hsplit, Gwa.replies_snoc] at hmean
  obtain ⟨r0, r1, rfl, f1, f2⟩ := meaning_split hmean
  obtain ⟨r, f3⟩ := hg (g.replies d (((Net.start config d).requested g before).filterMap sendable)).1 c bs tag hc.1 hc.2.1
    hc.2.2 hb
  obtain rfl := meaning_unique f2 f3.meaning
  obtain rfl := meaning_unique f1 e1
  have hord := st.order
  simp only [List.map_nil, List.append_nil] at hord
  obtain ⟨new, handed, d1, d2, ⟨rfl, -, -⟩ | ⟨rfl, d3⟩⟩ :=
    C46_result_partial (o := o) hk (by decide) a1 hrun ho1 hto (by rw [hfin, ho1]) hcalm'
  · have := hfin
    revert this
    unfold State.finishExecute
    cases caller <;> simp [State.finish, State.finishConnect]
  · rw [hr, show pending .reading = [] from rfl, List.append_nil] at d2
    obtain ⟨u, hu⟩ := e3
    have hnew : u ++ alpMessages handed = r1 := by
      rw [d1, e2, List.append_assoc, alp_append, ← hu, ← d2, List.append_assoc] at hord
      exact List.append_cancel_left hord
    obtain ⟨done0, todo0, fs0, pr0, rs0, st0⟩ := stream_reach hk hg hp h0
    have ho := st0.order
    rw [e2, alp_append, alp_append, ← hu] at ho
    obtain ⟨tail, r2, g1, g2, g3, -⟩ := Ct.rest_of (rest := []) (by
      rw [List.append_nil]; exact (List.prefix_append _ _).trans (split_prefix st0)) st0.meaning e1 (by
      rw [← ho]; simp only [List.append_assoc]; exact List.prefix_append _ _)
    obtain rfl := List.prefix_nil.1 g1
    cases g3
    have hu0 : u = [] := by
      have := g2.symm.trans ho.symm
      simp only [List.append_assoc, List.append_cancel_left_eq] at this
      exact (List.append_eq_nil_iff.1 this.symm).1
    subst hu0
    obtain ⟨l, y, k1, k2, -⟩ := f3.final
    have hy : y ∈ r1 := by rw [k1]; simp
    have := d3 (by rw [hr]; rfl) y (by
      rw [response_alp]
      refine List.mem_filter.2 ⟨by rw [← hnew] at hy; exact hy, ?_⟩
      simp [f3.tagged y hy, hc.2.2])
    rw [k2] at this
    cases this

/-- A call that begins when everything has been answered, and that has ended without a timeout, has returned the answers to
its command. -/
theorem returned {config : Config} (hk : config.skip = false) {g : Gateway D} (hg : g.Conforms) {d : D}
    {before es : List LateEvent} {s s1 : Net D} {c : Command} {tag : Int} {bs : List UInt8} (hc : Taggable c tag)
    (hb : sendable c = some bs) (hp : ∀ e ∈ before, Tagged e) (h0 : (Net.start config d).runLate g before = some s)
    (hca : Ct.Caught g d s (((Net.start config d).requested g before).filterMap sendable))
    (hq : handingAlp s.modem.reader = false) (hn : ∀ call, .net (.call call) ∉ es) (ht : .timeout ∉ es)
    (h1 : s.runLate g (.net (.call (.execute c 10)) :: es) = some s1) :
    (s1.modem.main ≠ .idle ∧ s1.modem.outcomes = s.modem.outcomes) ∨
    ∃ rs, s1.modem.main = .idle ∧ Net.Called g c s (.ok rs) s1 ∧
      g.Reply d (((Net.start config d).requested g before).filterMap sendable) tag bs rs ∧
      s1.data = (g.replies d (((Net.start config d).requested g before).filterMap sendable ++ [bs])).1 := by
  obtain ⟨done, todo, fs, pr, rs, st⟩ := stream_reach hk hg hp h0
  obtain ⟨s0, b1, b2⟩ := late_cons h1
  obtain ⟨-, ⟨k1, -⟩ | ⟨-, k2, frame, k3⟩⟩ := Rt.call_start st.write b1
  · rw [hb] at k1; cases k1
  obtain ⟨evs0, a1, -, -⟩ := late_modem h0
  rw [run_config (init_ok config) a1, show (init config).config.skip = false from hk, if_neg (by decide)] at k3
  rcases ends k3 hn ht b2 with ⟨⟨stage, k4, -⟩, k5⟩ | ⟨k4, k5⟩
  · exact .inl ⟨by rw [k4]; simp, k5.trans k2⟩
  · have hcalled : Net.Called g c s (.ok (content s1.modem.responses s.modem.responses.length)) s1 :=
      ⟨es, _, hn, h1, by rw [k5, k2], rfl⟩
    obtain ⟨a2, -⟩ := Ev.every_call hk hg hc hb hp h0 hca hq hcalled
    refine .inr ⟨_, k4, hcalled, ?_⟩
    obtain ⟨-, -, -, -, k6 | ⟨rs, k6, k7, k8, -⟩⟩ := Ct.called (qb := []) hk hg hc hb hp h0 (by simp) hca (by simp) a2
    · exfalso
      rcases Rt.call_end st.write hn h1 (o := .list s.modem.responses.length) (by rw [k5, k2]) with
        ⟨c0, -⟩ | ⟨-, -, during, last, after, t1, t2, rfl, c1, c2, c3, c4, c5⟩
      · rw [hb] at c0; cases c0
      have hn2 : ∀ call, .net (.call call) ∉ during := fun call hx => hn call (by simp [hx])
      have hcalm := Ev.calm_call hk hg hc hb hp h0 hca hq hn
      rcases Ct.caught_call (qb := []) hk hg hc hb (by decide) (before := before) (during := during) (by
          intro e he
          rcases List.mem_append.1 he with he | he
          · exact hp e he
          · exact Rt.tagged_call (t := 10) hc hn2 e (by simp [he])) h0 (by simp) hca (by simp) c1 c2 c3 c4
          (Rt.calm_left (fs := last :: after) (by simpa using hcalm)) with d0 | ⟨-, d1, -, -⟩
      · cases d0
      obtain ⟨l, y, e1, -⟩ := d1.final
      have hp2 : ∀ e ∈ before ++ .net (.call (.execute c 10)) :: (during ++ [last]), Tagged e := by
        intro e he
        rcases List.mem_append.1 he with he | he
        · exact hp e he
        · refine Rt.tagged_call hc (fun call hx => hn call ?_) e he
          rcases List.mem_append.1 hx with hx | hx
          · simp [hx]
          · simp [List.mem_singleton.1 hx]
      obtain ⟨done2, todo2, fs2, pr2, rs2, st2⟩ := stream_reach hk hg hp2 (runLate_append h0
        (runLate_append (es := .net (.call (.execute c 10)) :: during) c1 (by show Option.bind _ _ = _; rw [c3]; rfl)))
      obtain ⟨evs, g1, -⟩ := late_modem c5
      obtain ⟨-, log, g2, -⟩ := run_handedOver st2.ok g1
      have := g2.responses s.modem.responses.length
      injection k6 with k6
      rw [k6, e1] at this
      simpa using congrArg List.length this
    · cases k6
      simp only [List.append_nil] at k7 k8
      exact ⟨k7, k8⟩

/-- When everything has come to rest and the reading thread is alive, everything has been answered. -/
theorem at_rest {config : Config} (hk : config.skip = false) {g : Gateway D} (hg : g.Conforms) {d : D}
    {before : List LateEvent} {s : Net D} (hp : ∀ e ∈ before, Tagged e)
    (h0 : (Net.start config d).runLate g before = some s) (hr : s.AtRest) (hd : s.modem.reader.isDead = false) :
    handingAlp s.modem.reader = false ∧
    Ct.Caught g d s (((Net.start config d).requested g before).filterMap sendable) := by
  obtain ⟨h1, h2 | h2⟩ := Ev.rest_caught hk hg hp h0 hr
  · exact ⟨h1, h2⟩
  · rw [hd] at h2; cases h2

/-- A `connect` goes on, or it has ended once. -/
theorem connect_ends {g : Gateway D} {tag : Option Int} {f : List UInt8} {t : Int} {es : List LateEvent} :
    ∀ {s s' : Net D} {st}, s.modem.main = .run st .connect tag f t → (∀ call, .net (.call call) ∉ es) →
    s.runLate g es = some s' →
    s'.modem.outcomes = s.modem.outcomes ∨ ∃ o, s'.modem.outcomes = s.modem.outcomes ++ [o] := by
  induction es with
  | nil => intro s s' st h _ hs; cases hs; exact .inl rfl
  | cons e es ih =>
    intro s s' st h hn hs
    obtain ⟨s1, h1, h2⟩ := late_cons hs
    have hn' : ∀ call, .net (.call call) ∉ es := fun call hx => hn call (by simp [hx])
    rcases Lt.net_step h h1 with ⟨a1, -, ⟨st', a2⟩, -⟩ | ⟨z, l, -, a2, a3, -⟩
    · rw [← a1]; exact ih a2 hn' h2
    · have a4 : s1.modem = z.finishExecute .connect l := a3
      obtain ⟨o, a5⟩ := finishExecute_outcomes z .connect l
      obtain ⟨-, a6, -⟩ := Rt.idle_outcomes (s := s1) (by rw [a4]; exact finishExecute_main _ _ _) hn' h2
      exact .inr ⟨o, by rw [a6, a4, a5, a2]⟩

/-- A reading thread that is alive has been alive. -/
theorem alive_before {g : Gateway D} {es : List LateEvent} {s s' : Net D} (h : s.runLate g es = some s')
    (hd : s'.modem.reader.isDead = false) : s.modem.reader.isDead = false := by
  cases hs : s.modem.reader.isDead with
  | false => rfl
  | true =>
    obtain ⟨evs, h1, -⟩ := late_modem h
    have : s'.modem.reader.isDead = true :=
      run_induction (P := fun s => s.reader.isDead = true) h1 hs (fun a e b ha _ hst => step_dead hst ha)
    rw [this] at hd; cases hd

/-- A `connect` that begins when everything has come to rest can succeed. -/
theorem connects {config : Config} (hk : config.skip = false) {g : Gateway D} (hg : g.Conforms) {d : D}
    {before : List LateEvent} {s : Net D} {r : UInt8} (hn : s.modem.connected = false) (hp : ∀ e ∈ before, Tagged e)
    (h0 : (Net.start config d).runLate g before = some s) (hr : s.AtRest) (hd : s.modem.reader.isDead = false)
    {x : Command} {xs : List Command} {u : Nat} {f : FirmwareVersionFile}
    (hx : g.Reply d (((Net.start config d).requested g before).filterMap sendable) r.toNat
      [0xB4, r, 1, 0, 0, 8, 1, 2, 0, 17] (x :: xs)) (hi : Identifies x u f) :
    ∃ es s', Steady es ∧ s.runLate g (.net (.call (.connect true r)) :: es) = some s' ∧
      s'.modem.outcomes = s.modem.outcomes ++ [.bool true] ∧ s'.modem.uid = some u ∧ s'.modem.firmwareVersion = some f ∧
      s'.modem.connected = true ∧ s'.modem.reader.isDead = false := by
  obtain ⟨hq, hca⟩ := at_rest hk hg hp h0 hr hd
  obtain ⟨evs0, a0, -, -⟩ := late_modem h0
  have hks : s.modem.config.skip = false := by rw [run_config (init_ok config) a0]; exact hk
  have hask : s.asked (.net (.call (.connect true r))) = [question r] := by
    show (if s.modem.connected then [] else [question r]) = _
    rw [hn]; rfl
  obtain ⟨done, todo, fs, pr, rs, st⟩ := stream_reach hk hg hp h0
  obtain ⟨s0, b1⟩ : ∃ s0, s.stepLate g (.net (.call (.connect true r))) = some s0 := by
    simp only [Net.stepLate, Net.step, State.step, hr.main, if_true]
    exact ⟨_, rfl⟩
  obtain ⟨sx, c1⟩ : ∃ sx, s.stepLate g (.net (.call (.execute (question r) 10))) = some sx := by
    simp only [Net.stepLate, Net.step, State.step, hr.main, if_true]
    exact ⟨_, rfl⟩
  obtain ⟨-, ⟨k1, -⟩ | ⟨-, k2, frame, k3⟩⟩ := Rt.call_start st.write c1
  · rw [Mqtt.question_bytes] at k1; cases k1
  rw [hks, if_neg (by decide)] at k3
  have hs0 : s0.modem.outcomes = s.modem.outcomes := by
    simp only [Net.stepLate, Net.step, State.step, hr.main, if_true, Option.map_some, Option.some.injEq] at b1 c1
    subst b1 c1
    simp only [State.startCall, hn, Bool.false_eq_true, if_false, not_true, infoCommand_eq, hks] at k2 ⊢
    simp only [State.startExecute] at k2 ⊢
    split at k2
    · simp [State.finish] at k2
    · rfl
  have hrun0 : s.runLate g (.net (.call (.connect true r)) :: []) = some s0 := by
    show Option.bind _ _ = _
    rw [b1]; rfl
  obtain ⟨done, todo, fs, pr, rs, st0⟩ := stream_reach hk hg (es := before ++ [.net (.call (.connect true r))]) (by
    intro e he
    rcases List.mem_append.1 he with he | he
    · exact hp e he
    · rw [List.mem_singleton.1 he]; trivial) (runLate_append h0 hrun0)
  have hd0 : s0.modem.reader.isDead = false := by rw [Ev.call_reader b1]; exact hd
  obtain ⟨es, s', h1, h2, h3, h4, h5, h6, h7⟩ := settle hg _ st0 (le_refl _) hd0
  have hrun : s.runLate g (.net (.call (.connect true r)) :: es) = some s' := runLate_append hrun0 h2
  have hcalmS : ∀ {l : List LateEvent}, (∀ call, .net (.call call) ∉ l) → s.Calm g (.net (.call (.connect true r)) :: l) :=
    fun hl => Ev.calm_start hk hg hask trivial (Mqtt.question_bytes r) hp h0 (.inl hca) hq hl
  obtain ⟨-, ⟨st1, tag, f1, t, a2⟩, -, -⟩ := connect_run hks hn hrun0 hs0 (hcalmS (by simp))
  have hnc := steady_no_call h1
  rcases connect_ends a2 hnc h2 with ho | ⟨o, ho⟩
  · exfalso
    obtain ⟨-, ⟨st2, tag2, f2, t2, a3⟩, a4, -⟩ := connect_run hks hn hrun (ho.trans hs0) (hcalmS hnc)
    rcases h6 with h6 | ⟨⟨caller, tg, f3, t3, h6⟩, h8⟩
    · rw [h6] at a3; cases a3
    · rw [h6] at a3
      cases a3
      exact not_waiting hk hg (question_taggable r) (Mqtt.question_bytes r) hp h0 hca hq hnc a4
        (ho.trans hs0) (by show (asApp s'.modem).main = _; rw [asApp_run h6]) h8 h3 h4 h5 h7
  rw [hs0] at ho
  obtain ⟨during, last, after, s1, s2, rfl, d1, d2, d3, d4, d5⟩ := Rt.split_end h2 hs0 ho
  have hst : Steady (during ++ [last]) := fun e he => h1 e (by
    rcases List.mem_append.1 he with he | he
    · simp [he]
    · simp [List.mem_singleton.1 he])
  have hst1 : Steady during := fun e he => h1 e (by simp [he])
  have e1 : s.runLate g (.net (.call (.connect true r)) :: during) = some s1 := runLate_append hrun0 d1
  have e2 : s.runLate g (.net (.call (.connect true r)) :: (during ++ [last])) = some s2 :=
    runLate_append (es := .net (.call (.connect true r)) :: during) e1 (by show Option.bind _ _ = _; rw [d3]; rfl)
  obtain ⟨-, ⟨st2, tag2, f2, t2, a3⟩, a4, -⟩ := connect_run hks hn e1 d2 (hcalmS (steady_no_call hst1))
  rcases Lt.net_step a3 d3 with ⟨b2, -⟩ | ⟨z, l, -, b2, b3, b4⟩
  · rw [b2, d2] at d4
    simpa using congrArg List.length d4
  have hex : s.runLate g (.net (.call (.execute (question r) 10)) :: (during ++ [last])) =
      some { s2 with modem := z.finish (Lt.returned l) } :=
    runLate_append (es := .net (.call (.execute (question r) 10)) :: during) a4 (by
      show Option.bind _ _ = _
      rw [show (Net.asApp s1).stepLate g last = some { s2 with modem := z.finish (Lt.returned l) } from b4]; rfl)
  obtain ⟨sy, c2, c3⟩ := late_cons hex
  rw [c1] at c2
  cases c2
  have hl : l = some s.modem.responses.length := by
    rcases ends k3 (steady_no_call hst) (steady_no_timeout hst) c3 with ⟨⟨stage, k4, -⟩, -⟩ | ⟨-, k5⟩
    · simp [State.finish] at k4
    · simp only [State.finish] at k5
      rw [k2, b2, d2] at k5
      have := List.append_cancel_left k5
      cases l with
      | none => simp [Lt.returned] at this
      | some n => simpa [Lt.returned] using this
  subst hl
  rcases returned hk hg (question_taggable r) (Mqtt.question_bytes r) hp h0 hca hq (steady_no_call hst)
    (steady_no_timeout hst) hex with ⟨k4, -⟩ | ⟨ys, -, ⟨es2, o2, -, -, k5, k6⟩, k7, -⟩
  · exact absurd rfl k4
  have ho2 : o2 = .list s.modem.responses.length := by
    simp only [State.finish, Lt.returned] at k5
    rw [b2, d2] at k5
    simpa using (List.append_cancel_left k5).symm
  subst ho2
  obtain rfl := meaning_unique hx.meaning k7.meaning
  simp only [State.finish, Except.ok.injEq] at k6
  have e5 : z.responses[s.modem.responses.length]? = some (x :: xs) := by
    unfold content at k6
    cases e8 : z.responses[s.modem.responses.length]? with
    | none => rw [e8] at k6; simp at k6
    | some c => rw [e8] at k6; simpa using k6.symm
  rw [Option.bind_some, e5] at b3
  simp only [State.finishConnect, readInfo_identifies hi] at b3
  refine ⟨during ++ [last], s2, hst, e2, ?_, by rw [b3]; rfl, by rw [b3]; rfl, by rw [b3]; simp [State.finish],
    alive_before d5 (by rw [h3]; rfl)⟩
  rw [b3]
  simp [State.finish, b2, d2]

/-! ### The reading thread has ended -/

/-- A `connect` after the end of the reading thread: it goes on, or it has returned False. `o` are the outcomes before it. -/
structure Unheard (o : List Outcome) (u : Option Nat) (f : Option FirmwareVersionFile) (m : State) : Prop where
  dead : m.reader.isDead = true
  connected : m.connected = false
  uid : m.uid = u
  firmware : m.firmwareVersion = f
  call : (∃ st tag f t, m.main = .run st .connect tag f t ∧ m.outcomes = o ∧
      (st = .setTag ∨ st = .write ∨ st = .wait → m.completed = false)) ∨
    m.main = .idle ∧ m.outcomes = o ++ [.bool false]

theorem unheard_step {o : List Outcome} {u : Option Nat} {f : Option FirmwareVersionFile} {m m' : State} {e : Event}
    (h : Unheard o u f m) (he : ∀ c, e ≠ .call c) (hs : m.step e = some m') : Unheard o u f m' := by
  obtain ⟨h1, h2, h3, h4, h5⟩ := h
  obtain ⟨q, hq⟩ : ∃ q, m.reader = .dead q := by
    cases hr : m.reader <;> rw [hr] at h1 <;> first | exact ⟨_, rfl⟩ | cases h1
  cases e with
  | call c => exact absurd rfl (he c)
  | rx bs => simp [State.step, State.rxStep, hq] at hs
  | reader => simp [State.step, State.readerStep, hq] at hs
  | callbackRaises => simp [State.step, State.raiseStep, hq] at hs
  | serialError => simp [State.step, State.serialErrorStep, hq] at hs
  | timeout =>
    rcases h5 with ⟨st, tag, fr, t, a1, a2, a3⟩ | ⟨a1, a2⟩
    · simp only [State.step, State.timeoutStep, a1] at hs
      cases st with
      | wait =>
        simp only [a3 (by simp), Bool.false_eq_true, if_false, Option.some.injEq] at hs
        subst hs
        exact ⟨h1, h2, h3, h4, .inr ⟨rfl, by simp [State.finishExecute, State.finishConnect, State.finish, a2]⟩⟩
      | _ => cases hs
    · simp [State.step, State.timeoutStep, a1] at hs
  | main =>
    rcases h5 with ⟨st, tag, fr, t, a1, a2, a3⟩ | ⟨a1, a2⟩
    · simp only [State.step, State.mainStep, a1] at hs
      cases st with
      | resetList => cases hs; exact ⟨h1, h2, h3, h4, .inl ⟨_, _, _, _, rfl, a2, by simp⟩⟩
      | resetTag => cases hs; exact ⟨h1, h2, h3, h4, .inl ⟨_, _, _, _, rfl, a2, by simp⟩⟩
      | resetCompleted => cases hs; exact ⟨h1, h2, h3, h4, .inl ⟨_, _, _, _, rfl, a2, by simp⟩⟩
      | setTag => cases hs; exact ⟨h1, h2, h3, h4, .inl ⟨_, _, _, _, rfl, a2, fun _ => a3 (by simp)⟩⟩
      | write =>
        simp only at hs
        split at hs <;> cases hs
        · exact ⟨h1, h2, h3, h4, .inr ⟨rfl, by simp [State.finishExecute, State.finishConnect, State.finish, a2]⟩⟩
        · exact ⟨h1, h2, h3, h4, .inl ⟨_, _, _, _, rfl, a2, fun _ => a3 (by simp)⟩⟩
      | wait =>
        simp only [a3 (by simp), Bool.false_eq_true, if_false] at hs
        cases hs
    · simp [State.step, State.mainStep, a1] at hs

theorem unheard_run {o : List Outcome} {u : Option Nat} {f : Option FirmwareVersionFile} {g : Gateway D} {es : List LateEvent} :
    ∀ {s s' : Net D}, Unheard o u f s.modem → (∀ call, .net (.call call) ∉ es) → s.runLate g es = some s' →
    Unheard o u f s'.modem := by
  induction es with
  | nil => intro s s' h _ hs; cases hs; exact h
  | cons e es ih =>
    intro s s' h hn hs
    obtain ⟨s1, h1, h2⟩ := late_cons hs
    refine ih ?_ (fun call hx => hn call (by simp [hx])) h2
    rcases late_step h1 with ⟨ev, a1, -, -, a2, -⟩ | ⟨a1, -⟩
    · refine unheard_step h ?_ a1
      rintro c rfl
      exact hn c (by rw [a2 c rfl]; simp)
    · rw [a1]; exact h

/-- The call of `connect`. -/
theorem unheard_start {config : Config} (hk : config.skip = false) {g : Gateway D} (hg : g.Conforms) {d : D}
    {before : List LateEvent} {s s0 : Net D} {r : UInt8} (hn : s.modem.connected = false) (hp : ∀ e ∈ before, Tagged e)
    (h0 : (Net.start config d).runLate g before = some s) (hd : s.modem.reader.isDead = true)
    (b1 : s.stepLate g (.net (.call (.connect true r))) = some s0) :
    Unheard s.modem.outcomes s.modem.uid s.modem.firmwareVersion s0.modem := by
  obtain ⟨evs0, a0, -, -⟩ := late_modem h0
  have hks : s.modem.config.skip = false := by rw [run_config (init_ok config) a0]; exact hk
  obtain ⟨done, todo, fs, pr, rs, st⟩ := stream_reach hk hg hp h0
  have hm : s.modem.main = .idle := by
    simp only [Net.stepLate, Net.step, State.step] at b1
    split at b1
    · assumption
    · cases b1
  obtain ⟨sx, c1⟩ : ∃ sx, s.stepLate g (.net (.call (.execute (question r) 10))) = some sx := by
    simp only [Net.stepLate, Net.step, State.step, hm, if_true]
    exact ⟨_, rfl⟩
  obtain ⟨-, ⟨k1, -⟩ | ⟨-, k2, frame, k3⟩⟩ := Rt.call_start st.write c1
  · rw [Mqtt.question_bytes] at k1; cases k1
  simp only [Net.stepLate, Net.step, State.step, hm, if_true, Option.map_some, Option.some.injEq] at b1 c1
  subst b1 c1
  simp only [State.startCall, hn, Bool.false_eq_true, if_false, not_true, infoCommand_eq, hks] at k2 ⊢
  simp only [State.startExecute] at k2 ⊢
  split at k2
  · simp [State.finish] at k2
  · exact ⟨hd, hn, rfl, rfl, .inl ⟨_, _, _, _, rfl, rfl, by simp⟩⟩

end Verif.Modem.Rc
