import Verif.Lemmas.Every
import Verif.Lemmas.LateConnect
import Verif.Lemmas.Site

/-! Helper lemmas: after a `connect` that returned True nothing that belongs to it is on the way any more. -/

namespace Verif.Modem.Ev

open Verif Verif.Serial Verif.Modem.Lt

variable {D : Type}

theorem finishConnect_same (m : State) (l : Option (List Command)) :
    (m.finishConnect l).reader = m.reader ∧ (m.finishConnect l).received = m.received := by
  unfold State.finishConnect
  repeat' split
  all_goals exact ⟨rfl, rfl⟩

/-- Nothing is returned at the start of `connect`, unless it raises. -/
theorem connect_begins {s : State} {r : UInt8} (hk : s.config.skip = false) (hn : s.connected = false) :
    (s.startCall (.connect true r)).outcomes = s.outcomes ∨
      ∃ e, (s.startCall (.connect true r)).outcomes = s.outcomes ++ [.raised e] := by
  simp only [State.startCall, hn, hk, Bool.false_eq_true, if_false, not_true]
  split
  · exact .inr ⟨_, rfl⟩
  · rcases startExecute_running (s := s) (caller := .connect) (cmd := by assumption) (timeout := 10) with h | ⟨h, -⟩
    · exact .inr h
    · exact .inl h

theorem untagged_free {es : List LateEvent} (h : ∀ call, .net (.call call) ∉ es) : ∀ e ∈ es, Tagged e := by
  intro e he
  cases e with
  | net e =>
    cases e with
    | call call => exact absurd he (h call)
    | _ => trivial
  | _ => trivial

/-- After a `connect` that returned True, begun when everything had been answered, everything has been answered again. -/
theorem every_connect {config : Config} (hk : config.skip = false) {g : Gateway D} (hg : g.Conforms) {d : D}
    {before es : List LateEvent} {s s' : Net D} {r : UInt8} (hn : s.modem.connected = false) (hp : ∀ e ∈ before, Tagged e)
    (h0 : (Net.start config d).runLate g before = some s)
    (hca : Ct.Caught g d s (((Net.start config d).requested g before).filterMap sendable) ∨ s.modem.reader.isDead = true)
    (hq : handingAlp s.modem.reader = false) (hnc : ∀ call, .net (.call call) ∉ es)
    (h : s.runLate g (.net (.call (.connect true r)) :: es) = some s')
    (ho : s'.modem.outcomes = s.modem.outcomes ++ [.bool true]) :
    (∀ e ∈ before ++ .net (.call (.connect true r)) :: es, Tagged e) ∧
    (Net.start config d).runLate g (before ++ .net (.call (.connect true r)) :: es) = some s' ∧
    (Net.start config d).requested g (before ++ .net (.call (.connect true r)) :: es) =
      (Net.start config d).requested g before ++ [question r] ∧
    Ct.Caught g d s' (((Net.start config d).requested g before ++ [question r]).filterMap sendable) ∧
    handingAlp s'.modem.reader = false := by
  obtain ⟨evs0, a0, -, -⟩ := late_modem h0
  have hks : s.modem.config.skip = false := by rw [run_config (init_ok config) a0]; exact hk
  have hask : s.asked (.net (.call (.connect true r))) = [question r] := by
    show (if s.modem.connected then [] else [question r]) = _
    rw [hn]; rfl
  have hreq : ∀ {fs : List LateEvent} {t : Net D}, (∀ call, .net (.call call) ∉ fs) →
      s.runLate g (.net (.call (.connect true r)) :: fs) = some t →
      (Net.start config d).requested g (before ++ .net (.call (.connect true r)) :: fs) =
        (Net.start config d).requested g before ++ [question r] := by
    intro fs t hfs ht
    obtain ⟨t1, k1, -⟩ := late_cons ht
    rw [requested_append h0]
    simp only [Net.requested, k1, Rt.requested_none hfs, List.append_nil]
    rw [hask]
  have htag : ∀ {fs : List LateEvent}, (∀ call, .net (.call call) ∉ fs) →
      ∀ e ∈ before ++ .net (.call (.connect true r)) :: fs, Tagged e := by
    intro fs hfs e he
    rcases List.mem_append.1 he with he | he
    · exact hp e he
    · rcases List.mem_cons.1 he with rfl | he
      · trivial
      · exact untagged_free hfs e he
  refine ⟨htag hnc, runLate_append h0 h, hreq hnc h, ?_⟩
  obtain ⟨s0, h1, h2⟩ := late_cons h
  have hs0 : s0.modem.outcomes = s.modem.outcomes := by
    obtain ⟨m, k1, rfl⟩ := Option.map_eq_some_iff.1 (show (s.modem.step (.call (.connect true r))).map
      (fun m => { s with modem := m }) = some s0 from h1)
    simp only [State.step] at k1
    split at k1
    swap
    · cases k1
    cases k1
    rcases connect_begins (r := r) hks hn with k2 | ⟨e, k2⟩
    · exact k2
    · obtain ⟨l, k3⟩ := Rt.late_outcomes h2
      rw [k2, ho, List.append_assoc] at k3
      have := List.append_cancel_left k3
      simp at this
  obtain ⟨during, last, after, s1, s2, rfl, c1, c2, c3, c4, c5⟩ := Rt.split_end h2 hs0 ho
  have hnd : ∀ call, .net (.call call) ∉ during := fun call hx => hnc call (by simp [hx])
  have hnl : ∀ call, .net (.call call) ∉ during ++ [last] := by
    intro call hx
    refine hnc call ?_
    rcases List.mem_append.1 hx with hx | hx
    · simp [hx]
    · simp [List.mem_singleton.1 hx]
  have h3 : s.runLate g (.net (.call (.connect true r)) :: during) = some s1 := by
    show Option.bind _ _ = _; rw [h1]; exact c1
  have hcalm := calm_start hk hg hask trivial (Mqtt.question_bytes r) hp h0 hca hq hnd
  obtain ⟨-, ⟨st, tag, f, t, a2⟩, a3, a4⟩ := connect_run hks hn h3 c2 hcalm
  rcases Lt.net_step a2 c3 with ⟨b1, -⟩ | ⟨z, l, -, b2, b3, b4⟩
  · rw [b1, c2] at c4
    simpa using congrArg List.length c4
  have hl : ∃ n, l = some n := by
    cases l with
    | some n => exact ⟨n, rfl⟩
    | none =>
      exfalso
      have e1 : s2.modem = z.finish (.bool false) := b3
      rw [e1] at c4
      simp only [State.finish] at c4
      rw [b2, c2] at c4
      simpa using List.append_cancel_left c4
  obtain ⟨n, rfl⟩ := hl
  have hz : ({ s2 with modem := z.finish (.list n) } : Net D).modem.outcomes = s.modem.outcomes ++ [.list n] := by
    show z.outcomes ++ [.list n] = _
    rw [b2, c2]
  have hrun : s.runLate g (.net (.call (.execute (question r) 10)) :: (during ++ [last])) =
      some { s2 with modem := z.finish (.list n) } :=
    runLate_append (es := .net (.call (.execute (question r) 10)) :: during) a3 (by
      show Option.bind _ _ = _; rw [b4]; rfl)
  have hca' := hca.resolve_right (fun hdead => by
    have := Rt.dead_call hk hg hp h0 hdead (by rw [Mqtt.question_bytes r]; simp) hnl hrun hz
    cases this)
  obtain ⟨d0, d1, -, d3⟩ := (Ct.caught_call (qb := []) hk hg (question_taggable r) (Mqtt.question_bytes r) (timeout := 10)
    (by decide) (fun e he => by
      rcases List.mem_append.1 he with he | he
      · exact hp e he
      · exact untagged_free hnd e he) h0 (by simp) hca' (by simp) a3 c2 b4 hz a4).resolve_left (by simp)
  have hquiet := ((every_call hk hg (question_taggable r) (Mqtt.question_bytes r) hp h0 hca' hq
    ⟨during ++ [last], .list n, hnl, hrun, hz, rfl⟩).2).resolve_left (by
      intro he
      obtain ⟨l, y, e6, -⟩ := d1.final
      simp only [Except.ok.injEq] at he
      obtain rfl : n = s.modem.responses.length := by simpa using d0
      rw [he] at e6
      simp at e6)
  have hsame := finishConnect_same z (Option.bind (some n) fun n => z.responses[n]?)
  rw [← b3] at hsame
  have hca2 : Ct.Caught g d s2 (((Net.start config d).requested g
      (before ++ .net (.call (.connect true r)) :: (during ++ [last]))).filterMap sendable) := by
    have hr2 : s.runLate g (.net (.call (.connect true r)) :: (during ++ [last])) = some s2 :=
      runLate_append (es := .net (.call (.connect true r)) :: during) h3 (by show Option.bind _ _ = _; rw [c3]; rfl)
    obtain ⟨rs, past, k1, k2, k3⟩ := d3
    rw [hreq hnl hr2, List.filterMap_append]
    refine ⟨rs, past, by simpa [Mqtt.question_bytes r] using k1, ?_, k3⟩
    rw [hsame.1, hsame.2]
    exact k2
  have hr2 : s.runLate g (.net (.call (.connect true r)) :: (during ++ [last])) = some s2 :=
    runLate_append (es := .net (.call (.connect true r)) :: during) h3 (by show Option.bind _ _ = _; rw [c3]; rfl)
  have hb2 := runLate_append h0 hr2
  have hna : ∀ call, .net (.call call) ∉ after := fun call hx => hnc call (by simp [hx])
  obtain ⟨done, todo, fs, pr, rs, st⟩ := stream_reach hk hg (htag hnl) hb2
  refine ⟨?_, quiet_run hk hg (htag hnl) hb2 hca2 hna (by rw [hsame.1]; exact hquiet) c5⟩
  rw [← hreq hnl hr2]
  exact Ct.caught_run st.ok hca2 c5

end Verif.Modem.Ev
