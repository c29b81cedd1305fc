import Verif.Lemmas.EveryRuns
import Verif.Lemmas.FileProgram
import Verif.Lemmas.Programs
import Verif.Spec.ConfigLate

/-! Helper lemmas: the configuration programs when answers can be late. -/

namespace Verif.Modem.Cl

open Verif Verif.Serial Verif.Modem.Lt Verif.Examples

variable {D : Type}

/-- What a call returns, in any interleaving, when the answers to the first commands have been handed over: answers to the
other ones. -/
theorem caught_origin {config : Config} (hk : config.skip = false) {g : Gateway D} (hg : g.Conforms) {d : D}
    {before : List LateEvent} {s s' : Net D} {c : Command} {tag : Int} {as : List Command} {qa qb : List Command}
    (hc : Taggable c tag) (hp : ∀ e ∈ before, Tagged e)
    (h0 : (Net.start config d).runLate g before = some s)
    (hq : (Net.start config d).requested g before = qa ++ qb) (hca : Ct.Caught g d s (qa.filterMap sendable))
    (h : Net.Called g c s (.ok as) s') {x : Command} (hx : x ∈ as) :
    ∃ a p b rs, a ++ p :: b <+: (qb ++ [c]).filterMap sendable ∧
      Meaning (g.handle (g.replies d (qa.filterMap sendable ++ a)).1 p).2 rs ∧ x ∈ rs ∧
      s'.data = (g.replies d (qa.filterMap sendable ++ (a ++ p :: b))).1 := by
  obtain ⟨es, o, h1, h2, h4, h5⟩ := h
  cases o with
  | raised e => cases h5
  | list n =>
    simp only [Except.ok.injEq] at h5
    subst h5
    have hfull := runLate_append h0 h2
    have hreq := requested_append (fs := .net (.call (.execute c 10)) :: es) h0
    rw [Rt.requested_call h1 h2, hq] at hreq
    have hp' : ∀ e ∈ before ++ .net (.call (.execute c 10)) :: es, Tagged e := by
      intro e he
      rcases List.mem_append.1 he with he | he
      · exact hp e he
      · exact Rt.tagged_call hc h1 e he
    obtain ⟨done0, todo0, fs0, pr0, rs0, st0⟩ := stream_reach hk hg hp h0
    obtain ⟨done, todo, fs, pr, rs, st⟩ := stream_reach hk hg hp' hfull
    rw [hreq] at st
    -- the list is a new one
    have hn : n = s.modem.responses.length := by
      rcases Rt.call_end st0.write h1 h2 h4 with ⟨-, ⟨e, he⟩, -⟩ | ⟨-, -, during, last, after, s1, s2, rfl, c1, c2, c3, c4, c5⟩
      · cases he
      · obtain ⟨evs0, b0, -, -⟩ := late_modem h0
        obtain ⟨t, k1, k2⟩ := late_cons c1
        obtain ⟨m, k3, rfl⟩ := Option.map_eq_some_iff.1 (show (s.modem.step (.call (.execute c 10))).map
          (fun m => { s with modem := m }) = some t from k1)
        obtain ⟨evs1, k4, -, -⟩ := late_modem k2
        have hrun : s.modem.run (.call (.execute c 10) :: evs1) = some s1.modem := by
          unfold State.run; rw [k3]; exact k4
        rcases late_step c3 with ⟨ev, d1, -⟩ | ⟨d1, -⟩
        · exact (C46_tags_partial b0 hrun c2 d1 c4).1
        · rw [d1, c2] at c4
          simpa using congrArg List.length c4
    obtain ⟨evs, e1, -, -⟩ := late_modem h2
    obtain ⟨-, log, hl, -⟩ := run_handedOver st0.ok e1
    obtain ⟨rq, past, f1, f2, f3⟩ := hca
    obtain ⟨new, f4, f5⟩ := hl.messages
    have hlog : ∃ y ∈ log, y.2.2 = .command x ∧ y.2.1 ≤ 3 := by
      have hm : Msg.command x ∈ toSink log (.response n) := by
        have := hl.responses n
        rw [hn, content_length, List.map_nil, List.nil_append] at this
        rw [hn, ← this]
        rw [hn] at hx
        exact List.mem_map.2 ⟨x, hx, rfl⟩
      obtain ⟨y, hy, hy'⟩ := List.mem_map.1 hm
      obtain ⟨hy1, hy2⟩ := List.mem_filter.1 hy
      refine ⟨y, hy1, hy', ?_⟩
      have := hl.right y hy1
      rw [of_decide_eq_true hy2] at this
      exact this.1
    obtain ⟨⟨k, t, m⟩, hy1, rfl, hy3⟩ := hlog
    have hrec : s'.modem.received = past ++ (log.map Prod.snd ++ pending s'.modem.reader) := by
      rw [f4, f2, List.append_assoc, f5]
    have hxl : x ∈ alpMessages (log.map Prod.snd ++ pending s'.modem.reader) := by
      rw [alp_append]
      refine List.mem_append.2 (.inl (List.mem_filterMap.2 ⟨(t, .command x), List.mem_map.2 ⟨_, hy1, rfl⟩, ?_⟩))
      simp only [if_pos hy3]
    have hord := st.order
    rw [hrec, List.append_assoc, alp_append, alp_append, List.append_assoc, List.append_assoc] at hord
    obtain ⟨u, hu⟩ := f3
    rw [← hu, List.append_assoc] at hord
    have hdone : done <+: qa.filterMap sendable ++ (qb ++ [c]).filterMap sendable := by
      rw [← List.filterMap_append, ← List.append_assoc]
      exact (List.prefix_append _ _).trans (split_prefix st)
    obtain ⟨tail, r2, t1, t2, t3, t4⟩ := Ct.rest_of hdone st.meaning f1 ⟨_, hord⟩
    have hx2 : x ∈ r2 := by
      rw [t2] at hord
      rw [← List.append_cancel_left hord]
      simp [hxl]
    obtain ⟨a, p, b, r, g1, g2, g3⟩ := origin t3 hx2
    subst g1
    refine ⟨a, p, b, r, t1, ?_, g3, ?_⟩
    · rw [Gwa.replies_append]; exact g2
    · rcases t4 with t4 | t4
      · simp at t4
      · rw [st.data, t4]
  | _ => simp only [Except.ok.injEq] at h5; subst h5; cases hx

/-! ### The same command again and again -/

section
variable {g : Gateway D} {files : D → UInt8 → Nat → UInt8} {rand : UInt8} {ops : List FileOp}

theorem files_step (hg : g.Conforms) (hkeep : g.Keeps files) (hv : ∀ op ∈ ops, op.Valid)
    (hl : (requestBytes rand ops).length ≤ 255) (x : D) :
    files (g.handle x (requestBytes rand ops)).1 = files x ∨
      files (g.handle x (requestBytes rand ops)).1 = memory.after (files x) ops := by
  obtain ⟨rs, h⟩ := hg x (request rand ops) _ rand.toNat rfl rfl rfl (Upl.request_sendable hv hl)
  rcases hkeep x rand ops rs hv h with ⟨-, h⟩ | ⟨-, h⟩
  · exact .inr h
  · exact .inl h

theorem replies_again (y : D) (k : Nat) (bs : List UInt8) :
    (g.replies y (List.replicate (k + 1) bs)).1 = (g.handle (g.replies y (List.replicate k bs)).1 bs).1 := by
  rw [List.replicate_succ', Gwa.replies_snoc]

theorem files_again (hg : g.Conforms) (hkeep : g.Keeps files) (hv : ∀ op ∈ ops, op.Valid)
    (hl : (requestBytes rand ops).length ≤ 255)
    (hidem : ∀ m, memory.after (memory.after m ops) ops = memory.after m ops) (y : D) : ∀ k,
    files (g.replies y (List.replicate k (requestBytes rand ops))).1 = files y ∨
      files (g.replies y (List.replicate k (requestBytes rand ops))).1 = memory.after (files y) ops := by
  intro k
  induction k with
  | zero => exact .inl rfl
  | succ k ih =>
    rw [replies_again]
    rcases files_step hg hkeep hv hl (g.replies y (List.replicate k (requestBytes rand ops))).1 with h | h
    · rw [h]; exact ih
    · rw [h]
      rcases ih with ih | ih
      · rw [ih]; exact .inr rfl
      · rw [ih, hidem]; exact .inr rfl

/-- Once it has been confirmed. -/
theorem files_confirmed (hg : g.Conforms) (hkeep : g.Keeps files) (hv : ∀ op ∈ ops, op.Valid)
    (hl : (requestBytes rand ops).length ≤ 255)
    (hidem : ∀ m, memory.after (memory.after m ops) ops = memory.after m ops) (y : D) {j : Nat} {rs : List Command}
    {x : Command} (hr : Meaning (g.handle (g.replies y (List.replicate j (requestBytes rand ops))).1 (requestBytes rand ops)).2 rs)
    (hx : x ∈ rs) (hc : Clean x) : ∀ i,
    files (g.replies y (List.replicate (j + 1 + i) (requestBytes rand ops))).1 = memory.after (files y) ops := by
  intro i
  induction i with
  | zero =>
    rw [Nat.add_zero, replies_again]
    obtain ⟨rs', h⟩ := hg (g.replies y (List.replicate j (requestBytes rand ops))).1 (request rand ops) _ rand.toNat rfl rfl rfl
      (Upl.request_sendable hv hl)
    rw [meaning_unique hr h.meaning] at hx
    rcases hkeep _ rand ops rs' hv h with ⟨-, h'⟩ | ⟨h', -⟩
    · rw [h']
      rcases files_again hg hkeep hv hl hidem y j with e | e
      · rw [e]
      · rw [e, hidem]
    · exact absurd hc (h' x hx)
  | succ i ih =>
    rw [← Nat.add_assoc, replies_again]
    rcases files_step hg hkeep hv hl (g.replies y (List.replicate (j + 1 + i) (requestBytes rand ops))).1 with h | h
    · rw [h]; exact ih
    · rw [h, ih, hidem]

end

/-! ### Programs -/

/-- `connect` as a run. -/
theorem connect_run {config : Config} {g : Gateway D} {d : D} {boot : List LateEvent} {s0 s : Net D} {r : UInt8} {e : Option PyErr}
    (hboot : ∀ call, .net (.call call) ∉ boot) (h0 : (Net.start config d).runLate g boot = some s0)
    (h : Net.ConnectEnds g r s0 e s) :
    ∃ before, (∀ e ∈ before, Tagged e) ∧ (Net.start config d).runLate g before = some s ∧
      (Net.start config d).requested g before = [question r] := by
  obtain ⟨es, o, h1, h2, -⟩ := h
  have hn : s0.modem.connected = false := (Ev.boot_run (s := Net.start config d) rfl hboot h0).connected
  refine ⟨boot ++ .net (.call (.connect true r)) :: es, ?_, runLate_append h0 h2, ?_⟩
  · intro e he
    rcases List.mem_append.1 he with he | he
    · exact Ev.untagged_free hboot e he
    · rcases List.mem_cons.1 he with rfl | he
      · trivial
      · exact Ev.untagged_free h1 e he
  · obtain ⟨t1, k1, -⟩ := late_cons h2
    rw [requested_append h0, Rt.requested_none hboot, List.nil_append]
    simp only [Net.requested, k1, Rt.requested_none h1, List.append_nil]
    show (if s0.modem.connected then [] else [question r]) = _
    rw [hn]; rfl

/-- Whatever happens, the device has done nothing or what it was asked. -/
theorem safe {config : Config} (hk : config.skip = false) {g : Gateway D} (hg : g.Conforms)
    {files : D → UInt8 → Nat → UInt8} (hkeep : g.Keeps files) {d : D} {before : List LateEvent} {s : Net D} {r rand : UInt8}
    {ops : List FileOp} {k : Nat} (hv : ∀ op ∈ ops, op.Valid) (hl : (requestBytes rand ops).length ≤ 255)
    (hidem : ∀ m, memory.after (memory.after m ops) ops = memory.after m ops)
    (hp : ∀ e ∈ before, Tagged e) (h0 : (Net.start config d).runLate g before = some s)
    (hq : (Net.start config d).requested g before = question r :: List.replicate k (request rand ops)) :
    files s.data = files d ∨ 0 < k ∧ files s.data = memory.after (files d) ops := by
  obtain ⟨done, todo, fs, pr, rs, st⟩ := stream_reach hk hg hp h0
  have hd := (List.prefix_append done todo).trans (split_prefix st)
  rw [hq, List.filterMap_cons, Mqtt.question_bytes r, List.filterMap_replicate,
    Upl.request_sendable hv hl] at hd
  simp only at hd
  rw [st.data]
  cases done with
  | nil => exact .inl rfl
  | cons p done =>
    obtain ⟨rfl, hd'⟩ := List.cons_prefix_cons.1 hd
    obtain ⟨hd1, hd2⟩ := List.prefix_replicate_iff.1 hd'
    rw [hd2]
    show files (g.replies (g.handle d (connectBytes r)).1 (List.replicate done.length (requestBytes rand ops))).1 = _ ∨ _ ∧
      files (g.replies (g.handle d (connectBytes r)).1 (List.replicate done.length (requestBytes rand ops))).1 = _
    cases hk' : done.length with
    | zero => exact .inl (Fp.files_connect hg hkeep d r)
    | succ m =>
      rcases files_again hg hkeep hv hl hidem (g.handle d (connectBytes r)).1 (m + 1) with e | e
      · rw [e]; exact .inl (Fp.files_connect hg hkeep d r)
      · rw [e, Fp.files_connect hg hkeep d r]
        exact .inr ⟨by omega, rfl⟩

/-- Without a call nothing has reached the device. -/
theorem boot_data {config : Config} (hk : config.skip = false) {g : Gateway D} (hg : g.Conforms) {d : D}
    {boot : List LateEvent} {s0 : Net D} (hboot : ∀ call, .net (.call call) ∉ boot)
    (h0 : (Net.start config d).runLate g boot = some s0) : s0.data = d := by
  obtain ⟨done, todo, fs, pr, rs, st⟩ := stream_reach hk hg (Ev.untagged_free hboot) h0
  have hd := (List.prefix_append done todo).trans (split_prefix st)
  rw [Rt.requested_none hboot] at hd
  rw [st.data, List.prefix_nil.1 hd]
  rfl

theorem connected_ends {g : Gateway D} {r : UInt8} {s s' : Net D} (h : Net.Connected g r s s') :
    Net.ConnectEnds g r s none s' := by
  obtain ⟨es, h1, h2, h3⟩ := h
  exact ⟨es, _, h1, h2, h3, rfl⟩

theorem called_run {g : Gateway D} {c : Command} {tag : Int} (hc : Taggable c tag) {s s' : Net D} {r}
    (h : Net.Called g c s r s') :
    ∃ es, s.runLate g es = some s' ∧ (∀ e ∈ es, Tagged e) ∧ s.requested g es = [c] := by
  obtain ⟨es, o, h1, h2, -⟩ := h
  exact ⟨_, h2, Rt.tagged_call hc h1, Rt.requested_call h1 h2⟩

/-- A program that makes one call. -/
theorem once_safe {config : Config} (hk : config.skip = false) {g : Gateway D} (hg : g.Conforms)
    {files : D → UInt8 → Nat → UInt8} (hkeep : g.Keeps files) {d : D} {boot : List LateEvent} {s0 s' : Net D} {tag rand : UInt8}
    (hboot : ∀ call, .net (.call call) ∉ boot) (h0 : (Net.start config d).runLate g boot = some s0)
    {command : Except PyErr Command} {r : Except PyErr (List Command)} {ops : List FileOp}
    (hcmd : ∀ c, command = .ok c → c = request rand ops ∧ (∀ op ∈ ops, op.Valid) ∧ (requestBytes rand ops).length ≤ 255 ∧
      ∀ m, memory.after (memory.after m ops) ops = memory.after m ops)
    (h : Once (Net.ConnectEnds g tag) (Net.Executes g) command s0 r s') :
    files s'.data = files d ∨ (∃ c, command = .ok c) ∧ files s'.data = memory.after (files d) ops := by
  have none_ : ∀ {e s}, Net.ConnectEnds g tag s0 e s → files s.data = files d := by
    intro e s h
    obtain ⟨before, a1, a2, a3⟩ := connect_run hboot h0 h
    rcases safe hk hg hkeep (rand := 0) (ops := []) (k := 0) (by simp) (by simp [requestBytes]) (fun _ => rfl) a1 a2 (by simpa using a3)
      with h | ⟨h, -⟩
    · exact h
    · omega
  cases h with
  | unconnected _ _ h1 => exact .inl (none_ h1)
  | unmade _ _ h1 _ => exact .inl (none_ h1)
  | executed s1 _ c _ h1 h2 h3 =>
    obtain ⟨rfl, hv, hl, hi⟩ := hcmd c h2
    obtain ⟨before, a1, a2, a3⟩ := connect_run hboot h0 h1
    obtain ⟨es, b1, b2, b3⟩ := called_run (Upl.request_taggable rand ops) h3
    rcases safe hk hg hkeep (k := 1) hv hl hi (before := before ++ es) (by
      intro e he
      rcases List.mem_append.1 he with he | he
      · exact a1 e he
      · exact b2 e he) (runLate_append a2 b1) (by rw [requested_append a2, a3, b3]; rfl) with h | ⟨-, h⟩
    · exact .inl h
    · exact .inr ⟨⟨_, h2⟩, h⟩

/-- The loop as a run. -/
theorem repeat_runs {g : Gateway D} {c : Command} {tag : Int} (hc : Taggable c tag) {s s' : Net D} {k : Nat} {r : Option PyErr}
    (h : Examples.Repeat (fun s r s' => Net.Executes g s c r s') s k r s') :
    ∃ es, s.runLate g es = some s' ∧ (∀ e ∈ es, Tagged e) ∧ s.requested g es = List.replicate k c := by
  induction h with
  | raised s s' e h => exact called_run hc h
  | done s s' as h h' => exact called_run hc h
  | broken s s' as e h h' => exact called_run hc h
  | again s s1 s' as n r h _ _ ih =>
    obtain ⟨fs, b1, b2, b3⟩ := ih
    obtain ⟨es, c1, c2, c3⟩ := called_run hc h
    refine ⟨es ++ fs, runLate_append c1 b1, ?_, by rw [requested_append c1, c3, b3]; rfl⟩
    intro e he
    rcases List.mem_append.1 he with he | he
    · exact c2 e he
    · exact b2 e he

/-- The last call of the loop. -/
theorem repeat_last {g : Gateway D} {c : Command} {tag : Int} (hc : Taggable c tag) {s s' : Net D} {k : Nat}
    (h : Examples.Repeat (fun s r s' => Net.Executes g s c r s') s k none s') :
    ∃ es s1 as x, s.runLate g es = some s1 ∧ (∀ e ∈ es, Tagged e) ∧ s.requested g es ++ [c] = List.replicate k c ∧
      Net.Called g c s1 (.ok as) s' ∧ x ∈ as ∧ Clean x := by
  generalize hr : (none : Option PyErr) = r at h
  induction h with
  | raised s s' e h => cases hr
  | done s s' as h h' =>
    obtain ⟨x, hx, hx'⟩ := ((Rt.confirm_ok.1 h').2.1 rfl).resolve_left (by simp)
    exact ⟨[], s, as, x, rfl, by simp, rfl, h, hx, hx'⟩
  | broken s s' as e h h' => cases hr
  | again s s1 s' as n r h _ _ ih =>
    obtain ⟨fs, s2, as2, x, b1, b2, b3, b4, b5, b6⟩ := ih hr
    obtain ⟨es, c1, c2, c3⟩ := called_run hc h
    refine ⟨es ++ fs, s2, as2, x, runLate_append c1 b1, ?_, ?_, b4, b5, b6⟩
    · intro e he
      rcases List.mem_append.1 he with he | he
      · exact c2 e he
      · exact b2 e he
    · rw [requested_append c1, c3, List.append_assoc, b3]
      rfl

/-- The loop that executes a command until it is confirmed, after a `connect` that returned True. -/
theorem repeat_confirmed {config : Config} (hk : config.skip = false) {g : Gateway D} (hg : g.Conforms)
    {files : D → UInt8 → Nat → UInt8} (hkeep : g.Keeps files) {d : D} {boot : List LateEvent} {s0 s s' : Net D} {tag rand : UInt8}
    (hboot : ∀ call, .net (.call call) ∉ boot) (h0 : (Net.start config d).runLate g boot = some s0)
    (hconn : Net.Connected g tag s0 s) {ops : List FileOp} (hv : ∀ op ∈ ops, op.Valid)
    (hl : (requestBytes rand ops).length ≤ 255)
    (hidem : ∀ m, memory.after (memory.after m ops) ops = memory.after m ops) {k : Nat}
    (h : Examples.Repeat (fun s r s' => Net.Executes g s (request rand ops) r s') s k none s') :
    files s'.data = memory.after (files d) ops := by
  obtain ⟨before, a1, a2, a3, -, a5⟩ := Ev.connected_ready hk hg hboot h0 hconn
  obtain ⟨es, s1, as, x, b1, b2, b3, b4, b5, b6⟩ := repeat_last (Upl.request_taggable rand ops) h
  obtain ⟨_, _, _, _, _, st⟩ := stream_reach hk hg a1 a2
  have hca := Ct.caught_run st.ok a5 b1
  rw [a3] at hca
  obtain ⟨a, p, b, rs, c1, c2, c3, c4⟩ := caught_origin hk hg (Upl.request_taggable rand ops) (before := before ++ es) (by
    intro e he
    rcases List.mem_append.1 he with he | he
    · exact a1 e he
    · exact b2 e he) (runLate_append a2 b1) (qa := [question tag]) (qb := s.requested g es)
    (by rw [requested_append a2, a3]) hca b4 b5
  rw [b3, List.filterMap_replicate, Upl.request_sendable hv hl] at c1
  obtain ⟨-, e1⟩ := List.prefix_replicate_iff.1 c1
  have e2 := List.eq_replicate_iff.1 e1
  have ha : a = List.replicate a.length (requestBytes rand ops) :=
    List.eq_replicate_iff.2 ⟨rfl, fun y hy => e2.2 y (by simp [hy])⟩
  obtain rfl : p = requestBytes rand ops := e2.2 p (by simp)
  have hab : a ++ requestBytes rand ops :: b = List.replicate (a.length + 1 + b.length) (requestBytes rand ops) := by
    rw [e1]; congr 1; simp; omega
  have hq : [question tag].filterMap sendable = [connectBytes tag] := by simp [Mqtt.question_bytes tag, connectBytes]
  rw [hq, Gwa.replies_append] at c2
  rw [hq, hab, Gwa.replies_append] at c4
  rw [ha] at c2
  rw [c4]
  rw [files_confirmed hg hkeep hv hl hidem _ c2 c3 b6,
    show files (g.replies d [connectBytes tag]).1 = files d from Fp.files_connect hg hkeep d tag]

/-! ### The commands -/

theorem write_again (m : UInt8 → Nat → UInt8) (file : UInt8) (bs : List UInt8) :
    memory.after (memory.after m [.write file 0 bs]) [.write file 0 bs] = memory.after m [.write file 0 bs] := by
  funext f o
  simp only [Device.after, Device.exec, memory, List.foldl_cons, List.foldl_nil]
  by_cases h : f = file ∧ 0 ≤ o ∧ o < 0 + bs.length
  · rw [if_pos h, if_pos h]
  · rw [if_neg h, if_neg h]

theorem writes_again (m : UInt8 → Nat → UInt8) (fb eb : List UInt8) :
    memory.after (memory.after m [.write 1 0 fb, .write 5 0 eb]) [.write 1 0 fb, .write 5 0 eb] =
      memory.after m [.write 1 0 fb, .write 5 0 eb] := by
  funext f o
  simp only [Device.after, Device.exec, memory, List.foldl_cons, List.foldl_nil]
  by_cases h : f = 5 ∧ 0 ≤ o ∧ o < 0 + eb.length
  · rw [if_pos h, if_pos h]
  · rw [if_neg h, if_neg h]
    by_cases h1 : f = 1 ∧ 0 ≤ o ∧ o < 0 + fb.length
    · rw [if_pos h1, if_pos h1]
    · rw [if_neg h1, if_neg h1]

end Verif.Modem.Cl
