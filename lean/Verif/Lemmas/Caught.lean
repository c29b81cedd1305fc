import Verif.Lemmas.Retry

/-! Helper lemmas: calls whose tag has been used before, when the earlier answers have all been handed over. -/

namespace Verif.Modem.Ct

open Verif Verif.Serial Verif.Modem.Lt

variable {D : Type}

/-- The answers to these payloads have all been handed over. -/
def Caught (g : Gateway D) (d : D) (s : Net D) (ps : List (List UInt8)) : Prop :=
  ∃ rs past, Meaning (g.replies d ps).2 rs ∧ s.modem.received = past ++ pending s.modem.reader ∧ rs <+: alpMessages past

theorem caught_nil {config : Config} {g : Gateway D} {d : D} {es : List LateEvent} {s : Net D}
    (h : (Net.start config d).runLate g es = some s) : Caught g d s [] := by
  obtain ⟨evs, h1, -, -⟩ := late_modem h
  obtain ⟨past, h2⟩ := pending_suffix h1
  exact ⟨[], past, .nil, h2.symm, List.nil_prefix⟩

theorem caught_run {g : Gateway D} {d : D} {s s' : Net D} {ps : List (List UInt8)} {es : List LateEvent}
    (hok : ReaderOk s.modem) (h : Caught g d s ps) (hr : s.runLate g es = some s') : Caught g d s' ps := by
  obtain ⟨rs, past, h1, h2, h3⟩ := h
  obtain ⟨evs, h4, -, -⟩ := late_modem hr
  obtain ⟨-, log, ⟨⟨new, h5, h6⟩, -⟩, -⟩ := run_handedOver hok h4
  refine ⟨rs, past ++ log.map Prod.snd, h1, ?_, ?_⟩
  · rw [h5, h2, List.append_assoc, List.append_assoc, h6]
  · rw [alp_append]; exact h3.trans (List.prefix_append _ _)

/-- What comes after the answers to the first payloads. -/
theorem rest_of {g : Gateway D} {d : D} {done first rest : List (List UInt8)} {rs r1 : List Command}
    (hd : done <+: first ++ rest) (h : Meaning (g.replies d done).2 rs) (h1 : Meaning (g.replies d first).2 r1)
    (hp : r1 <+: rs) :
    ∃ tail r2, tail <+: rest ∧ rs = r1 ++ r2 ∧ Meaning (g.replies (g.replies d first).1 tail).2 r2 ∧
      (tail = [] ∨ done = first ++ tail) := by
  obtain ⟨v, hv⟩ := hd
  rcases List.append_eq_append_iff.1 hv with ⟨u, hu, -⟩ | ⟨tail, rfl, ht⟩
  · rw [hu, Gwa.replies_append] at h1
    obtain ⟨a, b, rfl, h2, -⟩ := meaning_split h1
    rw [meaning_unique h2 h] at hp
    have : b = [] := by
      have := hp.length_le
      rw [List.length_append] at this
      exact List.length_eq_zero_iff.1 (by omega)
    subst this
    refine ⟨[], [], List.nil_prefix, ?_, .nil, .inl rfl⟩
    rw [meaning_unique h2 h]; simp
  · rw [Gwa.replies_append] at h
    obtain ⟨a, b, rfl, h2, h3⟩ := meaning_split h
    rw [meaning_unique h2 h1]
    exact ⟨tail, b, ⟨v, ht.symm⟩, rfl, h3, .inr rfl⟩

theorem no_tag {tag : Int} {l : List Command} (h : ∀ x ∈ l, x.tagId ≠ some tag) :
    l.filter (fun c => decide (c.tagId = some tag)) = [] := by
  rw [List.filter_eq_nil_iff]
  intro x hx
  simpa using h x hx

/-- A call when every earlier command with its tag has been answered and the answers have been handed over. -/
theorem caught_call {config : Config} (hk : config.skip = false) {g : Gateway D} (hg : g.Conforms) {d : D}
    {before during : List LateEvent} {last : LateEvent} {s s1 s' : Net D} {c : Command} {tag timeout : Int}
    {bs : List UInt8} {o : Outcome} {qa qb : List Command} (hc : Taggable c tag) (hb : sendable c = some bs)
    (ht : timeout > 0)
    (hp : ∀ e ∈ before ++ during, Tagged e) (h0 : (Net.start config d).runLate g before = some s)
    (hq : (Net.start config d).requested g before = qa ++ qb) (hca : Caught g d s (qa.filterMap sendable))
    (hf : ∀ q ∈ qb, q.tagId ≠ some tag)
    (h1 : s.runLate g (.net (.call (.execute c timeout)) :: during) = some s1)
    (ho1 : s1.modem.outcomes = s.modem.outcomes) (h2 : s1.stepLate g last = some s')
    (ho : s'.modem.outcomes = s.modem.outcomes ++ [o])
    (hcalm : s.Calm g (.net (.call (.execute c timeout)) :: during)) :
    o = .empty ∨
    (o = .list s.modem.responses.length ∧
      g.Reply d ((qa ++ qb).filterMap sendable) tag bs (content s'.modem.responses s.modem.responses.length) ∧
      s'.data = (g.replies d ((qa ++ qb).filterMap sendable ++ [bs])).1 ∧
      Caught g d s' ((qa ++ qb).filterMap sendable ++ [bs])) := by
  obtain ⟨evs0, a1, -, -⟩ := late_modem h0
  rw [show (Net.start config d).modem = init config from rfl] at a1
  obtain ⟨s2, b1, b2⟩ := late_cons h1
  obtain ⟨evs1, b3, b4, b5⟩ := late_modem b2
  obtain ⟨m2, b6, rfl⟩ := Option.map_eq_some_iff.1 (show (s.modem.step (.call (.execute c timeout))).map
    (fun m => { s with modem := m }) = some s2 from b1)
  have hrun : s.modem.run (.call (.execute c timeout) :: evs1) = some s1.modem := by
    unfold State.run; rw [b6]; exact b3
  have hq0 : m2.outcomes = s.modem.outcomes :=
    run_outcomes_left (es := [.call (.execute c timeout)]) (by simp [State.run, b6]) b3 ho1
  have hidle : m2.main ≠ .idle := by
    have hst : s.modem.step (.call (.execute c timeout)) = some (s.modem.startExecute .app c timeout) := by
      simp only [State.step] at b6 ⊢
      split at b6
      · rename_i hm; rw [if_pos hm]; rfl
      · cases b6
    rw [b6] at hst
    cases hst
    rcases startExecute_running (s := s.modem) (caller := .app) (cmd := c) (timeout := timeout) with ⟨e, he⟩ | ⟨-, f, hr⟩
    · rw [he] at hq0
      simpa using congrArg List.length hq0
    · obtain ⟨stage, hr, -⟩ := hr
      rw [hr]; simp
  have hreq1 : Net.requested g { s with modem := m2 } during = [] := by
    rw [← b4]; exact run_calling hidle b3 (by rw [ho1, hq0])
  have hreq : s.requested g (.net (.call (.execute c timeout)) :: during) = [c] := by
    simp only [Net.requested, b1, hreq1, List.append_nil]
    rfl
  have hcalm' : Modem.Calm s.modem (.call (.execute c timeout) :: evs1) := by
    refine ⟨fun hr => ⟨(hcalm.1 hr).1, by simp⟩, ?_⟩
    intro m hm
    rw [b6] at hm
    cases hm
    exact b5 (hcalm.2 _ b1)
  have hfull := runLate_append h0 h1
  have hreqs := requested_append (fs := .net (.call (.execute c timeout)) :: during) h0
  rw [hreq] at hreqs
  have hp0 : ∀ e ∈ before, Tagged e := fun e he => hp e (by simp [he])
  have hp1 : ∀ e ∈ before ++ .net (.call (.execute c timeout)) :: during, Tagged e := by
    intro e he
    simp only [List.mem_append, List.mem_cons] at he
    rcases he with he | rfl | he
    · exact hp e (by simp [he])
    · exact ⟨tag, hc⟩
    · exact hp e (by simp [he])
  obtain ⟨done0, todo0, fs0, pr0, rs0, st0⟩ := stream_reach hk hg hp0 h0
  obtain ⟨done, todo, fs, pr, rs, st⟩ := stream_reach hk hg hp1 hfull
  rw [hreqs, hq] at st
  rw [hq] at st0
  rcases late_step h2 with ⟨ev, c1, -, -, -, -, c2, -, -⟩ | ⟨c1, -⟩
  swap
  · rw [c1, ho1] at ho
    simpa using congrArg List.length ho
  obtain ⟨new, handed, d1, d2, ⟨rfl, d3, x, hx, hxc⟩ | ⟨rfl, -⟩⟩ := C46_result_partial hk ht a1 hrun ho1 c1 ho hcalm'
  swap
  · exact .inl rfl
  refine .inr ⟨rfl, ?_⟩
  obtain ⟨ra, past, e1, e2, e3⟩ := hca
  obtain ⟨u, hu⟩ := e3
  have hrec : s1.modem.received = past ++ handed ++ pending s1.modem.reader := by
    rw [d1, e2, List.append_assoc, ← d2, List.append_assoc]
  -- before the call
  have hd0 : done0 <+: qa.filterMap sendable ++ qb.filterMap sendable := by
    have := (List.prefix_append done0 todo0).trans (split_prefix st0)
    rwa [List.filterMap_append] at this
  have ho0 := st0.order
  rw [alp_append, e2, alp_append, ← hu] at ho0
  obtain ⟨tail0, r0, f1, f2, f3, -⟩ := rest_of hd0 st0.meaning e1 (by
    rw [← ho0]; simp only [List.append_assoc]; exact List.prefix_append _ _)
  have hfine : ∀ q ∈ qa ++ qb, ∃ tag, Taggable q tag := st0.fine
  have hfineb : ∀ q ∈ qb, ∃ tag, Taggable q tag := fun q hq => hfine q (by simp [hq])
  have hold0 := foreign hg hfineb hf (fun p hp => f1.subset hp) f3
  have hr0 : r0 = u ++ alpMessages (pending s.modem.reader) ++ alpMessages (fs0.map Sent.delivered) ++ pr0 := by
    have := f2.symm.trans ho0.symm
    simpa only [List.append_assoc, List.append_cancel_left_eq] using this
  have hu' : ∀ y ∈ u, y.tagId ≠ some tag := fun y hy => hold0 y (by rw [hr0]; simp [hy])
  -- at the end of the call
  have hps : ((qa ++ qb) ++ [c]).filterMap sendable = qa.filterMap sendable ++ (qb.filterMap sendable ++ [bs]) := by
    simp [List.filterMap_append, hb]
  have hd : done <+: qa.filterMap sendable ++ (qb.filterMap sendable ++ [bs]) := by
    have := (List.prefix_append done todo).trans (split_prefix st)
    rwa [hps] at this
  have ho2 := st.order
  rw [alp_append, hrec, alp_append, alp_append, ← hu] at ho2
  obtain ⟨tail, r, g1, g2, g3, g4⟩ := rest_of hd st.meaning e1 (by
    rw [← ho2]; simp only [List.append_assoc]; exact List.prefix_append _ _)
  have hr : r = u ++ alpMessages handed ++ (alpMessages (pending s1.modem.reader) ++
      alpMessages (fs.map Sent.delivered) ++ pr) := by
    have := g2.symm.trans ho2.symm
    simpa only [List.append_assoc, List.append_cancel_left_eq] using this
  have hfilter : r.filter (fun c => decide (c.tagId = some tag)) = handed.filterMap (response c.tagId) ++
      (alpMessages (pending s1.modem.reader) ++ alpMessages (fs.map Sent.delivered) ++ pr).filter
        (fun c => decide (c.tagId = some tag)) := by
    rw [hr, List.filter_append, List.filter_append, no_tag hu', List.nil_append, hc.2.2, response_alp]
  rw [d3] at hx
  have hx2 : x ∈ r.filter (fun c => decide (c.tagId = some tag)) := by rw [hfilter]; simp [hx]
  have htail : tail = qb.filterMap sendable ++ [bs] := by
    rcases List.prefix_concat_iff.1 g1 with h | h
    · exact h
    · have := foreign hg hfineb hf (fun p hp => h.subset hp) g3
      rw [no_tag this] at hx2
      cases hx2
  subst htail
  obtain rfl : done = (qa ++ qb).filterMap sendable ++ [bs] := by
    rcases g4 with h | h
    · simp at h
    · rw [h, List.filterMap_append, List.append_assoc]
  rw [Gwa.replies_snoc] at g3
  obtain ⟨k1, k2, k3, k4, k5⟩ := meaning_split g3
  obtain ⟨k, k6⟩ := hg (g.replies (g.replies d (qa.filterMap sendable)).1 (qb.filterMap sendable)).1 c bs tag hc.1 hc.2.1
    hc.2.2 hb
  obtain rfl := meaning_unique k5 k6.meaning
  have k7 := foreign hg hfineb hf (fun p hp => hp) k4
  have k8 : r.filter (fun c => decide (c.tagId = some tag)) = k2 := by
    rw [k3, List.filter_append, no_tag k7, List.nil_append, List.filter_eq_self.2 (by
      intro y hy; simpa using k6.tagged y hy)]
  obtain ⟨l, y, k9, k10, k11⟩ := k6.final
  have hall : handed.filterMap (response c.tagId) = l ++ [y] := by
    have hpre : handed.filterMap (response c.tagId) <+: l ++ [y] := by
      rw [← k9, ← k8, hfilter]; exact List.prefix_append _ _
    rcases List.prefix_concat_iff.1 hpre with h | h
    · exact h
    · exact absurd hxc (by rw [k11 x (h.subset hx)]; simp)
  have hnone : (alpMessages (pending s1.modem.reader) ++ alpMessages (fs.map Sent.delivered) ++ pr).filter
        (fun c => decide (c.tagId = some tag)) = [] := by
    have := hfilter
    rw [k8, k9, hall] at this
    exact List.self_eq_append_right.1 this
  have hempty : alpMessages (pending s1.modem.reader) ++ alpMessages (fs.map Sent.delivered) ++ pr = [] := by
    generalize alpMessages (pending s1.modem.reader) ++ alpMessages (fs.map Sent.delivered) ++ pr = w at hr hnone
    rcases List.eq_nil_or_concat w with rfl | ⟨w', z, rfl⟩
    · rfl
    · exfalso
      rw [List.concat_eq_append] at hr hnone
      have hz : y = z := by
        have := hr.symm.trans (k3.trans (by rw [k9]))
        rw [← List.append_assoc, ← List.append_assoc] at this
        have := (List.append_inj' this rfl).2
        simpa using this.symm
      subst hz
      have := k6.tagged y (by rw [k9]; simp)
      rw [List.filter_eq_nil_iff] at hnone
      exact hnone y (by simp) (by simpa using this)
  have heq : (qa ++ qb).filterMap sendable = qa.filterMap sendable ++ qb.filterMap sendable := by
    rw [List.filterMap_append]
  refine ⟨?_, by rw [c2, st.data], ?_⟩
  · rw [d3, hall, ← k9]
    show Answers _ _ _
    rw [heq, Gwa.replies_append]
    exact k6
  · have hokk : ReaderOk s1.modem := st.ok
    refine caught_run (es := [last]) hokk ⟨rs, past ++ handed, st.meaning, hrec, ?_⟩ (by
      show Option.bind _ _ = _; rw [h2]; rfl)
    rw [alp_append, ← hu, g2, hr, hempty]
    simp

/-- Nothing more comes when everything has been answered. -/
theorem quiet_after {config : Config} (hk : config.skip = false) {g : Gateway D} (hg : g.Conforms) {d : D}
    {before after : List LateEvent} {s s' : Net D} (hp : ∀ e ∈ before, Tagged e)
    (h0 : (Net.start config d).runLate g before = some s)
    (hca : Caught g d s (((Net.start config d).requested g before).filterMap sendable))
    (hn : ∀ call, .net (.call call) ∉ after) (h : s.runLate g after = some s') (n : Nat) :
    content s'.modem.responses n = content s.modem.responses n := by
  have hfull := runLate_append h0 h
  have hreq := requested_append (fs := after) h0
  rw [Rt.requested_none hn, List.append_nil] at hreq
  obtain ⟨done0, todo0, fs0, pr0, rs0, st0⟩ := stream_reach hk hg hp h0
  obtain ⟨done, todo, fs, pr, rs, st⟩ := stream_reach hk hg (es := before ++ after) (by
    intro e he
    rcases List.mem_append.1 he with he | he
    · exact hp e he
    · cases e with
      | net e =>
        cases e with
        | call call => exact absurd he (hn call)
        | _ => trivial
      | _ => trivial) hfull
  rw [hreq] at st
  obtain ⟨evs, h1, -, -⟩ := late_modem h
  obtain ⟨-, log, hl, -⟩ := run_handedOver st0.ok h1
  obtain ⟨new, a1, a2⟩ := hl.messages
  obtain ⟨ra, past, e1, e2, u, hu⟩ := hca
  have hrec : s'.modem.received = past ++ log.map Prod.snd ++ pending s'.modem.reader := by
    rw [a1, e2, List.append_assoc, ← a2, List.append_assoc]
  have ho := st.order
  rw [alp_append, hrec, alp_append, alp_append, ← hu] at ho
  have hd : done <+: ((Net.start config d).requested g before).filterMap sendable ++ [] := by
    rw [List.append_nil]; exact (List.prefix_append done todo).trans (split_prefix st)
  obtain ⟨tail, r, g1, g2, g3, -⟩ := rest_of hd st.meaning e1 (by
    rw [← ho]; simp only [List.append_assoc]; exact List.prefix_append _ _)
  obtain rfl := List.prefix_nil.1 g1
  cases g3
  have hnil : alpMessages (log.map Prod.snd) = [] := by
    have := g2.symm.trans ho.symm
    simp only [List.append_assoc, List.append_cancel_left_eq] at this
    have := congrArg List.length this
    simp only [List.length_append, List.length_nil] at this
    exact List.length_eq_zero_iff.1 (by omega)
  have hr := hl.responses n
  have hsink : toSink log (.response n) = [] := by
    rw [List.eq_nil_iff_forall_not_mem]
    intro m hm
    obtain ⟨x, hx, hx'⟩ := List.mem_map.1 hm
    obtain ⟨hx1, hx2⟩ := List.mem_filter.1 hx
    have hright := hl.right x hx1
    rw [of_decide_eq_true hx2] at hright
    have hc : m ∈ (content s'.modem.responses n).map Msg.command := by rw [hr]; simp [hm]
    obtain ⟨c, -, rfl⟩ := List.mem_map.1 hc
    have : c ∈ alpMessages (log.map Prod.snd) := by
      refine List.mem_filterMap.2 ⟨x.2, List.mem_map.2 ⟨x, hx1, rfl⟩, ?_⟩
      obtain ⟨k, t, m⟩ := x
      cases hx'
      exact if_pos hright.1
    rw [hnil] at this
    cases this
  rw [hsink, List.append_nil] at hr
  exact List.map_injective_iff.2 (fun a b h => by cases h; rfl) hr

/-- Everything that was answered was processed. -/
theorem caught_done {g : Gateway D} (hg : g.Conforms) {d : D} {s : Net D} {qs done todo fs pr rs}
    (st : Lt.Stream g d s qs done todo fs pr rs) (hca : Caught g d s (qs.filterMap sendable)) :
    done = qs.filterMap sendable := by
  obtain ⟨v, hv⟩ := (List.prefix_append done todo).trans (split_prefix st)
  obtain ⟨ra, past, e1, e2, e3⟩ := hca
  have hle : ra.length ≤ rs.length := by
    rw [← st.order, alp_append, e2, alp_append]
    have := e3.length_le
    simp only [List.length_append]
    omega
  have e1' := e1
  rw [← hv, Gwa.replies_append] at e1'
  obtain ⟨a, b, rfl, h2, h3⟩ := meaning_split e1'
  rw [meaning_unique h2 st.meaning, List.length_append] at hle
  obtain rfl : b = [] := List.length_eq_zero_iff.1 (by omega)
  cases v with
  | nil => rw [← hv, List.append_nil]
  | cons p v =>
    exfalso
    obtain ⟨-, q, t, -, -, -, h5⟩ := answers hg st.fine (p := p) (by rw [← hv]; simp)
    obtain ⟨r, h6⟩ := h5 (g.replies d done).1
    obtain ⟨x, y, h7, h8, -⟩ := meaning_split (ps := (g.handle (g.replies d done).1 p).2) h3
    obtain ⟨rfl, -⟩ := List.append_eq_nil_iff.1 h7.symm
    have := meaning_unique h8 h6.meaning
    obtain ⟨l, z, h9, -⟩ := h6.final
    rw [h9] at this
    simp at this

/-- A call that has returned, seen from the outside. -/
theorem called {config : Config} (hk : config.skip = false) {g : Gateway D} (hg : g.Conforms) {d : D}
    {before : List LateEvent} {s s' : Net D} {c : Command} {tag : Int} {bs : List UInt8} {qa qb : List Command}
    {r : Except PyErr (List Command)} (hc : Taggable c tag) (hb : sendable c = some bs) (hp : ∀ e ∈ before, Tagged e)
    (h0 : (Net.start config d).runLate g before = some s)
    (hq : (Net.start config d).requested g before = qa ++ qb) (hca : Caught g d s (qa.filterMap sendable))
    (hf : ∀ q ∈ qb, q.tagId ≠ some tag) (h : Net.CalledCalmly g c s r s') :
    ∃ es, (Net.start config d).runLate g (before ++ es) = some s' ∧ (∀ e ∈ before ++ es, Tagged e) ∧
      (Net.start config d).requested g (before ++ es) = qa ++ qb ++ [c] ∧
      (r = .ok [] ∨ ∃ rs, r = .ok rs ∧ g.Reply d ((qa ++ qb).filterMap sendable) tag bs rs ∧
        s'.data = (g.replies d ((qa ++ qb).filterMap sendable ++ [bs])).1 ∧
        Caught g d s' ((qa ++ qb ++ [c]).filterMap sendable)) := by
  obtain ⟨es, o, h1, h2, h3, h4, h5⟩ := h
  have hreq := requested_append (fs := .net (.call (.execute c 10)) :: es) h0
  rw [Rt.requested_call h1 h2, hq] at hreq
  have hp' : ∀ e ∈ before ++ .net (.call (.execute c 10)) :: es, Tagged e := by
    intro e he
    rcases List.mem_append.1 he with he | he
    · exact hp e he
    · exact Rt.tagged_call hc h1 e he
  refine ⟨_, runLate_append h0 h2, hp', hreq, ?_⟩
  obtain ⟨done, todo, fs, pr, rs, st⟩ := stream_reach hk hg hp h0
  rcases Rt.call_end st.write h1 h2 h4 with ⟨b1, -⟩ | ⟨-, -, during, last, after, s1, s2, rfl, c1, c2, c3, c4, c5⟩
  · rw [hb] at b1; cases b1
  have hfs : (qa ++ qb ++ [c]).filterMap sendable = (qa ++ qb).filterMap sendable ++ [bs] := by
    rw [List.filterMap_append]; simp [hb]
  rcases caught_call hk hg hc hb (by decide) (before := before) (during := during) (by
      intro e he
      rcases List.mem_append.1 he with he | he
      · exact hp e he
      · exact hp' e (by simp [he])) h0 hq hca hf c1 c2 c3 c4 (Rt.calm_left (fs := last :: after) h3) with
    rfl | ⟨rfl, d1, d2, d3⟩
  · exact .inl h5
  · have hb2 : (Net.start config d).runLate g (before ++ .net (.call (.execute c 10)) :: (during ++ [last])) = some s2 :=
      runLate_append h0 (runLate_append (es := .net (.call (.execute c 10)) :: during) c1 (by
        show Option.bind _ _ = _; rw [c3]; rfl))
    have hn2 : ∀ call, .net (.call call) ∉ during ++ [last] := by
      intro call hx
      refine h1 call ?_
      rcases List.mem_append.1 hx with hx | hx
      · simp [hx]
      · simp [List.mem_singleton.1 hx]
    have hreq2 := requested_append (fs := .net (.call (.execute c 10)) :: (during ++ [last])) h0
    rw [Rt.requested_call hn2 (s' := s2) (runLate_append (es := .net (.call (.execute c 10)) :: during) c1 (by
        show Option.bind _ _ = _; rw [c3]; rfl)), hq] at hreq2
    have hp2 : ∀ e ∈ before ++ .net (.call (.execute c 10)) :: (during ++ [last]), Tagged e := by
      intro e he
      refine hp' e ?_
      simp only [List.mem_append, List.mem_cons, List.not_mem_nil, or_false] at he ⊢
      rcases he with he | he | he | he <;> simp [he]
    have hn3 : ∀ call, .net (.call call) ∉ after := fun call hx => h1 call (by simp [hx])
    have hq3 := quiet_after hk hg hp2 hb2 (by rw [hreq2, hfs]; exact d3) hn3 c5 s.modem.responses.length
    obtain ⟨done2, todo2, fs2, pr2, rs2, st2⟩ := stream_reach hk hg hp2 hb2
    obtain ⟨done3, todo3, fs3, pr3, rs3, st3⟩ := stream_reach hk hg hp' (runLate_append h0 h2)
    rw [hreq] at st3
    refine .inr ⟨_, h5, ?_, ?_, ?_⟩
    · rw [hq3]; exact d1
    · rw [st3.data, caught_done hg st3 (by rw [hfs]; exact caught_run st2.ok d3 c5), hfs]
    · rw [hfs]; exact caught_run st2.ok d3 c5

end Verif.Modem.Ct
