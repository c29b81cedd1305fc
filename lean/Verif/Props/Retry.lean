import Verif.Lemmas.Retry

/-! C84: the loop of examples/engineering_mode.py that executes a command until it is confirmed, with calls that time out,
answers that come late, and devices that refuse. -/

namespace Verif.Modem

open Verif Verif.Serial Verif.Examples

variable {D : Type}

/-! ### An example of a device that refuses -/

/-- A device that answers with one message; its state tells which of the next commands it refuses (`false`). -/
def moody : Gateway (List Bool) where
  handle l
    | 0xB4 :: tag :: _ => (l.tail, [[if l.head? = some false then 0xE3 else 0xA3, tag]])
    | _ => (l, [])

/-- The answer to a command that is refused. -/
def refused (tag : UInt8) : Command := { answered tag [] with completedWithError := some true }

theorem refused_answers (tag : UInt8) : Answers tag.toNat [[0xE3, tag]] [refused tag] := by
  have ht := tag.toNat_lt
  have hn : TagId.new (tag.toNat : Int) = .ok ⟨tag.toNat⟩ := validate_of ⟨by omega, by omega⟩
  have h1 := AlpParser.parse_header (b7 := true) (b6 := true) (o := .tagResponse ⟨tag.toNat⟩)
    (r := some (.tagResponse true true (.tagResponse ⟨tag.toNat⟩))) (m := bitsOf 8 tag.toNat)
    (Reads.bindr (Reads.uint 8 tag.toNat (by omega))
      (Reads.bind0 (Reads.lift hn) (Reads.pure _)))
  have key := AlpParser.parse_runs (n := 2) (segs := [([0xE3, tag], some (.tagResponse true true (.tagResponse
    ⟨tag.toNat⟩)))]) (rest := []) (c := refused tag) (by
      intro x hx
      rw [List.mem_singleton.1 hx]
      exact ⟨h1, by simp⟩) (by simp) (by
      intro init last e
      match init, e with
      | [], e =>
        simp only [List.nil_append, List.cons.injEq, and_true] at e
        simp
      | x :: z, e =>
        have := congrArg List.length e
        simp at this) rfl
  refine ⟨.cons ⟨by simp, .alp 1 _ _ rfl (by decide) (by decide) (by simpa using key)⟩ .nil, ?_, ?_⟩
  · intro r hr
    rw [List.mem_singleton.1 hr]; rfl
  · exact ⟨[], refused tag, rfl, rfl, by simp⟩

theorem moody_answers (l : List Bool) (tag : UInt8) (bs : List UInt8) :
    Answers tag.toNat (moody.handle l (0xB4 :: tag :: bs)).2
      [if l.head? = some false then refused tag else answered tag []] := by
  by_cases h : l.head? = some false
  · simp only [moody, if_pos h]
    exact refused_answers tag
  · simp only [moody, if_neg h]
    refine ⟨.cons ⟨by simp, .alp 1 _ _ rfl (by decide) (by decide) (answer_parses tag [] (by simp) (by simp [answer]))⟩
      .nil, ?_, ?_⟩
    · intro r hr
      rw [List.mem_singleton.1 hr]; rfl
    · exact ⟨[], answered tag [], rfl, rfl, by simp⟩

theorem moody_conforms : moody.Conforms := by
  intro d c bs tag h1 h2 h3 h4
  obtain ⟨h5, -⟩ := Gw.sendable_some h4
  obtain ⟨tb, sb, xs, e1, -, -, -, rfl⟩ := (C22_bytes c bs).1 h5
  simp only [Command.tagBytes, h1, h2, h3, if_true] at e1
  split at e1
  · next hb =>
    simp only [Option.some.injEq] at e1
    subst e1
    have := moody_answers d (UInt8.ofNat tag.toNat) (sb ++ xs.flatten)
    rw [show ((UInt8.ofNat tag.toNat).toNat : Int) = tag by simp; omega] at this
    exact ⟨_, by simpa using this⟩
  · cases e1

/-! ### C84: what the end of the loop means -/

/-- C84: the loop ends without an exception, after any calls with other tags, in interleavings in which no hand-over of an ALP
message overlaps with the lines of `execute_command` that prepare for the responses (modem/modem.py 152-157); calls may
have timed out or been refused, and late answers may have been taken for answers to a later call. Then one of the
executions of the command was confirmed by the device, and since the beginning of the loop the device has done nothing but
execute the command, at most once per call. -/
theorem C84_confirmed_partial {config : Config} (hk : config.skip = false) {g : Gateway D} (hg : g.Conforms) {d : D}
    {before : List LateEvent} {s s' : Net D} {c : Command} {tag : Int} {bs : List UInt8} {k : Nat}
    (hc : Taggable c tag) (hb : sendable c = some bs) (hp : ∀ e ∈ before, Tagged e)
    (h0 : (Net.start config d).runLate g before = some s)
    (hf : ∀ q ∈ (Net.start config d).requested g before, q.tagId ≠ some tag)
    (h : Repeat (Net.CalledCalmly g c) s k none s') :
    ∃ j m, j < m ∧ m ≤ k ∧
      g.Confirms (g.replies d (((Net.start config d).requested g before).filterMap sendable ++ List.replicate j bs)).1
        tag bs ∧
      s'.data = (g.replies d (((Net.start config d).requested g before).filterMap sendable ++ List.replicate m bs)).1 := by
  obtain ⟨es, s1, as, x, a1, a2, a3, a4, a5, a6⟩ := Rt.repeat_last hc h
  have hreq := Lt.requested_append (fs := es) h0
  generalize (Net.start config d).requested g before = qs at *
  have hall : ∀ q ∈ s.requested g es, q = c := by
    intro q hq
    have : q ∈ List.replicate k c := by rw [← a3]; simp [hq]
    exact (List.mem_replicate.1 this).2
  obtain ⟨l, l', rs, done, b1, b2, b3, b4, b5, b6⟩ := Rt.call_origin hk hg hc hb (before := before ++ es) (by
    intro e he
    rcases List.mem_append.1 he with he | he
    · exact hp e he
    · exact a2 e he) (Lt.runLate_append h0 a1) (by
    rw [hreq]
    intro q hq ht
    rcases List.mem_append.1 hq with hq | hq
    · exact absurd ht (hf q hq)
    · exact hall q hq) a4 a5
  rw [hreq, List.append_assoc, a3] at b1 b5
  have hnc : c ∉ qs := fun hx => hf c hx hc.2.2
  obtain ⟨a, rfl, ha⟩ : ∃ a, l = qs ++ a ∧ a ++ c :: l' = List.replicate k c := by
    rcases List.append_eq_append_iff.1 b1 with ⟨a, e1, e2⟩ | ⟨a, e1, e2⟩
    · exact ⟨a, e1, e2.symm⟩
    · cases a with
      | nil => exact ⟨[], by simpa using e1.symm, by simpa using e2⟩
      | cons y a =>
        rw [List.cons_append, List.cons.injEq] at e2
        exact absurd (by rw [e1, ← e2.1]; simp) hnc
  have ha' : a = List.replicate a.length c := by
    rw [List.eq_replicate_iff]
    refine ⟨rfl, fun y hy => ?_⟩
    have : y ∈ List.replicate k c := by rw [← ha]; simp [hy]
    exact (List.mem_replicate.1 this).2
  have hrep : ∀ n, (List.replicate n c).filterMap sendable = List.replicate n bs := by
    intro n
    induction n with
    | zero => rfl
    | succ n ih => simp [List.replicate_succ, hb, ih]
  rw [List.filterMap_append, ha', hrep] at b6 b2
  rw [List.filterMap_append, hrep] at b5
  obtain ⟨t, rfl⟩ : ∃ t, done = qs.filterMap sendable ++ t := by
    obtain ⟨u, hu⟩ := b6
    exact ⟨List.replicate a.length bs ++ [bs] ++ u, by rw [← hu]; simp⟩
  rw [List.append_assoc, List.prefix_append_right_inj] at b6
  rw [List.prefix_append_right_inj] at b5
  have ht : t = List.replicate t.length bs := by
    rw [List.eq_replicate_iff]
    exact ⟨rfl, fun y hy => (List.mem_replicate.1 (b5.subset hy)).2⟩
  refine ⟨a.length, t.length, ?_, ?_, ⟨rs, x, b2, b3, a6⟩, by rw [b4, ← ht]⟩
  · have := b6.length_le
    simp at this; omega
  · have := b5.length_le
    simpa using this

/-- The device refuses the first call, the second one times out, and the third one gets the answer to the second. -/
def round1 : List LateEvent :=
  List.replicate 5 (.net .main) ++ [.net .take, .net (.send 0), .net (.read 9)] ++ List.replicate 5 (.net .reader) ++
    [.net .main]

def round2 : List LateEvent := List.replicate 5 (.net .main) ++ [.timeout, .net .take, .net (.send 1)]

def round3 : List LateEvent :=
  List.replicate 5 (.net .main) ++ [.net (.read 9)] ++ List.replicate 5 (.net .reader) ++ [.net .main]

theorem rounds_quiet : ∀ call, .net (.call call) ∉ round1 ∧ .net (.call call) ∉ round2 ∧ .net (.call call) ∉ round3 := by
  intro call
  simp [round1, round2, round3]

theorem rounds_repeat : ∃ s', Repeat (Net.CalledCalmly moody (request 7 [.write 0x40 0 [1]]))
    (Net.start noCallbacks [false]) 3 none s' ∧ s'.data = [] ∧ s'.taken = 28 ∧ s'.modem.written.length = 42 := by
  have key : ((Net.start noCallbacks [false]).runLate moody
      (.net (.call (.execute (request 7 [.write 0x40 0 [1]]) 10)) :: round1)).bind (fun s1 =>
    (s1.runLate moody (.net (.call (.execute (request 7 [.write 0x40 0 [1]]) 10)) :: round2)).bind fun s2 =>
    (s2.runLate moody (.net (.call (.execute (request 7 [.write 0x40 0 [1]]) 10)) :: round3)).map fun s3 =>
      decide ((Net.start noCallbacks [false]).Calm moody
          (.net (.call (.execute (request 7 [.write 0x40 0 [1]]) 10)) :: round1) ∧
        s1.Calm moody (.net (.call (.execute (request 7 [.write 0x40 0 [1]]) 10)) :: round2) ∧
        s2.Calm moody (.net (.call (.execute (request 7 [.write 0x40 0 [1]]) 10)) :: round3) ∧
        s1.modem.outcomes = [.list 1] ∧ content s1.modem.responses 1 = [refused 7] ∧
        s2.modem.outcomes = [.list 1, .empty] ∧
        s3.modem.outcomes = [.list 1, .empty, .list 3] ∧ content s3.modem.responses 3 = [answered 7 []] ∧
        s3.data = [] ∧ s3.taken = 28 ∧ s3.modem.written.length = 42)) = some true := by
    decide +kernel
  obtain ⟨s1, h1, h2⟩ := Option.bind_eq_some_iff.1 key
  obtain ⟨s2, h3, h4⟩ := Option.bind_eq_some_iff.1 h2
  obtain ⟨s3, h5, h6⟩ := Option.map_eq_some_iff.1 h4
  obtain ⟨a1, a2, a3, a4, a5, a6, a7, a8, a9, a10, a11⟩ := of_decide_eq_true h6
  refine ⟨s3, ?_, a9, a10, a11⟩
  refine .again _ s1 _ [refused 7] _ _ ⟨round1, .list 1, fun call => (rounds_quiet call).1, h1, a1, by rw [a4]; rfl,
    by rw [← a5]⟩ (by decide) ?_
  refine .again _ s2 _ [] _ _ ⟨round2, .empty, fun call => (rounds_quiet call).2.1, h3, a2, by rw [a6, a4]; rfl, rfl⟩
    (by decide) ?_
  exact .done _ _ [answered 7 []] ⟨round3, .list 3, fun call => (rounds_quiet call).2.2, h5, a3, by rw [a7, a6]; rfl,
    by rw [← a8]⟩ (by decide)

example : (∃ s', Repeat (Net.CalledCalmly moody (request 7 [.write 0x40 0 [1]]))
      (Net.start noCallbacks [false]) 3 none s' ∧ s'.data = [] ∧ s'.taken = 28 ∧ s'.modem.written.length = 42) ∧
    Taggable (request 7 [.write 0x40 0 [1]]) 7 ∧
    (sendable (request 7 [.write 0x40 0 [1]])).map List.length = some 7 ∧ moody.Conforms :=
  ⟨rounds_repeat, ⟨rfl, rfl, rfl⟩, by decide +kernel, moody_conforms⟩

/-- C84, what it is for: a device that confirms the command only when something holds afterwards, and for which it still
holds when the command is executed again, is in such a state when the loop ends. -/
theorem C84_effect_partial {config : Config} (hk : config.skip = false) {g : Gateway D} (hg : g.Conforms) {d : D}
    {before : List LateEvent} {s s' : Net D} {c : Command} {tag : Int} {bs : List UInt8} {k : Nat}
    (hc : Taggable c tag) (hb : sendable c = some bs) (hp : ∀ e ∈ before, Tagged e)
    (h0 : (Net.start config d).runLate g before = some s)
    (hf : ∀ q ∈ (Net.start config d).requested g before, q.tagId ≠ some tag)
    (h : Repeat (Net.CalledCalmly g c) s k none s') (Holds : D → Prop)
    (hyes : ∀ x, g.Confirms x tag bs → Holds (g.handle x bs).1) (hkeep : ∀ x, Holds x → Holds (g.handle x bs).1) :
    Holds s'.data := by
  obtain ⟨j, m, h1, -, h2, h3⟩ := C84_confirmed_partial hk hg hc hb hp h0 hf h
  obtain ⟨i, rfl⟩ : ∃ i, m = j + 1 + i := ⟨m - (j + 1), by omega⟩
  rw [h3]
  clear h1 h3
  generalize ((Net.start config d).requested g before).filterMap sendable = ps at *
  have snoc : ∀ n, (g.replies d (ps ++ List.replicate (n + 1) bs)).1 =
      (g.handle (g.replies d (ps ++ List.replicate n bs)).1 bs).1 := by
    intro n
    rw [List.replicate_succ', ← List.append_assoc, Gwa.replies_snoc]
  induction i with
  | zero => rw [Nat.add_zero, snoc]; exact hyes _ h2
  | succ i ih => rw [← Nat.add_assoc, snoc]; exact hkeep _ ih

/-- `moody` confirms only when it does not refuse any more the command that it has just executed. -/
example : ∀ x, moody.Confirms x 7 [0xB4, 7, 4, 0x40, 0, 1, 1] → x.head? ≠ some false := by
  rintro x ⟨rs, y, h1, h2, h3⟩ hx
  have := meaning_unique h1.meaning (moody_answers x 7 [4, 0x40, 0, 1, 1]).meaning
  rw [this, if_pos hx] at h2
  rw [List.mem_singleton.1 h2] at h3
  exact absurd h3.2 (by decide)

/-- C84, when the loop goes on: if the device confirms every execution of the command, a call that does not end the loop
has returned nothing, so it has timed out. This holds also in the second and later calls of the loop (`before` may contain
calls with the same command). -/
theorem C84_again_partial {config : Config} (hk : config.skip = false) {g : Gateway D} (hg : g.Conforms) {d : D}
    {before : List LateEvent} {s s' : Net D} {c : Command} {tag : Int} {bs : List UInt8} {as : List Command}
    (hc : Taggable c tag) (hb : sendable c = some bs) (hp : ∀ e ∈ before, Tagged e)
    (h0 : (Net.start config d).runLate g before = some s)
    (hf : ∀ q ∈ (Net.start config d).requested g before, q.tagId = some tag → q = c)
    (hgood : ∀ x rs y, Answers tag (g.handle x bs).2 rs → y ∈ rs → y.completedWithError ≠ some true)
    (h : Net.CalledCalmly g c s (.ok as) s') (ha : confirm false as = .ok false) : as = [] := by
  have h' := h
  obtain ⟨es, o, h1, h2, h3, h4, h5⟩ := h'
  obtain ⟨evs0, a1, -, -⟩ := Lt.late_modem h0
  obtain ⟨done, todo, fs, pr, rs, st⟩ := Lt.stream_reach hk hg hp h0
  rcases Rt.call_end st.write h1 h2 h4 with ⟨b1, -⟩ | ⟨-, -, during, last, after, s1, s2, rfl, c1, c2, c3, c4, c5⟩
  · rw [hb] at b1; cases b1
  obtain ⟨s0, c6, c7⟩ := Lt.late_cons c1
  obtain ⟨evs1, d1, -, d3⟩ := Lt.late_modem c7
  obtain ⟨m, c8, rfl⟩ := Option.map_eq_some_iff.1 (show (s.modem.step (.call (.execute c 10))).map
    (fun m => { s with modem := m }) = some s0 from c6)
  have hcalm : Modem.Calm s.modem (.call (.execute c 10) :: evs1) := by
    refine ⟨fun hr => ⟨(h3.1 hr).1, by simp⟩, ?_⟩
    intro m' hm
    rw [c8] at hm
    cases hm
    exact d3 (Rt.calm_left (h3.2 _ c6))
  rcases Lt.late_step c3 with ⟨ev, e1, -⟩ | ⟨e1, -⟩
  swap
  · rw [e1, c2] at c4
    simpa using congrArg List.length c4
  obtain ⟨new, handed, -, -, ⟨rfl, -, y, hy, hy'⟩ | ⟨rfl, -⟩⟩ := C46_result_partial (timeout := 10) hk (by decide) a1
    (show s.modem.run (.call (.execute c 10) :: evs1) = some s1.modem by unfold State.run; rw [c8]; exact d1) c2 e1 c4 hcalm
  · simp only [Except.ok.injEq] at h5
    have hy2 : y ∈ as := by
      obtain ⟨evs2, f1, -⟩ := Lt.late_modem c5
      have hok2 : ReaderOk s2.modem := by
        have hall := Lt.runLate_append h0 c1
        obtain ⟨evs3, g1, -⟩ := Lt.late_modem (Lt.runLate_append hall (fs := [last]) (s2 := s2) (by
          show Option.bind _ _ = _; rw [c3]; rfl))
        exact (run_handedOver (init_ok config) g1).1
      obtain ⟨-, log, hl, -⟩ := run_handedOver hok2 f1
      have := hl.responses s.modem.responses.length
      have hm : Msg.command y ∈ (content s'.modem.responses s.modem.responses.length).map Msg.command := by
        rw [this]; exact List.mem_append.2 (.inl (List.mem_map.2 ⟨y, hy, rfl⟩))
      obtain ⟨z, hz, hz'⟩ := List.mem_map.1 hm
      cases hz'
      rw [h5]; exact hz
    obtain ⟨l, l', rs, done, f1, f2, f3, -⟩ := Rt.call_origin hk hg hc hb hp h0 hf h hy2
    obtain ⟨g1, g2⟩ := Rt.confirm_ok.1 ha
    have : y.completedWithError = some false := by
      have k1 := g1 y hy2
      have k2 := hgood _ rs y f2 f3
      revert k1 k2
      cases y.completedWithError with
      | none => simp
      | some b => cases b <;> simp
    exact absurd (g2.2 (.inr ⟨y, hy2, hy', this⟩)) (by simp)
  · simpa using h5

/-- Hypotheses of `C84_again_partial`: `counting` confirms everything; the first call has timed out. -/
example : (∀ x rs y, Answers 7 (counting.handle x [0xB4, 7, 1, 0x40, 0, 1]).2 rs → y ∈ rs →
      y.completedWithError ≠ some true) ∧
    (∀ e ∈ tooLate, Tagged e) ∧ sendable (request 7 [.read 0x40 0 1]) = some [0xB4, 7, 1, 0x40, 0, 1] ∧
    (∀ q ∈ (Net.start noCallbacks (5 : Nat)).requested counting tooLate, q.tagId = some 7 → q = request 7 [.read 0x40 0 1]) ∧
    (((Net.start noCallbacks (5 : Nat)).runLate counting tooLate).bind fun s =>
      (s.runLate counting (.net (.call (.execute (request 7 [.read 0x40 0 1]) 10)) :: round2.take 6)).map fun s' =>
        decide (s.Calm counting (.net (.call (.execute (request 7 [.read 0x40 0 1]) 10)) :: round2.take 6) ∧
          s'.modem.outcomes = s.modem.outcomes ++ [.empty])) = some true ∧ confirm false [] = .ok false := by
  refine ⟨?_, tooLate_tagged, by decide +kernel, ?_, by decide +kernel, rfl⟩
  · intro x rs y h hy
    rw [meaning_unique h.meaning (counting_answers 7 (UInt8.ofNat x)).meaning] at hy
    rcases List.mem_cons.1 hy with rfl | hy
    · simp [counted]
    · rw [List.mem_singleton.1 hy]; decide
  · intro q hq _
    rw [show (Net.start noCallbacks (5 : Nat)).requested counting tooLate = [request 7 [.read 0x40 0 1]] by decide +kernel] at hq
    exact List.mem_singleton.1 hq

/-- C84, exceptions, in every interleaving: if the device tells in all its answers whether there was an error, the loop ends
by an exception exactly if the command does not fit in a frame; then in the first call, and nothing is written. -/
theorem C84_raises_partial {config : Config} (hk : config.skip = false) {g : Gateway D} (hg : g.Conforms) (hr : g.Reports) {d : D}
    {before : List LateEvent} {s s' : Net D} {c : Command} {tag : Int} {k : Nat} {r : Option PyErr}
    (hc : Taggable c tag) (hp : ∀ e ∈ before, Tagged e) (h0 : (Net.start config d).runLate g before = some s)
    (h : Repeat (Net.Called g c) s k r s') :
    (r = none ↔ sendable c ≠ none) ∧ (sendable c = none → k = 1 ∧ s'.modem.written = s.modem.written) := by
  induction h generalizing before with
  | raised s s' e h =>
    obtain ⟨es, o, h1, h2, h3, h4⟩ := h
    obtain ⟨done, todo, fs, pr, rs, st⟩ := Lt.stream_reach hk hg hp h0
    rcases Rt.call_end st.write h1 h2 h3 with ⟨b1, -, b2⟩ | ⟨-, rfl | ⟨n, rfl⟩, -⟩
    · exact ⟨by simp [b1], fun _ => ⟨rfl, b2⟩⟩
    · cases h4
    · cases h4
  | done s s' as h _ =>
    obtain ⟨es, o, h1, h2, h3, h4⟩ := h
    obtain ⟨done, todo, fs, pr, rs, st⟩ := Lt.stream_reach hk hg hp h0
    rcases Rt.call_end st.write h1 h2 h3 with ⟨-, ⟨e, rfl⟩, -⟩ | ⟨b1, -⟩
    · cases h4
    · exact ⟨by simp [b1], fun h => absurd h b1⟩
  | broken s s' as e h ha =>
    exfalso
    obtain ⟨es, o, h1, h2, h3, h4⟩ := h
    obtain ⟨-, y, hy, hy'⟩ := Rt.confirm_error ha
    cases o with
    | list n =>
      simp only [Except.ok.injEq] at h4
      rw [h4] at hy
      obtain ⟨l, q, l', tg, bs', rs, done, a1, a2, a3, a4, a5, -⟩ := Lt.origin_of hk hg
        (es := before ++ .net (.call (.execute c 10)) :: es) (by
        intro e he
        rcases List.mem_append.1 he with he | he
        · exact hp e he
        · exact Rt.tagged_call hc h1 e he) (Lt.runLate_append h0 h2) (c := y) (.inl ⟨n, hy⟩)
      exact hr _ _ _ _ _ a4 a5 hy'
    | raised e => cases h4
    | _ => simp only [Except.ok.injEq] at h4; subst h4; cases hy
  | again s s1 s' as n r h _ _ ih =>
    obtain ⟨es, o, h1, h2, h3, h4⟩ := h
    obtain ⟨done, todo, fs, pr, rs, st⟩ := Lt.stream_reach hk hg hp h0
    rcases Rt.call_end st.write h1 h2 h3 with ⟨-, ⟨e, rfl⟩, -⟩ | ⟨b1, -⟩
    · cases h4
    · have := ih (before := before ++ .net (.call (.execute c 10)) :: es) (by
        intro e he
        rcases List.mem_append.1 he with he | he
        · exact hp e he
        · exact Rt.tagged_call hc h1 e he) (Lt.runLate_append h0 h2)
      exact ⟨this.1, fun h => absurd h b1⟩

example : sendable (request 7 [.write 0x40 0 (List.replicate 250 1)]) = none ∧
    (((Net.start noCallbacks [true]).runLate moody [.net (.call (.execute
      (request 7 [.write 0x40 0 (List.replicate 250 1)]) 10))]).map fun s => (s.modem.outcomes, s.modem.written)) =
      some ([.raised .valueError], []) :=
  ⟨by decide +kernel, by decide +kernel⟩

/-- `moody` always tells whether there was an error. -/
theorem moody_reports : moody.Reports := by
  rintro d tag payload rs y h hy
  match payload, h with
  | [], h =>
    obtain ⟨h, -, l, x, e, -⟩ := h
    cases h; simp at e
  | [b], h =>
    obtain ⟨h, -, l, x, e, -⟩ := h
    have : (moody.handle d [b]).2 = [] := by simp [moody]
    rw [this] at h
    cases h; simp at e
  | b :: t :: bs, h =>
    by_cases hb : b = 0xB4
    · subst hb
      rw [meaning_unique h.meaning (moody_answers d t bs).meaning, List.mem_singleton] at hy
      rw [hy]
      split <;> simp [refused, answered]
    · obtain ⟨h, -, l, x, e, -⟩ := h
      have : (moody.handle d (b :: t :: bs)).2 = [] := by
        simp only [moody]
        split
        · next e => cases e; exact absurd rfl hb
        · rfl
      rw [this] at h
      cases h; simp at e

example : moody.Reports := moody_reports

/-- A device that first repeats the tag request, and then ends the execution without error. -/
def echoing : Gateway Unit where
  handle _
    | 0xB4 :: tag :: _ => ((), [[0xB4, tag], [0xA3, tag]])
    | _ => ((), [])

/-- Its first message. -/
def echoed (tag : UInt8) : Command := { answered tag [] with executionCompleted := false, completedWithError := none }

theorem echoing_answers (tag : UInt8) : Answers tag.toNat [[0xB4, tag], [0xA3, tag]] [echoed tag, answered tag []] := by
  have ht := tag.toNat_lt
  have hn : TagId.new (tag.toNat : Int) = .ok ⟨tag.toNat⟩ := validate_of ⟨by omega, by omega⟩
  have h1 := AlpParser.parse_header (b7 := true) (b6 := false) (o := .tagRequest ⟨tag.toNat⟩)
    (r := some (.tagRequest true (.tagRequest ⟨tag.toNat⟩))) (m := bitsOf 8 tag.toNat)
    (Reads.bindr (Reads.uint 8 tag.toNat (by omega))
      (Reads.bind0 (Reads.lift hn) (Reads.pure _)))
  have key := AlpParser.parse_runs (n := 2) (segs := [([0xB4, tag], some (.tagRequest true (.tagRequest
    ⟨tag.toNat⟩)))]) (rest := []) (c := echoed tag) (by
      intro x hx
      rw [List.mem_singleton.1 hx]
      exact ⟨h1, by simp⟩) (by simp) (by
      intro init last e
      match init, e with
      | [], e =>
        simp only [List.nil_append, List.cons.injEq, and_true] at e
        simp
      | x :: z, e =>
        have := congrArg List.length e
        simp at this) rfl
  refine ⟨.cons ⟨by simp, .alp 1 _ _ rfl (by decide) (by decide) (by simpa using key)⟩ (.cons ⟨by simp,
    .alp 1 _ _ rfl (by decide) (by decide) (answer_parses tag [] (by simp) (by simp [answer]))⟩ .nil), ?_, ?_⟩
  · intro r hr
    simp only [List.mem_cons, List.not_mem_nil, or_false] at hr
    rcases hr with rfl | rfl <;> rfl
  · exact ⟨[echoed tag], answered tag [], rfl, rfl, by simp [echoed]⟩

theorem echoing_conforms : echoing.Conforms := by
  intro d c bs tag h1 h2 h3 h4
  obtain ⟨h5, -⟩ := Gw.sendable_some h4
  obtain ⟨tb, sb, xs, e1, -, -, -, rfl⟩ := (C22_bytes c bs).1 h5
  simp only [Command.tagBytes, h1, h2, h3, if_true] at e1
  split at e1
  · next hb =>
    simp only [Option.some.injEq] at e1
    subst e1
    have := echoing_answers (UInt8.ofNat tag.toNat)
    rw [show ((UInt8.ofNat tag.toNat).toNat : Int) = tag by simp; omega] at this
    exact ⟨_, this⟩
  · cases e1

/-- The device answers at once; both messages are read and handed over. -/
def echoRound : List LateEvent :=
  List.replicate 5 (.net .main) ++ [.net .take, .net (.send 0), .net (.send 0), .net (.read 18)] ++
    List.replicate 9 (.net .reader) ++ [.net .main]

/-- C84, exceptions, without the hypothesis on the answers this is false: a conforming device executes and confirms the
command, and the loop ends with AttributeError, raised while the text for the log is made of an answer that has the tag in a
tag request. -/
theorem C84_raises_refuted : echoing.Conforms ∧ (sendable (request 7 [.write 0x40 0 [1]])).isSome = true ∧
    ∃ s', Repeat (Net.CalledCalmly echoing (request 7 [.write 0x40 0 [1]])) (Net.start noCallbacks ()) 1
      (some .attributeError) s' := by
  refine ⟨echoing_conforms, by decide +kernel, ?_⟩
  have key : ((Net.start noCallbacks ()).runLate echoing
      (.net (.call (.execute (request 7 [.write 0x40 0 [1]]) 10)) :: echoRound)).map (fun s1 =>
      decide ((Net.start noCallbacks ()).Calm echoing
          (.net (.call (.execute (request 7 [.write 0x40 0 [1]]) 10)) :: echoRound) ∧
        s1.modem.outcomes = [.list 1] ∧ content s1.modem.responses 1 = [echoed 7, answered 7 []])) = some true := by
    decide +kernel
  obtain ⟨s1, h1, h2⟩ := Option.map_eq_some_iff.1 key
  obtain ⟨a1, a2, a3⟩ := of_decide_eq_true h2
  exact ⟨s1, .broken _ _ [echoed 7, answered 7 []] _ ⟨echoRound, .list 1, by simp [echoRound], h1, a1, by rw [a2]; rfl,
    by rw [← a3]⟩ rfl⟩

/-- C84, which exceptions: if the command fits in a frame, only this one. -/
theorem C84_exception {config : Config} (hk : config.skip = false) {g : Gateway D} (hg : g.Conforms) {d : D}
    {before : List LateEvent} {s s' : Net D} {c : Command} {tag : Int} {k : Nat} {e : PyErr}
    (hc : Taggable c tag) (hp : ∀ e ∈ before, Tagged e) (h0 : (Net.start config d).runLate g before = some s)
    (hb : sendable c ≠ none) (h : Repeat (Net.Called g c) s k (some e) s') :
    e = .attributeError ∧ ∃ s1 as, Net.Called g c s1 (.ok as) s' ∧ ∃ y ∈ as, y.completedWithError = none := by
  generalize hr : some e = r at h
  induction h generalizing before with
  | raised s s' e' h =>
    obtain ⟨es, o, h1, h2, h3, h4⟩ := h
    obtain ⟨done, todo, fs, pr, rs, st⟩ := Lt.stream_reach hk hg hp h0
    rcases Rt.call_end st.write h1 h2 h3 with ⟨b1, -, b2⟩ | ⟨-, rfl | ⟨n, rfl⟩, -⟩
    · exact absurd b1 hb
    · cases h4
    · cases h4
  | done s s' as h _ => cases hr
  | broken s s' as e' h ha =>
    cases hr
    obtain ⟨h1, h2⟩ := Rt.confirm_error ha
    exact ⟨h1, s, as, h, h2⟩
  | again s s1 s' as n r h _ _ ih =>
    obtain ⟨es, o, h1, h2, -⟩ := h
    exact ih (before := before ++ .net (.call (.execute c 10)) :: es) (by
        intro e he
        rcases List.mem_append.1 he with he | he
        · exact hp e he
        · exact Rt.tagged_call hc h1 e he) (Lt.runLate_append h0 h2) hr

/-- Its hypotheses: the loop of `C84_raises_refuted`. -/
example : ∃ s', Repeat (Net.Called echoing (request 7 [.write 0x40 0 [1]])) (Net.start noCallbacks ()) 1
    (some .attributeError) s' :=
  let ⟨s', h⟩ := C84_raises_refuted.2.2
  ⟨s', Rt.repeat_mono (fun _ _ _ => Rt.calmly_called) h⟩

/-- C84, a line that has failed: once the reading thread has ended, in whatever interleaving, no call of the loop is
confirmed: the loop does not end (unless the command does not fit in a frame). -/
theorem C84_dead {config : Config} (hk : config.skip = false) {g : Gateway D} (hg : g.Conforms) {d : D}
    {before : List LateEvent} {s s' : Net D} {c : Command} {tag : Int} {k : Nat} {r : Option PyErr}
    (hc : Taggable c tag) (hp : ∀ e ∈ before, Tagged e) (h0 : (Net.start config d).runLate g before = some s)
    (hd : s.modem.reader.isDead = true) (hb : sendable c ≠ none) :
    ¬ Repeat (Net.Called g c) s k r s' := by
  intro h
  induction h generalizing before with
  | raised s s' e h =>
    obtain ⟨es, o, h1, h2, h3, h4⟩ := h
    rw [Rt.dead_call hk hg hp h0 hd hb h1 h2 h3] at h4
    cases h4
  | done s s' as h ha =>
    obtain ⟨es, o, h1, h2, h3, h4⟩ := h
    rw [Rt.dead_call hk hg hp h0 hd hb h1 h2 h3] at h4
    simp only [Except.ok.injEq] at h4
    subst h4
    simp [confirm] at ha
  | broken s s' as e h ha =>
    obtain ⟨es, o, h1, h2, h3, h4⟩ := h
    rw [Rt.dead_call hk hg hp h0 hd hb h1 h2 h3] at h4
    simp only [Except.ok.injEq] at h4
    subst h4
    simp [confirm] at ha
  | again s s1 s' as n r h _ _ ih =>
    obtain ⟨es, o, h1, h2, h3, h4⟩ := h
    refine ih (before := before ++ .net (.call (.execute c 10)) :: es) (by
        intro e he
        rcases List.mem_append.1 he with he | he
        · exact hp e he
        · exact Rt.tagged_call hc h1 e he) (Lt.runLate_append h0 h2) ?_
    obtain ⟨evs, a1, -⟩ := Lt.late_modem h2
    exact (C55_dead_forever hd a1).1

example : ((Net.start noCallbacks [true]).runLate moody [.serialError]).map (fun s =>
      (s.modem.reader.isDead, (s.runLate moody (.net (.call (.execute (request 7 [.write 0x40 0 [1]]) 10)) ::
        round2)).map fun s' => (s'.modem.outcomes, s'.data))) = some (true, some ([.empty], [])) := by
  decide +kernel

/-- C84, the command of the program: whatever the options, if they are accepted, the command has its tag and fits in a frame,
so the loop does not raise and the theorems above apply to it. -/
theorem C84_engineering (rand : UInt8) (a : EngineeringArgs) (c : Command) (h : engineeringCommand rand a = .ok c) :
    Taggable c rand.toNat ∧ ∃ bs, sendable c = some bs := by
  refine ⟨Rt.engineering_taggable h, ?_⟩
  obtain ⟨ch, hch⟩ : ∃ ch, ChannelID.fromString a.channelId = .ok ch := by
    cases hx : ChannelID.fromString a.channelId with
    | ok ch => exact ⟨ch, rfl⟩
    | error e =>
      unfold engineeringCommand engineeringFile at h
      rw [hx] at h
      cases h
  obtain ⟨m, hm⟩ : ∃ m, EngineeringModeMode.fromString a.mode = .ok m := by
    cases hx : EngineeringModeMode.fromString a.mode with
    | ok m => exact ⟨m, rfl⟩
    | error e =>
      unfold engineeringCommand engineeringFile at h
      rw [hx, hch] at h
      cases h
  obtain ⟨h1, h2⟩ := C70_engineering_partial rand a m ch hch hm
  obtain ⟨c', h3, h4⟩ := h1 (Classical.byContradiction fun hn => by rw [h2 hn] at h; cases h)
  rw [h] at h3
  cases h3
  obtain ⟨bs, h5, h6⟩ := Rt.layout_length h4
  refine ⟨bs, ?_⟩
  unfold sendable
  rw [h5]
  refine if_pos ?_
  simp only [List.map_append, List.sum_append] at h6
  have e1 : ((forwardOption a.forward).map Prod.fst).sum ≤ 56 := by
    cases a.forward <;> decide
  have e2 : ((tagFields rand.toNat).map Prod.fst).sum = 16 := rfl
  have e3 : ((SystemFile.engineeringMode ⟨m, 0, if m = .PER_TX ∧ a.timeout = 0 then 255 else a.timeout, ch, a.eirp⟩).fields.map Prod.fst).sum = 72 := by
    simp [SystemFile.fields, EngineeringModeFile.table, ChannelID.table, ChannelHeader.table, signedInt, Table.fields]
  rw [e2, e3] at h6
  split at h6
  · simp only [List.map_append, List.sum_append] at h6
    have e4 : ((SystemFile.factorySettings { SystemFiles.defaultFactorySettings with
        gaussian := a.factoryGaussian, paramp := a.factoryParamp }).fields.map Prod.fst).sum = 448 := by
      simp [SystemFile.fields, FactorySettingsFile.table, signedInt, Table.fields]
    rw [e4] at h6
    simp at h6
    omega
  · simp at h6
    omega

example : ((engineeringCommand 7 { channelId := ['8', '6', '8', 'L', 'P', '0', '2', '5'], mode := "PER_TX" }).toOption.bind
    sendable).map (List.take 6) = some [0xB4, 7, 4, 5, 0, 9] := by
  decide +kernel

/-- The device gets the question of `connect` after it has timed out; the answer is being handed over when the loop begins;
then the device refuses everything. -/
def connectLate : List LateEvent :=
  .net (.call (.connect true 7)) :: List.replicate 5 (.net .main) ++
    [.timeout, .net .take, .net (.send 0), .net (.read 9), .net .reader]

def wronglyConfirmed : List LateEvent :=
  List.replicate 3 (.net .main) ++ List.replicate 3 (.net .reader) ++ List.replicate 3 (.net .main)

/-- C84 without the restriction on the interleavings is false: the loop ends because the late answer to `connect` is taken
for an answer to the command; the device has not even got the command, and when it gets it, it refuses it. -/
theorem C84_refuted : ∃ s s' bs, (Net.start noCallbacks [true, false]).runLate moody connectLate = some s ∧
    sendable (request 8 [.write 0x40 0 [1]]) = some bs ∧
    (∀ q ∈ (Net.start noCallbacks [true, false]).requested moody connectLate, q.tagId ≠ some 8) ∧
    Repeat (Net.Called moody (request 8 [.write 0x40 0 [1]])) s 1 none s' ∧ s'.data = [false] ∧
    ¬ moody.Confirms s'.data 8 bs := by
  have key : ((Net.start noCallbacks [true, false]).runLate moody connectLate).bind (fun s =>
      (s.runLate moody (.net (.call (.execute (request 8 [.write 0x40 0 [1]]) 10)) :: wronglyConfirmed)).map fun s' =>
        decide (s'.modem.outcomes = s.modem.outcomes ++ [.list 2] ∧ content s'.modem.responses 2 = [answered 7 []] ∧
          s'.data = [false])) = some true := by
    decide +kernel
  obtain ⟨s, h1, h2⟩ := Option.bind_eq_some_iff.1 key
  obtain ⟨s', h3, h4⟩ := Option.map_eq_some_iff.1 h2
  obtain ⟨a, b, e⟩ := of_decide_eq_true h4
  refine ⟨s, s', [0xB4, 8, 4, 0x40, 0, 1, 1], h1, by decide +kernel, by decide +kernel,
    .done _ _ [answered 7 []] ⟨wronglyConfirmed, .list 2, by simp [wronglyConfirmed], h3, a, by rw [← b]⟩ (by decide), e, ?_⟩
  rw [e]
  rintro ⟨rs, y, g1, g2, g3⟩
  have := meaning_unique g1.meaning (moody_answers [false] 8 [4, 0x40, 0, 1, 1]).meaning
  rw [this] at g2
  rw [List.mem_singleton.1 g2] at g3
  exact absurd g3.2 (by decide)

end Verif.Modem
