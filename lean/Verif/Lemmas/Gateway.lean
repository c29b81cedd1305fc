import Verif.Lemmas.Device
import Verif.Spec.Gateway

/-! Helper lemmas: the states of a modem and a device that gives any number of answers. -/

namespace Verif.Modem.Gw

open Verif Verif.Serial

variable {D : Type}

/-- The messages the reading thread has not looked at. -/
def queued : Reader → List (Int × Msg)
  | .reading => []
  | .next q => q
  | .sync _ _ q => q
  | .syncAppend _ _ _ q => q
  | .syncDone _ q => q
  | .other _ _ q => q
  | .callback _ _ q => q
  | .rebootedCallback _ _ q => q
  | .rebooted _ _ q => q
  | .rebootedAppend _ _ _ q => q
  | .unsolicited _ _ q => q
  | .unsolicitedAppend _ _ _ q => q
  | .dead q => q

/-- The response it is about to append. -/
def taking : Reader → List Command
  | .sync _ c _ => [c]
  | .syncAppend _ c _ _ => [c]
  | _ => []

/-- A log text or a reboot message. -/
def Note (x : Int × Msg) : Prop := x.1 = 4 ∨ x.1 = 5

instance (x : Int × Msg) : Decidable (Note x) := inferInstanceAs (Decidable (_ ∨ _))

/-- The response in a message. -/
def resp (x : Int × Msg) : Option Command :=
  if Note x then none else match x.2 with
    | .command r => some r
    | _ => none

/-- The reading thread is not handing over a response. -/
def Minor : Reader → Prop
  | .reading => True
  | .next _ => True
  | .other t _ _ => t = 4 ∨ t = 5
  | .rebootedCallback _ _ _ => True
  | .rebooted _ _ _ => True
  | .rebootedAppend _ _ _ _ => True
  | _ => False

theorem minor_taking {r : Reader} (h : Minor r) : taking r = [] := by
  cases r <;> first | rfl | exact h.elim

/-- Complete frames are on the way: part of them is in the parser's buffer. -/
structure Wire (skip : Bool) (p : Parser) (line : List UInt8) (fs : List Sent) : Prop where
  skip : skip = false
  parser : p.skipAlpParsing = false
  up0 : 0 ≤ p.upCounter
  up1 : p.upCounter ≤ 255
  valid : ∀ f ∈ fs, f.Valid false
  bytes : p.buffer ++ line = (fs.map Sent.bytes).flatten
  empty : line = [] → fs = []

/-- What is read: some of the frames. -/
theorem wire_read {k : Bool} {p : Parser} {line : List UInt8} {fs : List Sent} (h : Wire k p line fs) (n : Nat) :
    ∃ q o f1 f2, p.parse (line.take n) = (q, .ok o) ∧ fs = f1 ++ f2 ∧ o.cmds = f1.map Sent.delivered ∧
      Wire k q (line.drop n) f2 := by
  have hb : (p.buffer ++ line.take n) ++ line.drop n = (fs.map Sent.bytes).flatten := by
    rw [List.append_assoc, List.take_append_drop, h.bytes]
  obtain ⟨f1, f2, e0, e1, e2, e3, e4, e5⟩ := trace_prefix fs h.valid _ _ hb
  have hp := parse_trace p (line.take n)
  unfold finish at hp
  rw [h.parser, e4, e1, (msgs_sent f1).1] at hp
  have hs := countAll_skip p (trace false (p.buffer ++ line.take n)).counts
  simp only [Bool.false_eq_true, if_false, List.nil_append] at hp
  refine ⟨_, _, f1, f2, hp, e0, rfl, h.skip, hs.1.trans h.parser, ?_, ?_, ?_, e3, e5⟩
  · simp only [hs.2.2]; exact h.up0
  · simp only [hs.2.2]; exact h.up1
  · intro f hf
    exact h.valid f (by rw [e0]; simp [hf])

theorem wire_send {k : Bool} {p : Parser} {line : List UInt8} {fs : List Sent} (h : Wire k p line fs) {f : Sent}
    (hf : f.Valid false) : Wire k p (line ++ f.bytes) (fs ++ [f]) := by
  refine ⟨h.skip, h.parser, h.up0, h.up1, ?_, ?_, ?_⟩
  · intro g hg
    rcases List.mem_append.1 hg with hg | hg
    · exact h.valid g hg
    · rw [List.mem_singleton.1 hg]; exact hf
  · rw [← List.append_assoc, h.bytes]; simp
  · intro he
    have := congrArg List.length he
    simp only [List.length_append, Sent.bytes, frame_length, List.length_nil] at this
    omega

/-- The messages on the way that have not been looked at. -/
def waiting (r : Reader) (fs : List Sent) : List (Int × Msg) := queued r ++ fs.map Sent.delivered

/-- Nothing but log texts and reboot messages is on the way. -/
structure Hush (m : State) (pend : List (List UInt8)) (line : List UInt8) (fs : List Sent) : Prop where
  wire : Wire m.config.skip m.parser line fs
  minor : Minor m.reader
  notes : ∀ x ∈ waiting m.reader fs, Note x
  pend : pend = []

/-- Steps of the reading thread left for what it has. -/
def readerLeft (r : Reader) : Nat :=
  6 * (queued r).length + match r with
    | .reading => 0
    | .next _ => 1
    | .sync _ _ _ => 6
    | .syncAppend _ _ _ _ => 5
    | .syncDone _ _ => 4
    | .other _ _ _ => 6
    | .rebooted _ _ _ => 5
    | _ => 4

/-- A step of the reading thread that has nothing to do with a response. -/
theorem minor_step {m m' : State} (h : Minor m.reader) (hn : ∀ x q, m.reader = .next (x :: q) → Note x)
    (hs : m.readerStep = some m') :
    ∃ r l k, m' = { m with reader := r, rebooted := l, rebootedCalled := k } ∧ Minor r ∧
      (∃ d, (∀ x ∈ d, Note x) ∧ queued m.reader = d ++ queued r) ∧ readerLeft r < readerLeft m.reader := by
  unfold State.readerStep at hs
  cases hr : m.reader with
  | reading => rw [hr] at hs; cases hs
  | next q =>
    rw [hr] at hs
    cases q with
    | nil =>
      simp only [Option.some.injEq] at hs
      exact ⟨.reading, m.rebooted, m.rebootedCalled, hs.symm, trivial, ⟨[], by simp, rfl⟩, by simp [readerLeft, queued]⟩
    | cons x q =>
      have hx := hn x q hr
      obtain ⟨t, msg⟩ := x
      have hi : m.isSync t msg = none := by
        unfold State.isSync
        cases msg with
        | command c =>
          simp only
          rw [if_neg]
          rintro ⟨-, -, h3⟩
          rcases hx with hx | hx <;> simp only at hx <;> omega
        | _ => rfl
      simp only [hi, Option.some.injEq] at hs
      refine ⟨.other t msg q, m.rebooted, m.rebootedCalled, hs.symm, hx, ⟨[(t, msg)], ?_, rfl⟩, ?_⟩
      · intro y hy; rw [List.mem_singleton.1 hy]; exact hx
      · simp [readerLeft, queued]; omega
  | other t msg q =>
    rw [hr] at hs h
    have h' : t = 4 ∨ t = 5 := h
    have h3 : ¬ t ≤ 3 := by omega
    simp only [h3, and_false, if_false] at hs
    rcases h' with rfl | rfl
    · simp only [show ¬ (4 : Int) = 5 by decide, if_false, if_true, Option.some.injEq] at hs
      exact ⟨.next q, m.rebooted, m.rebootedCalled, hs.symm, trivial, ⟨[], by simp, rfl⟩, by simp [readerLeft, queued]⟩
    · simp only [if_true] at hs
      split at hs
      · simp only [Option.some.injEq] at hs
        exact ⟨_, m.rebooted, m.rebootedCalled, hs.symm, trivial, ⟨[], by simp, rfl⟩, by simp [readerLeft, queued]⟩
      · simp only [Option.some.injEq] at hs
        exact ⟨_, m.rebooted, m.rebootedCalled, hs.symm, trivial, ⟨[], by simp, rfl⟩, by simp [readerLeft, queued]⟩
  | rebootedCallback t msg q =>
    rw [hr] at hs
    simp only [Option.some.injEq] at hs
    exact ⟨_, m.rebooted, _, hs.symm, trivial, ⟨[], by simp, rfl⟩, by simp [readerLeft, queued]⟩
  | rebooted t msg q =>
    rw [hr] at hs
    simp only [Option.some.injEq] at hs
    exact ⟨_, m.rebooted, m.rebootedCalled, hs.symm, trivial, ⟨[], by simp, rfl⟩, by simp [readerLeft, queued]⟩
  | rebootedAppend t msg n q =>
    rw [hr] at hs
    simp only [Option.some.injEq] at hs
    exact ⟨_, _, m.rebootedCalled, hs.symm, trivial, ⟨[], by simp, rfl⟩, by simp [readerLeft, queued]⟩
  | sync t c q => rw [hr] at h; exact h.elim
  | syncAppend t c n q => rw [hr] at h; exact h.elim
  | syncDone c q => rw [hr] at h; exact h.elim
  | callback t c q => rw [hr] at h; exact h.elim
  | unsolicited t c q => rw [hr] at h; exact h.elim
  | unsolicitedAppend t c n q => rw [hr] at h; exact h.elim
  | dead q => rw [hr] at h; exact h.elim

/-- Bytes of what has to be processed by the device: written, or about to be written. -/
def ahead (s : Net D) : List UInt8 :=
  s.modem.written.drop s.taken ++ match s.modem.main with
    | .idle => []
    | .run .wait _ _ _ _ => []
    | .run _ _ _ f _ => f

def stageLeft : Main → Nat
  | .idle => 0
  | .run .resetList _ _ _ _ => 6
  | .run .resetTag _ _ _ _ => 5
  | .run .resetCompleted _ _ _ _ => 4
  | .run .setTag _ _ _ _ => 3
  | .run .write _ _ _ _ => 2
  | .run .wait _ _ _ _ => 1

/-- Steps for an answer that has not been sent. -/
def sendLeft (ps : List (List UInt8)) : Nat := (ps.map fun p => 71 + 10 * p.length).sum

/-- Steps left, at most. -/
def work (g : Gateway D) (s : Net D) : Nat :=
  stageLeft s.modem.main +
    (match nextFrame (ahead s) with
      | none => 0
      | some p => 1 + sendLeft (g.handle s.data p).2) +
    sendLeft s.pending + 8 * (s.modem.parser.buffer.length + s.line.length) + 2 * s.line.length +
    readerLeft s.modem.reader

theorem sent_length (f : Sent) : f.bytes.length = 7 + f.payload.length := frame_length _ _ _

theorem frames_length (fs : List Sent) : 7 * fs.length ≤ ((fs.map Sent.bytes).flatten).length := by
  induction fs with
  | nil => simp
  | cons f fs ih =>
    simp only [List.map_cons, List.flatten_cons, List.length_append, List.length_cons, sent_length]
    omega

/-- A call that asks the device: who, with what payload and tag, and the state when it was called. -/
structure Job (D : Type) where
  caller : Caller
  bytes : List UInt8
  tag : Int
  old : Net D

/-- The messages on the way: notes and responses with the tag. -/
def Mixed (tag : Int) (l : List (Int × Msg)) : Prop :=
  ∀ x ∈ l, Note x ∨ ∃ r : Command, x = (1, .command r) ∧ r.tagId = some tag

/-- Where the reading thread can be while answers arrive; `done` are the responses it has appended to the list with
number `n`. -/
def Place (n : Nat) (done : List Command) (completed : Bool) : Reader → Prop
  | .sync t _ _ => t ≤ 3
  | .syncAppend _ _ k _ => k = n
  | .syncDone c _ => completed = false ∧ ∃ l, done = l ++ [c]
  | r => Minor r

/-- The phases of a call. -/
inductive Phase (g : Gateway D) (j : Job D) (s : Net D) (c : UInt8) (t : Int) : Prop
  | before (stage : Stage) (fs : List Sent) :
      s.modem.main = .run stage j.caller (some j.tag) (frame c 1 j.bytes) t →
      stage ≠ .wait → Hush s.modem s.pending s.line fs → s.taken = s.modem.written.length → s.data = j.old.data →
      s.modem.responses = (if stage = .resetList then j.old.modem.responses else j.old.modem.responses ++ [[]]) →
      (stage = .setTag ∨ stage = .write → s.modem.completed = false) →
      (stage = .write → s.modem.tag = some j.tag) → Phase g j s c t
  | sent (fs : List Sent) :
      s.modem.main = .run .wait j.caller (some j.tag) (frame c 1 j.bytes) t →
      Hush s.modem s.pending s.line fs → s.data = j.old.data → s.modem.responses = j.old.modem.responses ++ [[]] →
      s.modem.completed = false → s.modem.tag = some j.tag →
      s.modem.written.drop s.taken = frame c 1 j.bytes → Phase g j s c t
  | flow (fs : List Sent) (done pr rs : List Command) :
      s.modem.main = .run .wait j.caller (some j.tag) (frame c 1 j.bytes) t →
      Wire s.modem.config.skip s.modem.parser s.line fs → s.taken = s.modem.written.length →
      s.data = (g.handle j.old.data j.bytes).1 → Answers j.tag (g.handle j.old.data j.bytes).2 rs →
      Meaning s.pending pr → s.modem.responses = j.old.modem.responses ++ [done] → s.modem.tag = some j.tag →
      Mixed j.tag (waiting s.modem.reader fs) →
      done ++ (taking s.modem.reader ++ ((waiting s.modem.reader fs).filterMap resp ++ pr)) = rs →
      Place j.old.modem.responses.length done s.modem.completed s.modem.reader →
      (s.modem.completed = true → done = rs) →
      (s.modem.completed = false → done ≠ rs ∨ ∃ x q, s.modem.reader = .syncDone x q) →
      Phase g j s c t

/-- Nothing was handed over as unsolicited. -/
def Quiet (m : State) : Prop := m.called = [] ∧ ∀ l ∈ m.unsolicited, l = []

/-- A call is under way. -/
def Serving (g : Gateway D) (j : Job D) (s : Net D) : Prop :=
  s.modem.outcomes = j.old.modem.outcomes ∧ Quiet s.modem ∧ j.bytes.length ≤ 255 ∧
    (∃ rs, Answers j.tag (g.handle j.old.data j.bytes).2 rs) ∧ ∃ c t, 0 < t ∧ Phase g j s c t

/-- The call ends in this step. -/
def Ends (g : Gateway D) (j : Job D) (s s' : Net D) : Prop :=
  ∃ fs rs, Hush s.modem s.pending s.line fs ∧ s.taken = s.modem.written.length ∧
    s.data = (g.handle j.old.data j.bytes).1 ∧ Answers j.tag (g.handle j.old.data j.bytes).2 rs ∧
    s.modem.responses = j.old.modem.responses ++ [rs] ∧
    s' = { s with modem := s.modem.finishExecute j.caller (some j.old.modem.responses.length) }

/-- What the other events cost. -/
def noticeSize (e : NetEvent) : Nat := noticeBytes [e]

theorem busy {g : Gateway D} {s s' : Net D} {c : Call} {stage caller tag f t}
    (hm : s.modem.main = .run stage caller tag f t) (hs : s.step g (.call c) = some s') : False := by
  simp only [Net.step, State.step, hm] at hs
  simp at hs

theorem note_log (k : UInt8) (text : List UInt8) (h : text.length ≤ 255) :
    ∃ f : Sent, f.Valid false ∧ f.bytes = frame k 4 text ∧ Note f.delivered :=
  ⟨⟨k, 4, text, .bytes text⟩, ⟨h, .logging text⟩, rfl, .inl rfl⟩

theorem note_reboot (k r : UInt8) : ∃ f : Sent, f.Valid false ∧ f.bytes = frame k 5 [r] ∧ Note f.delivered :=
  ⟨⟨k, 5, [r], .rebooted r.toNat⟩, ⟨by simp, .rebooted r⟩, rfl, .inr rfl⟩

/-- Events that only concern what comes from the device. -/
theorem hush_step {g : Gateway D} {s s' : Net D} {e : NetEvent} {fs : List Sent}
    (h : Hush s.modem s.pending s.line fs) (he : e ≠ .main) (hc : ∀ c, e ≠ .call c) (ht : e ≠ .take)
    (hs : s.step g e = some s') :
    ∃ p r l k rc line fs', s' = { s with
        modem := { s.modem with parser := p, reader := r, rebooted := l, rebootedCalled := k, received := rc }
        line := line } ∧
      Hush s'.modem s'.pending s'.line fs' ∧
      8 * (p.buffer.length + line.length) + 2 * line.length + readerLeft r < 8 * (s.modem.parser.buffer.length +
        s.line.length) + 2 * s.line.length + readerLeft s.modem.reader +
        11 * noticeSize e := by
  obtain ⟨hw, hmi, hn, hp⟩ := h
  have hnote : ∀ f : Sent, f.Valid false → Note f.delivered → Hush s.modem s.pending (s.line ++ f.bytes) (fs ++ [f]) := by
    intro f hf hnf
    refine ⟨wire_send hw hf, hmi, ?_, hp⟩
    intro x hx
    simp only [waiting, List.map_append, ← List.append_assoc] at hx
    rcases List.mem_append.1 hx with hx | hx
    · exact hn x hx
    · simp only [List.map_cons, List.map_nil, List.mem_singleton] at hx
      rw [hx]; exact hnf
  cases e with
  | call c => exact absurd rfl (hc c)
  | main => exact absurd rfl he
  | take => exact absurd rfl ht
  | send k =>
    simp only [Net.step, hp] at hs
    cases hs
  | log k text =>
    simp only [Net.step] at hs
    by_cases hl : text.length ≤ 255
    · rw [if_pos hl] at hs
      simp only [Option.some.injEq] at hs
      obtain ⟨f, h1, h2, h3⟩ := note_log k text hl
      have h4 := hnote f h1 h3
      rw [h2] at h4
      subst hs
      refine ⟨s.modem.parser, s.modem.reader, s.modem.rebooted, s.modem.rebootedCalled, s.modem.received, _, _, rfl, h4,
        ?_⟩
      simp only [List.length_append, frame_length, noticeSize, noticeBytes]
      omega
    · rw [if_neg hl] at hs; cases hs
  | reboot k r =>
    simp only [Net.step, Option.some.injEq] at hs
    obtain ⟨f, h1, h2, h3⟩ := note_reboot k r
    have h4 := hnote f h1 h3
    rw [h2] at h4
    subst hs
    refine ⟨s.modem.parser, s.modem.reader, s.modem.rebooted, s.modem.rebootedCalled, s.modem.received, _, _, rfl, h4,
      ?_⟩
    simp only [List.length_append, frame_length, noticeSize, noticeBytes, List.length_singleton]
    omega
  | reader =>
    obtain ⟨m', hm', rfl⟩ := Option.map_eq_some_iff.1 hs
    obtain ⟨r, l, k, rfl, h1, ⟨d, h2, h3⟩, h4⟩ := minor_step hmi
      (fun x q hx => hn x (by simp [waiting, hx, queued])) hm'
    refine ⟨s.modem.parser, r, l, k, s.modem.received, s.line, fs, rfl, ⟨hw, h1, ?_, hp⟩, ?_⟩
    · intro x hx
      refine hn x ?_
      simp only [waiting] at hx ⊢
      rw [h3, List.append_assoc]
      exact List.mem_append_right _ hx
    · simp only [noticeSize, noticeBytes]
      omega
  | read n =>
    simp only [Net.step] at hs
    by_cases hl : 0 < n ∧ n ≤ s.line.length
    · rw [if_pos hl] at hs
      obtain ⟨m', hm', rfl⟩ := Option.map_eq_some_iff.1 hs
      simp only [State.step, State.rxStep] at hm'
      obtain ⟨q, o, f1, f2, h1, h2, h3, h4⟩ := wire_read hw n
      cases hr : s.modem.reader with
      | reading =>
        rw [hr, h1] at hm'
        simp only [Option.some.injEq] at hm'
        subst hm'
        refine ⟨q, .next o.cmds, s.modem.rebooted, s.modem.rebootedCalled, s.modem.received ++ o.cmds,
          s.line.drop n, f2, rfl, ⟨h4, trivial, ?_, hp⟩, ?_⟩
        · intro x hx
          refine hn x ?_
          simp only [waiting, queued] at hx ⊢
          rw [hr, h2]
          simpa [h3] using hx
        · have e1 := congrArg List.length hw.bytes
          have e2 := congrArg List.length h4.bytes
          have e3 := frames_length f1
          rw [h2, List.map_append, List.flatten_append] at e1
          simp only [List.length_append, List.length_drop] at e1 e2 ⊢
          simp only [noticeSize, noticeBytes, readerLeft, queued, h3, List.length_map, List.length_nil]
          omega
      | _ => rw [hr] at hm'; cases hm'
    · rw [if_neg hl] at hs; cases hs

theorem resp_note {x : Int × Msg} (h : Note x) : resp x = none := if_pos h

theorem resp_answer (r : Command) : resp (1, .command r) = some r := by
  unfold resp
  rw [if_neg]
  rintro (h | h) <;> cases h

theorem filterMap_notes {l : List (Int × Msg)} (h : ∀ x ∈ l, Note x) : l.filterMap resp = [] := by
  rw [List.filterMap_eq_nil_iff]
  exact fun x hx => resp_note (h x hx)

/-- Taking a frame that is there. -/
theorem sent_take {g : Gateway D} {s s' : Net D} {c : UInt8} {p : List UInt8} (hl : p.length ≤ 255)
    (hw : s.modem.written.drop s.taken = frame c 1 p) (hs : s.step g .take = some s') :
    s' = { s with
      taken := s.modem.written.length
      data := (g.handle s.data p).1
      pending := s.pending ++ (g.handle s.data p).2 } := by
  have hlen := congrArg List.length hw
  rw [List.length_drop, frame_length] at hlen
  have hn := nextFrame_frame c p [] hl
  rw [List.append_nil, ← hw] at hn
  simp only [Net.step, hn, Option.some.injEq] at hs
  subst hs
  have : s.taken + 7 + p.length = s.modem.written.length := by omega
  rw [this]

theorem taken_take {g : Gateway D} {s s' : Net D} (h : s.taken = s.modem.written.length)
    (hs : s.step g .take = some s') : False := by
  simp only [Net.step, h, List.drop_length, nextFrame_nil] at hs
  cases hs

/-- The last of the answers is the one that completes. -/
theorem final_last {tag : Int} {ps : List (List UInt8)} {rs l rest : List Command} {x : Command}
    (h : Answers tag ps rs) (he : l ++ [x] ++ rest = rs) : x.executionCompleted = true ↔ rest = [] := by
  obtain ⟨l0, y, h1, h2, h3⟩ := h.final
  constructor
  · intro hx
    by_contra hne
    obtain ⟨r, z, rfl⟩ : ∃ r z, rest = r ++ [z] := ⟨rest.dropLast, rest.getLast hne, (List.dropLast_concat_getLast hne).symm⟩
    rw [h1, ← List.append_assoc] at he
    have := (List.append_inj_left' he rfl)
    have hm : x ∈ l0 := by rw [← this]; simp
    rw [h3 x hm] at hx
    cases hx
  · rintro rfl
    rw [List.append_nil, h1] at he
    have := (List.append_inj_right' he rfl)
    simp only [List.cons.injEq, and_true] at this
    rw [this]; exact h2

theorem ahead_wait {s : Net D} {caller tag f t} (hm : s.modem.main = .run .wait caller tag f t) :
    ahead s = s.modem.written.drop s.taken := by
  simp [ahead, hm]

theorem work_flow {g : Gateway D} {s : Net D} {caller tag f t} (hm : s.modem.main = .run .wait caller tag f t)
    (ht : s.taken = s.modem.written.length) : work g s = 1 + sendLeft s.pending + 8 * (s.modem.parser.buffer.length +
      s.line.length) + 2 * s.line.length + readerLeft s.modem.reader := by
  simp only [work, ahead_wait hm, ht, List.drop_length, nextFrame_nil, hm, stageLeft]

/-- A step while the answers arrive. -/
theorem flow_step {g : Gateway D} {j : Job D} {s s' : Net D} {c : UInt8} {t : Int} {e : NetEvent} {fs : List Sent}
    {done pr rs : List Command}
    (hm : s.modem.main = .run .wait j.caller (some j.tag) (frame c 1 j.bytes) t)
    (hw : Wire s.modem.config.skip s.modem.parser s.line fs) (ht : s.taken = s.modem.written.length)
    (hd : s.data = (g.handle j.old.data j.bytes).1) (ha : Answers j.tag (g.handle j.old.data j.bytes).2 rs)
    (hp : Meaning s.pending pr) (hl : s.modem.responses = j.old.modem.responses ++ [done])
    (htg : s.modem.tag = some j.tag) (hmix : Mixed j.tag (waiting s.modem.reader fs))
    (hall : done ++ (taking s.modem.reader ++ ((waiting s.modem.reader fs).filterMap resp ++ pr)) = rs)
    (hpl : Place j.old.modem.responses.length done s.modem.completed s.modem.reader)
    (hc1 : s.modem.completed = true → done = rs)
    (hc2 : s.modem.completed = false → done ≠ rs ∨ ∃ x q, s.modem.reader = .syncDone x q)
    (hs : s.step g e = some s') :
    ((s'.modem.outcomes = s.modem.outcomes ∧ s'.modem.called = s.modem.called ∧
      s'.modem.unsolicited = s.modem.unsolicited) ∧ Phase g j s' c t ∧ work g s' < work g s + 11 * noticeSize e) ∨
      (e = .main ∧ Ends g j s s') := by
  have hnote : ∀ f : Sent, f.Valid false → Note f.delivered →
      Phase g j { s with line := s.line ++ f.bytes } c t := by
    intro f hf hnf
    have h1 : waiting s.modem.reader (fs ++ [f]) = waiting s.modem.reader fs ++ [f.delivered] := by
      simp [waiting]
    refine .flow (fs ++ [f]) done pr rs hm (wire_send hw hf) ht hd ha hp hl htg ?_ ?_ hpl hc1 hc2
    · rw [h1]
      intro x hx
      rcases List.mem_append.1 hx with hx | hx
      · exact hmix x hx
      · rw [List.mem_singleton.1 hx]; exact .inl hnf
    · rw [h1, List.filterMap_append]
      simp only [List.filterMap_cons, resp_note hnf, List.filterMap_nil, List.append_nil]
      exact hall
  cases e with
  | call cl => exact (busy hm hs).elim
  | take => exact (taken_take ht hs).elim
  | log k text =>
    left
    simp only [Net.step] at hs
    by_cases hlen : text.length ≤ 255
    · rw [if_pos hlen] at hs
      simp only [Option.some.injEq] at hs
      obtain ⟨f, h1, h2, h3⟩ := note_log k text hlen
      have h4 := hnote f h1 h3
      rw [h2] at h4
      subst hs
      refine ⟨⟨rfl, rfl, rfl⟩, h4, ?_⟩
      rw [work_flow hm ht, work_flow (s := { s with line := s.line ++ frame k 4 text }) hm ht]
      simp only [List.length_append, frame_length, noticeSize, noticeBytes]
      omega
    · rw [if_neg hlen] at hs; cases hs
  | reboot k r =>
    left
    simp only [Net.step, Option.some.injEq] at hs
    obtain ⟨f, h1, h2, h3⟩ := note_reboot k r
    have h4 := hnote f h1 h3
    rw [h2] at h4
    subst hs
    refine ⟨⟨rfl, rfl, rfl⟩, h4, ?_⟩
    rw [work_flow hm ht, work_flow (s := { s with line := s.line ++ frame k 5 [r] }) hm ht]
    simp only [List.length_append, frame_length, noticeSize, noticeBytes, List.length_singleton]
    omega
  | send k =>
    left
    obtain ⟨modem, data, taken, pending, line⟩ := s
    simp only at hm hw ht hd hp hl htg hmix hall hpl hc1 hc2 hs hnote
    cases pending with
    | nil => simp only [Net.step] at hs; cases hs
    | cons p ps =>
      simp only [Net.step, Option.some.injEq] at hs
      subst hs
      cases hp with
      | @cons _ r _ pr hpr hp =>
      have hf : Sent.Valid false ⟨k, 1, p, .command r⟩ := hpr
      have h1 : waiting modem.reader (fs ++ [⟨k, 1, p, .command r⟩]) =
          waiting modem.reader fs ++ [(1, .command r)] := by
        simp only [waiting, List.map_append, List.append_assoc]; rfl
      have hr : r ∈ rs := by rw [← hall]; simp
      have hw' : Wire modem.config.skip modem.parser (line ++ frame k 1 p) (fs ++ [⟨k, 1, p, .command r⟩]) :=
        wire_send hw hf
      refine ⟨⟨rfl, rfl, rfl⟩, .flow (fs ++ [⟨k, 1, p, .command r⟩]) done pr rs hm hw' ht hd ha hp hl htg ?_ ?_ hpl hc1 hc2, ?_⟩
      · simp only
        rw [h1]
        intro x hx
        rcases List.mem_append.1 hx with hx | hx
        · exact hmix x hx
        · rw [List.mem_singleton.1 hx]
          exact .inr ⟨r, rfl, ha.tagged r hr⟩
      · simp only
        rw [h1, List.filterMap_append]
        simp only [List.filterMap_cons, resp_answer, List.filterMap_nil]
        rw [← hall]
        simp
      · rw [work_flow (s := ⟨modem, data, taken, p :: ps, line⟩) hm ht,
          work_flow (s := ⟨modem, data, taken, ps, line ++ frame k 1 p⟩) hm ht]
        simp only [List.length_append, frame_length, sendLeft, List.map_cons, List.sum_cons]
        omega
  | main =>
    right
    simp only [Net.step, State.step, State.mainStep, hm] at hs
    by_cases hc : s.modem.completed = true
    · rw [if_pos hc] at hs
      simp only [Option.map_some, Option.some.injEq] at hs
      have hdone := hc1 hc
      subst hdone
      have hz := List.append_right_eq_self.1 hall
      obtain ⟨z1, hz⟩ := List.append_eq_nil_iff.1 hz
      obtain ⟨z2, z3⟩ := List.append_eq_nil_iff.1 hz
      subst z3
      have hpend : s.pending = [] := by
        unfold Meaning at hp
        generalize s.pending = q at hp ⊢
        cases hp
        rfl
      refine ⟨rfl, fs, done, ⟨hw, ?_, ?_, hpend⟩, ht, hd, ha, hl, ?_⟩
      · cases hr : s.modem.reader <;> rw [hr] at hpl z1 <;> first | exact hpl | cases z1 | skip
        exact absurd hpl.1 (by rw [hc]; simp)
      · intro x hx
        rcases hmix x hx with h | ⟨r, rfl, -⟩
        · exact h
        · have := List.filterMap_eq_nil_iff.1 z2 _ hx
          rw [resp_answer] at this
          cases this
      · rw [← hs, hl]
        simp
    · rw [if_neg hc] at hs; cases hs
  | read n =>
    left
    simp only [Net.step] at hs
    by_cases hn : 0 < n ∧ n ≤ s.line.length
    · rw [if_pos hn] at hs
      obtain ⟨m', hm', rfl⟩ := Option.map_eq_some_iff.1 hs
      simp only [State.step, State.rxStep] at hm'
      obtain ⟨q, o, f1, f2, h1, h2, h3, h4⟩ := wire_read hw n
      cases hr : s.modem.reader with
      | reading =>
        rw [hr, h1] at hm'
        simp only [Option.some.injEq] at hm'
        subst hm'
        have h5 : waiting (.next o.cmds) f2 = waiting s.modem.reader fs := by
          rw [hr, h2]; simp [waiting, queued, h3]
        refine ⟨⟨rfl, rfl, rfl⟩, .flow f2 done pr rs hm h4 ht hd ha hp hl htg ?_ ?_ trivial hc1 ?_, ?_⟩
        · simp only; rw [h5]; exact hmix
        · simp only; rw [h5, ← hall, hr]; rfl
        · intro hf
          rcases hc2 hf with h | ⟨x, y, h⟩
          · exact .inl h
          · rw [hr] at h; cases h
        · rw [work_flow hm ht]
          refine lt_of_eq_of_lt (work_flow (g := g) hm ht) ?_
          have e1 := congrArg List.length hw.bytes
          have e2 := congrArg List.length h4.bytes
          have e3 := frames_length f1
          rw [h2, List.map_append, List.flatten_append] at e1
          simp only [List.length_append, List.length_drop] at e1 e2 ⊢
          simp only [noticeSize, noticeBytes, readerLeft, queued, h3, List.length_map, List.length_nil, hr]
          omega
      | _ => rw [hr] at hm'; cases hm'
    · rw [if_neg hn] at hs; cases hs
  | reader =>
    left
    obtain ⟨m', hm', rfl⟩ := Option.map_eq_some_iff.1 hs
    have hrest : ∀ r l k, Minor r → (∃ d, (∀ x ∈ d, Note x) ∧ queued s.modem.reader = d ++ queued r) →
        readerLeft r < readerLeft s.modem.reader → Minor s.modem.reader →
        m' = { s.modem with reader := r, rebooted := l, rebootedCalled := k } →
        ((m'.outcomes = s.modem.outcomes ∧ m'.called = s.modem.called ∧ m'.unsolicited = s.modem.unsolicited) ∧
          Phase g j { s with modem := m' } c t ∧
          work g { s with modem := m' } < work g s + 11 * noticeSize .reader) := by
      rintro r l k h1 ⟨d, h2, h3⟩ h4 h5 rfl
      have hwt : waiting s.modem.reader fs = d ++ waiting r fs := by simp [waiting, h3]
      refine ⟨⟨rfl, rfl, rfl⟩, .flow fs done pr rs hm hw ht hd ha hp hl htg ?_ ?_ ?_ hc1 ?_, ?_⟩
      · intro x hx
        exact hmix x (by rw [hwt]; exact List.mem_append_right _ hx)
      · simp only
        rw [minor_taking h1, ← hall, minor_taking h5, hwt, List.filterMap_append, filterMap_notes h2]
        rfl
      · cases r <;> first | exact h1 | exact h1.elim
      · intro hf
        rcases hc2 hf with h | ⟨x, y, h⟩
        · exact .inl h
        · rw [h] at h5; exact h5.elim
      · rw [work_flow hm ht]
        refine lt_of_eq_of_lt (work_flow (g := g) hm ht) ?_
        simp only [noticeSize, noticeBytes]
        omega
    have hminor : Minor s.modem.reader → (∀ x q, s.modem.reader = .next (x :: q) → Note x) →
        ((m'.outcomes = s.modem.outcomes ∧ m'.called = s.modem.called ∧ m'.unsolicited = s.modem.unsolicited) ∧
          Phase g j { s with modem := m' } c t ∧
          work g { s with modem := m' } < work g s + 11 * noticeSize .reader) := by
      intro h1 h2
      obtain ⟨r, l, k, h3, h4, h5, h6⟩ := minor_step h1 h2 hm'
      exact hrest r l k h4 h5 h6 h1 h3
    cases hr : s.modem.reader with
    | next q =>
      cases q with
      | nil => exact hminor (by rw [hr]; trivial) (by rw [hr]; intro x q h; cases h)
      | cons x q =>
        rcases hmix x (by simp [waiting, hr, queued]) with h | ⟨r, rfl, h⟩
        · exact hminor (by rw [hr]; trivial) (by rw [hr]; intro y q h'; cases h'; exact h)
        · have hi : s.modem.isSync 1 (.command r) = some r := by
            simp only [State.isSync]
            rw [if_pos ⟨by simp [hw.skip], by rw [htg, h], by decide⟩]
          simp only [State.step, State.readerStep, hr, hi, Option.some.injEq] at hm'
          subst hm'
          have hwt : waiting s.modem.reader fs = (1, .command r) :: waiting (.sync 1 r q) fs := by
            simp [waiting, hr, queued]
          refine ⟨⟨rfl, rfl, rfl⟩, .flow fs done pr rs hm hw ht hd ha hp hl htg ?_ ?_ (by decide : (1 : Int) ≤ 3) hc1 ?_, ?_⟩
          · intro y hy
            exact hmix y (by rw [hwt]; exact List.mem_cons_of_mem _ hy)
          · simp only
            rw [← hall, hwt, hr]
            simp [taking, resp_answer]
          · intro hf
            rcases hc2 hf with h | ⟨x, y, h⟩
            · exact .inl h
            · rw [hr] at h; cases h
          · rw [work_flow hm ht]
            refine lt_of_eq_of_lt (work_flow (g := g) hm ht) ?_
            simp only [noticeSize, noticeBytes, readerLeft, queued, hr, List.length_cons]
            omega
    | sync tt r q =>
      simp only [State.step, State.readerStep, hr, Option.some.injEq] at hm'
      subst hm'
      refine ⟨⟨rfl, rfl, rfl⟩, .flow fs done pr rs hm hw ht hd ha hp hl htg ?_ ?_ ?_ hc1 ?_, ?_⟩
      · rw [hr] at hmix; exact hmix
      · rw [hr] at hall; exact hall
      · show s.modem.responses.length - 1 = _
        rw [hl]; simp
      · intro hf
        rcases hc2 hf with h | ⟨x, y, h⟩
        · exact .inl h
        · rw [hr] at h; cases h
      · rw [work_flow hm ht]
        refine lt_of_eq_of_lt (work_flow (g := g) hm ht) ?_
        simp only [noticeSize, noticeBytes, readerLeft, queued, hr]
        omega
    | syncAppend tt r n q =>
      rw [hr] at hpl hall hmix
      have hpl' : n = j.old.modem.responses.length := hpl
      subst hpl'
      simp only [State.step, State.readerStep, hr, Option.some.injEq] at hm'
      subst hm'
      have hne : done ≠ rs := by
        intro h
        rw [h] at hall
        simp [taking] at hall
      have hcf : s.modem.completed = false := by
        by_contra h
        exact hne (hc1 (by simpa using h))
      refine ⟨⟨rfl, rfl, rfl⟩, .flow fs (done ++ [r]) pr rs hm hw ht hd ha hp ?_ htg hmix ?_ ⟨hcf, done, rfl⟩ ?_ ?_, ?_⟩
      · simp only [hl, modify_last]
      · simp only
        rw [← hall]
        simp [taking, waiting, queued]
      · intro h
        simp only [hcf] at h
        cases h
      · intro _
        exact .inr ⟨r, q, rfl⟩
      · rw [work_flow hm ht]
        refine lt_of_eq_of_lt (work_flow (g := g) hm ht) ?_
        simp only [noticeSize, noticeBytes, readerLeft, queued, hr]
        omega
    | syncDone x q =>
      rw [hr] at hpl hall hmix
      obtain ⟨hcf, l, rfl⟩ := hpl
      simp only [State.step, State.readerStep, hr, Option.some.injEq, hcf, Bool.false_or] at hm'
      subst hm'
      have hfin := final_last ha hall
      have hsame : l ++ [x] = rs ↔ x.executionCompleted = true := by
        rw [hfin, ← hall]
        exact ⟨fun h => List.append_right_eq_self.1 h.symm, fun h => by rw [h]; simp⟩
      refine ⟨⟨rfl, rfl, rfl⟩, .flow fs (l ++ [x]) pr rs hm hw ht hd ha hp hl htg hmix hall trivial hsame.2 ?_, ?_⟩
      · intro h
        left
        intro h'
        have := hsame.1 h'
        simp only [this] at h
        cases h
      · rw [work_flow hm ht]
        refine lt_of_eq_of_lt (work_flow (g := g) hm ht) ?_
        simp only [noticeSize, noticeBytes, readerLeft, queued, hr]
        omega
    | reading => exact hminor (by rw [hr]; trivial) (by rw [hr]; intro x q h; cases h)
    | other tt y q => exact hminor (by rw [hr] at hpl ⊢; exact hpl) (by rw [hr]; intro x q h; cases h)
    | rebootedCallback tt y q => exact hminor (by rw [hr]; trivial) (by rw [hr]; intro x q h; cases h)
    | rebooted tt y q => exact hminor (by rw [hr]; trivial) (by rw [hr]; intro x q h; cases h)
    | rebootedAppend tt y n q => exact hminor (by rw [hr]; trivial) (by rw [hr]; intro x q h; cases h)
    | callback tt y q => rw [hr] at hpl; exact hpl.elim
    | unsolicited tt y q => rw [hr] at hpl; exact hpl.elim
    | unsolicitedAppend tt y n q => rw [hr] at hpl; exact hpl.elim
    | dead q => rw [hr] at hpl; exact hpl.elim

theorem serving_step {g : Gateway D} {j : Job D} {s s' : Net D} {e : NetEvent} (h : Serving g j s)
    (hs : s.step g e = some s') :
    (Serving g j s' ∧ work g s' < work g s + 11 * noticeSize e) ∨ (e = .main ∧ Ends g j s s') := by
  obtain ⟨ho, hq, hlen, hans, c, t, ht, hp⟩ := h
  cases hp with
  | flow fs done pr rs hm hw htk hd ha hp hl htg hmix hall hpl hc1 hc2 =>
    rcases flow_step hm hw htk hd ha hp hl htg hmix hall hpl hc1 hc2 hs with ⟨h1, h2, h3⟩ | h
    · exact .inl ⟨⟨h1.1.trans ho, ⟨h1.2.1.trans hq.1, by rw [h1.2.2]; exact hq.2⟩, hlen, hans, c, t, ht, h2⟩, h3⟩
    · exact .inr h
  | sent fs hm hh hd hl hc htg hw =>
    left
    by_cases he : e = .main
    · subst he
      simp only [Net.step, State.step, State.mainStep, hm, hc] at hs
      simp at hs
    by_cases hca : ∃ cl, e = .call cl
    · obtain ⟨cl, rfl⟩ := hca
      exact (busy hm hs).elim
    by_cases hta : e = .take
    · subst hta
      have hx := sent_take hlen hw hs
      subst hx
      obtain ⟨rs, ha⟩ := hans
      have hw0 : work g s = 1 + (1 + sendLeft (g.handle s.data j.bytes).2) + 8 * (s.modem.parser.buffer.length +
          s.line.length) + 2 * s.line.length + readerLeft s.modem.reader := by
        have hn := nextFrame_frame c j.bytes [] hlen
        rw [List.append_nil] at hn
        simp only [work, ahead_wait hm, hw, hn, hm, stageLeft, hh.pend]
        simp [sendLeft]
      refine ⟨⟨ho, hq, hlen, ⟨rs, ha⟩, c, t, ht, .flow fs [] rs rs hm hh.wire rfl (by rw [hd]) ha ?_ hl htg ?_ ?_ ?_ ?_ ?_⟩,
        ?_⟩
      · simp only [hh.pend, List.nil_append, hd]
        exact ha.meaning
      · exact fun x hx => .inl (hh.notes x hx)
      · simp only
        rw [minor_taking hh.minor, filterMap_notes hh.notes]
        rfl
      · have := hh.minor
        cases hr : s.modem.reader <;> rw [hr] at this <;> first | exact this | exact this.elim
      · intro h
        simp only [hc] at h
        cases h
      · intro _
        left
        obtain ⟨l, x, h, -⟩ := ha.final
        rw [h]
        simp
      · rw [hw0]
        refine lt_of_eq_of_lt (work_flow (g := g) hm rfl) ?_
        simp only [hh.pend, List.nil_append]
        omega
    · obtain ⟨p, r, l, k, rc, line, fs', rfl, h1, h2⟩ := hush_step hh he (fun cl h => hca ⟨cl, h⟩) hta hs
      refine ⟨⟨ho, hq, hlen, hans, c, t, ht, .sent fs' hm h1 hd hl hc htg hw⟩, ?_⟩
      simp only [work, ahead]
      omega
  | before stage fs hm hw hh htk hd hl hc htg =>
    left
    by_cases he : e = .main
    · subst he
      simp only [Net.step, State.step, State.mainStep, hm] at hs
      cases stage with
      | resetList =>
        simp only [Option.map_some, Option.some.injEq] at hs
        subst hs
        refine ⟨⟨ho, hq, hlen, hans, c, t, ht, .before .resetTag fs rfl (by simp) ⟨hh.1, hh.2, hh.3, hh.4⟩ htk hd ?_
          (by simp) (by simp)⟩, ?_⟩
        · simpa using hl
        · simp only [work, ahead, hm, stageLeft]; omega
      | resetTag =>
        simp only [Option.map_some, Option.some.injEq] at hs
        subst hs
        refine ⟨⟨ho, hq, hlen, hans, c, t, ht, .before .resetCompleted fs rfl (by simp) ⟨hh.1, hh.2, hh.3, hh.4⟩ htk hd
          (by simpa using hl) (by simp) (by simp)⟩, ?_⟩
        simp only [work, ahead, hm, stageLeft]; omega
      | resetCompleted =>
        simp only [Option.map_some, Option.some.injEq] at hs
        subst hs
        refine ⟨⟨ho, hq, hlen, hans, c, t, ht, .before .setTag fs rfl (by simp) ⟨hh.1, hh.2, hh.3, hh.4⟩ htk hd
          (by simpa using hl) (by simp) (by simp)⟩, ?_⟩
        simp only [work, ahead, hm, stageLeft]; omega
      | setTag =>
        simp only [Option.map_some, Option.some.injEq] at hs
        subst hs
        refine ⟨⟨ho, hq, hlen, hans, c, t, ht, .before .write fs rfl (by simp) ⟨hh.1, hh.2, hh.3, hh.4⟩ htk hd
          (by simpa using hl) (fun _ => hc (.inl rfl)) (fun _ => if_pos ht)⟩, ?_⟩
        simp only [work, ahead, hm, stageLeft]; omega
      | write =>
        dsimp only at hs
        rw [if_neg (by omega)] at hs
        simp only [Option.map_some, Option.some.injEq] at hs
        subst hs
        refine ⟨⟨ho, hq, hlen, hans, c, t, ht, .sent fs rfl ⟨hh.1, hh.2, hh.3, hh.4⟩ hd (by simpa using hl) (hc (.inr rfl))
          (htg rfl) (by simp [htk])⟩, ?_⟩
        simp only [work, ahead, hm, stageLeft, htk, List.drop_left, List.drop_length, List.append_nil, List.nil_append]
        omega
      | wait => exact absurd rfl hw
    by_cases hca : ∃ cl, e = .call cl
    · obtain ⟨cl, rfl⟩ := hca
      exact (busy hm hs).elim
    by_cases hta : e = .take
    · subst hta
      exact (taken_take htk hs).elim
    · obtain ⟨p, r, l, k, rc, line, fs', rfl, h1, h2⟩ := hush_step hh he (fun cl h => hca ⟨cl, h⟩) hta hs
      refine ⟨⟨ho, hq, hlen, hans, c, t, ht, .before stage fs' hm hw h1 htk hd hl hc htg⟩, ?_⟩
      simp only [work, ahead]
      omega

/-- No call is in progress and no answer is on the way. -/
def Idle (s : Net D) : Prop :=
  ∃ fs, Hush s.modem s.pending s.line fs ∧ s.taken = s.modem.written.length ∧ s.modem.main = .idle ∧ Quiet s.modem

theorem sendable_some {c : Command} {bs : List UInt8} (h : sendable c = some bs) :
    bytearray c.iter = .ok bs ∧ bs.length ≤ 255 := by
  unfold sendable at h
  split at h
  · split at h
    · cases h; exact ⟨by assumption, by assumption⟩
    · cases h
  · cases h

/-- Calling `execute_command`. -/
theorem execute_step {g : Gateway D} (hg : g.Conforms) {s : Net D} (h : Idle s) (caller : Caller) {cmd : Command}
    {tag timeout : Int} (ht : 0 < timeout) (hc : Taggable cmd tag) :
    (∀ bs, sendable cmd = some bs →
      Serving g ⟨caller, bs, tag, s⟩ { s with modem := s.modem.startExecute caller cmd timeout }) ∧
    (sendable cmd = none → ∃ e, s.modem.startExecute caller cmd timeout = s.modem.finish (.raised e)) := by
  obtain ⟨fs, hh, htk, hm, hq⟩ := h
  obtain ⟨b1, b2, b3⟩ := C28_builder s.modem.parser hh.wire.up0 hh.wire.up1 cmd.iter
  constructor
  · intro bs hbs
    obtain ⟨h1, h2⟩ := sendable_some hbs
    have hb := b1 _ h1 h2
    have hx : s.modem.startExecute caller cmd timeout =
        { s.modem with
          parser := { s.modem.parser with
            upCounter := if s.modem.parser.upCounter = 255 then 0 else s.modem.parser.upCounter + 1 }
          main := .run .resetList caller (some tag)
            (frame (UInt8.ofNat s.modem.parser.upCounter.toNat) 1 bs) timeout } := by
      unfold State.startExecute
      rw [hb, hh.wire.skip, ← hc.2.2]
      rfl
    rw [hx]
    have h0 := hh.wire.up0
    have h1 := hh.wire.up1
    refine ⟨rfl, hq, h2, hg _ _ _ _ hc.1 hc.2.1 hc.2.2 hbs, _, timeout, ht, .before .resetList fs rfl (by simp)
      ⟨⟨hh.wire.1, hh.wire.2, ?_, ?_, hh.wire.5, hh.wire.6, hh.wire.7⟩, hh.minor, hh.notes, hh.pend⟩ htk rfl rfl (by simp)
      (by simp)⟩
    · simp only; split <;> omega
    · simp only; split <;> omega
  · intro hn
    unfold sendable at hn
    unfold State.startExecute
    cases hb : bytearray cmd.iter with
    | error e => rw [b3 e hb]; exact ⟨e, rfl⟩
    | ok bs =>
      rw [hb] at hn
      by_cases hl : bs.length ≤ 255
      · simp [hl] at hn
      · rw [b2 bs hb (by omega)]; exact ⟨_, rfl⟩

theorem question_taggable (tag : UInt8) : Taggable (question tag) tag.toNat := ⟨rfl, rfl, rfl⟩

theorem question_sendable (tag : UInt8) : ∃ bs, sendable (question tag) = some bs := by
  refine ⟨requestBytes tag identification, ?_⟩
  have h := request_emits tag identification_valid
  unfold Emits at h
  unfold sendable
  rw [question_request, h]
  exact if_pos (identification_fits tag)

/-- What a call does at once. -/
theorem call_step {g : Gateway D} (hg : g.Conforms) {s : Net D} {c : Call} (h : Idle s) (hp : Polite (.call c)) :
    Idle { s with modem := s.modem.startCall c } ∨
      ∃ caller bs tag, Serving g ⟨caller, bs, tag, s⟩ { s with modem := s.modem.startCall c } := by
  have hqs : Quiet s.modem := h.choose_spec.2.2.2
  have hfin : ∀ (m : State) (o : Outcome), m.config = s.modem.config → m.parser = s.modem.parser →
      m.reader = s.modem.reader → m.written = s.modem.written → Quiet m → Idle { s with modem := m.finish o } := by
    intro m o h1 h2 h3 h4 h5
    obtain ⟨fs, hh, htk, hm, hq⟩ := h
    refine ⟨fs, ⟨?_, ?_, ?_, hh.pend⟩, ?_, rfl, h5⟩
    · simp only [State.finish, h1, h2]; exact hh.wire
    · simp only [State.finish, h3]; exact hh.minor
    · simp only [State.finish, h3]; exact hh.notes
    · simp only [State.finish, h4]; exact htk
  have hex : ∀ caller cmd tag timeout, 0 < timeout → Taggable cmd tag →
      Idle { s with modem := s.modem.startExecute caller cmd timeout } ∨
      ∃ caller' bs tag, Serving g ⟨caller', bs, tag, s⟩ { s with modem := s.modem.startExecute caller cmd timeout } := by
    intro caller cmd tag timeout ht hc
    obtain ⟨h1, h2⟩ := execute_step hg h caller ht hc
    cases hb : sendable cmd with
    | some bs => exact .inr ⟨caller, bs, tag, h1 bs hb⟩
    | none =>
      obtain ⟨e, he⟩ := h2 hb
      rw [he]
      exact .inl (hfin _ _ rfl rfl rfl rfl hqs)
  cases c with
  | execute cmd timeout =>
    obtain ⟨ht, tag, hc⟩ := hp
    exact hex .app cmd tag timeout ht hc
  | connect checkAlive rand =>
    by_cases hc : s.modem.connected = true
    · left
      have hx : s.modem.startCall (.connect checkAlive rand) = s.modem.finish .none := by
        simp only [State.startCall, hc, if_true]
      rw [hx]
      exact hfin _ _ rfl rfl rfl rfl hqs
    · rw [Bool.not_eq_true] at hc
      cases checkAlive with
      | false =>
        left
        have hx : s.modem.startCall (.connect false rand) = { s.modem with connected := true }.finish (.bool true) := by
          simp [State.startCall, hc]
        rw [hx]
        exact hfin _ _ rfl rfl rfl rfl hqs
      | true =>
        have hx : s.modem.startCall (.connect true rand) = s.modem.startExecute .connect (question rand) 10 := by
          obtain ⟨fs, hh, -⟩ := h
          simp only [State.startCall, hc, infoCommand_eq, hh.wire.skip]
          simp
        rw [hx]
        exact hex .connect _ _ 10 (by decide) (question_taggable rand)
  | clearUnsolicited =>
    refine .inl (hfin _ _ rfl rfl rfl rfl ⟨hqs.1, ?_⟩)
    intro l hl
    rcases List.mem_append.1 hl with hl | hl
    · exact hqs.2 l hl
    · simpa using hl
  | clearRebooted => exact .inl (hfin _ _ rfl rfl rfl rfl hqs)

/-- Without a call nothing happens but notes. -/
theorem idle_step {g : Gateway D} {s s' : Net D} {e : NetEvent} (h : Idle s) (hs : s.step g e = some s') :
    (Idle s' ∧ s'.modem.outcomes = s.modem.outcomes ∧ s'.modem.responses = s.modem.responses ∧
      s'.modem.written = s.modem.written ∧ s'.data = s.data ∧ ∀ c, e ≠ .call c) ∨
    ∃ c, e = .call c ∧ s' = { s with modem := s.modem.startCall c } := by
  obtain ⟨fs, hh, htk, hm, hq⟩ := h
  by_cases he : e = .main
  · subst he
    simp only [Net.step, State.step, State.mainStep, hm] at hs
    cases hs
  by_cases hca : ∃ cl, e = .call cl
  · obtain ⟨c, rfl⟩ := hca
    right
    simp only [Net.step, State.step] at hs
    rw [if_pos hm] at hs
    exact ⟨c, rfl, by simpa using hs.symm⟩
  by_cases hta : e = .take
  · subst hta
    exact (taken_take htk hs).elim
  · left
    have hc' : ∀ c, e ≠ .call c := fun cl h => hca ⟨cl, h⟩
    obtain ⟨p, r, l, k, rc, line, fs', rfl, h1, h2⟩ := hush_step hh he hc' hta hs
    exact ⟨⟨fs', h1, htk, hm, hq⟩, rfl, rfl, rfl, rfl, hc'⟩

theorem ends_idle {g : Gateway D} {j : Job D} {s s' : Net D} (hq : Quiet s.modem) (h : Ends g j s s') :
    Idle s' ∧ s'.data = (g.handle j.old.data j.bytes).1 ∧
      (∃ rs, Answers j.tag (g.handle j.old.data j.bytes).2 rs ∧
        s'.modem.responses = j.old.modem.responses ++ [rs]) ∧
      ∃ o, s'.modem.outcomes = s.modem.outcomes ++ [o] := by
  obtain ⟨fs, rs, hh, htk, hd, ha, hl, rfl⟩ := h
  obtain ⟨uid, fw, cn, o, he⟩ := finishExecute_all s.modem j.caller (some j.old.modem.responses.length)
  rw [he]
  exact ⟨⟨fs, ⟨hh.1, hh.2, hh.3, hh.4⟩, htk, rfl, hq⟩, hd, ⟨rs, ha, hl⟩, o, rfl⟩

/-- All states of modem and device. -/
theorem reachable {g : Gateway D} (hg : g.Conforms) {s s' : Net D} {es : List NetEvent}
    (h : Idle s ∨ ∃ j, Serving g j s) (hp : ∀ e ∈ es, Polite e) (hs : s.run g es = some s') :
    Idle s' ∨ ∃ j, Serving g j s' := by
  induction es generalizing s with
  | nil => simp only [Net.run, Option.some.injEq] at hs; exact hs ▸ h
  | cons e es ih =>
    obtain ⟨s1, h1, h2⟩ := Option.bind_eq_some_iff.1 hs
    refine ih ?_ (fun x hx => hp x (by simp [hx])) h2
    rcases h with h | ⟨j, h⟩
    · rcases idle_step h h1 with ⟨h3, -⟩ | ⟨c, rfl, rfl⟩
      · exact .inl h3
      · rcases call_step hg h (hp (.call c) (by simp)) with h3 | ⟨caller, bs, tag, h3⟩
        · exact .inl h3
        · exact .inr ⟨_, h3⟩
    · rcases serving_step h h1 with h3 | h3
      · exact .inr ⟨j, h3.1⟩
      · exact .inl (ends_idle h.2.1 h3.2).1

theorem start_idle {config : Config} (hk : config.skip = false) (d : D) : Idle (Net.start config d) :=
  ⟨[], ⟨⟨hk, hk, by simp [Net.start, init, Parser.new], by simp [Net.start, init, Parser.new], by simp, rfl, fun _ => rfl⟩, trivial,
    by simp [waiting, Net.start, init, queued], rfl⟩, rfl, rfl, rfl, by simp [Net.start, init]⟩

theorem step_outcomes_net {g : Gateway D} {s s' : Net D} {e : NetEvent} (h : s.step g e = some s') :
    ∃ l, s'.modem.outcomes = s.modem.outcomes ++ l := by
  cases e with
  | call c =>
    obtain ⟨m, hm, rfl⟩ := Option.map_eq_some_iff.1 h
    exact step_outcomes hm
  | main =>
    obtain ⟨m, hm, rfl⟩ := Option.map_eq_some_iff.1 h
    exact step_outcomes hm
  | reader =>
    obtain ⟨m, hm, rfl⟩ := Option.map_eq_some_iff.1 h
    exact step_outcomes hm
  | read n =>
    simp only [Net.step] at h
    split at h
    · obtain ⟨m, hm, rfl⟩ := Option.map_eq_some_iff.1 h
      exact step_outcomes hm
    · cases h
  | take =>
    simp only [Net.step] at h
    split at h
    · cases h
    · simp only [Option.some.injEq] at h
      subst h
      exact ⟨[], by simp⟩
  | send k =>
    simp only [Net.step] at h
    split at h
    · cases h
    · simp only [Option.some.injEq] at h
      subst h
      exact ⟨[], by simp⟩
  | log k text =>
    simp only [Net.step] at h
    split at h
    · simp only [Option.some.injEq] at h
      subst h
      exact ⟨[], by simp⟩
    · cases h
  | reboot k r =>
    simp only [Net.step, Option.some.injEq] at h
    subst h
    exact ⟨[], by simp⟩

theorem run_outcomes_net {g : Gateway D} {s s' : Net D} {es : List NetEvent} (h : s.run g es = some s') :
    ∃ l, s'.modem.outcomes = s.modem.outcomes ++ l := by
  induction es generalizing s with
  | nil => simp only [Net.run, Option.some.injEq] at h; exact ⟨[], by simp [h]⟩
  | cons e es ih =>
    obtain ⟨s1, h1, h2⟩ := Option.bind_eq_some_iff.1 h
    obtain ⟨l1, e1⟩ := step_outcomes_net h1
    obtain ⟨l2, e2⟩ := ih h2
    exact ⟨l1 ++ l2, by rw [e2, e1, List.append_assoc]⟩

theorem noticeBytes_cons (e : NetEvent) (es : List NetEvent) : noticeBytes (e :: es) = noticeSize e + noticeBytes es := by
  cases e <;> simp [noticeSize, noticeBytes]

/-- As long as no outcome is added, the call is under way; each step is work. -/
theorem serving_run {g : Gateway D} {j : Job D} {s s' : Net D} {es : List NetEvent} (h : Serving g j s)
    (hs : s.run g es = some s') (ho : s'.modem.outcomes = s.modem.outcomes) :
    Serving g j s' ∧ es.length + work g s' ≤ work g s + 11 * noticeBytes es := by
  induction es generalizing s with
  | nil =>
    simp only [Net.run, Option.some.injEq] at hs
    subst hs
    exact ⟨h, by simp [noticeBytes]⟩
  | cons e es ih =>
    obtain ⟨s1, h1, h2⟩ := Option.bind_eq_some_iff.1 hs
    rcases serving_step h h1 with ⟨h3, h4⟩ | ⟨-, h3⟩
    · have ho1 : s1.modem.outcomes = s.modem.outcomes := h3.1.trans h.1.symm
      obtain ⟨h5, h6⟩ := ih h3 h2 (ho.trans ho1.symm)
      refine ⟨h5, ?_⟩
      rw [noticeBytes_cons]
      simp only [List.length_cons]
      omega
    · obtain ⟨-, -, -, o, h4⟩ := ends_idle h.2.1 h3
      obtain ⟨l, h5⟩ := run_outcomes_net h2
      rw [h5, h4] at ho
      have := congrArg List.length ho
      simp at this

theorem serving_main {g : Gateway D} {j : Job D} {s : Net D} (h : Serving g j s) : s.modem.main ≠ .idle := by
  obtain ⟨-, -, -, -, c, t, -, hp⟩ := h
  cases hp <;> simp_all

/-- While a call is under way something can happen. -/
theorem serving_enabled {g : Gateway D} {j : Job D} {s : Net D} (h : Serving g j s) :
    (s.step g .main).isSome ∨ (s.step g .reader).isSome ∨ (s.step g (.read s.line.length)).isSome ∨
      (s.step g .take).isSome ∨ ∀ k, (s.step g (.send k)).isSome := by
  obtain ⟨-, -, hlen, -, c, t, ht, hp⟩ := h
  cases hp with
  | before stage fs hm hw =>
    left
    simp only [Net.step, State.step, State.mainStep, hm, Option.isSome_map]
    cases stage with
    | write => simp only; split <;> rfl
    | wait => exact absurd rfl hw
    | _ => rfl
  | sent fs hm hh hd hl hc htg hw =>
    right; right; right; left
    have hn := nextFrame_frame c j.bytes [] hlen
    rw [List.append_nil, ← hw] at hn
    simp [Net.step, hn]
  | flow fs done pr rs hm hw htk hd ha hp hl htg hmix hall hpl hc1 hc2 =>
    by_cases hc : s.modem.completed = true
    · left
      simp [Net.step, State.step, State.mainStep, hm, hc]
    right
    by_cases hr : s.modem.reader = .reading
    · right
      by_cases hz : s.line = []
      · right; right
        have hfs := hw.empty hz
        subst hfs
        have hne : done ≠ rs := by
          rcases hc2 (by simpa using hc) with h | ⟨x, q, h⟩
          · exact h
          · rw [hr] at h; cases h
        rw [hr] at hall
        simp only [taking, waiting, queued, List.map_nil, List.append_nil, List.filterMap_nil, List.nil_append] at hall
        cases hpp : s.pending with
        | nil =>
          rw [hpp] at hp
          cases hp
          rw [List.append_nil] at hall
          exact absurd hall hne
        | cons p ps =>
          intro k
          simp [Net.step, hpp]
      · left
        have hpos := List.length_pos_iff.2 hz
        simp only [Net.step]
        rw [if_pos ⟨hpos, le_refl _⟩, Option.isSome_map]
        simp only [State.step, State.rxStep, hr]
        split <;> rfl
    · left
      simp only [Net.step, State.step, Option.isSome_map, State.readerStep]
      cases hr' : s.modem.reader with
      | reading => exact absurd hr' hr
      | next q =>
        cases q with
        | nil => rfl
        | cons x q => simp only; split <;> rfl
      | other tt y q => simp only; repeat' split
                        all_goals rfl
      | dead q => rw [hr'] at hpl; exact hpl.elim
      | _ => rfl

end Verif.Modem.Gw
