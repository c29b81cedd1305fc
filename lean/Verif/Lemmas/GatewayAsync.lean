import Verif.Lemmas.Gateway
import Verif.Props.ModemWrite
import Verif.Spec.GatewayAsync

/-! Helper lemmas: a modem with a callback and commands executed without waiting. -/

namespace Verif.Modem.Gwa

open Verif Verif.Serial Verif.Modem.Gw

variable {D : Type}

theorem replies_append (g : Gateway D) (ps qs : List (List UInt8)) : ∀ d,
    g.replies d (ps ++ qs) = ((g.replies (g.replies d ps).1 qs).1,
      (g.replies d ps).2 ++ (g.replies (g.replies d ps).1 qs).2) := by
  induction ps with
  | nil => intro d; simp [Gateway.replies]
  | cons p ps ih => intro d; simp [Gateway.replies, ih]

theorem replies_snoc (g : Gateway D) (ps : List (List UInt8)) (p : List UInt8) (d : D) :
    g.replies d (ps ++ [p]) = ((g.handle (g.replies d ps).1 p).1,
      (g.replies d ps).2 ++ (g.handle (g.replies d ps).1 p).2) := by
  rw [replies_append]; simp [Gateway.replies]

/-! ### The reading side -/

/-- The message the reading thread is about to give to the callback. -/
def handing : Reader → List Msg
  | .other t m _ => if t ≤ 3 then [m] else []
  | .callback _ m _ => [m]
  | _ => []

/-- Where the reading thread can be. -/
def Passing : Reader → Prop
  | .other t _ _ => t ≤ 3 ∨ t = 4 ∨ t = 5
  | .callback _ _ _ => True
  | r => Minor r

theorem minor_handing {r : Reader} (h : Minor r) : handing r = [] := by
  cases r with
  | other t m q =>
    have h' : t = 4 ∨ t = 5 := h
    exact if_neg (by omega)
  | callback t m q => exact h.elim
  | _ => rfl

theorem minor_passing {r : Reader} (h : Minor r) : Passing r := by
  cases r with
  | other t m q => exact .inr h
  | callback t m q => trivial
  | _ => exact h

/-- Messages and notes on the way, all for the callback: `fs` are frames on the line, `pr` are answers that were not
sent, `rs` is everything the device has answered. -/
structure Hear (m : State) (line : List UInt8) (pend : List (List UInt8)) (fs : List Sent) (pr rs : List Command) :
    Prop where
  callback : m.config.callback = true
  connected : m.connected = true
  wire : Wire m.config.skip m.parser line fs
  pend : Meaning pend pr
  tags : ∀ r ∈ pr, r.tagId ≠ none
  order : m.called ++ (handing m.reader ++ ((waiting m.reader fs).filterMap resp ++ pr).map Msg.command) =
    rs.map Msg.command
  way : ∀ x ∈ waiting m.reader fs, Note x ∨ ∃ r : Command, x = (1, .command r) ∧ r.tagId ≠ none
  place : Passing m.reader
  clear : m.tag = none ∨ rs = []

theorem hear_reader {m m' : State} {line pend fs pr rs} (h : Hear m line pend fs pr rs) (hs : m.readerStep = some m') :
    ∃ r l k c, m' = { m with reader := r, rebooted := l, rebootedCalled := k, called := c } ∧
      Hear m' line pend fs pr rs ∧ readerLeft r < readerLeft m.reader := by
  obtain ⟨h1, h2, h3, h4, h5, h6, h7, h8, h9⟩ := h
  have small : Minor m.reader → (∀ x q, m.reader = .next (x :: q) → Note x) →
      ∃ r l k c, m' = { m with reader := r, rebooted := l, rebootedCalled := k, called := c } ∧
      Hear m' line pend fs pr rs ∧ readerLeft r < readerLeft m.reader := by
    intro hmi hn
    obtain ⟨r, l, k, rfl, a1, ⟨d, a2, a3⟩, a4⟩ := minor_step hmi hn hs
    refine ⟨r, l, k, m.called, rfl, ⟨h1, h2, h3, h4, h5, ?_, ?_, minor_passing a1, h9⟩, a4⟩
    · simp only [waiting, a3, List.filterMap_append, filterMap_notes a2, List.nil_append, minor_handing hmi] at h6
      simp only [waiting, minor_handing a1, List.nil_append, List.filterMap_append]
      exact h6
    · intro x hx
      refine h7 x ?_
      simp only [waiting] at hx ⊢
      rw [a3, List.append_assoc]
      exact List.mem_append_right _ hx
  cases hr : m.reader with
  | next q =>
    rw [hr] at h6 h7
    cases q with
    | nil => rw [hr] at small; exact small trivial (by intro x q hx; cases hx)
    | cons x q =>
      rcases h7 x (by simp [waiting, queued]) with hx | ⟨r, rfl, hx⟩
      · rw [hr] at small
        exact small trivial (by intro y q' hy; cases hy; exact hx)
      · have hi : m.isSync 1 (.command r) = none := by
          simp only [State.isSync]
          rw [if_neg]
          rintro ⟨-, ht, -⟩
          rcases h9 with h9 | h9
          · exact hx (by rw [← ht, h9])
          · subst h9
            simp [waiting, queued, resp_answer] at h6
        simp only [State.readerStep, hr, hi, Option.some.injEq] at hs
        refine ⟨.other 1 (.command r) q, m.rebooted, m.rebootedCalled, m.called, hs.symm, ?_, ?_⟩
        · subst hs
          refine ⟨h1, h2, h3, h4, h5, ?_, fun y hy => h7 y ?_, .inl (by decide), h9⟩
          · simpa [handing, waiting, queued, resp_answer] using h6
          · simp only [waiting, queued] at hy ⊢
            exact List.mem_cons_of_mem _ hy
        · simp only [readerLeft, queued, List.length_cons]; omega
  | other t x q =>
    rw [hr] at h6 h7 h8
    by_cases ht : t ≤ 3
    · simp only [State.readerStep, hr] at hs
      rw [if_pos ⟨h1, h2, ht⟩] at hs
      simp only [Option.some.injEq] at hs
      refine ⟨.callback t x q, m.rebooted, m.rebootedCalled, m.called, hs.symm, ?_, ?_⟩
      · subst hs
        refine ⟨h1, h2, h3, h4, h5, ?_, h7, trivial, h9⟩
        simpa [handing, waiting, queued, ht] using h6
      · simp [readerLeft, queued]
    · rw [hr] at small
      exact small (h8.resolve_left ht) (by intro y q' hy; cases hy)
  | callback t x q =>
    rw [hr] at h6 h7
    simp only [State.readerStep, hr, Option.some.injEq] at hs
    refine ⟨.next q, m.rebooted, m.rebootedCalled, m.called ++ [x], hs.symm, ?_, ?_⟩
    · subst hs
      refine ⟨h1, h2, h3, h4, h5, ?_, h7, trivial, h9⟩
      simpa [handing, waiting, queued] using h6
    · simp [readerLeft, queued]
  | reading => rw [hr] at small; exact small trivial (by intro x q hx; cases hx)
  | rebootedCallback t x q => rw [hr] at small; exact small trivial (by intro x q hx; cases hx)
  | rebooted t x q => rw [hr] at small; exact small trivial (by intro x q hx; cases hx)
  | rebootedAppend t x n q => rw [hr] at small; exact small trivial (by intro x q hx; cases hx)
  | sync t x q => rw [hr] at h8; exact h8.elim
  | syncAppend t x n q => rw [hr] at h8; exact h8.elim
  | syncDone x q => rw [hr] at h8; exact h8.elim
  | unsolicited t x q => rw [hr] at h8; exact h8.elim
  | unsolicitedAppend t x n q => rw [hr] at h8; exact h8.elim
  | dead q => rw [hr] at h8; exact h8.elim

/-- A frame more on the line. -/
theorem hear_note {m : State} {line pend fs pr rs} (h : Hear m line pend fs pr rs) {f : Sent} (hv : f.Valid false)
    (hn : Note f.delivered) : Hear m (line ++ f.bytes) pend (fs ++ [f]) pr rs := by
  obtain ⟨h1, h2, h3, h4, h5, h6, h7, h8, h9⟩ := h
  refine ⟨h1, h2, wire_send h3 hv, h4, h5, ?_, ?_, h8, h9⟩
  · simpa [waiting, resp_note hn] using h6
  · intro x hx
    simp only [waiting, List.map_append, ← List.append_assoc] at hx
    rcases List.mem_append.1 hx with hx | hx
    · exact h7 x hx
    · simp only [List.map_cons, List.map_nil, List.mem_singleton] at hx
      rw [hx]; exact .inl hn

theorem hear_send {m : State} {line p pend fs pr rs} (h : Hear m line (p :: pend) fs pr rs) (k : UInt8) :
    ∃ fs' pr', Hear m (line ++ frame k 1 p) pend fs' pr' rs := by
  obtain ⟨h1, h2, h3, h4, h5, h6, h7, h8, h9⟩ := h
  cases h4 with
  | @cons _ r _ pr h10 h11 =>
    have hw : Wire m.config.skip m.parser (line ++ frame k 1 p) (fs ++ [(⟨k, 1, p, .command r⟩ : Sent)]) :=
      wire_send (f := ⟨k, 1, p, .command r⟩) h3 ⟨h10.1, h10.2⟩
    refine ⟨fs ++ [⟨k, 1, p, .command r⟩], pr, h1, h2, hw, h11,
      fun x hx => h5 x (by simp [hx]), ?_, ?_, h8, h9⟩
    · have : resp (Sent.delivered ⟨k, 1, p, .command r⟩) = some r := resp_answer r
      simpa [waiting, this] using h6
    · intro x hx
      simp only [waiting, List.map_append, ← List.append_assoc] at hx
      rcases List.mem_append.1 hx with hx | hx
      · exact h7 x hx
      · simp only [List.map_cons, List.map_nil, List.mem_singleton] at hx
        rw [hx]; exact .inr ⟨r, rfl, h5 r (by simp)⟩

theorem hear_read {m m' : State} {line pend fs pr rs} (h : Hear m line pend fs pr rs) {n : Nat} (hn : 0 < n)
    (hl : n ≤ line.length) (hs : m.rxStep (line.take n) = some m') :
    ∃ q r rc fs', m' = { m with parser := q, reader := r, received := rc } ∧ q.upCounter = m.parser.upCounter ∧
      Hear m' (line.drop n) pend fs' pr rs ∧
      8 * (q.buffer.length + (line.drop n).length) + 2 * (line.drop n).length + readerLeft r <
        8 * (m.parser.buffer.length + line.length) + 2 * line.length + readerLeft m.reader := by
  obtain ⟨h1, h2, h3, h4, h5, h6, h7, h8, h9⟩ := h
  obtain ⟨q, o, f1, f2, a1, a2, a3, a4⟩ := wire_read h3 n
  have hup := parse_up m.parser (line.take n)
  rw [a1] at hup
  simp only [State.rxStep] at hs
  cases hr : m.reader with
  | reading =>
    rw [hr] at h6 h7
    rw [hr, a1] at hs
    simp only [Option.some.injEq] at hs
    refine ⟨q, .next o.cmds, m.received ++ o.cmds, f2, hs.symm, hup, ?_, ?_⟩
    · subst hs
      refine ⟨h1, h2, a4, h4, h5, ?_, ?_, trivial, h9⟩
      · simpa [waiting, queued, a2, a3, handing] using h6
      · intro x hx
        refine h7 x ?_
        simpa [waiting, queued, a2, a3] using hx
    · have e1 := congrArg List.length h3.bytes
      have e2 := congrArg List.length a4.bytes
      have e3 := frames_length f1
      rw [a2, List.map_append, List.flatten_append] at e1
      simp only [List.length_append, List.length_drop] at e1 e2 ⊢
      simp only [readerLeft, queued, a3, List.length_map, List.length_nil]
      omega
  | _ => rw [hr] at hs; cases hs

/-! ### The writing side -/

/-- A payload that the device answers with messages that have a tag. -/
def Fine (g : Gateway D) (p : List UInt8) : Prop :=
  p.length ≤ 255 ∧ ∀ d, ∃ rs, Meaning (g.handle d p).2 rs ∧ ∀ r ∈ rs, r.tagId ≠ none

/-- The call in progress: `ps` are the payloads of all calls, `ws` those that were written. -/
def Going (g : Gateway D) (n : Nat) (tag : Option Int) (ps ws : List (List UInt8)) : Main → Prop
  | .idle => ps = ws
  | .run stage caller _ f t => stage ≠ .wait ∧ caller = .app ∧ t = 0 ∧
      (stage = .resetList ∨ stage = .resetTag ∨ tag = none) ∧
      ∃ p, ps = ws ++ [p] ∧ Fine g p ∧ f = frame (UInt8.ofNat (n + ws.length)) 1 p

/-- Since state `o`. -/
structure Talk (g : Gateway D) (o s : Net D) (n : Nat) (ps done todo : List (List UInt8)) : Prop where
  up : s.modem.parser.upCounter = (((n + ps.length) % 256 : Nat) : Int)
  main : Going g n s.modem.tag ps (done ++ todo) s.modem.main
  written : s.modem.written = o.modem.written ++ framesFrom n (done ++ todo)
  fits : ∀ p ∈ done ++ todo, Fine g p
  taken : s.taken = o.modem.written.length + (framesFrom n done).length
  data : s.data = (g.replies o.data done).1
  tag : s.modem.tag = none ∨ done ++ todo = []
  responses : ∃ k, s.modem.responses = o.modem.responses ++ List.replicate k []
  unsolicited : ∀ l ∈ s.modem.unsolicited, l = []

theorem talk_same {g : Gateway D} {o s s' : Net D} {n ps done todo} (h : Talk g o s n ps done todo)
    (e1 : s'.modem.parser.upCounter = s.modem.parser.upCounter) (e2 : s'.modem.tag = s.modem.tag)
    (e3 : s'.modem.main = s.modem.main) (e4 : s'.modem.written = s.modem.written) (e5 : s'.taken = s.taken)
    (e6 : s'.data = s.data) (e7 : s'.modem.responses = s.modem.responses)
    (e8 : s'.modem.unsolicited = s.modem.unsolicited) : Talk g o s' n ps done todo := by
  obtain ⟨h1, h2, h3, h4, h5, h6, h7, h8, h9⟩ := h
  exact ⟨by rw [e1, h1], by rw [e2, e3]; exact h2, by rw [e4, h3], h4, by rw [e5, h5], by rw [e6, h6], by rw [e2]; exact h7,
    by rw [e7]; exact h8, by rw [e8]; exact h9⟩

/-- The whole: what happened since state `o`. -/
def Flow (g : Gateway D) (o s : Net D) (n : Nat) (ps done : List (List UInt8)) (rs : List Command) : Prop :=
  ∃ todo fs pr, Talk g o s n ps done todo ∧ Hear s.modem s.line s.pending fs pr rs ∧
    Meaning (g.replies o.data done).2 rs

/-- Steps for payloads the device has not processed. -/
def askLeft (g : Gateway D) (d : D) (todo : List (List UInt8)) : Nat := todo.length + sendLeft (g.replies d todo).2

/-- Steps left, at most. -/
def left (g : Gateway D) (s : Net D) (todo : List (List UInt8)) : Nat :=
  stageLeft s.modem.main + askLeft g s.data todo + sendLeft s.pending +
    8 * (s.modem.parser.buffer.length + s.line.length) + 2 * s.line.length + readerLeft s.modem.reader

theorem sendLeft_append (ps qs : List (List UInt8)) : sendLeft (ps ++ qs) = sendLeft ps + sendLeft qs := by
  simp [sendLeft]

theorem meaning_append {ps qs : List (List UInt8)} {rs ts : List Command} (h : Meaning ps rs) (h' : Meaning qs ts) :
    Meaning (ps ++ qs) (rs ++ ts) := by
  induction h with
  | nil => exact h'
  | cons h1 _ ih => exact .cons h1 ih

theorem framesFrom_drop (n : Nat) (done todo : List (List UInt8)) (w : List UInt8) :
    (w ++ framesFrom n (done ++ todo)).drop (w.length + (framesFrom n done).length) =
      framesFrom (n + done.length) todo := by
  rw [framesFrom_append, ← List.append_assoc, ← List.length_append, List.drop_left]

/-- A step that is not a call. -/
theorem flow_step {g : Gateway D} {o s s' : Net D} {n ps done rs} {e : NetEvent} (h : Flow g o s n ps done rs)
    (hc : ∀ c, e ≠ .call c) (hs : s.step g e = some s') :
    ∃ done' rs', Flow g o s' n ps done' rs' ∧ left g s' (ps.drop done'.length) <
      left g s (ps.drop done.length) + 11 * noticeSize e := by
  obtain ⟨todo, fs, pr, ht, hh, hm⟩ := h
  cases e with
  | call c => exact absurd rfl (hc c)
  | reader =>
    obtain ⟨m', hm', rfl⟩ := Option.map_eq_some_iff.1 hs
    obtain ⟨r, l, k, c, rfl, a1, a2⟩ := hear_reader hh hm'
    refine ⟨done, rs, ⟨todo, fs, pr, talk_same ht rfl rfl rfl rfl rfl rfl rfl rfl, a1, hm⟩, ?_⟩
    simp only [left]
    omega
  | read k =>
    simp only [Net.step] at hs
    by_cases hl : 0 < k ∧ k ≤ s.line.length
    · rw [if_pos hl] at hs
      obtain ⟨m', hm', rfl⟩ := Option.map_eq_some_iff.1 hs
      obtain ⟨q, r, rc, fs', rfl, a1, a2, a3⟩ := hear_read hh hl.1 hl.2 hm'
      refine ⟨done, rs, ⟨todo, fs', pr, talk_same ht a1 rfl rfl rfl rfl rfl rfl rfl, a2, hm⟩, ?_⟩
      simp only [left]
      omega
    · rw [if_neg hl] at hs; cases hs
  | log k text =>
    simp only [Net.step] at hs
    by_cases hl : text.length ≤ 255
    · rw [if_pos hl] at hs
      simp only [Option.some.injEq] at hs
      obtain ⟨f, a1, a2, a3⟩ := note_log k text hl
      have a4 := hear_note hh a1 a3
      rw [a2] at a4
      subst hs
      refine ⟨done, rs, ⟨todo, _, pr, talk_same ht rfl rfl rfl rfl rfl rfl rfl rfl, a4, hm⟩, ?_⟩
      simp only [left, List.length_append, frame_length, noticeSize, noticeBytes]
      omega
    · rw [if_neg hl] at hs; cases hs
  | reboot k r =>
    simp only [Net.step, Option.some.injEq] at hs
    obtain ⟨f, a1, a2, a3⟩ := note_reboot k r
    have a4 := hear_note hh a1 a3
    rw [a2] at a4
    subst hs
    refine ⟨done, rs, ⟨todo, _, pr, talk_same ht rfl rfl rfl rfl rfl rfl rfl rfl, a4, hm⟩, ?_⟩
    simp only [left, List.length_append, frame_length, noticeSize, noticeBytes, List.length_singleton]
    omega
  | send k =>
    simp only [Net.step] at hs
    cases hp : s.pending with
    | nil => rw [hp] at hs; cases hs
    | cons p pend =>
      rw [hp] at hs hh
      simp only [Option.some.injEq] at hs
      obtain ⟨fs', pr', a1⟩ := hear_send hh k
      subst hs
      refine ⟨done, rs, ⟨todo, _, pr', talk_same ht rfl rfl rfl rfl rfl rfl rfl rfl, a1, hm⟩, ?_⟩
      simp only [left, hp, sendLeft, List.map_cons, List.sum_cons, List.length_append, frame_length]
      omega
  | take =>
    obtain ⟨h1, h2, h3, h4, h5, h6, h7, h8, h9⟩ := ht
    simp only [Net.step] at hs
    rw [h3, h5, framesFrom_drop] at hs
    cases todo with
    | nil => simp only [framesFrom, nextFrame_nil] at hs; cases hs
    | cons p todo =>
      obtain ⟨b1, b2⟩ := h4 p (by simp)
      obtain ⟨ts, b3, b4⟩ := b2 s.data
      simp only [framesFrom, nextFrame_frame _ _ _ b1, Option.some.injEq] at hs
      subst hs
      refine ⟨done ++ [p], rs ++ ts, ⟨todo, fs, pr ++ ts, ?_, ?_, ?_⟩, ?_⟩
      · refine ⟨h1, by simpa using h2, by simpa using h3, by simpa using h4, ?_, ?_, ?_, h8, h9⟩
        · simp only [framesFrom_append, framesFrom, List.append_nil, List.length_append, frame_length]
          omega
        · simp only [replies_snoc, ← h6]
        · exact .inl (h7.resolve_right (by simp))
      · obtain ⟨c1, c2, c3, c4, c5, c6, c7, c8, c9⟩ := hh
        refine ⟨c1, c2, c3, meaning_append c4 b3, ?_, ?_, c7, c8, .inl (h7.resolve_right (by simp))⟩
        · intro r hr
          rcases List.mem_append.1 hr with hr | hr
          · exact c5 r hr
          · exact b4 r hr
        · rw [List.map_append (l₁ := rs), ← c6]; simp
      · rw [replies_snoc, ← h6]
        exact meaning_append hm b3
      · have hps : ∃ x, ps = done ++ p :: (todo ++ x) := by
          cases hmn : s.modem.main with
          | idle => rw [hmn] at h2; exact ⟨[], by rw [show ps = done ++ p :: todo from h2]; simp⟩
          | run stage caller tag f t =>
            rw [hmn] at h2
            obtain ⟨-, -, -, -, q, e, -⟩ := h2
            exact ⟨[q], by rw [e]; simp⟩
        obtain ⟨x, rfl⟩ := hps
        simp only [left, List.length_append, List.length_singleton, noticeSize, noticeBytes, sendLeft_append]
        rw [List.drop_left, show done ++ p :: (todo ++ x) = (done ++ [p]) ++ (todo ++ x) by simp,
          show done.length + 1 = (done ++ [p]).length by simp, List.drop_left]
        simp only [askLeft, Gateway.replies, sendLeft_append, List.length_cons]
        omega
  | main =>
    obtain ⟨m', hm', rfl⟩ := Option.map_eq_some_iff.1 hs
    obtain ⟨h1, h2, h3, h4, h5, h6, h7, h8, h9⟩ := ht
    simp only [State.step, State.mainStep] at hm'
    cases hmn : s.modem.main with
    | idle => rw [hmn] at hm'; cases hm'
    | run stage caller tag f t =>
      rw [hmn] at hm' h2
      obtain ⟨g1, rfl, rfl, g2, p, g3, g4, g5⟩ := h2
      obtain ⟨c1, c2, c3, c4, c5, c6, c7, c8, c9⟩ := hh
      cases stage with
      | wait => exact absurd rfl g1
      | resetList =>
        simp only [Option.some.injEq] at hm'
        subst hm'
        refine ⟨done, rs, ⟨todo, fs, pr, ⟨h1, ⟨by simp, rfl, rfl, by simp, p, g3, g4, g5⟩, h3, h4, h5, h6, h7, ?_, h9⟩,
          ⟨c1, c2, c3, c4, c5, c6, c7, c8, c9⟩, hm⟩, ?_⟩
        · obtain ⟨k, hk⟩ := h8
          exact ⟨k + 1, by simp [hk, List.replicate_succ']⟩
        · simp only [left, hmn, stageLeft]; omega
      | resetTag =>
        simp only [Option.some.injEq] at hm'
        subst hm'
        refine ⟨done, rs, ⟨todo, fs, pr, ⟨h1, ⟨by simp, rfl, rfl, by simp, p, g3, g4, g5⟩, h3, h4, h5, h6, .inl rfl, h8, h9⟩,
          ⟨c1, c2, c3, c4, c5, c6, c7, c8, .inl rfl⟩, hm⟩, ?_⟩
        simp only [left, hmn, stageLeft]; omega
      | resetCompleted =>
        simp only [Option.some.injEq] at hm'
        subst hm'
        refine ⟨done, rs, ⟨todo, fs, pr, ⟨h1, ⟨by simp, rfl, rfl, by simpa using g2, p, g3, g4, g5⟩, h3, h4, h5, h6, h7, h8,
          h9⟩, ⟨c1, c2, c3, c4, c5, c6, c7, c8, c9⟩, hm⟩, ?_⟩
        simp only [left, hmn, stageLeft]; omega
      | setTag =>
        simp only [gt_iff_lt, lt_irrefl, if_false, Option.some.injEq] at hm'
        subst hm'
        refine ⟨done, rs, ⟨todo, fs, pr, ⟨h1, ⟨by simp, rfl, rfl, by simpa using g2, p, g3, g4, g5⟩, h3, h4, h5, h6, h7, h8,
          h9⟩, ⟨c1, c2, c3, c4, c5, c6, c7, c8, c9⟩, hm⟩, ?_⟩
        simp only [left, hmn, stageLeft]; omega
      | write =>
        simp only [if_true, Option.some.injEq, State.finishExecute, State.finish] at hm'
        have htag : s.modem.tag = none := by simpa using g2
        subst hm'
        refine ⟨done, rs, ⟨todo ++ [p], fs, pr, ⟨h1, ?_, ?_, ?_, h5, h6, .inl htag, h8, h9⟩,
          ⟨c1, c2, c3, c4, c5, c6, c7, c8, c9⟩, hm⟩, ?_⟩
        · rw [g3]; simp [Going]
        · simp only [h3, g5, ← List.append_assoc (bs := todo)]
          rw [framesFrom_append (done ++ todo) [p] n]
          simp [framesFrom]
        · intro q hq
          rw [← List.append_assoc] at hq
          rcases List.mem_append.1 hq with hq | hq
          · exact h4 q hq
          · rw [List.mem_singleton.1 hq]; exact g4
        · simp only [left, hmn, stageLeft]; omega

/-- A call. -/
theorem flow_call {g : Gateway D} (hg : g.Conforms) {o s s' : Net D} {n ps done rs} {c : Call} (h : Flow g o s n ps done rs)
    (hb : Background (.call c)) (hs : s.step g (.call c) = some s') :
    Flow g o s' n (ps ++ payloads [.call c]) done rs := by
  obtain ⟨todo, fs, pr, ht, hh, hm⟩ := h
  obtain ⟨m', hm', rfl⟩ := Option.map_eq_some_iff.1 hs
  have hmain : s.modem.main = .idle := by
    by_contra hne
    simp only [State.step, if_neg hne] at hm'
    cases hm'
  simp only [State.step, if_pos hmain, Option.some.injEq] at hm'
  subst hm'
  have same : ∀ ou, Flow g o { s with modem := s.modem.finish ou } n ps done rs := by
    intro ou
    obtain ⟨h1, h2, h3, h4, h5, h6, h7, h8, h9⟩ := hh
    exact ⟨todo, fs, pr, talk_same ht rfl rfl hmain.symm rfl rfl rfl rfl rfl, ⟨h1, h2, h3, h4, h5, h6, h7, h8, h9⟩, hm⟩
  cases c with
  | execute c t =>
    obtain ⟨rfl, tag, hc⟩ := hb
    have hbuild := buildSerialFrame_sendable ht.up c
    cases hb : sendable c with
    | none =>
      rw [hb] at hbuild
      obtain ⟨e, he⟩ := hbuild
      simp only [payloads, hb, Option.toList_none, List.append_nil, State.startCall, State.startExecute, he]
      exact same _
    | some bs =>
      rw [hb] at hbuild
      obtain ⟨q, he, hq⟩ := hbuild
      have hw := hh.wire
      obtain ⟨-, hlen⟩ := sendable_some hb
      have hskip := C28_builder s.modem.parser hw.up0 hw.up1 c.iter
      obtain ⟨hbytes, -⟩ := sendable_some hb
      have hq' := hskip.1 bs hbytes hlen
      rw [he] at hq'
      have hqp : q = { s.modem.parser with
        upCounter := if s.modem.parser.upCounter = 255 then 0 else s.modem.parser.upCounter + 1 } := by
        exact (congrArg Prod.fst hq')
      simp only [payloads, hb, Option.toList_some, List.append_nil, State.startCall, State.startExecute, he, ite_self]
      obtain ⟨h1, h2, h3, h4, h5, h6, h7, h8, h9⟩ := ht
      obtain ⟨c1, c2, c3, c4, c5, c6, c7, c8, c9⟩ := hh
      rw [hmain] at h2
      have h2' : ps = done ++ todo := h2
      refine ⟨todo, fs, pr, ⟨?_, ⟨by simp, rfl, rfl, by simp, bs, by rw [h2'], ⟨hlen, ?_⟩, by rw [h2']⟩, h3, h4, h5, h6, h7, h8,
        h9⟩, ⟨c1, c2, ?_, c4, c5, c6, c7, c8, c9⟩, hm⟩
      · simpa [Nat.add_assoc] using hq
      · intro d
        obtain ⟨ts, ha⟩ := hg d c bs tag hc.1 hc.2.1 hc.2.2 hb
        exact ⟨ts, ha.meaning, fun r hr => by rw [ha.tagged r hr]; simp⟩
      · subst hqp
        refine ⟨c3.skip, c3.parser, ?_, ?_, c3.valid, c3.bytes, c3.empty⟩
        · have := c3.up0; simp only; split <;> omega
        · have := c3.up1; simp only; split <;> omega
  | connect a r =>
    simp only [payloads, List.append_nil, State.startCall, hh.connected, if_true]
    exact same _
  | clearUnsolicited =>
    simp only [payloads, List.append_nil, State.startCall]
    obtain ⟨h1, h2, h3, h4, h5, h6, h7, h8, h9⟩ := ht
    obtain ⟨c1, c2, c3, c4, c5, c6, c7, c8, c9⟩ := hh
    rw [hmain] at h2
    refine ⟨todo, fs, pr, ⟨h1, h2, h3, h4, h5, h6, h7, h8, ?_⟩, ⟨c1, c2, c3, c4, c5, c6, c7, c8, c9⟩, hm⟩
    intro l hl
    rcases List.mem_append.1 hl with hl | hl
    · exact h9 l hl
    · exact List.mem_singleton.1 hl
  | clearRebooted =>
    simp only [payloads, List.append_nil, State.startCall]
    obtain ⟨h1, h2, h3, h4, h5, h6, h7, h8, h9⟩ := ht
    obtain ⟨c1, c2, c3, c4, c5, c6, c7, c8, c9⟩ := hh
    rw [hmain] at h2
    exact ⟨todo, fs, pr, ⟨h1, h2, h3, h4, h5, h6, h7, h8, h9⟩, ⟨c1, c2, c3, c4, c5, c6, c7, c8, c9⟩, hm⟩

theorem payloads_cons (e : NetEvent) (es : List NetEvent) : payloads (e :: es) = payloads [e] ++ payloads es := by
  cases e with
  | call c => cases c <;> simp [payloads]
  | _ => rfl

theorem flow_run {g : Gateway D} (hg : g.Conforms) {es : List NetEvent} : ∀ {o s s' : Net D} {n ps done rs},
    Flow g o s n ps done rs → (∀ e ∈ es, Background e) → s.run g es = some s' →
    ∃ done' rs', Flow g o s' n (ps ++ payloads es) done' rs' := by
  induction es with
  | nil =>
    intro o s s' n ps done rs h _ hs
    simp only [Net.run, Option.some.injEq] at hs
    subst hs
    exact ⟨done, rs, by simpa [payloads] using h⟩
  | cons e es ih =>
    intro o s s' n ps done rs h hb hs
    obtain ⟨s1, h1, h2⟩ := Option.bind_eq_some_iff.1 hs
    rw [payloads_cons, ← List.append_assoc]
    by_cases hc : ∃ c, e = .call c
    · obtain ⟨c, rfl⟩ := hc
      exact ih (flow_call hg h (hb _ (by simp)) h1) (fun x hx => hb x (by simp [hx])) h2
    · obtain ⟨done', rs', h3, -⟩ := flow_step h (fun c hce => hc ⟨c, hce⟩) h1
      have : payloads [e] = [] := by
        cases e with
        | call c => exact absurd ⟨c, rfl⟩ hc
        | _ => rfl
      rw [this, List.append_nil]
      exact ih h3 (fun x hx => hb x (by simp [hx])) h2

/-- Steps without calls. -/
theorem flow_rest {g : Gateway D} {es : List NetEvent} : ∀ {o s s' : Net D} {n ps done rs},
    Flow g o s n ps done rs → (∀ c, .call c ∉ es) → s.run g es = some s' →
    ∃ done' rs', Flow g o s' n ps done' rs' ∧ es.length + left g s' (ps.drop done'.length) ≤
      left g s (ps.drop done.length) + 11 * noticeBytes es := by
  induction es with
  | nil =>
    intro o s s' n ps done rs h _ hs
    simp only [Net.run, Option.some.injEq] at hs
    subst hs
    exact ⟨done, rs, h, by simp⟩
  | cons e es ih =>
    intro o s s' n ps done rs h hb hs
    obtain ⟨s1, h1, h2⟩ := Option.bind_eq_some_iff.1 hs
    obtain ⟨done', rs', h3, h4⟩ := flow_step h (fun c hce => hb c (by simp [hce])) h1
    obtain ⟨done2, rs2, h5, h6⟩ := ih h3 (fun c hx => hb c (by simp [hx])) h2
    refine ⟨done2, rs2, h5, ?_⟩
    rw [noticeBytes_cons, List.length_cons]
    omega

/-- The start. -/
theorem flow_start {s : Net D} (h : Gw.Idle s) (hc : s.modem.connected = true) (hcb : s.modem.config.callback = true)
    (g : Gateway D) : Flow g s s s.modem.parser.upCounter.toNat [] [] [] := by
  obtain ⟨fs, ⟨h1, h2, h3, h4⟩, h5, h6, h7, h8⟩ := h
  refine ⟨[], fs, [], ⟨?_, ?_, by simp [framesFrom], by simp, by simp [framesFrom, h5], rfl, .inr rfl, ⟨0, by simp⟩, h8⟩,
    ⟨hcb, hc, h1, ?_, by simp, ?_, fun x hx => .inl (h3 x hx), minor_passing h2, .inr rfl⟩, .nil⟩
  · have a := h1.up0
    have b := h1.up1
    simp only [List.length_nil, Nat.add_zero]
    omega
  · rw [h6]; rfl
  · rw [h4]; exact .nil
  · simp [h7, minor_handing h2, filterMap_notes h3]

/-- As long as something is going on there is a step. -/
theorem flow_enabled {g : Gateway D} {o s : Net D} {n ps done rs} (h : Flow g o s n ps done rs) (hn : ¬ s.Settled) :
    ∃ e s', s.step g e = some s' ∧ (∀ c, e ≠ .call c) ∧ noticeBytes [e] = 0 := by
  obtain ⟨todo, fs, pr, ht, hh, hm⟩ := h
  obtain ⟨h1, h2, h3, h4, h5, h6, h7, h8, h9⟩ := ht
  cases hmn : s.modem.main with
  | run stage caller tag f t =>
    rw [hmn] at h2
    obtain ⟨g1, rfl, rfl, -⟩ := h2
    cases stage with
    | wait => exact absurd rfl g1
    | _ => exact ⟨.main, _, by simp only [Net.step, State.step, State.mainStep, hmn, if_true]; rfl, by simp, rfl⟩
  | idle =>
    cases todo with
    | cons p todo =>
      obtain ⟨b1, -⟩ := h4 p (by simp)
      refine ⟨.take, _, by simp only [Net.step, h3, h5, framesFrom_drop, framesFrom, nextFrame_frame _ _ _ b1]; rfl, by simp, rfl⟩
    | nil =>
      cases hp : s.pending with
      | cons p pend => exact ⟨.send 0, _, by simp only [Net.step, hp]; rfl, by simp, rfl⟩
      | nil =>
        have hrd : s.modem.reader ≠ .reading → ∃ m, s.modem.readerStep = some m := by
          intro hne
          have hpl := hh.place
          unfold State.readerStep
          cases hr : s.modem.reader with
          | reading => exact absurd hr hne
          | dead q => rw [hr] at hpl; exact hpl.elim
          | next q =>
            cases q with
            | nil => exact ⟨_, rfl⟩
            | cons x q =>
              simp only
              split <;> exact ⟨_, rfl⟩
          | other t x q =>
            simp only
            repeat' split
            all_goals exact ⟨_, rfl⟩
          | _ => exact ⟨_, rfl⟩
        by_cases hr : s.modem.reader = .reading
        · cases hl : s.line with
          | nil =>
            refine absurd ⟨hmn, ?_, hp, hl, hr⟩ hn
            rw [h5, h3]; simp
          | cons b l =>
            obtain ⟨q, ou, f1, f2, a1, -⟩ := wire_read hh.wire 1
            rw [hl] at a1
            exact ⟨.read 1, _, by simp only [Net.step, hl, List.length_cons]; rw [if_pos (by omega)]; simp only [State.step, State.rxStep, hr, a1]; rfl, by simp, rfl⟩
        · obtain ⟨m, hm'⟩ := hrd hr
          exact ⟨.reader, _, by simp only [Net.step, State.step, hm']; rfl, by simp, rfl⟩

end Verif.Modem.Gwa
