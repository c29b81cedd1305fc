import Verif.Lemmas.DeviceBytes
import Verif.Props.ModemWrite

/-! Helper lemmas: the states of a modem and a device that answers. -/

namespace Verif.Modem

open Verif Verif.Serial

variable {D : Type}

theorem results_offsets (dev : Device D) {ops : List FileOp} (h : ∀ op ∈ ops, op.Valid) :
    ∀ d, ∀ x ∈ dev.results d ops, x.2.1 < 2 ^ 30 := by
  induction ops with
  | nil => intro d x hx; cases hx
  | cons op ops ih =>
    intro d x hx
    have h0 := h op (by simp)
    have ih := ih fun y hy => h y (by simp [hy])
    cases op with
    | read f o l =>
      rcases List.mem_cons.1 hx with rfl | hx
      · exact h0.1
      · exact ih d x hx
    | write f o b => exact ih _ x hx

/-- Part of the answer is read: it stays in the buffer until it is complete. -/
theorem parse_answer {p : Parser} (hk : p.skipAlpParsing = false) {c tag : UInt8}
    {rs : List (UInt8 × Nat × List UInt8)} (h : ∀ x ∈ rs, x.2.1 < 2 ^ 30) (hl : (answer tag rs).length ≤ 255)
    {bs line : List UInt8} (hb : p.buffer ++ (bs ++ line) = frame c 1 (answer tag rs)) :
    ∃ q o, p.parse bs = (q, .ok o) ∧ q.skipAlpParsing = false ∧ q.upCounter = p.upCounter ∧
      (line ≠ [] → o.cmds = [] ∧ q.buffer ++ line = frame c 1 (answer tag rs)) ∧
      (line = [] → o.cmds = [(1, .command (answered tag rs))] ∧ q.buffer = []) := by
  let f : Sent := ⟨c, 1, answer tag rs, .command (answered tag rs)⟩
  have hv : ∀ g ∈ [f], g.Valid false := by
    intro g hg
    rw [List.mem_singleton] at hg
    subst hg
    exact ⟨hl, .alp 1 _ _ rfl (by decide) (by decide) (answer_parses tag rs h hl)⟩
  have hb' : (p.buffer ++ bs) ++ line = ([f].map Sent.bytes).flatten := by
    rw [List.append_assoc, hb]; simp [f, Sent.bytes]
  obtain ⟨f1, f2, e0, e1, e2, e3, e4, e5⟩ := trace_prefix [f] hv _ _ hb'
  have hp := parse_trace p bs
  unfold finish at hp
  rw [hk, e4, e1, (msgs_sent f1).1] at hp
  have hs := countAll_skip p (trace false (p.buffer ++ bs)).counts
  simp only [Bool.false_eq_true, if_false, List.nil_append] at hp
  refine ⟨_, _, hp, hs.1.trans hk, hs.2.2, ?_, ?_⟩
  · intro hne
    cases f1 with
    | nil =>
      simp only [List.nil_append] at e0
      subst e0
      refine ⟨rfl, ?_⟩
      rw [e3]; simp [f, Sent.bytes]
    | cons g f1 =>
      simp only [List.cons_append, List.cons.injEq] at e0
      obtain ⟨-, h0⟩ := e0
      obtain ⟨-, rfl⟩ := List.append_eq_nil_iff.1 h0.symm
      simp only [List.map_nil, List.flatten_nil, List.append_eq_nil_iff] at e3
      exact absurd e3.2 hne
  · intro he
    have h2 := e5 he
    subst h2
    rw [List.append_nil] at e0
    subst e0
    simp only [List.map_nil, List.flatten_nil, List.append_eq_nil_iff] at e3
    exact ⟨rfl, e3.1⟩

/-- What is never different. -/
structure Base (s : Loop D) : Prop where
  skip : s.modem.config.skip = false
  parser : s.modem.parser.skipAlpParsing = false
  up0 : 0 ≤ s.modem.parser.upCounter
  up1 : s.modem.parser.upCounter ≤ 255
  called : s.modem.called = []
  rebootedCalled : s.modem.rebootedCalled = []
  unsolicited : ∀ l ∈ s.modem.unsolicited, l = []
  rebooted : ∀ l ∈ s.modem.rebooted, l = []

/-- Nothing is on the way from the device. -/
structure Silent (s : Loop D) : Prop where
  line : s.line = []
  buffer : s.modem.parser.buffer = []
  reader : s.modem.reader = .reading ∨ s.modem.reader = .next []

/-- Nothing is on the way at all. -/
structure Resting (s : Loop D) : Prop where
  silent : Silent s
  taken : s.taken = s.modem.written.length

/-- A call that asks the device: who, what, and the state when it was called. -/
structure Job (D : Type) where
  caller : Caller
  tag : UInt8
  ops : List FileOp
  old : Loop D

/-- What does not change during a call. -/
structure Kept (j : Job D) (s : Loop D) : Prop where
  base : Base s
  valid : ∀ op ∈ j.ops, op.Valid
  fits : (requestBytes j.tag j.ops).length ≤ 255
  outcomes : s.modem.outcomes = j.old.modem.outcomes
  uid : s.modem.uid = j.old.modem.uid
  firmwareVersion : s.modem.firmwareVersion = j.old.modem.firmwareVersion
  connected : s.modem.connected = j.old.modem.connected
  config : s.modem.config = j.old.modem.config

/-- The results for the call. -/
abbrev Job.results (dev : Device D) (j : Job D) := dev.results j.old.data j.ops

/-- The phases of a call. -/
inductive Phase (dev : Device D) (j : Job D) (s : Loop D) (c : UInt8) (t : Int) : Prop
  | before (stage : Stage) :
      s.modem.main = .run stage j.caller (some (j.tag.toNat : Int)) (frame c 1 (requestBytes j.tag j.ops)) t →
      stage ≠ .wait → Resting s → s.data = j.old.data →
      s.modem.responses = (if stage = .resetList then j.old.modem.responses else j.old.modem.responses ++ [[]]) →
      (stage = .setTag ∨ stage = .write → s.modem.completed = false) →
      (stage = .write → s.modem.tag = some (j.tag.toNat : Int)) → Phase dev j s c t
  | sent :
      s.modem.main = .run .wait j.caller (some (j.tag.toNat : Int)) (frame c 1 (requestBytes j.tag j.ops)) t →
      Silent s → s.data = j.old.data → s.modem.responses = j.old.modem.responses ++ [[]] →
      s.modem.completed = false → s.modem.tag = some (j.tag.toNat : Int) →
      s.modem.written.drop s.taken = frame c 1 (requestBytes j.tag j.ops) → Phase dev j s c t
  | stuck :
      s.modem.main = .run .wait j.caller (some (j.tag.toNat : Int)) (frame c 1 (requestBytes j.tag j.ops)) t →
      Resting s → s.data = dev.after j.old.data j.ops → s.modem.completed = false →
      255 < (answer j.tag (j.results dev)).length → Phase dev j s c t
  | coming (k : UInt8) :
      s.modem.main = .run .wait j.caller (some (j.tag.toNat : Int)) (frame c 1 (requestBytes j.tag j.ops)) t →
      s.taken = s.modem.written.length → s.data = dev.after j.old.data j.ops →
      s.modem.responses = j.old.modem.responses ++ [[]] →
      s.modem.completed = false → s.modem.tag = some (j.tag.toNat : Int) →
      (answer j.tag (j.results dev)).length ≤ 255 →
      s.modem.parser.buffer ++ s.line = frame k 1 (answer j.tag (j.results dev)) → s.line ≠ [] →
      (s.modem.reader = .reading ∨ s.modem.reader = .next []) → Phase dev j s c t
  | got :
      s.modem.main = .run .wait j.caller (some (j.tag.toNat : Int)) (frame c 1 (requestBytes j.tag j.ops)) t →
      s.taken = s.modem.written.length → s.data = dev.after j.old.data j.ops →
      s.modem.responses = j.old.modem.responses ++ [[]] →
      s.modem.completed = false → s.modem.tag = some (j.tag.toNat : Int) →
      s.line = [] → s.modem.parser.buffer = [] → (answer j.tag (j.results dev)).length ≤ 255 →
      (s.modem.reader = .next [(1, .command (answered j.tag (j.results dev)))] ∨
        s.modem.reader = .sync 1 (answered j.tag (j.results dev)) [] ∨
        s.modem.reader = .syncAppend 1 (answered j.tag (j.results dev)) j.old.modem.responses.length []) →
      Phase dev j s c t
  | appended :
      s.modem.main = .run .wait j.caller (some (j.tag.toNat : Int)) (frame c 1 (requestBytes j.tag j.ops)) t →
      s.taken = s.modem.written.length → s.data = dev.after j.old.data j.ops →
      s.modem.responses = j.old.modem.responses ++ [[answered j.tag (j.results dev)]] →
      s.modem.completed = false → s.modem.tag = some (j.tag.toNat : Int) →
      s.line = [] → s.modem.parser.buffer = [] → (answer j.tag (j.results dev)).length ≤ 255 →
      s.modem.reader = .syncDone (answered j.tag (j.results dev)) [] → Phase dev j s c t
  | done :
      s.modem.main = .run .wait j.caller (some (j.tag.toNat : Int)) (frame c 1 (requestBytes j.tag j.ops)) t →
      Resting s → s.data = dev.after j.old.data j.ops →
      s.modem.responses = j.old.modem.responses ++ [[answered j.tag (j.results dev)]] →
      s.modem.completed = true → (answer j.tag (j.results dev)).length ≤ 255 → Phase dev j s c t

/-- A call is under way. -/
def Serving (dev : Device D) (j : Job D) (s : Loop D) : Prop :=
  Kept j s ∧ ∃ c t, 0 < t ∧ Phase dev j s c t

/-- The call ends in this step. -/
def Ends (dev : Device D) (j : Job D) (s s' : Loop D) : Prop :=
  Base s ∧ Resting s ∧ s.data = dev.after j.old.data j.ops ∧
    s.modem.responses = j.old.modem.responses ++ [[answered j.tag (j.results dev)]] ∧
    (answer j.tag (j.results dev)).length ≤ 255 ∧
    s' = { s with modem := s.modem.finishExecute j.caller (some j.old.modem.responses.length) }

/-- Steps left, at most. -/
def stageWork : Main → Nat
  | .idle => 0
  | .run .resetList _ _ _ _ => 3005
  | .run .resetTag _ _ _ _ => 3004
  | .run .resetCompleted _ _ _ _ => 3003
  | .run .setTag _ _ _ _ => 3002
  | .run .write _ _ _ _ => 3001
  | .run .wait _ _ _ _ => 1

def readerWork : Reader → Nat
  | .next [] => 1
  | .next _ => 5
  | .sync _ _ _ => 4
  | .syncAppend _ _ _ _ => 3
  | .syncDone _ _ => 2
  | _ => 0

def Loop.work (s : Loop D) : Nat :=
  stageWork s.modem.main + (if s.taken < s.modem.written.length then 2000 else 0) + 6 * s.line.length +
    readerWork s.modem.reader

theorem silent_reader {s s' : Loop D} {dev : Device D} (h : Silent s) (hs : s.step dev .reader = some s') :
    s.modem.reader = .next [] ∧ s' = { s with modem := { s.modem with reader := .reading } } := by
  simp only [Loop.step, State.step, State.readerStep] at hs
  rcases h.reader with hr | hr
  · rw [hr] at hs; cases hs
  · rw [hr] at hs
    exact ⟨hr, by simpa using hs.symm⟩

theorem silent_read {s s' : Loop D} {dev : Device D} {n : Nat} (h : s.line = []) (hs : s.step dev (.read n) = some s') :
    False := by
  simp only [Loop.step, h, List.length_nil] at hs
  rw [if_neg (by omega)] at hs
  cases hs

theorem taken_device {s s' : Loop D} {dev : Device D} {k : UInt8} (h : s.taken = s.modem.written.length)
    (hs : s.step dev (.device k) = some s') : False := by
  simp only [Loop.step, h, List.drop_length, nextFrame_nil] at hs
  cases hs

theorem busy_call {s s' : Loop D} {dev : Device D} {c : Call} {stage caller tag f t}
    (hm : s.modem.main = .run stage caller tag f t) (hs : s.step dev (.call c) = some s') : False := by
  simp only [Loop.step, State.step, hm] at hs
  simp at hs

theorem frame_length (c t : UInt8) (p : List UInt8) : (frame c t p).length = 7 + p.length := by
  simp [frame]; omega

theorem modify_last {α : Type} (l : List α) (x : α) (f : α → α) : (l ++ [x]).modify l.length f = l ++ [f x] := by
  induction l with
  | nil => rfl
  | cons y l ih => simpa using ih

theorem serving_step {dev : Device D} {j : Job D} {s s' : Loop D} {e : LoopEvent} (h : Serving dev j s)
    (hs : s.step dev e = some s') :
    (Serving dev j s' ∧ s'.work < s.work) ∨ (e = .main ∧ Ends dev j s s') := by
  obtain ⟨hk, c, t, ht, hp⟩ := h
  cases hp with
  | before stage hm hw hr hd hl hc htg =>
    cases e with
    | call cl => exact absurd hs (fun h => busy_call hm h)
    | read n => exact absurd hs (fun h => silent_read hr.silent.line h)
    | device k => exact absurd hs (fun h => taken_device hr.taken h)
    | reader =>
      obtain ⟨h1, rfl⟩ := silent_reader hr.silent hs
      left
      refine ⟨⟨⟨⟨hk.base.1, hk.base.2, hk.base.3, hk.base.4, hk.base.5, hk.base.6, hk.base.7, hk.base.8⟩,
        hk.valid, hk.fits, hk.outcomes, hk.uid, hk.firmwareVersion, hk.connected, hk.config⟩, c, t, ht,
        .before stage hm hw ⟨⟨hr.silent.line, hr.silent.buffer, .inl rfl⟩, hr.taken⟩ hd hl hc htg⟩, ?_⟩
      simp [Loop.work, h1, readerWork]
    | main =>
      left
      simp only [Loop.step, State.step, State.mainStep, hm] at hs
      cases stage with
      | resetList =>
        simp only [Option.map_some, Option.some.injEq] at hs
        subst hs
        refine ⟨⟨⟨⟨hk.base.1, hk.base.2, hk.base.3, hk.base.4, hk.base.5, hk.base.6, hk.base.7, hk.base.8⟩,
          hk.valid, hk.fits, hk.outcomes, hk.uid, hk.firmwareVersion, hk.connected, hk.config⟩, c, t, ht,
          .before .resetTag rfl (by simp) ⟨⟨hr.silent.line, hr.silent.buffer, hr.silent.reader⟩, hr.taken⟩ hd ?_
            (by simp) (by simp)⟩, ?_⟩
        · simpa using hl
        · simp [Loop.work, hm, stageWork]
      | resetTag =>
        simp only [Option.map_some, Option.some.injEq] at hs
        subst hs
        refine ⟨⟨⟨⟨hk.base.1, hk.base.2, hk.base.3, hk.base.4, hk.base.5, hk.base.6, hk.base.7, hk.base.8⟩,
          hk.valid, hk.fits, hk.outcomes, hk.uid, hk.firmwareVersion, hk.connected, hk.config⟩, c, t, ht,
          .before .resetCompleted rfl (by simp) ⟨⟨hr.silent.line, hr.silent.buffer, hr.silent.reader⟩, hr.taken⟩ hd
            (by simpa using hl) (by simp) (by simp)⟩, ?_⟩
        simp [Loop.work, hm, stageWork]
      | resetCompleted =>
        simp only [Option.map_some, Option.some.injEq] at hs
        subst hs
        refine ⟨⟨⟨⟨hk.base.1, hk.base.2, hk.base.3, hk.base.4, hk.base.5, hk.base.6, hk.base.7, hk.base.8⟩,
          hk.valid, hk.fits, hk.outcomes, hk.uid, hk.firmwareVersion, hk.connected, hk.config⟩, c, t, ht,
          .before .setTag rfl (by simp) ⟨⟨hr.silent.line, hr.silent.buffer, hr.silent.reader⟩, hr.taken⟩ hd
            (by simpa using hl) (by simp) (by simp)⟩, ?_⟩
        simp [Loop.work, hm, stageWork]
      | setTag =>
        simp only [Option.map_some, Option.some.injEq] at hs
        subst hs
        refine ⟨⟨⟨⟨hk.base.1, hk.base.2, hk.base.3, hk.base.4, hk.base.5, hk.base.6, hk.base.7, hk.base.8⟩,
          hk.valid, hk.fits, hk.outcomes, hk.uid, hk.firmwareVersion, hk.connected, hk.config⟩, c, t, ht,
          .before .write rfl (by simp) ⟨⟨hr.silent.line, hr.silent.buffer, hr.silent.reader⟩, hr.taken⟩ hd
            (by simpa using hl) (fun _ => hc (.inl rfl)) (fun _ => if_pos ht)⟩, ?_⟩
        simp [Loop.work, hm, stageWork]
      | write =>
        dsimp only at hs
        rw [if_neg (by omega)] at hs
        simp only [Option.map_some, Option.some.injEq] at hs
        subst hs
        refine ⟨⟨⟨⟨hk.base.1, hk.base.2, hk.base.3, hk.base.4, hk.base.5, hk.base.6, hk.base.7, hk.base.8⟩,
          hk.valid, hk.fits, hk.outcomes, hk.uid, hk.firmwareVersion, hk.connected, hk.config⟩, c, t, ht,
          .sent rfl ⟨hr.silent.line, hr.silent.buffer, hr.silent.reader⟩ hd
            (by simpa using hl) (hc (.inr rfl)) (htg rfl) ?_⟩, ?_⟩
        · simp [hr.taken]
        · simp only [Loop.work, hm, stageWork, hr.taken, hr.silent.line]
          rw [if_pos (by simp [frame_length])]
          simp
      | wait => exact absurd rfl hw
  | sent hm hr hd hl hc htg hw =>
    cases e with
    | call cl => exact absurd hs (fun h => busy_call hm h)
    | read n => exact absurd hs (fun h => silent_read hr.line h)
    | main =>
      simp only [Loop.step, State.step, State.mainStep, hm, hc] at hs
      simp at hs
    | reader =>
      obtain ⟨h1, rfl⟩ := silent_reader hr hs
      left
      refine ⟨⟨⟨⟨hk.base.1, hk.base.2, hk.base.3, hk.base.4, hk.base.5, hk.base.6, hk.base.7, hk.base.8⟩,
        hk.valid, hk.fits, hk.outcomes, hk.uid, hk.firmwareVersion, hk.connected, hk.config⟩, c, t, ht,
        .sent hm ⟨hr.line, hr.buffer, .inl rfl⟩ hd hl hc htg hw⟩, ?_⟩
      simp [Loop.work, h1, readerWork]
    | device k =>
      left
      have hlen := congrArg List.length hw
      rw [List.length_drop, frame_length] at hlen
      have hn := nextFrame_frame c (requestBytes j.tag j.ops) [] hk.fits
      rw [List.append_nil, ← hw] at hn
      simp only [Loop.step, hn, serve_request dev s.data j.tag hk.valid] at hs
      simp only [Option.some.injEq] at hs
      subst hs
      rw [hr.line, hd]
      have hkept : ∀ (n : Nat) (d : D) (l : List UInt8), Kept j ⟨s.modem, d, n, l⟩ := fun n d l =>
        ⟨⟨hk.base.1, hk.base.2, hk.base.3, hk.base.4, hk.base.5, hk.base.6, hk.base.7, hk.base.8⟩,
          hk.valid, hk.fits, hk.outcomes, hk.uid, hk.firmwareVersion, hk.connected, hk.config⟩
      by_cases ha : (answer j.tag (j.results dev)).length ≤ 255
      · have ha' : (answer j.tag (dev.results j.old.data j.ops)).length ≤ 255 := ha
        simp only [if_pos ha, List.nil_append]
        refine ⟨⟨hkept _ _ _, c, t, ht, .coming k hm (by simp only; omega) rfl hl hc htg ha ?_ ?_ hr.reader⟩, ?_⟩
        · simp [hr.buffer]
        · intro h0
          have := congrArg List.length h0
          rw [frame_length] at this
          simp at this
        · simp only [Loop.work, frame_length, hr.line, List.length_nil]
          rw [if_neg (by omega), if_pos (by omega)]
          omega
      · simp only [if_neg ha, List.append_nil]
        refine ⟨⟨hkept _ _ _, c, t, ht, .stuck hm ⟨⟨rfl, hr.buffer, hr.reader⟩, by simp only; omega⟩ rfl hc
          (by omega)⟩, ?_⟩
        simp only [Loop.work, hr.line, List.length_nil]
        rw [if_neg (by omega), if_pos (by omega)]
        omega
  | stuck hm hr hd hc ha =>
    cases e with
    | call cl => exact absurd hs (fun h => busy_call hm h)
    | read n => exact absurd hs (fun h => silent_read hr.silent.line h)
    | device k => exact absurd hs (fun h => taken_device hr.taken h)
    | main =>
      simp only [Loop.step, State.step, State.mainStep, hm, hc] at hs
      simp at hs
    | reader =>
      obtain ⟨h1, rfl⟩ := silent_reader hr.silent hs
      left
      refine ⟨⟨⟨⟨hk.base.1, hk.base.2, hk.base.3, hk.base.4, hk.base.5, hk.base.6, hk.base.7, hk.base.8⟩,
        hk.valid, hk.fits, hk.outcomes, hk.uid, hk.firmwareVersion, hk.connected, hk.config⟩, c, t, ht,
        .stuck hm ⟨⟨hr.silent.line, hr.silent.buffer, .inl rfl⟩, hr.taken⟩ hd hc ha⟩, ?_⟩
      simp [Loop.work, h1, readerWork]
  | coming k hm hw hd hl hc htg ha hb hne hr =>
    cases e with
    | call cl => exact absurd hs (fun h => busy_call hm h)
    | device k => exact absurd hs (fun h => taken_device hw h)
    | main =>
      simp only [Loop.step, State.step, State.mainStep, hm, hc] at hs
      simp at hs
    | reader =>
      left
      simp only [Loop.step, State.step, State.readerStep] at hs
      rcases hr with hr | hr
      · rw [hr] at hs; cases hs
      · rw [hr] at hs
        simp only [Option.map_some, Option.some.injEq] at hs
        subst hs
        refine ⟨⟨⟨⟨hk.base.1, hk.base.2, hk.base.3, hk.base.4, hk.base.5, hk.base.6, hk.base.7, hk.base.8⟩,
          hk.valid, hk.fits, hk.outcomes, hk.uid, hk.firmwareVersion, hk.connected, hk.config⟩, c, t, ht,
          .coming k hm hw hd hl hc htg ha hb hne (.inl rfl)⟩, ?_⟩
        simp [Loop.work, hr, readerWork]
    | read n =>
      left
      simp only [Loop.step] at hs
      by_cases hn : 0 < n ∧ n ≤ s.line.length
      · rw [if_pos hn] at hs
        simp only [State.step, State.rxStep] at hs
        rcases hr with hr | hr
        · rw [hr] at hs
          rw [← List.take_append_drop n s.line] at hb
          obtain ⟨q, o, e1, e2, e3, e4, e5⟩ := parse_answer hk.base.parser
            (results_offsets dev hk.valid j.old.data) ha hb
          rw [e1] at hs
          simp only [Option.map_some, Option.some.injEq] at hs
          subst hs
          have hkept : Kept j ⟨{ s.modem with
              parser := q
              reader := .next o.cmds
              received := s.modem.received ++ o.cmds }, s.data, s.taken, s.line.drop n⟩ :=
            ⟨⟨hk.base.1, e2, by rw [e3]; exact hk.base.3, by rw [e3]; exact hk.base.4, hk.base.5, hk.base.6, hk.base.7,
              hk.base.8⟩, hk.valid, hk.fits, hk.outcomes, hk.uid, hk.firmwareVersion, hk.connected, hk.config⟩
          by_cases hz : s.line.drop n = []
          · obtain ⟨e6, e7⟩ := e5 hz
            refine ⟨⟨hkept, c, t, ht, .got hm hw hd hl hc htg hz e7 ha (.inl ?_)⟩, ?_⟩
            · simp only; rw [e6]
            · simp only [Loop.work, hr, e6, readerWork, List.length_drop]
              omega
          · obtain ⟨e6, e7⟩ := e4 hz
            refine ⟨⟨hkept, c, t, ht, .coming k hm hw hd hl hc htg ha e7 hz (.inr ?_)⟩, ?_⟩
            · simp only; rw [e6]
            · simp only [Loop.work, hr, e6, readerWork, List.length_drop]
              omega
        · rw [hr] at hs; cases hs
      · rw [if_neg hn] at hs; cases hs
  | got hm hw hd hl hc htg hz hb ha hr =>
    cases e with
    | call cl => exact absurd hs (fun h => busy_call hm h)
    | read n => exact absurd hs (fun h => silent_read hz h)
    | device k => exact absurd hs (fun h => taken_device hw h)
    | main =>
      simp only [Loop.step, State.step, State.mainStep, hm, hc] at hs
      simp at hs
    | reader =>
      left
      simp only [Loop.step, State.step, State.readerStep] at hs
      rcases hr with hr | hr | hr
      · rw [hr] at hs
        have hi : s.modem.isSync 1 (.command (answered j.tag (j.results dev))) =
            some (answered j.tag (j.results dev)) := by
          simp only [State.isSync, hk.base.skip, htg]
          rw [if_pos ⟨by simp, rfl, by decide⟩]
        simp only [hi, Option.map_some, Option.some.injEq] at hs
        subst hs
        refine ⟨⟨⟨⟨hk.base.1, hk.base.2, hk.base.3, hk.base.4, hk.base.5, hk.base.6, hk.base.7, hk.base.8⟩,
          hk.valid, hk.fits, hk.outcomes, hk.uid, hk.firmwareVersion, hk.connected, hk.config⟩, c, t, ht,
          .got hm hw hd hl hc htg hz hb ha (.inr (.inl rfl))⟩, ?_⟩
        simp [Loop.work, hr, readerWork]
      · rw [hr] at hs
        simp only [Option.map_some, Option.some.injEq] at hs
        subst hs
        refine ⟨⟨⟨⟨hk.base.1, hk.base.2, hk.base.3, hk.base.4, hk.base.5, hk.base.6, hk.base.7, hk.base.8⟩,
          hk.valid, hk.fits, hk.outcomes, hk.uid, hk.firmwareVersion, hk.connected, hk.config⟩, c, t, ht,
          .got hm hw hd hl hc htg hz hb ha (.inr (.inr ?_))⟩, ?_⟩
        · simp [hl]
        · simp [Loop.work, hr, readerWork]
      · rw [hr] at hs
        simp only [Option.map_some, Option.some.injEq] at hs
        subst hs
        refine ⟨⟨⟨⟨hk.base.1, hk.base.2, hk.base.3, hk.base.4, hk.base.5, hk.base.6, hk.base.7, hk.base.8⟩,
          hk.valid, hk.fits, hk.outcomes, hk.uid, hk.firmwareVersion, hk.connected, hk.config⟩, c, t, ht,
          .appended hm hw hd ?_ hc htg hz hb ha rfl⟩, ?_⟩
        · simp only [hl, modify_last]; rfl
        · simp [Loop.work, hr, readerWork]
  | appended hm hw hd hl hc htg hz hb ha hr =>
    cases e with
    | call cl => exact absurd hs (fun h => busy_call hm h)
    | read n => exact absurd hs (fun h => silent_read hz h)
    | device k => exact absurd hs (fun h => taken_device hw h)
    | main =>
      simp only [Loop.step, State.step, State.mainStep, hm, hc] at hs
      simp at hs
    | reader =>
      left
      simp only [Loop.step, State.step, State.readerStep, hr, Option.map_some, Option.some.injEq] at hs
      subst hs
      refine ⟨⟨⟨⟨hk.base.1, hk.base.2, hk.base.3, hk.base.4, hk.base.5, hk.base.6, hk.base.7, hk.base.8⟩,
        hk.valid, hk.fits, hk.outcomes, hk.uid, hk.firmwareVersion, hk.connected, hk.config⟩, c, t, ht,
        .done hm ⟨⟨hz, hb, .inr rfl⟩, hw⟩ hd hl (by simp [answered]) ha⟩, ?_⟩
      simp [Loop.work, hr, readerWork]
  | done hm hr hd hl hc ha =>
    cases e with
    | call cl => exact absurd hs (fun h => busy_call hm h)
    | read n => exact absurd hs (fun h => silent_read hr.silent.line h)
    | device k => exact absurd hs (fun h => taken_device hr.taken h)
    | reader =>
      obtain ⟨h1, rfl⟩ := silent_reader hr.silent hs
      left
      refine ⟨⟨⟨⟨hk.base.1, hk.base.2, hk.base.3, hk.base.4, hk.base.5, hk.base.6, hk.base.7, hk.base.8⟩,
        hk.valid, hk.fits, hk.outcomes, hk.uid, hk.firmwareVersion, hk.connected, hk.config⟩, c, t, ht,
        .done hm ⟨⟨hr.silent.line, hr.silent.buffer, .inl rfl⟩, hr.taken⟩ hd hl hc ha⟩, ?_⟩
      simp [Loop.work, h1, readerWork]
    | main =>
      right
      simp only [Loop.step, State.step, State.mainStep, hm, hc, if_true, Option.map_some, Option.some.injEq] at hs
      refine ⟨rfl, hk.base, hr, hd, hl, ha, ?_⟩
      rw [← hs, hl]
      simp

/-- No call is in progress and nothing is on the way. -/
structure Idle (s : Loop D) : Prop where
  base : Base s
  resting : Resting s
  main : s.modem.main = .idle

theorem execute_step {s : Loop D} (h : Idle s) (caller : Caller) (dev : Device D) {tag : UInt8} {ops : List FileOp}
    (hv : ∀ op ∈ ops, op.Valid) {timeout : Int} (ht : 0 < timeout) :
    ((requestBytes tag ops).length ≤ 255 →
      Serving dev ⟨caller, tag, ops, s⟩
        { s with modem := s.modem.startExecute caller (request tag ops) timeout } ∧
      Loop.work { s with modem := s.modem.startExecute caller (request tag ops) timeout } ≤ 3006) ∧
    (255 < (requestBytes tag ops).length →
      s.modem.startExecute caller (request tag ops) timeout = s.modem.finish (.raised .valueError)) := by
  obtain ⟨b1, b2, -⟩ := C28_builder s.modem.parser h.base.up0 h.base.up1 (request tag ops).iter
  have he := request_emits tag hv
  constructor
  · intro hl
    have hb := b1 _ he hl
    have hx : s.modem.startExecute caller (request tag ops) timeout =
        { s.modem with
          parser := { s.modem.parser with
            upCounter := if s.modem.parser.upCounter = 255 then 0 else s.modem.parser.upCounter + 1 }
          main := .run .resetList caller (some (tag.toNat : Int))
            (frame (UInt8.ofNat s.modem.parser.upCounter.toNat) 1 (requestBytes tag ops)) timeout } := by
      unfold State.startExecute
      rw [hb, h.base.skip]
      rfl
    rw [hx]
    have h0 := h.base.up0
    have h1 := h.base.up1
    refine ⟨⟨⟨⟨h.base.1, h.base.2, ?_, ?_, h.base.5, h.base.6, h.base.7, h.base.8⟩, hv, hl, rfl, rfl, rfl, rfl, rfl⟩,
      _, timeout, ht, .before .resetList rfl (by simp)
        ⟨⟨h.resting.silent.line, h.resting.silent.buffer, h.resting.silent.reader⟩, h.resting.taken⟩ rfl rfl
        (by simp) (by simp)⟩, ?_⟩
    · simp only; split <;> omega
    · simp only; split <;> omega
    · simp only [Loop.work, stageWork, h.resting.taken, h.resting.silent.line]
      rcases h.resting.silent.reader with hr | hr <;> rw [hr] <;> simp [readerWork]
  · intro hl
    unfold State.startExecute
    rw [b2 _ he hl]

theorem idle_finish {s : Loop D} (h : Idle s) (o : Outcome) : Idle { s with modem := s.modem.finish o } :=
  ⟨⟨h.base.1, h.base.2, h.base.3, h.base.4, h.base.5, h.base.6, h.base.7, h.base.8⟩,
    ⟨⟨h.resting.silent.line, h.resting.silent.buffer, h.resting.silent.reader⟩, h.resting.taken⟩, rfl⟩

theorem identification_valid : ∀ op ∈ identification, op.Valid := by
  intro op hop
  simp only [identification, List.mem_cons, List.not_mem_nil, or_false] at hop
  rcases hop with rfl | rfl <;> simp [FileOp.Valid]

theorem question_request (tag : UInt8) : question tag = request tag identification := rfl

theorem connect_step {s : Loop D} (h : Idle s) (hc : s.modem.connected = false) (tag : UInt8) :
    s.modem.startCall (.connect true tag) = s.modem.startExecute .connect (request tag identification) 10 := by
  simp only [State.startCall, hc, infoCommand_eq, h.base.skip, question_request]
  simp

theorem identification_fits (tag : UInt8) : (requestBytes tag identification).length ≤ 255 := by
  simp [requestBytes, identification, FileOp.bytes, encode]

/-- Without a call only the reading thread can make a step. -/
theorem idle_step {s s' : Loop D} {dev : Device D} {e : LoopEvent} (h : Idle s) (hs : s.step dev e = some s') :
    (e = .reader ∧ Idle s' ∧ s' = { s with modem := { s.modem with reader := .reading } }) ∨
    ∃ c, e = .call c ∧ s' = { s with modem := s.modem.startCall c } := by
  cases e with
  | call c =>
    right
    simp only [Loop.step, State.step] at hs
    rw [if_pos h.main] at hs
    exact ⟨c, rfl, by simpa using hs.symm⟩
  | main =>
    simp only [Loop.step, State.step, State.mainStep, h.main] at hs
    cases hs
  | reader =>
    left
    obtain ⟨-, rfl⟩ := silent_reader h.resting.silent hs
    exact ⟨rfl, ⟨⟨h.base.1, h.base.2, h.base.3, h.base.4, h.base.5, h.base.6, h.base.7, h.base.8⟩,
      ⟨⟨h.resting.silent.line, h.resting.silent.buffer, .inl rfl⟩, h.resting.taken⟩, h.main⟩, rfl⟩
  | read n => exact absurd hs (fun h' => silent_read h.resting.silent.line h')
  | device k => exact absurd hs (fun h' => taken_device h.resting.taken h')

/-- What a call does at once. -/
theorem call_step {s : Loop D} {dev : Device D} {c : Call} (h : Idle s) (hp : Proper (.call c)) :
    (Idle { s with modem := s.modem.startCall c } ∧ (∀ tag ops, Asks c tag ops →
      ¬ (requestBytes tag ops).length ≤ 255 ∨ ops = identification)) ∨
    ∃ caller tag ops, Asks c tag ops ∧ (requestBytes tag ops).length ≤ 255 ∧
      Serving dev ⟨caller, tag, ops, s⟩ { s with modem := s.modem.startCall c } := by
  cases c with
  | execute cmd timeout =>
    obtain ⟨ht, tag, ops, hv, rfl⟩ := hp
    obtain ⟨h1, h2⟩ := execute_step h .app dev (tag := tag) hv ht
    by_cases hl : (requestBytes tag ops).length ≤ 255
    · exact .inr ⟨.app, tag, ops, .execute tag ops timeout ht hv, hl, (h1 hl).1⟩
    · left
      have hx : s.modem.startCall (.execute (request tag ops) timeout) = s.modem.finish (.raised .valueError) :=
        h2 (by omega)
      rw [hx]
      refine ⟨idle_finish h _, ?_⟩
      intro tag' ops' ha
      left
      generalize hcmd : request tag ops = cmd at ha
      cases ha with
      | execute _ _ _ _ hv' =>
        have e1 := request_emits tag hv
        rw [hcmd] at e1
        rw [← e1.unique (request_emits tag' hv')]
        exact hl
  | connect checkAlive rand =>
    by_cases hc : s.modem.connected = true
    · left
      have hx : s.modem.startCall (.connect checkAlive rand) = s.modem.finish .none := by
        simp only [State.startCall, hc, if_true]
      rw [hx]
      refine ⟨idle_finish h _, ?_⟩
      intro tag ops ha
      cases ha
      exact .inr rfl
    · rw [Bool.not_eq_true] at hc
      cases checkAlive with
      | false =>
        left
        have hx : s.modem.startCall (.connect false rand) = { s.modem with connected := true }.finish (.bool true) := by
          simp [State.startCall, hc]
        rw [hx]
        refine ⟨⟨⟨h.base.1, h.base.2, h.base.3, h.base.4, h.base.5, h.base.6, h.base.7, h.base.8⟩,
          ⟨⟨h.resting.silent.line, h.resting.silent.buffer, h.resting.silent.reader⟩, h.resting.taken⟩, rfl⟩, ?_⟩
        intro tag ops ha
        cases ha
      | true =>
        right
        rw [connect_step h hc]
        exact ⟨.connect, rand, identification, .connect rand, identification_fits rand,
          ((execute_step h .connect dev identification_valid (by decide)).1 (identification_fits rand)).1⟩
  | clearUnsolicited =>
    left
    refine ⟨⟨⟨h.base.1, h.base.2, h.base.3, h.base.4, h.base.5, h.base.6, ?_, h.base.8⟩,
      ⟨⟨h.resting.silent.line, h.resting.silent.buffer, h.resting.silent.reader⟩, h.resting.taken⟩, rfl⟩, ?_⟩
    · intro l hl
      rcases List.mem_append.1 hl with hl | hl
      · exact h.base.7 l hl
      · simpa using hl
    · intro tag ops ha
      cases ha
  | clearRebooted =>
    left
    refine ⟨⟨⟨h.base.1, h.base.2, h.base.3, h.base.4, h.base.5, h.base.6, h.base.7, ?_⟩,
      ⟨⟨h.resting.silent.line, h.resting.silent.buffer, h.resting.silent.reader⟩, h.resting.taken⟩, rfl⟩, ?_⟩
    · intro l hl
      rcases List.mem_append.1 hl with hl | hl
      · exact h.base.8 l hl
      · simpa using hl
    · intro tag ops ha
      cases ha

/-- Nothing but the end of the call changes in the last step. -/
theorem finishExecute_all (s : State) (caller : Caller) (l : Option Nat) :
    ∃ uid fw cn o, s.finishExecute caller l =
      { s with uid := uid, firmwareVersion := fw, connected := cn, main := .idle, outcomes := s.outcomes ++ [o] } := by
  unfold State.finishExecute
  cases caller with
  | app => exact ⟨s.uid, s.firmwareVersion, s.connected, _, rfl⟩
  | connectSkip => exact ⟨s.uid, s.firmwareVersion, s.connected, _, rfl⟩
  | connect =>
    simp only [State.finishConnect]
    split
    · exact ⟨s.uid, s.firmwareVersion, s.connected, _, rfl⟩
    · exact ⟨s.uid, s.firmwareVersion, s.connected, _, rfl⟩
    · split
      · exact ⟨_, _, s.connected, _, rfl⟩
      · exact ⟨_, _, _, _, rfl⟩

theorem ends_idle {dev : Device D} {j : Job D} {s s' : Loop D} (h : Ends dev j s s') :
    Idle s' ∧ s'.data = dev.after j.old.data j.ops ∧
      s'.modem.responses = j.old.modem.responses ++ [[answered j.tag (j.results dev)]] ∧
      ∃ o, s'.modem.outcomes = s.modem.outcomes ++ [o] := by
  obtain ⟨hb, hr, hd, hl, -, rfl⟩ := h
  obtain ⟨uid, fw, cn, o, he⟩ := finishExecute_all s.modem j.caller (some j.old.modem.responses.length)
  rw [he]
  exact ⟨⟨⟨hb.1, hb.2, hb.3, hb.4, hb.5, hb.6, hb.7, hb.8⟩,
    ⟨⟨hr.silent.line, hr.silent.buffer, hr.silent.reader⟩, hr.taken⟩, rfl⟩, hd, hl, o, rfl⟩

/-- All states of modem and device. -/
theorem reachable {dev : Device D} {s s' : Loop D} {es : List LoopEvent} (h : Idle s ∨ ∃ j, Serving dev j s)
    (hp : ∀ e ∈ es, Proper e) (hs : s.run dev es = some s') : Idle s' ∨ ∃ j, Serving dev j s' := by
  induction es generalizing s with
  | nil => simp only [Loop.run, Option.some.injEq] at hs; exact hs ▸ h
  | cons e es ih =>
    obtain ⟨s1, h1, h2⟩ := Option.bind_eq_some_iff.1 hs
    refine ih ?_ (fun x hx => hp x (by simp [hx])) h2
    rcases h with h | ⟨j, h⟩
    · rcases idle_step h h1 with ⟨-, h3, -⟩ | ⟨c, rfl, rfl⟩
      · exact .inl h3
      · rcases call_step (dev := dev) h (hp (.call c) (by simp)) with h3 | ⟨caller, tag, ops, -, -, h3⟩
        · exact .inl h3.1
        · exact .inr ⟨_, h3⟩
    · rcases serving_step h h1 with h3 | h3
      · exact .inr ⟨j, h3.1⟩
      · exact .inl (ends_idle h3.2).1

theorem start_idle {config : Config} (hk : config.skip = false) (d : D) : Idle (Loop.start config d) := by
  refine ⟨⟨hk, hk, by simp [Loop.start, init, Parser.new], by simp [Loop.start, init, Parser.new], rfl, rfl, ?_, ?_⟩,
    ⟨⟨rfl, rfl, .inl rfl⟩, rfl⟩, rfl⟩
  · intro l hl; simpa [Loop.start, init] using hl
  · intro l hl; simpa [Loop.start, init] using hl

theorem serving_main {dev : Device D} {j : Job D} {s : Loop D} (h : Serving dev j s) : s.modem.main ≠ .idle := by
  obtain ⟨-, c, t, -, hp⟩ := h
  cases hp <;> simp_all

theorem step_outcomes_loop {dev : Device D} {s s' : Loop D} {e : LoopEvent} (h : s.step dev e = some s') :
    ∃ l, s'.modem.outcomes = s.modem.outcomes ++ l := by
  cases e with
  | call c =>
    obtain ⟨m, hm, rfl⟩ := Option.map_eq_some_iff.1 h
    exact step_outcomes hm
  | main =>
    obtain ⟨m, hm, rfl⟩ := Option.map_eq_some_iff.1 h
    exact step_outcomes hm
  | reader =>
    obtain ⟨m, hm, rfl⟩ := Option.map_eq_some_iff.1 h
    exact step_outcomes hm
  | read n =>
    simp only [Loop.step] at h
    split at h
    · obtain ⟨m, hm, rfl⟩ := Option.map_eq_some_iff.1 h
      exact step_outcomes hm
    · cases h
  | device k =>
    simp only [Loop.step] at h
    split at h
    · cases h
    · simp only [Option.some.injEq] at h
      subst h
      exact ⟨[], by simp⟩

theorem run_outcomes_loop {dev : Device D} {s s' : Loop D} {es : List LoopEvent} (h : s.run dev es = some s') :
    ∃ l, s'.modem.outcomes = s.modem.outcomes ++ l := by
  induction es generalizing s with
  | nil => simp only [Loop.run, Option.some.injEq] at h; exact ⟨[], by simp [h]⟩
  | cons e es ih =>
    obtain ⟨s1, h1, h2⟩ := Option.bind_eq_some_iff.1 h
    obtain ⟨l1, e1⟩ := step_outcomes_loop h1
    obtain ⟨l2, e2⟩ := ih h2
    exact ⟨l1 ++ l2, by rw [e2, e1, List.append_assoc]⟩

/-- As long as no outcome is added, the call is under way; each step is work. -/
theorem serving_run {dev : Device D} {j : Job D} {s s' : Loop D} {es : List LoopEvent} (h : Serving dev j s)
    (hs : s.run dev es = some s') (ho : s'.modem.outcomes = s.modem.outcomes) :
    Serving dev j s' ∧ es.length + s'.work ≤ s.work := by
  induction es generalizing s with
  | nil =>
    simp only [Loop.run, Option.some.injEq] at hs
    subst hs
    exact ⟨h, by simp⟩
  | cons e es ih =>
    obtain ⟨s1, h1, h2⟩ := Option.bind_eq_some_iff.1 hs
    rcases serving_step h h1 with ⟨h3, h4⟩ | ⟨-, h3⟩
    · have ho1 : s1.modem.outcomes = s.modem.outcomes := h3.1.outcomes.trans h.1.outcomes.symm
      obtain ⟨h5, h6⟩ := ih h3 h2 (ho.trans ho1.symm)
      exact ⟨h5, by simp only [List.length_cons]; omega⟩
    · obtain ⟨-, -, -, o, h4⟩ := ends_idle h3
      obtain ⟨l, h5⟩ := run_outcomes_loop h2
      rw [h5, h4] at ho
      have := congrArg List.length ho
      simp at this

/-- While the answer is awaited and fits in a frame, something can happen. -/
theorem serving_enabled {dev : Device D} {j : Job D} {s : Loop D} (h : Serving dev j s)
    (ha : (answer j.tag (j.results dev)).length ≤ 255) :
    (s.step dev .main).isSome ∨ (s.step dev .reader).isSome ∨ (s.step dev (.read s.line.length)).isSome ∨
      ∀ k, (s.step dev (.device k)).isSome := by
  obtain ⟨hk, c, t, ht, hp⟩ := h
  cases hp with
  | before stage hm hw =>
    left
    simp only [Loop.step, State.step, State.mainStep, hm, Option.isSome_map]
    cases stage with
    | write => simp only; split <;> rfl
    | wait => exact absurd rfl hw
    | _ => rfl
  | sent hm hr hd hl hc htg hw =>
    right; right; right
    intro k
    have hn := nextFrame_frame c (requestBytes j.tag j.ops) [] hk.fits
    rw [List.append_nil, ← hw] at hn
    simp [Loop.step, hn]
  | stuck hm hr hd hc ha' => exact absurd ha (by omega)
  | coming k hm hw hd hl hc htg ha hb hne hr =>
    rcases hr with hr | hr
    · right; right; left
      have hpos := List.length_pos_iff.2 hne
      simp only [Loop.step]
      rw [if_pos ⟨hpos, le_refl _⟩, Option.isSome_map]
      simp only [State.step, State.rxStep, hr]
      split <;> rfl
    · right; left
      simp [Loop.step, State.step, State.readerStep, hr]
  | got hm hw hd hl hc htg hz hb ha hr =>
    right; left
    rcases hr with hr | hr | hr
    · simp only [Loop.step, State.step, State.readerStep, hr, Option.isSome_map]
      split <;> rfl
    · simp [Loop.step, State.step, State.readerStep, hr]
    · simp [Loop.step, State.step, State.readerStep, hr]
  | appended hm hw hd hl hc htg hz hb ha hr =>
    right; left
    simp [Loop.step, State.step, State.readerStep, hr]
  | done hm hr hd hl hc ha =>
    left
    simp [Loop.step, State.step, State.mainStep, hm, hc]

end Verif.Modem
