import Verif.Props.Nodes
import Verif.Props.GatewayAsync

/-! C81: a query to other nodes without waiting, as in examples/query_nodes.py. -/

namespace Verif.Modem

open Verif Verif.Serial

variable {D : Type}

theorem meaning_unique {ps : List (List UInt8)} {rs rs' : List Command} (h : Meaning ps rs) (h' : Meaning ps rs') :
    rs = rs' := by
  induction ps generalizing rs rs' with
  | nil => cases h; cases h'; rfl
  | cons p ps ih =>
    cases h with
    | cons h1 h2 =>
      cases h' with
      | cons h3 h4 =>
        rw [ih h2 h4]
        congr 1
        cases h1.2 with
        | alp _ _ _ _ _ _ e1 =>
          cases h3.2 with
          | alp _ _ _ _ _ _ e2 =>
            rw [e1] at e2
            cases e2
            rfl

/-- The command of the program (lines 53-66): two bytes of file 0x40 of every node. -/
theorem C81_command (tag : UInt8) :
    Command.createWithReadFileAction tag 0x40 2 0 .D7ASP (some (.d7asp everyone)) =
      .ok (asking tag everyone [.read 0x40 0 2]) :=
  C78_read_command tag 0x40 ⟨by decide, by decide⟩ everyone

example : ∃ raw, Describes raw everyone ∧ (askingBytes 7 raw [.read 0x40 0 2]).length = 12 :=
  ⟨[1, 0, 0x10, 0x11], ⟨⟨by decide, by decide, (by intro c h; cases h)⟩, by decide⟩, by decide⟩

/-- C81, for receive levels up to 127: a command for other nodes is executed without waiting, with a callback and a
connected modem, after any number of calls for which the application waited. When nothing is going on any more, the
callback has been called with the answers of exactly the nodes that answered, in order, each with the status of
that node and the data it returned, and after them with the message that the execution is completed, at which the program
ends. -/
theorem C81_query_partial {config : Config} (hk : config.skip = false) (hcb : config.callback = true) {g : Gateway D}
    (hg : g.Conforms) {air : Air D} (hf : g.Forwards air) {d : D} {before es : List NetEvent} {s0 s : Net D} {tag : UInt8}
    {cfg : Configuration} {raw : List UInt8} {ops : List FileOp} (hr : Describes raw cfg) (hv : ∀ op ∈ ops, op.Valid)
    (hl : (askingBytes tag raw ops).length ≤ 255) (hx : ∀ x ∈ (air s0.data cfg ops).2, x.Readable)
    (hp : ∀ e ∈ before, Polite e) (h0 : (Net.start config d).run g before = some s0) (hm : s0.modem.main = .idle)
    (hc : s0.modem.connected = true) (hn : ∀ c, .call c ∉ es)
    (h : s0.run g (.call (.execute (asking tag cfg ops) 0) :: es) = some s) (hs : s.Settled) :
    ∃ cs, s.modem.called = cs.map Msg.command ∧ Brings tag (air s0.data cfg ops).2 cs ∧
      s.data = (air s0.data cfg ops).1 := by
  have hb : sendable (asking tag cfg ops) = some (askingBytes tag raw ops) := by
    unfold sendable
    rw [C78_sent tag hr hv]
    exact if_pos hl
  have hpay : ∀ l : List NetEvent, (∀ c, .call c ∉ l) → payloads l = [] := by
    intro l
    induction l with
    | nil => intro; rfl
    | cons e l ih =>
      intro hn
      have := ih fun c hc => hn c (by simp [hc])
      cases e with
      | call c => exact absurd (List.mem_cons_self) (hn c)
      | _ => simpa [payloads] using this
  have hps : payloads (.call (.execute (asking tag cfg ops) 0) :: es) = [askingBytes tag raw ops] := by
    simp only [payloads, hb, hpay es hn]
    rfl
  obtain ⟨e1, rs, e2, e3⟩ := C79_settled hk hcb hg hp h0 hm hc (by
    intro e he
    rcases List.mem_cons.1 he with rfl | he
    · exact ⟨rfl, tag.toNat, rfl, rfl, rfl⟩
    · cases e with
      | call c => exact absurd he (hn c)
      | _ => trivial) h hs
  rw [hps] at e1 e2
  simp only [Gateway.replies, List.append_nil, hf s0.data tag cfg raw ops hr hv] at e1 e2
  obtain ⟨cs, e4, e5⟩ := message_answers (tag := tag) hx
  exact ⟨cs, by rw [e3, meaning_unique e2 e4.meaning], e5, e1⟩

/-- A query to two nodes. -/
def queryingAsync : List NetEvent :=
  [.call (.execute (asking 7 everyone [.read 0x40 0 1]) 0), .main, .main, .main, .main, .main, .take, .send 1, .send 2,
    .send 3, .read 83] ++ List.replicate 10 .reader

example : ((Net.start ⟨false, true, false⟩ 5).run (relay 75) (.call (.connect false 0) :: queryingAsync)).map (fun s =>
    (s.modem.called, decide (s.modem.main = .idle ∧ s.taken = s.modem.written.length ∧ s.pending = [] ∧ s.line = [] ∧
      s.modem.reader = .reading))) =
    some ([.command (heard 7 (nodeStatus 70 1) [(0x40, 0, [5])]), .command (heard 7 (nodeStatus 75 2) [(0x40, 0, [5])]),
      .command (answered 7 [])], true) := by
  decide +kernel

/-- C81, the program does not stop before all answers were there: until then no message says that the execution is
completed, and the last one does. -/
theorem C81_end {tag : UInt8} {xs : List NodeAnswer} {cs : List Command} (h : Brings tag xs cs) :
    ∃ l x, cs = l ++ [x] ∧ l.length = xs.length ∧ x.executionCompleted = true ∧ ∀ c ∈ l, c.executionCompleted = false := by
  obtain ⟨l, rfl, hl⟩ := h
  refine ⟨l, _, rfl, hl.length_eq, rfl, ?_⟩
  induction hl with
  | nil => simp
  | cons hx _ ih =>
    obtain ⟨st, -, rfl⟩ := hx
    intro c hc
    rcases List.mem_cons.1 hc with rfl | hc
    · rfl
    · exact ih c hc

example : Brings 7 (twoNodes 75 5 everyone []).2 [heard 7 (nodeStatus 70 1) [(0x40, 0, [5])],
    heard 7 (nodeStatus 75 2) [(0x40, 0, [5])], answered 7 []] :=
  ⟨[_, _], rfl, .cons ⟨_, node_reports_70, rfl⟩ (.cons ⟨_, node_reports_75, rfl⟩ .nil)⟩

end Verif.Modem
