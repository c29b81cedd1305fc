import Verif.Lemmas.Nodes
import Verif.Props.Gateway

/-! Querying other nodes through a gateway, from end to end. -/

namespace Verif.Modem

open Verif Verif.Serial

variable {D : Type}

/-! ### C78: what is sent -/

/-- C78, the command for the gateway: for every tag, configuration and list of operations, its bytes are the tag
request, the forward action with the bytes of the configuration, and the operations. -/
theorem C78_sent (tag : UInt8) {cfg : Configuration} {raw : List UInt8} {ops : List FileOp} (hr : Describes raw cfg)
    (hv : ∀ op ∈ ops, op.Valid) : bytearray (asking tag cfg ops).iter = .ok (askingBytes tag raw ops) :=
  asking_emits tag hr hv

/-- A query to every node in reach (examples/query_nodes.py 54-63). -/
def everyone : Configuration := ⟨⟨.ALL, .NO, false, false⟩, ⟨0, 0⟩, ⟨0x11, .NOID, .none, .NONE⟩⟩

example : Describes [1, 0, 0x10, 0x11] everyone :=
  ⟨⟨by decide, by decide, (by intro c h; cases h)⟩, by decide⟩

example : askingBytes 7 [1, 0, 0x10, 0x11] [.read 0x40 0 2] =
    [0xB4, 7, 0x32, 0xD7, 1, 0, 0x10, 0x11, 0x01, 0x40, 0, 2] := by decide

/-- C78: every configuration has bytes. -/
theorem C78_describes {cfg : Configuration} (h : cfg.Built) : ∃ raw, Describes raw cfg := by
  obtain ⟨bs, -, hb, -⟩ := Configuration.layout (Configuration.built_iff.1 h)
  exact ⟨bs, h, hb⟩

example : everyone.Built := ⟨by decide, by decide, (by intro c h; cases h)⟩

/-- C78: `create_with_read_file_action` with a D7ASP configuration makes such a command. -/
theorem C78_read_command (tag file : UInt8) {offset length : Nat} (h : (FileOp.read file offset length).Valid)
    (cfg : Configuration) :
    Command.createWithReadFileAction tag file.toNat length offset .D7ASP (some (.d7asp cfg)) =
      .ok (asking tag cfg [.read file offset length]) := by
  have hf := file.toNat_lt
  obtain ⟨h1, h2⟩ := h
  have e1 : Length.new (offset : Int) = .ok ⟨offset⟩ := validate_of ⟨by omega, by omega⟩
  have e2 : Length.new (length : Int) = .ok ⟨length⟩ := validate_of ⟨by omega, by omega⟩
  have e3 : Offset.new (file.toNat : Int) ⟨offset⟩ = .ok ⟨file.toNat, ⟨offset⟩⟩ := validate_of ⟨by omega, by omega⟩
  have e4 : DataRequest.new (length : Int) ⟨file.toNat, ⟨offset⟩⟩ = .ok ⟨⟨file.toNat, ⟨offset⟩⟩, ⟨length⟩⟩ := by
    unfold DataRequest.new
    rw [e2]
    rfl
  simp only [Command.createWithReadFileAction, Command.addForwardAction, reduceCtorEq, and_false, if_false, bind,
    Except.bind, e1, e3, e4]
  rfl

example : (FileOp.read 0x40 0 2).Valid := ⟨by decide, by decide⟩

/-- C78: `create_with_write_file_action` with a D7ASP configuration makes such a command. -/
theorem C78_write_command (tag file : UInt8) {offset : Nat} {data : List UInt8}
    (h : (FileOp.write file offset data).Valid) (cfg : Configuration) :
    Command.createWithWriteFileAction tag file.toNat (data.map fun b => (b.toNat : Int)) offset .D7ASP
      (some (.d7asp cfg)) = .ok (asking tag cfg [.write file offset data]) := by
  have hf := file.toNat_lt
  obtain ⟨h1, h2, h3⟩ := h
  have e1 : Length.new (offset : Int) = .ok ⟨offset⟩ := validate_of ⟨by omega, by omega⟩
  have e3 : Offset.new (file.toNat : Int) ⟨offset⟩ = .ok ⟨file.toNat, ⟨offset⟩⟩ := validate_of ⟨by omega, by omega⟩
  have e2 : Length.new (data.length : Int) = .ok ⟨data.length⟩ := validate_of ⟨by omega, by omega⟩
  have e4 : Data.new (data.map fun b => (b.toNat : Int)) ⟨file.toNat, ⟨offset⟩⟩ =
      .ok ⟨⟨file.toNat, ⟨offset⟩⟩, ⟨data.length⟩, data.map fun b => (b.toNat : Int)⟩ := by
    simp only [Data.new, List.length_map, e2, bind, Except.bind]
    exact validate_of (isBytes_map data)
  simp only [Command.createWithWriteFileAction, Command.addForwardAction, reduceCtorEq, and_false, if_false, bind,
    Except.bind, e1, e3, e4]
  rfl

example : (FileOp.write 0x40 2 [1, 2]).Valid := ⟨by decide, by decide, by decide⟩

/-! ### C78: what comes back -/

theorem message_answers {tag : UInt8} {xs : List NodeAnswer} (h : ∀ x ∈ xs, x.Readable) :
    ∃ cs, Answers tag.toNat (xs.map (NodeAnswer.message tag) ++ [answer tag []]) cs ∧ Brings tag xs cs := by
  have key : ∃ l, Meaning (xs.map (NodeAnswer.message tag)) l ∧ (∀ r ∈ l, r.tagId = some tag.toNat) ∧
      (∀ r ∈ l, r.executionCompleted = false) ∧
      List.Forall₂ (fun c x => ∃ st, Reports x.status st ∧ c = heard tag st x.results) l xs := by
    induction xs with
    | nil => exact ⟨[], .nil, by simp, by simp, .nil⟩
    | cons x xs ih =>
      obtain ⟨l, h1, h2, h3, h4⟩ := ih fun y hy => h y (by simp [hy])
      obtain ⟨⟨st, hr, hrx, hn⟩, ho, hl⟩ := h x (by simp)
      have hl : (x.message tag).length ≤ 255 := by simpa [NodeAnswer.message] using hl
      refine ⟨heard tag st x.results :: l, ?_, ?_, ?_, .cons ⟨st, hr, rfl⟩ h4⟩
      · exact .cons ⟨hl, .alp 1 _ _ rfl (by decide) (by decide) (message_parses tag x hr hrx hn ho hl)⟩ h1
      · simpa using ⟨rfl, h2⟩
      · simpa using ⟨rfl, h3⟩
  obtain ⟨l, h1, h2, h3, h4⟩ := key
  refine ⟨l ++ [answered tag []], ⟨?_, ?_, l, answered tag [], rfl, rfl, h3⟩, l, rfl, h4⟩
  · exact List.rel_append h1 (.cons ⟨by simp [answer],
      .alp 1 _ _ rfl (by decide) (by decide) (answer_parses tag [] (by simp) (by simp [answer]))⟩ .nil)
  · intro r hr
    rcases List.mem_append.1 hr with hr | hr
    · exact h2 r hr
    · rw [List.mem_singleton.1 hr]; rfl

/-! ### An example: a gateway in reach of two nodes -/

/-- The status of an answer of the node with identifier 0x11223344556677`k`, received at level `rx`. -/
def nodeStatus (rx k : Nat) : Status :=
  ⟨⟨⟨.PN9, .LO_RATE, .BAND_868⟩, 16⟩, rx, 80, 90, false, false, false, true, 5, 9, ⟨0, 0⟩,
    ⟨0x11, .UID, .int (0x1122334455667700 + k), .NONE⟩⟩

/-- Its bytes. -/
def nodeStatusBytes (rx k : UInt8) : List UInt8 :=
  [0x30, 0, 16, rx, 80, 90, 0x10, 5, 9, 0, 0x20, 0x11, 0x11, 0x22, 0x33, 0x44, 0x55, 0x66, 0x77, k]

/-- The number of commands before, as the answers of two nodes to a request for a byte of file 0x40. -/
def twoNodes (rx : UInt8) : Air Nat := fun n _ _ =>
  (n + 1, [⟨nodeStatusBytes 70 1, [(0x40, 0, [UInt8.ofNat n])]⟩, ⟨nodeStatusBytes rx 2, [(0x40, 0, [UInt8.ofNat n])]⟩])

/-- The gateway. -/
def relay (rx : UInt8) : Gateway Nat where
  handle n
    | 0xB4 :: tag :: _ => (n + 1, ((twoNodes rx n .default []).2.map (NodeAnswer.message tag)) ++ [answer tag []])
    | _ => (n, [])

theorem relay_forwards (rx : UInt8) : (relay rx).Forwards (twoNodes rx) := by
  intro d tag cfg raw ops _ _
  rfl

theorem node_reports_70 : Reports (nodeStatusBytes 70 1) (nodeStatus 70 1) :=
  ⟨⟨by decide, by decide, by decide, by decide, (by intro c h; cases h)⟩, by decide +kernel⟩

theorem node_reports_75 : Reports (nodeStatusBytes 75 2) (nodeStatus 75 2) :=
  ⟨⟨by decide, by decide, by decide, by decide, (by intro c h; cases h)⟩, by decide +kernel⟩

theorem twoNodes_readable (n : Nat) (cfg : Configuration) (ops : List FileOp) :
    ∀ x ∈ (twoNodes 75 n cfg ops).2, x.Readable := by
  intro x hx
  simp only [twoNodes, List.mem_cons, List.not_mem_nil, or_false] at hx
  rcases hx with rfl | rfl
  · exact ⟨⟨_, node_reports_70, by decide, by decide⟩, by simp, by simp [NodeAnswer.message, nodeStatusBytes, returned, encode]⟩
  · exact ⟨⟨_, node_reports_75, by decide, by decide⟩, by simp, by simp [NodeAnswer.message, nodeStatusBytes, returned, encode]⟩

theorem relay_conforms : (relay 75).Conforms := by
  intro d c bs tag h1 h2 h3 h4
  obtain ⟨h5, -⟩ := Gw.sendable_some h4
  obtain ⟨tb, sb, xs, e1, -, -, -, rfl⟩ := (C22_bytes c bs).1 h5
  simp only [Command.tagBytes, h1, h2, h3, if_true] at e1
  split at e1
  · next hb =>
    simp only [Option.some.injEq] at e1
    subst e1
    obtain ⟨cs, h6, -⟩ := message_answers (tag := UInt8.ofNat tag.toNat) (twoNodes_readable d .default [])
    rw [show ((UInt8.ofNat tag.toNat).toNat : Int) = tag by simp; omega] at h6
    exact ⟨cs, h6⟩
  · cases e1

/-- The gateway answers, the modem reads everything at once, and its reader makes `n` steps. -/
def querying (n : Nat) : List NetEvent :=
  [.call (.execute (asking 7 everyone [.read 0x40 0 1]) 10), .main, .main, .main, .main, .main, .take, .send 1, .send 2,
    .send 3, .read 83] ++ List.replicate n .reader

/-- C78, for receive levels up to 127 (for others the claim is false, `C78_refuted`): executing a command for other nodes,
in every interleaving of the two threads and the gateway, for every way the bytes are split and after any number of
other calls, returns the answers of exactly the nodes that answered, in order, each with the status of that node and
the data it returned, then the message that the execution is completed. -/
theorem C78_query_partial {config : Config} (hk : config.skip = false) {g : Gateway D} (hg : g.Conforms) {air : Air D}
    (hf : g.Forwards air) {d : D} {before during : List NetEvent} {last : NetEvent} {s s1 s' : Net D} {tag : UInt8}
    {cfg : Configuration} {raw : List UInt8} {ops : List FileOp} {timeout : Int} {o : Outcome} (ht : 0 < timeout)
    (hr : Describes raw cfg) (hv : ∀ op ∈ ops, op.Valid) (hl : (askingBytes tag raw ops).length ≤ 255)
    (hx : ∀ x ∈ (air s.data cfg ops).2, x.Readable)
    (hp : ∀ e ∈ before, Polite e) (h0 : (Net.start config d).run g before = some s)
    (h1 : s.run g (.call (.execute (asking tag cfg ops) timeout) :: during) = some s1)
    (hu : s1.modem.outcomes = s.modem.outcomes)
    (h2 : s1.step g last = some s') (ho : s'.modem.outcomes = s.modem.outcomes ++ [o]) :
    o = .list s.modem.responses.length ∧
      Brings tag (air s.data cfg ops).2 (content s'.modem.responses s.modem.responses.length) ∧
      s'.data = (air s.data cfg ops).1 := by
  have hb : sendable (asking tag cfg ops) = some (askingBytes tag raw ops) := by
    unfold sendable
    rw [C78_sent tag hr hv]
    exact if_pos hl
  obtain ⟨e1, e2, e3⟩ := C76_execute hk hg ht (c := asking tag cfg ops) (tag := tag.toNat) ⟨rfl, rfl, rfl⟩ hb hp h0 h1 hu
    h2 ho
  rw [hf s.data tag cfg raw ops hr hv] at e2 e3
  obtain ⟨cs, e4, e5⟩ := message_answers (tag := tag) hx
  rw [C76_unique e2 e4]
  exact ⟨e1, e5, e3⟩

example : ((Net.start noCallbacks 5).run (relay 75) (querying 12)).map (fun s => (s.modem.outcomes, s.line,
      (s.step (relay 75) .main).map fun s => (s.modem.outcomes, content s.modem.responses 1))) =
    some ([], [], some ([.list 1], [heard 7 (nodeStatus 70 1) [(0x40, 0, [5])], heard 7 (nodeStatus 75 2) [(0x40, 0, [5])],
      answered 7 []])) := by
  decide +kernel

/-- C78, what the application gets from such a message: `get_d7asp_interface_status` returns the status, whose
addressee is the node that answered. -/
theorem C78_status (tag : UInt8) (st : Status) (rs : List (UInt8 × Nat × List UInt8)) :
    (heard tag st rs).getD7aspInterfaceStatus = .ok (some st) := rfl

example : ((heard 7 (nodeStatus 70 1) [(0x40, 0, [5])]).getD7aspInterfaceStatus.toOption.join.map fun s =>
    s.addressee.id) = some (.int 0x1122334455667701) := by decide

/-- C78: the bytes determine the status. -/
theorem C78_unique {raw : List UInt8} {st st' : Status} (h : Reports raw st) (h' : Reports raw st')
    (hrx : st.rxLevel ≤ 127) (hn : st.addressee.idType ≠ .NBID) (hrx' : st'.rxLevel ≤ 127)
    (hn' : st'.addressee.idType ≠ .NBID) : st = st' := by
  obtain ⟨b1, e1, -, r1⟩ := C11_status_round_trip_partial st h.1 hrx hn
  obtain ⟨b2, e2, -, r2⟩ := C11_status_round_trip_partial st' h'.1 hrx' hn'
  have hb1 : b1 = raw := Emits.unique e1 (reports_emits h)
  have hb2 : b2 = raw := Emits.unique e2 (reports_emits h')
  subst hb1
  subst hb2
  have h3 := (r1 []).symm.trans (r2 [])
  injection h3

example : Reports (nodeStatusBytes 70 1) (nodeStatus 70 1) ∧ (nodeStatus 70 1).rxLevel ≤ 127 ∧
    (nodeStatus 70 1).addressee.idType ≠ .NBID := ⟨node_reports_70, by decide, by decide⟩

/-- C78: a message with a receive level of 128 or more is no message to the modem, whatever its tag and whatever the
node returned: parsing it raises ValueError. -/
theorem C78_lost (tag : UInt8) (x : NodeAnswer) {st : Status} (hr : Reports x.status st) (hrx : 128 ≤ st.rxLevel) :
    ¬ ∃ m, Carries false 1 (x.message tag) m := by
  rintro ⟨m, hm⟩
  obtain ⟨s, hs⟩ := message_fails tag x hr hrx (n := (x.message tag).length) (by simp [NodeAnswer.message])
  cases hm with
  | raw _ _ h => cases h
  | alp _ _ c _ _ _ h =>
    rw [hs] at h
    cases h

theorem node_reports_200 : Reports (nodeStatusBytes 200 2) (nodeStatus 200 2) :=
  ⟨⟨by decide, by decide, by decide, by decide, (by intro c h; cases h)⟩, by decide +kernel⟩

example : Reports (nodeStatusBytes 200 2) (nodeStatus 200 2) ∧ 128 ≤ (nodeStatus 200 2).rxLevel :=
  ⟨node_reports_200, by decide⟩

/-- C78 is false for higher receive levels: two nodes answer, the second at level 200, and the list that the call
returns contains only the first answer. -/
theorem C78_refuted : (relay 200).Forwards (twoNodes 200) ∧ Reports (nodeStatusBytes 200 2) (nodeStatus 200 2) ∧
    ∃ s, (Net.start noCallbacks 5).run (relay 200) (querying 8 ++ [.main]) = some s ∧ s.modem.outcomes = [.list 1] ∧
      content s.modem.responses 1 = [heard 7 (nodeStatus 70 1) [(0x40, 0, [5])], answered 7 []] ∧
      ¬ Brings 7 (twoNodes 200 5 everyone [.read 0x40 0 1]).2 (content s.modem.responses 1) := by
  refine ⟨relay_forwards 200, node_reports_200, ?_⟩
  have h : ((Net.start noCallbacks 5).run (relay 200) (querying 8 ++ [.main])).map (fun s => (s.modem.outcomes,
      content s.modem.responses 1)) = some ([.list 1], [heard 7 (nodeStatus 70 1) [(0x40, 0, [5])], answered 7 []]) := by
    decide +kernel
  obtain ⟨s, h1, h2⟩ := Option.map_eq_some_iff.1 h
  injection h2 with h2 h3
  refine ⟨s, h1, h2, h3, ?_⟩
  rintro ⟨l, h4, h5⟩
  rw [h3] at h4
  have h6 := congrArg List.length h4
  have h7 := h5.length_eq
  simp [twoNodes] at h6 h7
  omega

end Verif.Modem
