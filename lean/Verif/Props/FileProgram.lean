import Verif.Lemmas.FileProgram
import Verif.Props.DeviceFiles
import Verif.Props.WholeProgram

/-! C110: programs that read and write files, from the first `connect` to the end, in every interleaving. -/

namespace Verif.Modem

open Verif Verif.Serial Verif.SystemFiles

variable {D : Type}

/-! ### An example of a device and of a run -/

theorem storing_keeps : storing.Keeps Prod.fst := by
  intro x tag ops rs hv h
  have e : requestBytes tag ops = 0xB4 :: tag :: (ops.map FileOp.bytes).flatten := rfl
  rw [e] at h ⊢
  have hd := decodeOps_bytes hv (ops.map FileOp.bytes).flatten.length (by
    have : ∀ l : List FileOp, l.length ≤ (l.map FileOp.bytes).flatten.length := by
      intro l
      induction l with
      | nil => simp
      | cons op l ih =>
        have : 1 ≤ op.bytes.length := by cases op <;> simp [FileOp.bytes]
        simp only [List.map_cons, List.flatten_cons, List.length_append, List.length_cons]
        omega
    exact this ops)
  have key := h.meaning
  simp only [storing, hd] at key ⊢
  split at key
  · rename_i hx
    rw [if_pos hx]
    have : Meaning [answer tag (memory.results x.1 ops)] [answered tag (memory.results x.1 ops)] :=
      .cons ⟨hx.2.1, .alp 1 _ _ rfl (by decide) (by decide) (answer_parses tag _ hx.2.2 hx.2.1)⟩ .nil
    exact .inl ⟨meaning_unique key this, rfl⟩
  · rename_i hx
    rw [if_neg hx, meaning_unique key (refused_answers tag).meaning]
    refine .inr ⟨fun r hr => ?_, rfl⟩
    rw [List.mem_singleton.1 hr]
    exact fun h => absurd h.2 (by simp [refused])

/-- A call whose answer has 9 bytes; a log text arrives at the worst moment. -/
def noisyRead : List LateEvent :=
  [.net .main, .net .main, .net (.log 0 [104, 105]), .net (.read 9), .net .main, .net .reader, .net .main, .net .reader,
    .net .reader] ++ [.net .main, .net .take, .net (.send 1), .net (.read 16)] ++ List.replicate 5 (.net .reader) ++ [.net .main]

/-- Two writes of the file with the VID, of which the device refuses the first, and then a read. -/
def vidProgram : List (UInt8 × List FileOp) :=
  [(7, [.write 6 0 [1, 2, 3]]), (7, [.write 6 0 [0xAB, 0xCD, 0x12]]), (8, [.read 6 0 3])]

/-- What the calls return. -/
def vidExec : Update.Exec := fun n _ =>
  .ok (if n = 0 then [refused 7] else if n = 1 then [answered 7 []] else [answered 8 [(6, 0, [0xAB, 0xCD, 0x12])]])

theorem noisy_files : ∃ s0 s s', (Net.start updateConfig (fun _ _ => 9, [true, false])).runLate storing bootMessage = some s0 ∧
    Net.Connected storing 7 s0 s ∧ Net.Series (Net.Called storing) vidExec 0 (fileCommands vidProgram) s s' ∧
    s'.data.1 6 1 = 0xCD := by
  have key : ((Net.start updateConfig (fun _ _ => 9, [true, false])).runLate storing bootMessage).bind (fun s0 =>
      (s0.runLate storing (.net (.call (.connect true 7)) :: noisyStart)).bind fun s =>
      (s.runLate storing (.net (.call (.execute (request 7 [.write 6 0 [1, 2, 3]]) 10)) ::
        (List.replicate 3 (.net .reader) ++ noisy))).bind fun s1 =>
      (s1.runLate storing (.net (.call (.execute (request 7 [.write 6 0 [0xAB, 0xCD, 0x12]]) 10)) :: noisy)).bind fun s2 =>
      (s2.runLate storing (.net (.call (.execute (request 8 [.read 6 0 3]) 10)) :: noisyRead)).map fun s3 =>
        decide ((s.modem.outcomes = s0.modem.outcomes ++ [.bool true]) ∧
          (s1.modem.outcomes = s.modem.outcomes ++ [.list 2] ∧ s2.modem.outcomes = s1.modem.outcomes ++ [.list 3] ∧
            s3.modem.outcomes = s2.modem.outcomes ++ [.list 4]) ∧
          (callGave s1 (.list 2) = some [refused 7] ∧ callGave s2 (.list 3) = some [answered 7 []] ∧
            callGave s3 (.list 4) = some [answered 8 [(6, 0, [0xAB, 0xCD, 0x12])]]) ∧
          s3.data.1 6 1 = 0xCD)) = some true := by
    decide +kernel
  obtain ⟨s0, a1, a2⟩ := Option.bind_eq_some_iff.1 key
  obtain ⟨s, a3, a4⟩ := Option.bind_eq_some_iff.1 a2
  obtain ⟨s1, a5, a6⟩ := Option.bind_eq_some_iff.1 a4
  obtain ⟨s2, a7, a8⟩ := Option.bind_eq_some_iff.1 a6
  obtain ⟨s3, a9, a10⟩ := Option.map_eq_some_iff.1 a8
  obtain ⟨c1, ⟨b1, b2, b3⟩, ⟨b4, b5, b6⟩, b7⟩ := of_decide_eq_true a10
  exact ⟨s0, s, s3, a1, ⟨noisyStart, by simp [noisyStart], a3, c1⟩, .cons _ _ _ _ s1 _
    ⟨_, .list 2, by simp [noisy], a5, b1, callGave_ok b4⟩ (.cons _ _ _ _ s2 _ ⟨noisy, .list 3, by simp [noisy], a7, b2,
      callGave_ok b5⟩ (.cons _ _ _ _ s3 _ ⟨noisyRead, .list 4, by simp [noisyRead], a9, b3, callGave_ok b6⟩ (.nil _ _))), b7⟩

theorem vid_fits : ∀ x ∈ vidProgram, (∀ op ∈ x.2, op.Valid) ∧ (requestBytes x.1 x.2).length ≤ 255 := by
  simp [vidProgram, FileOp.Valid, requestBytes, FileOp.bytes, encode]

theorem vid_gives : ∀ i (hi : i + 1 < vidProgram.length), vidExec i (request vidProgram[i].1 vidProgram[i].2) ≠ .ok [] := by
  intro i hi
  simp only [vidExec]
  split
  · simp
  · split <;> simp

/-! ### C110 -/

/-- C110: a program makes a `Modem` object, calls `connect`, which returns True, and executes commands that read and write
files, one after the other, with any tags; it gives up at the first call that returns nothing. The device keeps its files and
does each command as a whole or refuses it. Then, in every interleaving, with timeouts, late answers, failures of the line and
callbacks that raise, every call returns nothing and is the last one, or it returns one message with exactly the content that
the files had at the start, changed by the commands that were confirmed before it, or messages none of which confirms the
command. If the last call returned something, the files are at the end what the confirmed commands make of them. -/
theorem C110_content {config : Config} (hk : config.skip = false) {g : Gateway D} (hg : g.Conforms)
    {files : D → UInt8 → Nat → UInt8} (hkeep : g.Keeps files) {d : D}
    {boot : List LateEvent} {s0 s s' : Net D} {r : UInt8} (hboot : ∀ call, .net (.call call) ∉ boot)
    (h0 : (Net.start config d).runLate g boot = some s0) (hconn : Net.Connected g r s0 s) (exec : Update.Exec)
    (prog : List (UInt8 × List FileOp))
    (hfit : ∀ x ∈ prog, (∀ op ∈ x.2, op.Valid) ∧ (requestBytes x.1 x.2).length ≤ 255)
    (hgive : ∀ i (hi : i + 1 < prog.length), exec i (request prog[i].1 prog[i].2) ≠ .ok [])
    (h : Net.Series (Net.Called g) exec 0 (fileCommands prog) s s') :
    (∀ i (hi : i < prog.length), ∃ rs, exec i (request prog[i].1 prog[i].2) = .ok rs ∧ (rs = [] ∧ i + 1 = prog.length ∨
      rs = [answered prog[i].1 (memory.results (memory.after (files d) (confirmedOps exec 0 (prog.take i))) prog[i].2)] ∨
      rs ≠ [] ∧ ∀ x ∈ rs, ¬ Clean x)) ∧
    (∀ x ∈ prog.getLast?, exec (prog.length - 1) (request x.1 x.2) ≠ .ok [] →
      files s'.data = memory.after (files d) (confirmedOps exec 0 prog)) := by
  have hlen : (fileCommands prog).length = prog.length := by simp [fileCommands]
  have hget : ∀ i (hi : i < prog.length), (fileCommands prog)[i]'(by omega) = request prog[i].1 prog[i].2 := by
    intro i hi; simp [fileCommands]
  have hsend : ∀ i (hi : i < prog.length), sendable (request prog[i].1 prog[i].2) = some (requestBytes prog[i].1 prog[i].2) :=
    fun i hi => Upl.request_sendable (hfit _ (List.getElem_mem hi)).1 (hfit _ (List.getElem_mem hi)).2
  obtain ⟨k1, k2⟩ := C109_calls hk hg hboot h0 hconn exec (fileCommands prog) (by
      intro c hc
      obtain ⟨x, hx, rfl⟩ := List.mem_map.1 hc
      exact ⟨_, _, Upl.request_taggable _ _, Upl.request_sendable (hfit x hx).1 (hfit x hx).2⟩) (by
      intro i hi
      rw [hget i (by omega)]
      exact hgive i (by omega)) h
  have htake : ∀ i, ((fileCommands prog).take i).filterMap sendable = (prog.take i).map fun x => requestBytes x.1 x.2 := by
    intro i
    rw [show (fileCommands prog).take i = fileCommands (prog.take i) by simp [fileCommands, List.map_take]]
    exact Fp.payloads fun x hx => hfit x (List.mem_of_mem_take hx)
  have hrep : ∀ i (hi : i < prog.length), ∃ rs, exec i (request prog[i].1 prog[i].2) = .ok rs ∧
      (rs = [] ∧ i + 1 = prog.length ∨ g.Reply d (connectBytes r :: (prog.take i).map fun x => requestBytes x.1 x.2)
        prog[i].1.toNat (requestBytes prog[i].1 prog[i].2) rs) := by
    intro i hi
    obtain ⟨rs, e1, e2⟩ := k1 i (by omega)
    rw [hget i hi] at e1
    refine ⟨rs, e1, ?_⟩
    rcases e2 with ⟨e2, e3⟩ | ⟨tag, bs, e2, e3, e4⟩
    · exact .inl ⟨e2, by omega⟩
    · rw [hget i hi] at e2 e3
      rw [hsend i hi] at e3
      cases e2
      cases e3
      rw [htake i] at e4
      exact .inr e4
  have hfiles : ∀ i ≤ prog.length, (∀ j (hj : j < prog.length), j < i → exec j (request prog[j].1 prog[j].2) ≠ .ok []) →
      files (g.replies d (connectBytes r :: (prog.take i).map fun x => requestBytes x.1 x.2)).1 =
        memory.after (files d) (confirmedOps exec 0 (prog.take i)) := by
    intro i hi hne
    refine Fp.files_after hg hkeep hfit i hi fun j hj hji => ?_
    obtain ⟨rs, e1, ⟨rfl, -⟩ | e2⟩ := hrep j hj
    · exact absurd e1 (hne j hj hji)
    · exact ⟨rs, e1, e2⟩
  constructor
  · intro i hi
    obtain ⟨rs, e1, e2⟩ := hrep i hi
    refine ⟨rs, e1, ?_⟩
    rcases e2 with e2 | e2
    · exact .inl e2
    · rcases hkeep _ _ _ rs (hfit _ (List.getElem_mem hi)).1 e2 with ⟨rfl, -⟩ | ⟨e3, -⟩
      · rw [hfiles i (by omega) fun j hj hji => hgive j (by omega)]
        exact .inr (.inl rfl)
      · refine .inr (.inr ⟨?_, e3⟩)
        rintro rfl
        obtain ⟨l, x, hx, -⟩ := e2.final
        simp at hx
  · intro x hx hne
    have hpos : 0 < prog.length := by
      cases prog with
      | nil => cases hx
      | cons _ _ => simp
    have hlast : x = prog[prog.length - 1] := by
      rw [List.getLast?_eq_getElem?, List.getElem?_eq_getElem (by omega)] at hx
      exact (Option.some.inj hx).symm
    subst hlast
    have e := k2 (request prog[prog.length - 1].1 prog[prog.length - 1].2) (by
      rw [List.getLast?_eq_getElem?, List.getElem?_eq_getElem (by omega)]
      simp [fileCommands]) (by rw [hlen]; exact hne)
    have e' := hfiles prog.length (Nat.le_refl _) fun j hj _ => by
      by_cases hj' : j + 1 < prog.length
      · exact hgive j hj'
      · obtain rfl : j = prog.length - 1 := by omega
        exact hne
    rw [List.take_length] at e'
    rw [e, Fp.payloads hfit, e']

/-- In the run of `noisy_files`: the first write is not confirmed. -/
example : confirmedOps vidExec 0 vidProgram = [.write 6 0 [0xAB, 0xCD, 0x12], .read 6 0 3] ∧
    ∃ s s' : Net ((UInt8 → Nat → UInt8) × List Bool), Net.Series (Net.Called storing) vidExec 0 (fileCommands vidProgram) s s' ∧
      s'.data.1 = memory.after (fun _ _ => 9) [.write 6 0 [0xAB, 0xCD, 0x12], .read 6 0 3] := by
  have hops : confirmedOps vidExec 0 vidProgram = [.write 6 0 [0xAB, 0xCD, 0x12], .read 6 0 3] := by decide +kernel
  obtain ⟨s0, s, s', h1, h2, h3, -⟩ := noisy_files
  have := (C110_content rfl storing_conforms storing_keeps (by simp [bootMessage]) h1 h2 vidExec vidProgram vid_fits vid_gives
    h3).2 (8, [.read 6 0 3]) rfl (by simp [vidExec, vidProgram])
  rw [hops] at this
  exact ⟨hops, s, s', h3, this⟩

/-- What lies between two commands of such a program. -/
theorem confirmedOps_between (exec : Update.Exec) (prog : List (UInt8 × List FileOp)) {j i : Nat} (hji : j < i)
    (hi : i < prog.length) (hc : confirmed (exec j (request prog[j].1 prog[j].2)) = true) :
    ∃ mid, confirmedOps exec 0 (prog.take i) = confirmedOps exec 0 (prog.take j) ++ prog[j].2 ++ mid ∧
      ∀ op ∈ mid, ∃ l, ∃ hl : l < prog.length, j < l ∧ l < i ∧ op ∈ prog[l].2 := by
  have e : prog.take i = prog.take j ++ (prog[j] :: (prog.take i).drop (j + 1)) := by
    have h1 : (prog.take i).take j = prog.take j := by rw [List.take_take, Nat.min_eq_left (by omega)]
    rw [← h1, show prog[j] = (prog.take i)[j]'(by rw [List.length_take]; omega) by simp, ← List.drop_eq_getElem_cons,
      List.take_append_drop]
  refine ⟨confirmedOps exec (j + 1) ((prog.take i).drop (j + 1)), ?_, ?_⟩
  · conv => lhs; rw [e]
    rw [Fp.ops_append, List.length_take_of_le (by omega), Nat.zero_add, List.append_assoc]
    simp only [confirmedOps, hc, if_true]
  · intro op hop
    obtain ⟨x, hx, hox⟩ := Fp.ops_mem _ _ _ _ hop
    obtain ⟨m, hm, rfl⟩ := List.getElem_of_mem hx
    simp only [List.length_drop, List.length_take] at hm
    simp only [List.getElem_drop, List.getElem_take] at hox
    exact ⟨j + 1 + m, by omega, by omega, by omega, hox⟩

/-- C110: what one of the commands wrote is what a later one reads, if both were confirmed and no command between them writes
to that part of the file. -/
theorem C110_read_back {config : Config} (hk : config.skip = false) {g : Gateway D} (hg : g.Conforms)
    {files : D → UInt8 → Nat → UInt8} (hkeep : g.Keeps files) {d : D}
    {boot : List LateEvent} {s0 s s' : Net D} {r : UInt8} (hboot : ∀ call, .net (.call call) ∉ boot)
    (h0 : (Net.start config d).runLate g boot = some s0) (hconn : Net.Connected g r s0 s) (exec : Update.Exec)
    (prog : List (UInt8 × List FileOp))
    (hfit : ∀ x ∈ prog, (∀ op ∈ x.2, op.Valid) ∧ (requestBytes x.1 x.2).length ≤ 255)
    (hgive : ∀ i (hi : i + 1 < prog.length), exec i (request prog[i].1 prog[i].2) ≠ .ok [])
    (h : Net.Series (Net.Called g) exec 0 (fileCommands prog) s s')
    {j i : Nat} (hji : j < i) (hi : i < prog.length) {file : UInt8} {offset : Nat} {data : List UInt8}
    (hw : prog[j].2 = [.write file offset data]) (hr : prog[i].2 = [.read file offset data.length])
    (hcw : confirmed (exec j (request prog[j].1 prog[j].2)) = true)
    (hcr : confirmed (exec i (request prog[i].1 prog[i].2)) = true)
    (ha : ∀ l (hl : l < prog.length), j < l → l < i → ∀ op ∈ prog[l].2, op.Apart file offset data.length) :
    exec i (request prog[i].1 prog[i].2) = .ok [answered prog[i].1 [(file, offset, data)]] := by
  obtain ⟨rs, e1, ⟨rfl, -⟩ | e2 | ⟨-, e2⟩⟩ :=
    (C110_content hk hg hkeep hboot h0 hconn exec prog hfit hgive h).1 i hi
  · rw [e1] at hcr; cases hcr
  · obtain ⟨mid, m1, m2⟩ := confirmedOps_between exec prog hji hi hcw
    rw [m1, hw, hr, List.append_assoc, Fp.after_ops, List.singleton_append, memory_kept _ _ _ _ _ (by
      intro op hop
      obtain ⟨l, hl, l1, l2, l3⟩ := m2 op hop
      exact ha l hl l1 l2 op l3)] at e2
    rw [e1, e2]
  · rw [e1, Fp.not_confirmed e2] at hcr
    cases hcr

/-- In the run of `noisy_files`. -/
example : vidExec 2 (request 8 [.read 6 0 3]) = .ok [answered 8 [(6, 0, [0xAB, 0xCD, 0x12])]] := by
  obtain ⟨s0, s, s', h1, h2, h3, -⟩ := noisy_files
  exact C110_read_back rfl storing_conforms storing_keeps (by simp [bootMessage]) h1 h2 vidExec vidProgram vid_fits vid_gives
    h3 (j := 1) (i := 2) (by decide) (by decide) rfl rfl (by decide +kernel) (by decide +kernel) (by intros; omega)

/-- The operations of a command. -/
theorem request_inj {t1 t2 : UInt8} {a b : List FileOp} (h : request t1 a = request t2 b) : a = b := by
  have hi : Function.Injective FileOp.action := by
    intro x y hxy
    have hb : Function.Injective (fun b : UInt8 => (b.toNat : Int)) := by
      intro u v huv
      exact UInt8.toNat_inj.1 (by simpa using huv)
    cases x <;> cases y <;> simp [FileOp.action] at hxy ⊢
    · exact ⟨UInt8.toNat_inj.1 hxy.1.1, hxy.1.2, hxy.2⟩
    · exact ⟨UInt8.toNat_inj.1 hxy.1.1, hxy.1.2, List.map_injective_iff.2 hb hxy.2.2⟩
  exact List.map_injective_iff.2 hi (congrArg Command.actions h)

/-- C110: a system file object is written with `create_with_write_file_action_system_file` and read with `create_with_read_file_action_system_file`;
both commands were confirmed and nothing was written to the file between them. The object that is parsed from what the call
returns is the one that was written exactly if it is one of those that survive. -/
theorem C110_system_file {config : Config} (hk : config.skip = false) {g : Gateway D} (hg : g.Conforms)
    {files : D → UInt8 → Nat → UInt8} (hkeep : g.Keeps files) {d : D}
    {boot : List LateEvent} {s0 s s' : Net D} {r : UInt8} (hboot : ∀ call, .net (.call call) ∉ boot)
    (h0 : (Net.start config d).runLate g boot = some s0) (hconn : Net.Connected g r s0 s) (exec : Update.Exec)
    (prog : List (UInt8 × List FileOp))
    (hfit : ∀ x ∈ prog, (∀ op ∈ x.2, op.Valid) ∧ (requestBytes x.1 x.2).length ≤ 255)
    (hgive : ∀ i (hi : i + 1 < prog.length), exec i (request prog[i].1 prog[i].2) ≠ .ok [])
    (h : Net.Series (Net.Called g) exec 0 (fileCommands prog) s s')
    {j i : Nat} (hji : j < i) (hi : i < prog.length) {f : SystemFile} {bs : List UInt8} (hf : f.Built)
    (hb : bytearray f.iter = .ok bs) (hl : bs.length < 2 ^ 30)
    (hw : Command.createWithWriteSystemFile prog[j].1 f .HOST none = .ok (request prog[j].1 prog[j].2))
    (hr : Command.createWithReadSystemFile prog[i].1 f .HOST none = .ok (request prog[i].1 prog[i].2))
    (hcw : confirmed (exec j (request prog[j].1 prog[j].2)) = true)
    (hcr : confirmed (exec i (request prog[i].1 prog[i].2)) = true)
    (ha : ∀ l (hl : l < prog.length), j < l → l < i → ∀ op ∈ prog[l].2, ∀ file : UInt8, f.id = .ok (.int file.toNat) →
      op.Apart file 0 bs.length) :
    ∃ (file : UInt8) (data : List UInt8), f.id = .ok (.int file.toNat) ∧
      exec i (request prog[i].1 prog[i].2) = .ok [answered prog[i].1 [(file, 0, data)]] ∧
      ((∃ st, f.parse (stream data) = .ok f st) ↔ f.Survives) := by
  obtain ⟨file, hid, ew⟩ := write_command hw hb hl
  obtain ⟨n, hn, -, er⟩ := read_command hr hid
  have ew := request_inj ew
  have er := request_inj er
  obtain ⟨rs, e1, ⟨rfl, -⟩ | e2 | ⟨-, e2⟩⟩ :=
    (C110_content hk hg hkeep hboot h0 hconn exec prog hfit hgive h).1 i hi
  · rw [e1] at hcr; cases hcr
  · obtain ⟨mid, m1, m2⟩ := confirmedOps_between exec prog hji hi hcw
    obtain ⟨rest, p1, p2⟩ := memory_prefix (memory.after (files d) (confirmedOps exec 0 (prog.take j))) file bs mid n (by
      intro op hop
      obtain ⟨l, hl, l1, l2, l3⟩ := m2 op hop
      exact ha l hl l1 l2 op l3 file hid)
    rw [m1, ew, er, List.append_assoc, Fp.after_ops, List.singleton_append, p1] at e2
    exact ⟨file, _, hid, by rw [e1, e2], reread_iff (rest := rest) hf hb (by rw [p2]; exact hn) (by rw [p2])⟩
  · rw [e1, Fp.not_confirmed e2] at hcr
    cases hcr

/-- In the run of `noisy_files`; the file survives. -/
example : ∃ (file : UInt8) (data : List UInt8), vidFile.id = .ok (.int file.toNat) ∧
    vidExec 2 (request 8 [.read 6 0 3]) = .ok [answered 8 [(file, 0, data)]] ∧
      ((∃ st, vidFile.parse (stream data) = .ok vidFile st) ↔ vidFile.Survives) ∧ vidFile.Survives := by
  obtain ⟨s0, s, s', h1, h2, h3, -⟩ := noisy_files
  obtain ⟨file, data, a, b, c⟩ := C110_system_file rfl storing_conforms storing_keeps (by simp [bootMessage]) h1 h2 vidExec
    vidProgram vid_fits vid_gives h3 (j := 1) (i := 2) (f := vidFile) (bs := [0xAB, 0xCD, 0x12]) (by decide) (by decide)
    vidFile_built (by decide +kernel) (by decide) (by decide +kernel) (by decide +kernel) (by decide +kernel)
    (by decide +kernel) (by intros; omega)
  exact ⟨file, data, a, b, c, trivial⟩

end Verif.Modem
