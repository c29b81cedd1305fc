import Verif.Lemmas.Series
import Verif.Props.ConfigLate

/-! C112: Ctrl-C while examples/engineering_mode.py waits (63-77, 174-177). -/

namespace Verif.Modem

open Verif Verif.Serial Verif.Examples

variable {D : Type}

namespace Cl

/-- The command of the handler. -/
theorem cleanup_made {a : EngineeringArgs} {em : EngineeringModeFile} (he : engineeringFile a = .ok em) (rand : UInt8) :
    ∃ ob, ob.length = 9 ∧ bytesToBits ob = fieldBits (SystemFile.engineeringMode { em with mode := .OFF }).fields ∧
      engineeringCleanup rand em = .ok (request rand [.write 5 0 ob]) := by
  have hb : EngineeringModeFile.Built { em with mode := .OFF } := by
    unfold engineeringFile at he
    cases h1 : ChannelID.fromString a.channelId with
    | error e => rw [h1] at he; cases he
    | ok ch =>
      cases h2 : EngineeringModeMode.fromString a.mode with
      | error e => rw [h1, h2] at he; cases he
      | ok m =>
        have he' := Prg.engineering_file a m ch h1 h2
        unfold engineeringFile at he'
        rw [he] at he'
        obtain ⟨h3, h4⟩ := validate_eq_ok.1 he'.symm
        subst h4
        exact ⟨validate_of h3, fromString_built h1⟩
  obtain ⟨ob, h1, h2, h3, h4⟩ := Prg.engineering_bytes hb
  refine ⟨ob, h1, h2, ?_⟩
  unfold engineeringCleanup
  simp only [SystemFile.id, bind, Except.bind]
  rw [h4]
  rfl

/-- The loop of the program as a run, and what becomes of the files when all that it sent is processed. -/
theorem repeat_all {config : Config} (hk : config.skip = false) {g : Gateway D} (hg : g.Conforms)
    {files : D → UInt8 → Nat → UInt8} (hkeep : g.Keeps files) {d : D} {boot : List LateEvent} {s0 s s' : Net D} {tag rand : UInt8}
    (hboot : ∀ call, .net (.call call) ∉ boot) (h0 : (Net.start config d).runLate g boot = some s0)
    (hconn : Net.Connected g tag s0 s) {ops : List FileOp} (hv : ∀ op ∈ ops, op.Valid)
    (hl : (requestBytes rand ops).length ≤ 255)
    (hidem : ∀ m, memory.after (memory.after m ops) ops = memory.after m ops) {k : Nat}
    (h : Examples.Repeat (fun s r s' => Net.Executes g s (request rand ops) r s') s k none s') :
    ∃ before, (∀ e ∈ before, Tagged e) ∧ (Net.start config d).runLate g before = some s' ∧
      (Net.start config d).requested g before = [question tag] ++ List.replicate k (request rand ops) ∧
      Ct.Caught g d s' ([question tag].filterMap sendable) ∧
      files (g.replies d (([question tag] ++ List.replicate k (request rand ops)).filterMap sendable)).1 =
        memory.after (files d) ops := by
  obtain ⟨before, a1, a2, a3, -, a5⟩ := Ev.connected_ready hk hg hboot h0 hconn
  obtain ⟨fs, f1, f2, f3⟩ := repeat_runs (Upl.request_taggable rand ops) h
  obtain ⟨_, _, _, _, _, st⟩ := Lt.stream_reach hk hg a1 a2
  have hcf := Ct.caught_run st.ok a5 f1
  rw [a3] at hcf
  refine ⟨before ++ fs, ?_, Lt.runLate_append a2 f1, by rw [Lt.requested_append a2, a3, f3], hcf, ?_⟩
  · intro e he
    rcases List.mem_append.1 he with he | he
    · exact a1 e he
    · exact f2 e he
  obtain ⟨es, s1, as, x, b1, b2, b3, b4, b5, b6⟩ := repeat_last (Upl.request_taggable rand ops) h
  have hca := Ct.caught_run st.ok a5 b1
  rw [a3] at hca
  obtain ⟨a, p, b, rs, c1, c2, c3, -⟩ := caught_origin hk hg (Upl.request_taggable rand ops) (before := before ++ es) (by
    intro e he
    rcases List.mem_append.1 he with he | he
    · exact a1 e he
    · exact b2 e he) (Lt.runLate_append a2 b1) (qa := [question tag]) (qb := s.requested g es)
    (by rw [Lt.requested_append a2, a3]) hca b4 b5
  rw [b3, List.filterMap_replicate, Upl.request_sendable hv hl] at c1
  obtain ⟨e0, e1⟩ := List.prefix_replicate_iff.1 c1
  have e2 := List.eq_replicate_iff.1 e1
  have ha : a = List.replicate a.length (requestBytes rand ops) :=
    List.eq_replicate_iff.2 ⟨rfl, fun y hy => e2.2 y (by simp [hy])⟩
  obtain rfl : p = requestBytes rand ops := e2.2 p (by simp)
  have hq : [question tag].filterMap sendable = [connectBytes tag] := by simp [Mqtt.question_bytes tag, connectBytes]
  simp only [List.length_append, List.length_cons] at e0
  rw [hq, Gwa.replies_append, ha] at c2
  rw [List.filterMap_append, hq, List.filterMap_replicate, Upl.request_sendable hv hl, Gwa.replies_append]
  have key := files_confirmed hg hkeep hv hl hidem _ c2 c3 b6 (k - (a.length + 1))
  rw [show a.length + 1 + (k - (a.length + 1)) = k by omega] at key
  show files (g.replies (g.replies d [connectBytes tag]).1 (List.replicate k (requestBytes rand ops))).1 = _
  rw [key, show files (g.replies d [connectBytes tag]).1 = files d from Fp.files_connect hg hkeep d tag]

end Cl

/-! ### Examples of runs -/

/-- The file of the program in the examples. -/
def lateFile : EngineeringModeFile := ⟨.PER_TX, 0, 255, ⟨⟨.PN9, .LO_RATE, .BAND_868⟩, 25⟩, 0⟩

/-- The command of the program in the examples, and that of the handler. -/
def lateOn : Command := (engineeringCommand 7 lateEngineering).toOption.getD (question 0)

def lateOff (tag : UInt8) : Command := (engineeringCleanup tag lateFile).toOption.getD (question 0)

theorem lateFile_made : engineeringFile lateEngineering = .ok lateFile := by decide +kernel

theorem lateOn_made : engineeringCommand 7 lateEngineering = .ok lateOn := by decide +kernel

theorem lateOff_made : engineeringCleanup 8 lateFile = .ok (lateOff 8) ∧ engineeringCleanup 7 lateFile = .ok (lateOff 7) := by
  decide +kernel

set_option maxRecDepth 20000 in
/-- The program is confirmed at once; the handler of Ctrl-C is. -/
theorem off_run : ∃ s0 s s', (Net.start updateConfig (fun _ _ => 9, [true])).runLate storing bootMessage = some s0 ∧
    EngineeringProgram (Net.ConnectSucceeds storing 7) (Net.Executes storing) 7 lateEngineering s0 1 none s ∧
    EngineeringProgram (Net.ConnectEnds storing 7) (Net.Executes storing) 7 lateEngineering s0 1 none s ∧
    Net.CalledCalmly storing (lateOff 8) s (.ok [answered 8 []]) s' ∧ s.data.1 5 0 = 4 ∧ s'.data.1 5 0 = 0 := by
  have key : ((Net.start updateConfig (fun _ _ => 9, [true])).runLate storing bootMessage).bind (fun s0 =>
      (s0.runLate storing (.net (.call (.connect true 7)) :: noisyStart)).bind fun s =>
      (s.runLate storing (.net (.call (.execute lateOn 10)) :: busyCall 9)).bind fun s1 =>
      (s1.runLate storing (.net (.call (.execute (lateOff 8) 10)) :: prompt 9)).map fun s2 =>
      decide ((s.modem.outcomes = s0.modem.outcomes ++ [.bool true] ∧ s1.modem.outcomes = s.modem.outcomes ++ [.list 2] ∧
        s2.modem.outcomes = s1.modem.outcomes ++ [.list 3]) ∧ (callGave s1 (.list 2) = some [answered 7 []] ∧
        callGave s2 (.list 3) = some [answered 8 []]) ∧ s1.Calm storing (.net (.call (.execute (lateOff 8) 10)) :: prompt 9) ∧
        s1.data.1 5 0 = 4 ∧ s2.data.1 5 0 = 0)) = some true := by
    decide +kernel
  obtain ⟨s0, a1, a2⟩ := Option.bind_eq_some_iff.1 key
  obtain ⟨s, a3, a4⟩ := Option.bind_eq_some_iff.1 a2
  obtain ⟨s1, a5, a6⟩ := Option.bind_eq_some_iff.1 a4
  obtain ⟨s2, a7, a8⟩ := Option.map_eq_some_iff.1 a6
  obtain ⟨⟨b1, b2, b3⟩, ⟨b4, b5⟩, b6, b7, b8⟩ := of_decide_eq_true a8
  have hconn : Net.Connected storing 7 s0 s := ⟨noisyStart, by simp [noisyStart], a3, b1⟩
  have hrep : Repeat (fun s r s' => Net.Executes storing s lateOn r s') s 1 none s1 :=
    .done _ _ [answered 7 []] ⟨busyCall 9, .list 2, by simp [busyCall], a5, b2, callGave_ok b4⟩ rfl
  exact ⟨s0, s1, s2, a1, .loop _ s _ _ _ _ ⟨rfl, hconn⟩ lateOn_made hrep,
    .loop _ s _ _ _ _ (Cl.connected_ends hconn) lateOn_made hrep,
    ⟨prompt 9, .list 3, by simp [prompt], a7, b6, b3, callGave_ok b5⟩, b7, b8⟩

/-! ### C112 -/

/-- C112: the engineering mode program has been confirmed, in any interleaving, and waits; then comes Ctrl-C, and the handler
executes its command, whose tag differs from that of the first command, while no answer is handed over in the very moment of
the start of the call. Then the call returns nothing, or one message that confirms, and the device holds the file of the
program with the mode OFF, and the factory settings as the program wrote them, and nothing else has changed; or all messages
that it returns deny, and the device holds what the program wrote. -/
theorem C112_off {config : Config} (hk : config.skip = false) {g : Gateway D} (hg : g.Conforms)
    {files : D → UInt8 → Nat → UInt8} (hkeep : g.Keeps files) {d : D} {boot : List LateEvent} {s0 s s' : Net D}
    {tag rand rand2 : UInt8}
    (hboot : ∀ call, .net (.call call) ∉ boot) (h0 : (Net.start config d).runLate g boot = some s0)
    {a : EngineeringArgs} (ha : a.forward = false) {n : Nat}
    (h : EngineeringProgram (Net.ConnectSucceeds g tag) (Net.Executes g) rand a s0 n none s)
    {em : EngineeringModeFile} (he : engineeringFile a = .ok em) (hne : rand2 ≠ rand)
    {c : Command} (hc : engineeringCleanup rand2 em = .ok c) {r : Except PyErr (List Command)}
    (hcall : Net.CalledCalmly g c s r s') :
    r = .ok [] ∨
    r = .ok [answered rand2 []] ∧ (∃ ob d1, ob.length = 9 ∧
      bytesToBits ob = fieldBits (SystemFile.engineeringMode { em with mode := .OFF }).fields ∧
      EngineeringPut a (files d) d1 ∧ Put 5 ob d1 (files s'.data)) ∨
    (∃ rs, r = .ok rs ∧ rs ≠ [] ∧ ∀ x ∈ rs, ¬ Clean x) ∧ EngineeringPut a (files d) (files s'.data) := by
  obtain ⟨ob, o1, o2, o3⟩ := Cl.cleanup_made he rand2
  rw [hc] at o3
  injection o3 with o3
  subst o3
  obtain ⟨v1, v2⟩ := Cl.write_fits (rand := rand2) (file := 5) o1 (by omega)
  cases h with
  | loop s1 _ c _ _ h1 h2 h3 =>
    obtain ⟨fb, eb, rfl, w1, w2, w3, w4⟩ := Cl.engineering_made ha h2
    obtain ⟨before, a1, a2, a3, a4, a5⟩ := Cl.repeat_all hk hg hkeep hboot h0 h1.2 w1 w2 w3 h3
    obtain ⟨rs, e1, e2⟩ := Sr.series hk hg (fun _ _ => r) [request rand2 [.write 5 0 ob]] (n := 0) a1 a2 a3 a4 (by
        intro c hc
        rw [List.mem_singleton.1 hc]
        exact ⟨_, _, Upl.request_taggable _ _, Upl.request_sendable v1 v2⟩) (by
        refine ⟨?_, ?_⟩
        · intro hm
          obtain ⟨q, hq, hq'⟩ := List.mem_map.1 hm
          rw [(List.mem_replicate.1 hq).2] at hq'
          have : (rand.toNat : Int) = rand2.toNat := Option.some.inj hq'
          exact hne (UInt8.toNat_inj.1 (by omega))
        · cases r with
          | error e => trivial
          | ok rs => cases rs <;> trivial)
      (.cons _ _ _ _ s' _ hcall (.nil _ _)) [] _ [] rfl
    subst e1
    by_cases hrs : rs = []
    · exact .inl (by rw [hrs])
    · obtain ⟨t, bs, t1, t2, t3, t4⟩ := e2 hrs
      rw [Upl.request_sendable v1 v2] at t2
      injection t2 with t2
      subst t2
      have ht : (rand2.toNat : Int) = t := Option.some.inj t1
      subst ht
      have t4 := t4 rfl
      rw [List.append_nil] at t3 t4
      rw [Gwa.replies_snoc] at t4
      rcases hkeep _ _ _ rs v1 t3 with ⟨k1, k2⟩ | ⟨k1, k2⟩
      · refine .inr (.inl ⟨by rw [k1]; rfl, ob, _, o1, o2, w4 _, ?_⟩)
        rw [t4, k2, a5]
        exact Prg.put_write 5 ob _
      · refine .inr (.inr ⟨⟨rs, rfl, hrs, k1⟩, ?_⟩)
        rw [t4, k2, a5]
        exact w4 _

/-- In the run of `off_run`. -/
example : ∃ (s : Net ((UInt8 → Nat → UInt8) × List Bool)) (s' : Net ((UInt8 → Nat → UInt8) × List Bool)),
    Net.CalledCalmly storing (lateOff 8) s (.ok [answered 8 []]) s' ∧ ∃ ob d1, ob.length = 9 ∧
      bytesToBits ob = fieldBits (SystemFile.engineeringMode { lateFile with mode := .OFF }).fields ∧
      EngineeringPut lateEngineering (fun _ _ => 9) d1 ∧ Put 5 ob d1 s'.data.1 := by
  obtain ⟨s0, s, s', h1, h2, -, h3, -⟩ := off_run
  rcases C112_off rfl storing_conforms storing_keeps (by simp [bootMessage]) h1 rfl h2 lateFile_made (by decide)
    lateOff_made.1 h3 with h | ⟨-, h⟩ | ⟨⟨rs, h, -, h4⟩, -⟩
  · simp at h
  · exact ⟨s, s', h3, h⟩
  · cases h
    exact absurd ⟨rfl, rfl⟩ (h4 _ (List.mem_singleton.2 rfl))

set_option maxRecDepth 20000 in
/-- C112, the condition on the tags cannot be left out: the program gives up its first call and takes the late answer to it
for that to the second one. Then comes Ctrl-C; the handler draws the same tag, and its call returns the answer to the second
command: a confirmation, but the engineering mode is still on. -/
theorem C112_same_tag_refuted : ∃ s0 s s', (Net.start updateConfig (fun _ _ => 9, [true])).runLate storing bootMessage = some s0 ∧
    EngineeringProgram (Net.ConnectSucceeds storing 7) (Net.Executes storing) 7 lateEngineering s0 2 none s ∧
    Net.CalledCalmly storing (lateOff 7) s (.ok [answered 7 []]) s' ∧ s'.data.1 5 0 = 4 := by
  have key : ((Net.start updateConfig (fun _ _ => 9, [true])).runLate storing bootMessage).bind (fun s0 =>
      (s0.runLate storing (.net (.call (.connect true 7)) :: noisyStart)).bind fun s =>
      (s.runLate storing (.net (.call (.execute lateOn 10)) :: givenUp)).bind fun s1 =>
      (s1.runLate storing (.net (.call (.execute lateOn 10)) :: lateAnswer)).bind fun s2 =>
      (s2.runLate storing (.net (.call (.execute (lateOff 7) 10)) :: prompt 9)).map fun s3 =>
      decide ((s.modem.outcomes = s0.modem.outcomes ++ [.bool true] ∧ s1.modem.outcomes = s.modem.outcomes ++ [.empty] ∧
        s2.modem.outcomes = s1.modem.outcomes ++ [.list 3] ∧ s3.modem.outcomes = s2.modem.outcomes ++ [.list 4]) ∧
        (callGave s2 (.list 3) = some [answered 7 []] ∧ callGave s3 (.list 4) = some [answered 7 []]) ∧
        s2.Calm storing (.net (.call (.execute (lateOff 7) 10)) :: prompt 9) ∧ s3.data.1 5 0 = 4)) = some true := by
    decide +kernel
  obtain ⟨s0, a1, a2⟩ := Option.bind_eq_some_iff.1 key
  obtain ⟨s, a3, a4⟩ := Option.bind_eq_some_iff.1 a2
  obtain ⟨s1, a5, a6⟩ := Option.bind_eq_some_iff.1 a4
  obtain ⟨s2, a7, a8⟩ := Option.bind_eq_some_iff.1 a6
  obtain ⟨s3, a9, a10⟩ := Option.map_eq_some_iff.1 a8
  obtain ⟨⟨b1, b2, b3, b4⟩, ⟨b5, b6⟩, b7, b8⟩ := of_decide_eq_true a10
  have hrep : Repeat (fun s r s' => Net.Executes storing s lateOn r s') s 2 none s2 :=
    .again _ s1 _ [] _ _ ⟨givenUp, .empty, by simp [givenUp], a5, b2, rfl⟩ rfl
      (.done _ _ [answered 7 []] ⟨lateAnswer, .list 3, by simp [lateAnswer], a7, b3, callGave_ok b5⟩ rfl)
  exact ⟨s0, s2, s3, a1, .loop _ s _ _ _ _ ⟨rfl, noisyStart, by simp [noisyStart], a3, b1⟩ lateOn_made hrep,
    ⟨prompt 9, .list 4, by simp [prompt], a9, b7, b4, callGave_ok b6⟩, b8⟩

/-- C112, nothing else: in every interleaving, with any tags and any outcome of `connect`, of the loop and of the call of the
handler, the files are at the end as they were, or what the program was asked for, and after that perhaps the file with the
mode OFF. -/
theorem C112_safe {config : Config} (hk : config.skip = false) {g : Gateway D} (hg : g.Conforms)
    {files : D → UInt8 → Nat → UInt8} (hkeep : g.Keeps files) {d : D} {boot : List LateEvent} {s0 s s' : Net D}
    {tag rand rand2 : UInt8}
    (hboot : ∀ call, .net (.call call) ∉ boot) (h0 : (Net.start config d).runLate g boot = some s0)
    {a : EngineeringArgs} (ha : a.forward = false) {n : Nat}
    (h : EngineeringProgram (Net.ConnectEnds g tag) (Net.Executes g) rand a s0 n none s)
    {em : EngineeringModeFile} (he : engineeringFile a = .ok em)
    {c : Command} (hc : engineeringCleanup rand2 em = .ok c) {r : Except PyErr (List Command)}
    (hcall : Net.Executes g s c r s') :
    ∃ d1, (d1 = files d ∨ EngineeringPut a (files d) d1) ∧ (files s'.data = d1 ∨ ∃ ob, ob.length = 9 ∧
      bytesToBits ob = fieldBits (SystemFile.engineeringMode { em with mode := .OFF }).fields ∧ Put 5 ob d1 (files s'.data)) := by
  obtain ⟨ob, o1, o2, o3⟩ := Cl.cleanup_made he rand2
  rw [hc] at o3
  injection o3 with o3
  subst o3
  obtain ⟨v1, v2⟩ := Cl.write_fits (rand := rand2) (file := 5) o1 (by omega)
  cases h with
  | loop s1 _ c _ _ h1 h2 h3 =>
    obtain ⟨fb, eb, rfl, w1, w2, w3, w4⟩ := Cl.engineering_made ha h2
    obtain ⟨before, a1, a2, a3⟩ := Cl.connect_run hboot h0 h1
    obtain ⟨es, b1, b2, b3⟩ := Cl.repeat_runs (Upl.request_taggable rand _) h3
    obtain ⟨fs, f1, f2, f3⟩ := Cl.called_run (Upl.request_taggable rand2 _) hcall
    have hrun := Lt.runLate_append (Lt.runLate_append a2 b1) f1
    have hreq : (Net.start config d).requested g (before ++ es ++ fs) =
        question tag :: (List.replicate n (request rand (Cl.engineeringOps a fb eb)) ++ [request rand2 [.write 5 0 ob]]) := by
      rw [Lt.requested_append (Lt.runLate_append a2 b1), Lt.requested_append a2, a3, b3, f3]
      simp
    obtain ⟨done, todo, _, _, _, st⟩ := Lt.stream_reach hk hg (by
      intro e he
      rcases List.mem_append.1 he with he | he
      · rcases List.mem_append.1 he with he | he
        · exact a1 e he
        · exact b2 e he
      · exact f2 e he) hrun
    have hd := (List.prefix_append done todo).trans (Lt.split_prefix st)
    rw [hreq, List.filterMap_cons, Mqtt.question_bytes tag, List.filterMap_append, List.filterMap_replicate,
      Upl.request_sendable w1 w2, List.filterMap_cons, Upl.request_sendable v1 v2] at hd
    simp only [List.filterMap_nil] at hd
    rw [st.data]
    have hpart : ∀ k, ∃ d1, (d1 = files d ∨ EngineeringPut a (files d) d1) ∧
        files (g.replies d (connectBytes tag :: List.replicate k (requestBytes rand (Cl.engineeringOps a fb eb)))).1 = d1 := by
      intro k
      refine ⟨_, ?_, rfl⟩
      show files (g.replies (g.handle d (connectBytes tag)).1 _).1 = _ ∨ EngineeringPut a _ (files (g.replies
        (g.handle d (connectBytes tag)).1 _).1)
      rcases Cl.files_again hg hkeep w1 w2 w3 (g.handle d (connectBytes tag)).1 k with e | e
      · rw [e]; exact .inl (Fp.files_connect hg hkeep d tag)
      · rw [e, Fp.files_connect hg hkeep d tag]
        exact .inr (w4 _)
    cases done with
    | nil => exact ⟨_, .inl rfl, .inl rfl⟩
    | cons p done =>
      obtain ⟨rfl, hd'⟩ := List.cons_prefix_cons.1 hd
      rcases List.prefix_concat_iff.1 hd' with e | e
      · obtain ⟨d1, k1, k2⟩ := hpart n
        refine ⟨d1, k1, ?_⟩
        rw [e, ← List.cons_append, Gwa.replies_snoc]
        rcases Cl.files_step (rand := rand2) hg hkeep v1 v2 (g.replies d (connectBytes tag :: List.replicate n
          (requestBytes rand (Cl.engineeringOps a fb eb)))).1 with e' | e'
        · exact .inl (e'.trans k2)
        · refine .inr ⟨ob, o1, o2, ?_⟩
          show Put 5 ob d1 (files (g.handle (g.replies d (connectBytes tag :: List.replicate n
            (requestBytes rand (Cl.engineeringOps a fb eb)))).1 (requestBytes rand2 [.write 5 0 ob])).1)
          rw [e', k2]
          exact Prg.put_write 5 ob _
      · obtain ⟨-, e⟩ := List.prefix_replicate_iff.1 e
        obtain ⟨d1, k1, k2⟩ := hpart done.length
        refine ⟨d1, k1, .inl ?_⟩
        rw [e]
        exact k2

/-- In the run of `off_run`. -/
example : ∃ s' : Net ((UInt8 → Nat → UInt8) × List Bool), s'.data.1 5 0 = 0 ∧ ∃ d1, (d1 = (fun _ _ => 9) ∨
    EngineeringPut lateEngineering (fun _ _ => 9) d1) ∧ (s'.data.1 = d1 ∨ ∃ ob, ob.length = 9 ∧
      bytesToBits ob = fieldBits (SystemFile.engineeringMode { lateFile with mode := .OFF }).fields ∧ Put 5 ob d1 s'.data.1) := by
  obtain ⟨s0, s, s', h1, -, h2, ⟨es, o, h3, h4, -, h5, h6⟩, -, h7⟩ := off_run
  exact ⟨s', h7, C112_safe rfl storing_conforms storing_keeps (by simp [bootMessage]) h1 rfl h2 lateFile_made lateOff_made.1
    ⟨es, o, h3, h4, h5, h6⟩⟩

end Verif.Modem
