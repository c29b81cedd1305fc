import Verif.Lemmas.ConfigLate
import Verif.Props.FileProgram
import Verif.Props.Programs

/-! C111: the configuration programs (examples/change_access_profile.py, write_factory_settings.py, engineering_mode.py,
read_phy_status.py) in every interleaving, with answers that come late. -/

namespace Verif.Modem

open Verif Verif.Serial Verif.Examples

variable {D : Type}

/-! ### The commands of the programs -/

namespace Cl

theorem nonempty_of_length {l : List UInt8} {k : Nat} (hl : l.length = k + 1) : l ≠ [] := fun hx => by subst hx; cases hl

theorem profile_made {rand : UInt8} {a : ProfileArgs} {ch : ChannelID} (hch : ChannelID.fromString a.channelId = .ok ch) :
    (∃ bs, ProfileOk a ∧ ProfileBytes a bs ∧
      profileCommand rand a = .ok (request rand [.write (UInt8.ofNat (0x20 + a.specifier.toNat)) 0 bs])) ∨
    ¬ ProfileOk a ∧ ∃ e, profileCommand rand a = .error e := by
  by_cases h : ProfileOk a
  · obtain ⟨period, bs, h1, h2, h3, h4⟩ := Prg.profile_request rand a ch hch h.2
    exact .inl ⟨bs, h, ⟨ch, period, hch, h1, h3, h4⟩, h2⟩
  · exact .inr ⟨h, _, (C70_profile rand a ch hch).2 fun hok => h ⟨⟨ch, hch⟩, hok⟩⟩

theorem factory_made {rand : UInt8} {args : FactorySettingsFile} :
    (∃ f bs, FactoryOk args f ∧ bs.length = 56 ∧ bytesToBits bs = fieldBits (SystemFile.factorySettings f).fields ∧
      factoryCommand rand args false = .ok (request rand [.write 1 0 bs])) ∨
    (∀ f, ¬ FactoryOk args f) ∧ ∃ e, factoryCommand rand args false = .error e := by
  by_cases h : ∃ f, FactoryOk args f
  · obtain ⟨f, hf⟩ := h
    obtain ⟨bs, h1, h2, h3⟩ := Prg.factory_request rand hf.1 hf.2
    exact .inl ⟨f, bs, hf, h1, h2, h3⟩
  · exact .inr ⟨fun f hf => h ⟨f, hf⟩, _, (C70_factory rand args false).2 fun f h1 h2 => h ⟨f, h1, h2⟩⟩

/-- A program that makes one call, after a `connect` that returned True. -/
theorem once_confirmed {config : Config} (hk : config.skip = false) {g : Gateway D} (hg : g.Conforms)
    {files : D → UInt8 → Nat → UInt8} (hkeep : g.Keeps files) {d : D} {boot : List LateEvent} {s0 s' : Net D} {tag rand : UInt8}
    (hboot : ∀ call, .net (.call call) ∉ boot) (h0 : (Net.start config d).runLate g boot = some s0)
    {r : Except PyErr (List Command)} {ops : List FileOp} (hv : ∀ op ∈ ops, op.Valid)
    (hl : (requestBytes rand ops).length ≤ 255)
    (h : Once (Net.ConnectSucceeds g tag) (Net.Executes g) (.ok (request rand ops)) s0 r s') :
    r = .ok [] ∨ r = .ok [answered rand (memory.results (files d) ops)] ∧ files s'.data = memory.after (files d) ops ∨
    (∃ rs, r = .ok rs ∧ rs ≠ [] ∧ ∀ x ∈ rs, ¬ Clean x) ∧ files s'.data = files d := by
  cases h with
  | unconnected _ _ h1 => exact absurd h1.1 (by simp)
  | unmade _ _ h1 h2 => cases h2
  | executed s1 _ c _ h1 h2 h3 =>
    injection h2 with h2
    subst h2
    obtain ⟨k1, k2⟩ := C110_content hk hg hkeep hboot h0 h1.2 (fun _ _ => r) [(rand, ops)]
      (by simpa using ⟨hv, hl⟩) (by intro i hi; simp at hi)
      (.cons _ _ _ _ s' _ h3 (.nil _ _))
    obtain ⟨rs, e1, e2⟩ := k1 0 (by simp)
    subst e1
    have k3 := k2 (rand, ops) rfl
    simp only [confirmedOps, List.append_nil] at k3
    rcases e2 with ⟨rfl, -⟩ | e2 | ⟨e2, e3⟩
    · exact .inl rfl
    · simp only [List.getElem_cons_zero, List.take_zero, confirmedOps] at e2
      subst e2
      rw [Fp.confirmed_answered, if_pos rfl] at k3
      exact .inr (.inl ⟨rfl, k3 (by simp)⟩)
    · rw [Fp.not_confirmed e3] at k3
      exact .inr (.inr ⟨⟨rs, rfl, e2, e3⟩, k3 (by simpa using e2)⟩)

theorem write_fits {rand file : UInt8} {bs : List UInt8} {k : Nat} (hl : bs.length = k + 1) (hk : k < 200) :
    (∀ op ∈ [FileOp.write file 0 bs], op.Valid) ∧ (requestBytes rand [.write file 0 bs]).length ≤ 255 :=
  ⟨Upd.piece_valid (by decide) (nonempty_of_length hl) (by omega), Upd.piece_fits _ _ _ (by omega)⟩

/-- The operations of the engineering mode program. -/
def engineeringOps (a : EngineeringArgs) (fb eb : List UInt8) : List FileOp :=
  (if a.factoryGaussian ≠ 0xFF ∨ a.factoryParamp ≠ 0xFF then [.write 1 0 fb] else []) ++ [.write 5 0 eb]

theorem engineering_made {rand : UInt8} {a : EngineeringArgs} (ha : a.forward = false) {c : Command}
    (hc : engineeringCommand rand a = .ok c) :
    ∃ fb eb, c = request rand (engineeringOps a fb eb) ∧ (∀ op ∈ engineeringOps a fb eb, op.Valid) ∧
      (requestBytes rand (engineeringOps a fb eb)).length ≤ 255 ∧
      (∀ m, memory.after (memory.after m (engineeringOps a fb eb)) (engineeringOps a fb eb) =
        memory.after m (engineeringOps a fb eb)) ∧
      ∀ d, EngineeringPut a d (memory.after d (engineeringOps a fb eb)) := by
  have he : ∃ em, engineeringFile a = .ok em := by
    unfold engineeringCommand at hc
    cases he : engineeringFile a with
    | error e => rw [he] at hc; cases hc
    | ok em => exact ⟨em, rfl⟩
  obtain ⟨em, he⟩ := he
  unfold engineeringFile at he
  cases h1 : ChannelID.fromString a.channelId with
  | error e => rw [h1] at he; cases he
  | ok ch =>
    cases h2 : EngineeringModeMode.fromString a.mode with
    | error e => rw [h1, h2] at he; cases he
    | ok m =>
      have hok := Classical.not_not.1 fun hno => by
        have := (C70_engineering_partial rand a m ch h1 h2).2 hno
        rw [hc] at this
        cases this
      obtain ⟨eb, fb, g1, g2, g3, g4, g5⟩ := Prg.engineering_request rand a m ch ha h1 h2 hok.1 hok.2.1 hok.2.2
      rw [hc] at g5
      injection g5 with g5
      refine ⟨fb, eb, g5, ?_⟩
      by_cases hf : a.factoryGaussian ≠ 0xFF ∨ a.factoryParamp ≠ 0xFF
      · have e : engineeringOps a fb eb = [.write 1 0 fb, .write 5 0 eb] := by simp [engineeringOps, if_pos hf]
        rw [e]
        refine ⟨?_, by simp [requestBytes, FileOp.bytes, encode, g1, g2], fun m => writes_again m fb eb, fun d => ?_⟩
        · intro op hop
          simp only [List.mem_cons, List.not_mem_nil, or_false] at hop
          rcases hop with rfl | rfl
          · exact ⟨by decide, nonempty_of_length g2, by omega⟩
          · exact ⟨by decide, nonempty_of_length g1, by omega⟩
        · refine ⟨m, ch, eb, fb, memory.write d 1 0 fb, h1, h2, g1, g2, g3, g4, ?_, Prg.put_write 5 eb _⟩
          rw [if_pos hf]
          exact Prg.put_write 1 fb d
      · have e : engineeringOps a fb eb = [.write 5 0 eb] := by simp [engineeringOps, if_neg hf]
        rw [e]
        obtain ⟨w1, w2⟩ := write_fits (rand := rand) (file := 5) g1 (by omega)
        refine ⟨w1, w2, fun m => write_again m 5 eb, fun d => ?_⟩
        refine ⟨m, ch, eb, fb, d, h1, h2, g1, g2, g3, g4, ?_, Prg.put_write 5 eb _⟩
        rw [if_neg hf]

end Cl

/-! ### Examples of runs -/

/-- One call with the device `storing`: bytes of a message of the modem's start, `connect` with a log text at the worst
moment, a call in which the events `es` happen. -/
def lateOnce (c : Command) (es : List LateEvent) (o : Outcome) (rs : List Command) : Option Bool :=
  ((Net.start updateConfig (fun _ _ => 9, [true])).runLate storing bootMessage).bind fun s0 =>
    (s0.runLate storing (.net (.call (.connect true 7)) :: noisyStart)).bind fun s =>
    (s.runLate storing (.net (.call (.execute c 10)) :: es)).map fun s' =>
      decide (s.modem.outcomes = s0.modem.outcomes ++ [.bool true] ∧ s'.modem.outcomes = s.modem.outcomes ++ [o] ∧
        callGave s' o = some rs)

theorem late_once {command : Except PyErr Command} {c : Command} {es : List LateEvent} {o : Outcome} {rs : List Command}
    (hc : command = .ok c) (hes : ∀ call, .net (.call call) ∉ es) (key : lateOnce c es o rs = some true) :
    ∃ s0 s', (Net.start updateConfig (fun _ _ => 9, [true])).runLate storing bootMessage = some s0 ∧
      Once (Net.ConnectSucceeds storing 7) (Net.Executes storing) command s0 (.ok rs) s' ∧
      Once (Net.ConnectEnds storing 7) (Net.Executes storing) command s0 (.ok rs) s' := by
  obtain ⟨s0, a1, a2⟩ := Option.bind_eq_some_iff.1 key
  obtain ⟨s, a3, a4⟩ := Option.bind_eq_some_iff.1 a2
  obtain ⟨s', a5, a6⟩ := Option.map_eq_some_iff.1 a4
  obtain ⟨b1, b2, b3⟩ := of_decide_eq_true a6
  have hconn : Net.Connected storing 7 s0 s := ⟨noisyStart, by simp [noisyStart], a3, b1⟩
  have hcall : Net.Executes storing s c (.ok rs) s' := ⟨es, o, hes, a5, b2, callGave_ok b3⟩
  exact ⟨s0, s', a1, .executed _ s _ c _ ⟨rfl, hconn⟩ hc hcall, .executed _ s _ c _ (Cl.connected_ends hconn) hc hcall⟩

/-- A call with a log text at the worst moment, begun while the reading thread is still busy; one that is given up before
the device has seen the command; and one in which the answer to the one before it arrives. -/
def busyCall (n : Nat) : List LateEvent :=
  List.replicate 3 (.net .reader) ++ [.net .main, .net .main, .net (.log 0 [104, 105]), .net (.read 9), .net .main,
    .net .reader, .net .main, .net .reader, .net .reader, .net .main, .net .take, .net (.send 1), .net (.read n)] ++
    List.replicate 5 (.net .reader) ++ [.net .main]

def givenUp : List LateEvent :=
  List.replicate 3 (.net .reader) ++ List.replicate 5 (.net .main) ++ [.timeout, .net .take]

def lateAnswer : List LateEvent :=
  List.replicate 5 (.net .main) ++ [.net (.send 1), .net (.read 9)] ++ List.replicate 5 (.net .reader) ++ [.net .main]

/-- The options of the examples. -/
def lateProfile : ProfileArgs := { channelId := ['8', '6', '8', 'L', 'P', '0', '2', '5'], specifier := 3 }

def lateEngineering : EngineeringArgs :=
  { channelId := ['8', '6', '8', 'L', 'P', '0', '2', '5'], mode := "PER_TX", factoryGaussian := 1, factoryParamp := 50 }

theorem lateProfile_ok : ProfileOk lateProfile :=
  ⟨⟨⟨⟨.PN9, .LO_RATE, .BAND_868⟩, 25⟩, by decide +kernel⟩, by decide, by decide, by decide, by decide⟩

set_option maxRecDepth 20000 in
theorem late_profile : ∃ s0 s', (Net.start updateConfig (fun _ _ => 9, [true])).runLate storing bootMessage = some s0 ∧
    ProfileProgram (Net.ConnectSucceeds storing 7) (Net.Executes storing) 7 lateProfile s0 (.ok [answered 7 []]) s' ∧
    ProfileProgram (Net.ConnectEnds storing 7) (Net.Executes storing) 7 lateProfile s0 (.ok [answered 7 []]) s' := by
  obtain ⟨s0, s', h1, h2, h3⟩ := late_once (command := profileCommand 7 lateProfile)
    (c := (profileCommand 7 lateProfile).toOption.getD (question 0)) (es := busyCall 9) (o := .list 2) (rs := [answered 7 []])
    (by decide +kernel) (by simp [busyCall]) (by decide +kernel)
  exact ⟨s0, s', h1, .once _ _ ⟨⟨.PN9, .LO_RATE, .BAND_868⟩, 25⟩ _ (by decide +kernel) h2,
    .once _ _ ⟨⟨.PN9, .LO_RATE, .BAND_868⟩, 25⟩ _ (by decide +kernel) h3⟩

set_option maxRecDepth 20000 in
theorem late_factory : ∃ s0 s', (Net.start updateConfig (fun _ _ => 9, [true])).runLate storing bootMessage = some s0 ∧
    Once (Net.ConnectSucceeds storing 7) (Net.Executes storing) (factoryCommand 7 FactorySettingsFile.defaultArgs false) s0
      (.ok []) s' ∧
    Once (Net.ConnectEnds storing 7) (Net.Executes storing) (factoryCommand 7 FactorySettingsFile.defaultArgs false) s0
      (.ok []) s' :=
  late_once (c := (factoryCommand 7 FactorySettingsFile.defaultArgs false).toOption.getD (question 0)) (es := givenUp)
    (o := .empty) (by decide +kernel) (by simp [givenUp]) (by decide +kernel)

set_option maxRecDepth 20000 in
theorem late_phy : ∃ s0 s', (Net.start updateConfig (fun _ _ => 9, [true])).runLate storing bootMessage = some s0 ∧
    Once (Net.ConnectSucceeds storing 7) (Net.Executes storing) (readPhyCommand 7) s0
      (.ok [answered 7 [(9, 0, List.replicate 45 9)]]) s' ∧
    Once (Net.ConnectEnds storing 7) (Net.Executes storing) (readPhyCommand 7) s0
      (.ok [answered 7 [(9, 0, List.replicate 45 9)]]) s' :=
  late_once (c := (readPhyCommand 7).toOption.getD (question 0)) (es := busyCall 58)
    (o := .list 2) (by decide +kernel) (by simp [busyCall]) (by decide +kernel)

set_option maxRecDepth 20000 in
/-- The engineering mode program gives up its first call; the answer to it is what its second call returns. -/
theorem late_engineering :
    ∃ s0 s', (Net.start updateConfig (fun _ _ => 9, [true])).runLate storing bootMessage = some s0 ∧
    EngineeringProgram (Net.ConnectSucceeds storing 7) (Net.Executes storing) 7 lateEngineering s0 2 none s' ∧
    EngineeringProgram (Net.ConnectEnds storing 7) (Net.Executes storing) 7 lateEngineering s0 2 none s' := by
  have hc : engineeringCommand 7 lateEngineering =
      .ok ((engineeringCommand 7 lateEngineering).toOption.getD (question 0)) := by decide +kernel
  have key : ((Net.start updateConfig (fun _ _ => 9, [true])).runLate storing bootMessage).bind (fun s0 =>
      (s0.runLate storing (.net (.call (.connect true 7)) :: noisyStart)).bind fun s =>
      (s.runLate storing (.net (.call (.execute ((engineeringCommand 7 lateEngineering).toOption.getD (question 0)) 10)) ::
        givenUp)).bind fun s1 =>
      (s1.runLate storing (.net (.call (.execute ((engineeringCommand 7 lateEngineering).toOption.getD (question 0)) 10)) ::
        lateAnswer)).map fun s2 =>
      decide (s.modem.outcomes = s0.modem.outcomes ++ [.bool true] ∧ s1.modem.outcomes = s.modem.outcomes ++ [.empty] ∧
        s2.modem.outcomes = s1.modem.outcomes ++ [.list 3] ∧ callGave s2 (.list 3) = some [answered 7 []])) = some true := by
    decide +kernel
  obtain ⟨s0, a1, a2⟩ := Option.bind_eq_some_iff.1 key
  obtain ⟨s, a3, a4⟩ := Option.bind_eq_some_iff.1 a2
  obtain ⟨s1, a5, a6⟩ := Option.bind_eq_some_iff.1 a4
  obtain ⟨s2, a7, a8⟩ := Option.map_eq_some_iff.1 a6
  obtain ⟨b1, b2, b3, b4⟩ := of_decide_eq_true a8
  have hconn : Net.Connected storing 7 s0 s := ⟨noisyStart, by simp [noisyStart], a3, b1⟩
  have hrep : Repeat (fun s r s' => Net.Executes storing s
      ((engineeringCommand 7 lateEngineering).toOption.getD (question 0)) r s') s 2 none s2 :=
    .again _ s1 _ [] _ _ ⟨givenUp, .empty, by simp [givenUp], a5, b2, rfl⟩ rfl
      (.done _ _ [answered 7 []] ⟨lateAnswer, .list 3, by simp [lateAnswer], a7, b3, callGave_ok b4⟩ rfl)
  exact ⟨s0, s2, a1, .loop _ s _ _ _ _ ⟨rfl, hconn⟩ hc hrep, .loop _ s _ _ _ _ (Cl.connected_ends hconn) hc hrep⟩

/-! ### C111: nothing else than what was asked for -/

/-- C111, the access profile program, started with any options and run to its end: whatever happens on the line and in
the threads, whether `connect` succeeds, fails or raises, whether answers are lost, late or refused, the files of the device
are at the end as they were, or the options were accepted and the file of the requested access class holds the profile with
the requested settings, and nothing else has changed. Options that are not accepted end the program by an exception. -/
theorem C111_profile_safe {config : Config} (hk : config.skip = false) {g : Gateway D} (hg : g.Conforms)
    {files : D → UInt8 → Nat → UInt8} (hkeep : g.Keeps files) {d : D} {boot : List LateEvent} {s0 s' : Net D} {tag rand : UInt8}
    (hboot : ∀ call, .net (.call call) ∉ boot) (h0 : (Net.start config d).runLate g boot = some s0) {a : ProfileArgs}
    {r : Except PyErr (List Command)} (h : ProfileProgram (Net.ConnectEnds g tag) (Net.Executes g) rand a s0 r s') :
    (files s'.data = files d ∨ ProfileOk a ∧ ∃ bs, ProfileBytes a bs ∧
      Put (UInt8.ofNat (0x20 + a.specifier.toNat)) bs (files d) (files s'.data)) ∧
    (¬ ProfileOk a → ∃ e, r = .error e) := by
  cases h with
  | channel e h1 => exact ⟨.inl (by rw [Cl.boot_data hk hg hboot h0]), fun _ => ⟨e, rfl⟩⟩
  | once _ ch _ h1 h2 =>
    rcases Cl.profile_made (rand := rand) h1 with ⟨bs, k1, k2, k3⟩ | ⟨k1, e, k2⟩
    · refine ⟨?_, fun hno => absurd k1 hno⟩
      have hlen : bs.length = 65 := by
        obtain ⟨_, _, _, _, hlen, _⟩ := k2
        exact hlen
      obtain ⟨w1, w2⟩ := Cl.write_fits (rand := rand) (file := UInt8.ofNat (0x20 + a.specifier.toNat)) hlen (by omega)
      rcases Cl.once_safe hk hg hkeep hboot h0 (fun c hc => by
        rw [k3] at hc
        injection hc with hc
        exact ⟨hc.symm, w1, w2, fun m => Cl.write_again m _ bs⟩) h2 with k4 | ⟨-, k4⟩
      · exact .inl k4
      · refine .inr ⟨k1, bs, k2, ?_⟩
        rw [k4]
        exact Prg.put_write _ bs _
    · constructor
      · rcases Cl.once_safe (rand := rand) (ops := []) hk hg hkeep hboot h0 (fun c hc => by rw [k2] at hc; cases hc) h2 with
          k4 | ⟨⟨c, hc⟩, -⟩
        · exact .inl k4
        · rw [k2] at hc; cases hc
      · intro _
        cases h2 with
        | unconnected _ e _ => exact ⟨e, rfl⟩
        | unmade _ e _ _ => exact ⟨e, rfl⟩
        | executed _ _ c _ _ hc _ => rw [k2] at hc; cases hc

/-- In the run of `late_profile`. -/
example : ∃ s0 s', ProfileProgram (Net.ConnectEnds storing 7) (Net.Executes storing) 7 lateProfile s0
    (.ok [answered 7 []]) s' ∧ (s'.data.1 = (fun _ _ => 9) ∨ ProfileOk lateProfile ∧ ∃ bs, ProfileBytes lateProfile bs ∧
      Put 0x23 bs (fun _ _ => 9) s'.data.1) := by
  obtain ⟨s0, s', h1, -, h3⟩ := late_profile
  exact ⟨s0, s', h3, (C111_profile_safe rfl storing_conforms storing_keeps (by simp [bootMessage]) h1 h3).1⟩

/-- C111, the factory settings program without `-f`: likewise with the 56 bytes of the settings in file 1. -/
theorem C111_factory_safe {config : Config} (hk : config.skip = false) {g : Gateway D} (hg : g.Conforms)
    {files : D → UInt8 → Nat → UInt8} (hkeep : g.Keeps files) {d : D} {boot : List LateEvent} {s0 s' : Net D} {tag rand : UInt8}
    (hboot : ∀ call, .net (.call call) ∉ boot) (h0 : (Net.start config d).runLate g boot = some s0)
    {args : FactorySettingsFile} {r : Except PyErr (List Command)}
    (h : Once (Net.ConnectEnds g tag) (Net.Executes g) (factoryCommand rand args false) s0 r s') :
    (files s'.data = files d ∨ ∃ f bs, FactoryOk args f ∧ bs.length = 56 ∧
      bytesToBits bs = fieldBits (SystemFile.factorySettings f).fields ∧ Put 1 bs (files d) (files s'.data)) ∧
    ((∀ f, ¬ FactoryOk args f) → ∃ e, r = .error e) := by
  rcases Cl.factory_made (rand := rand) (args := args) with ⟨f, bs, k1, k2, k3, k5⟩ | ⟨k1, e, k2⟩
  · refine ⟨?_, fun hno => absurd k1 (hno f)⟩
    obtain ⟨w1, w2⟩ := Cl.write_fits (rand := rand) (file := 1) k2 (by omega)
    rcases Cl.once_safe hk hg hkeep hboot h0 (fun c hc => by
      rw [k5] at hc
      injection hc with hc
      exact ⟨hc.symm, w1, w2, fun m => Cl.write_again m _ bs⟩) h with k4 | ⟨-, k4⟩
    · exact .inl k4
    · refine .inr ⟨f, bs, k1, k2, k3, ?_⟩
      rw [k4]
      exact Prg.put_write _ bs _
  · constructor
    · rcases Cl.once_safe (rand := rand) (ops := []) hk hg hkeep hboot h0 (fun c hc => by rw [k2] at hc; cases hc) h with
        k4 | ⟨⟨c, hc⟩, -⟩
      · exact .inl k4
      · rw [k2] at hc; cases hc
    · intro _
      cases h with
      | unconnected _ e _ => exact ⟨e, rfl⟩
      | unmade _ e _ _ => exact ⟨e, rfl⟩
      | executed _ _ c _ _ hc _ => rw [k2] at hc; cases hc

/-- In the run of `late_factory`, in which the call is given up before the device sees the command. -/
example : ∃ s0 s', Once (Net.ConnectEnds storing 7) (Net.Executes storing)
    (factoryCommand 7 FactorySettingsFile.defaultArgs false) s0 (.ok []) s' ∧
    (s'.data.1 = (fun _ _ => 9) ∨ ∃ f bs, FactoryOk FactorySettingsFile.defaultArgs f ∧ bs.length = 56 ∧
      bytesToBits bs = fieldBits (SystemFile.factorySettings f).fields ∧ Put 1 bs (fun _ _ => 9) s'.data.1) := by
  obtain ⟨s0, s', h1, -, h3⟩ := late_factory
  exact ⟨s0, s', h3, (C111_factory_safe rfl storing_conforms storing_keeps (by simp [bootMessage]) h1 h3).1⟩

/-- C111, the PHY status program never changes a file. -/
theorem C111_phy_safe {config : Config} (hk : config.skip = false) {g : Gateway D} (hg : g.Conforms)
    {files : D → UInt8 → Nat → UInt8} (hkeep : g.Keeps files) {d : D} {boot : List LateEvent} {s0 s' : Net D} {tag rand : UInt8}
    (hboot : ∀ call, .net (.call call) ∉ boot) (h0 : (Net.start config d).runLate g boot = some s0)
    {r : Except PyErr (List Command)} (h : Once (Net.ConnectEnds g tag) (Net.Executes g) (readPhyCommand rand) s0 r s') :
    files s'.data = files d := by
  rcases Cl.once_safe (rand := rand) (ops := [.read 9 0 45]) hk hg hkeep hboot h0 (fun c hc => by
    rw [Prg.phy_request] at hc
    injection hc with hc
    refine ⟨hc.symm, ?_, by simp [requestBytes, FileOp.bytes, encode], fun m => rfl⟩
    intro op hop
    rw [List.mem_singleton] at hop
    subst hop
    exact ⟨by decide, by decide⟩) h with k | ⟨-, k⟩
  · exact k
  · exact k

/-- In the run of `late_phy`. -/
example : ∃ s0 s', Once (Net.ConnectEnds storing 7) (Net.Executes storing) (readPhyCommand 7) s0
    (.ok [answered 7 [(9, 0, List.replicate 45 9)]]) s' ∧ s'.data.1 = fun _ _ => 9 := by
  obtain ⟨s0, s', h1, -, h3⟩ := late_phy
  exact ⟨s0, s', h3, C111_phy_safe rfl storing_conforms storing_keeps (by simp [bootMessage]) h1 h3⟩

/-- C111, the engineering mode program without `-f`, with any options, any outcome of `connect` and any number of calls: the
files of the device are as they were, or the settings were accepted and are what has come to the device, however often they
were sent. -/
theorem C111_engineering_safe {config : Config} (hk : config.skip = false) {g : Gateway D} (hg : g.Conforms)
    {files : D → UInt8 → Nat → UInt8} (hkeep : g.Keeps files) {d : D} {boot : List LateEvent} {s0 s' : Net D} {tag rand : UInt8}
    (hboot : ∀ call, .net (.call call) ∉ boot) (h0 : (Net.start config d).runLate g boot = some s0)
    {a : EngineeringArgs} (ha : a.forward = false) {n : Nat} {r : Option PyErr}
    (h : EngineeringProgram (Net.ConnectEnds g tag) (Net.Executes g) rand a s0 n r s') :
    files s'.data = files d ∨ 0 < n ∧ EngineeringPut a (files d) (files s'.data) := by
  have none_ : ∀ {e s}, Net.ConnectEnds g tag s0 e s → files s.data = files d := by
    intro e s h
    obtain ⟨before, a1, a2, a3⟩ := Cl.connect_run hboot h0 h
    rcases Cl.safe hk hg hkeep (rand := 0) (ops := []) (k := 0) (by simp) (by simp [requestBytes]) (fun _ => rfl) a1 a2
      (by simpa using a3) with h | ⟨h, -⟩
    · exact h
    · omega
  cases h with
  | rejected e h1 => exact .inl (by rw [Cl.boot_data hk hg hboot h0])
  | unconnected _ em e h1 h2 => exact .inl (none_ h2)
  | unmade _ em e h1 h2 h3 => exact .inl (none_ h2)
  | loop s1 _ c _ _ h1 h2 h3 =>
    obtain ⟨fb, eb, rfl, w1, w2, w3, w4⟩ := Cl.engineering_made ha h2
    obtain ⟨before, a1, a2, a3⟩ := Cl.connect_run hboot h0 h1
    obtain ⟨es, b1, b2, b3⟩ := Cl.repeat_runs (Upl.request_taggable rand _) h3
    rcases Cl.safe hk hg hkeep (k := n) w1 w2 w3 (before := before ++ es) (by
      intro e he
      rcases List.mem_append.1 he with he | he
      · exact a1 e he
      · exact b2 e he) (Lt.runLate_append a2 b1) (by rw [Lt.requested_append a2, a3, b3]; rfl) with k | ⟨k1, k2⟩
    · exact .inl k
    · rw [k2]
      exact .inr ⟨k1, w4 _⟩

/-- In the run of `late_engineering`. -/
example : ∃ s0 s', EngineeringProgram (Net.ConnectEnds storing 7) (Net.Executes storing) 7 lateEngineering s0 2 none s' ∧
    (s'.data.1 = (fun _ _ => 9) ∨ 0 < 2 ∧ EngineeringPut lateEngineering (fun _ _ => 9) s'.data.1) := by
  obtain ⟨s0, s', h1, -, h3⟩ := late_engineering
  exact ⟨s0, s', h3, C111_engineering_safe rfl storing_conforms storing_keeps (by simp [bootMessage]) h1 rfl h3⟩

/-! ### C111: what the end of the programs means -/

/-- C111, the access profile program, when `connect` returned True and the options are accepted: the call returned nothing,
or it returned one message, which confirms, and the device holds the profile with the requested settings, or all that it
returned says that the command was not executed, and the device is as it was. -/
theorem C111_profile {config : Config} (hk : config.skip = false) {g : Gateway D} (hg : g.Conforms)
    {files : D → UInt8 → Nat → UInt8} (hkeep : g.Keeps files) {d : D} {boot : List LateEvent} {s0 s' : Net D} {tag rand : UInt8}
    (hboot : ∀ call, .net (.call call) ∉ boot) (h0 : (Net.start config d).runLate g boot = some s0) {a : ProfileArgs}
    (ha : ProfileOk a) {r : Except PyErr (List Command)}
    (h : ProfileProgram (Net.ConnectSucceeds g tag) (Net.Executes g) rand a s0 r s') :
    r = .ok [] ∨
    r = .ok [answered rand []] ∧ (∃ bs, ProfileBytes a bs ∧
      Put (UInt8.ofNat (0x20 + a.specifier.toNat)) bs (files d) (files s'.data)) ∨
    (∃ rs, r = .ok rs ∧ rs ≠ [] ∧ ∀ x ∈ rs, ¬ Clean x) ∧ files s'.data = files d := by
  cases h with
  | channel e h1 =>
    obtain ⟨⟨ch, h2⟩, -⟩ := ha
    exact absurd (h1.symm.trans h2) (by simp)
  | once _ ch _ h1 h2 =>
    rcases Cl.profile_made (rand := rand) h1 with ⟨bs, k1, k2, k3⟩ | ⟨k1, -⟩
    · have hlen : bs.length = 65 := by
        obtain ⟨_, _, _, _, hlen, _⟩ := k2
        exact hlen
      obtain ⟨w1, w2⟩ := Cl.write_fits (rand := rand) (file := UInt8.ofNat (0x20 + a.specifier.toNat)) hlen (by omega)
      rw [k3] at h2
      rcases Cl.once_confirmed hk hg hkeep hboot h0 w1 w2 h2 with e | ⟨e1, e2⟩ | e
      · exact .inl e
      · refine .inr (.inl ⟨e1, bs, k2, ?_⟩)
        rw [e2]
        exact Prg.put_write _ bs _
      · exact .inr (.inr e)
    · exact absurd ha k1

/-- In the run of `late_profile`. -/
example : ∃ s0 s', ProfileProgram (Net.ConnectSucceeds storing 7) (Net.Executes storing) 7 lateProfile s0
    (.ok [answered 7 []]) s' ∧ ∃ bs, ProfileBytes lateProfile bs ∧ Put 0x23 bs (fun _ _ => 9) s'.data.1 := by
  obtain ⟨s0, s', h1, h2, -⟩ := late_profile
  rcases C111_profile rfl storing_conforms storing_keeps (by simp [bootMessage]) h1 lateProfile_ok h2 with
    h | ⟨-, h⟩ | ⟨⟨rs, h, -, h3⟩, -⟩
  · simp at h
  · exact ⟨s0, s', h2, h⟩
  · cases h
    exact absurd ⟨rfl, rfl⟩ (h3 _ (List.mem_singleton.2 rfl))

/-- C111, the factory settings program without `-f`: likewise. -/
theorem C111_factory {config : Config} (hk : config.skip = false) {g : Gateway D} (hg : g.Conforms)
    {files : D → UInt8 → Nat → UInt8} (hkeep : g.Keeps files) {d : D} {boot : List LateEvent} {s0 s' : Net D} {tag rand : UInt8}
    (hboot : ∀ call, .net (.call call) ∉ boot) (h0 : (Net.start config d).runLate g boot = some s0)
    {args f : FactorySettingsFile} (ha : FactoryOk args f) {r : Except PyErr (List Command)}
    (h : Once (Net.ConnectSucceeds g tag) (Net.Executes g) (factoryCommand rand args false) s0 r s') :
    r = .ok [] ∨
    r = .ok [answered rand []] ∧ (∃ bs, bs.length = 56 ∧
      bytesToBits bs = fieldBits (SystemFile.factorySettings f).fields ∧ Put 1 bs (files d) (files s'.data)) ∨
    (∃ rs, r = .ok rs ∧ rs ≠ [] ∧ ∀ x ∈ rs, ¬ Clean x) ∧ files s'.data = files d := by
  obtain ⟨bs, k2, k3, k5⟩ := Prg.factory_request rand ha.1 ha.2
  obtain ⟨w1, w2⟩ := Cl.write_fits (rand := rand) (file := 1) k2 (by omega)
  rw [k5] at h
  rcases Cl.once_confirmed hk hg hkeep hboot h0 w1 w2 h with e | ⟨e1, e2⟩ | e
  · exact .inl e
  · refine .inr (.inl ⟨e1, bs, k2, k3, ?_⟩)
    rw [e2]
    exact Prg.put_write _ bs _
  · exact .inr (.inr e)

/-- In the run of `late_factory`: the call returns nothing. -/
example : ∃ s0 s', Once (Net.ConnectSucceeds storing 7) (Net.Executes storing)
    (factoryCommand 7 FactorySettingsFile.defaultArgs false) s0 (.ok []) s' ∧
    FactoryOk FactorySettingsFile.defaultArgs SystemFiles.defaultFactorySettings := by
  obtain ⟨s0, s', -, h2, -⟩ := late_factory
  exact ⟨s0, s', h2, by decide, by decide, by decide, by decide, by decide, by decide⟩

/-- C111, the PHY status program, when `connect` returned True: the call returned nothing, or one message with the first 45
bytes that file 9 had at the start, or only messages that say that the command was not executed. -/
theorem C111_phy {config : Config} (hk : config.skip = false) {g : Gateway D} (hg : g.Conforms)
    {files : D → UInt8 → Nat → UInt8} (hkeep : g.Keeps files) {d : D} {boot : List LateEvent} {s0 s' : Net D} {tag rand : UInt8}
    (hboot : ∀ call, .net (.call call) ∉ boot) (h0 : (Net.start config d).runLate g boot = some s0)
    {r : Except PyErr (List Command)}
    (h : Once (Net.ConnectSucceeds g tag) (Net.Executes g) (readPhyCommand rand) s0 r s') :
    r = .ok [] ∨
    (∃ data, data.length = 45 ∧ (∀ i, i < 45 → data[i]? = some (files d 9 i)) ∧ r = .ok [answered rand [(9, 0, data)]]) ∨
    ∃ rs, r = .ok rs ∧ rs ≠ [] ∧ ∀ x ∈ rs, ¬ Clean x := by
  rw [Prg.phy_request] at h
  rcases Cl.once_confirmed hk hg hkeep hboot h0 (by
    intro op hop
    rw [List.mem_singleton] at hop
    subst hop
    exact ⟨by decide, by decide⟩) (by simp [requestBytes, FileOp.bytes, encode]) h with e | ⟨e1, -⟩ | ⟨e, -⟩
  · exact .inl e
  · refine .inr (.inl ⟨(List.range 45).map fun i => files d 9 (0 + i), by simp, ?_, e1⟩)
    intro i hi'
    rw [List.getElem?_map, List.getElem?_range hi']
    simp
  · exact .inr (.inr e)

/-- In the run of `late_phy`. -/
example : ∃ s0 s', Once (Net.ConnectSucceeds storing 7) (Net.Executes storing) (readPhyCommand 7) s0
    (.ok [answered 7 [(9, 0, List.replicate 45 9)]]) s' := by
  obtain ⟨s0, s', -, h2, -⟩ := late_phy
  exact ⟨s0, s', h2⟩

/-- C111, the engineering mode program without `-f`, when `connect` returned True: if its loop ends because a command was
confirmed, then the device holds the settings, in every interleaving and with any tags: a confirmation can be that of an
earlier one of its calls, which was given up, but not that of anything else. -/
theorem C111_engineering {config : Config} (hk : config.skip = false) {g : Gateway D} (hg : g.Conforms)
    {files : D → UInt8 → Nat → UInt8} (hkeep : g.Keeps files) {d : D} {boot : List LateEvent} {s0 s' : Net D} {tag rand : UInt8}
    (hboot : ∀ call, .net (.call call) ∉ boot) (h0 : (Net.start config d).runLate g boot = some s0)
    {a : EngineeringArgs} (ha : a.forward = false) {n : Nat}
    (h : EngineeringProgram (Net.ConnectSucceeds g tag) (Net.Executes g) rand a s0 n none s') :
    EngineeringPut a (files d) (files s'.data) := by
  cases h with
  | loop s1 _ c _ _ h1 h2 h3 =>
    obtain ⟨fb, eb, rfl, w1, w2, w3, w4⟩ := Cl.engineering_made ha h2
    rw [Cl.repeat_confirmed hk hg hkeep hboot h0 h1.2 w1 w2 w3 h3]
    exact w4 _

/-- In the run of `late_engineering`, in which the answer to the first call confirms the second one. -/
example : ∃ s0 s', EngineeringProgram (Net.ConnectSucceeds storing 7) (Net.Executes storing) 7 lateEngineering s0 2 none s' ∧
    EngineeringPut lateEngineering (fun _ _ => 9) s'.data.1 := by
  obtain ⟨s0, s', h1, h2, -⟩ := late_engineering
  exact ⟨s0, s', h2, C111_engineering rfl storing_conforms storing_keeps (by simp [bootMessage]) h1 rfl h2⟩

/-- C111: once the reading thread has ended (the callback of the program ends it by `sys.exit` when it gets a completed
message that no call waits for), the loop of the engineering mode program never ends, whatever the device does: there is no
finite run of it. -/
theorem C111_endless {config : Config} (hk : config.skip = false) {g : Gateway D} (hg : g.Conforms) {d : D}
    {before : List LateEvent} {s : Net D} (hp : ∀ e ∈ before, Tagged e)
    (h0 : (Net.start config d).runLate g before = some s) (hd : s.modem.reader.isDead = true) {rand : UInt8}
    {a : EngineeringArgs} (ha : a.forward = false) {c : Command} (hc : engineeringCommand rand a = .ok c) (n : Nat)
    (r : Option PyErr) (s' : Net D) : ¬ Repeat (fun s r s' => Net.Executes g s c r s') s n r s' := by
  obtain ⟨fb, eb, rfl, w1, w2, -, -⟩ := Cl.engineering_made ha hc
  intro h
  have step : ∀ {before : List LateEvent} {s s1 : Net D} {r1 : Except PyErr (List Command)}, (∀ e ∈ before, Tagged e) →
      (Net.start config d).runLate g before = some s → s.modem.reader.isDead = true →
      Net.Executes g s (request rand (Cl.engineeringOps a fb eb)) r1 s1 →
      r1 = .ok [] ∧ s1.modem.reader.isDead = true ∧ ∃ es, (∀ e ∈ before ++ es, Tagged e) ∧
        (Net.start config d).runLate g (before ++ es) = some s1 := by
    intro before s s1 r1 hp h0 hd h
    obtain ⟨es, o, h1, h2, h3, h4⟩ := h
    rw [Rt.dead_call hk hg hp h0 hd (by rw [Upl.request_sendable w1 w2]; simp) h1 h2 h3] at h4
    obtain ⟨evs, a1, -⟩ := Lt.late_modem h2
    refine ⟨h4, (C55_dead_forever hd a1).1, _, ?_, Lt.runLate_append h0 h2⟩
    intro e he
    rcases List.mem_append.1 he with he | he
    · exact hp e he
    · exact Rt.tagged_call (Upl.request_taggable _ _) h1 e he
  induction h generalizing before with
  | raised s s' e h => exact absurd (step hp h0 hd h).1 (by simp)
  | done s s' as h h' =>
    have := (step hp h0 hd h).1
    injection this with this
    subst this
    cases h'
  | broken s s' as e h h' =>
    have := (step hp h0 hd h).1
    injection this with this
    subst this
    cases h'
  | again s s1 s' as n r h _ _ ih =>
    obtain ⟨-, hd1, es, hp1, h01⟩ := step hp h0 hd h
    exact ih hp1 h01 hd1

/-- After the run `updateBroken`, in which the answer to a command of another program has ended the reading thread. -/
example : ∃ s : Net ((UInt8 → Nat → UInt8) × List Bool), ∃ c,
    (Net.start updateConfig (fun _ _ => 9, [])).runLate storing updateBroken = some s ∧
    engineeringCommand 7 lateEngineering = .ok c ∧ ∀ n r s', ¬ Repeat (fun s r s' => Net.Executes storing s c r s') s n r s' := by
  have hc : engineeringCommand 7 lateEngineering =
      .ok ((engineeringCommand 7 lateEngineering).toOption.getD (question 0)) := by decide +kernel
  have key : ((Net.start updateConfig (fun _ _ => 9, [])).runLate storing updateBroken).map (fun s =>
      s.modem.reader.isDead) = some true := by decide +kernel
  obtain ⟨s, h1, h2⟩ := Option.map_eq_some_iff.1 key
  have hp : ∀ e ∈ updateBroken, Tagged e := by
    intro e he
    have : (∃ tag ops, e = .net (.call (.execute (request tag ops) 10))) ∨ Tagged e := by
      simp only [updateBroken, updateConnect, prompt, updateSlow, exitLate, List.replicate, List.cons_append,
        List.nil_append, List.mem_cons, List.not_mem_nil, or_false] at he
      casesm* _ ∨ _
      all_goals subst e
      all_goals first
        | exact .inl ⟨_, _, rfl⟩
        | exact .inr trivial
    rcases this with ⟨tag, ops, rfl⟩ | h
    · exact ⟨_, Upl.request_taggable tag ops⟩
    · exact h
  exact ⟨s, _, h1, hc, C111_endless rfl storing_conforms hp h1 h2 rfl hc⟩

/-- The answer to the call that was given up comes while the next call starts, when no tag is set; the callback of the program
raises. The call is given up too. -/
def lateExit : List LateEvent :=
  List.replicate 2 (.net .main) ++ [.net (.send 1), .net (.read 9), .net .reader, .net .reader, .callbackRaises] ++
    List.replicate 3 (.net .main) ++ [.timeout, .net .take]

set_option maxRecDepth 20000 in
/-- C111, that the loop ends when the device has done what it was asked and has said so is not true: the first call is given
up, the device does the command, and the answer comes while the second call starts, after `execute_command` has forgotten the
tag of the first call and before it has set that of the second (modem.py 153-157). So the callback gets it and ends the reading
thread. The device holds the settings, but the program goes on for ever. -/
theorem C111_ends_refuted : ∃ s0 s s1 s2 c,
    (Net.start updateConfig (fun _ _ => 9, [true])).runLate storing bootMessage = some s0 ∧
    Net.Connected storing 7 s0 s ∧ engineeringCommand 7 lateEngineering = .ok c ∧
    Net.Executes storing s c (.ok []) s1 ∧ Net.Executes storing s1 c (.ok []) s2 ∧
    EngineeringPut lateEngineering (fun _ _ => 9) s2.data.1 ∧
    (∀ n r s', ¬ Repeat (fun s r s' => Net.Executes storing s c r s') s2 n r s') := by
  have hc : engineeringCommand 7 lateEngineering =
      .ok ((engineeringCommand 7 lateEngineering).toOption.getD (question 0)) := by decide +kernel
  have key : ((Net.start updateConfig (fun _ _ => 9, [true])).runLate storing bootMessage).bind (fun s0 =>
      (s0.runLate storing (.net (.call (.connect true 7)) :: noisyStart)).bind fun s =>
      (s.runLate storing (.net (.call (.execute ((engineeringCommand 7 lateEngineering).toOption.getD (question 0)) 10)) ::
        givenUp)).bind fun s1 =>
      (s1.runLate storing (.net (.call (.execute ((engineeringCommand 7 lateEngineering).toOption.getD (question 0)) 10)) ::
        lateExit)).map fun s2 =>
      decide (s.modem.outcomes = s0.modem.outcomes ++ [.bool true] ∧ s1.modem.outcomes = s.modem.outcomes ++ [.empty] ∧
        s2.modem.outcomes = s1.modem.outcomes ++ [.empty] ∧ s2.modem.reader.isDead = true ∧ s2.data.1 5 0 = 4)) =
      some true := by
    decide +kernel
  obtain ⟨s0, a1, a2⟩ := Option.bind_eq_some_iff.1 key
  obtain ⟨s, a3, a4⟩ := Option.bind_eq_some_iff.1 a2
  obtain ⟨s1, a5, a6⟩ := Option.bind_eq_some_iff.1 a4
  obtain ⟨s2, a7, a8⟩ := Option.map_eq_some_iff.1 a6
  obtain ⟨b1, b2, b3, b4, b5⟩ := of_decide_eq_true a8
  have hconn : Net.Connected storing 7 s0 s := ⟨noisyStart, by simp [noisyStart], a3, b1⟩
  have hcall1 : Net.Executes storing s ((engineeringCommand 7 lateEngineering).toOption.getD (question 0)) (.ok []) s1 :=
    ⟨givenUp, .empty, by simp [givenUp], a5, b2, rfl⟩
  have hcall2 : Net.Executes storing s1 ((engineeringCommand 7 lateEngineering).toOption.getD (question 0)) (.ok []) s2 :=
    ⟨lateExit, .empty, by simp [lateExit], a7, b3, rfl⟩
  obtain ⟨fb, eb, e, w1, w2, w3, w4⟩ := Cl.engineering_made rfl hc
  obtain ⟨before, c1, c2, c3⟩ := Cl.connect_run (by simp [bootMessage]) a1 (Cl.connected_ends hconn)
  have h1 := hcall1
  have h2 := hcall2
  rw [e] at h1 h2
  obtain ⟨es1, d1, d2, d3⟩ := Cl.called_run (Upl.request_taggable 7 _) h1
  obtain ⟨es2, f1, f2, f3⟩ := Cl.called_run (Upl.request_taggable 7 _) h2
  have hp : ∀ e ∈ before ++ es1 ++ es2, Tagged e := by
    intro e he
    simp only [List.mem_append] at he
    rcases he with (he | he) | he
    · exact c1 e he
    · exact d2 e he
    · exact f2 e he
  have hrun1 := Lt.runLate_append c2 d1
  have hrun := Lt.runLate_append hrun1 f1
  refine ⟨s0, s, s1, s2, _, a1, hconn, hc, hcall1, hcall2, ?_, C111_endless rfl storing_conforms hp hrun b4 rfl hc⟩
  rcases Cl.safe rfl storing_conforms storing_keeps (k := 2) w1 w2 w3 hp hrun
    (by rw [Lt.requested_append hrun1, Lt.requested_append c2, c3, d3, f3]; rfl) with k | ⟨-, k⟩
  · rw [k] at b5
    exact absurd b5 (by decide)
  · rw [k]
    exact w4 _

/-- `C111_endless` speaks of states in which calls still end: in the run of `C111_ends_refuted` two have ended. -/
example : ∃ s s1 : Net ((UInt8 → Nat → UInt8) × List Bool), ∃ c, engineeringCommand 7 lateEngineering = .ok c ∧
    Net.Executes storing s c (.ok []) s1 ∧ ∀ n r s', ¬ Repeat (fun s r s' => Net.Executes storing s c r s') s1 n r s' := by
  obtain ⟨s0, s, s1, s2, c, -, -, h1, -, h2, -, h3⟩ := C111_ends_refuted
  exact ⟨s1, s2, c, h1, h2, h3⟩

end Verif.Modem
