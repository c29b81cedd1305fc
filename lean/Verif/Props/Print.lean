import Verif.Lemmas.PrintSame

/-! C61 and C62: the texts of commands, actions, operations and system files. -/

namespace Verif.Print

open Verif

/-- Texts for the examples. -/
def env : Env := ⟨fun _ => "{}".toList, fun _ => [], fun _ => [], fun _ => [], fun _ => "q".toList⟩

/-! ### C61 -/

/-- C61: the system files that can be printed are those with ASCII names and complete channel lists. -/
theorem C61_system_file_iff (e : Env) (f : SystemFile) : (∃ t, systemFile e f = .ok t) ↔ Printable f :=
  systemFile_iff e f

example : ¬ Printable (.phyStatus ⟨1, 2, 3, 4, 2, [.default], [0]⟩) ∧
    (systemFile env (.phyStatus ⟨1, 2, 3, 4, 2, [.default], [0]⟩)).toOption = Option.none := by
  refine ⟨?_, ?_⟩
  · unfold Printable; decide
  · decide +kernel

/-- C61: whatever the parser of a system file returns can be printed. -/
theorem C61_system_file_parsed (e : Env) {t f : SystemFile} {s s' : St} (h : t.parse s = .ok f s') :
    ∃ x, systemFile e f = .ok x := (systemFile_iff e f).2 (file_parsed h)

example : (SystemFile.vid ⟨0, 0⟩).parse (stream [0xAB, 0xCD, 1]) = .ok (.vid ⟨0xABCD, 1⟩) ⟨24, []⟩ := rfl

/-- C61: a PHY status that the constructor accepts can be printed. -/
theorem C61_phy_status (e : Env) {a b c d n : Int} {ids : List ChannelStatusIdentifier} {floors : List Int}
    {f : PhyStatusFile} (h : PhyStatusFile.new a b c d n ids floors = .ok f) :
    ∃ x, systemFile e (.phyStatus f) = .ok x := (systemFile_iff e _).2 (phy_new h)

example : PhyStatusFile.new 1 2 3 4 1 [] [] = .ok ⟨1, 2, 3, 4, 1, [.default], [0]⟩ ∧
    (systemFile env (.phyStatus ⟨1, 2, 3, 4, 1, [.default], [0]⟩)).toOption =
      some ("up_time=1, rx_time=2, tx_time=3, tx_duty_cycle=4, channel_status_list_length=1, ".toList ++
        "list=[identifier=channel_band=OT_IMPL, channel_bandwidth=kHz25, channel_index=0, noise_floor=0]".toList) := by
  refine ⟨rfl, ?_⟩
  decide +kernel

/-- C61: refuted for firmware versions that a caller makes: a name that is not ASCII is accepted, and printing
it raises. -/
theorem C61_firmware_refuted : ∃ f, FirmwareVersionFile.new 1 1 1 1 [233] [97] = .ok f ∧
    ∀ e, systemFile e (.firmwareVersion f) = .error .valueError :=
  ⟨⟨1, 1, 1, 1, [233], [97]⟩, rfl, fun _ => rfl⟩

/-- C61: every operation can be printed. -/
theorem C61_operation (e : Env) (o : Operation) : ∃ t, operation e o = .ok t := operation_some e o

example : (operation env (.readFileData ⟨⟨1, ⟨2⟩⟩, ⟨3⟩⟩)).toOption =
    some "ReadFileData: file-id=1, offset=2, length=3".toList := by decide +kernel

/-- C61: every action can be printed, whatever the file data it carries. -/
theorem C61_action (e : Env) (a : Action) : ∃ t, action e a = .ok t := action_some e a

example : (action env (.regular false false (.returnFileData ⟨⟨0, ⟨0⟩⟩, ⟨8⟩, [1, 2, 3, 4, 5, 6, 7, 8]⟩))).toOption =
    some "Received UidFile content: uid=0x102030405060708".toList := by decide +kernel

example : (action env (.regular false false (.returnFileData ⟨⟨64, ⟨0⟩⟩, ⟨2⟩, [1, 2]⟩))).toOption =
    some "ReturnFileData: file-id=64, offset=0, length=2, data=[1, 2]".toList := by decide +kernel

/-- C61: a command can be printed unless it is marked as completed without saying whether there was an error. -/
theorem C61_command_iff (e : Env) (c : Command) : (∃ t, command e c = .ok t) ↔
    (c.executionCompleted = true → c.completedWithError ≠ Option.none) := command_some e c

/-- No constructor makes such a command. -/
example : (command env ⟨[], Option.none, false, some 5, true, true, Option.none⟩).toOption = Option.none := by
  decide +kernel

/-- C61: a command that the constructor accepts can be printed. -/
theorem C61_command (e : Env) {l : List (Option Action)} {g : Bool} {tag : Option Int} {s : Bool} {r : UInt8}
    {c : Command} (h : Command.new l g tag s r = .ok c) : ∃ t, command e c = .ok t :=
  (command_some e c).2 (new_state h)

example : ∃ c, Command.new [some (.tagResponse true false (.tagResponse ⟨5⟩)),
      some (.regular false false (.readFileHeader ⟨3⟩))] false Option.none true 0 = .ok c ∧
    (command env c).toOption = some ("Command with tag 5 (completed, without error)\n\tactions:\n".toList ++
      "\t\taction: ReadFileHeader: file-id=3\n".toList) := by
  refine ⟨_, rfl, ?_⟩
  decide +kernel

/-- C61: a parsed command can be printed. -/
theorem C61_command_parsed (e : Env) {n : Int} {s s' : St} {c : Command} (h : AlpParser.parse n s = .ok c s') :
    ∃ t, command e c = .ok t := by
  unfold AlpParser.parse at h
  simp only [P.bind_ok, P.lift_ok] at h
  obtain ⟨_, _, _, h, _⟩ := h
  exact C61_command e h

example : (match AlpParser.parse 2 (stream [0xA3, 7]) with
    | .ok c _ => (command env c).toOption
    | .err _ _ => Option.none) = some "Command with tag 7 (completed, without error)".toList := by decide +kernel

/-- C61: adding an action to a command that can be printed gives one that can be printed. -/
theorem C61_command_add_action (e : Env) {c : Command} (h : ∃ t, command e c = .ok t) (a : Action) :
    ∃ t, command e (c.addAction a) = .ok t :=
  (command_some e _).2 ((command_some e c).1 h)

example : (command env ((Command.empty 7).addAction (.regular false false .nop))).toOption =
    some "Command with tag 7 (executing)\n\tactions:\n\t\taction: NoOperation: None\n".toList := by
  decide +kernel

/-- C61: `describe_actions` never raises. -/
theorem C61_describe_actions (e : Env) (c : Command) : ∃ t, describeActions e c = .ok t := by
  obtain ⟨t, h⟩ := described_some e c.actions
  exact ⟨strip t, by unfold describeActions; rw [h]; rfl⟩

example : (describeActions env (((Command.empty 7).addAction (.regular false false .nop)).addAction
      (.regular true false (.readFileHeader ⟨3⟩)))).toOption =
    some "NoOperation: None, ReadFileHeader: file-id=3".toList := by decide +kernel

/-! ### C62 -/

/-- C62: compressed times, sub bands and channel status identifiers with the same text are equal. -/
theorem C62_ct {a b : CT} (h : ct a = ct b) : a = b :=
  (ct_append (ct_eq a) (h.symm.trans (ct_eq a)) (r := []) (r' := []) (by stops) (by stops) rfl).1

example : ct ⟨1, 23⟩ ≠ ct ⟨12, 3⟩ := fun h => absurd (C62_ct h) (by decide)

theorem C62_sub_band {a b : SubBand} (h : subBand a = subBand b) : a = b :=
  (subBand_append (subBand_eq a) (h.symm.trans (subBand_eq a)) (r := []) (r' := []) (by stops) (by stops) rfl).1

example : subBand ⟨1, 2, 3, 4, 5⟩ ≠ subBand ⟨12, 3, 4, 5, 5⟩ := fun h => absurd (C62_sub_band h) (by decide)

theorem C62_channel_status_identifier {a b : ChannelStatusIdentifier}
    (h : channelStatusIdentifier a = channelStatusIdentifier b) : a = b :=
  (channelStatus_append (channelStatus_eq a) (h.symm.trans (channelStatus_eq a)) (r := []) (r' := [])
    (by stops) (by stops) rfl).1

example : ct ⟨1, 23⟩ ≠ ct ⟨12, 3⟩ ∧ subBand ⟨1, 2, 3, 4, 5⟩ ≠ subBand ⟨12, 3, 4, 5, 5⟩ ∧
    channelStatusIdentifier ⟨.BAND_433, .kHz25, 0⟩ ≠ channelStatusIdentifier ⟨.BAND_433, .kHz200, 0⟩ :=
  ⟨fun h => absurd (C62_ct h) (by decide), fun h => absurd (C62_sub_band h) (by decide),
   fun h => absurd (C62_channel_status_identifier h) (by decide)⟩

/-- C62: addressees have the same text exactly if they agree in all but the NLS method. -/
theorem C62_addressee_iff_partial (a b : Addressee) : addressee a = addressee b ↔ SameAddressee a b := by
  refine ⟨fun h => ?_, addressee_congr⟩
  obtain ⟨t, ht⟩ := addressee_some a
  exact addressee_same ht (h.symm.trans ht)

example : addressee ⟨1, .UID, .int 0, .NONE⟩ ≠ addressee ⟨1, .VID, .int 0, .NONE⟩ := fun h =>
  absurd ((C62_addressee_iff_partial _ _).1 h) (by unfold SameAddressee; decide)

/-- C62: D7A session statuses have the same text exactly if they agree in all but the NLS method of the
addressee and channels with the same text. -/
theorem C62_status_iff_partial (a b : Status) : status a = status b ↔ SameStatus a b := by
  refine ⟨fun h => ?_, status_congr⟩
  obtain ⟨t, ht⟩ := status_some a
  exact status_same ht (h.symm.trans ht)

example (i : ChannelID) : ¬ SameStatus ⟨i, 1, 2, 3, true, false, false, true, 4, 5, ⟨1, 2⟩, .default⟩
    ⟨i, 1, 2, 3, true, false, true, false, 4, 5, ⟨1, 2⟩, .default⟩ := by
  unfold SameStatus; simp

/-- C62: two operations have the same text exactly if they are of the same class and their operands agree, up
to the permissions of a file header, the NLS method of an addressee, channels with the same text, and what the
text of a configuration or query hides. -/
theorem C62_operation_iff_partial (e : Env) (o o' : Operation) :
    operation e o = operation e o' ↔ SameOperation e o o' := by
  constructor
  · intro h
    obtain ⟨t, ht⟩ := operation_some e o
    exact operation_same ht (h.symm.trans ht)
  · intro h
    obtain ⟨h1, h2⟩ := operand_congr h
    unfold operation
    rw [h1, h2]

example : ¬ SameOperation env (.readFileData ⟨⟨1, ⟨2⟩⟩, ⟨3⟩⟩) (.readFileData ⟨⟨1, ⟨23⟩⟩, ⟨3⟩⟩) := by
  unfold SameOperation; decide

/-- C62: two system files of the kind that parsing returns have the same class name and text exactly if they
agree, up to channels with the same text, the last two fields of a DLL configuration, and what the text of an
access profile or interface configuration hides. -/
theorem C62_system_file_iff_partial (e : Env) {f g : SystemFile} (hf : Plain f) (hg : Plain g)
    (pf : Printable f) :
    (fileClassName f = fileClassName g ∧ systemFile e f = systemFile e g) ↔ SameFile e f g := by
  constructor
  · rintro ⟨h1, h2⟩
    obtain ⟨t, ht⟩ := (systemFile_iff e f).2 pf
    exact systemFile_same (fileClassName_same h1) hf hg ht (h2.symm.trans ht)
  · exact systemFile_congr

example : Plain (.vid ⟨1, 2⟩) ∧ Printable (.vid ⟨1, 2⟩) ∧ ¬ SameFile env (.vid ⟨1, 2⟩) (.vid ⟨12, 0⟩) := by
  unfold Plain Printable SameFile; decide

/-- C62: parsing returns files of that kind. -/
theorem C62_system_file_parsed {t f : SystemFile} {s s' : St} (h : t.parse s = .ok f s') :
    Plain f ∧ Printable f ∧ fileClassName f = fileClassName t :=
  ⟨plain_parsed h, file_parsed h, (class_parsed h).symm⟩

example : Plain (.firmwareVersion ⟨1, 2, 3, 4, [97, 112, 112], [49, 50]⟩) ∧
    Printable (.firmwareVersion ⟨1, 2, 3, 4, [97, 112, 112], [49, 50]⟩) ∧
    Plain (.phyStatus ⟨1, 2, 3, 4, 1, [.default], [0]⟩) := by
  unfold Plain Printable; decide

/-- C62: two actions other than status actions with the same text have operations that agree in the sense of
`SameOperation`, or both return data of system files with contents that agree in the sense of `SameFile`. -/
theorem C62_action_partial (e : Env) {a b : Action} (ha : ∀ x o, a ≠ .status x o) (hb : ∀ x o, b ≠ .status x o)
    (h : action e a = action e b) : SameOperation e a.operation b.operation ∨
      ∃ d d' r r' f g, a.operation = .returnFileData d ∧ b.operation = .returnFileData d' ∧
        ReturnFileData.new d = .ok r ∧ ReturnFileData.new d' = .ok r' ∧
        r.fileDataParsed = some f ∧ r'.fileDataParsed = some g ∧ SameFile e f g := by
  have key : ∀ {a : Action}, (∀ x o, a ≠ .status x o) → action e a = plainAction e a.operation := by
    intro a ha
    cases a
    case status x o => exact absurd rfl (ha x o)
    all_goals rfl
  rw [key ha, key hb] at h
  obtain ⟨t, ht⟩ := plainAction_some e a.operation
  exact plainAction_same ht (h.symm.trans ht)

example : ∃ a b : Action, (∀ x o, a ≠ .status x o) ∧ (∀ x o, b ≠ .status x o) ∧ a ≠ b ∧
    action env a = action env b :=
  ⟨.regular false false .nop, .regular false true .nop, fun _ _ => nofun, fun _ _ => nofun, by decide, rfl⟩

/-- C62: two interface status actions with the same text have the same interface and the same status, up to the
NLS method of the addressee and channels with the same text. -/
theorem C62_status_action_partial (e : Env) (x y : Int) (o o' : InterfaceStatusOperand)
    (h : action e (.status x (.interfaceStatus o)) = action e (.status y (.interfaceStatus o'))) :
    o.interfaceId = o'.interfaceId ∧ SameOption SameStatus o.status o'.status := by
  obtain ⟨t, ht⟩ := operand_some e (.interfaceStatus o)
  obtain ⟨t', ht'⟩ := operand_some e (.interfaceStatus o')
  have e1 : ∀ t : Text, format "{}".toList [t] = .ok (t ++ []) := fun _ => rfl
  unfold action at h
  simp only [ht, ht', e1, bind, Except.bind, List.append_nil, Except.ok.injEq] at h
  subst h
  exact operand_same (o := .interfaceStatus o) (o' := .interfaceStatus o') rfl ht ht'

example : action env (.status 1 (.interfaceStatus ⟨0, Option.none⟩)) =
    action env (.status 1 (.interfaceStatus ⟨0, Option.none⟩)) := rfl

/-- C62: two commands with the same text have the same tag, the same state of execution, and actions and an
interface status with the same texts, in the same order. The texts of dictionaries must not contain tabs. -/
theorem C62_command_partial {e : Env} (he : e.NoTabs) {c c' : Command} (hc : ∃ t, command e c = .ok t)
    (h : command e c = command e c') :
    c.tagId = c'.tagId ∧ c.executionCompleted = c'.executionCompleted ∧
      (c.executionCompleted = true → c.completedWithError = c'.completedWithError) ∧
      c.actions.mapM (action e) = c'.actions.mapM (action e) ∧
      c.interfaceStatus.mapM (action e) = c'.interfaceStatus.mapM (action e) := by
  obtain ⟨t, ht⟩ := hc
  exact command_injective he ht (h.symm.trans ht)

example : env.NoTabs := by
  constructor <;> intro _ <;> simp [env]

example : ∃ t, command env ((Command.empty 7).addAction (.regular false false .nop)) = .ok t := ⟨_, rfl⟩

/-- C62: refuted, because the permissions of a file header are not printed, -/
theorem C62_permissions_refuted (e : Env) : ∃ o o' : Operation, o ≠ o' ∧ operation e o = operation e o' :=
  ⟨.writeFileHeader ⟨64, ⟨⟨true, true, true, true, true, true, true, true⟩, ⟨false, .READ, .VOLATILE⟩, 1, 2, 3, 4⟩⟩,
   .writeFileHeader ⟨64, ⟨⟨false, false, false, false, false, false, false, false⟩, ⟨false, .READ, .VOLATILE⟩,
     1, 2, 3, 4⟩⟩, by decide, rfl⟩

/-- nor the NLS method of an addressee, -/
theorem C62_nls_refuted : ∃ a b : Addressee, a.Built ∧ b.Built ∧ a ≠ b ∧ addressee a = addressee b :=
  ⟨⟨1, .NOID, .none, .NONE⟩, ⟨1, .NOID, .none, .AES_CTR⟩, ⟨rfl, nofun⟩, ⟨rfl, nofun⟩, by decide, rfl⟩

/-- nor the parameters of the noise floor methods in a DLL configuration, -/
theorem C62_dll_config_refuted (e : Env) : ∃ f g : DllConfigFile, f ≠ g ∧
    systemFile e (.dllConfig f) = systemFile e (.dllConfig g) :=
  ⟨⟨1, 2, 3, 4, 5⟩, ⟨1, 2, 3, 6, 7⟩, by decide, rfl⟩

/-- nor the class of a key file, -/
theorem C62_keys_refuted (e : Env) (k : Int) : systemFile e (.rootKey ⟨k⟩) = systemFile e (.userKey ⟨k⟩) ∧
    systemFile e (.rootKey ⟨k⟩) = systemFile e (.securityKey ⟨k⟩) := ⟨rfl, rfl⟩

/-- nor the flags of an action. -/
theorem C62_flags_refuted (e : Env) (o : Operation) (g r g' r' : Bool) :
    action e (.regular g r o) = action e (.regular g' r' o) := rfl

end Verif.Print
