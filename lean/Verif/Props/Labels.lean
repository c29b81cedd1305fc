import Verif.Lemmas.Labels
import Verif.Props.Print

/-! C95: the printed texts show the values behind their labels. -/

namespace Verif.Labels

open Verif Print

/-! ### Words -/

/-- C95: a decimal number in a text stands for one number only. -/
theorem C95_decimal {v v' : Int} {w : Text} (h : IsInt v w) (h' : IsInt v' w) : v = v' := int_unique h h'

example : IsInt (-120) "-120".toList ∧ ¬ IsInt (-121) "-120".toList :=
  ⟨isInt (-120), fun h => absurd (C95_decimal h (isInt (-120))) (by decide)⟩

/-- C95: and so does a hexadecimal number. -/
theorem C95_hexadecimal {v v' : Int} {w : Text} (hv : 0 ≤ v) (hv' : 0 ≤ v') (h : IsHex v w) (h' : IsHex v' w) :
    v = v' := hex_unique hv hv' h h'

example : IsHex 0xb57000009151d "0xb57000009151d".toList ∧ IsHex (2 ^ 63) "0x8000000000000000L".toList ∧
    ¬ IsHex (2 ^ 63) "0x8000000000000000".toList := by
  refine ⟨isHex 0xb57000009151d, isHex (2 ^ 63), ?_⟩
  rintro ⟨d, -, h⟩
  have := congrArg List.getLast? h
  rw [if_neg (by decide), List.getLast?_append] at this
  have e : "0x8000000000000000".toList.getLast? = some '0' := by decide +kernel
  rw [e] at this
  exact absurd (Option.some.inj this) (by decide)

/-- C95: a channel. LORA channels show the letter of LO_RATE channels. -/
theorem C95_channel (c : ChannelID) : OfChannelID c c.str := ofChannelID c

example : OfChannelID ⟨⟨.FEC_PN9, .NORMAL_RATE, .BAND_868⟩, 7⟩ "868NF007".toList := C95_channel _

/-! ### Statuses and operations -/

/-- C95: the text of a status shows every value behind its label. -/
theorem C95_status (s : Status) : ∃ t, status s = .ok t ∧ OfStatus s t := by
  obtain ⟨t, h⟩ := status_some s
  exact ⟨t, h, ofStatus h⟩

example : (status ⟨⟨⟨.PN9, .HI_RATE, .BAND_433⟩, 12⟩, 31, 32, 33, true, false, false, false, 4, 5, ⟨1, 2⟩,
      ⟨1, .UID, .int 77, .NONE⟩⟩).toOption =
    some ("unicast=False, nls=True, retry=False, missed=False, fifo_token=4, rx_level=31, seq_nr=5, "
      ++ "target_rx_level=33, addressee=ac=1, id_type=IdType.UID, id=77, response_to=exp=1 mant2, "
      ++ "link_budget=32, channel_id=433HP012").toList := by decide +kernel

/-- C95: the text of an operation shows its class and the values of its operand. The permissions in a file header
leave no trace. -/
theorem C95_operation_partial (e : Env) (o : Operation) : ∃ t, operation e o = .ok t ∧ OfOperation e o t := by
  obtain ⟨t, h⟩ := operation_some e o
  exact ⟨t, h, ofOperation h⟩

example : (operation env (.returnFileData ⟨⟨64, ⟨2⟩⟩, ⟨3⟩, [10, 0, 255]⟩)).toOption =
    some "ReturnFileData: file-id=64, offset=2, length=3, data=[10, 0, 255]".toList := by decide +kernel

/-! ### System files -/

/-- C95: the text of a system file shows its values behind their labels, with the exceptions below. -/
theorem C95_system_file_partial (e : Env) {f : SystemFile} (hp : Plain f) (h : Printable f) :
    ∃ t, systemFile e f = .ok t ∧ OfFile e f t := by
  obtain ⟨t, h⟩ := (systemFile_iff e f).2 h
  exact ⟨t, h, ofFile hp h⟩

example : (systemFile env (.vid ⟨0xABCD, 1⟩)).toOption = some "vid=0xabcd, control=0x1".toList ∧
    Plain (.vid ⟨0xABCD, 1⟩) ∧ Printable (.vid ⟨0xABCD, 1⟩) := ⟨by decide +kernel, ⟨by decide, by decide⟩, trivial⟩

/-- C95: the LoRa bandwidth stands behind the label of the spreading factor and the spreading factor behind that
of the bandwidth. -/
theorem C95_lora_refuted (e : Env) : ∃ f : FactorySettingsFile, f.loraSF = 9 ∧ f.loraBw = 125000 ∧
    ∃ t, systemFile e (.factorySettings f) = .ok t ∧ "lora sf set to 125000, bw to 9\n".toList <:+: t := by
  refine ⟨⟨0, 1, 2, 3, 4, 5, 6, 7, 8, 9, 10, 11, 12, 13, 14, 15, 16, 17, 18, 19, 20, 125000, 9, 21, 22⟩, rfl, rfl, _,
    factory_eq _, ?_⟩
  decide +kernel

example : "lora sf set to 9".toList ≠ "lora sf set to 125000".toList := by decide +kernel

set_option maxRecDepth 8000 in
/-- C95: two values of a DLL configuration are not shown, only their labels. -/
theorem C95_dll_config_refuted (e : Env) (f : DllConfigFile) (v w : Int) :
    systemFile e (.dllConfig { f with rxNfMethodParameter := v, txNfMethodParameter := w }) =
      systemFile e (.dllConfig f) := rfl

example : (systemFile env (.dllConfig ⟨0x01, 0, 2, 3, 4⟩)).toOption =
    some "active_access_class=1, lq_filter=0, nf_ctrl=2, rx_nf_method_parameter, tx_nf_method_parameter".toList := by
  decide +kernel

/-- C95: the permissions of a file are not shown either. -/
theorem C95_permissions_refuted (h : FileHeader) (p : FilePermissions) :
    fileHeader { h with permissions := p } = fileHeader h := rfl

example : (fileHeader ⟨⟨true, true, true, true, true, true, true, true⟩, ⟨false, .READ, .PERMANENT⟩, 1, 2, 3, 4⟩).toOption =
    some ("permissions=, properties=(act_enabled=False, act_condition=ActionCondition.READ, "
      ++ "storage_class=StorageClass.PERMANENT), alp_command_file_id=1, interface_file_id=2, file_size=3, "
      ++ "allocated_size=4").toList := by decide +kernel

/-! ### Actions and commands -/

/-- C95: the text of an action is that of the system file it carries, under the name of its class; if it carries
none, that of the operation. -/
theorem C95_action_partial (e : Env) (a : Action) : ∃ t, action e a = .ok t ∧ OfAction e a t := by
  obtain ⟨t, h⟩ := action_some e a
  exact ⟨t, h, ofAction h⟩

example : (action env (.regular false false (.returnFileData ⟨⟨6, ⟨0⟩⟩, ⟨3⟩, [0xAB, 0xCD, 1]⟩))).toOption =
    some "Received VidFile content: vid=0xabcd, control=0x1".toList := by decide +kernel

/-- C95: the text of a command shows the tag, the state of the execution, every action in the order of the command
and the interface status, each on its line. -/
theorem C95_command_partial {e : Env} {c : Command} {t : Text} (h : command e c = .ok t) : OfCommand e c t :=
  ofCommand h

example : (command env ((Command.empty 7).addAction (.regular false false (.readFileHeader ⟨3⟩)))).toOption =
    some "Command with tag 7 (executing)\n\tactions:\n\t\taction: ReadFileHeader: file-id=3\n".toList := by
  decide +kernel

/-- C95: the description of the actions is the list of their texts, without the commas and blanks at its ends. -/
theorem C95_describe_actions_partial (e : Env) (c : Command) : ∃ t full pre post,
    describeActions e c = .ok t ∧
    Each (fun a => Labelled [("", OfAction e a), (", ", Is "")]) c.actions full ∧
    full = pre ++ (t ++ post) ∧ (∀ x ∈ pre ++ post, x = ',' ∨ x = ' ') ∧
    ∀ x, t.head? = some x ∨ t.getLast? = some x → ¬ (x = ',' ∨ x = ' ') := by
  obtain ⟨full, h⟩ := described_some e c.actions
  obtain ⟨pre, post, h1, h2, h3⟩ := strip_spec full
  exact ⟨strip full, full, pre, post, by unfold describeActions; rw [h]; rfl, ofDescribed h, h1, h2, h3⟩

example : (describeActions env (((Command.empty 7).addAction (.regular false false .nop)).addAction
      (.regular true false (.readFileHeader ⟨3⟩)))).toOption =
    some "NoOperation: None, ReadFileHeader: file-id=3".toList := by decide +kernel

end Verif.Labels
