import Verif.Lemmas.Tables6

/-! C63–C66: the bit tables of everything that is written and read. -/

namespace Verif

open AlpParser

/-! ## C63 what is written -/

/-- C63: whenever an accepted system file serialises, the bytes are those of its table. -/
theorem C63_system_file (f : SystemFile) (h : f.Built) (bs : List UInt8) (e : bytearray f.iter = .ok bs) :
    bytesToBits bs = fieldBits f.fields ∧ ∀ x ∈ f.fields, x.2 < 2 ^ x.1 := by
  obtain ⟨bs', e', l, w⟩ := SystemFile.layout h e
  rw [e] at e'
  cases e'
  exact ⟨l, w⟩

/-- A DLL configuration: two unused bytes after the access class. -/
example : SystemFile.Built (.dllConfig ⟨0x21, 1, 2, 3, 4⟩) ∧
    bytearray (SystemFile.dllConfig ⟨0x21, 1, 2, 3, 4⟩).iter = .ok [0x21, 0, 0, 1, 2, 3, 4] ∧
    (SystemFile.dllConfig ⟨0x21, 1, 2, 3, 4⟩).fields =
      [(8, 0x21), (16, 0), (8, 1), (8, 2), (8, 3), (8, 4)] :=
  ⟨validate_of (by decide), by decide, by decide⟩

/-- C63: whenever an accepted action serialises, the bytes are its two flags, the operation code and the
operand. -/
theorem C63_action (a : Action) (h : a.Built) (bs : List UInt8) (e : bytearray a.iter = .ok bs) :
    bytesToBits bs = fieldBits a.fields ∧ ∀ x ∈ a.fields, x.2 < 2 ^ x.1 := by
  obtain ⟨bs', e', l, w⟩ := Action.layout h e
  rw [e] at e'
  cases e'
  exact ⟨l, w⟩

/-- Reading four bytes of file 0x40, with the response flag. -/
example : Action.Built (.regular false true (.readFileData ⟨⟨0x40, ⟨0⟩⟩, ⟨4⟩⟩)) ∧
    bytearray (Action.regular false true (.readFileData ⟨⟨0x40, ⟨0⟩⟩, ⟨4⟩⟩)).iter = .ok [0x41, 0x40, 0, 4] ∧
    (Action.regular false true (.readFileData ⟨⟨0x40, ⟨0⟩⟩, ⟨4⟩⟩)).fields =
      [(1, 0), (1, 1), (6, 1), (8, 0x40), (2, 0), (6, 0), (2, 0), (6, 4)] :=
  ⟨⟨show DataRequest.Built _ by decide, trivial⟩, by decide, by decide⟩

/-- C63: an access profile. -/
theorem C63_access_profile (p : AccessProfile) (h : p.Built) : HasLayout p.iter p.table.fields :=
  AccessProfile.layout (AccessProfile.built_iff.1 h)

example : AccessProfile.new ⟨.PN9, .LO_RATE, .BAND_868⟩ (List.replicate 4 ⟨0xFF, ⟨3, 12⟩⟩) [.default] =
    .ok ⟨⟨.PN9, .LO_RATE, .BAND_868⟩, List.replicate 4 ⟨0xFF, ⟨3, 12⟩⟩, [.default]⟩ := by decide

/-- C63: a sub profile. -/
theorem C63_sub_profile (p : SubProfile) (h : p.Built) : HasLayout p.iter p.table.fields :=
  SubProfile.layout (SubProfile.built_iff.1 h)

example : SubProfile.Built ⟨0xF1, ⟨3, 12⟩⟩ ∧ bytearray (SubProfile.iter ⟨0xF1, ⟨3, 12⟩⟩) = .ok [0xF1, 0x6C] :=
  ⟨⟨validate_of (by decide), by decide⟩, by decide⟩

/-! ## C64 what is read -/

/-- C64: the parsers of the physical layer. -/
theorem C64_phy :
    Decodes CT.parse (fun x t => x.Built ∧ t = x.table) ∧
    Decodes ChannelHeader.parse (fun x t => t = x.table) ∧
    Decodes ChannelID.parse (fun x t => x.Built ∧ t = x.table) ∧
    Decodes ChannelStatusIdentifier.parse (fun x t => x.Built ∧ t = x.table) ∧
    Decodes SubBand.parse (fun x t => x.Built ∧ t = x.table) :=
  ⟨CT.decodes, ChannelHeader.decodes, ChannelID.decodes, ChannelStatusIdentifier.decodes, SubBand.decodes⟩

example : CT.parse (stream [0x6C]) = .ok ⟨3, 12⟩ ⟨8, []⟩ ∧
    ChannelID.parse (stream [0xB2, 1, 14]) = .ok ⟨⟨.FEC_PN9, .LO_RATE, .BAND_868⟩, 270⟩ ⟨24, []⟩ := by decide +kernel

/-- C64: the parsers of file headers. -/
theorem C64_file_header :
    Decodes FilePermissions.parse (fun x t => t = x.table) ∧
    Decodes FileProperties.parse (fun x t => t = x.table) ∧
    Decodes FileHeader.parse (fun x t => x.Built ∧ t = x.table) ∧
    Decodes FileHeaderOperand.parse (fun x t => x.Built ∧ t = x.table) :=
  ⟨FilePermissions.decodes, FileProperties.decodes, FileHeader.decodes, FileHeaderOperand.decodes⟩

example : FilePermissions.parse (stream [0xC1]) =
    .ok ⟨true, true, false, false, false, false, false, true⟩ ⟨8, []⟩ := by decide

/-- C64: the parsers of the session and network layer. -/
theorem C64_session :
    Decodes QoS.parse (fun x t => t = x.table) ∧
    Decodes Addressee.parse (fun x t => x.Built ∧ x.Tables t) ∧
    Decodes Configuration.parse (fun x t => x.Built ∧ x.Tables t) ∧
    Decodes Status.parse (fun x t => x.Built ∧ x.Tables t) :=
  ⟨QoS.decodes, Addressee.decodes, Configuration.decodes, Status.decodes⟩

example : Addressee.parse (stream [0x10, 0x21]) = .ok ⟨0x21, .NOID, .none, .NONE⟩ ⟨16, []⟩ := by decide +kernel

/-- C64: the parsers of ALP operands. -/
theorem C64_operands :
    Decodes Length.parse (fun x t => x.Built ∧ x.Tables t) ∧
    Decodes Offset.parse (fun x t => x.Built ∧ x.Tables t) ∧
    Decodes parseFileDataRequestOperand (fun x t => x.Built ∧ x.Tables t) ∧
    Decodes parseReturnFileDataOperand (fun x t => x.Built ∧ x.Tables t) ∧
    Decodes QueryOperand.parse (fun x t => x.Built ∧ x.Tables t) ∧
    Decodes LoRaWANABP.parse (fun x t => t = x.table) ∧
    Decodes LoRaWANOTAA.parse (fun x t => t = x.table) :=
  ⟨Length.decodes, Offset.decodes, parseFileDataRequestOperand_decodes, parseReturnFileDataOperand_decodes,
    QueryOperand.decodes, LoRaWANABP.decodes, LoRaWANOTAA.decodes⟩

example : parseReturnFileDataOperand (stream [0x40, 0, 2, 7, 8]) = .ok ⟨⟨0x40, ⟨0⟩⟩, ⟨2⟩, [7, 8]⟩ ⟨40, []⟩ := by
  decide +kernel

/-- C64: the parsers of system files. The RSSI smoothing of factory settings is stored as a logarithm; an
access profile is read as number 0; engineering mode leaves its last two bytes unread. -/
theorem C64_system_files :
    Decodes SubProfile.parse (fun x t => x.Built ∧ t = x.table) ∧
    Decodes AccessProfile.parse (fun x t => x.Built ∧ x.subBands.length = 8 ∧ t = x.table) ∧
    Decodes AccessProfileFile.parse (fun x t => x.accessSpecifier = 0 ∧ ∃ p, x.accessProfile = some p ∧
      p.Built ∧ p.subBands.length = 8 ∧ t = p.table) ∧
    Decodes UidFile.parse (fun x t => x.Built ∧ t = x.table) ∧
    Decodes VidFile.parse (fun x t => x.Built ∧ t = x.table) ∧
    Decodes FirmwareVersionFile.parse (fun x t => x.Built ∧ x.applicationName.length = 6 ∧
      x.gitSha1.length = 7 ∧ Ascii x.applicationName ∧ Ascii x.gitSha1 ∧ t = x.table) ∧
    Decodes EngineeringModeFile.parse (fun x t => x.Built ∧ t = x.table) ∧
    Decodes DllConfigFile.parse (fun x t => x.Built ∧ t = x.table) ∧
    Decodes DllStatusFile.parse (fun x t => x.Built ∧ t = x.table) ∧
    Decodes PhyStatusFile.parse (fun x t => x.Built ∧
      x.channelStatusIdentifier.length = x.channelStatusListLength ∧
      x.channelNoiseFloor.length = x.channelStatusListLength ∧ t = x.table) ∧
    Decodes FactorySettingsFile.parse (fun x t => x.Built ∧ ∃ s : Nat, 0 < s ∧
      x.rssiSmoothing = Nat.clog 2 s - 1 ∧ t = x.table s) :=
  ⟨SubProfile.decodes, AccessProfile.decodes, AccessProfileFile.decodes, UidFile.decodes, VidFile.decodes,
    FirmwareVersionFile.decodes, EngineeringModeFile.decodes, DllConfigFile.decodes, DllStatusFile.decodes,
    PhyStatusFile.decodes, FactorySettingsFile.decodes⟩

/-- A channel header with its unused bit set. -/
example : ChannelHeader.parse (stream [0xB2]) = .ok ⟨.FEC_PN9, .LO_RATE, .BAND_868⟩ ⟨8, []⟩ ∧
    Matches (ChannelHeader.table ⟨.FEC_PN9, .LO_RATE, .BAND_868⟩) (bytesToBits [0xB2]) :=
  ⟨rfl, [true], _, rfl, rfl, nofun, [false, true, true], _, rfl, rfl, by rintro _ ⟨⟩; rfl, [false, false], _, rfl,
    rfl, by rintro _ ⟨⟩; rfl, [true, false], [], rfl, rfl, by rintro _ ⟨⟩; rfl, rfl⟩

/-- C64: a length in more bytes than it needs is read as well. -/
theorem C64_long_length : Length.parse (stream [0x40, 5]) = .ok ⟨5⟩ ⟨16, []⟩ ∧
    Length.parse (stream [5]) = .ok ⟨5⟩ ⟨8, []⟩ := ⟨rfl, rfl⟩

/-! ## C65 the grammar of actions and commands -/

/-- C65: the action parser accepts exactly the action tables. -/
theorem C65_action : Decodes parseAlpAction ActionTables := parseAlpAction_decodes

example : parseAlpAction (stream [0x01, 0x40, 0, 4]) =
    .ok (some (.regular false false (.readFileData ⟨⟨0x40, ⟨0⟩⟩, ⟨4⟩⟩))) ⟨32, []⟩ := by decide +kernel

/-- C65: a command of declared length `n` is read exactly if the bytes start with pieces that match tables of
actions, the last of which starts before byte `n` and ends there or later, and the command is the one made of
these actions. -/
theorem C65_command (n : Int) (bs : List UInt8) (c : Command) (s' : St) :
    parse n (stream bs) = .ok c s' ↔
      ∃ (segs : List (List UInt8 × Option Action)) (rest : List UInt8),
        bs = (segs.map Prod.fst).flatten ++ rest ∧
        s' = ⟨8 * (segs.map Prod.fst).flatten.length, bytesToBits rest⟩ ∧
        (∀ x ∈ segs, ∃ t, ActionTables x.2 t ∧ Matches t (bytesToBits x.1)) ∧
        n ≤ (segs.map Prod.fst).flatten.length ∧
        (∀ init last, segs = init ++ [last] → ((init.map Prod.fst).flatten.length : Int) < n) ∧
        Command.new (segs.map Prod.snd) false none true 0 = .ok c := by
  constructor
  · intro h
    obtain ⟨segs, rest, e1, e2, e3, e4, e5, e6⟩ := parse_bytes h
    exact ⟨segs, rest, e1, e2, fun x hx => parseAlpAction_decodes.of_reads (e3 x hx).1, e4, e5, e6⟩
  · rintro ⟨segs, rest, rfl, rfl, e3, e4, e5, e6⟩
    refine parse_runs (fun x hx => ?_) e4 e5 e6
    obtain ⟨t, ht, hm⟩ := e3 x hx
    refine ⟨parseAlpAction_decodes.reads ht hm, fun h => ?_⟩
    have := actionTables_size ht hm
    rw [h] at this
    simp at this

/-- An indirect forward with an overloaded addressee; its access class is 0x21. -/
example : parseAlpAction (stream [0xB3, 0x40, 0x10, 0x21]) =
    .ok (some (.indirectForward true false (.indirectForward ⟨0x40, some ⟨0x21, .NOID, .none, .NONE⟩⟩))) ⟨32, []⟩ ∧
    ActionTables (some (.indirectForward true false (.indirectForward ⟨0x40, some ⟨0x21, .NOID, .none, .NONE⟩⟩)))
      (header true false 51 ++ [(8, some 0x40)] ++
        [(2, none), (2, some 1), (4, some 0), (8, some 0x21)]) :=
  ⟨by decide +kernel, rfl, ⟨rfl, nofun⟩, _, ⟨[], rfl, rfl⟩, rfl⟩

/-! ## C66 reading and writing again -/

/-- C66: whatever is read from bytes, and written again, gives the same bytes with the unused bits cleared. -/
theorem C66_parts :
    Rewrites CT.parse CT.iter CT.table ∧
    Rewrites ChannelHeader.parse ChannelHeader.iter ChannelHeader.table ∧
    Rewrites ChannelID.parse ChannelID.iter ChannelID.table ∧
    Rewrites ChannelStatusIdentifier.parse ChannelStatusIdentifier.iter ChannelStatusIdentifier.table ∧
    Rewrites SubBand.parse SubBand.iter SubBand.table ∧
    Rewrites SubProfile.parse SubProfile.iter SubProfile.table ∧
    Rewrites AccessProfile.parse AccessProfile.iter AccessProfile.table ∧
    Rewrites FileHeader.parse FileHeader.iter FileHeader.table ∧
    Rewrites FileHeaderOperand.parse FileHeaderOperand.iter FileHeaderOperand.table ∧
    Rewrites QoS.parse QoS.iter QoS.table ∧
    Rewrites LoRaWANABP.parse LoRaWANABP.iter LoRaWANABP.table ∧
    Rewrites LoRaWANOTAA.parse LoRaWANOTAA.iter LoRaWANOTAA.table :=
  ⟨CT.rewrites, ChannelHeader.rewrites, ChannelID.rewrites, ChannelStatusIdentifier.rewrites, SubBand.rewrites,
    SubProfile.rewrites, AccessProfile.rewrites, FileHeader.rewrites, FileHeaderOperand.rewrites, QoS.rewrites,
    LoRaWANABP.rewrites, LoRaWANOTAA.rewrites⟩

/-- The unused bit of a channel header is cleared. -/
example : ChannelHeader.parse (stream [0xB2]) = .ok ⟨.FEC_PN9, .LO_RATE, .BAND_868⟩ ⟨8, []⟩ ∧
    bytearray (ChannelHeader.iter ⟨.FEC_PN9, .LO_RATE, .BAND_868⟩) = .ok [0x32] := by decide +kernel

/-- C66: the same for system files. Missing: factory settings store another smoothing than they read
(`C18_reread_partial`), engineering mode writes two bytes it does not read (`C66_engineering_mode`), and key
files cannot be read (`C17_parse`). -/
theorem C66_files_partial :
    Rewrites UidFile.parse UidFile.iter UidFile.table ∧
    Rewrites VidFile.parse VidFile.iter VidFile.table ∧
    Rewrites FirmwareVersionFile.parse FirmwareVersionFile.iter FirmwareVersionFile.table ∧
    Rewrites DllConfigFile.parse DllConfigFile.iter DllConfigFile.table ∧
    Rewrites DllStatusFile.parse DllStatusFile.iter DllStatusFile.table ∧
    Rewrites PhyStatusFile.parse PhyStatusFile.iter PhyStatusFile.table ∧
    Rewrites AccessProfileFile.parse AccessProfileFile.iter
      (fun f => match f.accessProfile with | some p => p.table | none => []) :=
  ⟨UidFile.rewrites, VidFile.rewrites, FirmwareVersionFile.rewrites, DllConfigFile.rewrites,
    DllStatusFile.rewrites, PhyStatusFile.rewrites, AccessProfileFile.rewrites⟩

/-- A DLL configuration with garbage in its unused bytes. -/
example : DllConfigFile.parse (stream [0x21, 7, 8, 1, 2, 3, 4]) = .ok ⟨0x21, 1, 2, 3, 4⟩ ⟨56, []⟩ ∧
    bytearray (DllConfigFile.iter ⟨0x21, 1, 2, 3, 4⟩) = .ok [0x21, 0, 0, 1, 2, 3, 4] := by decide +kernel

/-- C66: engineering mode reads seven bytes and writes nine: the same with the unused bit cleared, and two
zeros. -/
theorem C66_engineering_mode (read following : List UInt8) (f : EngineeringModeFile)
    (h : EngineeringModeFile.parse (stream (read ++ following)) =
      .ok f ⟨8 * read.length, bytesToBits following⟩) :
    ∃ written, bytearray f.iter = .ok (written ++ [0, 0]) ∧
      bytesToBits written = List.zipWith (· && ·) f.table.used (bytesToBits read) := by
  obtain ⟨t, bits, ⟨hb, rfl⟩, hm, e1, -⟩ := (EngineeringModeFile.decodes _ _ _).1 h
  have e1 : bytesToBits (read ++ following) = bits ++ bytesToBits following := e1
  rw [bytesToBits_append] at e1
  have := List.append_cancel_right e1
  subst this
  obtain ⟨g, hg, written, e, l, -⟩ := EngineeringModeFile.codec hb
  obtain ⟨ws, e', l', -⟩ := EngineeringModeFile.layout hb
  have e2 : bytearray f.iter = .ok (written ++ [0, 0]) := by
    rw [hg]; exact Emits.append e rfl
  refine ⟨written, e2, ?_⟩
  rw [e'] at e2
  cases e2
  rw [SystemFile.fields, Table.fields_append, fieldBits_append, hm.masked, bytesToBits_append] at l'
  exact List.append_cancel_right (bs := bytesToBits [0, 0]) l'

example : EngineeringModeFile.parse (stream [3, 255, 7, 0xBC, 1, 14, 0xEC]) =
      .ok ⟨.PER_RX, 255, 7, ⟨⟨.PN9, .HI_RATE, .BAND_868⟩, 270⟩, -20⟩ ⟨56, []⟩ ∧
    bytearray (EngineeringModeFile.iter ⟨.PER_RX, 255, 7, ⟨⟨.PN9, .HI_RATE, .BAND_868⟩, 270⟩, -20⟩) =
      .ok [3, 255, 7, 0x3C, 1, 14, 0xEC, 0, 0] := by decide +kernel

end Verif
