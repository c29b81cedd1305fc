import Verif.Lemmas.SystemFiles3

/-! C15-C18, C47, C48: system files. -/

namespace Verif

/-! ## C15 byte round trips -/

/-- C15: what a UID file accepts. -/
theorem C15_uid_accepts (u : Int) : AcceptsIff (UidFile.new u) (0 ≤ u ∧ u ≤ 0xFFFFFFFFFFFFFFFF) :=
  validate_acceptsIff

example : UidFile.new 0xFFFFFFFFFFFFFFFF = .ok ⟨0xFFFFFFFFFFFFFFFF⟩ ∧
    UidFile.new 0x10000000000000000 = .error .valueError := by decide

/-- C15: an accepted UID file is 8 bytes and parses back. -/
theorem C15_uid (f : UidFile) (h : f.Built) : RoundTrips f.iter UidFile.parse f 8 :=
  (UidFile.codec h).roundTrips

example : UidFile.Built ⟨0xFEDCBA9876543210⟩ ∧
    bytearray (UidFile.iter ⟨0xFEDCBA9876543210⟩) =
      .ok [0xFE, 0xDC, 0xBA, 0x98, 0x76, 0x54, 0x32, 0x10] := by
  constructor
  · exact validate_of (by decide)
  · decide

/-- C15: an accepted VID file is 3 bytes and parses back. -/
theorem C15_vid (f : VidFile) (h : f.Built) : RoundTrips f.iter VidFile.parse f 3 :=
  (VidFile.codec h).roundTrips

example : bytearray (VidFile.iter ⟨0xABCD, 0x12⟩) = .ok [0xAB, 0xCD, 0x12] ∧
    VidFile.parse (stream [0xAB, 0xCD, 0x12]) = .ok ⟨0xABCD, 0x12⟩ ⟨24, []⟩ := by decide

/-- C15: what a VID file accepts. -/
theorem C15_vid_accepts (v c : Int) :
    AcceptsIff (VidFile.new v c) ((0 ≤ v ∧ v ≤ 0xFFFF) ∧ (0 ≤ c ∧ c ≤ 0xFF)) := validate_acceptsIff

example : VidFile.Built ⟨0xABCD, 0x12⟩ := validate_of (by decide)

/-- C15: an accepted DLL status file is 16 bytes and parses back. -/
theorem C15_dll_status (f : DllStatusFile) (h : f.Built) :
    RoundTrips f.iter DllStatusFile.parse f 16 := (DllStatusFile.codec h).roundTrips

example : bytearray (DllStatusFile.iter ⟨1, 2, 3, ⟨.CW, .HI_RATE, .BAND_915⟩, 0xFFFF, 4, 0xFFFFFFFF, 5⟩) =
    .ok [1, 2, 3, 0x4F, 0xFF, 0xFF, 0, 4, 0xFF, 0xFF, 0xFF, 0xFF, 0, 0, 0, 5] := by decide

/-- C15: what a DLL status file accepts. -/
theorem C15_dll_status_accepts (l b n : Int) (h : ChannelHeader) (i r c t : Int) :
    AcceptsIff (DllStatusFile.new l b n h i r c t)
      ((0 ≤ l ∧ l ≤ 0xFF) ∧ (0 ≤ b ∧ b ≤ 0xFF) ∧ (0 ≤ n ∧ n ≤ 0xFF) ∧ (0 ≤ i ∧ i ≤ 0xFFFF) ∧
        (0 ≤ r ∧ r ≤ 0xFFFF) ∧ (0 ≤ c ∧ c ≤ 0xFFFFFFFF) ∧ (0 ≤ t ∧ t ≤ 0xFFFFFFFF)) :=
  validate_acceptsIff

example : DllStatusFile.Built ⟨1, 2, 3, ⟨.CW, .HI_RATE, .BAND_915⟩, 0xFFFF, 4, 0xFFFFFFFF, 5⟩ :=
  validate_of (by decide)

/-- C15: an accepted engineering mode file is 9 bytes; the parser returns an equal file, reading the
first 7 bytes. -/
theorem C15_engineering_mode (f : EngineeringModeFile) (h : f.Built) :
    RoundTripsReading f.iter EngineeringModeFile.parse f 9 7 := by
  obtain ⟨g, e, bs, hb, hl, hr⟩ := EngineeringModeFile.codec h
  refine ⟨bs ++ [0, 0], ?_, by simp [hl], fun following => ?_⟩
  · rw [e]
    exact hb.append rfl
  · have hd : (bs ++ [0, 0]).drop 7 = [0, 0] := by
      rw [List.drop_append_of_le_length (by omega), List.drop_eq_nil_of_le (by omega)]; rfl
    have := hr 0 (bytesToBits ([0, 0] ++ following))
    rw [hd]
    rw [bytesToBits_length, hl, Nat.zero_add] at this
    rw [stream, List.append_assoc, bytesToBits_append]
    exact this

example : bytearray (EngineeringModeFile.iter ⟨.PER_RX, 255, 7, ⟨⟨.PN9, .HI_RATE, .BAND_868⟩, 270⟩, -20⟩) =
    .ok [3, 255, 7, 0x3C, 1, 14, 0xEC, 0, 0] := by decide

/-- C15: what an engineering mode file accepts. -/
theorem C15_engineering_mode_accepts (m : EngineeringModeMode) (fl t : Int) (c : ChannelID)
    (e : Int) : AcceptsIff (EngineeringModeFile.new m fl t c e)
      ((0 ≤ fl ∧ fl ≤ 255) ∧ (0 ≤ t ∧ t ≤ 255) ∧ (-128 ≤ e ∧ e ≤ 127)) := validate_acceptsIff

example : (EngineeringModeFile.new .OFF 0 0 ⟨⟨.PN9, .HI_RATE, .BAND_868⟩, 270⟩ (-128)).isOk = true ∧
    (EngineeringModeFile.new .OFF 0 0 ⟨⟨.PN9, .HI_RATE, .BAND_868⟩, 270⟩ (-129)).isOk = false := by decide

/-- C15: the textual name of a mode names that mode. -/
theorem C15_engineering_mode_names (m : EngineeringModeMode) :
    EngineeringModeMode.fromString m.str = .ok m := by cases m <;> decide

example : EngineeringModeFile.Built ⟨.PER_RX, 255, 7, ⟨⟨.PN9, .HI_RATE, .BAND_868⟩, 270⟩, -20⟩ :=
  ⟨validate_of (by decide), by decide⟩

/-- C15, DLL configuration, full claim restricted to files whose four unchecked attributes are bytes:
7 bytes, and parses back. Missing for the full claim: the other files, see `C15_dll_config_refuted`
and `C15_dll_config_serialises`. -/
theorem C15_dll_config_partial (f : DllConfigFile) (h : f.Built)
    (hf : (0 ≤ f.lqFilter ∧ f.lqFilter ≤ 255) ∧ (0 ≤ f.nfCtrl ∧ f.nfCtrl ≤ 255) ∧
      (0 ≤ f.rxNfMethodParameter ∧ f.rxNfMethodParameter ≤ 255) ∧
      (0 ≤ f.txNfMethodParameter ∧ f.txNfMethodParameter ≤ 255)) :
    RoundTrips f.iter DllConfigFile.parse f 7 := (DllConfigFile.codec h hf).roundTrips

example : DllConfigFile.Built ⟨0x21, 1, 2, 3, 255⟩ ∧
    bytearray (DllConfigFile.iter ⟨0x21, 1, 2, 3, 255⟩) = .ok [0x21, 0, 0, 1, 2, 3, 255] :=
  ⟨validate_of (by decide), by decide⟩

/-- C15: the constructor looks at the access class only; serialising succeeds exactly if the other
four attributes are bytes, and raises ValueError otherwise. -/
theorem C15_dll_config_serialises (f : DllConfigFile) (h : f.Built) :
    AcceptsIff (bytearray f.iter)
      ((0 ≤ f.lqFilter ∧ f.lqFilter ≤ 255) ∧ (0 ≤ f.nfCtrl ∧ f.nfCtrl ≤ 255) ∧
      (0 ≤ f.rxNfMethodParameter ∧ f.rxNfMethodParameter ≤ 255) ∧
      (0 ≤ f.txNfMethodParameter ∧ f.txNfMethodParameter ≤ 255)) := DllConfigFile.serIff h

example : bytearray (DllConfigFile.iter ⟨0x21, 1, 2, 3, 256⟩) = .error .valueError := by decide

/-- C15: what a DLL configuration file accepts. -/
theorem C15_dll_config_accepts (a l n r t : Int) :
    AcceptsIff (DllConfigFile.new a l n r t) (0 ≤ a ∧ a ≤ 255) := validate_acceptsIff

example : DllConfigFile.new 0x21 1 2 3 256 = .ok ⟨0x21, 1, 2, 3, 256⟩ ∧
    DllConfigFile.new 256 1 2 3 4 = .error .valueError := by decide

/-- C15 is false of DLL configuration files: an accepted file that cannot be serialised. -/
theorem C15_dll_config_refuted :
    ∃ f : DllConfigFile, f.Built ∧ bytearray f.iter = .error .valueError :=
  ⟨⟨0, 256, 0, 0, 0⟩, validate_of (by decide), by decide⟩

example : DllConfigFile.Built ⟨0x21, 1, 2, 3, 4⟩ := validate_of (by decide)

/-- C15, firmware version: an accepted file with ASCII names is 17 bytes, and parses back to the file
whose names are filled up with spaces to 6 and 7 characters. -/
theorem C15_firmware_padded (f : FirmwareVersionFile) (h : f.Built) (h1 : Ascii f.applicationName)
    (h2 : Ascii f.gitSha1) :
    RoundTrips f.iter FirmwareVersionFile.parse
      { f with applicationName := padded f.applicationName 6, gitSha1 := padded f.gitSha1 7 } 17 :=
  (FirmwareVersionFile.codec_pad h h1 h2).roundTrips

example : (bytearray (FirmwareVersionFile.iter ⟨1, 2, 3, 4, [97, 112], [49]⟩)).toOption =
    some [1, 2, 3, 4, 97, 112, 32, 32, 32, 32, 49, 32, 32, 32, 32, 32, 32] := by decide

/-- C15, firmware version, full claim restricted to ASCII names of full length. Missing: shorter names
come back filled with spaces (`C15_firmware_padded`, `C15_firmware_refuted`), and other names do not
serialise (`C15_firmware_serialises`). -/
theorem C15_firmware_partial (f : FirmwareVersionFile) (h : f.Built) (h1 : Ascii f.applicationName)
    (h2 : Ascii f.gitSha1) (l1 : f.applicationName.length = 6) (l2 : f.gitSha1.length = 7) :
    RoundTrips f.iter FirmwareVersionFile.parse f 17 := by
  have := C15_firmware_padded f h h1 h2
  have e1 : padded f.applicationName 6 = f.applicationName := by simp [padded, l1]
  have e2 : padded f.gitSha1 7 = f.gitSha1 := by simp [padded, l2]
  rw [e1, e2] at this
  exact this

example : FirmwareVersionFile.Built ⟨1, 1, 0, 2, [116, 104, 114, 117, 116, 49],
    [97, 98, 99, 49, 50, 51, 52]⟩ ∧ [116, 104, 114, 117, 116, 49].length = 6 ∧
    [97, 98, 99, 49, 50, 51, 52].length = 7 := ⟨validate_of (by decide), rfl, rfl⟩

/-- C15: an accepted firmware version file parses back to itself only if both names have full
length. -/
theorem C15_firmware_only_full (f : FirmwareVersionFile) (h : f.Built) (n : Nat)
    (hr : RoundTrips f.iter FirmwareVersionFile.parse f n) :
    Ascii f.applicationName ∧ Ascii f.gitSha1 ∧ f.applicationName.length = 6 ∧
      f.gitSha1.length = 7 := by
  obtain ⟨hv, -⟩ := validate_eq_ok.1 h
  obtain ⟨h1, h2⟩ := (FirmwareVersionFile.serIff h).1.1 (by
    obtain ⟨bs, e, -⟩ := hr; exact ⟨bs, e⟩)
  have := (hr.unique (C15_firmware_padded f h h1 h2)).1
  have e1 := congrArg (fun f => f.applicationName.length) this
  have e2 := congrArg (fun f => f.gitSha1.length) this
  simp only [padded, List.length_append, List.length_replicate] at e1 e2
  have := hv.2.2.2.2
  exact ⟨h1, h2, by omega, by omega⟩

example : FirmwareVersionFile.Built ⟨1, 1, 0, 2, [97], [98]⟩ ∧
    ¬ RoundTrips (FirmwareVersionFile.iter ⟨1, 1, 0, 2, [97], [98]⟩) FirmwareVersionFile.parse
      ⟨1, 1, 0, 2, [97], [98]⟩ 17 := by
  have h : FirmwareVersionFile.Built ⟨1, 1, 0, 2, [97], [98]⟩ := validate_of (by decide)
  exact ⟨h, fun hr => absurd (C15_firmware_only_full _ h _ hr).2.2.1 (by decide)⟩

/-- C15: serialising a firmware version file succeeds exactly for ASCII names, and raises ValueError
otherwise. -/
theorem C15_firmware_serialises (f : FirmwareVersionFile) (h : f.Built) :
    AcceptsIff (bytearray f.iter) (Ascii f.applicationName ∧ Ascii f.gitSha1) :=
  FirmwareVersionFile.serIff h

example : FirmwareVersionFile.Built ⟨1, 1, 0, 2, [233], [98]⟩ ∧
    (bytearray (FirmwareVersionFile.iter ⟨1, 1, 0, 2, [233], [98]⟩)).isOk = false :=
  ⟨validate_of (by decide), by decide⟩

/-- C15: what a firmware version file accepts. -/
theorem C15_firmware_accepts (a b c d : Int) (s t : List Nat) :
    AcceptsIff (FirmwareVersionFile.new a b c d s t)
      ((0 ≤ a ∧ a ≤ 255) ∧ (0 ≤ b ∧ b ≤ 255) ∧ (0 ≤ c ∧ c ≤ 255) ∧ (0 ≤ d ∧ d ≤ 255) ∧
        s.length ≤ 6 ∧ t.length ≤ 7) := validate_acceptsIff

example : (FirmwareVersionFile.new 1 1 0 2 [97, 98, 99, 100, 101, 102, 103] []).isOk = false := by decide

/-- C15 is false of firmware version files: the default file. -/
theorem C15_firmware_refuted :
    ∃ f : FirmwareVersionFile, f.Built ∧ ∀ n, ¬ RoundTrips f.iter FirmwareVersionFile.parse f n := by
  have hb : FirmwareVersionFile.Built ⟨0, 0, 0, 0, [], []⟩ := validate_of (by decide)
  refine ⟨_, hb, fun n h => ?_⟩
  have := (C15_firmware_only_full _ hb n h).2.2.1
  simp at this

example : FirmwareVersionFile.Built ⟨1, 1, 0, 2, [116, 104, 114, 117, 116, 49],
    [97, 98, 99, 49, 50, 51, 52]⟩ ∧ Ascii [116, 104, 114, 117, 116, 49] := by
  constructor
  · exact validate_of (by decide)
  · intro c hc; simp at hc; omega

/-- C15, PHY status: an accepted file whose serialised noise floors are bytes is 15 + 3n bytes, n being
its channel count, and parses back to the file with both lists cut to n entries. -/
theorem C15_phy_status_cut (f : PhyStatusFile) (h : f.Built)
    (hf : ∀ v ∈ f.channelNoiseFloor.take f.channelStatusListLength.toNat, 0 ≤ v ∧ v ≤ 255) :
    RoundTrips f.iter PhyStatusFile.parse
      { f with
        channelStatusIdentifier := f.channelStatusIdentifier.take f.channelStatusListLength.toNat
        channelNoiseFloor := f.channelNoiseFloor.take f.channelStatusListLength.toNat }
      (15 + 3 * f.channelStatusListLength.toNat) :=
  (PhyStatusFile.codec_cut (PhyStatusFile.built_iff.1 h) hf).roundTrips

example : PhyStatusFile.Built ⟨1, 2, 3, 4, 1, [⟨.BAND_868, .kHz200, 0⟩, ⟨.BAND_433, .kHz25, 7⟩], [90, 256]⟩ :=
  ⟨[⟨.BAND_868, .kHz200, 0⟩, ⟨.BAND_433, .kHz25, 7⟩], [90, 256], by decide, by decide⟩

/-- C15, PHY status, full claim restricted to files whose lists have as many entries as the channel
count says and whose noise floors are bytes (any number of channels). Missing: longer lists are cut
(`C15_phy_status_cut`, `C15_phy_status_refuted`), other noise floors do not serialise
(`C15_phy_status_serialises`). -/
theorem C15_phy_status_partial (f : PhyStatusFile) (h : f.Built)
    (h1 : (f.channelStatusIdentifier.length : Int) = f.channelStatusListLength)
    (h2 : (f.channelNoiseFloor.length : Int) = f.channelStatusListLength)
    (hf : ∀ v ∈ f.channelNoiseFloor, 0 ≤ v ∧ v ≤ 255) :
    RoundTrips f.iter PhyStatusFile.parse f (15 + 3 * f.channelStatusListLength.toNat) := by
  have := C15_phy_status_cut f h fun v hv => hf v (List.mem_of_mem_take hv)
  rw [List.take_of_length_le (by omega), List.take_of_length_le (by omega)] at this
  exact this

example : PhyStatusFile.Built ⟨1, 2, 3, 4, 1, [⟨.BAND_868, .kHz200, 0⟩], [90]⟩ ∧
    (bytearray (PhyStatusFile.iter ⟨1, 2, 3, 4, 1, [⟨.BAND_868, .kHz200, 0⟩], [90]⟩)).toOption.map List.length =
      some 18 :=
  ⟨⟨[⟨.BAND_868, .kHz200, 0⟩], [90], by decide, by decide⟩, by decide⟩

/-- C15: the constructor does not look at the noise floors; serialising succeeds exactly if the ones
to be serialised are bytes, and raises ValueError otherwise. -/
theorem C15_phy_status_serialises (f : PhyStatusFile) (h : f.Built) :
    AcceptsIff (bytearray f.iter)
      (∀ v ∈ f.channelNoiseFloor.take f.channelStatusListLength.toNat, 0 ≤ v ∧ v ≤ 255) :=
  PhyStatusFile.serIff (PhyStatusFile.built_iff.1 h)

example : (bytearray (PhyStatusFile.iter ⟨1, 2, 3, 4, 1, [⟨.BAND_868, .kHz200, 0⟩], [256]⟩)).isOk = false := by
  decide

/-- C15 is false of PHY status files: a file accepted with more entries than its channel count. -/
theorem C15_phy_status_refuted :
    ∃ f : PhyStatusFile, f.Built ∧ ∀ n, ¬ RoundTrips f.iter PhyStatusFile.parse f n := by
  have hb : PhyStatusFile.Built ⟨0, 0, 0, 0, 0, [], [7]⟩ :=
    ⟨[], [7], by decide, by simp⟩
  refine ⟨_, hb, fun n h => ?_⟩
  have := (h.unique (C15_phy_status_cut _ hb (by simp))).1
  have := congrArg PhyStatusFile.channelNoiseFloor this
  simp at this

example : PhyStatusFile.Built ⟨1, 2, 3, 1000, 2, [⟨.BAND_868, .kHz200, 0⟩, ⟨.BAND_433, .kHz25, 1039⟩],
    [90, 255]⟩ :=
  ⟨[⟨.BAND_868, .kHz200, 0⟩, ⟨.BAND_433, .kHz25, 1039⟩], [90, 255], by decide, by decide⟩

/-- An access profile with all 8 sub bands. -/
def sampleProfile : AccessProfile :=
  ⟨⟨.PN9, .LO_RATE, .BAND_868⟩, List.replicate 4 ⟨0xFF, ⟨3, 12⟩⟩, List.replicate 8 .default⟩

theorem sampleProfile_built : sampleProfile.Built := by
  refine ⟨validate_of (by decide), fun p hp => ?_, fun b hb => ?_⟩
  · rw [(List.mem_replicate.1 hp).2]; exact ⟨validate_of (by decide), by decide⟩
  · rw [(List.mem_replicate.1 hb).2]; decide

/-- C15, access profile: an accepted file with 8 sub bands is 65 bytes and parses back to the same
profile, but always under specifier 0. -/
theorem C15_access_profile_reread (f : AccessProfileFile) (h : f.Built) (p : AccessProfile)
    (hp : f.accessProfile = some p) (h8 : p.subBands.length = 8) :
    RoundTrips f.iter AccessProfileFile.parse ⟨0, some p⟩ 65 := by
  obtain ⟨s, q⟩ := f
  simp only at hp
  subst hp
  have hc := AccessProfile.codec (AccessProfile.built_iff.1 (h.2 p rfl)) h8
  exact (Codec.seqr hc (Reads.lift (validate_of (by decide)))).roundTrips

example : AccessProfileFile.Built ⟨3, some sampleProfile⟩ ∧ sampleProfile.subBands.length = 8 :=
  ⟨⟨validate_of (by decide), fun p hp => by cases hp; exact sampleProfile_built⟩, rfl⟩

/-- C15, access profile, full claim restricted to specifier 0 and 8 sub bands. Missing: other
specifiers are lost (`C15_access_profile_reread`, `C15_access_profile_refuted`), profiles with fewer sub
bands do not parse (`C15_access_profile_short`), and a file without a profile does not serialise
(`C15_access_profile_none`). -/
theorem C15_access_profile_partial (f : AccessProfileFile) (h : f.Built) (p : AccessProfile)
    (hp : f.accessProfile = some p) (h8 : p.subBands.length = 8) (h0 : f.accessSpecifier = 0) :
    RoundTrips f.iter AccessProfileFile.parse f 65 := by
  have := C15_access_profile_reread f h p hp h8
  obtain ⟨s, q⟩ := f
  simp only at hp h0
  subst hp h0
  exact this

example : AccessProfileFile.Built ⟨0, some sampleProfile⟩ :=
  ⟨validate_of (by decide), fun p hp => by cases hp; exact sampleProfile_built⟩

/-- C15: an accepted profile with `n` sub bands serialises to 9 + 7n bytes. -/
theorem C15_access_profile_size (p : AccessProfile) (h : p.Built) :
    ∃ bs, bytearray p.iter = .ok bs ∧ bs.length = 9 + 7 * p.subBands.length :=
  AccessProfile.emits (AccessProfile.built_iff.1 h)

example : (bytearray sampleProfile.iter).toOption.map List.length = some 65 := by decide +kernel

/-- C15: the bytes of an accepted profile with fewer than 8 sub bands do not parse. -/
theorem C15_access_profile_short (f : AccessProfileFile) (h : f.Built) (p : AccessProfile)
    (hp : f.accessProfile = some p) (h8 : p.subBands.length < 8) :
    ∃ bs, bytearray f.iter = .ok bs ∧ ∃ s, AccessProfileFile.parse (stream bs) = .err .readError s := by
  obtain ⟨s, q⟩ := f
  simp only at hp
  subst hp
  obtain ⟨bs, e, r⟩ := AccessProfile.short (AccessProfile.built_iff.1 (h.2 p rfl)) h8
  exact ⟨bs, e, r 0⟩

example : AccessProfile.Built { sampleProfile with subBands := [.default] } :=
  ⟨validate_of (by decide), sampleProfile_built.2.1, fun b hb => by
    rw [List.mem_singleton.1 hb]; decide⟩

/-- C15: a file without a profile raises TypeError when serialised. -/
theorem C15_access_profile_none (i : Int) (h : 0 ≤ i ∧ i ≤ 14) :
    AccessProfileFile.new i none = .ok ⟨i, none⟩ ∧
    bytearray (AccessProfileFile.iter ⟨i, none⟩) = .error .typeError := ⟨validate_of h, rfl⟩

example : (AccessProfileFile.new 14 none).isOk = true ∧ (AccessProfileFile.new 15 none).isOk = false := by decide

/-- C15 is false of access profile files: the specifier is lost. -/
theorem C15_access_profile_refuted :
    ∃ f : AccessProfileFile, f.Built ∧ ∀ n, ¬ RoundTrips f.iter AccessProfileFile.parse f n := by
  have hb : AccessProfileFile.Built ⟨1, some sampleProfile⟩ :=
    ⟨validate_of (by decide), fun p hp => by cases hp; exact sampleProfile_built⟩
  refine ⟨_, hb, fun n h => ?_⟩
  have := (h.unique (C15_access_profile_reread _ hb _ rfl rfl)).1
  simp at this

/-! ## C16 sizes -/

/-- C16: whenever an accepted object serialises, its size is the one of `fileSize`. -/
theorem C16_size (f : SystemFile) (h : f.Built) (bs : List UInt8) (e : bytearray f.iter = .ok bs) :
    bs.length = fileSize f :=
  SystemFile.size f h bs e

example : (bytearray (SystemFile.vid ⟨0xABCD, 1⟩).iter).toOption.map List.length = some 3 ∧
    fileSize (.vid ⟨0xABCD, 1⟩) = 3 ∧ fileSize (.phyStatus ⟨1, 2, 3, 4, 1, [.default], [0]⟩) = 18 := by decide

/-- C16: for the classes of fixed size the serialised size is the declared length. -/
theorem C16_declared (f : SystemFile) (h : f.Built) (hf : f.fixedSize = true) (bs : List UInt8)
    (e : bytearray f.iter = .ok bs) : f.length = .ok (bs.length : Int) := by
  rw [C16_size f h bs e]
  cases f <;> first | rfl | cases hf

example : (SystemFile.uid ⟨5⟩).fixedSize = true ∧ (SystemFile.uid ⟨5⟩).length = .ok 8 ∧
    (bytearray (SystemFile.uid ⟨5⟩).iter).toOption.map List.length = some 8 := by decide

/-- C16: for the other classes the serialised size is the declared length exactly if: 10 channels;
8 sub bands; D7ASP with a UID addressee (never for LoRaWAN); as much data as declared. -/
theorem C16_declared_iff (f : SystemFile) (h : f.Built) (bs : List UInt8)
    (e : bytearray f.iter = .ok bs) : f.length = .ok (bs.length : Int) ↔
      match f with
      | .phyStatus g => g.channelStatusListLength = 10
      | .accessProfile g => ∃ p, g.accessProfile = some p ∧ p.subBands.length = 8
      | .interfaceConfiguration g => g.interfaceConfiguration.interfaceId = .D7ASP ∧
          ((∃ c, g.interfaceConfiguration.config = some (.d7asp c) ∧ c.addressee.idType = .UID))
      | .notImplemented g => g.length = g.data.length
      | _ => True := by
  rw [C16_size f h bs e]
  cases f with
  | phyStatus g =>
    have := (PhyStatusFile.built_iff.1 h).1.2.2.2.2.1.1
    simp only [SystemFile.length, fileSize, Except.ok.injEq]
    omega
  | accessProfile g =>
    obtain ⟨i, p⟩ := g
    cases p with
    | none => cases e
    | some p =>
      have := (AccessProfile.built_iff.1 (h.2 p rfl)).1.1
      simp only [SystemFile.length, fileSize, Except.ok.injEq, Option.some.injEq, exists_eq_left']
      omega
  | interfaceConfiguration g =>
    obtain ⟨⟨i, c⟩, id⟩ := g
    have ha : ∀ a, addresseeSize a = 10 ↔ a.idType = .UID := by
      intro a
      unfold addresseeSize
      cases a.idType <;> simp
    have hle : ∀ a, addresseeSize a ≤ 10 := by
      intro a
      unfold addresseeSize
      cases a.idType <;> simp
    have k1 : fileSize (.interfaceConfiguration ⟨⟨i, c⟩, id⟩) ≤ 13 ∧
        (fileSize (.interfaceConfiguration ⟨⟨i, c⟩, id⟩) = 13 ↔
          ∃ d, c = some (.d7asp d) ∧ d.addressee.idType = .UID) := by
      clear h e
      cases c with
      | none => simp [fileSize]
      | some c =>
        cases c with
        | d7asp d =>
          have h1 := ha d.addressee
          have h2 := hle d.addressee
          have hk : fileSize (.interfaceConfiguration ⟨⟨i, some (.d7asp d)⟩, id⟩) =
            1 + (2 + addresseeSize d.addressee) := rfl
          refine ⟨by omega, ⟨fun h => ⟨d, rfl, h1.1 (by omega)⟩, ?_⟩⟩
          rintro ⟨d', e, hu⟩
          injection e with e
          injection e with e
          subst e
          have := h1.2 hu
          omega
        | abp d => simp [fileSize, ifaceSize]
        | otaa d => simp [fileSize, ifaceSize]
    obtain ⟨k1, k2⟩ := k1
    cases i
    case D7ASP =>
      simp only [SystemFile.length, InterfaceConfigurationFile.length, Except.ok.injEq, true_and]
      rw [← k2]
      omega
    case LORAWAN_OTAA =>
      simp only [SystemFile.length, InterfaceConfigurationFile.length, Except.ok.injEq, reduceCtorEq,
        false_and, iff_false]
      omega
    case LORAWAN_ABP =>
      simp only [SystemFile.length, InterfaceConfigurationFile.length, Except.ok.injEq, reduceCtorEq,
        false_and, iff_false]
      omega
    all_goals simp [SystemFile.length, InterfaceConfigurationFile.length]
  | notImplemented g => simp [SystemFile.length, fileSize]
  | _ => simp [SystemFile.length, fileSize]

/-- A PHY status of one channel is shorter than declared. -/
example : (SystemFile.phyStatus ⟨1, 2, 3, 4, 1, [.default], [0]⟩).length = .ok 45 ∧
    (bytearray (SystemFile.phyStatus ⟨1, 2, 3, 4, 1, [.default], [0]⟩).iter).toOption.map List.length =
      some 18 := by decide

/-- C16: an interface configuration for LoRaWAN declares 44 bytes for ABP, of which it has 12, and 36 bytes for OTAA,
of which it has 4. -/
theorem C16_lorawan_refuted (id : Int) (a : LoRaWANABP) (o : LoRaWANOTAA) (ba bo : List UInt8)
    (ha : SystemFile.Built (.interfaceConfiguration ⟨⟨.LORAWAN_ABP, some (.abp a)⟩, id⟩))
    (ho : SystemFile.Built (.interfaceConfiguration ⟨⟨.LORAWAN_OTAA, some (.otaa o)⟩, id⟩))
    (ea : bytearray (SystemFile.interfaceConfiguration ⟨⟨.LORAWAN_ABP, some (.abp a)⟩, id⟩).iter = .ok ba)
    (eo : bytearray (SystemFile.interfaceConfiguration ⟨⟨.LORAWAN_OTAA, some (.otaa o)⟩, id⟩).iter = .ok bo) :
    (SystemFile.interfaceConfiguration ⟨⟨.LORAWAN_ABP, some (.abp a)⟩, id⟩).length = .ok 44 ∧ ba.length = 12 ∧
    (SystemFile.interfaceConfiguration ⟨⟨.LORAWAN_OTAA, some (.otaa o)⟩, id⟩).length = .ok 36 ∧ bo.length = 4 :=
  ⟨rfl, C16_size _ ha _ ea, rfl, C16_size _ ho _ eo⟩

example : (bytearray (SystemFile.interfaceConfiguration ⟨⟨.LORAWAN_ABP, some (.abp ⟨true, false, 2, 3, 4, 5⟩)⟩, 0x1D⟩).iter).toOption.map
      List.length = some 12 ∧
    (bytearray (SystemFile.interfaceConfiguration ⟨⟨.LORAWAN_OTAA, some (.otaa ⟨true, false, 2, 3⟩)⟩, 0x1D⟩).iter).toOption.map
      List.length = some 4 := by decide

/-! ## C17 key files -/

/-- C17: the accepted keys; 2^128 is accepted. -/
theorem C17_accepts (k : Int) : AcceptsIff (SecurityKeyFile.new k) (0 ≤ k ∧ k ≤ 2 ^ 128) ∧
    AcceptsIff (RootAuthenticationKeyFile.new k) (0 ≤ k ∧ k ≤ 2 ^ 128) ∧
    AcceptsIff (UserAuthenticationKeyFile.new k) (0 ≤ k ∧ k ≤ 2 ^ 128) :=
  ⟨validate_acceptsIff, validate_acceptsIff, validate_acceptsIff⟩

example : (SecurityKeyFile.new (2 ^ 128)).isOk = true ∧ (SecurityKeyFile.new (2 ^ 128 + 1)).isOk = false := by
  decide

/-- C17: an accepted key serialises to its 16 bytes, least significant byte first, followed by 24 zero
bytes for the authentication keys. -/
theorem C17_bytes (k : Int) (h : 0 ≤ k ∧ k ≤ 2 ^ 128) :
    ∃ bs, bs.length = 16 ∧ (leValue bs : Int) = k % 2 ^ 128 ∧
      bytearray (SecurityKeyFile.iter ⟨k⟩) = .ok bs ∧
      bytearray (RootAuthenticationKeyFile.iter ⟨k⟩) = .ok (bs ++ List.replicate 24 0) ∧
      bytearray (UserAuthenticationKeyFile.iter ⟨k⟩) = .ok (bs ++ List.replicate 24 0) := by
  refine ⟨leBytes 16 k.toNat, leBytes_length _ _, ?_, keyBytes_emits h.1,
    (keyBytes_emits h.1).append (zeros_emits 24), (keyBytes_emits h.1).append (zeros_emits 24)⟩
  rw [leValue_leBytes]
  push_cast
  rw [Int.toNat_of_nonneg h.1]

example : bytearray (SecurityKeyFile.iter ⟨0x0102⟩) = .ok ([2, 1] ++ List.replicate 14 0) := by decide

/-- C17, distinctness restricted to keys below 2^128: distinct keys have distinct bytes. Missing: 2^128
is accepted and has the bytes of 0 (`C17_collision`), and no bytes parse (`C17_parse`). -/
theorem C17_injective_partial (k l : Int) (hk : 0 ≤ k ∧ k < 2 ^ 128) (hl : 0 ≤ l ∧ l < 2 ^ 128)
    (h : bytearray (SecurityKeyFile.iter ⟨k⟩) = bytearray (SecurityKeyFile.iter ⟨l⟩)) : k = l := by
  obtain ⟨a, -, va, ea, -⟩ := C17_bytes k ⟨hk.1, by omega⟩
  obtain ⟨b, -, vb, eb, -⟩ := C17_bytes l ⟨hl.1, by omega⟩
  rw [ea, eb] at h
  injection h with h
  subst h
  rw [va, Int.emod_eq_of_lt hk.1 hk.2, Int.emod_eq_of_lt hl.1 hl.2] at vb
  exact vb

example : bytearray (SecurityKeyFile.iter ⟨1⟩) ≠ bytearray (SecurityKeyFile.iter ⟨2 ^ 127⟩) := by decide

/-- C17 is false: two accepted keys with the same bytes. -/
theorem C17_collision : ∃ k l : Int, k ≠ l ∧ (0 ≤ k ∧ k ≤ 2 ^ 128) ∧ (0 ≤ l ∧ l ≤ 2 ^ 128) ∧
    bytearray (SecurityKeyFile.iter ⟨k⟩) = bytearray (SecurityKeyFile.iter ⟨l⟩) :=
  ⟨0, 2 ^ 128, by decide, by decide, by decide, by decide +kernel⟩

/-- C17 is false: parsing key files never succeeds: ReadError when there are not enough bytes,
ValueError otherwise. -/
theorem C17_parse (bs : List UInt8) :
    (∃ s, SecurityKeyFile.parse (stream bs) =
      .err (if bs.length < 16 then .readError else .valueError) s) ∧
    (∃ s, RootAuthenticationKeyFile.parse (stream bs) =
      .err (if bs.length < 40 then .readError else .valueError) s) ∧
    (∃ s, UserAuthenticationKeyFile.parse (stream bs) =
      .err (if bs.length < 40 then .readError else .valueError) s) :=
  ⟨SecurityKeyFile.parse_err bs, authKey_err bs, authKey_err bs⟩

example : ∃ s, SecurityKeyFile.parse (stream (List.replicate 16 7)) = .err .valueError s :=
  (C17_parse (List.replicate 16 7)).1

/-! ## C18 factory settings -/

/-- C18: serialising an accepted file succeeds exactly if gain and RSSI offset are not negative and
the three (unchecked) preamble tolerances are bytes, and raises ValueError otherwise. -/
theorem C18_serialises (f : FactorySettingsFile) (h : f.Built) :
    AcceptsIff (bytearray f.iter) (0 ≤ f.gain ∧ 0 ≤ f.rssiOffset ∧
      (0 ≤ f.preambleTolLo ∧ f.preambleTolLo ≤ 255) ∧
      (0 ≤ f.preambleTolNormal ∧ f.preambleTolNormal ≤ 255) ∧
      (0 ≤ f.preambleTolHi ∧ f.preambleTolHi ≤ 255)) :=
  FactorySettingsFile.serIff (FactorySettingsFile.built_valid h)

example : SystemFiles.defaultFactorySettings.Built ∧
    (bytearray SystemFiles.defaultFactorySettings.iter).isOk = true ∧
    (bytearray (FactorySettingsFile.iter { SystemFiles.defaultFactorySettings with gain := -1 })).isOk = false :=
  ⟨⟨FactorySettingsFile.defaultArgs, by decide⟩, by decide, by decide⟩

/-- C18, restricted to what holds: whenever an accepted file with smoothing exponent at least 2
serialises, it is 56 bytes and parses back to the file with every attribute equal, except that the
smoothing exponent `e` has become `⌈log₂ e⌉ - 1`. Missing for the full claim: that exponent is never `e`
(`C18_refuted`), files with exponent 0 or 1 do not parse (`C18_small_exponent`), and some files do not
serialise (`C18_serialises`). -/
theorem C18_reread_partial (f : FactorySettingsFile) (h : f.Built) (bs : List UInt8)
    (e : bytearray f.iter = .ok bs) (hs : 2 ≤ f.rssiSmoothing) :
    bs.length = 56 ∧ ∀ following, FactorySettingsFile.parse (stream (bs ++ following)) =
      .ok { f with rssiSmoothing := (Nat.clog 2 f.rssiSmoothing.toNat : Int) - 1 }
        ⟨448, bytesToBits following⟩ := by
  have hv := FactorySettingsFile.built_valid h
  have hf : f.Fits := (FactorySettingsFile.serIff hv).1.1 ⟨bs, e⟩
  obtain ⟨bs', e', l, r⟩ := FactorySettingsFile.codecTo hv hf
  have := e'.unique e
  subst this
  refine ⟨l, fun following => ?_⟩
  have := r 0 (bytesToBits following)
  rw [stream, bytesToBits_append, this, FactorySettingsFile.new_eq f hv hs]
  rfl

example : SystemFiles.defaultFactorySettings.Built ∧ SystemFiles.defaultFactorySettings.rssiSmoothing = 2 ∧
    Nat.clog 2 2 - 1 = 0 :=
  ⟨⟨FactorySettingsFile.defaultArgs, by decide⟩, rfl, by decide +kernel⟩

/-- C18: the bytes of an accepted file with smoothing exponent 0 or 1 do not parse. -/
theorem C18_small_exponent (f : FactorySettingsFile) (h : f.Built) (bs : List UInt8)
    (e : bytearray f.iter = .ok bs) (hs : f.rssiSmoothing ≤ 1) (following : List UInt8) :
    FactorySettingsFile.parse (stream (bs ++ following)) =
      .err .valueError ⟨448, bytesToBits following⟩ := by
  have hv := FactorySettingsFile.built_valid h
  have hf : f.Fits := (FactorySettingsFile.serIff hv).1.1 ⟨bs, e⟩
  obtain ⟨bs', e', l, r⟩ := FactorySettingsFile.codecTo hv hf
  have := e'.unique e
  subst this
  have := r 0 (bytesToBits following)
  rw [stream, bytesToBits_append, this, FactorySettingsFile.new_error f hs]
  rfl

example : ∃ f, FactorySettingsFile.new { FactorySettingsFile.defaultArgs with rssiSmoothing := 2 } = .ok f ∧
    f.rssiSmoothing ≤ 1 := ⟨{ SystemFiles.defaultFactorySettings with rssiSmoothing := 0 }, by decide, by decide⟩

/-- C18 is false, of every accepted file: none parses back to itself. -/
theorem C18_refuted (f : FactorySettingsFile) (h : f.Built) (n : Nat) :
    ¬ RoundTrips f.iter FactorySettingsFile.parse f n := by
  rintro ⟨bs, e, -, r⟩
  have r := r []
  by_cases hs : 2 ≤ f.rssiSmoothing
  · rw [(C18_reread_partial f h bs e hs).2] at r
    injection r with r1 r2
    have := congrArg FactorySettingsFile.rssiSmoothing r1
    simp only at this
    have := FactorySettingsFile.clog_ne f.rssiSmoothing.toNat (by omega)
    omega
  · rw [C18_small_exponent f h bs e (by omega)] at r
    cases r

/-- C18: the smoothing exponent an argument is stored as, for all arguments; arguments below 2 are
rejected. -/
theorem C18_smoothing (args f : FactorySettingsFile) (h : FactorySettingsFile.new args = .ok f) :
    2 ≤ args.rssiSmoothing ∧ f.rssiSmoothing = (Nat.clog 2 args.rssiSmoothing.toNat : Int) - 1 ∧
    f = { args with rssiSmoothing := f.rssiSmoothing } := by
  unfold FactorySettingsFile.new FactorySettingsFile.smoothing at h
  split at h
  · cases h
  · next h0 =>
    obtain ⟨hv, rfl⟩ := validate_eq_ok.1 h
    have hb : isByte ((Nat.clog 2 args.rssiSmoothing.toNat : Int) - 1) :=
      hv.2.2.2.2.2.2.2.2.2.2.2.2.2.2.2.2.1
    refine ⟨?_, rfl, rfl⟩
    by_contra hc
    have : args.rssiSmoothing = 1 := by omega
    rw [this] at hb
    have := hb.1
    simp at this

example : FactorySettingsFile.new FactorySettingsFile.defaultArgs =
    .ok SystemFiles.defaultFactorySettings := by decide

/-! ## C47 PHY status files and the shared default lists -/

open PhyStatusFile in
/-- No constructor call of the history used a default list with a channel count above 255. -/
def Healthy (h : List Call) : Prop :=
  ∀ c ∈ h, (c.ids = none ∨ c.floors = none) → c.listLength ≤ 255

open PhyStatusFile in
/-- C47, restricted to histories without a call using a default list with a channel count above 255:
the call has the same outcome as in a fresh program, and an accepted object serialises, at any later
moment, as it would there. Missing: the other histories, see `C47_poisoned`. -/
theorem C47_independent_partial (h : List Call) (hh : Healthy h) (c : Call) :
    (call (calls .fresh h) c).2 = (call .fresh c).2 ∧
    ∀ o, (call .fresh c).2 = .ok o → ∀ later,
      (o.view (calls (call (calls .fresh h) c).1 later)).iter = (o.view (call .fresh c).1).iter := by
  obtain ⟨a, b, hp, -, -, -, -, ha, hb⟩ := calls_plain h fresh_plain
  have ha : a ≤ 255 := ha 255 (by omega) fun x hx hn => by have := hh x hx (.inl hn); omega
  have hb : b ≤ 255 := hb 255 (by omega) fun x hx hn => by have := hh x hx (.inr hn); omega
  have hlen : ∀ {α : Type} (l : Option (List α)) {a : Nat} (n : Int), a ≤ 255 →
      (lenOf l a n ≤ 255 ↔ lenOf l 0 n ≤ 255) := by
    intro α l a n h
    cases l <;> simp [lenOf]; omega
  have hiff : ∀ o, (call (calls .fresh h) c).2 = .ok o ↔ (call .fresh c).2 = .ok o := fun o => by
    rw [call_ok_iff hp, call_ok_iff fresh_plain, hlen c.ids _ ha, hlen c.floors _ hb]
  have h1 : (call (calls .fresh h) c).2 = (call .fresh c).2 := by
    cases h2 : (call .fresh c).2 with
    | ok o => exact (hiff o).2 h2
    | error e =>
      cases h3 : (call (calls .fresh h) c).2 with
      | ok o => rw [(hiff o).1 h3] at h2; cases h2
      | error e' => rw [call_err _ _ _ h2, call_err _ _ _ h3]
  refine ⟨h1, fun o ho later => ?_⟩
  rw [view_iter hp c o (h1.trans ho) later]
  exact (view_iter fresh_plain c o ho []).symm

/-- A history that fills the default lists. -/
example : Healthy [{ listLength := 255 }, { listLength := 3, floors := some [1, 2, 3] }] := by
  intro c hc
  simp only [List.mem_cons, List.not_mem_nil, or_false] at hc
  rcases hc with rfl | rfl <;> decide

open PhyStatusFile in
/-- C47: after a call (accepted or not) using a default list with a channel count above 255, every later
call using that list is rejected, whatever its arguments. -/
theorem C47_poisoned (h : List Call) (b : Call) (hb : b ∈ h) (hn : b.listLength > 255) (c : Call)
    (hc : b.ids = none ∧ c.ids = none ∨ b.floors = none ∧ c.floors = none) :
    (call (calls .fresh h) c).2 = .error .valueError := by
  obtain ⟨a', b', hp, -, -, ha, hb', -, -⟩ := calls_plain h fresh_plain
  cases hr : (call (calls .fresh h) c).2 with
  | error e => rw [call_err _ _ _ hr]
  | ok o =>
    obtain ⟨⟨-, l1, l2⟩, -⟩ := (call_ok_iff hp c o).1 hr
    rcases hc with ⟨h1, h2⟩ | ⟨h1, h2⟩
    · have := ha b hb h1
      rw [h2] at l1
      simp only [lenOf] at l1
      omega
    · have := hb' b hb h1
      rw [h2] at l2
      simp only [lenOf] at l2
      omega

example : (({ listLength := 300 } : PhyStatusFile.Call).ids = none) ∧
    (PhyStatusFile.call (PhyStatusFile.calls .fresh [{ listLength := 300 }]) { listLength := 2 }).2.isOk = false := by
  decide +kernel

open PhyStatusFile in
/-- C47: whatever is constructed later, an accepted object keeps its serialisation. -/
theorem C47_serialisation_stable (h : List Call) (c : Call) (o : Obj)
    (ho : (call (calls .fresh h) c).2 = .ok o) (later : List Call) :
    (o.view (calls (call (calls .fresh h) c).1 later)).iter =
      (o.view (call (calls .fresh h) c).1).iter := by
  obtain ⟨a, b, hp, -⟩ := calls_plain h fresh_plain
  rw [view_iter hp c o ho later]
  exact (view_iter hp c o ho []).symm

example : ((PhyStatusFile.call (PhyStatusFile.calls .fresh [{ listLength := 2 }]) { listLength := 3 }).2).isOk = true := by
  decide

open PhyStatusFile in
/-- C47 is false: the default constructor works in a fresh program but not after a rejected call. -/
theorem C47_refuted : ∃ (b c : Call), (∃ o, (call .fresh c).2 = .ok o) ∧
    (call (calls .fresh [b]) c).2 = .error .valueError :=
  ⟨{ listLength := 256 }, {}, ⟨_, rfl⟩,
    C47_poisoned [{ listLength := 256 }] { listLength := 256 } (by simp) (by decide) {} (.inl ⟨rfl, rfl⟩)⟩

open PhyStatusFile in
example : Healthy [{ listLength := 255 }, { listLength := 300, ids := some [], floors := some [] },
    { listLength := 3, floors := some [1, 2, 3] }] := by
  intro c hc
  simp only [List.mem_cons, List.not_mem_nil, or_false] at hc
  rcases hc with rfl | rfl | rfl <;> decide

open PhyStatusFile in
/-- C47: the list attributes of an accepted object are not stable: constructing another object makes
them longer. -/
theorem C47_attributes_change : ∃ (c b : Call) (o : Obj), (call .fresh c).2 = .ok o ∧
    o.view (call .fresh c).1 ≠ o.view (calls (call .fresh c).1 [b]) :=
  ⟨{}, { listLength := 1 }, _, rfl, by decide⟩

/-! ## C48 interpretation of returned system files -/

/-- C48: building a response from an accepted operand never raises, and keeps the operand. -/
theorem C48_never_raises (d : Data) : ∃ r, ReturnFileData.new d = .ok r ∧ r.operand = d := by
  unfold ReturnFileData.new ReturnFileData.tryParseSystemFile
  cases h : SystemFiles.lookup d.offset.id with
  | error e => exact ⟨_, rfl, rfl⟩
  | ok t =>
    obtain ⟨n, hn⟩ := lookup_length h
    simp only [hn]
    by_cases hl : n ≥ d.length.value
    · rw [if_pos hl]; exact ⟨_, rfl, rfl⟩
    · rw [if_neg hl]; exact ⟨_, rfl, rfl⟩

example : (ReturnFileData.new ⟨⟨0, ⟨0⟩⟩, ⟨2⟩, [1, 2]⟩).toOption.map (fun r => r.fileDataParsed.isNone) = some true := by
  decide

/-- C48: the file attached to a response is exactly what its content stands for. -/
theorem C48_attached_iff (d : Data) (h : d.Built) (bs : List UInt8) (hb : d.data = ords bs)
    (r : ReturnFileData) (hr : ReturnFileData.new d = .ok r) (f : SystemFile) :
    r.fileDataParsed = some f ↔ Interprets d.offset.id bs f := by
  rw [← interprets_iff, ← tryParse_iff d bs hb (Data.built_iff.1 h).2.1]
  exact parsed_iff hr

example : Data.Built ⟨⟨6, ⟨0⟩⟩, ⟨3⟩, [0xAB, 0xCD, 1]⟩ ∧ ([0xAB, 0xCD, 1] : List Int) = ords [0xAB, 0xCD, 1] := by
  decide

/-- C48: the type is attached exactly if the content is. -/
theorem C48_type_iff (d : Data) (r : ReturnFileData) (hr : ReturnFileData.new d = .ok r) :
    r.systemfileType.isSome = r.fileDataParsed.isSome := type_iff hr

example : (ReturnFileData.new ⟨⟨6, ⟨0⟩⟩, ⟨3⟩, [0xAB, 0xCD, 1]⟩).toOption.map
    (fun r => (r.systemfileType.isSome, r.fileDataParsed.isSome)) = some (true, true) := by decide

/-- C48: nothing is attached to the content of a key file, whatever it is. -/
theorem C48_no_keys (d : Data) (h : d.Built) (r : ReturnFileData)
    (hr : ReturnFileData.new d = .ok r)
    (hk : d.offset.id = 0x0E ∨ d.offset.id = 0x18 ∨ d.offset.id = 0x19) :
    r.fileDataParsed = none := by
  have hb := (ords_toU8s (Data.built_iff.1 h).2.2.2).symm
  cases hf : r.fileDataParsed with
  | none => rfl
  | some f =>
    have := (C48_attached_iff d h _ hb r hr f).1 hf
    obtain ⟨⟨s1, k1⟩, ⟨s2, k2⟩, ⟨s3, k3⟩⟩ := C17_parse (toU8s d.data)
    cases f with
    | securityKey f => obtain ⟨-, -, s, e⟩ := this; rw [k1] at e; cases e
    | rootKey f => obtain ⟨-, -, s, e⟩ := this; rw [k2] at e; cases e
    | userKey f => obtain ⟨-, -, s, e⟩ := this; rw [k3] at e; cases e
    | interfaceConfiguration f => exact this.elim
    | notImplemented f => exact this.elim
    | _ => have := this.1; omega

example : (ReturnFileData.new ⟨⟨0x0E, ⟨0⟩⟩, ⟨16⟩, List.replicate 16 1⟩).toOption.map
    (fun r => r.fileDataParsed.isSome) = some false := by decide +kernel

/-- C48: how much content a file is interpreted from: all files but two need exactly the bytes of the
file; the engineering mode file is interpreted from 7, 8 or 9 bytes; the PHY status file is as long
as its channel count says, and may be followed by other bytes. -/
theorem C48_sizes (x : Int) (bs : List UInt8) (f : SystemFile) (h : Interprets x bs f) :
    match f with
    | .engineeringMode _ => 7 ≤ bs.length ∧ bs.length ≤ 9
    | .phyStatus g => 15 + 3 * g.channelStatusListLength.toNat ≤ bs.length ∧ bs.length ≤ 45
    | .accessProfile g => bs.length = 65 ∧ g.accessSpecifier = 0
    | g => bs.length = fileSize g := by
  have hl : (stream bs).rest.length = 8 * bs.length := by simp [stream, bytesToBits_length]
  cases f with
  | uid g => obtain ⟨-, h1, s, h2⟩ := h; have := UidFile.takes _ _ _ h2; simp [fileSize]; omega
  | vid g => obtain ⟨-, h1, s, h2⟩ := h; have := VidFile.takes _ _ _ h2; simp [fileSize]; omega
  | factorySettings g =>
    obtain ⟨-, h1, s, h2⟩ := h; have := FactorySettingsFile.takes _ _ _ h2; simp [fileSize]; omega
  | firmwareVersion g =>
    obtain ⟨-, h1, s, h2⟩ := h; have := FirmwareVersionFile.takes _ _ _ h2; simp [fileSize]; omega
  | dllConfig g =>
    obtain ⟨-, h1, s, h2⟩ := h; have := DllConfigFile.takes _ _ _ h2; simp [fileSize]; omega
  | dllStatus g =>
    obtain ⟨-, h1, s, h2⟩ := h; have := DllStatusFile.takes _ _ _ h2; simp [fileSize]; omega
  | engineeringMode g =>
    obtain ⟨-, h1, s, h2⟩ := h; have := EngineeringModeFile.takes _ _ _ h2; simp only; omega
  | phyStatus g =>
    obtain ⟨-, h1, s, h2⟩ := h; have := PhyStatusFile.reads_count h2; simp only; omega
  | accessProfile g =>
    obtain ⟨-, h1, s, h2⟩ := h
    have := AccessProfileFile.takes _ _ _ h2
    refine ⟨by omega, ?_⟩
    obtain ⟨p, s1, -, h3⟩ := P.bind_ok.1 h2
    obtain ⟨h4, -⟩ := P.lift_ok.1 h3
    obtain ⟨-, rfl⟩ := validate_eq_ok.1 h4
    rfl
  | securityKey g =>
    obtain ⟨-, -, s, e⟩ := h
    obtain ⟨s1, k1⟩ := (C17_parse bs).1; rw [k1] at e; cases e
  | rootKey g =>
    obtain ⟨-, -, s, e⟩ := h
    obtain ⟨s1, k1⟩ := (C17_parse bs).2.1; rw [k1] at e; cases e
  | userKey g =>
    obtain ⟨-, -, s, e⟩ := h
    obtain ⟨s1, k1⟩ := (C17_parse bs).2.2; rw [k1] at e; cases e
  | interfaceConfiguration g => exact h.elim
  | notImplemented g => exact h.elim

/-- C48: the response to reading a whole VID file carries that file. -/
example : ∀ r, ReturnFileData.new ⟨⟨6, ⟨0⟩⟩, ⟨3⟩, [0xAB, 0xCD, 1]⟩ = .ok r →
    r.fileDataParsed = some (.vid ⟨0xABCD, 1⟩) := by
  intro r hr
  obtain ⟨bs, e, -, p⟩ := C15_vid ⟨0xABCD, 1⟩ (validate_of (by decide))
  have he : bs = [0xAB, 0xCD, 1] := by
    have : bytearray (VidFile.iter ⟨0xABCD, 1⟩) = .ok [0xAB, 0xCD, 1] := by decide
    rw [this] at e; injection e with e; exact e.symm
  subst he
  have p := p []
  rw [List.append_nil] at p
  refine (C48_attached_iff _ ?_ _ (by decide) r hr _).2 ⟨rfl, by decide, _, p⟩
  decide

end Verif
