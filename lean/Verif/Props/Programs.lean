import Verif.Lemmas.Programs

/-! C91: the configuration programs (examples/change_access_profile.py, write_factory_settings.py, engineering_mode.py,
read_phy_status.py) as a whole, with a modem and a device that keeps files. -/

namespace Verif.Modem

open Verif Verif.Serial Verif.Examples

/-- C91: `connect` succeeds with a device that keeps a byte for each file and offset if and only if the two names in its
firmware version (bytes 4 to 16 of file 2) are ASCII. -/
theorem C91_identified (d : UInt8 → Nat → UInt8) : Identified memory d ↔ ∀ i, i < 13 → (d 2 (4 + i)).toNat < 128 := by
  have e : memory.read d 2 0 17 = d 2 0 :: d 2 1 :: d 2 2 :: d 2 3 :: (List.range 13).map fun i => d 2 (4 + i) := by
    simp only [memory, Nat.zero_add]
    rfl
  have hl : ((List.range 13).map fun i => d 2 (4 + i)).take 13 = (List.range 13).map fun i => d 2 (4 + i) :=
    List.take_of_length_le (by simp)
  unfold Identified
  rw [Prg.memory_length, e]
  simp only [versionOf, hl]
  constructor
  · rintro ⟨-, h⟩ i hi
    split at h
    · next h1 => exact h1.2 _ (List.mem_map.2 ⟨i, List.mem_range.2 hi, rfl⟩)
    · cases h
  · intro h
    refine ⟨trivial, ?_⟩
    rw [if_pos]
    · rfl
    · refine ⟨by simp, fun x hx => ?_⟩
      obtain ⟨i, hi, rfl⟩ := List.mem_map.1 hx
      exact h i (List.mem_range.1 hi)

/-- A device with zeros everywhere is one; a device with 0xFF in file 2 is none. -/
example : Identified memory (fun _ _ => 0) ∧ ¬ Identified memory (fun _ _ => 0xFF) :=
  ⟨(C91_identified _).2 fun _ _ => by decide, fun h => absurd ((C91_identified _).1 h 0 (by decide)) (by decide)⟩

/-- C91, the access profile program, started with any options and run to its end with any device, in every interleaving
of the threads and the device and for every way the bytes of the answers are split: if the channel and the numbers are
accepted and the device tells its version, then it ends normally after one answer, without error, and the device holds
the profile with the requested settings in the file of the requested access class, and nothing else has changed. In all
other cases the program ends by an exception, and the device is as it was. -/
theorem C91_profile {config : Config} (hk : config.skip = false) {d : UInt8 → Nat → UInt8} {tag rand : UInt8}
    {a : ProfileArgs} {r : Except PyErr (List Command)} {s' : Loop (UInt8 → Nat → UInt8)}
    (h : ProfileProgram (Connected memory tag) (Returned memory) rand a (Loop.start config d) r s') :
    let ok := (0 ≤ a.scanAutomationPeriod ∧ a.scanAutomationPeriod ≤ 507904) ∧
      (0 ≤ a.subbandBitmap ∧ a.subbandBitmap ≤ 255) ∧ (-128 ≤ a.eirp ∧ a.eirp ≤ 127) ∧
      (0 ≤ a.specifier ∧ a.specifier ≤ 14)
    (∀ ch, ChannelID.fromString a.channelId = .ok ch → ok → Identified memory d →
      ∃ period bs, CT.compress a.scanAutomationPeriod = .ok (some period) ∧ bs.length = 65 ∧
        bytesToBits bs = fieldBits (Table.fields (ch.channelHeader.table ++
          (List.replicate 4 ((8, some a.subbandBitmap) :: period.table)).flatten ++
          (List.replicate 8 [(16, some ch.channelIndex), (16, some ch.channelIndex), signedInt 8 a.eirp,
            (8, some 86), (8, some 255)]).flatten)) ∧
        r = .ok [answered rand []] ∧ Put (UInt8.ofNat (0x20 + a.specifier.toNat)) bs d s'.data) ∧
    (¬ ((∃ ch, ChannelID.fromString a.channelId = .ok ch) ∧ ok ∧ Identified memory d) →
      (∃ e, r = .error e) ∧ s'.data = d) := by
  intro ok
  have hi : Idle (Loop.start config d) := start_idle hk d
  cases h with
  | channel e h1 =>
    exact ⟨fun ch h2 => absurd (h1.symm.trans h2) (by simp), fun _ => ⟨⟨e, rfl⟩, rfl⟩⟩
  | once _ ch _ h1 h2 =>
    obtain ⟨k1, k2, k3⟩ := Prg.once hi rfl h2
    constructor
    · intro ch' h3 h4 h5
      obtain ⟨period, bs, g1, g2, g3, g4⟩ := Prg.profile_request rand a ch' h3 h4
      obtain ⟨j1, j2⟩ := k1 _ _ g2 (Upd.piece_valid (by decide) (by intro hx; subst hx; cases g3) (by omega))
        (Upd.piece_fits _ _ _ (by omega)) h5
      refine ⟨period, bs, g1, g3, g4, j1, ?_⟩
      rw [j2]
      exact Prg.put_write _ bs d
    · intro h3
      by_cases h4 : Identified memory d
      · refine k3 .valueError ((C70_profile rand a ch h1).2 fun hok => h3 ⟨⟨ch, h1⟩, hok, h4⟩)
      · exact k2 h4

/-- The options and the device of a case in which everything is accepted. -/
example : ChannelID.fromString ['8', '6', '8', 'L', 'P', '0', '2', '5'] = .ok ⟨⟨.PN9, .LO_RATE, .BAND_868⟩, 25⟩ ∧
    Identified memory (fun _ _ => 0x41) :=
  ⟨by decide +kernel, (C91_identified _).2 fun _ _ => by decide⟩

/-- C91, the factory settings program without `-f`: likewise, the device holds the 56 bytes of the settings in file 1
if the options are accepted and the device tells its version; otherwise the program ends by an exception, and the device
is as it was. -/
theorem C91_factory {config : Config} (hk : config.skip = false) {d : UInt8 → Nat → UInt8} {tag rand : UInt8}
    {args : FactorySettingsFile} {r : Except PyErr (List Command)} {s' : Loop (UInt8 → Nat → UInt8)}
    (h : Once (Connected memory tag) (Returned memory) (factoryCommand rand args false) (Loop.start config d) r s') :
    let Ok := fun f : FactorySettingsFile => FactorySettingsFile.new args = .ok f ∧ 0 ≤ f.gain ∧ 0 ≤ f.rssiOffset ∧
      (0 ≤ f.preambleTolLo ∧ f.preambleTolLo ≤ 255) ∧ (0 ≤ f.preambleTolNormal ∧ f.preambleTolNormal ≤ 255) ∧
      (0 ≤ f.preambleTolHi ∧ f.preambleTolHi ≤ 255)
    (∀ f, Ok f → Identified memory d →
      ∃ bs, bs.length = 56 ∧ bytesToBits bs = fieldBits (SystemFile.factorySettings f).fields ∧
        r = .ok [answered rand []] ∧ Put 1 bs d s'.data) ∧
    (¬ ((∃ f, Ok f) ∧ Identified memory d) → (∃ e, r = .error e) ∧ s'.data = d) := by
  intro Ok
  have hi : Idle (Loop.start config d) := start_idle hk d
  obtain ⟨k1, k2, k3⟩ := Prg.once hi rfl h
  constructor
  · intro f h3 h5
    obtain ⟨bs, g3, g4, g2⟩ := Prg.factory_request rand h3.1 h3.2
    obtain ⟨j1, j2⟩ := k1 _ _ g2 (Upd.piece_valid (by decide) (by intro hx; subst hx; cases g3) (by omega))
      (Upd.piece_fits _ _ _ (by omega)) h5
    refine ⟨bs, g3, g4, j1, ?_⟩
    rw [j2]
    exact Prg.put_write _ bs d
  · intro h3
    by_cases h4 : Identified memory d
    · exact k3 .valueError ((C70_factory rand args false).2 fun f h5 h6 => h3 ⟨⟨f, h5, h6⟩, h4⟩)
    · exact k2 h4

/-- The default settings are accepted. -/
example : FactorySettingsFile.new FactorySettingsFile.defaultArgs = .ok SystemFiles.defaultFactorySettings ∧
    SystemFiles.defaultFactorySettings.gain = 0 ∧ SystemFiles.defaultFactorySettings.preambleTolLo ≤ 255 := by
  decide

/-- C91, the engineering mode program without `-f`, until it begins to wait for an interrupt: if the options are accepted
and the device tells its version, then it has executed one command, and the device holds the mode, the timeout, the
channel and the power in file 5, and the factory settings in file 1 if one of them was given; nothing else has changed. In
all other cases the program ends by an exception before it has executed a command, and the device is as it was. -/
theorem C91_engineering {config : Config} (hk : config.skip = false) {d : UInt8 → Nat → UInt8} {tag rand : UInt8}
    {a : EngineeringArgs} (ha : a.forward = false) {n : Nat} {r : Option PyErr} {s' : Loop (UInt8 → Nat → UInt8)}
    (h : EngineeringProgram (Connected memory tag) (Returned memory) rand a (Loop.start config d) n r s') :
    let timeout := fun m : EngineeringModeMode => if m = .PER_TX ∧ a.timeout = 0 then 255 else a.timeout
    let factory := a.factoryGaussian ≠ 0xFF ∨ a.factoryParamp ≠ 0xFF
    let Ok := fun (m : EngineeringModeMode) (ch : ChannelID) => ChannelID.fromString a.channelId = .ok ch ∧
      EngineeringModeMode.fromString a.mode = .ok m ∧
      (0 ≤ timeout m ∧ timeout m ≤ 255) ∧ (-128 ≤ a.eirp ∧ a.eirp ≤ 127) ∧
      (factory → (0 ≤ a.factoryGaussian ∧ a.factoryGaussian ≤ 3) ∧
        (0 ≤ a.factoryParamp ∧ a.factoryParamp ≤ 0xFFFF))
    (∀ m ch, Ok m ch → Identified memory d → n = 1 ∧ r = none ∧
      ∃ eb fb d1, eb.length = 9 ∧ fb.length = 56 ∧
        bytesToBits eb = fieldBits (SystemFile.engineeringMode ⟨m, 0, timeout m, ch, a.eirp⟩).fields ∧
        (factory → bytesToBits fb = fieldBits (SystemFile.factorySettings { SystemFiles.defaultFactorySettings with
          gaussian := a.factoryGaussian, paramp := a.factoryParamp }).fields) ∧
        (if factory then Put 1 fb d d1 else d1 = d) ∧ Put 5 eb d1 s'.data) ∧
    (¬ ((∃ m ch, Ok m ch) ∧ Identified memory d) → n = 0 ∧ (∃ e, r = some e) ∧ s'.data = d) := by
  intro timeout factory Ok
  have hi : Idle (Loop.start config d) := start_idle hk d
  have hcmd : ∀ m ch, Ok m ch → ∃ c, engineeringCommand rand a = .ok c := fun m ch ho => by
    obtain ⟨eb, fb, -, -, -, -, g⟩ := Prg.engineering_request rand a m ch ha ho.1 ho.2.1 ho.2.2.1 ho.2.2.2.1 ho.2.2.2.2
    exact ⟨_, g⟩
  have hfile : ∀ {c}, engineeringCommand rand a = .ok c → ∃ em, engineeringFile a = .ok em := by
    intro c hc
    unfold engineeringCommand at hc
    cases he : engineeringFile a with
    | error e => rw [he] at hc; cases hc
    | ok em => exact ⟨em, rfl⟩
  have hrej : ∀ {c}, engineeringCommand rand a = .ok c → ∃ m ch, Ok m ch := by
    intro c hc
    obtain ⟨em, he⟩ := hfile hc
    unfold engineeringFile at he
    cases h1 : ChannelID.fromString a.channelId with
    | error e => rw [h1] at he; cases he
    | ok ch =>
      cases h2 : EngineeringModeMode.fromString a.mode with
      | error e => rw [h1, h2] at he; cases he
      | ok m =>
        refine ⟨m, ch, h1, h2, ?_⟩
        by_contra hno
        have := (C70_engineering_partial rand a m ch h1 h2).2 hno
        rw [hc] at this
        cases this
  cases h with
  | rejected e h1 =>
    refine ⟨fun m ch ho _ => ?_, fun _ => ⟨rfl, ⟨e, rfl⟩, rfl⟩⟩
    obtain ⟨c, hc⟩ := hcmd m ch ho
    obtain ⟨em, he⟩ := hfile hc
    exact absurd (h1.symm.trans he) (by simp)
  | unconnected _ em e h1 h2 =>
    obtain ⟨-, h3, h4⟩ := Prg.connected hi rfl h2
    exact ⟨fun m ch _ hd => absurd (h4.2 hd) (by simp), fun _ => ⟨rfl, ⟨e, rfl⟩, h3⟩⟩
  | unmade _ em e h1 h2 h3 =>
    obtain ⟨-, h4, -⟩ := Prg.connected hi rfl h2
    refine ⟨fun m ch ho _ => ?_, fun _ => ⟨rfl, ⟨e, rfl⟩, h4⟩⟩
    obtain ⟨c, hc⟩ := hcmd m ch ho
    exact absurd (h3.symm.trans hc) (by simp)
  | loop s1 _ c _ _ h1 h2 h3 =>
    obtain ⟨h4, h5, h6⟩ := Prg.connected hi rfl h1
    have hd : Identified memory d := h6.1 rfl
    refine ⟨fun m ch ho _ => ?_, fun hno => absurd ⟨hrej h2, hd⟩ hno⟩
    obtain ⟨eb, fb, g1, g2, g3, g4, g5⟩ :=
      Prg.engineering_request rand a m ch ha ho.1 ho.2.1 ho.2.2.1 ho.2.2.2.1 ho.2.2.2.2
    rw [h2] at g5
    injection g5 with g5
    subst g5
    have hne : ∀ {l : List UInt8} {k : Nat}, l.length = k + 1 → l ≠ [] := fun hl hx => by subst hx; cases hl
    have hr : ∀ {r1 s2}, Returned memory s1 (request rand
        ((if a.factoryGaussian ≠ 0xFF ∨ a.factoryParamp ≠ 0xFF then [.write 1 0 fb] else []) ++ [.write 5 0 eb])) r1 s2 →
        r1 = .ok [answered rand []] ∧
        s2.data = memory.write (if factory then memory.write d 1 0 fb else d) 5 0 eb := by
      intro r1 s2 hx
      by_cases hf : factory
      · rw [if_pos hf] at hx
        obtain ⟨e1, e2, -⟩ := Upd.returned h4 (by
          intro op hop
          simp only [List.cons_append, List.nil_append, List.mem_cons, List.not_mem_nil, or_false] at hop
          rcases hop with rfl | rfl
          · exact ⟨by decide, hne g2, by omega⟩
          · exact ⟨by decide, hne g1, by omega⟩) (by
          simp [requestBytes, FileOp.bytes, encode, g1, g2]) hx
        rw [e1, e2, if_pos hf, h5]
        exact ⟨rfl, rfl⟩
      · rw [if_neg hf] at hx
        obtain ⟨e1, e2, -⟩ := Upd.returned h4 (by
          intro op hop
          simp only [List.nil_append, List.mem_cons, List.not_mem_nil, or_false] at hop
          subst hop
          exact ⟨by decide, hne g1, by omega⟩) (by
          simp [requestBytes, FileOp.bytes, encode, g1]) hx
        rw [e1, e2, if_neg hf, h5]
        exact ⟨rfl, rfl⟩
    have key : ∀ {x : Loop (UInt8 → Nat → UInt8)},
        x.data = memory.write (if factory then memory.write d 1 0 fb else d) 5 0 eb →
        ∃ eb fb d1, eb.length = 9 ∧ fb.length = 56 ∧
        bytesToBits eb = fieldBits (SystemFile.engineeringMode ⟨m, 0, timeout m, ch, a.eirp⟩).fields ∧
        (factory → bytesToBits fb = fieldBits (SystemFile.factorySettings { SystemFiles.defaultFactorySettings with
          gaussian := a.factoryGaussian, paramp := a.factoryParamp }).fields) ∧
        (if factory then Put 1 fb d d1 else d1 = d) ∧ Put 5 eb d1 x.data := by
      intro x hx
      refine ⟨eb, fb, if factory then memory.write d 1 0 fb else d, g1, g2, g3, g4, ?_, ?_⟩
      · by_cases hf : factory
        · rw [if_pos hf, if_pos hf]; exact Prg.put_write 1 fb d
        · rw [if_neg hf, if_neg hf]
      · rw [hx]; exact Prg.put_write 5 eb _
    cases h3 with
    | raised _ _ e k1 => exact absurd (hr k1).1 (by simp)
    | done _ _ as k1 k2 => exact ⟨rfl, rfl, key (hr k1).2⟩
    | broken _ _ as e k1 k2 =>
      have := (hr k1).1
      injection this with this
      subst this
      exact absurd k2 (by simp [confirm, answered])
    | again _ s2 _ as n r k1 k2 k3 =>
      have := (hr k1).1
      injection this with this
      subst this
      exact absurd k2 (by simp [confirm, answered])

/-- Options that are accepted, with factory settings. -/
example :
    ChannelID.fromString ['8', '6', '8', 'L', 'P', '0', '2', '5'] = .ok ⟨⟨.PN9, .LO_RATE, .BAND_868⟩, 25⟩ ∧
    EngineeringModeMode.fromString "PER_TX" = .ok .PER_TX ∧
    (engineeringCommand 7 { channelId := ['8', '6', '8', 'L', 'P', '0', '2', '5'], mode := "PER_TX"
                            factoryGaussian := 1, factoryParamp := 50 }).isOk = true := by
  decide +kernel

/-- C91, the PHY status program: with a device that tells its version it ends normally after one answer with the first 45
bytes of file 9, and the device is as it was. If the device holds a status with at most 10 channels there, then this
status is what the bytes of the answer are parsed as. With any other device it ends by an exception. -/
theorem C91_phy {config : Config} (hk : config.skip = false) {d : UInt8 → Nat → UInt8} {tag rand : UInt8}
    {r : Except PyErr (List Command)} {s' : Loop (UInt8 → Nat → UInt8)}
    (h : Once (Connected memory tag) (Returned memory) (readPhyCommand rand) (Loop.start config d) r s') :
    s'.data = d ∧
    (Identified memory d → ∃ data, (∀ i, i < 45 → data[i]? = some (d 9 i)) ∧ data.length = 45 ∧
      r = .ok [answered rand [(9, 0, data)]] ∧
      ∀ f : PhyStatusFile, f.Built → (f.channelStatusIdentifier.length : Int) = f.channelStatusListLength →
        (f.channelNoiseFloor.length : Int) = f.channelStatusListLength → f.channelStatusListLength ≤ 10 → (∃ bs, bytearray f.iter = .ok bs ∧ ∀ i, (h : i < bs.length) → d 9 i = bs[i]) →
        ∃ st, PhyStatusFile.parse (stream data) = .ok f st) ∧
    (¬ Identified memory d → ∃ e, r = .error e) := by
  have hi : Idle (Loop.start config d) := start_idle hk d
  obtain ⟨k1, k2, k3⟩ := Prg.once hi rfl h
  by_cases hd : Identified memory d
  · obtain ⟨j1, j2⟩ := k1 _ _ (Prg.phy_request rand) (by
      intro op hop
      rw [List.mem_singleton] at hop
      subst hop
      exact ⟨by decide, by decide⟩) (by simp [requestBytes, FileOp.bytes, encode]) hd
    refine ⟨j2, fun _ => ⟨(List.range 45).map fun i => d 9 (0 + i), ?_, by simp, j1, ?_⟩, fun hx => absurd hd hx⟩
    · intro i hi'
      rw [List.getElem?_map, List.getElem?_range hi']
      simp
    · rintro f hf l1 l2 hl ⟨bs, hb, hbs⟩
      have hs := (C15_phy_status_serialises f hf).1.1 ⟨bs, hb⟩
      rw [List.take_of_length_le (by omega)] at hs
      have hrt := C15_phy_status_partial f hf l1 l2 hs
      have hlen : bs.length ≤ 45 := by
        obtain ⟨bs', e, l, -⟩ := hrt
        rw [hb] at e
        injection e with e
        subst e
        omega
      refine reread (roundTrips_reading hrt) hb (rest := ((List.range 45).map fun i => d 9 (0 + i)).drop bs.length) ?_ (by simp; omega)
      rw [List.length_map, List.length_range, List.take_of_length_le hlen]
      conv => lhs; rw [← List.take_append_drop bs.length ((List.range 45).map fun i => d 9 (0 + i))]
      congr 1
      apply List.ext_getElem
      · simp; omega
      · intro i h1 h2
        simp [hbs i h2]
  · exact ⟨(k2 hd).2, fun hx => absurd hx hd, fun _ => (k2 hd).1⟩

/-- A status with one channel, and a device that holds it. -/
example : let f : PhyStatusFile := ⟨1, 2, 3, 4, 1, [⟨.BAND_868, .kHz200, 0⟩], [90]⟩
    let d : UInt8 → Nat → UInt8 := fun file i =>
      if file = 9 then (((bytearray f.iter).toOption.getD [])[i]?).getD 0 else 0x41
    f.Built ∧ ((bytearray f.iter).toOption.map fun bs => decide (∀ i, (h : i < bs.length) → d 9 i = bs[i])) = some true ∧
    Identified memory d :=
  ⟨⟨[⟨.BAND_868, .kHz200, 0⟩], [90], by decide, by decide⟩, by decide +kernel, (C91_identified _).2 fun _ _ => by
    simp only [if_neg (show ¬ (2 : UInt8) = 9 by decide)]; decide⟩

/-- C91, the programs come to their end: with any device, any options and any random tags, each of the four programs can
be run until it has ended (or waits for an interrupt), so that the theorems above are about every device and all
options. -/
theorem C91_ends {config : Config} (hk : config.skip = false) (d : UInt8 → Nat → UInt8) (tag rand : UInt8) :
    (∀ a, ∃ r s', ProfileProgram (Connected memory tag) (Returned memory) rand a (Loop.start config d) r s') ∧
    (∀ args, ∃ r s', Once (Connected memory tag) (Returned memory) (factoryCommand rand args false) (Loop.start config d)
      r s') ∧
    (∀ a : EngineeringArgs, a.forward = false →
      ∃ n r s', EngineeringProgram (Connected memory tag) (Returned memory) rand a (Loop.start config d) n r s') ∧
    ∃ r s', Once (Connected memory tag) (Returned memory) (readPhyCommand rand) (Loop.start config d) r s' := by
  have hi : Idle (Loop.start config d) := start_idle hk d
  have hm := Prg.memory_identifies tag d
  have hne : ∀ {l : List UInt8} {k : Nat}, l.length = k + 1 → l ≠ [] := fun hl hx => by subst hx; cases hl
  have hans : (answer rand []).length ≤ 255 := by simp [answer]
  refine ⟨fun a => ?_, fun args => ?_, fun a ha => ?_, ?_⟩
  · cases hc : ChannelID.fromString a.channelId with
    | error e => exact ⟨_, _, .channel _ e hc⟩
    | ok ch =>
      obtain ⟨r, s', h⟩ := Prg.once_ends (command := profileCommand rand a) tag hi rfl hm (fun c h1 => by
        have hok := Classical.not_not.1 fun hno => by
          have := (C70_profile rand a ch hc).2 hno
          rw [h1] at this
          cases this
        obtain ⟨period, bs, -, g2, g3, -⟩ := Prg.profile_request rand a ch hc hok
        rw [h1] at g2
        injection g2 with g2
        exact ⟨rand, _, g2, Upd.piece_valid (by decide) (hne g3) (by omega), Upd.piece_fits _ _ _ (by omega), hans⟩)
      exact ⟨r, s', .once _ _ ch r hc h⟩
  · refine Prg.once_ends tag hi rfl hm fun c h1 => ?_
    have hok : ∃ f, FactorySettingsFile.new args = .ok f ∧ f.Fits := by
      by_contra hno
      have := (C70_factory rand args false).2 fun f h2 h3 => hno ⟨f, h2, h3⟩
      rw [h1] at this
      cases this
    obtain ⟨f, h2, h3⟩ := hok
    obtain ⟨bs, g3, -, g2⟩ := Prg.factory_request rand h2 h3
    rw [h1] at g2
    injection g2 with g2
    exact ⟨rand, _, g2, Upd.piece_valid (by decide) (hne g3) (by omega), Upd.piece_fits _ _ _ (by omega), hans⟩
  · cases he : engineeringFile a with
    | error e => exact ⟨_, _, _, .rejected _ e he⟩
    | ok em =>
      obtain ⟨r, s1, h1⟩ := Prg.connects hi rfl tag hm
      obtain ⟨h2, h3, -⟩ := Prg.connected hi rfl h1
      cases r with
      | some e => exact ⟨_, _, _, .unconnected _ s1 em e he h1⟩
      | none =>
        cases hc : engineeringCommand rand a with
        | error e => exact ⟨_, _, _, .unmade _ s1 em e he h1 hc⟩
        | ok c =>
          unfold engineeringFile at he
          cases k1 : ChannelID.fromString a.channelId with
          | error e => rw [k1] at he; cases he
          | ok ch =>
            cases k2 : EngineeringModeMode.fromString a.mode with
            | error e => rw [k1, k2] at he; cases he
            | ok m =>
              have hok := Classical.not_not.1 fun hno => by
                have := (C70_engineering_partial rand a m ch k1 k2).2 hno
                rw [hc] at this
                cases this
              obtain ⟨eb, fb, g1, g2, -, -, g5⟩ :=
                Prg.engineering_request rand a m ch ha k1 k2 hok.1 hok.2.1 hok.2.2
              have hg := g5
              rw [hc] at hg
              injection hg with hg
              subst hg
              have hv : ∀ op ∈ (if a.factoryGaussian ≠ 0xFF ∨ a.factoryParamp ≠ 0xFF then [FileOp.write 1 0 fb] else []) ++
                  [FileOp.write 5 0 eb], op.Valid := by
                intro op hop
                rcases List.mem_append.1 hop with hop | hop
                · split at hop
                  · rw [List.mem_singleton] at hop
                    subst hop
                    exact ⟨by decide, hne g2, by omega⟩
                  · cases hop
                · rw [List.mem_singleton] at hop
                  subst hop
                  exact ⟨by decide, hne g1, by omega⟩
              have hres : memory.results s1.data ((if a.factoryGaussian ≠ 0xFF ∨ a.factoryParamp ≠ 0xFF then
                  [FileOp.write 1 0 fb] else []) ++ [FileOp.write 5 0 eb]) = [] := by
                split <;> rfl
              obtain ⟨s', h4, -⟩ := Upd.returns (tag := rand) h2 hv (by
                split <;> simp [requestBytes, FileOp.bytes, encode, g1, g2]) (by rw [hres]; exact hans)
              rw [hres] at h4
              exact ⟨1, none, s', .loop _ s1 _ _ _ _ h1 hc (.done _ _ _ h4 (by simp [confirm, answered]))⟩
  · refine Prg.once_ends tag hi rfl hm fun c h1 => ?_
    rw [Prg.phy_request] at h1
    injection h1 with h1
    refine ⟨rand, _, h1.symm, ?_, by simp [requestBytes, FileOp.bytes, encode], ?_⟩
    · intro op hop
      rw [List.mem_singleton] at hop
      subst hop
      exact ⟨by decide, by decide⟩
    · simp [answer, Device.results, returned, memory, encode]

/-- A device and options with which the access profile program writes the profile: an end exists, and by `C91_profile` it
is the good one. -/
example : ∃ s', ProfileProgram (Connected memory 1) (Returned memory) 7
      { channelId := ['8', '6', '8', 'L', 'P', '0', '2', '5'], eirp := 10, specifier := 3
        scanAutomationPeriod := 1024, subbandBitmap := 1 }
      (Loop.start noCallbacks fun _ _ => 0x41) (.ok [answered 7 []]) s' ∧
      ∃ bs, bs.length = 65 ∧ Put 0x23 bs (fun _ _ => 0x41) s'.data := by
  obtain ⟨r, s', h⟩ := (C91_ends (config := noCallbacks) rfl (fun _ _ => 0x41) 1 7).1
    { channelId := ['8', '6', '8', 'L', 'P', '0', '2', '5'], eirp := 10, specifier := 3
      scanAutomationPeriod := 1024, subbandBitmap := 1 }
  obtain ⟨period, bs, -, h2, h3, h4, h5⟩ := (C91_profile rfl h).1 ⟨⟨.PN9, .LO_RATE, .BAND_868⟩, 25⟩ (by decide +kernel)
    (by decide) ((C91_identified _).2 fun _ _ => by decide)
  subst h4
  exact ⟨s', h, bs, h2, h5⟩

/-! ### With `-f` -/

theorem broadcast_describes : Describes [6, 0, 0, 0x11, 2] broadcast :=
  ⟨⟨by decide, by decide, (by intro c h; cases h; decide)⟩, by decide⟩

/-- C91, the factory settings program with `-f`, for receive levels up to 127 (C78): when the options are accepted, the
call of `execute_command`, after any earlier calls and in every interleaving, makes the gateway send to every node one
command that writes the 56 bytes of the settings to file 1, and the program gets the answers of the nodes. -/
theorem C91_factory_forwarded {D : Type} {config : Config} (hk : config.skip = false) {g : Gateway D}
    (hg : g.Conforms) {air : Air D} (hf : g.Forwards air) {d : D} {before during : List NetEvent} {last : NetEvent}
    {s s1 s' : Net D} {rand : UInt8} {args f : FactorySettingsFile} {c : Command} {o : Outcome}
    (hn : FactorySettingsFile.new args = .ok f) (hc : factoryCommand rand args true = .ok c)
    (hx : ∀ ops, ∀ x ∈ (air s.data broadcast ops).2, x.Readable)
    (hp : ∀ e ∈ before, Polite e) (h0 : (Net.start config d).run g before = some s)
    (h1 : s.run g (.call (.execute c 10) :: during) = some s1) (hu : s1.modem.outcomes = s.modem.outcomes)
    (h2 : s1.step g last = some s') (ho : s'.modem.outcomes = s.modem.outcomes ++ [o]) :
    o = .list s.modem.responses.length ∧
    ∃ bs, bs.length = 56 ∧ bytesToBits bs = fieldBits (SystemFile.factorySettings f).fields ∧
      s'.data = (air s.data broadcast [.write 1 0 bs]).1 ∧
      Brings rand (air s.data broadcast [.write 1 0 bs]).2 (content s'.modem.responses s.modem.responses.length) := by
  have hfits : f.Fits := by
    by_contra hno
    have := (C70_factory rand args true).2 fun f' h3 h4 => by
      rw [hn] at h3
      cases h3
      exact hno h4
    rw [hc] at this
    cases this
  obtain ⟨bs, g1, g2, g3⟩ := Prg.factory_asking rand hn hfits
  rw [hc] at g3
  injection g3 with g3
  subst g3
  obtain ⟨e1, e2, e3⟩ := C78_query_partial hk hg hf (by decide) broadcast_describes
    (Upd.piece_valid (by decide) (by intro hx; subst hx; cases g1) (by omega))
    (by simp [askingBytes, FileOp.bytes, encode, g1]) (hx _) hp h0 h1 hu h2 ho
  exact ⟨e1, bs, g1, g2, e3, e2⟩

/-- The default settings are accepted with `-f` too. -/
example : FactorySettingsFile.new FactorySettingsFile.defaultArgs = .ok SystemFiles.defaultFactorySettings ∧
    (factoryCommand 7 FactorySettingsFile.defaultArgs true).isOk = true := by
  decide +kernel

/-- C91, the engineering mode program with `-f`, for receive levels up to 127 (C78): each call of `execute_command` in its
loop makes the gateway send to every node one command that writes the nine bytes of the mode, the timeout, the channel
and the power to file 5, and before that the factory settings to file 1 if one of them was given. -/
theorem C91_engineering_forwarded {D : Type} {config : Config} (hk : config.skip = false) {g : Gateway D}
    (hg : g.Conforms) {air : Air D} (hf : g.Forwards air) {d : D} {before during : List NetEvent} {last : NetEvent}
    {s s1 s' : Net D} {rand : UInt8} {a : EngineeringArgs} {m : EngineeringModeMode} {ch : ChannelID} {c : Command}
    {o : Outcome} (ha : a.forward = true) (hch : ChannelID.fromString a.channelId = .ok ch)
    (hm : EngineeringModeMode.fromString a.mode = .ok m) (hc : engineeringCommand rand a = .ok c)
    (hx : ∀ ops, ∀ x ∈ (air s.data broadcast ops).2, x.Readable)
    (hp : ∀ e ∈ before, Polite e) (h0 : (Net.start config d).run g before = some s)
    (h1 : s.run g (.call (.execute c 10) :: during) = some s1) (hu : s1.modem.outcomes = s.modem.outcomes)
    (h2 : s1.step g last = some s') (ho : s'.modem.outcomes = s.modem.outcomes ++ [o]) :
    let timeout := if m = .PER_TX ∧ a.timeout = 0 then 255 else a.timeout
    let factory := a.factoryGaussian ≠ 0xFF ∨ a.factoryParamp ≠ 0xFF
    o = .list s.modem.responses.length ∧
    ∃ eb fb, eb.length = 9 ∧ fb.length = 56 ∧
      bytesToBits eb = fieldBits (SystemFile.engineeringMode ⟨m, 0, timeout, ch, a.eirp⟩).fields ∧
      (factory → bytesToBits fb = fieldBits (SystemFile.factorySettings { SystemFiles.defaultFactorySettings with
        gaussian := a.factoryGaussian, paramp := a.factoryParamp }).fields) ∧
      let ops := (if factory then [FileOp.write 1 0 fb] else []) ++ [.write 5 0 eb]
      s'.data = (air s.data broadcast ops).1 ∧
      Brings rand (air s.data broadcast ops).2 (content s'.modem.responses s.modem.responses.length) := by
  intro timeout factory
  have hok := Classical.not_not.1 fun hno => by
    have := (C70_engineering_partial rand a m ch hch hm).2 hno
    rw [hc] at this
    cases this
  obtain ⟨eb, fb, g1, g2, g3, g4, g5⟩ :=
    Prg.engineering_request rand { a with forward := false } m ch rfl hch hm hok.1 hok.2.1 hok.2.2
  have g6 := Prg.engineering_asking rand a g5 ha
  rw [hc] at g6
  injection g6 with g6
  subst g6
  have hne : ∀ {l : List UInt8} {k : Nat}, l.length = k + 1 → l ≠ [] := fun hl hx => by subst hx; cases hl
  obtain ⟨e1, e2, e3⟩ := C78_query_partial hk hg hf (by decide) broadcast_describes (by
      intro op hop
      rcases List.mem_append.1 hop with hop | hop
      · split at hop
        · rw [List.mem_singleton] at hop
          subst hop
          exact ⟨by decide, hne g2, by omega⟩
        · cases hop
      · rw [List.mem_singleton] at hop
        subst hop
        exact ⟨by decide, hne g1, by omega⟩)
    (by split <;> simp [askingBytes, FileOp.bytes, encode, g1, g2]) (hx _) hp h0 h1 hu h2 ho
  exact ⟨e1, eb, fb, g1, g2, g3, g4, e3, e2⟩

/-- Options that are accepted, for the nodes. -/
example :
    ChannelID.fromString ['8', '6', '8', 'L', 'P', '0', '2', '5'] = .ok ⟨⟨.PN9, .LO_RATE, .BAND_868⟩, 25⟩ ∧
    EngineeringModeMode.fromString "CONT_TX" = .ok .CONT_TX ∧
    (engineeringCommand 7 { channelId := ['8', '6', '8', 'L', 'P', '0', '2', '5'], mode := "CONT_TX"
                            forward := true }).isOk = true := by
  decide +kernel

end Verif.Modem
