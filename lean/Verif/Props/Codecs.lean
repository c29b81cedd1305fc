import Verif.Lemmas.Invert

/-! C06, C08-C14: acceptance by the constructors and byte round trips of the PHY, file system,
addressee, D7ASP and operand classes. -/

namespace Verif

/-! ## C06 PHY objects -/

/-- C06: a channel header is one byte and parses back. -/
theorem C06_channel_header (h : ChannelHeader) : RoundTrips h.iter ChannelHeader.parse h 1 :=
  h.codec.roundTrips

example : bytearray (ChannelHeader.iter ⟨.FEC_PN9, .NORMAL_RATE, .BAND_868⟩) = .ok [0x3A] := by
  decide

/-- C06: a channel index is accepted iff it is a 16-bit number. -/
theorem C06_channel_id_accepts (h : ChannelHeader) (i : Int) :
    AcceptsIff (ChannelID.new h i) (0 ≤ i ∧ i ≤ 65535) := validate_acceptsIff

example : ChannelID.new ⟨.PN9, .LO_RATE, .BAND_433⟩ 65536 = .error .valueError := by decide

/-- C06: an accepted channel id is 3 bytes and parses back. -/
theorem C06_channel_id (h : ChannelHeader) (i : Int) (c : ChannelID)
    (hc : ChannelID.new h i = .ok c) :
    c = ⟨h, i⟩ ∧ RoundTrips c.iter ChannelID.parse c 3 := by
  obtain ⟨h1, rfl⟩ := validate_eq_ok.1 hc
  exact ⟨rfl, (ChannelID.codec (c := ⟨_, _⟩) h1).roundTrips⟩

example : ChannelID.new ⟨.PN9, .LO_RATE, .BAND_433⟩ 0x1234 =
    .ok ⟨⟨.PN9, .LO_RATE, .BAND_433⟩, 0x1234⟩ := by decide

/-- C06: what a subband accepts. -/
theorem C06_subband_accepts (start stop eirp cca duty : Int) :
    AcceptsIff (SubBand.new start stop eirp cca duty)
      ((0 ≤ start ∧ start ≤ 65535) ∧ (0 ≤ stop ∧ stop ≤ 65535) ∧ (-128 ≤ eirp ∧ eirp ≤ 127) ∧
        (0 ≤ cca ∧ cca ≤ 255) ∧ (0 ≤ duty ∧ duty ≤ 255)) := validate_acceptsIff

example : SubBand.new 0 270 (-129) 86 255 = .error .valueError := by decide

/-- C06: an accepted subband is 7 bytes and parses back (also with a negative EIRP). -/
theorem C06_subband (start stop eirp cca duty : Int) (b : SubBand)
    (h : SubBand.new start stop eirp cca duty = .ok b) :
    b = ⟨start, stop, eirp, cca, duty⟩ ∧ RoundTrips b.iter SubBand.parse b 7 := by
  obtain ⟨h1, rfl⟩ := validate_eq_ok.1 h
  exact ⟨rfl, (SubBand.codec (b := ⟨_, _, _, _, _⟩) h1).roundTrips⟩

example : SubBand.new 0 270 (-30) 86 255 = .ok ⟨0, 270, -30, 86, 255⟩ := by decide

/-- C06: what a channel status identifier accepts. -/
theorem C06_channel_status_identifier_accepts (b : ChannelBand) (w : Bandwidth) (i : Int) :
    AcceptsIff (ChannelStatusIdentifier.new b w i) (0 ≤ i ∧ i ≤ 1039) := validate_acceptsIff

example : ChannelStatusIdentifier.new .BAND_868 .kHz25 1040 = .error .valueError := by decide

/-- C06: an accepted channel status identifier is 2 bytes and parses back. -/
theorem C06_channel_status_identifier (b : ChannelBand) (w : Bandwidth) (i : Int)
    (c : ChannelStatusIdentifier) (h : ChannelStatusIdentifier.new b w i = .ok c) :
    c = ⟨b, w, i⟩ ∧ RoundTrips c.iter ChannelStatusIdentifier.parse c 2 := by
  obtain ⟨h1, rfl⟩ := validate_eq_ok.1 h
  exact ⟨rfl, (ChannelStatusIdentifier.codec (c := ⟨_, _, _⟩) h1).roundTrips⟩

example : ChannelStatusIdentifier.new .BAND_868 .kHz25 1039 = .ok ⟨.BAND_868, .kHz25, 1039⟩ := by
  decide

/-! ## C08 file system metadata -/

/-- C08: file permissions are one byte and parse back. -/
theorem C08_file_permissions (p : FilePermissions) :
    RoundTrips p.iter FilePermissions.parse p 1 := p.codec.roundTrips

example : bytearray (FilePermissions.iter ⟨true, false, true, true, true, false, false, true⟩) = .ok [0xB9] := by
  decide

/-- C08: distinct permission sets have distinct bytes. -/
theorem C08_file_permissions_injective (p q : FilePermissions)
    (h : bytearray p.iter = bytearray q.iter) : p = q := by
  obtain ⟨a, e, -, r⟩ := C08_file_permissions p
  obtain ⟨b, e', -, r'⟩ := C08_file_permissions q
  rw [e, e'] at h
  injection h with h
  subst h
  have := r []
  rw [r' []] at this
  injection this with h1 _
  exact h1.symm

example : bytearray (FilePermissions.iter ⟨true, false, true, true, true, false, false, true⟩) ≠
    bytearray (FilePermissions.iter ⟨true, false, true, true, true, false, false, false⟩) := by decide

/-- C08: file properties are one byte and parse back. -/
theorem C08_file_properties (p : FileProperties) :
    RoundTrips p.iter FileProperties.parse p 1 := p.codec.roundTrips

example : bytearray (FileProperties.iter ⟨true, .WRITE, .PERMANENT⟩) = .ok [0xA3] := by decide

/-- C08: what a file header accepts. -/
theorem C08_file_header_accepts (p : FilePermissions) (q : FileProperties) (a i s n : Int) :
    AcceptsIff (FileHeader.new p q a i s n)
      ((0 ≤ a ∧ a ≤ 255) ∧ (0 ≤ i ∧ i ≤ 255) ∧ (0 ≤ s ∧ s ≤ 0xFFFFFFFF) ∧
        (0 ≤ n ∧ n ≤ 0xFFFFFFFF)) := validate_acceptsIff

example : FileHeader.new ⟨true, false, true, true, true, false, false, true⟩ ⟨false, .READ, .VOLATILE⟩ 1 256 0 0 =
    .error .valueError := by decide

/-- C08: an accepted file header is 12 bytes and parses back. -/
theorem C08_file_header (p : FilePermissions) (q : FileProperties) (a i s n : Int) (f : FileHeader)
    (h : FileHeader.new p q a i s n = .ok f) :
    f = ⟨p, q, a, i, s, n⟩ ∧ RoundTrips f.iter FileHeader.parse f 12 := by
  obtain ⟨h1, rfl⟩ := validate_eq_ok.1 h
  exact ⟨rfl, (FileHeader.codec (h := ⟨_, _, _, _, _, _⟩) h1).roundTrips⟩

example : ∃ f, FileHeader.new ⟨true, false, true, true, true, false, false, true⟩ ⟨false, .READ, .VOLATILE⟩ 1 2 0xDEADBEEF
    0xFFFFFFFF = .ok f := ⟨_, rfl⟩

/-- C08: an accepted file header operand is 13 bytes and parses back. -/
theorem C08_file_header_operand (o : FileHeaderOperand) (h : o.Built) :
    RoundTrips o.iter FileHeaderOperand.parse o 13 :=
  (FileHeaderOperand.codec (FileHeaderOperand.built_iff.1 h)).roundTrips

/-- C08: a file header operand accepts exactly the byte file ids. -/
theorem C08_file_header_operand_accepts (i : Int) (f : FileHeader) :
    AcceptsIff (FileHeaderOperand.new i f) (0 ≤ i ∧ i ≤ 255) := validate_acceptsIff

example : FileHeaderOperand.Built ⟨0x40, ⟨⟨true, false, true, true, true, false, false, true⟩,
    ⟨false, .READ, .VOLATILE⟩, 1, 2, 0xDEADBEEF, 0xFFFFFFFF⟩⟩ := by decide

/-! ## C09 addressee -/

/-- The identifiers an addressee of each type may have. -/
def validId : IdType → AddrId → Prop
  | .NOID, i => i = .none
  | .NBID, i => ∃ c, i = .ct c
  | .VID, i => ∃ v, i = .int v ∧ 0 ≤ v ∧ v ≤ 0xFFFF
  | .UID, i => ∃ v, i = .int v ∧ 0 ≤ v ∧ v ≤ 0xFFFFFFFFFFFFFFFF

/-- C09: what an addressee accepts. -/
theorem C09_addressee_accepts (ac : Int) (t : IdType) (i : AddrId) (n : NlsMethod) :
    AcceptsIff (Addressee.new ac t i n) ((0 ≤ ac ∧ ac ≤ 255) ∧ validId t i) := by
  have : validId t i ↔ Addressee.idOk t i = true := by
    cases t <;> cases i <;> simp [validId, Addressee.idOk]
  rw [this]
  exact validate_acceptsIff

example : Addressee.new 0x21 .VID (.int 0x10000) .NONE = .error .valueError ∧
    Addressee.new 0x21 .NOID (.int 0) .NONE = .error .valueError ∧
    Addressee.new 0x21 .NOID .none .NONE = .ok ⟨0x21, .NOID, .none, .NONE⟩ := by decide

/-- Number of bytes of the identifier. -/
def idBytes : IdType → Nat
  | .NBID => 1 | .NOID => 0 | .VID => 2 | .UID => 8

private theorem lengthFor_eq (t : IdType) : Addressee.lengthFor t = idBytes t := by cases t <;> rfl

/-- C09, full claim restricted to addressees whose identifier is not a compressed time:
2 + id bytes, and parses back. What is missing for the full claim: NBID (see
`C09_addressee_round_trip_iff`). -/
theorem C09_addressee_round_trip_partial (a : Addressee) (h : a.Built) (hn : a.idType ≠ .NBID) :
    RoundTrips a.iter Addressee.parse a (2 + idBytes a.idType) := by
  have hok := Addressee.built_iff.1 h
  have hf : a.Faithful := by
    intro c hc
    obtain ⟨-, h2, -⟩ := hok
    rw [hc] at h2
    cases ht : a.idType <;> simp_all [Addressee.idOk]
  have := (Addressee.codec hok hf).roundTrips
  rwa [lengthFor_eq] at this

example : Addressee.Built ⟨0x21, .UID, .int 0xB57000009151D, .AES_CCM_32⟩ := by
  refine ⟨by decide, ?_⟩; intro c h; cases h

/-- C09: every accepted addressee serialises to 2 + id bytes and these bytes always parse; access
class, id type and security method come back, and so do all identifiers except that the byte of a
compressed time is taken for a plain number and compressed again. -/
theorem C09_addressee_reread (a : Addressee) (h : a.Built) :
    ∃ b, RoundTrips a.iter Addressee.parse b (2 + idBytes a.idType) ∧
      b.accessClass = a.accessClass ∧ b.idType = a.idType ∧ b.nlsMethod = a.nlsMethod ∧
      (∀ c, a.id = .ct c → ∃ c', b.id = .ct c' ∧ CT.compress (32 * c.exp + c.mant) = .ok (some c'))
      ∧ ((∀ c, a.id ≠ .ct c) → b.id = a.id) := by
  have hok := Addressee.built_iff.1 h
  refine ⟨a.reread, ?_, rfl, rfl, rfl, ?_, ?_⟩
  · have := (Addressee.codec_reread hok).roundTrips
    rwa [lengthFor_eq] at this
  · intro c hc
    obtain ⟨ac, t, i, n⟩ := a
    simp only at hc
    subst hc
    obtain ⟨-, h2, h3⟩ := hok
    obtain ⟨⟨_, _⟩, _, _⟩ := h3 c rfl
    cases t <;> simp [Addressee.idOk] at h2
    have e := Addressee.compress_byte (c.exp * 32 + c.mant).toNat (by omega)
    rw [mul_comm 32, ← Int.toNat_of_nonneg (a := c.exp * 32 + c.mant) (by omega)]
    exact ⟨_, rfl, e⟩
  · intro hn
    rw [Addressee.reread_eq hok (fun c hc => absurd hc (hn c))]

example : Addressee.Built ⟨0x01, .NBID, .ct ⟨2, 2⟩, .NONE⟩ := by
  refine ⟨by decide, ?_⟩; rintro c ⟨⟩; decide

private theorem compress_fixed (c : CT) (h : c.Ok) :
    CT.compress (32 * c.exp + c.mant) = .ok (some c) ↔ c.exp = 0 ∨ c = ⟨1, 11⟩ := by
  have key : ∀ (x : Fin 8) (m : Fin 32),
      CT.compress (32 * (x.val : Int) + m.val) = .ok (some ⟨x.val, m.val⟩) ↔
        (x.val : Int) = 0 ∨ (⟨x.val, m.val⟩ : CT) = ⟨1, 11⟩ := by decide
  obtain ⟨x, m⟩ := c
  obtain ⟨⟨h1, h2⟩, h3, h4⟩ := h
  simp only at h1 h2 h3 h4
  have := key ⟨x.toNat, by omega⟩ ⟨m.toNat, by omega⟩
  simpa only [Int.toNat_of_nonneg h1, Int.toNat_of_nonneg h3] using this

/-- C09: exactly which addressees survive: all but those with a compressed time other than
0..31 or 4*11. -/
theorem C09_addressee_round_trip_iff (a : Addressee) (h : a.Built) :
    (∃ n, RoundTrips a.iter Addressee.parse a n) ↔
      ∀ c, a.id = .ct c → c.exp = 0 ∨ c = ⟨1, 11⟩ := by
  obtain ⟨b, hb, b1, b2, b3, b4, b5⟩ := C09_addressee_reread a h
  have key : (∃ n, RoundTrips a.iter Addressee.parse a n) ↔ b = a := by
    constructor
    · rintro ⟨n, hn⟩; exact (hb.unique hn).1
    · rintro rfl; exact ⟨_, hb⟩
  rw [key]
  have key2 : b = a ↔ b.id = a.id := by
    obtain ⟨_, _, _, _⟩ := a
    obtain ⟨_, _, _, _⟩ := b
    simp_all
  rw [key2]
  by_cases hc : ∃ c, a.id = .ct c
  · obtain ⟨c, hc⟩ := hc
    obtain ⟨c', hc', e⟩ := b4 c hc
    have hok := (Addressee.built_iff.1 h).2.2 c hc
    rw [hc, hc']
    simp only [AddrId.ct.injEq, forall_eq']
    have k := compress_fixed c hok
    rw [e] at k
    simpa using k
  · have : ∀ c, a.id ≠ .ct c := fun c hcc => hc ⟨c, hcc⟩
    simp only [b5 this, true_iff]
    exact fun c hcc => absurd hcc (this c)

example : (∃ n, RoundTrips (Addressee.iter ⟨0x01, .NBID, .ct ⟨1, 11⟩, .NONE⟩) Addressee.parse ⟨0x01, .NBID, .ct ⟨1, 11⟩, .NONE⟩ n) ∧
    ¬ ∃ n, RoundTrips (Addressee.iter ⟨0x01, .NBID, .ct ⟨2, 2⟩, .NONE⟩) Addressee.parse ⟨0x01, .NBID, .ct ⟨2, 2⟩, .NONE⟩ n := by
  rw [C09_addressee_round_trip_iff _ (by refine ⟨by decide, ?_⟩; rintro c ⟨⟩; decide),
    C09_addressee_round_trip_iff _ (by refine ⟨by decide, ?_⟩; rintro c ⟨⟩; decide)]
  exact ⟨fun c h => by cases h; decide, fun h => absurd (h _ rfl) (by decide)⟩

/-- C09 is false as stated: the estimated number of responders
CT(2, 2) = 32 (byte 66) comes back as CT(1, 17) = 68, the compression of the number 66. -/
theorem C09_nbid_not_preserved :
    ∃ a b : Addressee, a.Built ∧ RoundTrips a.iter Addressee.parse b 3 ∧
      a.id = .ct ⟨2, 2⟩ ∧ b.id = .ct ⟨1, 17⟩ := by
  have hb : Addressee.Built ⟨1, .NBID, .ct ⟨2, 2⟩, .NONE⟩ := by
    refine ⟨by decide, ?_⟩; intro c h; injection h with h; subst h; decide
  refine ⟨_, _, hb, (Addressee.codec_reread (Addressee.built_iff.1 hb)).roundTrips, rfl, by decide⟩

/-! ## C10 QoS and configuration -/

/-- C10: QoS is one byte and parses back. -/
theorem C10_qos (q : QoS) : RoundTrips q.iter QoS.parse q 1 := q.codec.roundTrips

example : bytearray (QoS.iter ⟨.PREFERRED, .NO, true, true⟩) = .ok [0xC6] := by decide

/-- C10: a configuration comes back exactly iff its addressee does. The full claim fails only for
NBID addressees (C09). -/
theorem C10_configuration_round_trip_partial (c : Configuration) (h : c.Built)
    (hn : c.addressee.idType ≠ .NBID) :
    RoundTrips c.iter Configuration.parse c (4 + idBytes c.addressee.idType) := by
  obtain ⟨hct, ha⟩ := h
  obtain ⟨b1, e1, l1, r1⟩ := Configuration.codec_reread (Configuration.built_iff.1 ⟨hct, ha⟩)
  have hu := (C09_addressee_round_trip_partial c.addressee ha hn).unique
    (Addressee.codec_reread (Addressee.built_iff.1 ha)).roundTrips
  have : c.reread = c := by
    obtain ⟨q, d, a⟩ := c
    simp only [Configuration.reread] at hu ⊢
    rw [← hu.1]
  rw [this] at r1
  have := Codec.roundTrips ⟨b1, e1, l1, r1⟩
  have hl : 4 + Addressee.lengthFor c.addressee.idType = 4 + idBytes c.addressee.idType := by
    cases c.addressee.idType <;> rfl
  rwa [hl] at this

example : RoundTrips (Configuration.iter ⟨⟨.ANY, .NO, false, true⟩, ⟨3, 4⟩, ⟨1, .VID, .int 0x1234, .NONE⟩⟩) Configuration.parse
    ⟨⟨.ANY, .NO, false, true⟩, ⟨3, 4⟩, ⟨1, .VID, .int 0x1234, .NONE⟩⟩ 6 :=
  C10_configuration_round_trip_partial _ (by refine ⟨by decide, by decide, ?_⟩; intro c h; cases h) (by decide)

/-- C10: exactly which configurations survive. -/
theorem C10_configuration_round_trip_iff (c : Configuration) (h : c.Built) :
    (∃ n, RoundTrips c.iter Configuration.parse c n) ↔
      ∀ t, c.addressee.id = .ct t → t.exp = 0 ∨ t = ⟨1, 11⟩ := by
  have hc := (Configuration.codec_reread (Configuration.built_iff.1 h)).roundTrips
  have ha := (Addressee.codec_reread (Addressee.built_iff.1 h.2)).roundTrips
  rw [← C09_addressee_round_trip_iff _ h.2]
  constructor
  · rintro ⟨n, hn⟩
    have := (hc.unique hn).1
    have : c.addressee.reread = c.addressee := congrArg Configuration.addressee this
    rw [this] at ha
    exact ⟨_, ha⟩
  · rintro ⟨n, hn⟩
    have := (ha.unique hn).1
    have e : c.reread = c := by
      obtain ⟨q, d, a⟩ := c
      simp only [Configuration.reread] at this ⊢
      rw [this]
    rw [e] at hc
    exact ⟨_, hc⟩

example : Configuration.Built ⟨⟨.ANY, .NO, false, true⟩, ⟨3, 4⟩, ⟨1, .VID, .int 0x1234, .NONE⟩⟩ := by
  refine ⟨by decide, by decide, ?_⟩; intro c h; cases h

/-! ## C11 D7ASP status -/

/-- C11: what a status accepts. -/
theorem C11_status_accepts (ch : ChannelID) (rx lb tx : Int) (n m r u : Bool) (f q : Int) (t : CT)
    (a : Addressee) :
    AcceptsIff (Status.new ch rx lb tx n m r u f q t a)
      ((0 ≤ rx ∧ rx ≤ 255) ∧ (0 ≤ lb ∧ lb ≤ 255) ∧ (0 ≤ tx ∧ tx ≤ 255) ∧ (0 ≤ f ∧ f ≤ 255) ∧
        (0 ≤ q ∧ q ≤ 255)) := validate_acceptsIff

example : Status.new ⟨⟨.PN9, .LO_RATE, .BAND_868⟩, 16⟩ 70 80 256 false true false true 200 0 ⟨2, 20⟩
    ⟨0x21, .NOID, .none, .NONE⟩ = .error .valueError := by decide

/-- C11, for receive levels up to 127 and addressees that survive (C09). Missing: the rest, for
which the claim is false (`C11_status_high_rx_level`, `C11_status_round_trip_iff`). -/
theorem C11_status_round_trip_partial (s : Status) (h : s.Built) (hrx : s.rxLevel ≤ 127)
    (hn : s.addressee.idType ≠ .NBID) :
    RoundTrips s.iter Status.parse s (10 + (2 + idBytes s.addressee.idType)) := by
  obtain ⟨b1, e1, l1, r1⟩ := Status.codec_reread (Status.built_iff.1 h) hrx
  have ha := h.2.2.2
  have hu := (C09_addressee_round_trip_partial s.addressee ha hn).unique
    (Addressee.codec_reread (Addressee.built_iff.1 ha)).roundTrips
  have : s.reread = s := by
    unfold Status.reread
    rw [← hu.1]
  rw [this] at r1
  have := Codec.roundTrips ⟨b1, e1, l1, r1⟩
  have hl : 12 + Addressee.lengthFor s.addressee.idType =
      10 + (2 + idBytes s.addressee.idType) := by
    cases s.addressee.idType <;> rfl
  rwa [hl] at this

example : Status.Built ⟨⟨⟨.PN9, .LO_RATE, .BAND_868⟩, 16⟩, 127, 80, 80, false, true, false, true, 200,
    0, ⟨2, 20⟩, ⟨0x21, .VID, .int 0xB570, .NONE⟩⟩ := by
  refine ⟨by decide, by decide, by decide, by decide, ?_⟩; intro c h; cases h

/-- C11 is false for receive levels of 128 and more: the status serialises, but parsing its bytes
raises ValueError. -/
theorem C11_status_high_rx_level (s : Status) (h : s.Built) (hrx : 128 ≤ s.rxLevel) :
    ∃ bs, bytearray s.iter = .ok bs ∧
      ∀ following, ∃ t, Status.parse (stream (bs ++ following)) = .err .valueError t := by
  obtain ⟨bs, e, f⟩ := Status.fails (Status.built_iff.1 h) (by omega)
  refine ⟨bs, e, fun fo => ?_⟩
  have := f 0 (bytesToBits fo)
  simpa [stream] using this

example : Status.Built ⟨⟨⟨.PN9, .LO_RATE, .BAND_868⟩, 16⟩, 128, 80, 80, false, true, false, true, 200,
    0, ⟨2, 20⟩, ⟨0x21, .VID, .int 0xB570, .NONE⟩⟩ := by
  refine ⟨by decide, by decide, by decide, by decide, ?_⟩; intro c h; cases h

/-- C11: exactly which statuses survive. -/
theorem C11_status_round_trip_iff (s : Status) (h : s.Built) :
    (∃ n, RoundTrips s.iter Status.parse s n) ↔
      s.rxLevel ≤ 127 ∧ ∀ t, s.addressee.id = .ct t → t.exp = 0 ∨ t = ⟨1, 11⟩ := by
  have ha := (Addressee.codec_reread (Addressee.built_iff.1 h.2.2.2)).roundTrips
  rw [← C09_addressee_round_trip_iff _ h.2.2.2]
  by_cases hrx : s.rxLevel ≤ 127
  · have hc := (Status.codec_reread (Status.built_iff.1 h) hrx).roundTrips
    simp only [hrx, true_and]
    constructor
    · rintro ⟨n, hn⟩
      have := (hc.unique hn).1
      have : s.addressee.reread = s.addressee := congrArg Status.addressee this
      rw [this] at ha
      exact ⟨_, ha⟩
    · rintro ⟨n, hn⟩
      have := (ha.unique hn).1
      have e : s.reread = s := by unfold Status.reread; rw [this]
      rw [e] at hc
      exact ⟨_, hc⟩
  · simp only [hrx, false_and, iff_false]
    rintro ⟨n, bs, e, -, r⟩
    obtain ⟨bs', e', f⟩ := C11_status_high_rx_level s h (by omega)
    rw [e] at e'
    injection e' with e'
    subst e'
    obtain ⟨t, ht⟩ := f []
    rw [r []] at ht
    cases ht

example : Status.Built ⟨⟨⟨.PN9, .LO_RATE, .BAND_868⟩, 16⟩, 70, 80, 80, false, true, false, true, 200,
    0, ⟨2, 20⟩, ⟨0x21, .UID, .int 0xB57000009151D, .NONE⟩⟩ := by
  refine ⟨by decide, by decide, by decide, by decide, ?_⟩; intro c h; cases h
example : Status.Built ⟨⟨⟨.PN9, .LO_RATE, .BAND_868⟩, 16⟩, 130, 80, 80, false, true, false, true,
    200, 0, ⟨2, 20⟩, ⟨0x21, .NOID, .none, .NONE⟩⟩ := by
  refine ⟨by decide, by decide, by decide, by decide, ?_⟩; intro c h; cases h

/-! ## C12 file operands -/

/-- C12: an offset operand accepts exactly the byte file ids. -/
theorem C12_offset_accepts (i : Int) (l : Length) :
    AcceptsIff (Offset.new i l) (0 ≤ i ∧ i ≤ 255) := validate_acceptsIff

example : Offset.new 256 ⟨0⟩ = .error .valueError ∧ Offset.new 255 ⟨0⟩ = .ok ⟨255, ⟨0⟩⟩ := by decide

/-- C12: offset operands: 1 byte id plus the length field. -/
theorem C12_offset (o : Offset) (h : o.Built) :
    ∃ n, 2 ≤ n ∧ n ≤ 5 ∧ RoundTrips o.iter Offset.parse o n := by
  have hok := Offset.built_iff.1 h
  refine ⟨_, ?_, ?_, (Offset.codec hok).roundTrips⟩ <;>
  · have := Length.size_cases _ hok.2
    omega

example : Offset.Built ⟨0x40, ⟨20000⟩⟩ ∧ bytearray (Offset.iter ⟨0x40, ⟨20000⟩⟩) = .ok [0x40, 0x80, 0x4E, 0x20] := by
  decide

/-- C12: a data request accepts exactly the lengths 0..2^30-1. -/
theorem C12_data_request_accepts (l : Int) (o : Offset) :
    AcceptsIff (DataRequest.new l o) (0 ≤ l ∧ l ≤ 0x3FFFFFFF) := by
  unfold DataRequest.new Length.new validate
  constructor
  · split <;> simp_all [bind, Except.bind, pure, Except.pure]
  · intro h; rw [if_neg h]; rfl

example : DataRequest.new (-1) ⟨0x40, ⟨0⟩⟩ = .error .valueError ∧
    DataRequest.new 0x40000000 ⟨0x40, ⟨0⟩⟩ = .error .valueError := by decide

/-- C12: data request operands. -/
theorem C12_data_request (d : DataRequest) (h : d.Built) :
    ∃ n, RoundTrips d.iter AlpParser.parseFileDataRequestOperand d n :=
  ⟨_, (DataRequest.codec (DataRequest.built_iff.1 h)).roundTrips⟩

example : DataRequest.Built ⟨⟨0x40, ⟨70⟩⟩, ⟨0⟩⟩ ∧ bytearray (DataRequest.iter ⟨⟨0x40, ⟨70⟩⟩, ⟨0⟩⟩) = .ok [0x40, 0x40, 70, 0] := by
  decide

/-- C12: a data operand accepts exactly the lists of bytes shorter than 2^30. -/
theorem C12_data_accepts (l : List Int) (o : Offset) :
    AcceptsIff (Data.new l o) (l.length ≤ 0x3FFFFFFF ∧ ∀ x ∈ l, 0 ≤ x ∧ x ≤ 255) := by
  have e : Data.new l o = validate ((0 ≤ (l.length : Int) ∧ (l.length : Int) ≤ 0x3FFFFFFF) ∧
      isBytes l) ⟨o, ⟨l.length⟩, l⟩ := by
    unfold Data.new Length.new validate
    by_cases h1 : 0 ≤ (l.length : Int) ∧ (l.length : Int) ≤ 0x3FFFFFFF
    · by_cases h2 : isBytes l
      · rw [if_pos h1, if_pos ⟨h1, h2⟩]; simp only [bind, Except.bind]; rw [if_pos h2]
      · rw [if_pos h1, if_neg (fun h => h2 h.2)]; simp only [bind, Except.bind]; rw [if_neg h2]
    · rw [if_neg h1, if_neg (fun h => h1 h.1)]; rfl
  have e2 : (l.length ≤ 0x3FFFFFFF ∧ ∀ x ∈ l, 0 ≤ x ∧ x ≤ 255) ↔
      ((0 ≤ (l.length : Int) ∧ (l.length : Int) ≤ 0x3FFFFFFF) ∧ isBytes l) := by
    unfold isBytes
    refine and_congr_left fun _ => ?_
    omega
  rw [e, e2]
  exact validate_acceptsIff

example : Data.new [1, 256] ⟨0x40, ⟨0⟩⟩ = .error .valueError ∧
    Data.new [] ⟨0x40, ⟨0⟩⟩ = .ok ⟨⟨0x40, ⟨0⟩⟩, ⟨0⟩, []⟩ := by decide

/-- C12: data operands of every length. -/
theorem C12_data (d : Data) (h : d.Built) :
    ∃ n, RoundTrips d.iter AlpParser.parseReturnFileDataOperand d n :=
  ⟨_, (Data.codec (Data.built_iff.1 h)).roundTrips⟩

example : Data.Built ⟨⟨0x40, ⟨70⟩⟩, ⟨3⟩, [1, 2, 255]⟩ := by decide
example : DataRequest.Built ⟨⟨0x40, ⟨70⟩⟩, ⟨100000⟩⟩ := by decide
example : ¬ Data.Built ⟨⟨0x40, ⟨0⟩⟩, ⟨1⟩, [256]⟩ := by decide

/-! ## C13 queries -/

/-- C13 for the queries the parser supports: arithmetic comparison with a value, no mask, with a
length field equal to the number of value bytes. For all others the claim is false
(`C13_query_round_trip_iff`). -/
theorem C13_query_partial (q : QueryOperand) (h : q.Built) (ht : q.type = .ARITH_COMP_WITH_VALUE)
    (hm : q.maskPresent = false) (hl : q.compareLength.value = q.compareValue.length) :
    ∃ n, RoundTrips q.iter QueryOperand.parse q n :=
  ⟨_, (QueryOperand.codec (QueryOperand.built_iff.1 h) ⟨ht, hm, hl⟩).roundTrips⟩

example : ∃ n, RoundTrips (QueryOperand.iter ⟨.ARITH_COMP_WITH_VALUE, false, ⟨true, .LESS_THAN⟩, ⟨2⟩, [0, 25], ⟨0x40, ⟨4⟩⟩⟩)
    QueryOperand.parse ⟨.ARITH_COMP_WITH_VALUE, false, ⟨true, .LESS_THAN⟩, ⟨2⟩, [0, 25], ⟨0x40, ⟨4⟩⟩⟩ n :=
  C13_query_partial _ (by decide) rfl rfl rfl

/-- C13: exactly which queries survive. -/
theorem C13_query_round_trip_iff (q : QueryOperand) (h : q.Built) :
    (∃ n, RoundTrips q.iter QueryOperand.parse q n) ↔
      q.type = .ARITH_COMP_WITH_VALUE ∧ q.maskPresent = false ∧
      q.compareLength.value = q.compareValue.length := by
  constructor
  · rintro ⟨n, bs, -, -, r⟩
    exact QueryOperand.parse_inv (r [])
  · rintro ⟨h1, h2, h3⟩
    exact C13_query_partial q h h1 h2 h3

/-- A length field that does not count the value. -/
example : ¬ ∃ n, RoundTrips (QueryOperand.iter ⟨.ARITH_COMP_WITH_VALUE, false, ⟨true, .LESS_THAN⟩, ⟨3⟩, [0, 25], ⟨0x40, ⟨4⟩⟩⟩)
    QueryOperand.parse ⟨.ARITH_COMP_WITH_VALUE, false, ⟨true, .LESS_THAN⟩, ⟨3⟩, [0, 25], ⟨0x40, ⟨4⟩⟩⟩ n := by
  rw [C13_query_round_trip_iff _ (by decide)]
  exact fun h => absurd h.2.2 (by decide)

/-- C13: every accepted query serialises, also the unsupported ones. -/
theorem C13_query_serialises (q : QueryOperand) (h : q.Built) :
    ∃ bs, bytearray q.iter = .ok bs := by
  obtain ⟨_, _, _, _, e⟩ := QueryOperand.emits (QueryOperand.built_iff.1 h)
  exact ⟨_, e⟩

example : bytearray (QueryOperand.iter ⟨.ARITH_COMP_WITH_VALUE, false, ⟨true, .LESS_THAN⟩, ⟨2⟩, [0, 25],
    ⟨0x40, ⟨4⟩⟩⟩) = .ok [0x4A, 2, 0, 25, 0x40, 4] := by decide

/-- C13: the query constructor accepts exactly lists of bytes as value. -/
theorem C13_query_accepts (t : QueryType) (m : Bool) (p : ArithQueryParams) (l : Length)
    (v : List Int) (o : Offset) :
    AcceptsIff (QueryOperand.new t m p l v o) (∀ x ∈ v, 0 ≤ x ∧ x ≤ 255) := validate_acceptsIff

example : QueryOperand.Built ⟨.ARITH_COMP_WITH_VALUE, false, ⟨true, .LESS_THAN⟩, ⟨2⟩, [0, 25],
    ⟨0x40, ⟨4⟩⟩⟩ := by decide
example : QueryOperand.Built ⟨.RANGE_COMP, true, ⟨true, .LESS_THAN⟩, ⟨2⟩, [0], ⟨0x40, ⟨4⟩⟩⟩ := by
  decide

/-! ## C14 LoRaWAN and interface configuration -/

/-- C14: an ABP configuration serialises iff its numbers fit, then to 11 bytes that parse back. -/
theorem C14_abp (c : LoRaWANABP) :
    ((∃ bs, bytearray c.iter = .ok bs) ↔
      (0 ≤ c.appPort ∧ c.appPort ≤ 255) ∧ (0 ≤ c.dataRate ∧ c.dataRate ≤ 255) ∧
      (0 ≤ c.devAddr ∧ c.devAddr < 2 ^ 32) ∧ (0 ≤ c.netwId ∧ c.netwId < 2 ^ 32)) ∧
    ((∃ bs, bytearray c.iter = .ok bs) → RoundTrips c.iter LoRaWANABP.parse c 11) := by
  have h1 : (∃ bs, bytearray c.iter = .ok bs) → c.InRange :=
    fun ⟨_, e⟩ => LoRaWANABP.inRange_of_emits e
  refine ⟨⟨h1, fun h => ?_⟩, fun h => (LoRaWANABP.codec (h1 h)).roundTrips⟩
  obtain ⟨bs, e, -⟩ := (LoRaWANABP.codec (c := c) h).roundTrips
  exact ⟨bs, e⟩

example : bytearray (LoRaWANABP.iter ⟨true, false, 1, 2, 3, 0x01020304⟩) =
    .ok [4, 1, 2, 0, 0, 0, 3, 1, 2, 3, 4] := by decide

/-- C14: an OTAA configuration serialises iff its numbers fit, then to 3 bytes that parse back. -/
theorem C14_otaa (c : LoRaWANOTAA) :
    ((∃ bs, bytearray c.iter = .ok bs) ↔
      (0 ≤ c.appPort ∧ c.appPort ≤ 255) ∧ (0 ≤ c.dataRate ∧ c.dataRate ≤ 255)) ∧
    ((∃ bs, bytearray c.iter = .ok bs) → RoundTrips c.iter LoRaWANOTAA.parse c 3) := by
  have h1 : (∃ bs, bytearray c.iter = .ok bs) → c.InRange :=
    fun ⟨_, e⟩ => LoRaWANOTAA.inRange_of_emits e
  refine ⟨⟨h1, fun h => ?_⟩, fun h => (LoRaWANOTAA.codec (h1 h)).roundTrips⟩
  obtain ⟨bs, e, -⟩ := (LoRaWANOTAA.codec (c := c) h).roundTrips
  exact ⟨bs, e⟩

example : bytearray (LoRaWANOTAA.iter ⟨false, true, 1, 2⟩) = .ok [2, 1, 2] := by decide

/-- The interface ids. -/
def interfaceCode : InterfaceType → UInt8
  | .HOST => 0 | .SERIAL => 1 | .LORAWAN_ABP => 2 | .LORAWAN_OTAA => 3 | .D7ASP => 0xD7

/-- C14: an interface configuration operand is the interface id followed by the bytes of the
configuration, if any. -/
theorem C14_interface_configuration (t : InterfaceType) :
    bytearray (InterfaceConfiguration.iter ⟨t, none⟩) = .ok [interfaceCode t] ∧
    ∀ c bs, bytearray (IfaceConfig.iter c) = .ok bs →
      bytearray (InterfaceConfiguration.iter ⟨t, some c⟩) = .ok (interfaceCode t :: bs) := by
  refine ⟨by cases t <;> decide, fun c bs h => ?_⟩
  have h1 : Emits (.int t.value) [interfaceCode t] := by unfold Emits; cases t <;> decide
  exact Emits.append h1 h

example : bytearray (InterfaceConfiguration.iter ⟨.LORAWAN_OTAA, some (.otaa ⟨false, true, 1, 2⟩)⟩) =
    .ok (interfaceCode .LORAWAN_OTAA :: [2, 1, 2]) := (C14_interface_configuration _).2 _ _ (by decide)

end Verif
