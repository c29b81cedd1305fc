import Verif.Lemmas.DllParser
import Verif.Props.Commands

/-! C39–C43, C52, C53: DLL, D7ANP and D7ATP frames. -/

namespace Verif.Dll

open Verif

/-! ## C39 control bytes -/

/-- C39, foreground control: the constructor accepts exactly the EIRP indices 0..63. -/
theorem C39_foreground_accepts (t : IdType) (e : Int) :
    AcceptsIff (ForegroundFrameControl.new t e) (0 ≤ e ∧ e ≤ 63) := by
  refine ⟨⟨fun ⟨a, h⟩ => (validate_eq_ok.mp h).1, fun h => ⟨_, validate_of h⟩⟩, fun h => ?_⟩
  exact validate_eq_error.mpr ⟨h, rfl⟩

example : ForegroundFrameControl.new .VID 64 = .error .valueError := by decide

theorem C39_background_accepts (t : IdType) (e : Int) :
    AcceptsIff (BackgroundFrameControl.new t e) (0 ≤ e ∧ e ≤ 63) := by
  refine ⟨⟨fun ⟨a, h⟩ => (validate_eq_ok.mp h).1, fun h => ⟨_, validate_of h⟩⟩, fun h => ?_⟩
  exact validate_eq_error.mpr ⟨h, rfl⟩

example : BackgroundFrameControl.new .VID (-1) = .error .valueError := by decide

private theorem byte_bits (t : IdType) (e : Int) (h0 : 0 ≤ e) (h1 : e ≤ 63) :
    ∃ b : UInt8, Emits (.int (Int.lor 0 (t.value <<ₚ 6) + e)) [b] ∧
      bytesToBits [b] = bitsOf 2 t.code ++ bitsOf 6 e.toNat := by
  have hv : Int.lor 0 (t.value <<ₚ 6) = 64 * t.code := by cases t <;> decide
  have hc : t.code < 4 := code_lt t
  refine ⟨UInt8.ofNat (64 * t.code + e).toNat, ?_, ?_⟩
  · rw [hv]
    exact Emits.int (by omega) (by omega)
  · rw [bytesToBits_cons, bytesToBits_nil, List.append_nil, ofNat_toNat_u8 (by omega),
      ← bitsOf_append 2 6 _ _ (by omega)]
    congr 1
    omega

/-- C39, foreground control: one byte — two bits of id type, six bits of EIRP index — that parses
back to an equal object. -/
theorem C39_foreground (c : ForegroundFrameControl)
    (h : ForegroundFrameControl.new c.idType c.eirpIndex = .ok c) :
    RoundTrips c.iter ForegroundFrameControl.parse c 1 ∧
    HasLayout c.iter [(2, c.idType.code), (6, c.eirpIndex.toNat)] := by
  obtain ⟨h0, h1⟩ := (validate_eq_ok.mp h).1
  obtain ⟨b, e, hb⟩ := byte_bits c.idType c.eirpIndex h0 h1
  refine ⟨⟨[b], e, rfl, fun following => ?_⟩, [b], e, ?_, ?_⟩
  · have := fgControl_reads c.idType c.eirpIndex.toNat (by omega) 0 (bytesToBits following)
    rw [← hb, ← bytesToBits_append] at this
    rw [stream, this, Int.toNat_of_nonneg h0]
    rfl
  · rw [hb]; simp [fieldBits]
  · have := code_lt c.idType
    simp only [List.mem_cons, List.not_mem_nil, or_false]
    rintro f (rfl | rfl)
    · exact this
    · simp only; omega

example : ForegroundFrameControl.new .NOID 42 = .ok ⟨.NOID, 42⟩ := by decide

/-- C39, background control: one byte — two bits of id type, six bits of tag — that parses back to
an equal object. -/
theorem C39_background (c : BackgroundFrameControl)
    (h : BackgroundFrameControl.new c.idType c.tag = .ok c) :
    RoundTrips c.iter BackgroundFrameControl.parse c 1 ∧
    HasLayout c.iter [(2, c.idType.code), (6, c.tag.toNat)] := by
  obtain ⟨h0, h1⟩ := (validate_eq_ok.mp h).1
  obtain ⟨b, e, hb⟩ := byte_bits c.idType c.tag h0 h1
  refine ⟨⟨[b], e, rfl, fun following => ?_⟩, [b], e, ?_, ?_⟩
  · have := bgControl_reads c.idType c.tag.toNat (by omega) 0 (bytesToBits following)
    rw [← hb, ← bytesToBits_append] at this
    rw [stream, this, Int.toNat_of_nonneg h0]
    rfl
  · rw [hb]; simp [fieldBits]
  · have := code_lt c.idType
    simp only [List.mem_cons, List.not_mem_nil, or_false]
    rintro f (rfl | rfl)
    · exact this
    · simp only; omega

example : ForegroundFrameControl.new .VID 63 = .ok ⟨.VID, 63⟩ := by decide
example : BackgroundFrameControl.new .UID 5 = .ok ⟨.UID, 5⟩ := by decide

private theorem tp_byte : ∀ a b c d e f g : Bool,
    (0 ≤ (D7atp.Control.mk a b c d e f g).byte ∧ (D7atp.Control.mk a b c d e f g).byte ≤ 255) ∧
    bitsOf 8 (D7atp.Control.mk a b c d e f g).byte.toNat = [a, false, b, c, d, e, f, g] := by
  decide

private theorem tp_emits (c : D7atp.Control) :
    Emits c.iter [UInt8.ofNat c.byte.toNat] ∧ bytesToBits [UInt8.ofNat c.byte.toNat] =
      [c.isDialogStart, false, c.hasTl, c.hasTe, c.isAckRequested, c.isAckNotVoid,
        c.isAckRecordRequested, c.hasAgc] := by
  obtain ⟨a, b, d, e, f, g, i⟩ := c
  obtain ⟨⟨h0, h1⟩, h2⟩ := tp_byte a b d e f g i
  refine ⟨Emits.int h0 h1, ?_⟩
  rw [bytesToBits_cons, bytesToBits_nil, List.append_nil, ofNat_toNat_u8 (by omega), h2]

/-- C39, transport control: one byte of flags (bit 6 is RFU and zero) that parses back to an equal
object, for all 128 combinations. -/
theorem C39_d7atp (c : D7atp.Control) :
    RoundTrips c.iter D7atp.Control.parse c 1 ∧
    HasLayout c.iter [flag c.isDialogStart, (1, 0), flag c.hasTl, flag c.hasTe,
      flag c.isAckRequested, flag c.isAckNotVoid, flag c.isAckRecordRequested, flag c.hasAgc] := by
  obtain ⟨e, hb⟩ := tp_emits c
  refine ⟨⟨_, e, rfl, fun following => ?_⟩, _, e, ?_, ?_⟩
  · have := tpControl_reads c.isDialogStart false c.hasTl c.hasTe c.isAckRequested c.isAckNotVoid
      c.isAckRecordRequested c.hasAgc 0 (bytesToBits following)
    rw [← hb, ← bytesToBits_append] at this
    rw [stream, this]
    rfl
  · rw [hb]
    simp [fieldBits_cons, bits_flag, bitsOf]
  · intro f hf
    simp only [List.mem_cons, List.not_mem_nil, or_false] at hf
    rcases hf with rfl | rfl | rfl | rfl | rfl | rfl | rfl | rfl <;>
      first | decide | (simp only [flag]; split <;> decide)

example : bytearray (D7atp.Control.iter ⟨true, false, true, true, false, false, true⟩) = .ok [0x99] := by decide

/-- C39: the RFU bit of a received transport control byte does not matter. -/
theorem C39_d7atp_rfu (b b' : UInt8) (h : b.toNat % 64 = b'.toNat % 64)
    (h' : b.toNat / 128 = b'.toNat / 128) (following : List UInt8) :
    D7atp.Control.parse (stream (b :: following)) =
      D7atp.Control.parse (stream (b' :: following)) := by
  have key : ∀ b : UInt8, bytesToBits (b :: following) = [b.toNat / 128 % 2 == 1,
      b.toNat / 64 % 2 == 1, b.toNat / 32 % 2 == 1, b.toNat / 16 % 2 == 1, b.toNat / 8 % 2 == 1,
      b.toNat / 4 % 2 == 1, b.toNat / 2 % 2 == 1, b.toNat % 2 == 1] ++ bytesToBits following := by
    intro b
    rw [bytesToBits_cons]
    simp only [bitsOf, Nat.testBit_eq_decide_div_mod_eq, Nat.reducePow, List.nil_append, List.cons_append,
      Nat.div_one]
    rfl
  unfold stream
  rw [key, key, tpControl_reads, tpControl_reads]
  have e5 : b.toNat / 32 % 2 = b'.toNat / 32 % 2 := by omega
  have e4 : b.toNat / 16 % 2 = b'.toNat / 16 % 2 := by omega
  have e3 : b.toNat / 8 % 2 = b'.toNat / 8 % 2 := by omega
  have e2 : b.toNat / 4 % 2 = b'.toNat / 4 % 2 := by omega
  have e1 : b.toNat / 2 % 2 = b'.toNat / 2 % 2 := by omega
  have e0 : b.toNat % 2 = b'.toNat % 2 := by omega
  rw [h', e5, e4, e3, e2, e1, e0]
  rfl

example : ((0xE9 : UInt8).toNat % 64 = (0xA9 : UInt8).toNat % 64) ∧
    (0xE9 : UInt8).toNat / 128 = (0xA9 : UInt8).toNat / 128 := by decide

/-! ## C40 dissection -/

/-- The frame of the examples: a request with a VID target and a UID origin, AGC and all timing
fields, and a read action as ALP command. -/
def sample : Air where
  subnet := 0x25
  targetType := .VID
  eirp := 42
  target := [0xAB, 0xCD]
  origin := some (.UID, [1, 2, 3, 4, 5, 6, 7, 8])
  unusedIdType := .NOID
  accessClass := 0x21
  dialogStart := true
  rfu := false
  ackRequested := true
  dialogId := 0xF3
  transactionId := 7
  agc := some 16
  tl := some ⟨2, 20⟩
  te := some ⟨0, 31⟩
  tc := some ⟨7, 1⟩
  alp := [1, 0x40, 0, 8]
  crc := (0x12, 0x34)

def sampleCommand : Command :=
  ⟨[.regular false false (.readFileData ⟨⟨0x40, ⟨0⟩⟩, ⟨8⟩⟩)], none, false, none, true, false, none⟩

theorem sample_alp : AlpParser.parse sample.alp.length (stream sample.alp) =
    .ok sampleCommand ⟨8 * sample.alp.length, []⟩ := by
  rfl

theorem sample_length : sample.length = 27 := by
  rw [length_eq]
  rfl

theorem sample_valid : sample.Valid where
  eirp := by decide
  target := by decide
  origin := by
    intro t id h
    simp only [sample, Option.some.injEq, Prod.mk.injEq] at h
    obtain ⟨rfl, rfl⟩ := h
    exact ⟨.inr rfl, rfl⟩
  agc := by intro g h; simp only [sample, Option.some.injEq] at h; omega
  tl := by intro c h; simp only [sample, Option.some.injEq] at h; subst h; decide
  te := by intro c h; simp only [sample, Option.some.injEq] at h; subst h; decide
  tc := by intro c h; simp only [sample, Option.some.injEq] at h; subst h; decide
  tcPresent := rfl

/-- C40: a foreground parser with an empty buffer, given the bytes of a frame and any further bytes,
returns exactly this frame — all fields of the three layers and the ALP command — reports its size,
and keeps exactly the further bytes. The length and subnet bytes are below 128 (see C41) and the ALP
part is one that the ALP parser reads completely. -/
theorem C40_foreground (a : Air) (command : Command) (valid : a.Valid) (length : a.length < 128)
    (subnet : a.subnet.toNat < 128)
    (alp : AlpParser.parse a.alp.length (stream a.alp) = .ok command ⟨8 * a.alp.length, []⟩)
    (following : List UInt8) :
    (Parser.new .FOREGROUND).parse (a.bytes ++ following) =
      (⟨following, .FOREGROUND⟩, .ok ⟨[some (.foreground (a.frame command))],
        8 * (1 + a.length), 8 * following.length⟩) := by
  have h := OnAir.foreground a command valid length subnet alp
  have := parse_ok (p := Parser.new .FOREGROUND) (bs := a.bytes ++ following)
    (d := a.bytes) (r := following) rfl h.ne_nil
    (h.parse following)
  rw [this, bytes_length]
  rfl

example : sample.Valid ∧ sample.length = 27 ∧ sample.subnet.toNat < 128 ∧
    AlpParser.parse sample.alp.length (stream sample.alp) =
      .ok sampleCommand ⟨8 * sample.alp.length, []⟩ :=
  ⟨sample_valid, sample_length, by decide, sample_alp⟩

example : sample.bytes = [27, 0x25, 0xEA, 0xAB, 0xCD, 0x20, 0x21, 1, 2, 3, 4, 5, 6, 7, 8, 0xB9, 0xF3,
    7, 16, 0x54, 0x1F, 0xE1, 1, 0x40, 0, 8, 0x12, 0x34] := by
  apply bytesToBits_inj
  rw [bytes_bits, sample_length]
  decide +kernel

/-- C40 for the ALP commands of C20: the frame carries the command with the same operations, operands
and flags in the same order, and the same tag. -/
theorem C40_command (a : Air) (c : Command) (valid : a.Valid) (length : a.length < 128)
    (subnet : a.subnet.toNat < 128)
    (hact : ∀ x ∈ c.actions, x.Built ∧ x.ComesBack ∧ ¬ x.operation.isTag)
    (htag : c.generateTagRequestAction = true → ∃ t, c.tagId = some t ∧ 0 ≤ t ∧ t ≤ 255)
    (hst : c.interfaceStatus = none) (halp : bytearray c.iter = .ok a.alp)
    (following : List UInt8) :
    ∃ d : Command, (Parser.new .FOREGROUND).parse (a.bytes ++ following) =
      (⟨following, .FOREGROUND⟩, .ok ⟨[some (.foreground (a.frame d))],
        8 * (1 + a.length), 8 * following.length⟩) ∧
      d.actions.map (fun x => (x.operation, x.flags)) =
        c.actions.map (fun x => (x.operation, x.flags)) ∧
      d.tagId = (if c.generateTagRequestAction then c.tagId else none) := by
  obtain ⟨bs, d, h1, h2, h3, h4, h5, -⟩ := C20_command_round_trip_partial c hact htag hst
  rw [halp] at h1
  injection h1 with h1
  subst h1
  have h2 := h2 []
  rw [List.append_nil, bytesToBits_nil] at h2
  refine ⟨d, C40_foreground a d valid length subnet h2 following, h3, ?_⟩
  first | exact h5 | exact h4

example (following : List UInt8) : ∃ d : Command, (Parser.new .FOREGROUND).parse (sample.bytes ++ following) =
      (⟨following, .FOREGROUND⟩, .ok ⟨[some (.foreground (sample.frame d))],
        8 * (1 + sample.length), 8 * following.length⟩) ∧
      d.actions.map (fun x => (x.operation, x.flags)) = [(.readFileData ⟨⟨0x40, ⟨0⟩⟩, ⟨8⟩⟩, (false, false))] ∧
      d.tagId = none :=
  C40_command sample sampleCommand sample_valid (by rw [sample_length]; decide) (by decide)
    (fun x hx => by
      rw [List.mem_singleton.1 hx]
      have hb : (Action.regular false false (.readFileData ⟨⟨0x40, ⟨0⟩⟩, ⟨8⟩⟩)).Built :=
        ⟨show DataRequest.Built ⟨⟨0x40, ⟨0⟩⟩, ⟨8⟩⟩ by decide, trivial⟩
      exact ⟨hb, (C19_action_iff _ hb).2 ⟨trivial, trivial⟩, id⟩)
    (fun h => by cases h) rfl (by decide +kernel) following

/-- C40, background frames: subnet, control, payload and checksum; six bytes. -/
theorem C40_background (a : BgAir) (tag : a.tag < 64) (subnet : a.subnet.toNat < 128)
    (following : List UInt8) :
    (Parser.new .BACKGROUND).parse (a.bytes ++ following) =
      (⟨following, .BACKGROUND⟩, .ok ⟨[some (.background a.frame)], 48, 8 * following.length⟩) := by
  have h := OnAir.background a tag subnet
  exact parse_ok (p := Parser.new .BACKGROUND) (bs := a.bytes ++ following)
    (d := a.bytes) (r := following) rfl h.ne_nil
    (h.parse following)

example : (Parser.new .BACKGROUND).parse [5, 0xC7, 1, 2, 3, 4, 0xFF] =
    (⟨[0xFF], .BACKGROUND⟩, .ok ⟨[some (.background ⟨5, ⟨.VID, 7⟩, 0x102, 0x304⟩)], 48, 8⟩) :=
  C40_background ⟨5, .VID, 7, (1, 2), (3, 4)⟩ (by decide) (by decide) [0xFF]

/-! ## C41 signed length and subnet -/

/-- C41 is false: the same frame with subnet 0x80 raises ValueError. -/
theorem C41_refuted : ∃ (a : Air) (command : Command), a.Valid ∧ a.length < 128 ∧
    AlpParser.parse a.alp.length (stream a.alp) = .ok command ⟨8 * a.alp.length, []⟩ ∧
    ((Parser.new .FOREGROUND).parse a.bytes).2 = .error .valueError := by
  have hv : ({ sample with subnet := 0x80 } : Air).Valid :=
    ⟨sample_valid.eirp, sample_valid.target, sample_valid.origin, sample_valid.agc, sample_valid.tl,
      sample_valid.te, sample_valid.tc, sample_valid.tcPresent⟩
  have ha := sample_alp
  have hl : ({ sample with subnet := 0x80 } : Air).length < 128 := by
    rw [length_eq]; decide
  refine ⟨{ sample with subnet := 0x80 }, sampleCommand, hv, hl, ha, ?_⟩
  obtain ⟨s, hs⟩ := frame_rejected { sample with subnet := 0x80 } hv sampleCommand (by omega)
    (by rintro ⟨-, h⟩; exact absurd h (by decide)) ha []
  rw [List.append_nil] at hs
  have := parse_err (p := Parser.new .FOREGROUND)
    (bs := ({ sample with subnet := 0x80 } : Air).bytes) (e := .valueError) (by decide) hs
  rw [this]

/-- C41, exactly: a supported frame of at most 255 bytes after the length byte is delivered if and
only if its length byte and its subnet byte are both below 128; otherwise the call raises ValueError
and the bytes stay in the buffer. What is missing: bytes from 128 on, because they are read as signed
numbers and then validated as unsigned. -/
theorem C41_exact_partial (a : Air) (command : Command) (valid : a.Valid) (length : a.length < 256)
    (alp : AlpParser.parse a.alp.length (stream a.alp) = .ok command ⟨8 * a.alp.length, []⟩)
    (following : List UInt8) :
    (a.length < 128 ∧ a.subnet.toNat < 128 ∧
      (Parser.new .FOREGROUND).parse (a.bytes ++ following) =
        (⟨following, .FOREGROUND⟩, .ok ⟨[some (.foreground (a.frame command))],
          8 * (1 + a.length), 8 * following.length⟩)) ∨
    ((128 ≤ a.length ∨ 128 ≤ a.subnet.toNat) ∧
      (Parser.new .FOREGROUND).parse (a.bytes ++ following) =
        (⟨a.bytes ++ following, .FOREGROUND⟩, .error .valueError)) := by
  by_cases h : a.length < 128 ∧ a.subnet.toNat < 128
  · exact .inl ⟨h.1, h.2, C40_foreground a command valid h.1 h.2 alp following⟩
  · right
    refine ⟨by omega, ?_⟩
    obtain ⟨s, hs⟩ := frame_rejected a valid command length h alp following
    exact parse_err (p := Parser.new .FOREGROUND) (e := .valueError) (by decide) hs

/-- Both cases of `C41_exact_partial` occur. -/
example : (sample.length < 128 ∧ sample.subnet.toNat < 128) ∧
    128 ≤ ({ sample with subnet := 0xFF } : Air).subnet.toNat := by
  refine ⟨⟨by rw [sample_length]; decide, by decide⟩, by decide⟩

/-- C41, for every input: a foreground frame is only ever returned when its first two bytes are below
128, and then its length and subnet are these bytes; a background frame only when its first byte is. -/
theorem C41_returned (p q : Parser) (chunk : List UInt8) (f : Frame) (o : Output)
    (h : p.parse chunk = (q, .ok o)) (hf : some f ∈ o.frames) :
    match f with
    | .foreground f => ∃ b0 b1 r, p.buffer ++ chunk = b0 :: b1 :: r ∧ b0.toNat < 128 ∧
        b1.toNat < 128 ∧ f.length = b0.toNat ∧ f.subnet = b1.toNat
    | .background f => ∃ b0 r, p.buffer ++ chunk = b0 :: r ∧ b0.toNat < 128 ∧
        f.subnet = b0.toNat := by
  rcases parse_ok_inv h with ⟨rfl, -⟩ | ⟨f', d, r, e1, -, rfl, e2⟩
  · simp at hf
  · simp only [List.mem_singleton, Option.some.injEq] at hf
    subst hf
    have e2 := e2 r
    rw [← e1] at e2
    cases ht : p.frameType with
    | FOREGROUND =>
      rw [ht] at e2
      unfold parseFrame at e2
      simp only [P.bind_ok, P.pure_ok] at e2
      obtain ⟨g, s1, h1, rfl, -⟩ := e2
      exact (fg_inv h1).1
    | BACKGROUND =>
      rw [ht] at e2
      unfold parseFrame at e2
      simp only [P.bind_ok, P.pure_ok] at e2
      obtain ⟨g, s1, h1, rfl, -⟩ := e2
      exact (bg_inv h1).1

example : ∃ q o, (Parser.new .BACKGROUND).parse [5, 0xC7, 1, 2, 3, 4] = (q, .ok o) ∧
    some (.background ⟨5, ⟨.VID, 7⟩, 0x102, 0x304⟩) ∈ o.frames := by
  refine ⟨_, _, C40_background ⟨5, .VID, 7, (1, 2), (3, 4)⟩ (by decide) (by decide) [], ?_⟩
  simp [BgAir.frame, IdType.code]

/-! ## C42 incomplete frames -/

/-- C42, waiting: while the buffer and the new bytes together are a proper prefix of a frame, the
call returns `[None]`, reports nothing parsed and keeps every byte. -/
theorem C42_waits (p : Parser) (d d' chunk : List UInt8) (f : Frame)
    (hf : OnAir p.frameType (d ++ d') f) (hd : d' ≠ []) (hb : p.buffer ++ chunk = d) :
    p.parse chunk = (⟨d, p.frameType⟩, .ok ⟨[none], 0, 8 * d.length⟩) := by
  obtain ⟨s, hs⟩ := hf.short hd
  subst hb
  exact parse_wait hs

theorem sample_onAir : OnAir .FOREGROUND sample.bytes (.foreground (sample.frame sampleCommand)) :=
  .foreground sample sampleCommand sample_valid (by rw [sample_length]; decide) (by decide) sample_alp

example : OnAir .FOREGROUND (sample.bytes.take 9 ++ sample.bytes.drop 9)
    (.foreground (sample.frame sampleCommand)) ∧ sample.bytes.drop 9 ≠ [] :=
  ⟨by rw [List.take_append_drop]; exact sample_onAir, by
    rw [ne_eq, List.drop_eq_nil_iff, bytes_length, sample_length]; decide⟩

/-- The invariant of a run over a sequence of frames: what is in the buffer and what is still to come
are the frames not delivered yet; each call delivers at most one. -/
private theorem feed_run (t : FrameType) (fs : List (List UInt8 × Frame))
    (hfs : ∀ x ∈ fs, OnAir t x.1 x.2) (b : List UInt8) (chunks : List (List UInt8))
    (hb : b ++ chunks.flatten = (fs.map Prod.fst).flatten) :
    ∃ done todo, fs = done ++ todo ∧ done.length ≤ chunks.length ∧
      feed ⟨b, t⟩ chunks = .ok (⟨(todo.map Prod.fst).flatten, t⟩, done.map Prod.snd) := by
  induction chunks generalizing fs b with
  | nil =>
    refine ⟨[], fs, rfl, Nat.le_refl _, ?_⟩
    simp only [List.flatten_nil, List.append_nil] at hb
    rw [hb]
    rfl
  | cons c chunks ih =>
    rw [List.flatten_cons, ← List.append_assoc] at hb
    cases fs with
    | nil =>
      simp only [List.map_nil, List.flatten_nil, List.append_eq_nil_iff] at hb
      obtain ⟨⟨rfl, rfl⟩, hr⟩ := hb
      obtain ⟨done, todo, e1, e2, e3⟩ := ih [] (by simp) [] (by simp [hr])
      refine ⟨done, todo, e1, by simp only [List.length_cons]; omega, ?_⟩
      have hp : Parser.parse ⟨[], t⟩ [] = (⟨[], t⟩, .ok ⟨[none], 0, 0⟩) := parse_empty rfl
      simp only [feed, hp, e3]
      rfl
    | cons x fs =>
      obtain ⟨d, f⟩ := x
      have hx : OnAir t d f := hfs (d, f) (by simp)
      have hfs' : ∀ x ∈ fs, OnAir t x.1 x.2 := fun x h => hfs x (by simp [h])
      rw [List.map_cons, List.flatten_cons] at hb
      by_cases hlen : (b ++ c).length < d.length
      · -- the first frame is not complete yet
        obtain ⟨d', hd'⟩ : ∃ d', d = (b ++ c) ++ d' := by
          refine ⟨d.drop (b ++ c).length, ?_⟩
          have h1 := congrArg (List.take (b ++ c).length) hb
          rw [List.take_left' rfl, List.take_append_of_le_length (Nat.le_of_lt hlen)] at h1
          conv_rhs => rw [h1]
          rw [List.length_take, Nat.min_eq_left (Nat.le_of_lt hlen), List.take_append_drop]
        have hne : d' ≠ [] := by
          rintro rfl
          rw [hd', List.append_nil] at hlen
          omega
        have hp := C42_waits ⟨b, t⟩ (b ++ c) d' c f (by rw [← hd']; exact hx) hne rfl
        obtain ⟨done, todo, e1, e2, e3⟩ := ih ((d, f) :: fs) hfs (b ++ c) (by
          rw [List.map_cons, List.flatten_cons]; exact hb)
        refine ⟨done, todo, e1, by simp only [List.length_cons]; omega, ?_⟩
        simp only [feed, hp, e3]
        rfl
      · -- the first frame is delivered
        obtain ⟨r, hr⟩ : ∃ r, b ++ c = d ++ r := by
          refine ⟨(b ++ c).drop d.length, ?_⟩
          have h1 := congrArg (List.take d.length) hb
          rw [List.take_left' rfl, List.take_append_of_le_length (by omega)] at h1
          conv_rhs => rw [← h1]
          rw [List.length_take, Nat.min_eq_left (by omega), List.take_append_drop]
        have hp := parse_ok (p := ⟨b, t⟩) hr hx.ne_nil (hx.parse r)
        rw [hr, List.append_assoc] at hb
        obtain ⟨done, todo, e1, e2, e3⟩ := ih fs hfs' r (List.append_cancel_left hb)
        refine ⟨(d, f) :: done, todo, by rw [e1]; rfl, by simp only [List.length_cons]; omega, ?_⟩
        simp only [feed, hp, e3]
        rfl

/-- C42, completion: however the bytes of a frame are cut into chunks, the calls together return
exactly this frame and leave the buffer empty. -/
theorem C42_completes (t : FrameType) (d : List UInt8) (f : Frame) (hf : OnAir t d f)
    (chunks : List (List UInt8)) (hc : chunks.flatten = d) :
    feed (Parser.new t) chunks = .ok (Parser.new t, [f]) := by
  induction chunks generalizing d with
  | nil => exact absurd hc.symm hf.ne_nil
  | cons c chunks ih =>
    clear ih
    obtain ⟨done, todo, e1, -, e3⟩ := feed_run t [(d, f)] (by simpa using hf) [] (c :: chunks)
      (by simp [hc])
    cases done with
    | cons x done =>
      simp only [List.cons_append, List.cons.injEq, List.nil_eq, List.append_eq_nil_iff] at e1
      obtain ⟨rfl, rfl, rfl⟩ := e1
      exact e3
    | nil =>
      -- nothing delivered: the last non-empty chunk would have completed the frame
      exfalso
      have hno : ∀ (chunks : List (List UInt8)) (b : List UInt8), b ++ chunks.flatten = d →
          b.length < d.length → ∀ q, feed ⟨b, t⟩ chunks ≠ .ok (q, []) := by
        intro chunks
        induction chunks with
        | nil =>
          intro b hb hlt
          rw [List.flatten_nil, List.append_nil] at hb
          rw [hb] at hlt
          omega
        | cons c chunks ih =>
          intro b hb hlt q hq
          rw [List.flatten_cons, ← List.append_assoc] at hb
          by_cases hcl : (b ++ c).length < d.length
          · have hne : chunks.flatten ≠ [] := by
              intro h0
              rw [h0, List.append_nil] at hb
              rw [hb] at hcl
              omega
            have hp := C42_waits ⟨b, t⟩ (b ++ c) chunks.flatten c f (by rw [hb]; exact hf) hne rfl
            simp only [feed, hp] at hq
            cases hr : feed ⟨b ++ c, t⟩ chunks with
            | error e => rw [hr] at hq; cases hq
            | ok x =>
              obtain ⟨r, fs⟩ := x
              rw [hr] at hq
              simp only [List.filterMap_cons, id_eq, List.filterMap_nil, List.nil_append] at hq
              injection hq with hq
              injection hq with h1 h2
              subst h2
              exact ih (b ++ c) hb hcl r hr
          · have he : chunks.flatten = [] := by
              have := congrArg List.length hb
              rw [List.length_append] at this
              exact List.length_eq_zero_iff.mp (by omega)
            rw [he, List.append_nil] at hb
            have hp := parse_ok (p := ⟨b, t⟩) (bs := c) (d := d) (r := []) (by rw [hb, List.append_nil])
              hf.ne_nil (hf.parse [])
            simp only [feed, hp] at hq
            cases hr : feed ⟨[], t⟩ chunks with
            | error e => rw [hr] at hq; cases hq
            | ok x =>
              obtain ⟨r, fs⟩ := x
              rw [hr] at hq
              injection hq with hq
              injection hq with h1 h2
              cases h2
      refine hno (c :: chunks) [] (by simpa using hc) (List.length_pos_iff.mpr hf.ne_nil) _ e3

example : feed (Parser.new .FOREGROUND) [sample.bytes.take 3, [], sample.bytes.drop 3] =
    .ok (Parser.new .FOREGROUND, [.foreground (sample.frame sampleCommand)]) :=
  C42_completes .FOREGROUND _ _ sample_onAir _ (by simp)

/-- C42, sequences: however the bytes of any number of frames are cut into chunks, the calls never
raise, the frames delivered are the first ones in order, at most one per call, and the buffer holds
exactly the bytes of the other frames; calling `parse` with nothing as often as there are frames
delivers all of them. -/
theorem C42_sequence (t : FrameType) (fs : List (List UInt8 × Frame))
    (hfs : ∀ x ∈ fs, OnAir t x.1 x.2) (chunks : List (List UInt8))
    (hc : chunks.flatten = (fs.map Prod.fst).flatten) :
    (∃ done todo, fs = done ++ todo ∧ done.length ≤ chunks.length ∧
      feed (Parser.new t) chunks =
        .ok (⟨(todo.map Prod.fst).flatten, t⟩, done.map Prod.snd)) ∧
    feed (Parser.new t) (chunks ++ List.replicate fs.length []) =
      .ok (Parser.new t, fs.map Prod.snd) := by
  obtain ⟨done, todo, e1, e2, e3⟩ := feed_run t fs hfs [] chunks (by simpa using hc)
  refine ⟨⟨done, todo, e1, e2, e3⟩, ?_⟩
  have hsplit : ∀ (a b : List (List UInt8)) (p q : Parser) (x : List Frame),
      feed p a = .ok (q, x) → feed p (a ++ b) =
        match feed q b with
        | .error e => .error e
        | .ok (r, y) => .ok (r, x ++ y) := by
    intro a b
    induction a with
    | nil =>
      intro p q x h
      injection h with h
      injection h with h1 h2
      subst h1 h2
      simp only [List.nil_append]
      cases feed p b with
      | error e => rfl
      | ok z => rfl
    | cons c a ih =>
      intro p q x h
      simp only [List.cons_append, feed] at h ⊢
      cases hp : p.parse c with
      | mk q' r =>
        rw [hp] at h
        cases r with
        | error e => cases h
        | ok o =>
          simp only at h ⊢
          cases hr : feed q' a with
          | error e => rw [hr] at h; cases h
          | ok z =>
            obtain ⟨q2, y⟩ := z
            rw [hr] at h
            injection h with h
            injection h with h1 h2
            subst h1 h2
            rw [ih q' q2 y hr]
            cases feed q2 b with
            | error e => rfl
            | ok w => simp
  have hdrain : ∀ (n : Nat) (todo : List (List UInt8 × Frame)), (∀ x ∈ todo, OnAir t x.1 x.2) →
      todo.length ≤ n → feed ⟨(todo.map Prod.fst).flatten, t⟩ (List.replicate n []) =
        .ok (Parser.new t, todo.map Prod.snd) := by
    intro n
    induction n with
    | zero =>
      intro todo _ hl
      have : todo = [] := List.length_eq_zero_iff.mp (by omega)
      subst this
      rfl
    | succ n ih =>
      intro todo ht hl
      rw [List.replicate_succ]
      cases todo with
      | nil =>
        have hp : Parser.parse ⟨[], t⟩ [] = (⟨[], t⟩, .ok ⟨[none], 0, 0⟩) := parse_empty rfl
        have := ih [] (by simp) (by simp)
        simp only [List.map_nil, List.flatten_nil] at this ⊢
        simp only [feed, hp, this]
        rfl
      | cons x todo =>
        obtain ⟨d, f⟩ := x
        have hx : OnAir t d f := ht (d, f) (by simp)
        have hp := parse_ok (p := ⟨d ++ (todo.map Prod.fst).flatten, t⟩) (bs := [])
          (List.append_nil _) hx.ne_nil (hx.parse _)
        have := ih todo (fun x h => ht x (by simp [h])) (by simpa using hl)
        simp only [List.map_cons, List.flatten_cons, feed, hp, this]
        rfl
  have e3 : feed (Parser.new t) chunks = _ := e3
  rw [hsplit _ _ _ _ _ e3, hdrain fs.length todo (fun x h => hfs x (by rw [e1]; simp [h]))
    (by rw [e1]; simp)]
  simp only [e1, List.map_append]

/-- Two frames in one chunk: the second one needs another call. -/
example : feed (Parser.new .FOREGROUND) [sample.bytes ++ sample.bytes, []] =
    .ok (Parser.new .FOREGROUND, [.foreground (sample.frame sampleCommand),
      .foreground (sample.frame sampleCommand)]) := by
  have h := sample_onAir
  have hp := parse_ok (p := Parser.new .FOREGROUND) (bs := sample.bytes ++ sample.bytes)
    (d := sample.bytes) (r := sample.bytes) rfl h.ne_nil
    (h.parse sample.bytes)
  have hp' := parse_ok (p := ⟨sample.bytes, .FOREGROUND⟩) (bs := []) (d := sample.bytes) (r := [])
    rfl h.ne_nil (h.parse [])
  unfold feed
  rw [hp]
  simp only
  unfold feed
  have hp' : ({ Parser.new .FOREGROUND with buffer := sample.bytes } : Parser).parse [] = _ := hp'
  rw [hp']
  rfl

/-! ## C43 the checksum -/

/-- C43 is false: every frame is accepted with every checksum (this includes the wrong ones). -/
theorem C43_refuted (a : Air) (command : Command) (valid : a.Valid) (length : a.length < 128)
    (subnet : a.subnet.toNat < 128)
    (alp : AlpParser.parse a.alp.length (stream a.alp) = .ok command ⟨8 * a.alp.length, []⟩)
    (crc : UInt8 × UInt8) :
    ∃ f, ((Parser.new .FOREGROUND).parse (a.bytes.take (a.bytes.length - 2) ++ [crc.1, crc.2])).2 =
      .ok ⟨[some (.foreground f)], 8 * (1 + a.length), 0⟩ ∧
      f = { a.frame command with crc16 := 256 * crc.1.toNat + crc.2.toNat } := by
  have hlen : ({ a with crc := crc } : Air).length = a.length := by
    rw [length_eq, length_eq]
    rfl
  have hbytes : a.bytes.take (a.bytes.length - 2) ++ [crc.1, crc.2] =
      ({ a with crc := crc } : Air).bytes := by
    have h16 : ∀ x y : UInt8, bitsOf 16 (256 * x.toNat + y.toNat) = bytesToBits [x, y] := by
      intro x y
      rw [bytesToBits_cons, bytesToBits_cons, bytesToBits_nil, List.append_nil,
        ← bitsOf_append 8 8 _ _ (by have := y.toNat_lt; omega)]
      congr 1
      omega
    -- the bytes before the checksum
    have key : ∀ c : UInt8 × UInt8, ∃ l : List UInt8, bytesToBits l =
        bitsOf 8 (UInt8.ofNat a.length).toNat ++ (a.dllBits ++ (a.npBits ++ (a.tpBits ++
          bytesToBits a.alp))) ∧ ({ a with crc := c } : Air).bytes = l ++ [c.1, c.2] := by
      intro c
      have hl : ({ a with crc := c } : Air).length = a.length := by
        rw [length_eq, length_eq]
        rfl
      have hb := bytes_bits { a with crc := c }
      rw [hl, body_bits] at hb
      have hn := bytes_length { a with crc := c }
      rw [hl, length_eq] at hn
      generalize ({ a with crc := c } : Air).bytes = bs at hb hn
      refine ⟨bs.take (bs.length - 2), ?_, ?_⟩
      · have h1 : bytesToBits bs = bytesToBits (bs.take (bs.length - 2)) ++
            bytesToBits (bs.drop (bs.length - 2)) := by
          rw [← bytesToBits_append, List.take_append_drop]
        have h2 : bytesToBits bs = (bitsOf 8 (UInt8.ofNat a.length).toNat ++ (a.dllBits ++
            (a.npBits ++ (a.tpBits ++ bytesToBits a.alp)))) ++ bytesToBits [c.1, c.2] := by
          rw [hb, ← h16]
          simp only [List.append_assoc]
          rfl
        rw [h1] at h2
        refine (List.append_inj' h2 ?_).1
        simp only [bytesToBits_length, List.length_drop, List.length_cons, List.length_nil]
        omega
      · apply bytesToBits_inj
        have h1 : bytesToBits bs = bytesToBits (bs.take (bs.length - 2)) ++
            bytesToBits (bs.drop (bs.length - 2)) := by
          rw [← bytesToBits_append, List.take_append_drop]
        have h2 : bytesToBits bs = (bitsOf 8 (UInt8.ofNat a.length).toNat ++ (a.dllBits ++
            (a.npBits ++ (a.tpBits ++ bytesToBits a.alp)))) ++ bytesToBits [c.1, c.2] := by
          rw [hb, ← h16]
          simp only [List.append_assoc]
          rfl
        have h3 := h2
        rw [h1] at h3
        have h4 := (List.append_inj' h3 (by
          simp only [bytesToBits_length, List.length_drop, List.length_cons, List.length_nil]
          omega)).1
        rw [bytesToBits_append, h4, h2]
    obtain ⟨l, hl, e⟩ := key a.crc
    obtain ⟨l', hl', e'⟩ := key crc
    have hll : l = l' := bytesToBits_inj (hl.trans hl'.symm)
    have e : a.bytes = l ++ [a.crc.1, a.crc.2] := e
    rw [e', e, hll]
    simp
  have hv : ({ a with crc := crc } : Air).Valid :=
    ⟨valid.eirp, valid.target, valid.origin, valid.agc, valid.tl, valid.te, valid.tc,
      valid.tcPresent⟩
  have := C40_foreground { a with crc := crc } command hv (by rw [hlen]; exact length) subnet alp []
  rw [List.append_nil] at this
  refine ⟨_, ?_, rfl⟩
  rw [hbytes, this, hlen]
  simp only [Air.frame, hlen]
  rfl

example : ((Parser.new .FOREGROUND).parse (sample.bytes.take 26 ++ [0xFF, 0xFF])).2 =
    .ok ⟨[some (.foreground { sample.frame sampleCommand with crc16 := 0xFFFF })], 224, 0⟩ := by
  obtain ⟨f, h, rfl⟩ := C43_refuted sample sampleCommand sample_valid (by rw [sample_length]; decide)
    (by decide) sample_alp (0xFF, 0xFF)
  rw [bytes_length, sample_length] at h
  exact h

/-- C43, what holds for every input: the `crc16` of a returned frame is the number formed by the last
two bytes of the frame. What is missing: it is not compared with the checksum of the other bytes. -/
theorem C43_crc_is_last_partial (p q : Parser) (chunk : List UInt8) (f : Frame) (o : Output)
    (h : p.parse chunk = (q, .ok o)) (hf : some f ∈ o.frames) :
    ∃ (d : List UInt8) (c0 c1 : UInt8), p.buffer ++ chunk = d ++ [c0, c1] ++ q.buffer ∧
      o.parsed = 8 * (d.length + 2) ∧
      (match f with | .foreground f => f.crc16 | .background f => f.crc16) =
        (256 * c0.toNat + c1.toNat : Int) := by
  rcases parse_ok_inv h with ⟨rfl, -⟩ | ⟨f', d, r, e1, rfl, rfl, e2⟩
  · simp at hf
  · simp only [List.mem_singleton, Option.some.injEq] at hf
    subst hf
    have e2 := e2 r
    have fin : ∀ (d' : List UInt8) (c0 c1 : UInt8) (r' : List UInt8) (s : St),
        p.buffer ++ chunk = d' ++ [c0, c1] ++ r' → s.pos = 8 * (d'.length + 2) →
        s.pos = 8 * d.length → r' = r ∧ d.length = d'.length + 2 := by
      intro d' c0 c1 r' s h1 h2 h3
      rw [e1] at h1
      have hl : d.length = (d' ++ [c0, c1]).length := by
        simp only [List.length_append, List.length_cons, List.length_nil]
        omega
      exact ⟨(List.append_inj h1 hl).2.symm, by omega⟩
    cases ht : p.frameType with
    | FOREGROUND =>
      rw [ht] at e2
      unfold parseFrame at e2
      simp only [P.bind_ok, P.pure_ok] at e2
      obtain ⟨g, s1, h1, rfl, rfl⟩ := e2
      rw [← e1] at h1
      obtain ⟨-, d', c0, c1, r', g1, g2, g3⟩ := fg_inv h1
      obtain ⟨rfl, g4⟩ := fin d' c0 c1 r' _ g1 g2 rfl
      exact ⟨d', c0, c1, g1, by simp only; omega, g3⟩
    | BACKGROUND =>
      rw [ht] at e2
      unfold parseFrame at e2
      simp only [P.bind_ok, P.pure_ok] at e2
      obtain ⟨g, s1, h1, rfl, rfl⟩ := e2
      rw [← e1] at h1
      obtain ⟨-, d', c0, c1, r', g1, g2, g3⟩ := bg_inv h1
      obtain ⟨rfl, g4⟩ := fin d' c0 c1 r' _ g1 g2 rfl
      exact ⟨d', c0, c1, g1, by simp only; omega, g3⟩

example : ∃ q o, (Parser.new .BACKGROUND).parse [5, 0xC7, 1, 2, 3, 4, 0xFF] = (q, .ok o) ∧
    some (.background ⟨5, ⟨.VID, 7⟩, 0x102, 0x304⟩) ∈ o.frames :=
  ⟨_, _, C40_background ⟨5, .VID, 7, (1, 2), (3, 4)⟩ (by decide) (by decide) [0xFF], by
    simp [BgAir.frame, IdType.code]⟩

/-! ## C52 exceptions of the DLL parser -/

/-- C52 is false: `parse` raises (the first byte of a background frame is its subnet). -/
theorem C52_refuted : ((Parser.new .BACKGROUND).parse [0xFF, 0, 0, 0, 0, 0]).2 =
    .error .valueError := by decide +kernel

/-- C52, which exceptions: ParseError (of the ALP parser; it is not the class the DLL parser
catches), ValueError, AttributeError and AssertionError, never ReadError; the bytes stay in the
buffer. -/
theorem C52_errors_partial (p q : Parser) (chunk : List UInt8) (e : PyErr)
    (h : p.parse chunk = (q, .error e)) :
    (e = .parseError ∨ e = .valueError ∨ e = .attributeError ∨ ∃ b, e = .assertion b) ∧
      q = ⟨p.buffer ++ chunk, p.frameType⟩ := by
  obtain ⟨h1, h2, s, h3⟩ := parse_err_inv h
  refine ⟨?_, h2⟩
  have := (parseFrame_errs p.frameType).2 _ _ _ rfl h3
  rcases this with h | h | h | h | h | h
  · exact absurd h h1
  · exact .inl h
  · exact .inr (.inl h)
  · exact .inr (.inr (.inl h))
  · exact .inr (.inr (.inr ⟨_, h⟩))
  · exact .inr (.inr (.inr ⟨_, h⟩))

example : ((Parser.parse ⟨[], .FOREGROUND⟩ (List.replicate 9 0)).2).isOk = false := by decide +kernel

/-- C52: an exception is permanent — whatever is received later, every further call raises the same
exception and the buffer only grows. -/
theorem C52_stuck (p q : Parser) (chunk : List UInt8) (e : PyErr)
    (h : p.parse chunk = (q, .error e)) (more : List UInt8) :
    q.parse more = (⟨q.buffer ++ more, q.frameType⟩, .error e) := by
  obtain ⟨h1, rfl, s, h3⟩ := parse_err_inv h
  obtain ⟨s', h4⟩ := (parseFrame_good p.frameType).err_bytes h3 h1 more
  exact parse_err (p := ⟨p.buffer ++ chunk, p.frameType⟩) h1 h4

example : ∃ q, (Parser.new .BACKGROUND).parse [0xFF, 0, 0, 0, 0, 0] = (q, .error .valueError) :=
  ⟨⟨[0xFF, 0, 0, 0, 0, 0], .BACKGROUND⟩, by decide +kernel⟩

/-- C52: a call that returns gives exactly one entry: a frame read from the front of the buffer,
whose bytes and only these are removed, or `None` with every byte kept. -/
theorem C52_accounting (p q : Parser) (chunk : List UInt8) (o : Output)
    (h : p.parse chunk = (q, .ok o)) :
    q.frameType = p.frameType ∧ o.buffer = 8 * q.buffer.length ∧
    ∃ d, p.buffer ++ chunk = d ++ q.buffer ∧ o.parsed = 8 * d.length ∧
      ((o.frames = [none] ∧ d = []) ∨ ∃ f, o.frames = [some f] ∧ d ≠ []) := by
  rcases parse_ok_inv h with ⟨rfl, rfl⟩ | ⟨f', d, r, e1, rfl, rfl, e2⟩
  · exact ⟨rfl, rfl, [], rfl, rfl, .inl ⟨rfl, rfl⟩⟩
  · exact ⟨rfl, rfl, d, e1, rfl, .inr ⟨f', rfl, consumed_ne_nil (e2 [])⟩⟩

example : ∃ q o, (Parser.new .BACKGROUND).parse [5, 0xC7, 1] = (q, .ok o) ∧ o.frames = [none] ∧
    q.buffer = [5, 0xC7, 1] := ⟨_, _, rfl, rfl, rfl⟩

/-! ## C53 serialising frames -/

/-- C53 is false for D7ANP frames: serialising one always raises AttributeError. -/
theorem C53_d7anp_refuted (f : D7anp.Frame) : bytearray f.iter = .error .attributeError := by
  unfold D7anp.Frame.iter D7anp.Control.iter
  rw [bytearray_append, bytearray_append, bytearray_append]
  rfl

/-- C53 is false for foreground frames: serialising an accepted one always raises
AttributeError. -/
theorem C53_foreground_refuted (f : ForegroundFrame)
    (h : ForegroundFrame.new f.length f.subnet f.control f.targetAddress f.d7anpFrame f.crc16 = .ok f)
    (hc : ForegroundFrameControl.new f.control.idType f.control.eirpIndex = .ok f.control) :
    bytearray f.iter = .error .attributeError := by
  obtain ⟨⟨hl, hs, ht, -⟩, -⟩ := validate_eq_ok.mp h
  obtain ⟨h0, h1⟩ := (validate_eq_ok.mp hc).1
  obtain ⟨b, e, -⟩ := byte_bits f.control.idType f.control.eirpIndex h0 h1
  have e : bytearray f.control.iter = .ok [b] := e
  have el : bytearray (.int f.length) = .ok _ := Emits.int hl.1 hl.2
  have es : bytearray (.int f.subnet) = .ok _ := Emits.int hs.1 hs.2
  have et : ∃ l, bytearray (.concat (f.targetAddress.map .int)) = .ok l := by
    have : ∀ l : List Int, isBytes l → ∃ r, bytearray (.concat (l.map .int)) = .ok r := by
      intro l hl
      exact ⟨_, Emits.ints hl⟩
    exact this _ ht
  obtain ⟨l, et⟩ := et
  unfold ForegroundFrame.iter
  rw [bytearray_append, bytearray_append, bytearray_append, bytearray_append, bytearray_append,
    el, es, e, et, C53_d7anp_refuted]
  rfl

/-- C53 is false for background frames: serialising an accepted one always raises TypeError. -/
theorem C53_background_refuted (f : BackgroundFrame)
    (h : BackgroundFrame.new f.subnet f.control f.payload f.crc16 = .ok f)
    (hc : BackgroundFrameControl.new f.control.idType f.control.tag = .ok f.control) :
    bytearray f.iter = .error .typeError := by
  obtain ⟨⟨hs, -⟩, -⟩ := validate_eq_ok.mp h
  obtain ⟨h0, h1⟩ := (validate_eq_ok.mp hc).1
  obtain ⟨b, e, -⟩ := byte_bits f.control.idType f.control.tag h0 h1
  have e : bytearray f.control.iter = .ok [b] := e
  have es : bytearray (.int f.subnet) = .ok _ := Emits.int hs.1 hs.2
  unfold BackgroundFrame.iter
  rw [bytearray_append, bytearray_append, es, e]
  rfl

example : BackgroundFrame.new 5 ⟨.VID, 7⟩ 0x102 0x304 = .ok ⟨5, ⟨.VID, 7⟩, 0x102, 0x304⟩ ∧
    BackgroundFrameControl.new .VID 7 = .ok ⟨.VID, 7⟩ := by decide
example : ForegroundFrame.new 27 0x25 ⟨.VID, 42⟩ [0xAB, 0xCD] (sample.frame sampleCommand).d7anpFrame
      0x1234 = .ok ⟨27, 0x25, ⟨.VID, 42⟩, [0xAB, 0xCD], (sample.frame sampleCommand).d7anpFrame,
      0x1234⟩ ∧ ForegroundFrameControl.new .VID 42 = .ok ⟨.VID, 42⟩ := ⟨rfl, rfl⟩

/-- C53, D7ATP frames: an accepted frame without timing fields, acknowledgement template and
acknowledgement record, whose ALP command survives its own serialisation, serialises to control,
dialog id, transaction id, the AGC level if flagged, and the ALP bytes, and parses back to an equal
frame. What is missing: timing fields (`C53_d7atp_timing_refuted`, `C53_d7atp_tc_refuted`), the other
layers. -/
theorem C53_d7atp_partial (f : D7atp.Frame)
    (h : D7atp.Frame.new f.control f.dialogId f.transactionId f.alpCommand (some f.agcRxLevelI) f.tl
      f.te f.tc f.ackTemplate = .ok f)
    (hagc : f.control.hasAgc = false → f.agcRxLevelI = 10)
    (htl : f.control.hasTl = false ∧ f.tl = none) (hte : f.control.hasTe = false ∧ f.te = none)
    (htc : (f.control.isAckRequested && f.control.isDialogStart) = false ∧ f.tc = none)
    (hack : f.control.isAckNotVoid = false ∧ f.ackTemplate = none)
    (hrec : f.control.isAckRecordRequested = false)
    (alp : List UInt8) (halp : bytearray f.alpCommand.iter = .ok alp)
    (hparse : AlpParser.parse alp.length (stream alp) = .ok f.alpCommand ⟨8 * alp.length, []⟩) :
    let n := 3 + f.control.hasAgc.toNat + alp.length
    RoundTrips f.iter (D7atp.Frame.parse n) f n := by
  obtain ⟨c, di, ti, agc, tl, te, tc, ack, cmd⟩ := f
  obtain ⟨ds, ftl, fte, ar, anv, arr, fagc⟩ := c
  simp only at *
  obtain ⟨rfl, rfl⟩ := htl
  obtain ⟨rfl, rfl⟩ := hte
  obtain ⟨htc, rfl⟩ := htc
  obtain ⟨rfl, rfl⟩ := hack
  subst hrec
  obtain ⟨⟨hd, ht, hg⟩, -⟩ := validate_eq_ok.mp h
  simp only at hd ht hg
  obtain ⟨ec, hcb⟩ := tp_emits ⟨ds, false, false, ar, false, false, fagc⟩
  let a : Air :=
    { subnet := 0, targetType := .NOID, eirp := 0, target := [], origin := none,
      unusedIdType := .NOID, accessClass := 0, dialogStart := ds, rfu := false, ackRequested := ar,
      dialogId := UInt8.ofNat di.toNat, transactionId := UInt8.ofNat ti.toNat,
      agc := if fagc then some agc.toNat else none, tl := none, te := none, tc := none, alp := alp,
      crc := (0, 0) }
  have hag : a.agc = if fagc then some agc.toNat else none := rfl
  have hsome : a.agc.isSome = fagc := by rw [hag]; cases fagc <;> rfl
  have hv : a.Valid :=
    { eirp := by show 0 < 64; decide
      target := rfl
      origin := by intro t id h; cases h
      agc := by
        intro g hgg
        rw [hag] at hgg
        cases fagc
        · cases hgg
        · simp only [if_true, Option.some.injEq] at hgg
          omega
      tl := by intro c h; cases h
      te := by intro c h; cases h
      tc := by intro c h; cases h
      tcPresent := by rw [htc]; rfl }
  have hfr : (a.frame cmd).d7anpFrame.d7atpFrame =
      ⟨⟨ds, false, false, ar, false, false, fagc⟩, di, ti, agc, none, none, none, none, cmd⟩ := by
    have e1 : ((UInt8.ofNat di.toNat).toNat : Int) = di := by
      rw [ofNat_toNat_u8 (by omega)]; omega
    have e2 : ((UInt8.ofNat ti.toNat).toNat : Int) = ti := by
      rw [ofNat_toNat_u8 (by omega)]; omega
    have e3 : ((a.agc.getD 10 : Nat) : Int) = agc := by
      rw [hag]
      cases hf : fagc
      · simp [hagc hf]
      · simp; omega
    simp only [Air.frame, hsome]
    rw [e3]
    simp only [a, e1, e2, Option.isSome_none]
  have hopt : a.optional = fagc.toNat := by
    unfold Air.optional
    rw [hsome]
    rfl
  have hL := tp_leads a hv ((3 + fagc.toNat + alp.length : Nat) : Int) cmd (bytesToBits alp) (by
    rw [hopt]
    have : (((3 + fagc.toNat + alp.length : Nat) : Int) - 3 - (fagc.toNat : Nat)) = alp.length := by
      push_cast; omega
    rw [this]
    exact alp_leads hparse)
  rw [hfr] at hL
  have ed : bytearray (.int di) = .ok _ := Emits.int hd.1 hd.2
  have et : bytearray (.int ti) = .ok _ := Emits.int ht.1 ht.2
  have ec : bytearray (D7atp.Control.mk ds false false ar false false fagc).iter = .ok _ := ec
  have eg : ∃ g, bytearray (if fagc then .int agc else .nil) = .ok g ∧
      g.length = fagc.toNat ∧ bytesToBits g = fieldBits (agcF a.agc) := by
    rw [hag]
    cases fagc
    · exact ⟨[], rfl, rfl, rfl⟩
    · refine ⟨_, Emits.int hg.1 (by omega), rfl, ?_⟩
      rw [bytesToBits_cons, bytesToBits_nil, List.append_nil, ofNat_toNat_u8 (by omega)]
      simp [agcF, fieldBits]
  obtain ⟨g, eg, gl, gb⟩ := eg
  refine ⟨[UInt8.ofNat (D7atp.Control.mk ds false false ar false false fagc).byte.toNat] ++
    [UInt8.ofNat di.toNat] ++ [UInt8.ofNat ti.toNat] ++ g ++ [] ++ [] ++ [] ++ alp, ?_, ?_, ?_⟩
  · unfold D7atp.Frame.iter
    simp only [Bool.false_eq_true, if_false]
    have en : bytearray .nil = .ok [] := rfl
    rw [bytearray_append, bytearray_append, bytearray_append, bytearray_append, bytearray_append,
      bytearray_append, bytearray_append, ec, ed, et, eg, en, halp]
    rfl
  · simp only [List.length_append, List.length_cons, List.length_nil, gl]
    omega
  · intro following
    have hbits : bytesToBits ([UInt8.ofNat (D7atp.Control.mk ds false false ar false false
        fagc).byte.toNat] ++ [UInt8.ofNat di.toNat] ++ [UInt8.ofNat ti.toNat] ++ g ++ [] ++ [] ++ [] ++
        alp) = a.tpBits ++ bytesToBits alp := by
      simp only [bytesToBits_append, hcb, gb, bytesToBits_nil, List.append_nil]
      unfold Air.tpBits
      rw [hsome]
      simp [a, ctF, fieldBits, bytesToBits_cons]
    have := hL.2 0 (bytesToBits following) rfl
    rw [← hbits, ← bytesToBits_append, bytesToBits_length] at this
    rw [stream, this, P.pure_apply]
    simp only [List.length_append, List.length_cons, List.length_nil, gl, Nat.zero_add, Nat.add_zero]

/-- The hypotheses of `C53_d7atp_partial` are met: a request with an AGC level. -/
example : RoundTrips (D7atp.Frame.iter ⟨⟨true, false, false, false, false, false, true⟩, 0xF3, 7, 16,
      none, none, none, none, sampleCommand⟩) (D7atp.Frame.parse 8)
    ⟨⟨true, false, false, false, false, false, true⟩, 0xF3, 7, 16, none, none, none, none,
      sampleCommand⟩ 8 :=
  C53_d7atp_partial _ rfl (by intro h; cases h) ⟨rfl, rfl⟩ ⟨rfl, rfl⟩ ⟨rfl, rfl⟩
    ⟨rfl, rfl⟩ rfl [1, 0x40, 0, 8] (by decide +kernel) sample_alp

/-- C53 is false for D7ATP frames with Tl or Te: `yield self.tl` yields an object, so serialising
raises TypeError. -/
theorem C53_d7atp_timing_refuted (f : D7atp.Frame)
    (h : D7atp.Frame.new f.control f.dialogId f.transactionId f.alpCommand (some f.agcRxLevelI) f.tl
      f.te f.tc f.ackTemplate = .ok f)
    (ht : f.control.hasTl = true ∨ f.control.hasTe = true) :
    bytearray f.iter = .error .typeError := by
  obtain ⟨⟨hd, hti, hg⟩, -⟩ := validate_eq_ok.mp h
  simp only at hg
  have ed : bytearray (.int f.dialogId) = .ok _ := Emits.int hd.1 hd.2
  have et : bytearray (.int f.transactionId) = .ok _ := Emits.int hti.1 hti.2
  have ec : bytearray f.control.iter = .ok _ := (tp_emits f.control).1
  have eg : ∃ g, bytearray (if f.control.hasAgc then .int f.agcRxLevelI else .nil) = .ok g := by
    cases f.control.hasAgc
    · exact ⟨[], rfl⟩
    · exact ⟨_, Emits.int hg.1 (by omega)⟩
  obtain ⟨g, eg⟩ := eg
  have eo : ∀ x, bytearray (D7atp.yieldObject x) = .error .typeError := fun _ => rfl
  have en : bytearray .nil = .ok [] := rfl
  unfold D7atp.Frame.iter
  rw [bytearray_append, bytearray_append, bytearray_append, bytearray_append, bytearray_append,
    bytearray_append, bytearray_append, ec, ed, et, eg]
  cases htl : f.control.hasTl
  · have hte : f.control.hasTe = true := by
      rcases ht with h | h
      · rw [htl] at h; cases h
      · exact h
    simp only [hte, if_true, Bool.false_eq_true, if_false, eo, en]
    rfl
  · simp only [if_true, eo]
    rfl

/-- C53: nor can a frame be serialised whose control announces acknowledgements but that has no template. -/
theorem C53_d7atp_no_template_refuted (f : D7atp.Frame)
    (h : D7atp.Frame.new f.control f.dialogId f.transactionId f.alpCommand (some f.agcRxLevelI) f.tl
      f.te f.tc f.ackTemplate = .ok f)
    (ha : f.control.isAckNotVoid = true) (hn : f.ackTemplate = none) :
    bytearray f.iter = .error .typeError := by
  by_cases ht : f.control.hasTl = true ∨ f.control.hasTe = true
  · exact C53_d7atp_timing_refuted f h ht
  · have h1 : f.control.hasTl = false := by
      cases hx : f.control.hasTl
      · rfl
      · exact (ht (.inl hx)).elim
    have h2 : f.control.hasTe = false := by
      cases hx : f.control.hasTe
      · rfl
      · exact (ht (.inr hx)).elim
    obtain ⟨⟨hd, hti, hg⟩, -⟩ := validate_eq_ok.mp h
    simp only at hg
    have ed : bytearray (.int f.dialogId) = .ok _ := Emits.int hd.1 hd.2
    have et : bytearray (.int f.transactionId) = .ok _ := Emits.int hti.1 hti.2
    have ec : bytearray f.control.iter = .ok _ := (tp_emits f.control).1
    have eg : ∃ g, bytearray (if f.control.hasAgc then .int f.agcRxLevelI else .nil) = .ok g := by
      cases f.control.hasAgc
      · exact ⟨[], rfl⟩
      · exact ⟨_, Emits.int hg.1 (by omega)⟩
    obtain ⟨g, eg⟩ := eg
    have en : bytearray .nil = .ok [] := rfl
    have ea : bytearray (D7atp.yieldAck none) = .error .typeError := rfl
    unfold D7atp.Frame.iter
    rw [bytearray_append, bytearray_append, bytearray_append, bytearray_append, bytearray_append,
      bytearray_append, bytearray_append, ec, ed, et, eg]
    simp only [h1, h2, ha, hn, if_true, Bool.false_eq_true, if_false, en, ea]
    rfl

example : D7atp.Frame.new ⟨true, false, false, false, true, false, true⟩ 0xF3 7 sampleCommand (some 16) none none none
      none = .ok ⟨⟨true, false, false, false, true, false, true⟩, 0xF3, 7, 16, none, none, none, none, sampleCommand⟩ ∧
    (⟨true, false, false, false, true, false, true⟩ : D7atp.Control).isAckNotVoid = true := ⟨rfl, rfl⟩

/-- C53: and no bytes are accepted as a frame that announces acknowledgements or asks for their record, so a frame
that does either never comes back, with a template or without. -/
theorem C53_d7atp_ack_refuted (n : Int) (s s' : St) (f : D7atp.Frame) (h : D7atp.Frame.parse n s = .ok f s') :
    f.control.isAckNotVoid = false ∧ f.control.isAckRecordRequested = false := by
  unfold D7atp.Frame.parse at h
  simp only [P.bind_ok, P.lift_ok, P.assert_ok] at h
  obtain ⟨c, _, -, _, _, -, _, _, -, _, _, -, _, _, -, _, _, -, _, _, -, _, _, -, _, _, ⟨hr, -⟩, _, _, ⟨ha, -⟩, _, _, -,
    h, -⟩ := h
  obtain ⟨-, rfl⟩ := validate_eq_ok.mp h
  exact ⟨ha, hr⟩

example : (match D7atp.Frame.parse 8 (stream [0x81, 0xF3, 7, 16, 1, 0x40, 0, 8]) with
      | .ok f _ => f.control.isDialogStart | _ => false) = true ∧
    ∃ bs, bytearray (⟨⟨true, false, false, false, true, false, true⟩, 0xF3, 7, 16, none, none, none, some [7, 7],
        sampleCommand⟩ : D7atp.Frame).iter = .ok bs ∧
      ∃ s, D7atp.Frame.parse bs.length (stream bs) = .err (.assertion true) s :=
  ⟨by decide +kernel, [0x85, 0xF3, 7, 16, 7, 7, 1, 0x40, 0, 8], by decide +kernel, _, rfl⟩

/-- C53: Tc is never serialised (the bytes do not depend on it), so a frame that requests an
acknowledgement does not come back: the first ALP byte is taken as Tc, here ending in a ParseError. -/
theorem C53_d7atp_tc_refuted :
    (∀ (f : D7atp.Frame) (tc : Option CT), bytearray { f with tc := tc }.iter = bytearray f.iter) ∧
    ∃ (f : D7atp.Frame) (bs : List UInt8),
      D7atp.Frame.new f.control f.dialogId f.transactionId f.alpCommand (some f.agcRxLevelI) f.tl
        f.te f.tc f.ackTemplate = .ok f ∧ f.tc.isSome ∧ bytearray f.iter = .ok bs ∧
      ∃ s, D7atp.Frame.parse bs.length (stream bs) = .err .parseError s :=
  ⟨fun _ _ => rfl, ⟨⟨true, false, false, true, false, false, true⟩, 0xF3, 7, 16, none, none,
    some ⟨2, 20⟩, none, sampleCommand⟩, [0x89, 0xF3, 7, 16, 1, 0x40, 0, 8], rfl, rfl,
    by decide +kernel, _, rfl⟩

end Verif.Dll
