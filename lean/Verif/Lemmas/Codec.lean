import Verif.Lemmas.Basic
import Verif.Model.Operands

/-! Serialise/parse correspondence for the value classes. -/

namespace Verif

theorem lor_zero_left (n : Int) : Int.lor 0 n = n := by
  cases n <;> simp [Int.lor, Nat.ldiff]

/-! ### CT -/

namespace CT

/-- Accepted by the constructor. -/
def Ok (c : CT) : Prop := (0 ≤ c.exp ∧ c.exp ≤ 7) ∧ (0 ≤ c.mant ∧ c.mant ≤ 31)

theorem compressedValue_eq (c : CT) : c.compressedValue = c.exp * 32 + c.mant := by
  simp only [compressedValue, lor_zero_left, shl]
  norm_num

theorem codec {c : CT} (h : c.Ok) : Codec c.iter CT.parse c 1 := by
  obtain ⟨e, m⟩ := c
  obtain ⟨he, hm⟩ := h
  simp only at he hm
  have hv := compressedValue_eq ⟨e, m⟩
  simp only at hv
  apply Codec.byte
  · rw [hv]; omega
  · rw [hv]; omega
  · have : (compressedValue ⟨e, m⟩).toNat = e.toNat * 2 ^ 5 + m.toNat := by rw [hv]; omega
    rw [this, show (8 : Nat) = 3 + 5 from rfl, bitsOf_append _ _ _ _ (by omega)]
    refine Reads.bind (Reads.uintI 3 e he.1 (by omega)) ?_
    refine Reads.bindr (Reads.uintI 5 m hm.1 (by omega)) (Reads.lift ?_)
    exact validate_of ⟨he, hm⟩

end CT

/-! ### PHY -/

theorem ChannelBand.range (b : ChannelBand) : 0 ≤ b.value ∧ b.value < 2 ^ 3 := by
  cases b <;> decide
theorem ChannelClass.range (b : ChannelClass) : 0 ≤ b.value ∧ b.value < 2 ^ 2 := by
  cases b <;> decide
theorem ChannelCoding.range (b : ChannelCoding) : 0 ≤ b.value ∧ b.value < 2 ^ 2 := by
  cases b <;> decide
theorem ChannelBand.ofValue_value (b : ChannelBand) : ofValue b.value = .ok b := by
  cases b <;> rfl
theorem ChannelClass.ofValue_value (b : ChannelClass) : ofValue b.value = .ok b := by
  cases b <;> rfl
theorem ChannelCoding.ofValue_value (b : ChannelCoding) : ofValue b.value = .ok b := by
  cases b <;> rfl

theorem ChannelHeader.codec (h : ChannelHeader) : Codec h.iter ChannelHeader.parse h 1 := by
  obtain ⟨coding, cl, band⟩ := h
  refine Codec.byte (by cases band <;> cases cl <;> cases coding <;> decide)
    (by cases band <;> cases cl <;> cases coding <;> decide)
    (Reads.congr (l := bitsOf 1 0 ++ (bitsOf 3 band.value.toNat ++ (bitsOf 2 cl.value.toNat ++
      (bitsOf 2 coding.value.toNat ++ [])))) ?_
      (by cases band <;> cases cl <;> cases coding <;> decide))
  refine Reads.bind (Reads.pad _ 1 rfl) ?_
  refine Reads.enum 3 _ band.range.1 band.range.2 band.ofValue_value ?_
  refine Reads.enum 2 _ cl.range.1 cl.range.2 cl.ofValue_value ?_
  refine Reads.enum 2 _ coding.range.1 coding.range.2 coding.ofValue_value ?_
  exact Reads.pure _

/-- Accepted by the constructor. -/
def ChannelID.Ok (c : ChannelID) : Prop := 0 ≤ c.channelIndex ∧ c.channelIndex ≤ 0xFFFF

theorem ChannelID.codec {c : ChannelID} (h : c.Ok) : Codec c.iter ChannelID.parse c 3 := by
  obtain ⟨hd, i⟩ := c
  obtain ⟨h0, h1⟩ := h
  simp only at h0 h1
  simp only [ChannelID.iter]
  refine Codec.seq (m := 2) hd.codec ?_
  refine Codec.seqr (Codec.packU h0 (by omega)) (Reads.lift ?_)
  exact validate_of ⟨h0, h1⟩

/-- Accepted by the constructor. -/
def ChannelStatusIdentifier.Ok (c : ChannelStatusIdentifier) : Prop :=
  0 ≤ c.channelIndex ∧ c.channelIndex ≤ 1039

theorem land_ofNat (a b : Nat) : Int.land (a : Int) (b : Int) = ((a &&& b : Nat) : Int) := rfl

theorem ChannelStatusIdentifier.codec {c : ChannelStatusIdentifier} (h : c.Ok) :
    Codec c.iter ChannelStatusIdentifier.parse c 2 := by
  obtain ⟨band, bw, i⟩ := c
  obtain ⟨h0, h1⟩ := h
  simp only at h0 h1
  obtain ⟨n, rfl⟩ := Int.eq_ofNat_of_zero_le h0
  have e1 : Int.land ((n : Int) >>ₚ 8) 0x07 = ((n / 256 % 8 : Nat) : Int) := by
    have : ((n : Int) >>ₚ 8) = ((n / 256 : Nat) : Int) := by simp [shr]
    rw [this, show (7 : Int) = ((7 : Nat) : Int) from rfl, land_ofNat]
    congr 1
    exact Nat.and_two_pow_sub_one_eq_mod _ 3
  have e2 : Int.land (n : Int) 0xFF = ((n % 256 : Nat) : Int) := by
    rw [show (0xFF : Int) = ((255 : Nat) : Int) from rfl, land_ofNat]
    congr 1
    exact Nat.and_two_pow_sub_one_eq_mod _ 8
  have hb : (0:Int) ≤ bw.value ∧ bw.value < 2 ^ 1 := by cases bw <;> decide
  have hbo : Bandwidth.ofValue bw.value = .ok bw := by cases bw <;> rfl
  have hband := band.range
  have hq : band.value ≤ 4 := by cases band <;> decide
  have hbyte : (band.value <<ₚ 5 + bw.value <<ₚ 4 + (0:Int) <<ₚ 3 + ((n / 256 % 8 : Nat) : Int))
      = ((((band.value.toNat * 2 + bw.value.toNat) * 2 + 0) * 2 ^ 3 + n / 256 : Nat) : Int) := by
    simp only [shl]
    omega
  refine ⟨_, Emits.append (Emits.int ?_ ?_) (Emits.int ?_ ?_), rfl, ?_⟩
  · simp only [e1, hbyte]; omega
  · simp only [e1, hbyte]; omega
  · simp only [e2]; omega
  · simp only [e2]; omega
  · simp only [e1, e2, hbyte, Int.toNat_natCast, bytesToBits_append, bytesToBits_cons,
      bytesToBits_nil, List.append_nil]
    rw [ofNat_toNat_u8 (by omega), ofNat_toNat_u8 (by omega)]
    rw [show (8 : Nat) = 3 + 1 + 1 + 3 from rfl, bitsOf_append _ 3 _ _ (by omega),
      show ((band.value.toNat * 2 + bw.value.toNat) * 2 + 0)
        = (band.value.toNat * 2 ^ 1 + bw.value.toNat) * 2 ^ 1 + 0 from rfl,
      bitsOf_append _ 1 _ _ (by omega), bitsOf_append _ 1 _ _ (by omega)]
    have e3 : bitsOf 3 (n / 256) ++ bitsOf 8 (n % 256) = bitsOf 11 n := by
      rw [← bitsOf_append 3 8 _ _ (by omega)]
      congr 1
      omega
    simp only [List.append_assoc]
    rw [show (3 + 1 + 1 + 3 : Nat) = 8 from rfl, e3]
    refine Reads.enum 3 _ hband.1 hband.2 band.ofValue_value ?_
    refine Reads.enum 1 _ hb.1 hb.2 hbo ?_
    refine Reads.bind (Reads.pad _ 1 rfl) ?_
    refine Reads.bindr (Reads.uint 11 n (by omega)) (Reads.lift ?_)
    exact validate_of ⟨h0, h1⟩

/-- Accepted by the constructor. -/
def SubBand.Ok (b : SubBand) : Prop :=
  (0 ≤ b.channelIndexStart ∧ b.channelIndexStart ≤ 0xFFFF) ∧
  (0 ≤ b.channelIndexEnd ∧ b.channelIndexEnd ≤ 0xFFFF) ∧
  (-128 ≤ b.eirp ∧ b.eirp ≤ 127) ∧ (0 ≤ b.cca ∧ b.cca ≤ 255) ∧ (0 ≤ b.duty ∧ b.duty ≤ 255)

theorem bitsToInt_eq (l : List Bool) (n : Nat) (h : l.length = n + 1) :
    bitsToInt l = if 2 ^ n ≤ bitsToNat l then (bitsToNat l : Int) - 2 ^ (n + 1)
      else bitsToNat l := by
  cases l with
  | nil => simp at h
  | cons b l =>
    have hl : l.length = n := by simpa using h
    have := bitsToNat_lt l
    cases b with
    | false =>
      simp only [bitsToInt]
      rw [if_neg]
      rw [bitsToNat_cons]; simp [← hl]; omega
    | true =>
      simp only [bitsToInt, h]
      rw [if_pos]
      rw [bitsToNat_cons]; simp [hl]

theorem Reads.sint8 (i : Int) (h0 : -128 ≤ i) (h : i ≤ 127) :
    Reads (P.sint 8) i (bitsOf 8 (i % 256).toNat) := by
  have := Reads.bindr (f := fun l => (Pure.pure (bitsToInt l) : P Int))
    (Reads.takeBits (bitsOf 8 (i % 256).toNat) 8 (by simp)) (Reads.pure _)
  rw [bitsToInt_eq _ 7 (by simp), bitsToNat_bitsOf] at this
  have e : (i % 256).toNat % 2 ^ 8 = (i % 256).toNat := Nat.mod_eq_of_lt (by omega)
  rw [e] at this
  have e2 : (if 2 ^ 7 ≤ (i % 256).toNat then (((i % 256).toNat : Nat) : Int) - 2 ^ (7 + 1)
      else (((i % 256).toNat : Nat) : Int)) = i := by split <;> omega
  rw [e2] at this
  exact this

theorem Codec.s8 {i : Int} (h0 : -128 ≤ i) (h : i ≤ 127) :
    Codec (.ofBytes (packS8 i)) (P.sint 8) i 1 := by
  rw [packS8, if_pos ⟨h0, h⟩]
  refine ⟨_, Emits.ofBytes _, rfl, ?_⟩
  rw [bytesToBits_cons, ofNat_toNat_u8 (by omega)]
  simpa using Reads.sint8 i h0 h

theorem SubBand.codec {b : SubBand} (h : b.Ok) : Codec b.iter SubBand.parse b 7 := by
  obtain ⟨s, e, eirp, cca, duty⟩ := b
  obtain ⟨h1, h2, h3, h4, h5⟩ := h
  simp only at h1 h2 h3 h4 h5
  simp only [SubBand.iter, Gen.append_assoc]
  refine Codec.seq (m := 5) (Codec.packU h1.1 (by omega)) ?_
  refine Codec.seq (m := 3) (Codec.packU h2.1 (by omega)) ?_
  refine Codec.seq (m := 2) (Codec.s8 h3.1 h3.2) ?_
  refine Codec.seq (m := 1) (Codec.u8 h4) ?_
  refine Codec.seqr (Codec.u8 h5) (Reads.lift ?_)
  exact validate_of ⟨h1, h2, h3, h4, h5⟩

/-! ### File system -/

theorem FilePermissions.codec (p : FilePermissions) :
    Codec p.iter FilePermissions.parse p 1 := by
  obtain ⟨a, b, c, d, e, f, g, h⟩ := p
  refine Codec.byte (by revert a b c d e f g h; decide) (by revert a b c d e f g h; decide)
    (Reads.congr (l := [a] ++ ([b] ++ ([c] ++ ([d] ++ ([e] ++ ([f] ++ ([g] ++ ([h] ++ []))))))))
      ?_ (by revert a b c d e f g h; decide))
  exact .bind (.bool _) <| .bind (.bool _) <| .bind (.bool _) <| .bind (.bool _) <|
    .bind (.bool _) <| .bind (.bool _) <| .bind (.bool _) <| .bind (.bool _) <| .pure _

theorem FileProperties.codec (p : FileProperties) : Codec p.iter FileProperties.parse p 1 := by
  obtain ⟨a, c, s⟩ := p
  have hc : (0:Int) ≤ c.value ∧ c.value < 2 ^ 3 := by cases c <;> decide
  have hs : (0:Int) ≤ s.value ∧ s.value < 2 ^ 2 := by cases s <;> decide
  refine Codec.byte (by cases a <;> cases c <;> cases s <;> decide)
    (by cases a <;> cases c <;> cases s <;> decide)
    (Reads.congr (l := [a] ++ (bitsOf 3 c.value.toNat ++ (bitsOf 2 0 ++
      (bitsOf 2 s.value.toNat ++ [])))) ?_ (by cases a <;> cases c <;> cases s <;> decide))
  refine .bind (.bool _) ?_
  refine Reads.enum 3 _ hc.1 hc.2 (e := c) (by cases c <;> rfl) ?_
  refine .bind (.pad _ 2 rfl) ?_
  refine Reads.enum 2 _ hs.1 hs.2 (e := s) (by cases s <;> rfl) ?_
  exact .pure _

/-- Accepted by the constructor. -/
def FileHeader.Ok (h : FileHeader) : Prop :=
  isByte h.alpCommandFileId ∧ isByte h.interfaceFileId ∧
  (0 ≤ h.fileSize ∧ h.fileSize ≤ 0xFFFFFFFF) ∧ (0 ≤ h.allocatedSize ∧ h.allocatedSize ≤ 0xFFFFFFFF)

theorem FileHeader.codec {h : FileHeader} (hh : h.Ok) : Codec h.iter FileHeader.parse h 12 := by
  obtain ⟨perm, props, a, i, s, al⟩ := h
  obtain ⟨h1, h2, h3, h4⟩ := hh
  simp only at h1 h2 h3 h4
  simp only [FileHeader.iter, Gen.append_assoc]
  refine Codec.seq (m := 11) perm.codec ?_
  refine Codec.seq (m := 10) props.codec ?_
  refine Codec.seq (m := 9) (Codec.u8 h1) ?_
  refine Codec.seq (m := 8) (Codec.u8 h2) ?_
  refine Codec.seq (m := 4) (Codec.packU h3.1 (by omega)) ?_
  refine Codec.seqr (Codec.packU h4.1 (by omega)) (Reads.lift ?_)
  exact validate_of ⟨h1, h2, h3, h4⟩

/-- Accepted by the constructors. -/
def FileHeaderOperand.Ok (o : FileHeaderOperand) : Prop := isByte o.fileId ∧ o.fileHeader.Ok

theorem FileHeaderOperand.codec {o : FileHeaderOperand} (h : o.Ok) :
    Codec o.iter FileHeaderOperand.parse o 13 := by
  obtain ⟨i, hd⟩ := o
  obtain ⟨h1, h2⟩ := h
  simp only at h1 h2
  refine Codec.seq (m := 12) (Codec.u8 h1) ?_
  refine Codec.seqr (FileHeader.codec h2) (Reads.lift ?_)
  exact validate_of h1

/-! ### Lengths and file operands -/

/-- Accepted by the constructor. -/
def Length.Ok (l : Length) : Prop := 0 ≤ l.value ∧ l.value ≤ 0x3FFFFFFF

theorem Length.size_cases (l : Length) (h : l.Ok) :
    (l.size = 1 ∧ l.value < 2 ^ 6) ∨ (l.size = 2 ∧ 2 ^ 6 ≤ l.value ∧ l.value < 2 ^ 14) ∨
    (l.size = 3 ∧ 2 ^ 14 ≤ l.value ∧ l.value < 2 ^ 22) ∨
    (l.size = 4 ∧ 2 ^ 22 ≤ l.value ∧ l.value < 2 ^ 30) := by
  have h' := h.2
  simp only [Length.size]
  split_ifs <;> omega

theorem Length.reads (n k : Nat) (hk : k < 4) (hn : n < 2 ^ (6 + k * 8)) :
    Reads Length.parse ⟨n⟩ (bitsOf (8 * (k + 1)) (k * 2 ^ (6 + k * 8) + n)) := by
  rw [show 8 * (k + 1) = 2 + (6 + k * 8) by ring, bitsOf_append _ _ _ _ hn]
  refine Reads.bind (Reads.uint 2 k (by omega)) ?_
  refine Reads.bindr (a := (n : Int)) ?_ (Reads.lift (validate_of ?_))
  · exact Reads.uint (6 + k * 8) n hn
  · have : 2 ^ (6 + k * 8) ≤ 2 ^ 30 := Nat.pow_le_pow_right (by norm_num) (by omega)
    constructor <;> omega

theorem beBytes_add (k a n : Nat) : ∀ j ≤ k, beBytes j (a * 256 ^ k + n) = beBytes j n := by
  intro j
  induction j with
  | zero => intro _; rfl
  | succ j ih =>
    intro h
    simp only [beBytes]
    rw [ih (by omega)]
    congr 2
    obtain ⟨d, rfl⟩ := Nat.exists_eq_add_of_le h
    rw [show a * 256 ^ (j + 1 + d) + n = n + 256 ^ j * (a * 256 ^ d * 256) by ring,
      Nat.add_mul_div_left _ _ (by positivity), Nat.add_mul_mod_self_right]

theorem beBytes_length_field (k n : Nat) (hk : k < 4) (hn : n < 64 * 256 ^ k) :
    beBytes (k + 1) (k * 2 ^ (8 * (k + 1) - 2) + n) =
      UInt8.ofNat (k * 64 + n / 256 ^ k) :: beBytes k n := by
  have e : k * 2 ^ (8 * (k + 1) - 2) = (k * 64) * 256 ^ k := by
    rw [show 8 * (k + 1) - 2 = 6 + 8 * k by omega, pow_add, pow_mul]; ring
  have hq : n / 256 ^ k < 64 := Nat.div_lt_of_lt_mul (by rwa [Nat.mul_comm])
  simp only [beBytes]
  rw [e, beBytes_add k _ _ k (Nat.le_refl _)]
  congr 2
  rw [Nat.add_comm, Nat.mul_comm (k * 64), Nat.add_mul_div_left _ _ (by positivity),
    Nat.mod_eq_of_lt (by omega)]
  omega

/-- The wire form of a length: the size in the two top bits, then the value. -/
theorem Length.emits (l : Length) (h : l.Ok) :
    Emits l.iter (beBytes l.size ((l.size - 1) * 2 ^ (8 * l.size - 2) + l.value.toNat)) := by
  obtain ⟨v⟩ := l
  obtain ⟨h0, h1⟩ := h
  simp only at h0 h1
  obtain ⟨n, rfl⟩ := Int.eq_ofNat_of_zero_le h0
  have hc := Length.size_cases ⟨n⟩ ⟨h0, h1⟩
  simp only at hc
  have hp : packU 4 (n : Int) = .ok (beBytes 4 n) := by
    rw [packU, if_pos ⟨h0, by simp; omega⟩]; simp
  have first : ∀ k m : Nat, k < 4 → m < 64 →
      Emits (.int ((((k + 1 : Nat) : Int) - 1) <<ₚ 6 + (m : Int))) [UInt8.ofNat (k * 64 + m)] := by
    intro k m hk hm
    have e : (((k + 1 : Nat) : Int) - 1) <<ₚ 6 + (m : Int) = ((k * 64 + m : Nat) : Int) := by
      simp only [shl]; omega
    rw [e]
    exact Emits.int (by omega) (by omega)
  have step : ∀ k d : Nat, 0 < k → k < 4 → n < 64 * 256 ^ k →
      (Length.mk n).size = k + 1 → (beBytes 4 n).drop d = beBytes (k + 1) n →
      Emits (Gen.int (((((k + 1 : Nat) : Int) - 1) <<ₚ 6) +
        ((UInt8.ofNat (n / 256 ^ k % 256)).toNat : Int)) ++ Gen.ofBytes (.ok (beBytes k n)))
        (beBytes (k + 1) ((k + 1 - 1) * 2 ^ (8 * (k + 1) - 2) + n)) := by
    intro k d _ hk hn _ _
    have hq : n / 256 ^ k < 64 := Nat.div_lt_of_lt_mul (by rwa [Nat.mul_comm])
    rw [Nat.add_sub_cancel, beBytes_length_field k n hk hn, ofNat_toNat_u8 (by omega),
      Nat.mod_eq_of_lt (by omega)]
    exact Emits.append (first k _ hk hq) (Emits.ofBytes _)
  rcases hc with ⟨hs, hv⟩ | ⟨hs, hv⟩ | ⟨hs, hv⟩ | ⟨hs, hv⟩
  · simp only [Length.iter, hs, Int.toNat_natCast, if_true]
    rw [show (1 : Nat) = 0 + 1 from rfl, Nat.add_sub_cancel,
      beBytes_length_field 0 n (by omega) (by omega)]
    simpa [beBytes] using first 0 n (by omega) (by omega)
  · simpa [Length.iter, hs, hp, beBytes] using step 1 2 (by omega) (by omega) (by omega) hs rfl
  · simpa [Length.iter, hs, hp, beBytes] using step 2 1 (by omega) (by omega) (by omega) hs rfl
  · simpa [Length.iter, hs, hp, beBytes] using step 3 0 (by omega) (by omega) (by omega) hs rfl

theorem Length.codec {l : Length} (h : l.Ok) : Codec l.iter Length.parse l l.size := by
  refine ⟨_, Length.emits l h, beBytes_length _ _, ?_⟩
  obtain ⟨v⟩ := l
  have hc := Length.size_cases ⟨v⟩ h
  obtain ⟨h0, h1⟩ := h
  simp only at h0 h1
  obtain ⟨n, rfl⟩ := Int.eq_ofNat_of_zero_le h0
  rw [bytesToBits_beBytes]
  simp only at hc
  rcases hc with ⟨hs, hv⟩ | ⟨hs, hv⟩ | ⟨hs, hv⟩ | ⟨hs, hv⟩ <;> rw [hs]
  · exact Length.reads n 0 (by omega) (by omega)
  · exact Length.reads n 1 (by omega) (by omega)
  · exact Length.reads n 2 (by omega) (by omega)
  · exact Length.reads n 3 (by omega) (by omega)

/-- Accepted by the constructors. -/
def Offset.Ok (o : Offset) : Prop := isByte o.id ∧ o.offset.Ok

theorem Offset.codec {o : Offset} (h : o.Ok) : Codec o.iter Offset.parse o (1 + o.offset.size) := by
  obtain ⟨i, l⟩ := o
  obtain ⟨h1, h2⟩ := h
  simp only at h1 h2
  refine Codec.seq (Codec.u8 h1) ?_
  exact Codec.seqr (Length.codec h2) (Reads.lift (validate_of h1))

end Verif
