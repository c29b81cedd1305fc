import Verif.Lemmas.Tables
import Verif.Lemmas.SystemFiles

/-! Tables of the parsers with choices. -/

namespace Verif

/-! ### Session layer -/

theorem Addressee.parseRawId_decodes (ty : IdType) : Decodes (parseRawId ty) fun x t => match ty with
    | .NBID => ∃ v, x = .int v ∧ t = [(8, some v)]
    | .NOID => x = .none ∧ t = []
    | .VID => ∃ v, x = .int v ∧ t = [(16, some v)]
    | .UID => ∃ v, x = .int v ∧ t = [(64, some v)] := by
  cases ty
  all_goals
    simp only [parseRawId, lengthFor, Nat.zero_lt_succ, gt_iff_lt, if_true, Nat.lt_irrefl, if_false]
    apply Decodes.cast
    · decode
    intro x t _
    flat []

theorem nbid_compress {v : Int} (h0 : 0 ≤ v) (h : v < 2 ^ 8) :
    CT.compress v = .ok (some (nbid v)) ∧ (nbid v).Built := by
  obtain ⟨n, rfl⟩ := Int.eq_ofNat_of_zero_le h0
  have h : n < 256 := by omega
  interval_cases n <;> exact ⟨rfl, rfl⟩

theorem Addressee.decodes : Decodes Addressee.parse fun x t => x.Built ∧ x.Tables t := by
  unfold Addressee.parse Addressee.new
  apply Decodes.cast
  · decode (Addressee.parseRawId_decodes _)
  rintro ⟨ac, ty, id, nls⟩ t ht
  flat [Addressee.Built, Addressee.new, Addressee.Tables, Addressee.mk.injEq, IdType.ofValue_ok,
    NlsMethod.ofValue_ok, Addressee.IdTable]
  cases ty
  · constructor
    · rintro ⟨_, _, ⟨v, rfl, rfl⟩, hi, hb, ho, rfl⟩
      have hv := ht 8 v (by simp)
      have hc := nbid_compress hv.1 hv.2
      simp only [nbidId, hc.1, Except.ok.injEq] at hi
      subst hi
      refine ⟨hb, ho, ?_, _, ⟨v, rfl, rfl⟩, rfl⟩
      rintro c ⟨⟩
      exact hc.2
    · rintro ⟨hb, ho, hc, _, h, rfl⟩
      cases id with
      | none => cases h
      | int i => cases h
      | ct c =>
        obtain ⟨v, rfl, rfl⟩ := h
        have hv := ht 8 v (by simp)
        refine ⟨_, _, ⟨v, rfl, rfl⟩, ?_, hb, ho, rfl⟩
        simp only [nbidId, (nbid_compress hv.1 hv.2).1]
  all_goals
    constructor
    · rintro ⟨_, _, h, hi, hb, ho, rfl⟩
      cases hi
      refine ⟨hb, ho, ?_, _, ?_, rfl⟩
      · rintro c rfl; cases ho
      · cases id <;> simp_all
    · rintro ⟨hb, ho, hc, _, h, rfl⟩
      refine ⟨id, _, ?_, rfl, hb, ho, rfl⟩
      cases id <;> simp_all

theorem Length.decodes : Decodes Length.parse fun x t => x.Built ∧ x.Tables t := by
  unfold Length.parse Length.new
  apply Decodes.cast
  · decode
  rintro ⟨v⟩ t ht
  flat [Length.Built, Length.new, Length.Tables, Length.mk.injEq]
  refine and_congr_right fun _ => and_congr_right fun _ => ?_
  constructor
  · rintro ⟨x, rfl⟩
    have := ht 2 x (by simp)
    refine ⟨x.toNat, by omega, ?_⟩
    rw [Int.toNat_of_nonneg this.1, Nat.mul_comm]
  · rintro ⟨k, _, rfl⟩
    exact ⟨k, by rw [Int.toNat_natCast, Nat.mul_comm]⟩

theorem Offset.decodes : Decodes Offset.parse fun x t => x.Built ∧ x.Tables t := by
  unfold Offset.parse Offset.new
  apply Decodes.cast
  · decode Length.decodes
  rintro ⟨i, l⟩ t ht
  flat [Offset.Built, Offset.new, Offset.Tables, Offset.mk.injEq]
  constructor
  · rintro ⟨h1, u, h2, h3, h4⟩; exact ⟨h3, h1, u, h2, h4⟩
  · rintro ⟨h3, h1, u, h2, h4⟩; exact ⟨h1, u, h2, h3, h4⟩

theorem Configuration.decodes : Decodes Configuration.parse fun x t => x.Built ∧ x.Tables t := by
  unfold Configuration.parse
  apply Decodes.cast
  · decode QoS.decodes CT.decodes Addressee.decodes
  rintro ⟨q, d, a⟩ t ht
  flat [Configuration.Built, Configuration.Tables, Configuration.mk.injEq]

theorem Status.decodes : Decodes Status.parse fun x t => x.Built ∧ x.Tables t := by
  unfold Status.parse Status.new
  apply Decodes.cast
  · decode ChannelID.decodes CT.decodes Addressee.decodes
  rintro x t ht
  cases x
  flat [Status.Built, Status.new, Status.Tables, Status.mk.injEq]
  constructor
  · rintro ⟨h1, _, h3, h4, h5, u, h6, a, b, c, d, e, h7⟩
    exact ⟨a, b, c, d, e, h1, h4, h5, h3, u, h6, h7⟩
  · rintro ⟨a, b, c, d, e, h1, h4, h5, h3, u, h6, h7⟩
    exact ⟨h1, by have := a.1; omega, h3, h4, h5, u, h6, a, b, c, d, e, h7⟩

theorem AlpParser.parseFileDataRequestOperand_decodes :
    Decodes AlpParser.parseFileDataRequestOperand fun x t => x.Built ∧ x.Tables t := by
  unfold AlpParser.parseFileDataRequestOperand DataRequest.new
  apply Decodes.cast
  · decode Offset.decodes Length.decodes
  rintro x t ht
  cases x
  flat [DataRequest.Built, DataRequest.new, DataRequest.Tables, DataRequest.mk.injEq]
  constructor
  · rintro ⟨o, h1, u, h2, l, h3, w, h4, h5, rfl⟩
    rw [show Length.new l.value = .ok l from h3] at h5
    cases h5
    refine ⟨?_, h1, u, h2, w, h4, rfl⟩
    rw [show Length.new _ = .ok _ from h3]
    rfl
  · rintro ⟨h5, h1, u, h2, w, h4, rfl⟩
    have h3 := (DataRequest.built_iff (c := ⟨_, _⟩).1 ⟨h5, h1⟩).2
    exact ⟨_, h1, u, h2, _, Length.built_iff.2 h3, w, h4, h5, rfl⟩

theorem Data.new_eq_ok {l : List Int} {o : Offset} {d : Data} :
    Data.new l o = .ok d ↔ o = d.offset ∧ d.data = l ∧ Data.new d.data d.offset = .ok d := by
  constructor
  · intro h
    have h' := h
    unfold Data.new at h
    simp only [bind, Except.bind] at h
    split at h
    · cases h
    · obtain ⟨_, rfl⟩ := validate_eq_ok.1 h
      exact ⟨rfl, rfl, h'⟩
  · rintro ⟨rfl, rfl, h⟩
    exact h

theorem AlpParser.parseReturnFileDataOperand_decodes :
    Decodes AlpParser.parseReturnFileDataOperand fun x t => x.Built ∧ x.Tables t := by
  unfold AlpParser.parseReturnFileDataOperand
  apply Decodes.cast
  · decode Offset.decodes Length.decodes
  rintro x t ht
  flat []
  constructor
  · rintro ⟨_, h1, u, h2, l, h3, w, h4, b, h5, hn, rfl⟩
    obtain ⟨rfl, h6, h7⟩ := Data.new_eq_ok.1 hn
    have hb : x.Built := ⟨h7, h1⟩
    have hl := (Data.built_iff.1 hb).2.1
    have : l = x.length := by
      obtain ⟨v⟩ := l
      obtain ⟨_, ⟨v'⟩, _⟩ := x
      simp only at hl h6 h5
      have := (Length.built_iff.1 h3).1
      simp only at this
      rw [h6, ords, List.length_map] at hl
      congr 1
      omega
    subst this
    rw [← h6]
    exact ⟨hb, u, w, h2, h4, (List.append_assoc ..).symm⟩
  · rintro ⟨hb, u, w, h2, h4, rfl⟩
    obtain ⟨_, hl, hl', hd⟩ := Data.built_iff.1 hb
    refine ⟨_, hb.2, u, h2, x.length, Length.built_iff.2 hl', w, h4, toU8s x.data, ?_, ?_, ?_⟩
    · rw [hl, Int.toNat_natCast, toU8s, List.length_map]
    · rw [ords_toU8s hd]; exact hb.1
    · rw [ords_toU8s hd, List.append_assoc]

theorem ArithQueryParams.decodes : Decodes ArithQueryParams.parse fun x t =>
    t = [bit x.signedDataType, (3, some x.compType.value)] := by
  unfold ArithQueryParams.parse
  apply Decodes.cast
  · decode
  rintro x t ht
  cases x
  flat [ArithQueryParams.mk.injEq, ArithComparisonType.ofValue_ok]

theorem QueryOperand.decodes : Decodes QueryOperand.parse fun x t => x.Built ∧ x.Tables t := by
  unfold QueryOperand.parse QueryOperand.new
  apply Decodes.cast
  · decode ArithQueryParams.decodes Length.decodes Offset.decodes
  rintro x t ht
  cases x
  flat [QueryOperand.Built, QueryOperand.new, QueryOperand.Tables, QueryOperand.mk.injEq, QueryType.ofValue_ok]
  constructor
  · rintro ⟨h1, u, h2, b, h3, h4, w, h5, h6, rfl, rfl, rfl, rfl⟩
    refine ⟨h6, h1, h4, rfl, rfl, ?_, u, h2, w, h5, rfl⟩
    have := (Length.built_iff.1 h1).1
    simp only [ords, List.length_map]
    omega
  · rintro ⟨h6, h1, h4, rfl, rfl, h3, u, h2, w, h5, rfl⟩
    refine ⟨h1, u, h2, toU8s _, ?_, h4, w, h5, ?_, rfl, rfl, ords_toU8s h6, ?_⟩
    · rw [h3, Int.toNat_natCast, toU8s, List.length_map]
    · rw [ords_toU8s h6]; exact h6
    · rw [ords_toU8s h6]; rfl

/-! ### System files -/

theorem AccessProfile.decodes : Decodes AccessProfile.parse fun x t =>
    x.Built ∧ x.subBands.length = 8 ∧ t = x.table := by
  unfold AccessProfile.parse AccessProfile.new
  apply Decodes.cast
  · decode ChannelHeader.decodes (Decodes.replicate SubProfile.decodes _)
      (Decodes.replicate SubBand.decodes _)
  rintro x t ht
  cases x
  flat [AccessProfile.Built, AccessProfile.new, AccessProfile.table, AccessProfile.mk.injEq]
  tauto

theorem FirmwareVersionFile.decodeAscii_ok {b : List UInt8} {s : List Nat} :
    decodeAscii b = .ok s ↔ b.map UInt8.toNat = s ∧ Ascii s := by
  unfold decodeAscii
  split
  · next h =>
    simp only [Except.ok.injEq, iff_self_and]
    rintro rfl c hc
    obtain ⟨v, hv, rfl⟩ := List.mem_map.1 hc
    exact h v hv
  · next h =>
    constructor
    · intro h; cases h
    · rintro ⟨rfl, h'⟩
      exact absurd (fun v hv => h' _ (List.mem_map_of_mem hv)) h

theorem octets_chars (b : List UInt8) : octets (ords b) = chars (b.map UInt8.toNat) := by
  simp [octets, ords, chars]

theorem ascii_bytes {s : List Nat} (h : Ascii s) : (s.map UInt8.ofNat).map UInt8.toNat = s := by
  rw [List.map_map]
  conv_rhs => rw [← List.map_id s]
  refine List.map_congr_left fun c hc => ?_
  have := h c hc
  simp only [Function.comp_apply, UInt8.toNat_ofNat', id_eq]
  omega

theorem FirmwareVersionFile.decodes : Decodes FirmwareVersionFile.parse fun x t =>
    x.Built ∧ x.applicationName.length = 6 ∧ x.gitSha1.length = 7 ∧ Ascii x.applicationName ∧ Ascii x.gitSha1 ∧
      t = x.table := by
  unfold FirmwareVersionFile.parse FirmwareVersionFile.new
  apply Decodes.cast
  · decode
  rintro x t ht
  cases x
  flat [FirmwareVersionFile.Built, FirmwareVersionFile.new, FirmwareVersionFile.table, FirmwareVersionFile.mk.injEq]
  constructor
  · rintro ⟨a, h1, h2, b, h3, h4, c1, c2, c3, c4, c5, c6, rfl⟩
    obtain ⟨rfl, h2⟩ := decodeAscii_ok.1 h2
    obtain ⟨rfl, h4⟩ := decodeAscii_ok.1 h4
    exact ⟨c1, c2, c3, c4, c5, c6, by simpa using h1, by simpa using h3, h2, h4, by simp only [octets_chars]⟩
  · rintro ⟨c1, c2, c3, c4, c5, c6, h1, h3, h2, h4, rfl⟩
    refine ⟨_, ?_, decodeAscii_ok.2 ⟨ascii_bytes h2, h2⟩, _, ?_, decodeAscii_ok.2 ⟨ascii_bytes h4, h4⟩,
      c1, c2, c3, c4, c5, c6, ?_⟩
    · simpa using h1
    · simpa using h3
    · simp only [octets_chars, ascii_bytes h2, ascii_bytes h4]

theorem PhyStatusFile.parseChannel_decodes : Decodes PhyStatusFile.parseChannel fun x t =>
    x.1.Built ∧ t = x.1.table ++ [(8, some x.2)] := by
  unfold PhyStatusFile.parseChannel
  apply Decodes.cast
  · decode ChannelStatusIdentifier.decodes
  rintro ⟨i, v⟩ t ht
  flat [Prod.mk.injEq]

theorem PhyStatusFile.decodes : Decodes PhyStatusFile.parse fun x t => x.Built ∧
    x.channelStatusIdentifier.length = x.channelStatusListLength ∧
    x.channelNoiseFloor.length = x.channelStatusListLength ∧ t = x.table := by
  unfold PhyStatusFile.parse
  apply Decodes.cast
  · decode (Decodes.replicate PhyStatusFile.parseChannel_decodes _)
  rintro x t ht
  flat []
  constructor
  · rintro ⟨a, b, c, d, n, l, hl, hb, hn, rfl⟩
    have hn0 := (ht 8 n (by simp)).1
    have hnl : (l.length : Int) = n := by omega
    have e : n = ((l.map Prod.fst).length : Int) ∧ n = ((l.map Prod.snd).length : Int) := by simp [hnl]
    obtain ⟨hv, rfl⟩ := validate_eq_ok.1 hn
    rw [extend_self _ _ _ e.1.le, extend_self _ _ _ e.2.le]
    refine ⟨⟨l.map Prod.fst, l.map Prod.snd, ?_, ?_⟩, e.1.symm, e.2.symm, ?_⟩
    · simp only
      rw [hn, extend_self _ _ _ e.1.le, extend_self _ _ _ e.2.le]
    · intro i hi
      obtain ⟨x, hx, rfl⟩ := List.mem_map.1 hi
      exact hb x hx
    · simp only [table, List.cons_append, List.nil_append, ← List.unzip_fst, ← List.unzip_snd, List.zip_unzip]
  · rintro ⟨hb, h1, h2, rfl⟩
    obtain ⟨hv, _, _, hi⟩ := built_iff.1 hb
    have h3 : (x.channelStatusIdentifier.zip x.channelNoiseFloor).map Prod.fst = x.channelStatusIdentifier := by
      rw [List.map_fst_zip]; omega
    have h4 : (x.channelStatusIdentifier.zip x.channelNoiseFloor).map Prod.snd = x.channelNoiseFloor := by
      rw [List.map_snd_zip]; omega
    refine ⟨x.upTime, x.rxTime, x.txTime, x.txDutyCycle, x.channelStatusListLength,
      x.channelStatusIdentifier.zip x.channelNoiseFloor, ?_, ?_, ?_, rfl⟩
    · rw [List.length_zip]; omega
    · intro y hy
      exact ChannelStatusIdentifier.built_iff.2 (hi _ (List.of_mem_zip hy).1)
    · rw [h3, h4]
      unfold new
      rw [extend_self _ _ _ h1.ge, extend_self _ _ _ h2.ge]
      exact validate_of hv

theorem FactorySettingsFile.decodes : Decodes FactorySettingsFile.parse fun x t => x.Built ∧
    ∃ s : Nat, 0 < s ∧ x.rssiSmoothing = Nat.clog 2 s - 1 ∧ t = x.table s := by
  unfold FactorySettingsFile.parse
  apply Decodes.cast
  · decode
  rintro x t ht
  flat []
  constructor
  · rintro ⟨a, g1, g2, b1, b2, b3, b4, b5, b6, b7, b8, b9, c1, c2, c3, c4, c5, c6, c7, c8, c9, sm, ro, d1, d2, d3,
      d4, hn, rfl⟩
    have hs := (ht 8 sm (by simp)).1
    refine ⟨⟨_, hn⟩, sm.toNat, ?_⟩
    unfold new smoothing at hn
    split at hn
    · cases hn
    · next h0 =>
      obtain ⟨_, rfl⟩ := validate_eq_ok.1 hn
      simp only at h0
      exact ⟨by omega, rfl, by rw [Int.toNat_of_nonneg hs]; rfl⟩
  · rintro ⟨⟨args, h⟩, s, h0, hs, rfl⟩
    have hv : x.Valid := by
      unfold new at h
      simp only [bind, Except.bind] at h
      split at h
      · cases h
      · obtain ⟨hv, rfl⟩ := validate_eq_ok.1 h
        exact hv
    refine ⟨x.gain, hv.1.1, hv.1.2, x.rxBwLow, x.rxBwNormal, x.rxBwHigh, x.bitrateLo, x.fdevLo,
      x.bitrateNormal, x.fdevNormal, x.bitrateHi, x.fdevHi, x.preambleSizeLo, x.preambleSizeNormal,
      x.preambleSizeHi, x.preambleDetectorSizeLo, x.preambleDetectorSizeNormal, x.preambleDetectorSizeHi,
      x.preambleTolLo, x.preambleTolNormal, x.preambleTolHi, s, x.rssiOffset, x.loraBw, x.loraSF, x.gaussian,
      x.paramp, ?_, rfl⟩
    unfold new smoothing
    rw [if_neg (by simp only; omega)]
    show validate _ _ = _
    simp only [Int.toNat_natCast, ← hs]
    exact validate_of hv

end Verif
