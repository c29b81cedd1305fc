import Verif.Lemmas.Codec
import Verif.Model.AlpParser

/-! Serialise/parse correspondence for addressees, D7ASP objects and ALP operands. -/

namespace Verif

/-! ### Addressee -/

theorem IdType.range (t : IdType) : 0 ≤ t.value ∧ t.value < 2 ^ 2 := by cases t <;> decide
theorem IdType.ofValue_value (t : IdType) : ofValue t.value = .ok t := by cases t <;> rfl
theorem NlsMethod.range (t : NlsMethod) : 0 ≤ t.value ∧ t.value < 2 ^ 4 := by cases t <;> decide
theorem NlsMethod.ofValue_value (t : NlsMethod) : ofValue t.value = .ok t := by cases t <;> rfl

namespace Addressee

/-- Accepted by the constructors of the addressee and of the CT in it. -/
def Ok (a : Addressee) : Prop :=
  isByte a.accessClass ∧ idOk a.idType a.id = true ∧ ∀ c, a.id = .ct c → c.Ok

/-- Not an NBID addressee whose estimation byte is changed by `parse`. -/
def Faithful (a : Addressee) : Prop := ∀ c, a.id = .ct c → c.exp = 0

/-- The number in the identifier bytes. -/
def idNat (a : Addressee) : Nat :=
  match a.id with
  | .none => 0
  | .int i => i.toNat
  | .ct c => (c.exp * 32 + c.mant).toNat

theorem first_byte (t : IdType) (n : NlsMethod) :
    0 ≤ Int.lor 0 (t.value <<ₚ 4) + n.value ∧ Int.lor 0 (t.value <<ₚ 4) + n.value ≤ 255 ∧
    bitsOf 8 (Int.lor 0 (t.value <<ₚ 4) + n.value).toNat =
      bitsOf 2 0 ++ (bitsOf 2 t.value.toNat ++ bitsOf 4 n.value.toNat) := by
  cases t <;> cases n <;> decide

theorem drop_beBytes (n : Nat) : ∀ (k d : Nat), (beBytes (d + k) n).drop d = beBytes k n := by
  intro k d
  induction d with
  | zero => simp
  | succ d ih => rw [show d + 1 + k = (d + k) + 1 by omega]; simpa [beBytes] using ih

theorem idValue_ok (a : Addressee) (h : a.Ok) (hl : lengthFor a.idType > 0) :
    a.idValue = .ok (a.idNat : Int) ∧ a.idNat < 256 ^ lengthFor a.idType := by
  obtain ⟨ac, t, id, n⟩ := a
  obtain ⟨-, h2, h3⟩ := h
  simp only at h2 h3 hl
  cases t <;> cases id <;>
    simp only [idOk, Bool.false_eq_true, decide_eq_true_eq, lengthFor, gt_iff_lt,
      Nat.lt_irrefl] at h2 hl
  · rename_i c
    obtain ⟨⟨_, _⟩, _, _⟩ := h3 c rfl
    simp only [idValue, idNat, CT.compressedValue_eq, lengthFor]
    refine ⟨?_, by omega⟩
    rw [Int.toNat_of_nonneg (by omega)]
  · simp only [idValue, idNat, lengthFor]
    refine ⟨?_, by omega⟩
    rw [Int.toNat_of_nonneg (by omega)]
  · simp only [idValue, idNat, lengthFor]
    refine ⟨?_, by omega⟩
    rw [Int.toNat_of_nonneg (by omega)]

/-- The serialised form. -/
theorem emits (a : Addressee) (h : a.Ok) :
    Emits a.iter ([UInt8.ofNat (Int.lor 0 (a.idType.value <<ₚ 4) + a.nlsMethod.value).toNat] ++
      ([UInt8.ofNat a.accessClass.toNat] ++ beBytes (lengthFor a.idType) a.idNat)) := by
  have hb := first_byte a.idType a.nlsMethod
  have h1 := h.1
  simp only [iter, Gen.append_assoc]
  refine (Emits.int hb.1 hb.2.1).append ((Emits.int h1.1 h1.2).append ?_)
  by_cases hl : lengthFor a.idType > 0
  · rw [if_pos hl]
    obtain ⟨hv, hlt⟩ := idValue_ok a h hl
    have h8 : lengthFor a.idType ≤ 8 := by cases a.idType <;> decide
    have : a.idNat < 256 ^ 8 := Nat.lt_of_lt_of_le hlt (Nat.pow_le_pow_right (by norm_num) h8)
    have hp : packU 8 (a.idNat : Int) = .ok (beBytes 8 a.idNat) := by
      rw [packU, if_pos ⟨by omega, by simpa using this⟩]; simp
    have hd := drop_beBytes a.idNat (lengthFor a.idType) (8 - lengthFor a.idType)
    rw [show 8 - lengthFor a.idType + lengthFor a.idType = 8 by omega] at hd
    rw [hv]
    simp only [bind, Except.bind, hp, pure, Except.pure, hd]
    exact Emits.ofBytes _
  · rw [if_neg hl, show lengthFor a.idType = 0 by omega]
    exact Emits.nil

/-- What `parse` makes of the identifier number. -/
def readId (t : IdType) (n : Nat) : AddrId :=
  match t with
  | .NBID => .ct ⟨if n ≤ 31 then 0 else if n ≤ 124 then 1 else 2,
      if n ≤ 31 then n else if n ≤ 124 then (n + 3) / 4 else (n + 15) / 16⟩
  | .NOID => .none
  | _ => .int n

theorem compress_byte (n : Nat) (h : n < 256) :
    CT.compress n = .ok (some ⟨if n ≤ 31 then 0 else if n ≤ 124 then 1 else 2,
      if n ≤ 31 then n else if n ≤ 124 then (n + 3) / 4 else (n + 15) / 16⟩) := by
  interval_cases n <;> rfl

/-- `parse` on a well-formed addressee. -/
theorem reads (t : IdType) (m : NlsMethod) (ac n : Nat) (hac : ac < 256)
    (hn : n < 256 ^ lengthFor t) :
    Reads Addressee.parse ⟨ac, t, readId t n, m⟩
      (bitsOf 2 0 ++ (bitsOf 2 t.value.toNat ++ (bitsOf 4 m.value.toNat ++
        (bitsOf 8 ac ++ (bitsOf (8 * lengthFor t) n ++ []))))) := by
  refine Reads.bind (Reads.pad _ 2 rfl) ?_
  refine Reads.enum 2 _ t.range.1 t.range.2 t.ofValue_value ?_
  refine Reads.enum 4 _ m.range.1 m.range.2 m.ofValue_value ?_
  refine Reads.bind (Reads.uint 8 ac (by omega)) ?_
  have hb : isByte (ac : Int) := ⟨by omega, by omega⟩
  have hid : ∀ (l : AddrId), Reads (parseRawId t) l (bitsOf (8 * lengthFor t) n) →
      nbidId t l = .ok (readId t n) → idOk t (readId t n) = true →
      Reads (parseRawId t >>= fun id => P.lift (nbidId t id) >>= fun id =>
        P.lift (new ac t id m)) ⟨ac, t, readId t n, m⟩ (bitsOf (8 * lengthFor t) n ++ []) := by
    intro l h1 h2 h3
    refine Reads.bind h1 ?_
    refine Reads.bind0 (Reads.lift h2) ?_
    exact Reads.lift (validate_of (And.intro hb h3))
  cases t
  · refine hid (.int n) (Reads.bindr (Reads.uint (1 * 8) n hn) (Reads.pure _)) ?_ rfl
    simp only [nbidId, compress_byte n hn, readId]
  · exact hid .none (Reads.pure _) rfl rfl
  · refine hid (.int n) (Reads.bindr (Reads.uint (8 * 8) n (by simpa [lengthFor] using hn))
      (Reads.pure _)) rfl ?_
    simp only [lengthFor] at hn
    simp [idOk, readId]; omega
  · refine hid (.int n) (Reads.bindr (Reads.uint (2 * 8) n (by simpa [lengthFor] using hn))
      (Reads.pure _)) rfl ?_
    simp only [lengthFor] at hn
    simp [idOk, readId]; omega

/-- The addressee as read back. -/
def reread (a : Addressee) : Addressee := { a with id := readId a.idType a.idNat }

theorem codec_reread {a : Addressee} (h : a.Ok) :
    Codec a.iter Addressee.parse a.reread (2 + lengthFor a.idType) := by
  refine ⟨_, emits a h, ?_, ?_⟩
  · simp [beBytes_length]; omega
  · have hb := first_byte a.idType a.nlsMethod
    have h1 := h.1
    have h1' := h1.2
    have h10 := h1.1
    have hlt : a.idNat < 256 ^ lengthFor a.idType := by
      by_cases hl : lengthFor a.idType > 0
      · exact (idValue_ok a h hl).2
      · have : lengthFor a.idType = 0 := by omega
        obtain ⟨ac, t, id, n⟩ := a
        obtain ⟨-, h2, -⟩ := h
        cases t <;> cases id <;> simp_all [idOk, lengthFor, idNat]
    simp only [bytesToBits_append, bytesToBits_cons, bytesToBits_nil, List.append_nil,
      bytesToBits_beBytes]
    rw [ofNat_toNat_u8 (by omega), ofNat_toNat_u8 (by omega), hb.2.2]
    have := reads a.idType a.nlsMethod a.accessClass.toNat a.idNat (by omega) hlt
    rw [Int.toNat_of_nonneg h10] at this
    simpa [reread, List.append_assoc] using this

theorem reread_eq {a : Addressee} (h : a.Ok) (hf : a.Faithful) : a.reread = a := by
  obtain ⟨ac, t, id, n⟩ := a
  obtain ⟨-, h2, h3⟩ := h
  cases t <;> cases id <;>
    simp only [idOk, Bool.false_eq_true, decide_eq_true_eq] at h2
  · rename_i c
    obtain ⟨⟨_, _⟩, _, _⟩ := h3 c rfl
    have : c.exp = 0 := hf c rfl
    obtain ⟨e, m⟩ := c
    simp only at *
    simp only [reread, readId, idNat]
    subst this
    simp
    omega
  · rfl
  · simp only [reread, readId, idNat]
    rw [Int.toNat_of_nonneg (by omega)]
  · simp only [reread, readId, idNat]
    rw [Int.toNat_of_nonneg (by omega)]

theorem codec {a : Addressee} (h : a.Ok) (hf : a.Faithful) :
    Codec a.iter Addressee.parse a (2 + lengthFor a.idType) := by
  have := codec_reread h
  rwa [reread_eq h hf] at this

end Addressee

/-! ### D7ASP -/

theorem QoS.codec (q : QoS) : Codec q.iter QoS.parse q 1 := by
  obtain ⟨resp, retry, stop, record⟩ := q
  have hr : (0:Int) ≤ resp.value ∧ resp.value < 2 ^ 3 := by cases resp <;> decide
  have hy : (0:Int) ≤ retry.value ∧ retry.value < 2 ^ 3 := by cases retry <;> decide
  refine Codec.byte (by cases resp <;> cases retry <;> cases stop <;> cases record <;> decide)
    (by cases resp <;> cases retry <;> cases stop <;> cases record <;> decide)
    (Reads.congr (l := [stop] ++ ([record] ++ (bitsOf 3 retry.value.toNat ++
      (bitsOf 3 resp.value.toNat ++ [])))) ?_
      (by cases resp <;> cases retry <;> cases stop <;> cases record <;> decide))
  refine .bind (.bool _) (.bind (.bool _) ?_)
  refine Reads.enum 3 _ hy.1 hy.2 (e := retry) (by cases retry <;> rfl) ?_
  refine Reads.enum 3 _ hr.1 hr.2 (e := resp) (by cases resp <;> rfl) ?_
  exact .pure _

/-- Built from accepted parts. -/
def Configuration.Ok (c : Configuration) : Prop := c.dormTo.Ok ∧ c.addressee.Ok

/-- The configuration as read back. -/
def Configuration.reread (c : Configuration) : Configuration :=
  { c with addressee := c.addressee.reread }

theorem Configuration.codec_reread {c : Configuration} (h : c.Ok) :
    Codec c.iter Configuration.parse c.reread (4 + Addressee.lengthFor c.addressee.idType) := by
  obtain ⟨q, d, a⟩ := c
  obtain ⟨h1, h2⟩ := h
  simp only [Configuration.iter, Gen.append_assoc]
  simp only at h1 h2
  rw [show 4 + Addressee.lengthFor a.idType = 1 + (1 + (2 + Addressee.lengthFor a.idType)) by omega]
  refine Codec.seq q.codec (Codec.seq (CT.codec h1) (Codec.seqr (Addressee.codec_reread h2) ?_))
  exact Reads.pure _

/-- Accepted by the constructors. -/
def Status.Ok (s : Status) : Prop :=
  s.channelId.Ok ∧ isByte s.rxLevel ∧ isByte s.linkBudget ∧ isByte s.targetRxLevel ∧
  isByte s.fifoToken ∧ isByte s.seqNr ∧ s.responseTo.Ok ∧ s.addressee.Ok

/-- The status as read back. -/
def Status.reread (s : Status) : Status := { s with addressee := s.addressee.reread }

/-- The flag byte of a status. -/
def statusFlags (nls missed retry unicast : Bool) : Int :=
  let byte : Int := 0
  let byte := if nls then Int.lor byte (1 <<ₚ 7) else byte
  let byte := if missed then Int.lor byte (1 <<ₚ 6) else byte
  let byte := if retry then Int.lor byte (1 <<ₚ 5) else byte
  if unicast then Int.lor byte (1 <<ₚ 4) else byte

theorem statusFlags_spec (a b c d : Bool) : 0 ≤ statusFlags a b c d ∧ statusFlags a b c d ≤ 255 ∧
    bitsOf 8 (statusFlags a b c d).toNat = [a] ++ ([b] ++ ([c] ++ ([d] ++ bitsOf 4 0))) := by
  cases a <;> cases b <;> cases c <;> cases d <;> decide

/-- The flag byte of a status. -/
def Status.flags (s : Status) : Int := statusFlags s.nls s.missed s.retry s.unicast

theorem Status.flags_spec (s : Status) : 0 ≤ s.flags ∧ s.flags ≤ 255 ∧
    bitsOf 8 s.flags.toNat = [s.nls] ++ ([s.missed] ++ ([s.retry] ++ ([s.unicast] ++
      bitsOf 4 0))) := statusFlags_spec _ _ _ _

theorem Status.emits {s : Status} (h : s.Ok) : ∃ cb ab : List UInt8,
    Emits s.channelId.iter cb ∧ cb.length = 3 ∧
    Reads ChannelID.parse s.channelId (bytesToBits cb) ∧
    Emits s.addressee.iter ab ∧ ab.length = 2 + Addressee.lengthFor s.addressee.idType ∧
    Reads Addressee.parse s.addressee.reread (bytesToBits ab) ∧
    Emits s.iter (cb ++ ([UInt8.ofNat s.rxLevel.toNat] ++ ([UInt8.ofNat s.linkBudget.toNat] ++
      ([UInt8.ofNat s.targetRxLevel.toNat] ++ ([UInt8.ofNat s.flags.toNat] ++
      ([UInt8.ofNat s.fifoToken.toNat] ++ ([UInt8.ofNat s.seqNr.toNat] ++
      ([UInt8.ofNat s.responseTo.compressedValue.toNat] ++ ab)))))))) := by
  obtain ⟨h1, h2, h3, h4, h5, h6, h7, h8⟩ := h
  obtain ⟨cb, e1, l1, r1⟩ := ChannelID.codec h1
  obtain ⟨ab, e8, l8, r8⟩ := Addressee.codec_reread h8
  refine ⟨cb, ab, e1, l1, r1, e8, l8, r8, ?_⟩
  have hf := s.flags_spec
  have hct : 0 ≤ s.responseTo.compressedValue ∧ s.responseTo.compressedValue ≤ 255 := by
    obtain ⟨⟨_, _⟩, _, _⟩ := h7
    rw [CT.compressedValue_eq]
    omega
  have : s.iter = s.channelId.iter ++ (.int s.rxLevel ++ (.int s.linkBudget ++
      (.int s.targetRxLevel ++ (.int s.flags ++ (.chr s.fifoToken ++ (.chr s.seqNr ++
      (.int s.responseTo.compressedValue ++ s.addressee.iter))))))) := by
    simp only [Status.iter, Gen.append_assoc]; rfl
  rw [this]
  exact e1.append <| (Emits.int h2.1 h2.2).append <| (Emits.int h3.1 h3.2).append <|
    (Emits.int h4.1 h4.2).append <| (Emits.int hf.1 hf.2.1).append <|
    (Emits.chr h5.1 h5.2).append <| (Emits.chr h6.1 h6.2).append <|
    (Emits.int hct.1 hct.2).append e8

/-- The serialised status is read field by field; the last step is the constructor call with the
receive level taken as a signed number. -/
theorem Status.codec_reread {s : Status} (h : s.Ok) (hrx : s.rxLevel ≤ 127) :
    Codec s.iter Status.parse s.reread (12 + Addressee.lengthFor s.addressee.idType) := by
  obtain ⟨cb, ab, e1, l1, r1, e8, l8, r8, e⟩ := Status.emits h
  refine ⟨_, e, ?_, ?_⟩
  · simp [l1, l8]; omega
  · obtain ⟨h1, h2, h3, h4, h5, h6, h7, h8⟩ := h
    have hf := s.flags_spec
    obtain ⟨⟨_, _⟩, _, _⟩ := id h7
    have hcv := CT.compressedValue_eq s.responseTo
    have h2' := h2.1
    have h3' := h3.2
    have h4' := h4.2
    have h5' := h5.2
    have h6' := h6.2
    simp only [bytesToBits_append, bytesToBits_cons, bytesToBits_nil, List.append_nil]
    rw [ofNat_toNat_u8 (by omega), ofNat_toNat_u8 (by omega), ofNat_toNat_u8 (by omega),
      ofNat_toNat_u8 (by omega), ofNat_toNat_u8 (by omega), ofNat_toNat_u8 (by omega), hf.2.2]
    simp only [List.append_assoc]
    refine .bind r1 ?_
    have hs := Reads.sint8 s.rxLevel (by omega) hrx
    rw [show (s.rxLevel % 256).toNat = s.rxLevel.toNat by omega] at hs
    refine .bind hs ?_
    refine .bind (Reads.uintI 8 _ h3.1 (by omega)) ?_
    refine .bind (Reads.uintI 8 _ h4.1 (by omega)) ?_
    refine .bind (.bool _) (.bind (.bool _) (.bind (.bool _) (.bind (.bool _) ?_)))
    refine .bind (.pad _ 4 rfl) ?_
    refine .bind (Reads.uintI 8 _ h5.1 (by omega)) ?_
    refine .bind (Reads.uintI 8 _ h6.1 (by omega)) ?_
    obtain ⟨tb, e7, l7, r7⟩ := CT.codec h7
    have : tb = [UInt8.ofNat s.responseTo.compressedValue.toNat] :=
      Emits.unique e7 (Emits.int (by omega) (by omega))
    rw [this, bytesToBits_cons, bytesToBits_nil, List.append_nil,
      ] at r7
    refine .bind r7 ?_
    refine .bindr r8 (.lift (validate_of ?_))
    exact ⟨h2, h3, h4, h5, h6⟩

/-! ### LoRaWAN -/

/-- The flag byte of the LoRaWAN configurations. -/
def loraFlags (adr ack : Bool) : Int :=
  let byte : Int := 0
  let byte := if ack then Int.lor byte (1 <<ₚ 1) else byte
  if adr then Int.lor byte (1 <<ₚ 2) else byte

theorem loraFlags_spec (a b : Bool) : 0 ≤ loraFlags a b ∧ loraFlags a b ≤ 255 ∧
    bitsOf 8 (loraFlags a b).toNat = bitsOf 5 0 ++ ([a] ++ ([b] ++ bitsOf 1 0)) := by
  cases a <;> cases b <;> decide

/-- The numeric fields fit their wire fields. -/
def LoRaWANABP.InRange (c : LoRaWANABP) : Prop :=
  isByte c.appPort ∧ isByte c.dataRate ∧ (0 ≤ c.devAddr ∧ c.devAddr < 2 ^ 32) ∧
  (0 ≤ c.netwId ∧ c.netwId < 2 ^ 32)

theorem LoRaWANABP.codec {c : LoRaWANABP} (h : c.InRange) : Codec c.iter LoRaWANABP.parse c 11 := by
  obtain ⟨adr, ack, port, rate, addr, netw⟩ := c
  obtain ⟨h1, h2, h3, h4⟩ := h
  simp only at h1 h2 h3 h4
  simp only [LoRaWANABP.iter, Gen.append_assoc]
  have hg : Codec (.int port ++ (.int rate ++ (.ofBytes (packU 4 addr) ++ .ofBytes (packU 4 netw))))
      (do let port ← P.uint 8
          let rate ← P.uint 8
          let addr ← P.uint 32
          let netw ← P.uint 32
          return (⟨adr, ack, port, rate, addr, netw⟩ : LoRaWANABP)) ⟨adr, ack, port, rate, addr, netw⟩
      10 := by
    refine Codec.seq (m := 9) (Codec.u8 h1) ?_
    refine Codec.seq (m := 8) (Codec.u8 h2) ?_
    refine Codec.seq (m := 4) (Codec.packU h3.1 (by omega)) ?_
    exact Codec.seqr (Codec.packU h4.1 (by omega)) (Reads.pure _)
  obtain ⟨bs, e, l, r⟩ := hg
  refine Codec.bits (n := 10) (loraFlags_spec adr ack).1 (loraFlags_spec adr ack).2.1 ?_ ⟨bs, e, l⟩
  intro m bs' e' hm _
  have : bs' = bs := Emits.unique e' e
  subst this hm
  refine Reads.congr (l := bitsOf 5 0 ++ ([adr] ++ ([ack] ++ (bitsOf 1 0 ++ bytesToBits bs')))) ?_
    (by
      have := (loraFlags_spec adr ack).2.2
      simp only [← List.append_assoc] at this ⊢
      exact congrArg (· ++ _) this)
  exact .bind (.pad _ 5 rfl) <| .bind (.bool _) <| .bind (.bool _) <| .bind (.pad _ 1 rfl) r

/-- The numeric fields fit their wire fields. -/
def LoRaWANOTAA.InRange (c : LoRaWANOTAA) : Prop := isByte c.appPort ∧ isByte c.dataRate

theorem LoRaWANOTAA.codec {c : LoRaWANOTAA} (h : c.InRange) :
    Codec c.iter LoRaWANOTAA.parse c 3 := by
  obtain ⟨adr, ack, port, rate⟩ := c
  obtain ⟨h1, h2⟩ := h
  simp only at h1 h2
  simp only [LoRaWANOTAA.iter, Gen.append_assoc]
  have hg : Codec (.int port ++ .int rate)
      (do let port ← P.uint 8
          let rate ← P.uint 8
          return (⟨adr, ack, port, rate⟩ : LoRaWANOTAA)) ⟨adr, ack, port, rate⟩ 2 := by
    refine Codec.seq (m := 1) (Codec.u8 h1) ?_
    exact Codec.seqr (Codec.u8 h2) (Reads.pure _)
  obtain ⟨bs, e, l, r⟩ := hg
  refine Codec.bits (n := 2) (loraFlags_spec adr ack).1 (loraFlags_spec adr ack).2.1 ?_ ⟨bs, e, l⟩
  intro m bs' e' hm _
  have : bs' = bs := Emits.unique e' e
  subst this hm
  refine Reads.congr (l := bitsOf 5 0 ++ ([adr] ++ ([ack] ++ (bitsOf 1 0 ++ bytesToBits bs')))) ?_
    (by
      have := (loraFlags_spec adr ack).2.2
      simp only [← List.append_assoc] at this ⊢
      exact congrArg (· ++ _) this)
  exact .bind (.pad _ 5 rfl) <| .bind (.bool _) <| .bind (.bool _) <| .bind (.pad _ 1 rfl) r

/-! ### File data operands -/

/-- Accepted by the constructors. -/
def DataRequest.Ok (d : DataRequest) : Prop := d.offset.Ok ∧ d.length.Ok

theorem DataRequest.codec {d : DataRequest} (h : d.Ok) :
    Codec d.iter AlpParser.parseFileDataRequestOperand d (1 + d.offset.offset.size + d.length.size) := by
  obtain ⟨o, l⟩ := d
  obtain ⟨h1, h2⟩ := h
  simp only at h1 h2
  refine Codec.seq (Offset.codec h1) (Codec.seqr (Length.codec h2) (Reads.lift ?_))
  have : validate (0 ≤ l.value ∧ l.value ≤ 0x3FFFFFFF) (⟨l.value⟩ : Length) = .ok l :=
    validate_of h2
  simp only [DataRequest.new, Length.new, this]
  rfl

/-- Accepted by the constructors. -/
def Data.Ok (d : Data) : Prop :=
  d.offset.Ok ∧ d.length.value = d.data.length ∧ d.length.Ok ∧ isBytes d.data

/-- The bytes of a list of byte values. -/
def toU8s (l : List Int) : List UInt8 := l.map fun i => UInt8.ofNat i.toNat

theorem ords_toU8s {l : List Int} (h : isBytes l) : ords (toU8s l) = l := by
  induction l with
  | nil => rfl
  | cons x l ih =>
    have hx := h x (by simp)
    have := ih fun y hy => h y (by simp [hy])
    simp only [ords, toU8s, List.map_cons, List.map_map] at *
    rw [this, ofNat_toNat_u8 (by omega), Int.toNat_of_nonneg hx.1]

theorem isBytes_ords (l : List UInt8) : isBytes (ords l) := by
  intro x hx
  simp only [ords, List.mem_map] at hx
  obtain ⟨b, _, rfl⟩ := hx
  have := b.toNat_lt
  omega

theorem Emits.chrs {l : List Int} (h : isBytes l) :
    Emits (.concat (l.map Gen.chr)) (toU8s l) := by
  induction l with
  | nil => exact Emits.nil
  | cons x l ih =>
    have hx := h x (by simp)
    exact (Emits.chr hx.1 hx.2).append (ih fun y hy => h y (by simp [hy]))

theorem Emits.ints {l : List Int} (h : isBytes l) :
    Emits (.concat (l.map Gen.int)) (toU8s l) := by
  induction l with
  | nil => exact Emits.nil
  | cons x l ih =>
    have hx := h x (by simp)
    exact (Emits.int hx.1 hx.2).append (ih fun y hy => h y (by simp [hy]))

theorem Data.new_ok {o : Offset} {data : List Int} (hl : (data.length : Int) ≤ 0x3FFFFFFF)
    (h : isBytes data) : Data.new data o = .ok ⟨o, ⟨data.length⟩, data⟩ := by
  simp only [Data.new, Length.new]
  rw [validate_of ⟨by omega, hl⟩]
  simp [bind, Except.bind, validate_of h]

theorem Data.codec {d : Data} (h : d.Ok) : Codec d.iter AlpParser.parseReturnFileDataOperand d
    (1 + d.offset.offset.size + (d.length.size + d.data.length)) := by
  obtain ⟨o, l, data⟩ := d
  obtain ⟨h1, h2, h3, h4⟩ := h
  simp only at h1 h2 h3 h4
  simp only [Data.iter, Gen.append_assoc]
  refine Codec.seq (Offset.codec h1) (Codec.seq (Length.codec h3) ?_)
  refine ⟨_, Emits.chrs h4, by simp [toU8s], ?_⟩
  refine Reads.bindr (Reads.bytes _ _ ?_) (Reads.lift ?_)
  · rw [h2]; simp [toU8s]
  · obtain ⟨v⟩ := l
    simp only at h2
    subst h2
    rw [ords_toU8s h4, Data.new_ok h3.2 h4]

/-! ### Query -/

/-- Accepted by the constructors. -/
def QueryOperand.Ok (q : QueryOperand) : Prop :=
  q.compareLength.Ok ∧ isBytes q.compareValue ∧ q.fileAOffset.Ok

/-- The queries the parser implements, with a consistent length field. -/
def QueryOperand.Supported (q : QueryOperand) : Prop :=
  q.type = .ARITH_COMP_WITH_VALUE ∧ q.maskPresent = false ∧
  q.compareLength.value = q.compareValue.length

/-- The first byte of a query. -/
theorem QueryOperand.iter_eq (q : QueryOperand) : q.iter =
    .int (q.type.value <<ₚ 5 + (q.maskPresent.toNat : Int) <<ₚ 4 +
      ((q.params.signedDataType.toNat : Int) <<ₚ 3 + q.params.compType.value)) ++
    (q.compareLength.iter ++ (.concat (q.compareValue.map Gen.int) ++ q.fileAOffset.iter)) := by
  obtain ⟨t, m, ⟨s, c⟩, cl, cv, fo⟩ := q
  have : bytearray (ArithQueryParams.iter ⟨s, c⟩) =
      .ok [UInt8.ofNat ((s.toNat : Int) <<ₚ 3 + c.value).toNat] := by
    cases s <;> cases c <;> decide
  have h2 : ((UInt8.ofNat ((s.toNat : Int) <<ₚ 3 + c.value).toNat).toNat : Int) =
      (s.toNat : Int) <<ₚ 3 + c.value := by
    cases s <;> cases c <;> decide
  simp only [QueryOperand.iter, this, h2, Gen.append_assoc]

theorem QueryOperand.byte_bounds (t : QueryType) (m s : Bool) (c : ArithComparisonType) :
    0 ≤ t.value <<ₚ 5 + (m.toNat : Int) <<ₚ 4 + ((s.toNat : Int) <<ₚ 3 + c.value) ∧
    t.value <<ₚ 5 + (m.toNat : Int) <<ₚ 4 + ((s.toNat : Int) <<ₚ 3 + c.value) ≤ 255 := by
  cases t <;> cases m <;> cases s <;> cases c <;> decide

theorem QueryOperand.byte_bits (s : Bool) (c : ArithComparisonType) :
    bytesToBits [UInt8.ofNat (QueryType.ARITH_COMP_WITH_VALUE.value <<ₚ 5 +
      (false.toNat : Int) <<ₚ 4 + ((s.toNat : Int) <<ₚ 3 + c.value)).toNat] =
    bitsOf 3 2 ++ [false] ++ [s] ++ bitsOf 3 c.value.toNat := by
  cases s <;> cases c <;> decide

theorem QueryOperand.emits {q : QueryOperand} (h : q.Ok) : ∃ lb ob : List UInt8,
    Emits q.compareLength.iter lb ∧ Emits q.fileAOffset.iter ob ∧
    Emits q.iter ([UInt8.ofNat (q.type.value <<ₚ 5 + (q.maskPresent.toNat : Int) <<ₚ 4 +
      ((q.params.signedDataType.toNat : Int) <<ₚ 3 + q.params.compType.value)).toNat] ++
      (lb ++ (toU8s q.compareValue ++ ob))) := by
  obtain ⟨h1, h2, h3⟩ := h
  obtain ⟨lb, e1, _, _⟩ := Length.codec h1
  obtain ⟨ob, e3, _, _⟩ := Offset.codec h3
  refine ⟨lb, ob, e1, e3, ?_⟩
  rw [QueryOperand.iter_eq]
  refine Emits.append (Emits.int ?_ ?_) (e1.append ((Emits.ints h2).append e3))
  · exact (QueryOperand.byte_bounds _ _ _ _).1
  · exact (QueryOperand.byte_bounds _ _ _ _).2

theorem QueryOperand.codec {q : QueryOperand} (h : q.Ok) (hs : q.Supported) :
    Codec q.iter QueryOperand.parse q
      (1 + (q.compareLength.size + (q.compareValue.length + (1 + q.fileAOffset.offset.size)))) := by
  have hi := QueryOperand.iter_eq q
  rw [hi]
  obtain ⟨t, m, ⟨s, c⟩, cl, cv, fo⟩ := q
  obtain ⟨h1, h2, h3⟩ := h
  obtain ⟨rfl, rfl, hl⟩ := hs
  simp only at h1 h2 h3 hl
  obtain ⟨lb, e1, l1, r1⟩ := Length.codec h1
  obtain ⟨ob, e3, l3, r3⟩ := Offset.codec h3
  have hc : (0:Int) ≤ c.value ∧ c.value < 2 ^ 3 := by cases c <;> decide
  refine ⟨_, Emits.append (Emits.int ?_ ?_) (e1.append ((Emits.ints h2).append e3)), ?_, ?_⟩
  · exact (QueryOperand.byte_bounds _ _ _ _).1
  · exact (QueryOperand.byte_bounds _ _ _ _).2
  · simp [l1, l3, toU8s]; omega
  · simp only [bytesToBits_append]
    refine Reads.congr (l := bitsOf 3 2 ++ ([false] ++ ([s] ++ (bitsOf 3 c.value.toNat ++
      (bytesToBits lb ++ (bytesToBits (toU8s cv) ++ (bytesToBits ob ++ []))))))) ?_ ?_
    · refine Reads.enum 3 2 (by decide) (by decide) (e := .ARITH_COMP_WITH_VALUE) rfl ?_
      refine Reads.bind0 (a := ()) (fun _ _ => rfl) ?_
      refine .bind (.bool _) ?_
      refine Reads.bind0 (a := ()) (fun _ _ => rfl) ?_
      rw [← List.append_assoc [s]]
      refine Reads.bind (a := ⟨s, c⟩) ?_ ?_
      · refine .bind (.bool _) ?_
        have := Reads.enum (ofv := ArithComparisonType.ofValue) 3 c.value hc.1 hc.2 (e := c)
          (by cases c <;> rfl) (f := fun c => (pure ⟨s, c⟩ : P ArithQueryParams)) (.pure _)
        simpa using this
      refine .bind r1 ?_
      refine .bind (Reads.bytes _ _ ?_) ?_
      · rw [hl]; simp [toU8s]
      refine .bind r3 (.lift ?_)
      rw [ords_toU8s h2]
      exact validate_of h2
    · simp only [← List.append_assoc, List.append_nil]
      congr 3
      exact QueryOperand.byte_bits s c

end Verif
