import Verif.Lemmas.Aligned
import Verif.Lemmas.Codec2
import Verif.Lemmas.BuiltOk
import Verif.Lemmas.Layout
import Verif.Spec.Dll

/-! The DLL, D7ANP and D7ATP parsers on the frames of the specification. -/

namespace Verif

/-- A byte as a signed number. -/
def signed (b : UInt8) : Int := if b.toNat < 128 then b.toNat else (b.toNat : Int) - 256

theorem Reads.signed8 (b : UInt8) : Reads (P.sint 8) (signed b) (bitsOf 8 b.toNat) := by
  have hb := b.toNat_lt
  have h := Reads.sint8 (signed b) (by unfold signed; split <;> omega)
    (by unfold signed; split <;> omega)
  refine h.congr ?_
  congr 1
  unfold signed
  split <;> omega

theorem Reads.u8 (b : UInt8) : Reads (P.uint 8) (b.toNat : Int) (bitsOf 8 b.toNat) :=
  Reads.uint 8 _ (by have := b.toNat_lt; omega)

theorem bits_flag (b : Bool) : bitsOf (flag b).1 (flag b).2 = [b] := by
  cases b <;> rfl

namespace Dll

theorem fieldBits_bytesF (l : List UInt8) : fieldBits (bytesF l) = bytesToBits l := by
  unfold fieldBits bytesF bytesToBits
  rw [List.flatMap_map]

theorem ForegroundFrameControl.good : Good ForegroundFrameControl.parse := by
  unfold ForegroundFrameControl.parse; good
theorem ForegroundFrameControl.adv : Adv ForegroundFrameControl.parse 0 0 := by
  unfold ForegroundFrameControl.parse; adv
theorem BackgroundFrameControl.good : Good BackgroundFrameControl.parse := by
  unfold BackgroundFrameControl.parse; good
theorem BackgroundFrameControl.adv : Adv BackgroundFrameControl.parse 0 0 := by
  unfold BackgroundFrameControl.parse; adv
theorem npControl_good : Good D7anp.Control.parse := by unfold D7anp.Control.parse; good
theorem npControl_adv : Adv D7anp.Control.parse 0 0 := by unfold D7anp.Control.parse; adv
theorem tpControl_good : Good D7atp.Control.parse := by unfold D7atp.Control.parse; good
theorem tpControl_adv : Adv D7atp.Control.parse 0 0 := by unfold D7atp.Control.parse; adv

theorem parseTarget_good (t : IdType) : GoodA (parseTarget t) := by
  cases t
  · exact GoodA.pure _
  · exact GoodA.pure _
  · exact (GoodA.bytes 8).bind fun _ => GoodA.pure _
  · exact (GoodA.bytes 2).bind fun _ => GoodA.pure _

theorem parseOriginId_good (c : D7anp.Control) : GoodA (D7anp.parseOriginId c) := by
  obtain ⟨a, b, t, n⟩ := c
  cases a
  · cases t
    · exact GoodA.raise _
    · exact GoodA.raise _
    · exact (GoodA.bytes 8).bind fun _ => GoodA.pure _
    · exact (GoodA.bytes 2).bind fun _ => GoodA.pure _
  · exact GoodA.pure _

theorem parseAckTemplate_good (i : Int) : GoodA (D7atp.parseAckTemplate i) := by
  refine GoodA.of ?_ ?_
  · unfold D7atp.parseAckTemplate; good
  · unfold D7atp.parseAckTemplate; adv

theorem tpFrame_good (n : Int) : GoodA (D7atp.Frame.parse n) := by
  have hct : GoodA CT.parse := GoodA.of CT.good CT.adv
  refine (GoodA.of tpControl_good tpControl_adv).bind fun c => ?_
  refine (GoodA.uint 8 rfl).bind fun _ => ?_
  refine (GoodA.uint 8 rfl).bind fun _ => ?_
  refine (GoodA.opt _ (GoodA.uint 8 rfl)).bind fun _ => ?_
  refine (GoodA.opt _ hct).bind fun _ => ?_
  refine (GoodA.opt _ hct).bind fun _ => ?_
  refine (GoodA.opt _ hct).bind fun _ => ?_
  refine (GoodA.opt _ (parseAckTemplate_good _)).bind fun _ => ?_
  refine (GoodA.assert _ _).bind fun _ => ?_
  refine (GoodA.assert _ _).bind fun _ => ?_
  refine (GoodA.alp _).bind fun _ => ?_
  exact GoodA.lift _

theorem npFrame_good (n : Int) : GoodA (D7anp.Frame.parse n) := by
  refine (GoodA.of npControl_good npControl_adv).bind fun c => ?_
  refine (GoodA.uint 8 rfl).bind fun _ => ?_
  refine (GoodA.assert _ _).bind fun _ => ?_
  refine (GoodA.assert _ _).bind fun _ => ?_
  refine (parseOriginId_good _).bind fun _ => ?_
  refine (tpFrame_good _).bind fun _ => ?_
  exact GoodA.lift _

theorem ForegroundFrame.good : GoodA ForegroundFrame.parse := by
  refine (GoodA.sint 8 rfl).bind fun _ => ?_
  refine (GoodA.sint 8 rfl).bind fun _ => ?_
  refine (GoodA.of ForegroundFrameControl.good ForegroundFrameControl.adv).bind fun _ => ?_
  refine (parseTarget_good _).bind fun _ => ?_
  refine (npFrame_good _).bind fun _ => ?_
  refine (GoodA.uint 16 rfl).bind fun _ => ?_
  exact GoodA.lift _

theorem BackgroundFrame.good : GoodA BackgroundFrame.parse := by
  refine (GoodA.sint 8 rfl).bind fun _ => ?_
  refine (GoodA.of BackgroundFrameControl.good BackgroundFrameControl.adv).bind fun _ => ?_
  refine (GoodA.uint 16 rfl).bind fun _ => ?_
  refine (GoodA.uint 16 rfl).bind fun _ => ?_
  exact GoodA.lift _

theorem parseFrame_good (t : FrameType) : GoodA (parseFrame t) := by
  cases t
  · exact ForegroundFrame.good.bind fun _ => GoodA.pure _
  · exact BackgroundFrame.good.bind fun _ => GoodA.pure _

/-! ### Reading the layers -/

theorem code_value (t : IdType) : (t.code : Int) = t.value := by cases t <;> rfl
theorem code_lt (t : IdType) : t.code < 2 ^ 2 := by cases t <;> decide
theorem ofValue_code (t : IdType) : IdType.ofValue t.code = .ok t := by cases t <;> rfl

theorem fgControl_reads (t : IdType) (e : Nat) (he : e < 64) :
    Reads ForegroundFrameControl.parse ⟨t, e⟩ (bitsOf 2 t.code ++ bitsOf 6 e) := by
  refine Reads.bind (Reads.uint 2 _ (code_lt t)) (Reads.bind0 (Reads.lift (ofValue_code t)) ?_)
  exact Reads.bindr (Reads.uint 6 e (by omega)) (Reads.lift (validate_of ⟨by omega, by omega⟩))

theorem bgControl_reads (t : IdType) (e : Nat) (he : e < 64) :
    Reads BackgroundFrameControl.parse ⟨t, e⟩ (bitsOf 2 t.code ++ bitsOf 6 e) := by
  refine Reads.bind (Reads.uint 2 _ (code_lt t)) (Reads.bind0 (Reads.lift (ofValue_code t)) ?_)
  exact Reads.bindr (Reads.uint 6 e (by omega)) (Reads.lift (validate_of ⟨by omega, by omega⟩))

theorem npControl_reads (no : Bool) (t : IdType) :
    Reads D7anp.Control.parse ⟨no, false, t, .NONE⟩
      ([no] ++ ([false] ++ (bitsOf 2 t.code ++ bitsOf 4 0))) := by
  refine Reads.bind (Reads.bool no) (Reads.bind (Reads.bool false) ?_)
  refine Reads.bind (Reads.uint 2 _ (code_lt t)) (Reads.bind0 (Reads.lift (ofValue_code t)) ?_)
  exact Reads.bindr (Reads.uint 4 0 (by omega)) (Reads.bind0 (Reads.lift rfl) (Reads.pure _))

theorem tpControl_reads (a r b c d e f g : Bool) :
    Reads D7atp.Control.parse ⟨a, b, c, d, e, f, g⟩ [a, r, b, c, d, e, f, g] := by
  have := Reads.bind (Reads.bool a) (f := fun isDialogStart => do
      let _ ← P.bool
      let hasTl ← P.bool
      let hasTe ← P.bool
      let isAckRequested ← P.bool
      let isAckNotVoid ← P.bool
      let isAckRecordRequested ← P.bool
      let hasAgc ← P.bool
      return (⟨isDialogStart, hasTl, hasTe, isAckRequested, isAckNotVoid, isAckRecordRequested,
        hasAgc⟩ : D7atp.Control)) <| Reads.bind (Reads.bool r) <| Reads.bind (Reads.bool b) <|
    Reads.bind (Reads.bool c) <| Reads.bind (Reads.bool d) <| Reads.bind (Reads.bool e) <|
    Reads.bind (Reads.bool f) <| Reads.bind (Reads.bool g) <| Reads.pure _
  exact this

theorem target_leads (t : IdType) (id : List UInt8) (h : id.length = idBytes t) :
    Leads (parseTarget t) (Pure.pure (ords id)) (bytesToBits id) := by
  have hl : (bytesToBits id).length % 8 = 0 := by simp
  cases t
  · have : id = [] := List.length_eq_zero_iff.mp h
    subst this
    exact Leads.refl _
  · have : id = [] := List.length_eq_zero_iff.mp h
    subst this
    exact Leads.refl _
  · exact Leads.of (Reads.bindr (Reads.bytes id 8 h) (Reads.pure _)) hl
  · exact Leads.of (Reads.bindr (Reads.bytes id 2 h) (Reads.pure _)) hl

theorem origin_leads (a : Air) (h : a.Valid) :
    Leads (D7anp.parseOriginId ⟨a.origin.isNone, false, a.originType, .NONE⟩)
      (Pure.pure (ords a.originId)) (bytesToBits a.originId) := by
  have ho := h.origin
  unfold Air.originType Air.originId
  cases e : a.origin with
  | none => exact Leads.refl _
  | some x =>
    obtain ⟨t, id⟩ := x
    obtain ⟨ht, hid⟩ := ho t id e
    have hl : (bytesToBits id).length % 8 = 0 := by simp
    rcases ht with rfl | rfl
    · exact Leads.of (Reads.bindr (Reads.bytes id 2 hid) (Reads.pure _)) hl
    · exact Leads.of (Reads.bindr (Reads.bytes id 8 hid) (Reads.pure _)) hl

theorem ct_leads (o : Option CT) (h : ∀ c, o = some c → c.Built) :
    Leads (P.opt o.isSome CT.parse) (Pure.pure o) (fieldBits (ctF o)) := by
  cases o with
  | none => exact Leads.refl _
  | some c =>
    have hc := CT.built_iff.mp (h c rfl)
    have : Reads CT.parse c (bitsOf 3 c.exp.toNat ++ (bitsOf 5 c.mant.toNat ++ [])) := by
      refine Reads.bind (Reads.uintI 3 _ hc.1.1 (by have := hc.1.2; omega)) ?_
      refine Reads.bind (Reads.uintI 5 _ hc.2.1 (by have := hc.2.2; omega)) (Reads.lift ?_)
      exact validate_of hc
    exact Leads.of (Reads.bindr this (Reads.pure _)) (by simp [ctF, CT.fields, fieldBits])

theorem agc_leads (o : Option Nat) (h : ∀ c, o = some c → c ≤ 31) :
    Leads (P.opt o.isSome (P.uint 8)) (Pure.pure (o.map Int.ofNat)) (fieldBits (agcF o)) := by
  cases o with
  | none => exact Leads.refl _
  | some c =>
    have hc := h c rfl
    refine Leads.of (Reads.congr (Reads.bindr (Reads.uint 8 c (by omega)) (Reads.pure _)) ?_) ?_
    · simp [agcF, fieldBits]
    · simp [agcF, fieldBits]

/-- The number of bytes of the transport header after its three fixed bytes. -/
def Air.optional (a : Air) : Nat :=
  a.agc.isSome.toNat + a.tl.isSome.toNat + a.te.isSome.toNat + a.tc.isSome.toNat

/-- The bits of the transport header. -/
def Air.tpBits (a : Air) : List Bool :=
  [a.dialogStart, a.rfu, a.tl.isSome, a.te.isSome, a.ackRequested, false, false, a.agc.isSome] ++
  (bitsOf 8 a.dialogId.toNat ++ (bitsOf 8 a.transactionId.toNat ++ (fieldBits (agcF a.agc) ++
  (fieldBits (ctF a.tl) ++ (fieldBits (ctF a.te) ++ fieldBits (ctF a.tc))))))

theorem tp_leads (a : Air) (h : a.Valid) (n : Int) (cmd : Command) (X : List Bool)
    (hX : Leads (AlpParser.parse (n - 3 - a.optional)) (Pure.pure cmd) X) :
    Leads (D7atp.Frame.parse n) (Pure.pure (a.frame cmd).d7anpFrame.d7atpFrame) (a.tpBits ++ X) := by
  refine Leads.congr (l := a.tpBits ++ (X ++ [])) ?_ (by simp)
  unfold Air.tpBits D7atp.Frame.parse
  simp only [List.append_assoc]
  refine Leads.bind (Leads.of (tpControl_reads _ _ _ _ _ _ _ _) (by simp)) ?_
  refine Leads.bind (Leads.of (Reads.u8 _) (by simp)) ?_
  refine Leads.bind (Leads.of (Reads.u8 _) (by simp)) ?_
  refine Leads.bind (agc_leads a.agc h.agc) ?_
  refine Leads.bind (ct_leads a.tl h.tl) ?_
  refine Leads.bind (ct_leads a.te h.te) ?_
  have htc := ct_leads a.tc h.tc
  rw [h.tcPresent] at htc
  refine Leads.bind htc ?_
  refine Leads.bind0 (a := none) (Leads.refl _) ?_
  refine Leads.bind0 (a := ()) (Leads.refl _) ?_
  refine Leads.bind0 (a := ()) (Leads.refl _) ?_
  refine Leads.bind (a := cmd) ?_ ?_
  · convert hX using 2
    simp only [D7atp.present, Air.optional, ← h.tcPresent]
    cases a.agc <;> cases a.tl <;> cases a.te <;> cases a.tc <;> simp <;> omega
  · refine Leads.of (Reads.lift ?_) rfl
    have h1 := a.dialogId.toNat_lt
    have h2 := a.transactionId.toNat_lt
    have h3 := h.agc
    unfold D7atp.Frame.new
    cases hg : a.agc with
    | none =>
      rw [validate_eq_ok]
      exact ⟨⟨by omega, by omega, by decide⟩, by simp [Air.frame, hg]⟩
    | some g =>
      rw [validate_eq_ok]
      have := h3 g hg
      exact ⟨⟨by omega, by omega, ⟨Int.natCast_nonneg g, by
        show ((g : Nat) : Int) ≤ 31
        omega⟩⟩, by simp [Air.frame, hg]⟩

/-- The bits of the network header. -/
def Air.npBits (a : Air) : List Bool :=
  ([a.origin.isNone] ++ ([false] ++ (bitsOf 2 a.originType.code ++ bitsOf 4 0))) ++
  (bitsOf 8 a.accessClass.toNat ++ bytesToBits a.originId)

theorem isBytes_map (l : List UInt8) : isBytes (l.map fun b => (b.toNat : Int)) := isBytes_ords l

theorem np_leads (a : Air) (h : a.Valid) (n : Int) (cmd : Command) (X : List Bool)
    (hX : Leads (AlpParser.parse (n - 2 - a.originId.length - 3 - a.optional)) (Pure.pure cmd) X) :
    Leads (D7anp.Frame.parse n) (Pure.pure (a.frame cmd).d7anpFrame) (a.npBits ++ (a.tpBits ++ X)) := by
  refine Leads.congr (l := a.npBits ++ ((a.tpBits ++ X) ++ [])) ?_ (by simp)
  unfold Air.npBits D7anp.Frame.parse
  rw [List.append_assoc ([_] ++ _), List.append_assoc (bitsOf 8 _)]
  refine Leads.bind (Leads.of (npControl_reads _ _) (by simp)) ?_
  refine Leads.bind (Leads.of (Reads.u8 _) (by simp)) ?_
  refine Leads.bind0 (a := ()) (Leads.refl _) ?_
  refine Leads.bind0 (a := ()) (Leads.refl _) ?_
  refine Leads.bind (origin_leads a h) ?_
  refine Leads.bind (tp_leads a h _ cmd X ?_) ?_
  · convert hX using 2
    have ho := h.origin
    simp only [D7anp.headerLength, Air.originId, Air.originType]
    cases e : a.origin with
    | none => simp
    | some x =>
      obtain ⟨t, id⟩ := x
      obtain ⟨ht, hid⟩ := ho t id e
      rcases ht with rfl | rfl
      · simp only [Option.isNone_some, Bool.not_false, if_true, hid, idBytes]; omega
      · simp only [Option.isNone_some, Bool.not_false, if_true, hid, idBytes]; omega
  · refine Leads.of (Reads.lift ?_) rfl
    have h1 := a.accessClass.toNat_lt
    exact validate_of ⟨⟨by omega, by omega⟩, isBytes_map _⟩

/-- The bits of the DLL header after the length byte. -/
def Air.dllBits (a : Air) : List Bool :=
  bitsOf 8 a.subnet.toNat ++ ((bitsOf 2 a.targetType.code ++ bitsOf 6 a.eirp) ++ bytesToBits a.target)

/-- A foreground frame is read up to its constructor call. -/
theorem fg_leads (a : Air) (h : a.Valid) (L : UInt8) (k : Nat) (hk : k < 2 ^ 16) (cmd : Command)
    (X : List Bool)
    (hX : Leads (AlpParser.parse (signed L - 4 - a.target.length - 2 - a.originId.length - 3 -
      a.optional)) (Pure.pure cmd) X) :
    Leads ForegroundFrame.parse (P.lift (ForegroundFrame.new (signed L) (signed a.subnet)
        ⟨a.targetType, a.eirp⟩ (ords a.target) (a.frame cmd).d7anpFrame k))
      (bitsOf 8 L.toNat ++ (a.dllBits ++ ((a.npBits ++ (a.tpBits ++ X)) ++ bitsOf 16 k))) := by
  refine Leads.congr (l := bitsOf 8 L.toNat ++ (a.dllBits ++ ((a.npBits ++ (a.tpBits ++ X)) ++
    (bitsOf 16 k ++ [])))) ?_ (by simp)
  unfold Air.dllBits ForegroundFrame.parse
  rw [List.append_assoc (bitsOf 8 a.subnet.toNat), List.append_assoc (bitsOf 2 _ ++ _)]
  refine Leads.bind (Leads.of (Reads.signed8 L) (by simp)) ?_
  refine Leads.bind (Leads.of (Reads.signed8 _) (by simp)) ?_
  refine Leads.bind (Leads.of (fgControl_reads _ _ h.eirp) (by simp)) ?_
  refine Leads.bind (target_leads _ _ h.target) ?_
  refine Leads.bind (np_leads a h _ cmd X ?_) ?_
  · convert hX using 2
    have ht := h.target
    cases e : a.targetType <;> simp only [e, idBytes] at ht <;> simp only [overhead, ht] <;> omega
  · exact Leads.bind (Leads.of (Reads.uint 16 k hk) (by simp)) (Leads.refl _)

/-- The bits of a frame. -/
theorem body_bits (a : Air) : fieldBits a.body = a.dllBits ++ ((a.npBits ++ (a.tpBits ++
    bytesToBits a.alp)) ++ bitsOf 16 (256 * a.crc.1.toNat + a.crc.2.toNat)) := by
  have h16 : bitsOf 16 (256 * a.crc.1.toNat + a.crc.2.toNat) =
      bitsOf 8 a.crc.1.toNat ++ bitsOf 8 a.crc.2.toNat := by
    rw [← bitsOf_append 8 8 _ _ (by have := a.crc.2.toNat_lt; omega)]
    congr 1
    omega
  have h1 : bitsOf 1 0 = [false] := rfl
  rw [h16]
  simp only [Air.body, Air.dllBits, Air.npBits, Air.tpBits, fieldBits_append, fieldBits_cons,
    fieldBits_nil, fieldBits_bytesF, bits_flag, h1, bytesToBits_cons, bytesToBits_nil,
    List.append_assoc, List.cons_append, List.nil_append, List.append_nil]

theorem agcF_length (o : Option Nat) : (fieldBits (agcF o)).length = 8 * o.isSome.toNat := by
  cases o <;> simp [agcF, fieldBits]

theorem ctF_length (o : Option CT) : (fieldBits (ctF o)).length = 8 * o.isSome.toNat := by
  cases o <;> simp [ctF, CT.fields, fieldBits]

theorem body_length (a : Air) : (fieldBits a.body).length =
    8 * (2 + a.target.length + 2 + a.originId.length + 3 + a.optional + a.alp.length + 2) := by
  rw [body_bits]
  simp only [Air.dllBits, Air.npBits, Air.tpBits, List.length_append, bitsOf_length,
    bytesToBits_length, agcF_length, ctF_length, Air.optional, List.length_cons, List.length_nil]
  omega

theorem length_eq (a : Air) : a.length =
    2 + a.target.length + 2 + a.originId.length + 3 + a.optional + a.alp.length + 2 := by
  unfold Air.length
  rw [body_length]
  omega

theorem bytes_bits (a : Air) : bytesToBits a.bytes =
    bitsOf 8 (UInt8.ofNat a.length).toNat ++ fieldBits a.body := by
  unfold Air.bytes
  rw [bytesToBits_cons, (bitsToBytes_spec _ _ (body_length a)).1]

theorem bytes_length (a : Air) : a.bytes.length = 1 + a.length := by
  unfold Air.bytes
  rw [List.length_cons, (bitsToBytes_spec _ _ (body_length a)).2, length_eq]
  omega

/-- What the ALP parser does with the ALP bytes, on every continuation. -/
theorem alp_leads {bs : List UInt8} {n : Int} {cmd : Command}
    (h : AlpParser.parse n (stream bs) = .ok cmd ⟨8 * bs.length, []⟩) :
    Leads (AlpParser.parse n) (Pure.pure cmd) (bytesToBits bs) := by
  obtain ⟨c, e1, -, e3⟩ := (GoodA.alp n).ok (s := stream bs) rfl h
  simp only [stream, List.append_nil] at e1
  rwa [e1]

/-- The outcome on a whole frame, with the ALP part read with the length that follows from the
signed length byte. -/
theorem frame_outcome (a : Air) (h : a.Valid) (cmd : Command)
    (hX : Leads (AlpParser.parse (signed (UInt8.ofNat a.length) - a.length + a.alp.length))
      (Pure.pure cmd) (bytesToBits a.alp)) (rest : List UInt8) :
    ForegroundFrame.parse (stream (a.bytes ++ rest)) =
      P.lift (ForegroundFrame.new (signed (UInt8.ofNat a.length)) (signed a.subnet)
        ⟨a.targetType, a.eirp⟩ (ords a.target) (a.frame cmd).d7anpFrame
        ((256 * a.crc.1.toNat + a.crc.2.toNat : Nat) : Int))
        ⟨8 * a.bytes.length, bytesToBits rest⟩ := by
  have h1 := a.crc.1.toNat_lt
  have h2 := a.crc.2.toNat_lt
  have hk : 256 * a.crc.1.toNat + a.crc.2.toNat < 2 ^ 16 := by omega
  have := (fg_leads a h (UInt8.ofNat a.length) _ hk cmd _ (by
    convert hX using 2
    rw [length_eq]
    push_cast
    omega)).2 0 (bytesToBits rest) rfl
  rw [← body_bits, ← bytes_bits, bytesToBits_length, Nat.zero_add] at this
  unfold stream
  rw [bytesToBits_append]
  exact this

theorem signed_lt {b : UInt8} (h : b.toNat < 128) : signed b = b.toNat := if_pos h
theorem signed_ge {b : UInt8} (h : ¬ b.toNat < 128) : signed b = (b.toNat : Int) - 256 := if_neg h

theorem toNat_ofNat_lt {n : Nat} (h : n < 256) : (UInt8.ofNat n).toNat = n := by
  rw [UInt8.toNat_ofNat']
  omega

/-- A foreground frame with a length and a subnet below 128 is dissected. -/
theorem frame_ok (a : Air) (h : a.Valid) (cmd : Command) (hl : a.length < 128)
    (hs : a.subnet.toNat < 128)
    (hc : AlpParser.parse a.alp.length (stream a.alp) = .ok cmd ⟨8 * a.alp.length, []⟩)
    (rest : List UInt8) :
    ForegroundFrame.parse (stream (a.bytes ++ rest)) =
      .ok (a.frame cmd) ⟨8 * a.bytes.length, bytesToBits rest⟩ := by
  have hL : signed (UInt8.ofNat a.length) = a.length := by
    rw [signed_lt (by rw [toNat_ofNat_lt (by omega)]; exact hl), toNat_ofNat_lt (by omega)]
  rw [frame_outcome a h cmd (by rw [hL, Int.sub_self, Int.zero_add]; exact alp_leads hc) rest, hL,
    signed_lt hs]
  have h1 := a.crc.1.toNat_lt
  have h2 := a.crc.2.toNat_lt
  have : ForegroundFrame.new a.length a.subnet.toNat ⟨a.targetType, a.eirp⟩ (ords a.target)
      (a.frame cmd).d7anpFrame ((256 * a.crc.1.toNat + a.crc.2.toNat : Nat) : Int) =
      .ok (a.frame cmd) := by
    unfold ForegroundFrame.new
    rw [validate_eq_ok]
    refine ⟨⟨⟨by omega, by omega⟩, ⟨by omega, by omega⟩, isBytes_ords _, by omega, by omega⟩, ?_⟩
    simp [Air.frame, ords]
  rw [this]
  rfl

theorem bg_ok (a : BgAir) (ht : a.tag < 64) (hs : a.subnet.toNat < 128) (rest : List UInt8) :
    BackgroundFrame.parse (stream (a.bytes ++ rest)) = .ok a.frame ⟨48, bytesToBits rest⟩ := by
  have h1 := a.crc.1.toNat_lt
  have h2 := a.crc.2.toNat_lt
  have h3 := a.payload.1.toNat_lt
  have h4 := a.payload.2.toNat_lt
  have hcode : a.idType.code < 4 := code_lt _
  have h16 : ∀ x y : UInt8, bitsOf 16 (256 * x.toNat + y.toNat) =
      bitsOf 8 x.toNat ++ bitsOf 8 y.toNat := by
    intro x y
    rw [← bitsOf_append 8 8 _ _ (by have := y.toNat_lt; omega)]
    congr 1
    omega
  have hb : bytesToBits a.bytes = bitsOf 8 a.subnet.toNat ++ ((bitsOf 2 a.idType.code ++
      bitsOf 6 a.tag) ++ (bitsOf 16 (256 * a.payload.1.toNat + a.payload.2.toNat) ++
      bitsOf 16 (256 * a.crc.1.toNat + a.crc.2.toNat))) := by
    unfold BgAir.bytes
    rw [h16, h16]
    simp only [bytesToBits_cons, bytesToBits_nil, List.append_assoc, List.append_nil]
    rw [toNat_ofNat_lt (by omega)]
    have : bitsOf 8 (64 * a.idType.code + a.tag) = bitsOf 2 a.idType.code ++ bitsOf 6 a.tag := by
      rw [← bitsOf_append 2 6 _ _ (by omega)]
      congr 1
      omega
    rw [this]
    simp only [List.append_assoc]
  have hr : Reads BackgroundFrame.parse a.frame (bytesToBits a.bytes) := by
    rw [hb]
    refine Reads.bind (Reads.signed8 _) (Reads.bind (bgControl_reads _ _ ht) ?_)
    refine Reads.bind (Reads.uint 16 _ (by omega)) (Reads.bindr (Reads.uint 16 _ (by omega))
      (Reads.lift ?_))
    unfold BackgroundFrame.new
    rw [validate_eq_ok, signed_lt hs]
    refine ⟨⟨⟨by omega, by omega⟩, ⟨by omega, by omega⟩, by omega, by omega⟩, ?_⟩
    simp [BgAir.frame]
  have := hr 0 (bytesToBits rest)
  rw [← bytesToBits_append] at this
  simpa [stream, BgAir.bytes] using this

end Dll
end Verif
