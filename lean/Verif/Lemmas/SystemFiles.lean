import Verif.Lemmas.Invert
import Verif.Spec.SystemFiles

/-! Serialise/parse correspondence for the system files. -/

namespace Verif

/-! ### Serialisation succeeds exactly when … -/

/-- Serialising succeeds iff `c`, and raises ValueError otherwise. -/
def SerIff (g : Gen) (c : Prop) : Prop := AcceptsIff (bytearray g) c

namespace SerIff

theorem append {g h : Gen} {c d : Prop} (hg : SerIff g c) (hh : SerIff h d) :
    SerIff (g ++ h) (c ∧ d) := by
  unfold SerIff at *
  rw [bytearray_append]
  by_cases hc : c
  · obtain ⟨a, ha⟩ := hg.1.2 hc
    by_cases hd : d
    · obtain ⟨b, hb⟩ := hh.1.2 hd
      rw [ha, hb]
      exact ⟨⟨fun _ => ⟨hc, hd⟩, fun _ => ⟨_, rfl⟩⟩, fun h => absurd ⟨hc, hd⟩ h⟩
    · rw [ha, hh.2 hd]
      refine ⟨⟨fun ⟨_, h⟩ => (by cases h), fun h => absurd h.2 hd⟩, fun _ => rfl⟩
  · rw [hg.2 hc]
    exact ⟨⟨fun ⟨_, h⟩ => (by cases h), fun h => absurd h.1 hc⟩, fun _ => rfl⟩

theorem emits {g : Gen} {bs : List UInt8} (h : Emits g bs) : SerIff g True :=
  ⟨⟨fun _ => trivial, fun _ => ⟨bs, h⟩⟩, fun h => absurd trivial h⟩

theorem int (i : Int) : SerIff (.int i) (isByte i) := by
  by_cases h : isByte i
  · exact ⟨⟨fun _ => h, fun _ => ⟨_, Emits.int h.1 h.2⟩⟩, fun hn => absurd h hn⟩
  · have e : bytearray (.int i) = .error .valueError := by
      have : ¬ (0 ≤ i ∧ i ≤ 255) := h
      simp [Gen.int, bytearray, itemsToBytes, Item.toByte, this]
    exact ⟨⟨fun ⟨_, he⟩ => (by rw [e] at he; cases he), fun hc => absurd hc h⟩, fun _ => e⟩

theorem congr {g : Gen} {c d : Prop} (h : SerIff g c) (e : c ↔ d) : SerIff g d := by
  rw [propext e] at h; exact h

theorem concat {α : Type} (gen : α → Gen) (c : α → Prop) (l : List α)
    (h : ∀ x ∈ l, SerIff (gen x) (c x)) : SerIff (.concat (l.map gen)) (∀ x ∈ l, c x) := by
  induction l with
  | nil => exact (emits Emits.nil).congr (by simp)
  | cons x l ih =>
    refine ((h x (by simp)).append (ih fun y hy => h y (by simp [hy]))).congr (by simp)

end SerIff

/-! ### Sizes -/

/-- Whenever the generator serialises, it does so to `n` bytes. -/
def Size (g : Gen) (n : Nat) : Prop := ∀ bs, Emits g bs → bs.length = n

namespace Size

theorem append {g h : Gen} {n m : Nat} (hg : Size g n) (hh : Size h m) : Size (g ++ h) (n + m) := by
  intro bs e
  obtain ⟨a, b, ha, hb, rfl⟩ := e.append_inv
  simp [hg a ha, hh b hb]

theorem int (i : Int) : Size (.int i) 1 := by
  intro bs e
  obtain ⟨-, -, rfl⟩ := e.int_inv
  rfl

theorem emits {g : Gen} {bs : List UInt8} {n : Nat} (h : Emits g bs) (hn : bs.length = n) :
    Size g n := by
  intro bs' e
  rw [e.unique h, hn]

theorem packU (k : Nat) (v : Int) : Size (.ofBytes (Verif.packU k v)) k := by
  intro bs e
  obtain ⟨h0, h⟩ := e.packU_inv
  rw [e.unique (Emits.packU h0 h)]
  exact beBytes_length _ _

theorem packS8 (v : Int) : Size (.ofBytes (Verif.packS8 v)) 1 := by
  intro bs e
  unfold Verif.packS8 at e
  split at e
  · rw [e.unique (Emits.ofBytes _)]; rfl
  · cases e

theorem raise (x : PyErr) (n : Nat) : Size (.raise x) n := fun _ e => e.raise_inv.elim

theorem concat {α : Type} {gen : α → Gen} {n : Nat} {l : List α} (h : ∀ x ∈ l, Size (gen x) n) :
    Size (.concat (l.map gen)) (n * l.length) := by
  induction l with
  | nil => exact emits Emits.nil (by simp)
  | cons x l ih =>
    have := (h x (by simp)).append (ih fun y hy => h y (by simp [hy]))
    rw [List.length_cons, Nat.mul_add, Nat.mul_one, Nat.add_comm]
    exact this

theorem codec {α : Type} {g : Gen} {p : P α} {v : α} {n : Nat} (h : Codec g p v n) : Size g n := by
  obtain ⟨bs, e, l, -⟩ := h
  exact emits e l

theorem congr {g : Gen} {n m : Nat} (h : Size g n) (e : n = m) : Size g m := e ▸ h

end Size

/-! ### Repetition -/

theorem Codec.replicate {α : Type} {gen : α → Gen} {p : P α} {k : Nat} {l : List α}
    (h : ∀ x ∈ l, Codec (gen x) p x k) :
    Codec (.concat (l.map gen)) (P.replicate l.length p) l (k * l.length) := by
  induction l with
  | nil => exact Codec.pure _
  | cons x l ih =>
    have h1 := h x (by simp)
    have h2 := ih fun y hy => h y (by simp [hy])
    rw [List.length_cons, show k * (l.length + 1) = k + k * l.length by ring]
    exact Codec.seq (f := fun a => P.replicate l.length p >>= fun as => Pure.pure (a :: as))
      h1 (Codec.seqr h2 (Reads.pure _))

/-! ### Access profile -/

def SubProfile.Ok (p : SubProfile) : Prop := isByte p.subbandBitmap ∧ p.scanAutomationPeriod.Ok

theorem SubProfile.built_iff {p : SubProfile} : p.Built ↔ p.Ok := by
  unfold SubProfile.Built SubProfile.Ok SubProfile.new
  rw [validate_eq_ok, CT.built_iff]
  simp

theorem SubProfile.codec {p : SubProfile} (h : p.Ok) : Codec p.iter SubProfile.parse p 2 := by
  obtain ⟨b, c⟩ := p
  refine Codec.seq (m := 1) (Codec.u8 h.1) (Codec.seqr (CT.codec h.2) (Reads.lift ?_))
  exact validate_of h.1

def AccessProfile.Ok (a : AccessProfile) : Prop :=
  (a.subProfiles.length = 4 ∧ a.subBands.length ≤ 8) ∧ (∀ p ∈ a.subProfiles, p.Ok) ∧
  ∀ b ∈ a.subBands, b.Ok

theorem AccessProfile.built_iff {a : AccessProfile} : a.Built ↔ a.Ok := by
  unfold AccessProfile.Built AccessProfile.Ok AccessProfile.new
  rw [validate_eq_ok]
  simp only [SubProfile.built_iff, SubBand.built_iff]
  simp

theorem AccessProfile.codec {a : AccessProfile} (h : a.Ok) (h8 : a.subBands.length = 8) :
    Codec a.iter AccessProfile.parse a 65 := by
  obtain ⟨hd, sps, sbs⟩ := a
  obtain ⟨⟨h4, -⟩, h1, h2⟩ := h
  simp only at h4 h8 h1 h2
  simp only [AccessProfile.iter, Gen.append_assoc]
  have c1 := Codec.replicate (p := SubProfile.parse) fun x hx => SubProfile.codec (h1 x hx)
  have c2 := Codec.replicate (p := SubBand.parse) fun x hx => SubBand.codec (h2 x hx)
  rw [h4] at c1
  rw [h8] at c2
  refine Codec.seq (m := 64) hd.codec ?_
  refine Codec.seq (m := 56) c1 ?_
  refine Codec.seqr c2 (Reads.lift ?_)
  exact validate_of ⟨h4, by omega⟩

theorem AccessProfile.emits {a : AccessProfile} (h : a.Ok) :
    ∃ bs, Emits a.iter bs ∧ bs.length = 9 + 7 * a.subBands.length := by
  obtain ⟨hd, sps, sbs⟩ := a
  obtain ⟨⟨h4, -⟩, h1, h2⟩ := h
  simp only at h4 h1 h2
  obtain ⟨b0, e0, l0, -⟩ := hd.codec
  obtain ⟨b1, e1, l1, -⟩ :=
    Codec.replicate (p := SubProfile.parse) fun x hx => SubProfile.codec (h1 x hx)
  obtain ⟨b2, e2, l2, -⟩ := Codec.replicate (p := SubBand.parse) fun x hx => SubBand.codec (h2 x hx)
  refine ⟨_, (e0.append e1).append e2, ?_⟩
  simp [l0, l1, l2, h4]; omega

/-! ### Files -/

theorem UidFile.codec {f : UidFile} (h : f.Built) : Codec f.iter UidFile.parse f 8 := by
  obtain ⟨u⟩ := f
  obtain ⟨⟨h0, h1⟩, -⟩ := validate_eq_ok.1 h
  refine Codec.seqr (Codec.packU (k := 8) h0 (by simp only at h1 ⊢; omega)) (Reads.lift ?_)
  exact validate_of ⟨h0, h1⟩

theorem VidFile.codec {f : VidFile} (h : f.Built) : Codec f.iter VidFile.parse f 3 := by
  obtain ⟨v, c⟩ := f
  obtain ⟨⟨h0, h1⟩, -⟩ := validate_eq_ok.1 h
  refine Codec.seq (m := 1) (Codec.packU (k := 2) h0.1 (by have := h0.2; simp only at this ⊢; omega))
    (Codec.seqr (Codec.u8 h1) (Reads.lift ?_))
  exact validate_of ⟨h0, h1⟩

theorem Codec.u16 {i : Int} (h : isU16 i) : Codec (.ofBytes (Verif.packU 2 i)) (P.uint 16) i 2 :=
  Codec.packU (k := 2) h.1 (by have := h.2; omega)

theorem Codec.u32 {i : Int} (h : isU32 i) : Codec (.ofBytes (Verif.packU 4 i)) (P.uint 32) i 4 :=
  Codec.packU (k := 4) h.1 (by have := h.2; omega)

theorem DllStatusFile.codec {f : DllStatusFile} (h : f.Built) :
    Codec f.iter DllStatusFile.parse f 16 := by
  obtain ⟨a, b, c, hd, d, e, g, i⟩ := f
  obtain ⟨hv, -⟩ := validate_eq_ok.1 h
  obtain ⟨h1, h2, h3, h4, h5, h6, h7⟩ := hv
  simp only [DllStatusFile.iter, Gen.append_assoc]
  refine Codec.seq (m := 15) (Codec.u8 h1) ?_
  refine Codec.seq (m := 14) (Codec.u8 h2) ?_
  refine Codec.seq (m := 13) (Codec.u8 h3) ?_
  refine Codec.seq (m := 12) hd.codec ?_
  refine Codec.seq (m := 10) (Codec.u16 h4) ?_
  refine Codec.seq (m := 8) (Codec.u16 h5) ?_
  refine Codec.seq (m := 4) (Codec.u32 h6) ?_
  refine Codec.seqr (Codec.u32 h7) (Reads.lift ?_)
  exact validate_of ⟨h1, h2, h3, h4, h5, h6, h7⟩

/-- The unvalidated fields of a DLL configuration fit a byte. -/
def DllConfigFile.Fits (f : DllConfigFile) : Prop :=
  isByte f.lqFilter ∧ isByte f.nfCtrl ∧ isByte f.rxNfMethodParameter ∧ isByte f.txNfMethodParameter

theorem DllConfigFile.codec {f : DllConfigFile} (h : f.Built) (hf : f.Fits) :
    Codec f.iter DllConfigFile.parse f 7 := by
  obtain ⟨a, b, c, d, e⟩ := f
  obtain ⟨h1, -⟩ := validate_eq_ok.1 h
  obtain ⟨h2, h3, h4, h5⟩ := hf
  simp only [DllConfigFile.iter, Gen.append_assoc]
  refine Codec.seq (m := 6) (Codec.u8 h1) ?_
  refine Codec.seq (n := 2) (m := 4) (a := ())
    ⟨[0, 0], rfl, rfl, Reads.pad _ 16 (by simp)⟩ ?_
  refine Codec.seq (m := 3) (Codec.u8 h2) ?_
  refine Codec.seq (m := 2) (Codec.u8 h3) ?_
  refine Codec.seq (m := 1) (Codec.u8 h4) ?_
  refine Codec.seqr (Codec.u8 h5) (Reads.lift ?_)
  exact validate_of h1

theorem DllConfigFile.serIff {f : DllConfigFile} (h : f.Built) : SerIff f.iter f.Fits := by
  obtain ⟨h1, -⟩ := validate_eq_ok.1 h
  have z : SerIff (.ofBytes (packU 2 0)) True := SerIff.emits (bs := [0, 0]) rfl
  refine ((((((SerIff.int _).append z).append (SerIff.int _)).append (SerIff.int _)).append
    (SerIff.int _)).append (SerIff.int _)).congr ?_
  unfold DllConfigFile.Fits
  constructor
  · rintro ⟨⟨⟨⟨-, a⟩, b⟩, c⟩, d⟩; exact ⟨a, b, c, d⟩
  · rintro ⟨a, b, c, d⟩; exact ⟨⟨⟨⟨⟨h1, trivial⟩, a⟩, b⟩, c⟩, d⟩

theorem EngineeringModeMode.spec (m : EngineeringModeMode) :
    (0 ≤ m.value ∧ m.value < 2 ^ 8) ∧ m.value ≤ 255 ∧ ofValue m.value = .ok m := by
  cases m <;> decide

theorem EngineeringModeFile.codec {f : EngineeringModeFile} (h : f.Built) :
    ∃ g, f.iter = g ++ (.int 0 ++ .int 0) ∧ Codec g EngineeringModeFile.parse f 7 := by
  obtain ⟨m, a, b, ch, e⟩ := f
  obtain ⟨hv, hc⟩ := h
  obtain ⟨⟨h1, h2, h3, h4⟩, -⟩ := validate_eq_ok.1 hv
  have hc := ChannelID.built_iff.1 hc
  simp only at hc
  obtain ⟨m1, m2, m3⟩ := m.spec
  refine ⟨.int m.value ++ (.int a ++ (.int b ++ (ch.iter ++ .ofBytes (packS8 e)))),
    by simp only [EngineeringModeFile.iter, Gen.append_assoc], ?_⟩
  refine Codec.seq (m := 6) (Codec.byte m1.1 m2 (Reads.uintI 8 _ m1.1 m1.2)) ?_
  refine Codec.seq0 (Reads.lift m3) ?_
  refine Codec.seq (m := 5) (Codec.u8 h1) ?_
  refine Codec.seq (m := 4) (Codec.u8 h2) ?_
  refine Codec.seq (m := 1) (ChannelID.codec hc) ?_
  refine Codec.seqr (Codec.s8 h3 h4) (Reads.lift ?_)
  exact validate_of ⟨h1, h2, h3, h4⟩

/-! ### Firmware version -/

namespace FirmwareVersionFile

theorem encodeAscii_ok {s : List Nat} (n : Nat) (h : Ascii s) :
    encodeAscii s n = .ok ((padded s n).map UInt8.ofNat) := by
  unfold encodeAscii
  rw [if_pos (show ∀ c ∈ s, c < 128 from h)]
  simp [padded]

theorem ascii_padded {s : List Nat} (n : Nat) (h : Ascii s) : Ascii (padded s n) := by
  intro c hc
  rcases List.mem_append.1 hc with hc | hc
  · exact h c hc
  · have := (List.mem_replicate.1 hc).2; omega

theorem decode_encode {s : List Nat} (h : Ascii s) :
    decodeAscii (s.map UInt8.ofNat) = .ok s := by
  have e : ∀ c ∈ s, (UInt8.ofNat c).toNat = c := fun c hc => ofNat_toNat_u8 (by
    have := h c hc; omega)
  unfold decodeAscii
  rw [if_pos (by
    intro b hb
    obtain ⟨c, hc, rfl⟩ := List.mem_map.1 hb
    rw [e c hc]; exact h c hc)]
  rw [List.map_map]
  congr 1
  conv_rhs => rw [← List.map_id s]
  exact List.map_congr_left e

theorem padded_length {s : List Nat} {n : Nat} (h : s.length ≤ n) : (padded s n).length = n := by
  simp [padded]; omega

/-- The file with its names filled up. -/
def pad (f : FirmwareVersionFile) : FirmwareVersionFile :=
  { f with applicationName := padded f.applicationName 6, gitSha1 := padded f.gitSha1 7 }

theorem codec_pad {f : FirmwareVersionFile} (h : f.Built) (h1 : Ascii f.applicationName)
    (h2 : Ascii f.gitSha1) : Codec f.iter parse f.pad 17 := by
  obtain ⟨a, b, c, d, s, t⟩ := f
  obtain ⟨hv, -⟩ := validate_eq_ok.1 h
  obtain ⟨ha, hb, hc, hd, hs, ht⟩ := hv
  simp only at h1 h2 hs ht
  have ls := padded_length hs
  have lt := padded_length ht
  simp only [iter, Gen.append_assoc, encodeAscii_ok 6 h1, encodeAscii_ok 7 h2]
  refine Codec.seq (m := 16) (Codec.u8 ha) ?_
  refine Codec.seq (m := 15) (Codec.u8 hb) ?_
  refine Codec.seq (m := 14) (Codec.u8 hc) ?_
  refine Codec.seq (m := 13) (Codec.u8 hd) ?_
  refine Codec.seq (n := 6) (m := 7) ⟨_, Emits.ofBytes _, by simp [ls],
    Reads.bytes _ 6 (by simp [ls])⟩ ?_
  refine Codec.seq0 (Reads.lift (decode_encode (ascii_padded 6 h1))) ?_
  refine Codec.seqr ⟨_, Emits.ofBytes _, by simp [lt], Reads.bytes _ 7 (by simp [lt])⟩ ?_
  refine Reads.bind0 (Reads.lift (decode_encode (ascii_padded 7 h2))) (Reads.lift ?_)
  exact validate_of ⟨ha, hb, hc, hd, by omega, by omega⟩

theorem serIff {f : FirmwareVersionFile} (h : f.Built) :
    SerIff f.iter (Ascii f.applicationName ∧ Ascii f.gitSha1) := by
  obtain ⟨a, b, c, d, s, t⟩ := f
  obtain ⟨hv, -⟩ := validate_eq_ok.1 h
  obtain ⟨ha, hb, hc, hd, hs, ht⟩ := hv
  have key : ∀ (s : List Nat) n, SerIff (.ofBytes (encodeAscii s n)) (Ascii s) := by
    intro s n
    by_cases hs : Ascii s
    · rw [encodeAscii_ok n hs]
      exact (SerIff.emits (Emits.ofBytes _)).congr (by simp [hs])
    · have : encodeAscii s n = .error .valueError := by unfold encodeAscii; exact if_neg hs
      rw [this]
      exact ⟨⟨fun ⟨_, e⟩ => (by cases e), fun e => absurd e hs⟩, fun _ => rfl⟩
  refine ((((((SerIff.int _).append (SerIff.int _)).append (SerIff.int _)).append
    (SerIff.int _)).append (key _ _)).append (key _ _)).congr ?_
  constructor
  · rintro ⟨⟨-, x⟩, y⟩; exact ⟨x, y⟩
  · rintro ⟨x, y⟩; exact ⟨⟨⟨⟨⟨ha, hb⟩, hc⟩, hd⟩, x⟩, y⟩

end FirmwareVersionFile

/-! ### PHY status -/

namespace PhyStatusFile

theorem extend_length {α : Type} (l : List α) (n : Int) (x : α) :
    (extend l n x).length = max l.length n.toNat := by
  unfold extend
  split <;> simp <;> omega

theorem extend_eq {α : Type} (l : List α) (n : Int) (x : α) :
    extend l n x = l ++ List.replicate (n - l.length).toNat x := by
  unfold extend
  split
  · rfl
  · next h => simp at h; simp [h]

theorem extend_self {α : Type} (l : List α) (n : Int) (x : α) (h : n ≤ l.length) :
    extend l n x = l := by
  rw [extend_eq, show (n - l.length).toNat = 0 by omega]; simp

/-- What construction guarantees. -/
def Ok (f : PhyStatusFile) : Prop :=
  f.Valid ∧ f.channelStatusListLength.toNat ≤ f.channelStatusIdentifier.length ∧
  f.channelStatusListLength.toNat ≤ f.channelNoiseFloor.length ∧
  ∀ i ∈ f.channelStatusIdentifier, i.Ok

theorem built_iff {f : PhyStatusFile} : f.Built ↔ f.Ok := by
  constructor
  · rintro ⟨ids, floors, h, hi⟩
    obtain ⟨hv, he⟩ := validate_eq_ok.1 h
    have e1 := congrArg channelStatusIdentifier he
    have e2 := congrArg channelNoiseFloor he
    simp only at e1 e2
    rw [he] at hv
    refine ⟨hv, ?_, ?_, ?_⟩
    · rw [← e1, extend_length _ _ _]; omega
    · rw [← e2, extend_length _ _ _]; omega
    · intro i him
      rw [← e1, extend_eq] at him
      rcases List.mem_append.1 him with him | him
      · exact ChannelStatusIdentifier.built_iff.1 (hi i him)
      · rw [(List.mem_replicate.1 him).2]
        simp [ChannelStatusIdentifier.Ok, ChannelStatusIdentifier.default]
  · rintro ⟨hv, h1, h2, h3⟩
    refine ⟨f.channelStatusIdentifier, f.channelNoiseFloor, ?_,
      fun i hi => ChannelStatusIdentifier.built_iff.2 (h3 i hi)⟩
    unfold new
    rw [extend_self _ _ _ (by omega), extend_self _ _ _ (by omega)]
    exact validate_of hv

/-- One channel of the serialisation. -/
def chanGen (x : ChannelStatusIdentifier × Int) : Gen := x.1.iter ++ .int x.2

theorem iterChannel_range (f : PhyStatusFile) (n : Nat) (h1 : n ≤ f.channelStatusIdentifier.length)
    (h2 : n ≤ f.channelNoiseFloor.length) :
    (List.range n).map f.iterChannel =
      ((f.channelStatusIdentifier.take n).zip (f.channelNoiseFloor.take n)).map chanGen := by
  apply List.ext_getElem
  · simp; omega
  · intro i hi hi'
    simp at hi
    have a1 : i < f.channelStatusIdentifier.length := by omega
    have a2 : i < f.channelNoiseFloor.length := by omega
    simp [iterChannel, chanGen, List.getElem?_eq_getElem a1, List.getElem?_eq_getElem a2]

/-- The file as far as it is serialised. -/
def cut (f : PhyStatusFile) : PhyStatusFile :=
  { f with
    channelStatusIdentifier := f.channelStatusIdentifier.take f.channelStatusListLength.toNat
    channelNoiseFloor := f.channelNoiseFloor.take f.channelStatusListLength.toNat }

/-- The noise floors that are serialised are bytes. -/
def Fits (f : PhyStatusFile) : Prop :=
  ∀ v ∈ f.channelNoiseFloor.take f.channelStatusListLength.toNat, isByte v

theorem codec_cut {f : PhyStatusFile} (h : f.Ok) (hf : f.Fits) :
    Codec f.iter parse f.cut (15 + 3 * f.channelStatusListLength.toNat) := by
  obtain ⟨hv, h1, h2, h3⟩ := h
  have hv' := hv
  obtain ⟨v1, v2, v3, v4, v5, v6, v7⟩ := hv'
  simp only [iter, Gen.append_assoc, iterChannel_range f _ h1 h2]
  generalize hl : (f.channelStatusIdentifier.take f.channelStatusListLength.toNat).zip
    (f.channelNoiseFloor.take f.channelStatusListLength.toNat) = l
  have hlen : l.length = f.channelStatusListLength.toNat := by rw [← hl]; simp; omega
  have hc : ∀ x ∈ l, Codec (chanGen x) parseChannel x 3 := by
    rintro ⟨i, v⟩ hx
    rw [← hl] at hx
    have hi := List.of_mem_zip hx
    exact Codec.seq (m := 1) (ChannelStatusIdentifier.codec (h3 i (List.mem_of_mem_take hi.1)))
      (Codec.seqr (Codec.u8 (hf v hi.2)) (Reads.pure _))
  have hr := Codec.replicate hc
  rw [hlen] at hr
  have e : 15 + 3 * f.channelStatusListLength.toNat
      = 4 + (4 + (4 + (2 + (1 + 3 * f.channelStatusListLength.toNat)))) := by omega
  rw [e]
  refine Codec.seq (Codec.u32 v1) ?_
  refine Codec.seq (Codec.u32 v2) ?_
  refine Codec.seq (Codec.u32 v3) ?_
  refine Codec.seq (Codec.u16 ⟨v4.1, by have := v4.2; omega⟩) ?_
  refine Codec.seq (Codec.u8 v5) ?_
  refine Codec.seqr hr (Reads.lift ?_)
  have e1 : l.map Prod.fst = f.cut.channelStatusIdentifier := by
    rw [← hl, List.map_fst_zip]; · rfl
    · simp; omega
  have e2 : l.map Prod.snd = f.cut.channelNoiseFloor := by
    rw [← hl, List.map_snd_zip]; · rfl
    · simp; omega
  unfold new
  rw [e1, e2, extend_self _ _ _ (by simp [cut]; omega), extend_self _ _ _ (by simp [cut]; omega)]
  refine validate_of ⟨v1, v2, v3, v4, v5, ?_, ?_⟩
  · simp [cut]; omega
  · simp [cut]; omega

theorem serIff {f : PhyStatusFile} (h : f.Ok) : SerIff f.iter f.Fits := by
  obtain ⟨hv, h1, h2, h3⟩ := h
  obtain ⟨v1, v2, v3, v4, v5, v6, v7⟩ := hv
  have u32 : ∀ {i : Int}, isU32 i → SerIff (.ofBytes (packU 4 i)) True := fun hi => by
    obtain ⟨bs, e, -⟩ := Codec.u32 hi; exact SerIff.emits e
  have u16 : ∀ {i : Int}, isU16 i → SerIff (.ofBytes (packU 2 i)) True := fun hi => by
    obtain ⟨bs, e, -⟩ := Codec.u16 hi; exact SerIff.emits e
  unfold iter
  rw [iterChannel_range f _ h1 h2]
  generalize hl : (f.channelStatusIdentifier.take f.channelStatusListLength.toNat).zip
    (f.channelNoiseFloor.take f.channelStatusListLength.toNat) = l
  have hc : ∀ x ∈ l, SerIff (chanGen x) (isByte x.2) := by
    rintro ⟨i, v⟩ hx
    rw [← hl] at hx
    have hi := List.of_mem_zip hx
    obtain ⟨bs, e, -⟩ := ChannelStatusIdentifier.codec (h3 i (List.mem_of_mem_take hi.1))
    exact ((SerIff.emits e).append (SerIff.int v)).congr (by simp)
  refine ((((((u32 v1).append (u32 v2)).append (u32 v3)).append
    (u16 ⟨v4.1, by have := v4.2; omega⟩)).append (SerIff.int _)).append
    (SerIff.concat chanGen (fun x => isByte x.2) l hc)).congr ?_
  have e2 : f.channelNoiseFloor.take f.channelStatusListLength.toNat = l.map Prod.snd := by
    rw [← hl, List.map_snd_zip]; simp; omega
  unfold Fits
  rw [e2]
  simp only [List.mem_map, forall_exists_index, and_imp]
  constructor
  · rintro ⟨-, x⟩ v y hy rfl; exact x y hy
  · intro x; exact ⟨⟨⟨⟨⟨trivial, trivial⟩, trivial⟩, trivial⟩, v5⟩, fun y hy => x _ y hy rfl⟩

end PhyStatusFile
end Verif
