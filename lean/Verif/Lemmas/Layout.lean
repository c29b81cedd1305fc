import Verif.Spec.Layout
import Verif.Lemmas.Invert

/-! Proofs that the serialisation code emits the wire layouts. -/

namespace Verif

theorem fieldBits_append (a b : List (Nat × Nat)) :
    fieldBits (a ++ b) = fieldBits a ++ fieldBits b := by simp [fieldBits]

theorem fieldBits_cons (f : Nat × Nat) (b : List (Nat × Nat)) :
    fieldBits (f :: b) = bitsOf f.1 f.2 ++ fieldBits b := by simp [fieldBits]

@[simp] theorem fieldBits_nil : fieldBits [] = [] := rfl

namespace HasLayout

theorem append {g h : Gen} {a b : List (Nat × Nat)} (hg : HasLayout g a) (hh : HasLayout h b) :
    HasLayout (g ++ h) (a ++ b) := by
  obtain ⟨x, e, l, w⟩ := hg
  obtain ⟨y, e', l', w'⟩ := hh
  refine ⟨x ++ y, Emits.append e e', by rw [bytesToBits_append, fieldBits_append, l, l'], ?_⟩
  intro f hf
  rcases List.mem_append.1 hf with h | h
  · exact w f h
  · exact w' f h

theorem nil : HasLayout .nil [] := ⟨[], rfl, rfl, by simp⟩

/-- One byte made of bit fields. -/
theorem byte {i : Int} {fs : List (Nat × Nat)} (h : 0 ≤ i ∧ i ≤ 255 ∧
    bitsOf 8 i.toNat = fieldBits fs ∧ ∀ f ∈ fs, f.2 < 2 ^ f.1) : HasLayout (.int i) fs := by
  obtain ⟨h0, h1, h2, h3⟩ := h
  refine ⟨_, Emits.int h0 h1, ?_, h3⟩
  rw [bytesToBits_cons, ofNat_toNat_u8 (by omega), h2]
  simp

theorem int {i : Int} (h : isByte i) : HasLayout (.int i) [(8, i.toNat)] := by
  obtain ⟨h0, h1⟩ := h
  exact byte ⟨h0, h1, by simp [fieldBits], by simp; omega⟩

theorem chr {i : Int} (h : isByte i) : HasLayout (.chr i) [(8, i.toNat)] := by
  obtain ⟨h0, h1⟩ := h
  refine ⟨_, Emits.chr h0 h1, ?_, by simp; omega⟩
  rw [bytesToBits_cons, ofNat_toNat_u8 (by omega)]
  simp [fieldBits]

theorem packU {k : Nat} {v : Int} (h0 : 0 ≤ v) (h : v < 256 ^ k) :
    HasLayout (.ofBytes (Verif.packU k v)) [(8 * k, v.toNat)] := by
  refine ⟨_, Emits.packU h0 h, ?_, ?_⟩
  · rw [bytesToBits_beBytes]; simp [fieldBits]
  · have : (256 : Nat) ^ k = 2 ^ (8 * k) := by rw [pow_mul]; norm_num
    have h' : (v.toNat : Int) < ((256 ^ k : Nat) : Int) := by push_cast; omega
    simp only [List.mem_singleton]
    rintro f rfl
    simp only
    omega

end HasLayout

theorem CT.layout {c : CT} (h : c.Ok) : HasLayout c.iter c.fields := by
  obtain ⟨e, m⟩ := c
  obtain ⟨he, hm⟩ := h
  simp only at he hm
  refine HasLayout.byte ?_
  rw [CT.compressedValue_eq]
  refine ⟨by simp only; omega, by simp only; omega, ?_, ?_⟩
  · have : (e * 32 + m).toNat = e.toNat * 2 ^ 5 + m.toNat := by omega
    simp only [this, CT.fields, fieldBits_cons, fieldBits_nil, List.append_nil]
    exact bitsOf_append 3 5 _ _ (by omega)
  · simp [CT.fields]; omega

theorem ChannelHeader.layout (h : ChannelHeader) : HasLayout h.iter h.fields := by
  obtain ⟨a, b, c⟩ := h
  refine HasLayout.byte ?_
  cases a <;> cases b <;> cases c <;> decide

theorem ChannelID.layout {c : ChannelID} (h : c.Ok) : HasLayout c.iter c.fields := by
  obtain ⟨h0, h1⟩ := h
  exact (ChannelHeader.layout _).append (HasLayout.packU (k := 2) h0 (by omega))

theorem SubBand.layout {c : SubBand} (h : c.Ok) : HasLayout c.iter c.fields := by
  obtain ⟨s, e, eirp, cca, duty⟩ := c
  obtain ⟨h1, h2, h3, h4, h5⟩ := h
  simp only at h1 h2 h3 h4 h5
  have hs : HasLayout (.ofBytes (packS8 eirp)) [(8, (eirp % 256).toNat)] := by
    rw [packS8, if_pos h3]
    refine ⟨_, Emits.ofBytes _, ?_, by simp; omega⟩
    rw [bytesToBits_cons, ofNat_toNat_u8 (by omega)]
    simp [fieldBits]
  exact ((((HasLayout.packU (k := 2) h1.1 (by omega)).append
    (HasLayout.packU (k := 2) h2.1 (by omega))).append hs).append (HasLayout.int h4)).append
    (HasLayout.int h5)

theorem ChannelStatusIdentifier.layout {c : ChannelStatusIdentifier} (h : c.Ok) :
    HasLayout c.iter c.fields := by
  obtain ⟨band, bw, i⟩ := c
  obtain ⟨h0, h1⟩ := h
  simp only at h0 h1
  obtain ⟨n, rfl⟩ := Int.eq_ofNat_of_zero_le h0
  have e1 : Int.land ((n : Int) >>ₚ 8) 0x07 = ((n / 256 : Nat) : Int) := by
    have : (n : Int) >>ₚ 8 = ((n / 256 : Nat) : Int) := by unfold shr; norm_num
    rw [this, show (0x07 : Int) = ((7 : Nat) : Int) from rfl, land_ofNat,
      show (7 : Nat) = 2 ^ 3 - 1 from rfl, Nat.and_two_pow_sub_one_eq_mod]
    congr 1
    omega
  have e2 : Int.land (n : Int) 0xFF = ((n % 256 : Nat) : Int) := by
    rw [show (0xFF : Int) = ((255 : Nat) : Int) from rfl, land_ofNat,
      show (255 : Nat) = 2 ^ 8 - 1 from rfl, Nat.and_two_pow_sub_one_eq_mod]
  have key : ∀ k : Nat, k < 8 → 0 ≤ band.value <<ₚ 5 + bw.value <<ₚ 4 + (0 : Int) <<ₚ 3 + (k : Int) ∧
      band.value <<ₚ 5 + bw.value <<ₚ 4 + (0 : Int) <<ₚ 3 + (k : Int) ≤ 255 ∧
      bitsOf 8 (band.value <<ₚ 5 + bw.value <<ₚ 4 + (0 : Int) <<ₚ 3 + (k : Int)).toNat =
      fieldBits [(3, band.code), (1, bw.code), (1, 0), (3, k)] := by
    intro k hk
    interval_cases k <;> cases band <;> cases bw <;> decide
  have hk := key (n / 256) (by omega)
  refine ⟨_, (Emits.int (i := _) ?_ ?_).append (Emits.int (i := _) ?_ ?_), ?_, ?_⟩
  · simp only [e1]; exact hk.1
  · simp only [e1]; exact hk.2.1
  · rw [e2]; omega
  · rw [e2]; omega
  · simp only [e1, e2, bytesToBits_append, bytesToBits_cons, bytesToBits_nil, List.append_nil]
    rw [ofNat_toNat_u8 (by have := hk.2.1; have := hk.1; omega), hk.2.2,
      ofNat_toNat_u8 (by omega)]
    simp only [ChannelStatusIdentifier.fields, fieldBits_cons, fieldBits_nil, List.append_nil,
      List.append_assoc, Int.toNat_natCast]
    have := bitsOf_append 3 8 (n / 256) (n % 256) (by omega)
    rw [show n / 256 * 2 ^ 8 + n % 256 = n by omega] at this
    rw [← this]
  · cases band <;> cases bw <;> simp [ChannelStatusIdentifier.fields, ChannelBand.code, Bandwidth.code] <;> omega

theorem FilePermissions.layout (p : FilePermissions) : HasLayout p.iter p.fields := by
  obtain ⟨a, b, c, d, e, f, g, h⟩ := p
  refine HasLayout.byte ?_
  revert a b c d e f g h
  decide

theorem FileProperties.layout (p : FileProperties) : HasLayout p.iter p.fields := by
  obtain ⟨a, b, c⟩ := p
  refine HasLayout.byte ?_
  cases a <;> cases b <;> cases c <;> decide

theorem FileHeader.layout {h : FileHeader} (hh : h.Ok) : HasLayout h.iter h.fields := by
  obtain ⟨h1, h2, h3, h4⟩ := hh
  simp only [FileHeader.iter, Gen.append_assoc, FileHeader.fields, List.append_assoc]
  exact (FilePermissions.layout _).append <| (FileProperties.layout _).append <|
    (HasLayout.int h1).append <| (HasLayout.int h2).append <|
    (HasLayout.packU (k := 4) h3.1 (by omega)).append (HasLayout.packU (k := 4) h4.1 (by omega))

theorem FileHeaderOperand.layout {o : FileHeaderOperand} (h : o.Ok) :
    HasLayout o.iter o.fields := (HasLayout.int h.1).append (FileHeader.layout h.2)

theorem QoS.layout (q : QoS) : HasLayout q.iter q.fields := by
  obtain ⟨a, b, c, d⟩ := q
  refine HasLayout.byte ?_
  cases a <;> cases b <;> cases c <;> cases d <;> decide

theorem Addressee.layout {a : Addressee} (h : a.Ok) : HasLayout a.iter a.fields := by
  refine ⟨_, Addressee.emits a h, ?_, ?_⟩
  · have hf := Addressee.first_byte a.idType a.nlsMethod
    obtain ⟨hac, hid, hct⟩ := h
    have h0 := hac.1
    have h1 := hac.2
    simp only [bytesToBits_append, bytesToBits_cons, bytesToBits_nil, List.append_nil]
    rw [ofNat_toNat_u8 (by omega), ofNat_toNat_u8 (by omega), hf.2.2, bytesToBits_beBytes]
    obtain ⟨ac, t, id, n⟩ := a
    simp only [Addressee.fields, fieldBits_append, fieldBits_cons, fieldBits_nil, List.append_nil,
      List.append_assoc]
    have e1 : t.value.toNat = t.code := by cases t <;> rfl
    have e2 : n.value.toNat = n.code := by cases n <;> rfl
    rw [e1, e2]
    congr 4
    cases t <;> cases id <;> simp [Addressee.idOk] at hid
    · rename_i c
      have hc := hct c rfl
      obtain ⟨bs, e, l, -⟩ := CT.layout hc
      obtain ⟨⟨_, _⟩, _, _⟩ := hc
      have hcv := CT.compressedValue_eq c
      have : bs = [UInt8.ofNat c.compressedValue.toNat] :=
        Emits.unique e (Emits.int (by omega) (by omega))
      rw [this, bytesToBits_cons, bytesToBits_nil, List.append_nil,
        ofNat_toNat_u8 (by omega)] at l
      simp only [Addressee.idFields, ← l, Addressee.idNat, Addressee.lengthFor, CT.compressedValue_eq]
    · rfl
    · simp [Addressee.idFields, Addressee.idNat, Addressee.lengthFor, fieldBits]
    · simp [Addressee.idFields, Addressee.idNat, Addressee.lengthFor, fieldBits]
  · obtain ⟨hac, hid, hct⟩ := h
    have h0 := hac.1
    have h1 := hac.2
    obtain ⟨ac, t, id, n⟩ := a
    intro f hf
    simp only [Addressee.fields, List.mem_append] at hf
    rcases hf with hf | hf
    · simp only [List.mem_cons, List.not_mem_nil, or_false] at hf
      rcases hf with rfl | rfl | rfl | rfl
      · decide
      · cases t <;> decide
      · cases n <;> decide
      · simp only at h0 h1 ⊢; omega
    · cases t <;> cases id <;> simp [Addressee.idOk] at hid <;>
        simp [Addressee.idFields] at hf
      · rename_i c
        obtain ⟨⟨_, _⟩, _, _⟩ := hct c rfl
        simp only [CT.fields, List.mem_cons, List.not_mem_nil, or_false] at hf
        rcases hf with rfl | rfl <;> simp only <;> omega
      · subst hf; simp only; omega
      · subst hf; simp only; omega

theorem Configuration.layout {c : Configuration} (h : c.Ok) : HasLayout c.iter c.fields :=
  ((QoS.layout _).append (CT.layout h.1)).append (Addressee.layout h.2)

theorem Status.layout {s : Status} (h : s.Ok) : HasLayout s.iter s.fields := by
  obtain ⟨h1, h2, h3, h4, h5, h6, h7, h8⟩ := h
  have hf : HasLayout (.int s.flags) [flag s.nls, flag s.missed, flag s.retry, flag s.unicast,
      (4, 0)] := by
    refine HasLayout.byte ?_
    have := s.flags_spec
    refine ⟨this.1, this.2.1, ?_, ?_⟩
    · rw [this.2.2]
      cases s.nls <;> cases s.missed <;> cases s.retry <;> cases s.unicast <;> decide
    · cases s.nls <;> cases s.missed <;> cases s.retry <;> cases s.unicast <;> decide
  have : s.iter = s.channelId.iter ++ (.int s.rxLevel ++ (.int s.linkBudget ++
      (.int s.targetRxLevel ++ (.int s.flags ++ (.chr s.fifoToken ++ (.chr s.seqNr ++
      (s.responseTo.iter ++ s.addressee.iter))))))) := by
    simp only [Status.iter, Gen.append_assoc]; rfl
  rw [this]
  have := (ChannelID.layout h1).append <| (HasLayout.int h2).append <| (HasLayout.int h3).append <|
    (HasLayout.int h4).append <| hf.append <| (HasLayout.chr h5).append <|
    (HasLayout.chr h6).append <| (CT.layout h7).append (Addressee.layout h8)
  simpa [Status.fields] using this

theorem Length.layout {l : Length} (h : l.Ok) : HasLayout l.iter l.fields := by
  refine ⟨_, Length.emits l h, ?_, ?_⟩
  · rw [bytesToBits_beBytes]
    have hc := Length.size_cases l h
    obtain ⟨h0, h1⟩ := h
    unfold Length.fields
    rcases hc with ⟨hs, hv⟩ | ⟨hs, hv, hv'⟩ | ⟨hs, hv, hv'⟩ | ⟨hs, hv, hv'⟩
    · rw [if_pos hv, hs]
      exact bitsOf_append 2 6 0 _ (by omega)
    · rw [if_neg (by omega), if_pos hv', hs]
      simp only [fieldBits_cons, fieldBits_nil, List.append_nil]
      exact bitsOf_append 2 14 1 _ (by omega)
    · rw [if_neg (by omega), if_neg (by omega), if_pos hv', hs]
      simp only [fieldBits_cons, fieldBits_nil, List.append_nil]
      exact bitsOf_append 2 22 2 _ (by omega)
    · rw [if_neg (by omega), if_neg (by omega), if_neg (by omega), hs]
      simp only [fieldBits_cons, fieldBits_nil, List.append_nil]
      exact bitsOf_append 2 30 3 _ (by omega)
  · obtain ⟨h0, h1⟩ := h
    unfold Length.fields
    split_ifs <;> simp <;> omega

theorem Offset.layout {o : Offset} (h : o.Ok) : HasLayout o.iter o.fields :=
  (HasLayout.int h.1).append (Length.layout h.2)

theorem DataRequest.layout {d : DataRequest} (h : d.Ok) : HasLayout d.iter d.fields :=
  (Offset.layout h.1).append (Length.layout h.2)

theorem HasLayout.chrs {l : List Int} (h : isBytes l) :
    HasLayout (.concat (l.map Gen.chr)) (byteFields l) := by
  induction l with
  | nil => exact HasLayout.nil
  | cons x l ih =>
    exact (HasLayout.chr (h x (by simp))).append (ih fun y hy => h y (by simp [hy]))

theorem HasLayout.ints {l : List Int} (h : isBytes l) :
    HasLayout (.concat (l.map Gen.int)) (byteFields l) := by
  induction l with
  | nil => exact HasLayout.nil
  | cons x l ih =>
    exact (HasLayout.int (h x (by simp))).append (ih fun y hy => h y (by simp [hy]))

theorem Data.layout {d : Data} (h : d.Ok) : HasLayout d.iter d.fields := by
  obtain ⟨o, ⟨l⟩, data⟩ := d
  obtain ⟨h1, h2, h3, h4⟩ := h
  simp only at h1 h2 h3 h4
  subst h2
  exact ((Offset.layout h1).append (Length.layout h3)).append (HasLayout.chrs h4)

theorem QueryOperand.layout {q : QueryOperand} (h : q.Ok) : HasLayout q.iter q.fields := by
  rw [QueryOperand.iter_eq]
  obtain ⟨t, m, ⟨s, c⟩, cl, cv, fo⟩ := q
  obtain ⟨h1, h2, h3⟩ := h
  simp only [QueryOperand.fields, List.append_assoc]
  refine HasLayout.append (HasLayout.byte ?_)
    ((Length.layout h1).append ((HasLayout.ints h2).append (Offset.layout h3)))
  clear h1 h2 h3
  revert t m s c
  intro t m s c
  refine ⟨(QueryOperand.byte_bounds t m s c).1, (QueryOperand.byte_bounds t m s c).2, ?_, ?_⟩
  · cases t <;> cases m <;> cases s <;> cases c <;> rfl
  · cases t <;> cases m <;> cases s <;> cases c <;> decide

theorem loraFlags_layout (a b : Bool) :
    HasLayout (.int (loraFlags a b)) [(5, 0), flag a, flag b, (1, 0)] := by
  refine HasLayout.byte ?_
  cases a <;> cases b <;> decide

theorem LoRaWANABP.layout {c : LoRaWANABP} (h : c.InRange) : HasLayout c.iter c.fields := by
  obtain ⟨h1, h2, h3, h4⟩ := h
  exact (((((loraFlags_layout c.adrEnabled c.requestAck).append (HasLayout.int h1)).append
    (HasLayout.int h2)).append (HasLayout.packU (k := 4) h3.1 (by omega))).append
    (HasLayout.packU (k := 4) h4.1 (by omega)))

theorem LoRaWANOTAA.layout {c : LoRaWANOTAA} (h : c.InRange) : HasLayout c.iter c.fields := by
  obtain ⟨h1, h2⟩ := h
  exact ((loraFlags_layout c.adrEnabled c.requestAck).append (HasLayout.int h1)).append
    (HasLayout.int h2)

end Verif
