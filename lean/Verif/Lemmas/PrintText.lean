import Verif.Lemmas.Print

/-! Helper lemmas for C62: what the text of each class determines, also when other text follows. -/

namespace Verif.Print

open Verif

/-- Closes `Stops p r` for a text that begins with a literal or is empty. -/
macro "stops" : tactic => `(tactic| first | exact rfl | exact trivial | assumption)

theorem field_append {α : Type} {f : α → Text} (hw : ∀ a, ∀ c ∈ f a, wordChar c = true)
    (hi : ∀ {a b}, f a = f b → a = b) {a b : α} {r r' : Text} (hr : Stops wordChar r) (hr' : Stops wordChar r')
    (h : f a ++ r = f b ++ r') : a = b ∧ r = r' := by
  obtain ⟨h1, h2⟩ := word_append (hw a) (hw b) hr hr' h
  exact ⟨hi h1, h2⟩

theorem hex_append {v w : Int} (hv : 0 ≤ v) (hw : 0 ≤ w) {r r' : Text} (hr : Stops wordChar r)
    (hr' : Stops wordChar r') (h : hex v ++ r = hex w ++ r') : v = w ∧ r = r' := by
  obtain ⟨h1, h2⟩ := word_append (hex_word v) (hex_word w) hr hr' h
  exact ⟨hex_injective hv hw h1, h2⟩

theorem channel_append {v w : ChannelID} {r r' : Text} (hr : Stops wordChar r)
    (hr' : Stops wordChar r') (h : v.str ++ r = w.str ++ r') : v.str = w.str ∧ r = r' :=
  word_append (channel_word v) (channel_word w) hr hr' h

theorem stops_num {r : Text} (h : Stops wordChar r) : Stops num r := by
  cases r with
  | nil => trivial
  | cons c r =>
    simp only [Stops] at h ⊢
    by_contra hc
    rw [Bool.not_eq_false] at hc
    rw [num_word hc] at h
    cases h

theorem dec_ne_nil (v : Int) : dec v ≠ [] := by
  cases v with
  | ofNat n => exact Nat.toDigits_ne_nil
  | negSucc n => simp [dec]

/-- A text that begins with another character is no number. -/
theorem dec_ne {v : Int} {c : Char} {r r' : Text} (hc : num c = false) : dec v ++ r ≠ c :: r' := by
  intro h
  cases hd : dec v with
  | nil => exact dec_ne_nil v hd
  | cons d t =>
    rw [hd] at h
    have := dec_num v d (by rw [hd]; simp)
    rw [(List.cons.inj h).1, hc] at this
    cases this

theorem items_append {l l' : List Int} {r r' : Text} (h : items l ++ ']' :: r = items l' ++ ']' :: r') :
    l = l' ∧ r = r' := by
  induction l generalizing l' with
  | nil =>
    cases l' with
    | nil => exact ⟨rfl, (List.cons.inj h).2⟩
    | cons v l' =>
      exfalso
      cases l' with
      | nil => exact dec_ne rfl h.symm
      | cons w l' =>
        simp only [items, List.append_assoc] at h
        exact dec_ne rfl h.symm
  | cons v l ih =>
    cases l' with
    | nil =>
      exfalso
      cases l with
      | nil => exact dec_ne rfl h
      | cons w l =>
        simp only [items, List.append_assoc] at h
        exact dec_ne rfl h
    | cons w l' =>
      cases l with
      | nil =>
        cases l' with
        | nil =>
          obtain ⟨h1, h2⟩ := dec_append (r := ']' :: r) (r' := ']' :: r') (by stops) (by stops) h
          exact ⟨by rw [h1], (List.cons.inj h2).2⟩
        | cons w' l' =>
          simp only [items, List.append_assoc] at h
          obtain ⟨h1, h2⟩ := dec_append (r := ']' :: r) (by stops) (by stops) h
          exact absurd (List.cons.inj h2).1 (by decide)
      | cons v' l =>
        cases l' with
        | nil =>
          simp only [items, List.append_assoc] at h
          obtain ⟨h1, h2⟩ := dec_append (r' := ']' :: r') (by stops) (by stops) h
          exact absurd (List.cons.inj h2).1 (by decide)
        | cons w' l' =>
          simp only [items, List.append_assoc] at h
          obtain ⟨h1, h2⟩ := dec_append (by stops) (by stops) h
          obtain ⟨h3, h4⟩ := ih (List.cons.inj (List.cons.inj h2).2).2
          exact ⟨by rw [h1, h3], h4⟩

theorem list_append {l l' : List Int} {r r' : Text} (h : list l ++ r = list l' ++ r') : l = l' ∧ r = r' := by
  have : items l ++ ']' :: r = items l' ++ ']' :: r' := by
    simpa [list] using h
  exact items_append this

/-! ### Texts of the classes -/

theorem ct_eq (c : CT) : ct c = .ok ("exp=".toList ++ (dec c.exp ++ (" mant".toList ++ (dec c.mant ++ [])))) :=
  rfl

theorem ct_append {a b : CT} {t t' r r' : Text} (h : ct a = .ok t) (h' : ct b = .ok t')
    (hr : Stops num r) (hr' : Stops num r') (e : t ++ r = t' ++ r') : a = b ∧ r = r' := by
  rw [ct_eq] at h h'
  cases h; cases h'
  simp only [List.append_assoc, List.nil_append] at e
  obtain ⟨e1, e⟩ := dec_append (by stops) (by stops) (List.append_cancel_left e)
  obtain ⟨e2, e⟩ := dec_append (by stops) (by stops) (List.append_cancel_left e)
  exact ⟨by cases a; cases b; simp_all, e⟩

set_option maxRecDepth 8000 in
theorem subBand_eq (s : SubBand) : subBand s = .ok ("channel_index_start=".toList ++
    (dec s.channelIndexStart ++ (", channel_index_end=".toList ++ (dec s.channelIndexEnd ++
    (", eirp=".toList ++ (dec s.eirp ++ (", cca=".toList ++ (dec s.cca ++ (", duty=".toList ++
    (dec s.duty ++ [])))))))))) := rfl

theorem subBand_append {a b : SubBand} {t t' r r' : Text} (h : subBand a = .ok t) (h' : subBand b = .ok t')
    (hr : Stops num r) (hr' : Stops num r') (e : t ++ r = t' ++ r') : a = b ∧ r = r' := by
  rw [subBand_eq] at h h'
  cases h; cases h'
  simp only [List.append_assoc, List.nil_append] at e
  obtain ⟨e1, e⟩ := dec_append (by stops) (by stops) (List.append_cancel_left e)
  obtain ⟨e2, e⟩ := dec_append (by stops) (by stops) (List.append_cancel_left e)
  obtain ⟨e3, e⟩ := dec_append (by stops) (by stops) (List.append_cancel_left e)
  obtain ⟨e4, e⟩ := dec_append (by stops) (by stops) (List.append_cancel_left e)
  obtain ⟨e5, e⟩ := dec_append (by stops) (by stops) (List.append_cancel_left e)
  exact ⟨by cases a; cases b; simp_all, e⟩

theorem channelStatus_eq (c : ChannelStatusIdentifier) : channelStatusIdentifier c =
    .ok ("channel_band=".toList ++ (lstrip c.channelBand.name "BAND_".toList ++
    (", channel_bandwidth=".toList ++ (bandwidth c.channelBandwidth ++ (", channel_index=".toList ++
    (dec c.channelIndex ++ [])))))) := rfl

theorem channelStatus_append {a b : ChannelStatusIdentifier} {t t' r r' : Text}
    (h : channelStatusIdentifier a = .ok t) (h' : channelStatusIdentifier b = .ok t')
    (hr : Stops num r) (hr' : Stops num r') (e : t ++ r = t' ++ r') : a = b ∧ r = r' := by
  rw [channelStatus_eq] at h h'
  cases h; cases h'
  simp only [List.append_assoc, List.nil_append] at e
  obtain ⟨e1, e⟩ := field_append band_word band_injective (by stops) (by stops) (List.append_cancel_left e)
  obtain ⟨e2, e⟩ := field_append bandwidth_word bandwidth_injective (by stops) (by stops)
    (List.append_cancel_left e)
  obtain ⟨e3, e⟩ := dec_append (by stops) (by stops) (List.append_cancel_left e)
  exact ⟨by cases a; cases b; simp_all, e⟩

theorem addrId_append {a b : AddrId} {t t' r r' : Text} (h : addrId a = .ok t) (h' : addrId b = .ok t')
    (hr : Stops num r) (hr' : Stops num r') (e : t ++ r = t' ++ r') : a = b ∧ r = r' := by
  cases a <;> cases b <;> simp only [addrId, ct_eq, Except.ok.injEq] at h h' <;> subst h <;> subst h'
  · exact ⟨rfl, List.append_cancel_left e⟩
  · exact absurd e.symm (dec_ne rfl)
  · exact absurd (List.cons.inj e).1 (by decide)
  · exact absurd e (dec_ne rfl)
  · obtain ⟨e1, e⟩ := dec_append hr hr' e
    exact ⟨by rw [e1], e⟩
  · exact absurd e (dec_ne rfl)
  · exact absurd (List.cons.inj e).1 (by decide)
  · exact absurd e.symm (dec_ne rfl)
  · obtain ⟨e1, e⟩ := ct_append (ct_eq _) (ct_eq _) hr hr' e
    exact ⟨by rw [e1], e⟩

theorem addrId_ok (a : AddrId) : ∃ t, addrId a = .ok t := by
  cases a <;> exact ⟨_, rfl⟩

theorem addressee_ok (a : Addressee) : ∃ i, addrId a.id = .ok i ∧ addressee a = .ok ("ac=".toList ++
    (dec a.accessClass ++ (", id_type=".toList ++ (idType a.idType ++ (", id=".toList ++ (i ++ [])))))) := by
  obtain ⟨i, hi⟩ := addrId_ok a.id
  refine ⟨i, hi, ?_⟩
  unfold addressee
  rw [hi]
  rfl

theorem addressee_append {a b : Addressee} {t t' r r' : Text} (h : addressee a = .ok t)
    (h' : addressee b = .ok t') (hr : Stops num r) (hr' : Stops num r') (e : t ++ r = t' ++ r') :
    (a.accessClass = b.accessClass ∧ a.idType = b.idType ∧ a.id = b.id) ∧ r = r' := by
  obtain ⟨i, hi, ha⟩ := addressee_ok a
  obtain ⟨j, hj, hb⟩ := addressee_ok b
  rw [ha] at h
  rw [hb] at h'
  cases h; cases h'
  simp only [List.append_assoc, List.nil_append] at e
  obtain ⟨e1, e⟩ := dec_append (by stops) (by stops) (List.append_cancel_left e)
  obtain ⟨e2, e⟩ := field_append idType_word idType_injective (by stops) (by stops)
    (List.append_cancel_left e)
  obtain ⟨e3, e⟩ := addrId_append hi hj hr hr' (List.append_cancel_left e)
  exact ⟨⟨e1, e2, e3⟩, e⟩

set_option maxRecDepth 8000 in
theorem status_ok (s : Status) : ∃ a c, addressee s.addressee = .ok a ∧ ct s.responseTo = .ok c ∧
    status s = .ok ("unicast=".toList ++ (bool s.unicast ++ (", nls=".toList ++ (bool s.nls ++
    (", retry=".toList ++ (bool s.retry ++ (", missed=".toList ++ (bool s.missed ++
    (", fifo_token=".toList ++ (dec s.fifoToken ++ (", rx_level=".toList ++ (dec s.rxLevel ++
    (", seq_nr=".toList ++ (dec s.seqNr ++ (", target_rx_level=".toList ++ (dec s.targetRxLevel ++
    (", addressee=".toList ++ (a ++ (", response_to=".toList ++ (c ++
    (", link_budget=".toList ++ (dec s.linkBudget ++ (", channel_id=".toList ++
    (s.channelId.str ++ [])))))))))))))))))))))))) := by
  obtain ⟨i, -, ha⟩ := addressee_ok s.addressee
  refine ⟨_, _, ha, ct_eq _, ?_⟩
  unfold status
  rw [ha, ct_eq]
  rfl

theorem status_append {a b : Status} {t t' r r' : Text} (h : status a = .ok t)
    (h' : status b = .ok t') (hr : Stops wordChar r) (hr' : Stops wordChar r') (e : t ++ r = t' ++ r') :
    (a.unicast = b.unicast ∧ a.nls = b.nls ∧ a.retry = b.retry ∧ a.missed = b.missed ∧
      a.fifoToken = b.fifoToken ∧ a.rxLevel = b.rxLevel ∧ a.seqNr = b.seqNr ∧
      a.targetRxLevel = b.targetRxLevel ∧ (a.addressee.accessClass = b.addressee.accessClass ∧
      a.addressee.idType = b.addressee.idType ∧ a.addressee.id = b.addressee.id) ∧
      a.responseTo = b.responseTo ∧ a.linkBudget = b.linkBudget ∧ a.channelId.str = b.channelId.str) ∧
    r = r' := by
  obtain ⟨i, c, hi, hc, ha⟩ := status_ok a
  obtain ⟨j, d, hj, hd, hb⟩ := status_ok b
  rw [ha] at h
  rw [hb] at h'
  cases h; cases h'
  simp only [List.append_assoc, List.nil_append] at e
  obtain ⟨e1, e⟩ := field_append bool_word bool_injective (by stops) (by stops) (List.append_cancel_left e)
  obtain ⟨e2, e⟩ := field_append bool_word bool_injective (by stops) (by stops) (List.append_cancel_left e)
  obtain ⟨e3, e⟩ := field_append bool_word bool_injective (by stops) (by stops) (List.append_cancel_left e)
  obtain ⟨e4, e⟩ := field_append bool_word bool_injective (by stops) (by stops) (List.append_cancel_left e)
  obtain ⟨e5, e⟩ := dec_append (by stops) (by stops) (List.append_cancel_left e)
  obtain ⟨e6, e⟩ := dec_append (by stops) (by stops) (List.append_cancel_left e)
  obtain ⟨e7, e⟩ := dec_append (by stops) (by stops) (List.append_cancel_left e)
  obtain ⟨e8, e⟩ := dec_append (by stops) (by stops) (List.append_cancel_left e)
  obtain ⟨e9, e⟩ := addressee_append hi hj (by stops) (by stops) (List.append_cancel_left e)
  obtain ⟨e10, e⟩ := ct_append hc hd (by stops) (by stops) (List.append_cancel_left e)
  obtain ⟨e11, e⟩ := dec_append (by stops) (by stops) (List.append_cancel_left e)
  obtain ⟨e12, e⟩ := channel_append (by stops) (by stops) (List.append_cancel_left e)
  exact ⟨⟨e1, e2, e3, e4, e5, e6, e7, e8, e9, e10, e11, e12⟩, e⟩

theorem offset_eq (o : Offset) : offset o = .ok ("file-id=".toList ++ (dec o.id ++ (", offset=".toList ++
    (dec o.offset.value ++ [])))) := rfl

theorem offset_append {o o' : Offset} {t t' r r' : Text} (h : offset o = .ok t) (h' : offset o' = .ok t')
    (hr : Stops num r) (hr' : Stops num r') (e : t ++ r = t' ++ r') : o = o' ∧ r = r' := by
  rw [offset_eq] at h h'
  cases h; cases h'
  simp only [List.append_assoc, List.nil_append] at e
  obtain ⟨e1, e⟩ := dec_append (by stops) (by stops) (List.append_cancel_left e)
  obtain ⟨e2, e⟩ := dec_append (by stops) (by stops) (List.append_cancel_left e)
  obtain ⟨a, ⟨b⟩⟩ := o
  obtain ⟨c, ⟨d⟩⟩ := o'
  simp_all

theorem data_eq (d : Data) : ∃ o, offset d.offset = .ok o ∧ data d = .ok (o ++ (", length=".toList ++
    (dec d.length.value ++ (", data=".toList ++ (list d.data ++ []))))) := ⟨_, offset_eq _, rfl⟩

theorem data_append {a b : Data} {t t' r r' : Text} (h : data a = .ok t) (h' : data b = .ok t')
    (e : t ++ r = t' ++ r') : a = b ∧ r = r' := by
  obtain ⟨i, hi, ha⟩ := data_eq a
  obtain ⟨j, hj, hb⟩ := data_eq b
  rw [ha] at h
  rw [hb] at h'
  cases h; cases h'
  simp only [List.append_assoc, List.nil_append] at e
  obtain ⟨e1, e⟩ := offset_append hi hj (by stops) (by stops) e
  obtain ⟨e2, e⟩ := dec_append (by stops) (by stops) (List.append_cancel_left e)
  obtain ⟨e3, e⟩ := list_append (List.append_cancel_left e)
  obtain ⟨o, ⟨l⟩, d⟩ := a
  obtain ⟨o', ⟨l'⟩, d'⟩ := b
  simp_all

theorem dataRequest_eq (d : DataRequest) : ∃ o, offset d.offset = .ok o ∧ dataRequest d =
    .ok (o ++ (", length=".toList ++ (dec d.length.value ++ []))) := ⟨_, offset_eq _, rfl⟩

theorem dataRequest_append {a b : DataRequest} {t t' r r' : Text} (h : dataRequest a = .ok t)
    (h' : dataRequest b = .ok t') (hr : Stops num r) (hr' : Stops num r') (e : t ++ r = t' ++ r') :
    a = b ∧ r = r' := by
  obtain ⟨i, hi, ha⟩ := dataRequest_eq a
  obtain ⟨j, hj, hb⟩ := dataRequest_eq b
  rw [ha] at h
  rw [hb] at h'
  cases h; cases h'
  simp only [List.append_assoc, List.nil_append] at e
  obtain ⟨e1, e⟩ := offset_append hi hj (by stops) (by stops) e
  obtain ⟨e2, e⟩ := dec_append (by stops) (by stops) (List.append_cancel_left e)
  obtain ⟨o, ⟨l⟩⟩ := a
  obtain ⟨o', ⟨l'⟩⟩ := b
  simp_all

theorem properties_eq (p : FileProperties) : properties p = .ok ("act_enabled=".toList ++ (bool p.actEnabled ++
    (", act_condition=".toList ++ (actionCondition p.actCondition ++ (", storage_class=".toList ++
    (storageClass p.storageClass ++ [])))))) := rfl

theorem properties_append {a b : FileProperties} {t t' r r' : Text} (h : properties a = .ok t)
    (h' : properties b = .ok t') (hr : Stops wordChar r) (hr' : Stops wordChar r') (e : t ++ r = t' ++ r') :
    a = b ∧ r = r' := by
  rw [properties_eq] at h h'
  cases h; cases h'
  simp only [List.append_assoc, List.nil_append] at e
  obtain ⟨e1, e⟩ := field_append bool_word bool_injective (by stops) (by stops) (List.append_cancel_left e)
  obtain ⟨e2, e⟩ := field_append actionCondition_word actionCondition_injective (by stops) (by stops)
    (List.append_cancel_left e)
  obtain ⟨e3, e⟩ := field_append storageClass_word storageClass_injective (by stops) (by stops)
    (List.append_cancel_left e)
  exact ⟨by cases a; cases b; simp_all, e⟩

set_option maxRecDepth 8000 in
theorem fileHeader_eq (f : FileHeader) : ∃ p, properties f.properties = .ok p ∧ fileHeader f =
    .ok ("permissions=".toList ++ (permissions f.permissions ++ (", properties=(".toList ++ (p ++
    ("), alp_command_file_id=".toList ++ (dec f.alpCommandFileId ++ (", interface_file_id=".toList ++
    (dec f.interfaceFileId ++ (", file_size=".toList ++ (dec f.fileSize ++ (", allocated_size=".toList ++
    (dec f.allocatedSize ++ [])))))))))))) := ⟨_, properties_eq _, rfl⟩

theorem fileHeader_append {a b : FileHeader} {t t' r r' : Text} (h : fileHeader a = .ok t)
    (h' : fileHeader b = .ok t') (hr : Stops num r) (hr' : Stops num r') (e : t ++ r = t' ++ r') :
    (a.properties = b.properties ∧ a.alpCommandFileId = b.alpCommandFileId ∧
      a.interfaceFileId = b.interfaceFileId ∧ a.fileSize = b.fileSize ∧
      a.allocatedSize = b.allocatedSize) ∧ r = r' := by
  obtain ⟨i, hi, ha⟩ := fileHeader_eq a
  obtain ⟨j, hj, hb⟩ := fileHeader_eq b
  rw [ha] at h
  rw [hb] at h'
  cases h; cases h'
  simp only [permissions, List.append_assoc, List.nil_append] at e
  replace e := List.append_cancel_left e
  obtain ⟨e1, e⟩ := properties_append hi hj (by stops) (by stops) (List.append_cancel_left e)
  obtain ⟨e2, e⟩ := dec_append (by stops) (by stops) (List.append_cancel_left e)
  obtain ⟨e3, e⟩ := dec_append (by stops) (by stops) (List.append_cancel_left e)
  obtain ⟨e4, e⟩ := dec_append (by stops) (by stops) (List.append_cancel_left e)
  obtain ⟨e5, e⟩ := dec_append (by stops) (by stops) (List.append_cancel_left e)
  exact ⟨⟨e1, e2, e3, e4, e5⟩, e⟩

end Verif.Print
