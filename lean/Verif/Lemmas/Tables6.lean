import Verif.Lemmas.Tables4
import Verif.Lemmas.Tables5

/-! Reading and writing again. -/

namespace Verif

theorem zipWith_append_eq {a b c d : List Bool} (h : a.length = c.length) :
    List.zipWith (· && ·) (a ++ b) (c ++ d) = List.zipWith (· && ·) a c ++ List.zipWith (· && ·) b d :=
  List.zipWith_append h

theorem zipWith_replicate (l : List Bool) (b : Bool) :
    List.zipWith (· && ·) (List.replicate l.length b) l = if b then l else List.replicate l.length false := by
  induction l with
  | nil => cases b <;> rfl
  | cons x l ih =>
    rw [List.length_cons, List.replicate_succ, List.zipWith_cons_cons, ih]
    cases b <;> simp [List.replicate_succ]

theorem bitsOf_zero (w : Nat) : bitsOf w 0 = List.replicate w false := by
  induction w with
  | zero => rfl
  | succ w ih => rw [bitsOf, ih, List.replicate_succ]; simp

theorem Matches.masked {t : Table} {bits : List Bool} (h : Matches t bits) :
    fieldBits t.fields = List.zipWith (· && ·) t.used bits := by
  induction t generalizing bits with
  | nil => rfl
  | cons f t ih =>
    obtain ⟨field, rest, rfl, hl, hv, hm⟩ := h
    rw [Table.fields_cons, fieldBits_cons, ih hm]
    have : Table.used (f :: t) = List.replicate f.1 f.2.isSome ++ Table.used t := rfl
    rw [this, zipWith_append_eq (by simp [hl])]
    congr 1
    rw [← hl, zipWith_replicate]
    cases hf : f.2 with
    | none => simpa using bitsOf_zero field.length
    | some v =>
      have := hv v hf
      simp only [Option.getD_some, Option.isSome_some, if_true]
      rw [show v.toNat = bitsToNat field by omega]
      exact bitsOf_bitsToNat field

theorem Decodes.rewrites {α : Type} {p : P α} {tables : α → Table → Prop} {iter : α → Gen}
    {table : α → Table} (h : Decodes p tables)
    (hw : ∀ x t, tables x t → Fits t → t = table x ∧ HasLayout (iter x) t.fields) :
    Rewrites p iter table := by
  intro bs following x e
  obtain ⟨t, bits, ht, hm, e1, -⟩ := (h _ _ _).1 e
  have e1 : bytesToBits (bs ++ following) = bits ++ bytesToBits following := e1
  rw [bytesToBits_append] at e1
  have := List.append_cancel_right e1
  subst this
  obtain ⟨rfl, ws, e, l, -⟩ := hw x t ht hm.fits
  exact ⟨ws, e, l.trans hm.masked⟩

theorem bit_fields (b : Bool) (t : Table) : Table.fields (bit b :: t) = flag b :: Table.fields t := by
  cases b <;> rfl

theorem FilePermissions.table_fields (c : FilePermissions) : c.table.fields = c.fields := by
  simp only [FilePermissions.table, bit_fields]; rfl

theorem FileProperties.table_fields (c : FileProperties) : c.table.fields = c.fields := by
  obtain ⟨a, b, c⟩ := c
  cases a <;> cases b <;> cases c <;> rfl

theorem FileHeader.table_fields (c : FileHeader) : c.table.fields = c.fields := by
  simp only [FileHeader.table, Table.fields_append, FilePermissions.table_fields, FileProperties.table_fields]
  rfl

theorem FileHeaderOperand.table_fields (c : FileHeaderOperand) : c.table.fields = c.fields := by
  rw [FileHeaderOperand.table, Table.fields_cons, FileHeader.table_fields]; rfl

theorem QoS.table_fields (c : QoS) : c.table.fields = c.fields := by
  obtain ⟨a, b, c, d⟩ := c
  cases a <;> cases b <;> cases c <;> cases d <;> rfl

theorem LoRaWANABP.table_fields (c : LoRaWANABP) : c.table.fields = c.fields := by
  simp only [LoRaWANABP.table, LoRaWANABP.fields]
  cases c.adrEnabled <;> cases c.requestAck <;> rfl

theorem LoRaWANOTAA.table_fields (c : LoRaWANOTAA) : c.table.fields = c.fields := by
  simp only [LoRaWANOTAA.table, LoRaWANOTAA.fields]
  cases c.adrEnabled <;> cases c.requestAck <;> rfl

theorem Fits.u8 {t : Table} (h : Fits t) {v : Int} (hm : (8, some v) ∈ t) : isByte v := by
  have := h 8 v hm
  exact ⟨this.1, by omega⟩

theorem CT.rewrites : Rewrites CT.parse CT.iter CT.table :=
  CT.decodes.rewrites fun _ _ h _ => ⟨h.2, h.2 ▸ (CT.layout (CT.built_iff.1 h.1))⟩

theorem ChannelHeader.rewrites : Rewrites ChannelHeader.parse ChannelHeader.iter ChannelHeader.table :=
  ChannelHeader.decodes.rewrites fun x _ h _ => ⟨h, h ▸ x.layout.congr x.table_fields.symm⟩

theorem ChannelID.rewrites : Rewrites ChannelID.parse ChannelID.iter ChannelID.table :=
  ChannelID.decodes.rewrites fun x _ h _ => ⟨h.2, h.2 ▸
    (ChannelID.layout (ChannelID.built_iff.1 h.1)).congr x.table_fields.symm⟩

theorem ChannelStatusIdentifier.rewrites : Rewrites ChannelStatusIdentifier.parse
    ChannelStatusIdentifier.iter ChannelStatusIdentifier.table :=
  ChannelStatusIdentifier.decodes.rewrites fun x _ h _ => ⟨h.2, h.2 ▸
    (ChannelStatusIdentifier.layout (ChannelStatusIdentifier.built_iff.1 h.1)).congr x.table_fields.symm⟩

theorem SubBand.rewrites : Rewrites SubBand.parse SubBand.iter SubBand.table :=
  SubBand.decodes.rewrites fun x _ h _ => ⟨h.2, h.2 ▸
    (SubBand.layout (SubBand.built_iff.1 h.1)).congr x.table_fields.symm⟩

theorem SubProfile.rewrites : Rewrites SubProfile.parse SubProfile.iter SubProfile.table :=
  SubProfile.decodes.rewrites fun _ _ h _ => ⟨h.2, h.2 ▸ SubProfile.layout (SubProfile.built_iff.1 h.1)⟩

theorem AccessProfile.rewrites : Rewrites AccessProfile.parse AccessProfile.iter AccessProfile.table :=
  AccessProfile.decodes.rewrites fun _ _ h _ => ⟨h.2.2, h.2.2 ▸
    AccessProfile.layout (AccessProfile.built_iff.1 h.1)⟩

theorem FileHeader.rewrites : Rewrites FileHeader.parse FileHeader.iter FileHeader.table :=
  FileHeader.decodes.rewrites fun x _ h _ => ⟨h.2, h.2 ▸
    (FileHeader.layout (FileHeader.built_iff.1 h.1)).congr x.table_fields.symm⟩

theorem FileHeaderOperand.rewrites : Rewrites FileHeaderOperand.parse FileHeaderOperand.iter
    FileHeaderOperand.table :=
  FileHeaderOperand.decodes.rewrites fun x _ h _ => ⟨h.2, h.2 ▸
    (FileHeaderOperand.layout (FileHeaderOperand.built_iff.1 h.1)).congr x.table_fields.symm⟩

theorem QoS.rewrites : Rewrites QoS.parse QoS.iter QoS.table :=
  QoS.decodes.rewrites fun x _ h _ => ⟨h, h ▸ x.layout.congr x.table_fields.symm⟩

theorem LoRaWANABP.rewrites : Rewrites LoRaWANABP.parse LoRaWANABP.iter LoRaWANABP.table :=
  LoRaWANABP.decodes.rewrites fun x _ h hf => by
    subst h
    have a := hf 32 x.devAddr (by simp [LoRaWANABP.table])
    have b := hf 32 x.netwId (by simp [LoRaWANABP.table])
    exact ⟨rfl, (LoRaWANABP.layout ⟨hf.u8 (by simp [LoRaWANABP.table]), hf.u8 (by simp [LoRaWANABP.table]),
      ⟨a.1, by omega⟩, ⟨b.1, by omega⟩⟩).congr x.table_fields.symm⟩

theorem LoRaWANOTAA.rewrites : Rewrites LoRaWANOTAA.parse LoRaWANOTAA.iter LoRaWANOTAA.table :=
  LoRaWANOTAA.decodes.rewrites fun x _ h hf => by
    subst h
    exact ⟨rfl, (LoRaWANOTAA.layout ⟨hf.u8 (by simp [LoRaWANOTAA.table]),
      hf.u8 (by simp [LoRaWANOTAA.table])⟩).congr x.table_fields.symm⟩

theorem UidFile.rewrites : Rewrites UidFile.parse UidFile.iter UidFile.table :=
  UidFile.decodes.rewrites fun _ _ h _ => ⟨h.2, h.2 ▸ UidFile.layout h.1⟩

theorem VidFile.rewrites : Rewrites VidFile.parse VidFile.iter VidFile.table :=
  VidFile.decodes.rewrites fun _ _ h _ => ⟨h.2, h.2 ▸ VidFile.layout h.1⟩

theorem DllStatusFile.rewrites : Rewrites DllStatusFile.parse DllStatusFile.iter DllStatusFile.table :=
  DllStatusFile.decodes.rewrites fun _ _ h _ => ⟨h.2, h.2 ▸ DllStatusFile.layout h.1⟩

theorem DllConfigFile.rewrites : Rewrites DllConfigFile.parse DllConfigFile.iter DllConfigFile.table :=
  DllConfigFile.decodes.rewrites fun x _ h hf => by
    obtain ⟨hb, rfl⟩ := h
    exact ⟨rfl, DllConfigFile.layout hb ⟨hf.u8 (by simp [DllConfigFile.table]),
      hf.u8 (by simp [DllConfigFile.table]), hf.u8 (by simp [DllConfigFile.table]),
      hf.u8 (by simp [DllConfigFile.table])⟩⟩

theorem FirmwareVersionFile.rewrites : Rewrites FirmwareVersionFile.parse FirmwareVersionFile.iter
    FirmwareVersionFile.table :=
  FirmwareVersionFile.decodes.rewrites fun x _ h _ => by
    obtain ⟨hb, l1, l2, h1, h2, rfl⟩ := h
    refine ⟨rfl, (FirmwareVersionFile.layout hb h1 h2).congr ?_⟩
    have e1 : padded x.applicationName 6 = x.applicationName := by simp [padded, l1]
    have e2 : padded x.gitSha1 7 = x.gitSha1 := by simp [padded, l2]
    rw [SystemFile.fields, e1, e2]

theorem PhyStatusFile.rewrites : Rewrites PhyStatusFile.parse PhyStatusFile.iter PhyStatusFile.table :=
  PhyStatusFile.decodes.rewrites fun x _ h hf => by
    obtain ⟨hb, l1, l2, rfl⟩ := h
    refine ⟨rfl, (PhyStatusFile.layout (PhyStatusFile.built_iff.1 hb) ?_).congr ?_⟩
    · intro v hv
      have hv := List.mem_of_mem_take hv
      refine hf.u8 ?_
      obtain ⟨i, hi, rfl⟩ := List.mem_iff_getElem.1 hv
      have hj : i < x.channelStatusIdentifier.length := by omega
      simp only [PhyStatusFile.table, List.mem_append, List.mem_flatMap]
      refine .inr ⟨(x.channelStatusIdentifier[i], x.channelNoiseFloor[i]), ?_, .inr (by simp)⟩
      rw [List.mem_iff_getElem]
      exact ⟨i, by simp; omega, by simp⟩
    · rw [SystemFile.fields, List.take_of_length_le (by omega), List.take_of_length_le (by omega)]

theorem AccessProfileFile.rewrites : Rewrites AccessProfileFile.parse AccessProfileFile.iter
    fun f => match f.accessProfile with | some p => p.table | none => [] :=
  AccessProfileFile.decodes.rewrites fun x _ h _ => by
    obtain ⟨-, p, hp, hb, -, rfl⟩ := h
    obtain ⟨i, q⟩ := x
    simp only at hp
    subst hp
    exact ⟨rfl, AccessProfile.layout (AccessProfile.built_iff.1 hb)⟩

end Verif
