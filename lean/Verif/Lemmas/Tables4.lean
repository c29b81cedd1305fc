import Verif.Spec.Tables
import Verif.Lemmas.Layout
import Verif.Lemmas.SystemFiles2
import Verif.Lemmas.SystemFiles3

/-! Layouts of what is written: system files and actions. -/

namespace Verif

theorem Table.fields_append (a b : Table) : Table.fields (a ++ b) = a.fields ++ b.fields := by
  simp [Table.fields]

theorem Table.fields_cons (f : Nat × Option Int) (b : Table) :
    Table.fields (f :: b) = (f.1, (f.2.getD 0).toNat) :: Table.fields b := rfl

theorem Table.fields_nil : Table.fields [] = [] := rfl

theorem Table.fields_flatMap {α : Type} (l : List α) (g : α → Table) :
    Table.fields (l.flatMap g) = l.flatMap fun x => (g x).fields := by
  induction l with
  | nil => rfl
  | cons x l ih => rw [List.flatMap_cons, Table.fields_append, ih, List.flatMap_cons]

theorem CT.table_fields (c : CT) : c.table.fields = c.fields := rfl

theorem ChannelHeader.table_fields (c : ChannelHeader) : c.table.fields = c.fields := by
  obtain ⟨a, b, c⟩ := c
  cases a <;> cases b <;> cases c <;> rfl

theorem ChannelID.table_fields (c : ChannelID) : c.table.fields = c.fields := by
  rw [ChannelID.table, Table.fields_append, ChannelHeader.table_fields]; rfl

theorem ChannelStatusIdentifier.table_fields (c : ChannelStatusIdentifier) : c.table.fields = c.fields := by
  obtain ⟨a, b, c⟩ := c
  cases a <;> cases b <;> rfl

theorem SubBand.table_fields (c : SubBand) : c.table.fields = c.fields := rfl

namespace HasLayout

theorem congr {g : Gen} {a b : List (Nat × Nat)} (h : HasLayout g a) (e : a = b) : HasLayout g b := e ▸ h

theorem u16 {v : Int} (h : isU16 v) : HasLayout (.ofBytes (Verif.packU 2 v)) [(16, v.toNat)] :=
  packU (k := 2) h.1 (by have := h.2; omega)

theorem u32 {v : Int} (h : isU32 v) : HasLayout (.ofBytes (Verif.packU 4 v)) [(32, v.toNat)] :=
  packU (k := 4) h.1 (by have := h.2; omega)

theorem packS8 {v : Int} (h : -128 ≤ v ∧ v ≤ 127) :
    HasLayout (.ofBytes (Verif.packS8 v)) [(8, (v % 256).toNat)] := by
  rw [Verif.packS8, if_pos h]
  refine ⟨_, Emits.ofBytes _, ?_, by simp; omega⟩
  rw [bytesToBits_cons, ofNat_toNat_u8 (by omega)]
  simp [fieldBits]

theorem concat {α : Type} {gen : α → Gen} {fs : α → List (Nat × Nat)} {l : List α}
    (h : ∀ x ∈ l, HasLayout (gen x) (fs x)) : HasLayout (.concat (l.map gen)) (l.flatMap fs) := by
  induction l with
  | nil => exact nil
  | cons x l ih =>
    exact (h x (by simp)).append (ih fun y hy => h y (by simp [hy]))

/-- Zero bytes as one unused field. -/
theorem zeros (n : Nat) : HasLayout (.concat (List.replicate n (.int 0))) [(8 * n, 0)] := by
  refine ⟨_, zeros_emits n, ?_, by simp⟩
  simp only [fieldBits_cons, fieldBits_nil, List.append_nil]
  induction n with
  | zero => rfl
  | succ n ih =>
    rw [List.replicate_succ, bytesToBits_cons, ih, show 8 * (n + 1) = 8 + 8 * n by ring]
    have := bitsOf_append 8 (8 * n) 0 0 (by positivity)
    simpa using this.symm

theorem ascii {s : List Nat} (n : Nat) (h : Ascii s) :
    HasLayout (.ofBytes (FirmwareVersionFile.encodeAscii s n)) (chars (padded s n)).fields := by
  rw [FirmwareVersionFile.encodeAscii_ok n h]
  have hp := FirmwareVersionFile.ascii_padded n h
  refine ⟨_, Emits.ofBytes _, ?_, ?_⟩
  · generalize padded s n = t at hp
    induction t with
    | nil => rfl
    | cons c t ih =>
      have : c < 128 := hp c (by simp)
      rw [List.map_cons, bytesToBits_cons, ih fun x hx => hp x (by simp [hx]), ofNat_toNat_u8 (by omega)]
      simp [chars, Table.fields, fieldBits]
  · intro f hf
    simp only [chars, Table.fields, List.map_map, List.mem_map, Function.comp] at hf
    obtain ⟨c, hc, rfl⟩ := hf
    have := hp c hc
    simp; omega

theorem key {k : Int} (h : 0 ≤ k) : HasLayout (keyBytes k) (keyTable k).fields := by
  obtain ⟨n, rfl⟩ := Int.eq_ofNat_of_zero_le h
  have : (keyTable (n : Int)).fields = (List.range 16).flatMap fun i => [(8, n / 256 ^ i % 256)] := by
    simp only [keyTable, Table.fields, List.map_map, ← List.map_eq_flatMap]
    apply List.map_congr_left
    intro i _
    simp only [Function.comp, Option.getD_some, Prod.mk.injEq, true_and]
    norm_cast
  rw [this]
  refine concat fun i _ => ?_
  rw [land_mask]
  exact (int (i := ((n / 256 ^ i % 256 : Nat) : Int)) (by constructor <;> omega)).congr (by
    rw [Int.toNat_natCast])

end HasLayout

theorem SubProfile.layout {p : SubProfile} (h : p.Ok) : HasLayout p.iter p.table.fields :=
  (HasLayout.int h.1).append (CT.layout h.2)

theorem AccessProfile.layout {a : AccessProfile} (h : a.Ok) : HasLayout a.iter a.table.fields := by
  rw [AccessProfile.table, Table.fields_append, Table.fields_append, Table.fields_flatMap,
    Table.fields_flatMap, ChannelHeader.table_fields]
  exact ((ChannelHeader.layout _).append (HasLayout.concat fun p hp => SubProfile.layout (h.2.1 p hp))).append
    (HasLayout.concat fun p hp => SubBand.layout (h.2.2 p hp))

theorem UidFile.layout {f : UidFile} (h : f.Built) : HasLayout f.iter f.table.fields := by
  obtain ⟨⟨h0, h1⟩, -⟩ := validate_eq_ok.1 h
  exact HasLayout.packU (k := 8) h0 (by omega)

theorem VidFile.layout {f : VidFile} (h : f.Built) : HasLayout f.iter f.table.fields := by
  obtain ⟨⟨h0, h1⟩, -⟩ := validate_eq_ok.1 h
  exact (HasLayout.u16 h0).append (HasLayout.int h1)

theorem FirmwareVersionFile.layout {f : FirmwareVersionFile} (h : f.Built) (h1 : Ascii f.applicationName)
    (h2 : Ascii f.gitSha1) : HasLayout f.iter (SystemFile.firmwareVersion f).fields := by
  obtain ⟨⟨a, b, c, d, -⟩, -⟩ := validate_eq_ok.1 h
  refine ((((((HasLayout.int a).append (HasLayout.int b)).append (HasLayout.int c)).append
    (HasLayout.int d)).append (HasLayout.ascii 6 h1)).append (HasLayout.ascii 7 h2)).congr ?_
  simp only [SystemFile.fields, FirmwareVersionFile.table, Table.fields_append]
  rfl

theorem EngineeringModeFile.layout {f : EngineeringModeFile} (h : f.Built) :
    HasLayout f.iter (SystemFile.engineeringMode f).fields := by
  obtain ⟨hv, hc⟩ := h
  obtain ⟨⟨h1, h2, h3⟩, -⟩ := validate_eq_ok.1 hv
  have hm : isByte f.mode.value := by cases f.mode <;> decide
  have hz : HasLayout (.int 0 ++ .int 0) [(16, 0)] := ⟨[0, 0], rfl, by decide, by simp⟩
  rw [EngineeringModeFile.iter, Gen.append_assoc]
  refine ((((((HasLayout.int hm).append (HasLayout.int h1)).append (HasLayout.int h2)).append
    (ChannelID.layout (ChannelID.built_iff.1 hc))).append (HasLayout.packS8 h3)).append hz).congr ?_
  simp only [SystemFile.fields, EngineeringModeFile.table, Table.fields_append, ChannelID.table_fields]
  cases f.mode <;> rfl

theorem DllConfigFile.layout {f : DllConfigFile} (h : f.Built) (hf : f.Fits) :
    HasLayout f.iter f.table.fields := by
  obtain ⟨h1, -⟩ := validate_eq_ok.1 h
  exact (((((HasLayout.int h1).append (HasLayout.u16 (v := 0) (by decide))).append
    (HasLayout.int hf.1)).append (HasLayout.int hf.2.1)).append (HasLayout.int hf.2.2.1)).append
    (HasLayout.int hf.2.2.2)

theorem DllStatusFile.layout {f : DllStatusFile} (h : f.Built) : HasLayout f.iter f.table.fields := by
  obtain ⟨⟨h1, h2, h3, h4, h5, h6, h7⟩, -⟩ := validate_eq_ok.1 h
  refine ((((((((HasLayout.int h1).append (HasLayout.int h2)).append (HasLayout.int h3)).append
    (ChannelHeader.layout _)).append (HasLayout.u16 h4)).append (HasLayout.u16 h5)).append
    (HasLayout.u32 h6)).append (HasLayout.u32 h7)).congr ?_
  simp only [DllStatusFile.table, Table.fields_append, ChannelHeader.table_fields]
  simp [Table.fields]

theorem PhyStatusFile.layout {f : PhyStatusFile} (h : f.Ok) (hf : f.Fits) :
    HasLayout f.iter (SystemFile.phyStatus f).fields := by
  obtain ⟨hv, h1, h2, h3⟩ := h
  obtain ⟨v1, v2, v3, v4, v5, v6, v7⟩ := hv
  simp only [iter, iterChannel_range f _ h1 h2]
  simp only [SystemFile.fields, PhyStatusFile.table, Table.fields_append, Table.fields_flatMap]
  refine HasLayout.append ?_ (HasLayout.concat ?_)
  · exact ((((HasLayout.u32 v1).append (HasLayout.u32 v2)).append (HasLayout.u32 v3)).append
      (HasLayout.u16 ⟨v4.1, by have := v4.2; omega⟩)).append (HasLayout.int v5)
  · rintro ⟨i, v⟩ hx
    have hi := List.of_mem_zip hx
    simp only [ChannelStatusIdentifier.table_fields]
    exact (ChannelStatusIdentifier.layout (h3 i (List.mem_of_mem_take hi.1))).append (HasLayout.int (hf v hi.2))

theorem FactorySettingsFile.layout {f : FactorySettingsFile} (h : f.Valid) (hf : f.Fits) :
    HasLayout f.iter (f.table f.rssiSmoothing).fields := by
  obtain ⟨v1, v2, v3, v4, v5, v6, v7, v8, v9, v10, v11, v12, v13, v14, v15, v16, v17, v18, v19, v20,
    v21, v22⟩ := h
  obtain ⟨f1, f2, f3, f4, f5⟩ := hf
  have g : isByte f.gain := ⟨f1, by have := v1.2; omega⟩
  have e : f.gain % 256 = f.gain := Int.emod_eq_of_lt f1 (by have := v1.2; omega)
  simp only [FactorySettingsFile.iter, Gen.append_assoc]
  refine HasLayout.congr ((HasLayout.int g).append <| (HasLayout.u32 v2).append <| (HasLayout.u32 v3).append <|
    (HasLayout.u32 v4).append <| (HasLayout.u32 v5).append <| (HasLayout.u32 v6).append <|
    (HasLayout.u32 v7).append <| (HasLayout.u32 v8).append <| (HasLayout.u32 v9).append <|
    (HasLayout.u32 v10).append <| (HasLayout.int v11).append <| (HasLayout.int v12).append <|
    (HasLayout.int v13).append <| (HasLayout.int v14).append <| (HasLayout.int v15).append <|
    (HasLayout.int v16).append <| (HasLayout.int f3).append <| (HasLayout.int f4).append <|
    (HasLayout.int f5).append <| (HasLayout.int v17).append <|
    (HasLayout.int ⟨f2, by have := v18.2; omega⟩).append <| (HasLayout.u32 v19).append <|
    (HasLayout.int ⟨by have := v20.1; omega, by have := v20.2; omega⟩).append <|
    (HasLayout.int ⟨v21.1, by have := v21.2; omega⟩).append (HasLayout.u16 v22)) ?_
  simp [Table.fields, FactorySettingsFile.table, signedInt, e]

theorem IfaceConfig.layout {c : IfaceConfig} {bs : List UInt8} (h : ∀ d, c = .d7asp d → d.Built)
    (e : Emits c.iter bs) : HasLayout c.iter c.fields := by
  cases c with
  | d7asp c => exact Configuration.layout (Configuration.built_iff.1 (h c rfl))
  | abp c => exact LoRaWANABP.layout (LoRaWANABP.inRange_of_emits e)
  | otaa c => exact LoRaWANOTAA.layout (LoRaWANOTAA.inRange_of_emits e)

theorem InterfaceConfiguration.layout {c : InterfaceConfiguration} {bs : List UInt8}
    (h : ∀ d, c.config = some (.d7asp d) → d.Built) (e : Emits c.iter bs) : HasLayout c.iter c.fields := by
  obtain ⟨a, b, -, hb, -⟩ := e.append_inv
  have h1 : HasLayout (.int c.interfaceId.value) [(8, c.interfaceId.code)] := by
    refine HasLayout.byte ?_
    cases c.interfaceId <;> decide
  refine h1.append ?_
  cases hc : c.config with
  | none => exact HasLayout.nil
  | some x =>
    rw [hc] at hb
    exact IfaceConfig.layout (fun d hd => h d (by rw [hc, hd])) hb

theorem isBytes_of_emits {l : List Int} {bs : List UInt8} (e : Emits (.concat (l.map Gen.int)) bs) :
    isBytes l := by
  have := SerIff.concat Gen.int isByte l fun x _ => SerIff.int x
  exact this.1.1 ⟨bs, e⟩

theorem SystemFile.layout {f : SystemFile} {bs : List UInt8} (h : f.Built) (e : Emits f.iter bs) :
    HasLayout f.iter f.fields := by
  cases f with
  | uid f => exact UidFile.layout h
  | factorySettings f =>
    have hv := FactorySettingsFile.built_valid h
    exact FactorySettingsFile.layout hv ((FactorySettingsFile.serIff hv).1.1 ⟨bs, e⟩)
  | firmwareVersion f =>
    have := (FirmwareVersionFile.serIff h).1.1 ⟨bs, e⟩
    exact FirmwareVersionFile.layout h this.1 this.2
  | engineeringMode f => exact EngineeringModeFile.layout h
  | vid f => exact VidFile.layout h
  | phyStatus f =>
    have ho := PhyStatusFile.built_iff.1 h
    exact PhyStatusFile.layout ho ((PhyStatusFile.serIff ho).1.1 ⟨bs, e⟩)
  | dllConfig f => exact DllConfigFile.layout h ((DllConfigFile.serIff h).1.1 ⟨bs, e⟩)
  | dllStatus f => exact DllStatusFile.layout h
  | securityKey f => exact HasLayout.key (validate_eq_ok.1 h).1.1
  | rootKey f =>
    exact ((HasLayout.key (validate_eq_ok.1 h).1.1).append (HasLayout.zeros 24)).congr
      (by rw [SystemFile.fields, Table.fields_append]; rfl)
  | userKey f =>
    exact ((HasLayout.key (validate_eq_ok.1 h).1.1).append (HasLayout.zeros 24)).congr
      (by rw [SystemFile.fields, Table.fields_append]; rfl)
  | accessProfile f =>
    obtain ⟨s, p⟩ := f
    cases p with
    | none => exact e.raise_inv.elim
    | some p => exact AccessProfile.layout (AccessProfile.built_iff.1 (h.2 p rfl))
  | interfaceConfiguration f => exact InterfaceConfiguration.layout h e
  | notImplemented f => exact HasLayout.ints (isBytes_of_emits e)

theorem Operation.op_eq (o : Operation) : o.op = (o.code : Int) := by cases o <;> rfl

theorem Operation.code_mem (o : Operation) :
    o.code ∈ [0, 1, 2, 4, 6, 9, 17, 32, 33, 34, 35, 50, 51, 52] := by
  cases o <;> simp [Operation.code]

theorem headerByte_layout (b7 b6 : Bool) (o : Operation) :
    HasLayout (.int (Action.headerByte b7 b6 o.op)) [flag b7, flag b6, (6, o.code)] := by
  have key : ∀ b7 b6 : Bool, ∀ c ∈ [0, 1, 2, 4, 6, 9, 17, 32, 33, 34, 35, 50, 51, 52],
      0 ≤ Action.headerByte b7 b6 (c : Nat) ∧ Action.headerByte b7 b6 (c : Nat) ≤ 255 ∧
      bitsOf 8 (Action.headerByte b7 b6 (c : Nat)).toNat = fieldBits [flag b7, flag b6, (6, c)] ∧
      ∀ f ∈ [flag b7, flag b6, (6, c)], f.2 < 2 ^ f.1 := by decide
  rw [o.op_eq]
  exact HasLayout.byte (key b7 b6 _ o.code_mem)

theorem Operation.layout {o : Operation} {bs : List UInt8} (h : o.Built) (e : Emits o.iter bs) :
    HasLayout o.iter o.fields := by
  cases o with
  | nop => exact HasLayout.nil
  | readFileData o => exact DataRequest.layout (DataRequest.built_iff.1 h)
  | readFileHeader o => exact HasLayout.int (validate_eq_ok.1 h).1
  | writeFileData o =>
    have ho := Data.built_iff.1 h
    have : o.length.value = 0 ↔ o.data = [] := by rw [ho.2.1]; simp
    simp only [Operation.iter, Operation.fields, this]
    split_ifs
    · exact HasLayout.nil
    · exact Data.layout ho
  | writeFileHeader o => exact FileHeaderOperand.layout (FileHeaderOperand.built_iff.1 h)
  | breakQuery o => exact QueryOperand.layout (QueryOperand.built_iff.1 h)
  | createNewFile o => exact FileHeaderOperand.layout (FileHeaderOperand.built_iff.1 h)
  | returnFileData o =>
    have ho := Data.built_iff.1 h
    have : o.length.value = 0 ↔ o.data = [] := by rw [ho.2.1]; simp
    simp only [Operation.iter, Operation.fields, this]
    split_ifs
    · exact HasLayout.nil
    · exact Data.layout ho
  | returnFileHeader o => exact FileHeaderOperand.layout (FileHeaderOperand.built_iff.1 h)
  | interfaceStatus o =>
    obtain ⟨i, s⟩ := o
    obtain ⟨-, b, -, hb, -⟩ := e.append_inv
    cases s with
    | none => exact hb.raise_inv.elim
    | some s =>
      exact (HasLayout.int (validate_eq_ok.1 h.1).1).append (Status.layout (Status.built_iff.1 (h.2 s rfl)))
  | tagResponse o => exact HasLayout.int (validate_eq_ok.1 h).1
  | forward o => exact InterfaceConfiguration.layout h e
  | indirectForward o =>
    obtain ⟨i, a⟩ := o
    refine (HasLayout.int (validate_eq_ok.1 h.1).1).append ?_
    cases a with
    | none => exact HasLayout.nil
    | some a => exact Addressee.layout (Addressee.built_iff.1 (h.2 a rfl))
  | tagRequest o => exact HasLayout.int (validate_eq_ok.1 h).1

theorem Action.layout {a : Action} {bs : List UInt8} (h : a.Built) (e : Emits a.iter bs) :
    HasLayout a.iter a.fields := by
  obtain ⟨ho, h⟩ := h
  cases a with
  | regular g r o =>
    obtain ⟨-, b, -, hb, -⟩ := e.append_inv
    exact (headerByte_layout g r o).append (Operation.layout ho hb)
  | forward r o => exact e.raise_inv.elim
  | indirectForward v r o =>
    obtain ⟨-, b, -, hb, -⟩ := e.append_inv
    exact (headerByte_layout v r o).append (Operation.layout ho hb)
  | status x o =>
    obtain ⟨-, b, -, hb, -⟩ := e.append_inv
    refine HasLayout.append ?_ (Operation.layout ho hb)
    rcases h with rfl | rfl
    · exact (headerByte_layout false false o).congr rfl
    · have : Int.lor 0 ((1 : Int) <<ₚ 6) + o.op = Action.headerByte false true o.op := rfl
      rw [this]
      exact (headerByte_layout false true o).congr rfl
  | tagRequest r o =>
    obtain ⟨-, b, -, hb, -⟩ := e.append_inv
    exact (headerByte_layout r false o).append (Operation.layout ho hb)
  | tagResponse x y o =>
    obtain ⟨-, b, -, hb, -⟩ := e.append_inv
    exact (headerByte_layout x y o).append (Operation.layout ho hb)
  | base o => exact e.raise_inv.elim

end Verif
