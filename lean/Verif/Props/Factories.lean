import Verif.Props.Serialise
import Verif.Props.Codecs

/-! C23: the `Command.create_with_*` factories. -/

namespace Verif

/-- The configuration given to a factory fits the interface. -/
def FitsInterface : InterfaceType → Option IfaceConfig → Prop
  | .HOST, cfg => cfg = none
  | .SERIAL, _ => True
  | .D7ASP, none => True
  | .D7ASP, some (.d7asp c) => c.Built
  | .LORAWAN_ABP, none => True
  | .LORAWAN_ABP, some (.abp c) =>
    (0 ≤ c.appPort ∧ c.appPort ≤ 255) ∧ (0 ≤ c.dataRate ∧ c.dataRate ≤ 255) ∧
    (0 ≤ c.devAddr ∧ c.devAddr < 2 ^ 32) ∧ (0 ≤ c.netwId ∧ c.netwId < 2 ^ 32)
  | .LORAWAN_OTAA, none => True
  | .LORAWAN_OTAA, some (.otaa c) =>
    (0 ≤ c.appPort ∧ c.appPort ≤ 255) ∧ (0 ≤ c.dataRate ∧ c.dataRate ≤ 255)
  | _, _ => False

/-- The forward header: nothing for the host itself, otherwise opcode 0x32, the interface id, and
the configuration. The default D7ASP configuration is: QoS 0, dormant timeout 0, addressee NOID with
access class 0. -/
def forwardFields : InterfaceType → Option IfaceConfig → List (Nat × Nat)
  | .HOST, _ => []
  | .SERIAL, _ => [(8, 0x32), (8, 0x01)]
  | .D7ASP, none => [(8, 0x32), (8, 0xD7), (8, 0), (8, 0), (8, 0x10), (8, 0)]
  | .D7ASP, some (.d7asp c) => [(8, 0x32), (8, 0xD7)] ++ c.fields
  | .LORAWAN_ABP, some (.abp c) => [(8, 0x32), (8, 0x02)] ++ c.fields
  | .LORAWAN_ABP, _ => [(8, 0x32), (8, 0x02)]
  | .LORAWAN_OTAA, some (.otaa c) => [(8, 0x32), (8, 0x03)] ++ c.fields
  | .LORAWAN_OTAA, _ => [(8, 0x32), (8, 0x03)]
  | .D7ASP, _ => []

/-- The tag request in front of the command. -/
def tagFields (tag : Nat) : List (Nat × Nat) := [(8, 0xB4), (8, tag)]

theorem Command.addAction_layout {c : Command} {a : Action} {f g : List (Nat × Nat)}
    (h : HasLayout c.iter f) (ha : HasLayout a.iter g) : HasLayout (c.addAction a).iter (f ++ g) := by
  obtain ⟨bs, e, l, r⟩ := h
  obtain ⟨bs', e', l', r'⟩ := ha
  refine ⟨_, C22_add_action c a _ _ e e', by rw [bytesToBits_append, l, l', fieldBits_append], ?_⟩
  intro x hx
  rcases List.mem_append.1 hx with hx | hx
  · exact r x hx
  · exact r' x hx

private theorem tag_layout (c : Command) (t : Nat) (ht : t ≤ 255)
    (h1 : c.actions = []) (h2 : c.interfaceStatus = none) (h3 : c.generateTagRequestAction = true)
    (h4 : c.tagId = some (t : Int)) (h5 : c.sendTagResponseWhenCompleted = true) :
    HasLayout c.iter (tagFields t) := by
  refine ⟨[0xB4, UInt8.ofNat t], ?_, ?_, ?_⟩
  · rw [C22_bytes]
    refine ⟨[0xB4, UInt8.ofNat t], [], [], ?_, by simp [h2], fun _ => rfl, by rw [h1]; exact .nil,
      by simp⟩
    simp [Command.tagBytes, h3, h4, h5, ht]
  · simp only [bytesToBits_cons, bytesToBits_nil, tagFields, fieldBits_cons, fieldBits_nil]
    rw [ofNat_toNat_u8 (by omega)]
    rfl
  · intro f hf
    simp only [tagFields, List.mem_cons, List.not_mem_nil, or_false] at hf
    rcases hf with rfl | rfl
    · decide
    · simp only; omega

theorem opcode_layout {op : Int} (h : 0 ≤ op ∧ op ≤ 63) {g : Gen} {f : List (Nat × Nat)}
    (hg : HasLayout g f) :
    HasLayout (.int (Action.headerByte false false op) ++ g) ((8, op.toNat) :: f) := by
  have : Action.headerByte false false op = op := by simp [Action.headerByte]
  rw [this]
  exact HasLayout.append (HasLayout.int ⟨h.1, by omega⟩) hg

theorem Command.forward_layout {c : Command} {f : List (Nat × Nat)} (h : HasLayout c.iter f)
    (t : InterfaceType) (cfg : Option IfaceConfig) (hf : FitsInterface t cfg) :
    ∃ c', c.addForwardAction t cfg = .ok c' ∧ HasLayout c'.iter (f ++ forwardFields t cfg) := by
  have two : ∀ (t : InterfaceType) (x : Option IfaceConfig) (g : List (Nat × Nat)),
      HasLayout (match (⟨t, x⟩ : InterfaceConfiguration).config with
        | some x => x.iter
        | none => .nil) g →
      HasLayout (Action.regular false false (.forward ⟨t, x⟩)).iter
        ([(8, 0x32), (8, t.value.toNat)] ++ g) := by
    intro t x g hg
    have ht : isByte t.value := by cases t <;> decide
    exact opcode_layout (op := 50) (by decide) (HasLayout.append (HasLayout.int ht) hg)
  have add : ∀ (t : InterfaceType) (x : Option IfaceConfig) (g g' : List (Nat × Nat)),
      HasLayout (Action.regular false false (.forward ⟨t, x⟩)).iter g → g = g' →
      HasLayout (c.addAction (.regular false false (.forward ⟨t, x⟩))).iter (f ++ g') := by
    rintro t x g _ hg rfl
    exact Command.addAction_layout h hg
  have run : ∀ (t : InterfaceType) (cfg : Option IfaceConfig), t ≠ .HOST →
      c.addForwardAction t cfg = .ok (c.addAction (.regular false false (.forward ⟨t,
        match t, cfg with
        | .D7ASP, none => some (.d7asp .default)
        | .SERIAL, _ => none
        | _, x => x⟩))) := by
    intro t cfg ht
    unfold Command.addForwardAction
    rw [if_neg (fun h => ht h.2)]
    cases t
    · exact absurd rfl ht
    all_goals cases cfg <;> rfl
  cases t with
  | HOST =>
    have : cfg = none := hf
    subst this
    exact ⟨c, rfl, by simpa [forwardFields] using h⟩
  | SERIAL =>
    refine ⟨_, run _ _ (by decide), ?_⟩
    refine add _ _ _ _ (two .SERIAL none [] HasLayout.nil) ?_
    rfl
  | D7ASP =>
    rcases cfg with _ | x | x | x
    · refine ⟨_, run _ _ (by decide), ?_⟩
      refine add .D7ASP (some (.d7asp .default)) [(8, 0x32), (8, 0xD7), (8, 0), (8, 0), (8, 0x10),
        (8, 0)] _ ⟨[0x32, 0xD7, 0, 0, 0x10, 0], by decide, by decide, by decide⟩ rfl
    · refine ⟨_, run _ _ (by decide), ?_⟩
      exact add .D7ASP (some (.d7asp x)) _ _ (two .D7ASP (some (.d7asp x)) _
        (Configuration.layout (Configuration.built_iff.1 hf))) rfl
    · exact False.elim hf
    · exact False.elim hf
  | LORAWAN_ABP =>
    rcases cfg with _ | x | x | x
    · refine ⟨_, run _ _ (by decide), ?_⟩
      exact add .LORAWAN_ABP none _ _ (two .LORAWAN_ABP none [] HasLayout.nil) rfl
    · exact False.elim hf
    · refine ⟨_, run _ _ (by decide), ?_⟩
      exact add .LORAWAN_ABP (some (.abp x)) _ _ (two .LORAWAN_ABP (some (.abp x)) _
        (LoRaWANABP.layout hf)) rfl
    · exact False.elim hf
  | LORAWAN_OTAA =>
    rcases cfg with _ | x | x | x
    · refine ⟨_, run _ _ (by decide), ?_⟩
      exact add .LORAWAN_OTAA none _ _ (two .LORAWAN_OTAA none [] HasLayout.nil) rfl
    · exact False.elim hf
    · exact False.elim hf
    · refine ⟨_, run _ _ (by decide), ?_⟩
      exact add .LORAWAN_OTAA (some (.otaa x)) _ _ (two .LORAWAN_OTAA (some (.otaa x)) _
        (LoRaWANOTAA.layout hf)) rfl

theorem Command.empty_layout (rand : UInt8) :
    HasLayout (Command.empty rand).iter (tagFields rand.toNat) :=
  tag_layout _ _ (by have := rand.toNat_lt; omega) rfl rfl rfl rfl rfl

private theorem offset_cases (fileId offset : Int) :
    (((0 ≤ fileId ∧ fileId ≤ 255) ∧ (0 ≤ offset ∧ offset ≤ 0x3FFFFFFF)) ∧
      (do let l ← Length.new offset; Offset.new fileId l) = .ok ⟨fileId, ⟨offset⟩⟩ ∧
      (⟨fileId, ⟨offset⟩⟩ : Offset).Ok) ∨
    (¬ ((0 ≤ fileId ∧ fileId ≤ 255) ∧ (0 ≤ offset ∧ offset ≤ 0x3FFFFFFF)) ∧
      (do let l ← Length.new offset; Offset.new fileId l) = .error .valueError) := by
  by_cases h1 : 0 ≤ offset ∧ offset ≤ 0x3FFFFFFF
  · have e1 : Length.new offset = .ok ⟨offset⟩ := validate_of h1
    rw [e1]
    by_cases h2 : 0 ≤ fileId ∧ fileId ≤ 255
    · exact .inl ⟨⟨h2, h1⟩, validate_of h2, h2, h1⟩
    · exact .inr ⟨fun h => h2 h.1, validate_eq_error.2 ⟨h2, rfl⟩⟩
  · have e1 : Length.new offset = .error .valueError := validate_eq_error.2 ⟨h1, rfl⟩
    rw [e1]
    exact .inr ⟨fun h => h1 h.2, rfl⟩

/-- C23: reading file data. For all arguments: out of range raises ValueError, in range gives
exactly these bytes. -/
theorem C23_read_file (rand : UInt8) (fileId length offset : Int) (t : InterfaceType)
    (cfg : Option IfaceConfig) (hf : FitsInterface t cfg) :
    let ok := ((0 ≤ fileId ∧ fileId ≤ 255) ∧ (0 ≤ offset ∧ offset ≤ 0x3FFFFFFF)) ∧
      (0 ≤ length ∧ length ≤ 0x3FFFFFFF)
    (ok → ∃ c, Command.createWithReadFileAction rand fileId length offset t cfg = .ok c ∧
      HasLayout c.iter (tagFields rand.toNat ++ forwardFields t cfg ++
        [(8, 0x01), (8, fileId.toNat)] ++ Length.fields ⟨offset⟩ ++ Length.fields ⟨length⟩)) ∧
    (¬ ok → Command.createWithReadFileAction rand fileId length offset t cfg =
      .error .valueError) := by
  obtain ⟨c', e, hl⟩ := Command.forward_layout (Command.empty_layout rand) t cfg hf
  have unf : Command.createWithReadFileAction rand fileId length offset t cfg = (do
      let o ← (do let l ← Length.new offset; Offset.new fileId l)
      let d ← DataRequest.new length o
      return c'.addAction (.regular false false (.readFileData d))) := by
    unfold Command.createWithReadFileAction
    rw [e]
    simp only [bind, Except.bind]
    cases Length.new offset <;> rfl
  rw [unf]
  rcases offset_cases fileId offset with ⟨h, eo, ho⟩ | ⟨h, eo⟩
  · rw [eo]
    have hacc := C12_data_request_accepts length ⟨fileId, ⟨offset⟩⟩
    refine ⟨fun hk => ?_, fun hk => ?_⟩
    · have hd : DataRequest.new length ⟨fileId, ⟨offset⟩⟩ = .ok ⟨⟨fileId, ⟨offset⟩⟩, ⟨length⟩⟩ := by
        unfold DataRequest.new Length.new
        rw [validate_of hk.2]; rfl
      simp only [bind, Except.bind, hd, pure, Except.pure]
      refine ⟨_, rfl, ?_⟩
      have := Command.addAction_layout hl (a := .regular false false (.readFileData
        ⟨⟨fileId, ⟨offset⟩⟩, ⟨length⟩⟩)) (opcode_layout (op := 1) (by decide)
        (DataRequest.layout (d := ⟨⟨fileId, ⟨offset⟩⟩, ⟨length⟩⟩) ⟨ho, hk.2⟩))
      simpa [DataRequest.fields, Offset.fields] using this
    · simp only [bind, Except.bind]
      rw [hacc.2 (fun hx => hk ⟨h, hx⟩)]
  · rw [eo]
    exact ⟨fun hk => absurd hk.1 h, fun _ => rfl⟩

example : Command.createWithReadFileAction 9 0x40 8 (-1) .HOST none = .error .valueError :=
  (C23_read_file 9 0x40 8 (-1) .HOST none rfl).2 (by decide)

theorem Data.new_layout {fileId offset : Int} {data : List Int}
    (ho : (⟨fileId, ⟨offset⟩⟩ : Offset).Ok)
    (hd : data.length ≤ 0x3FFFFFFF ∧ ∀ x ∈ data, 0 ≤ x ∧ x ≤ 255) :
    Data.new data ⟨fileId, ⟨offset⟩⟩ = .ok ⟨⟨fileId, ⟨offset⟩⟩, ⟨data.length⟩, data⟩ ∧
    HasLayout (Data.iter ⟨⟨fileId, ⟨offset⟩⟩, ⟨data.length⟩, data⟩)
      ([(8, fileId.toNat)] ++ Length.fields ⟨offset⟩ ++ Length.fields ⟨data.length⟩ ++
        byteFields data) := by
  have hn := Data.new_ok (o := ⟨fileId, ⟨offset⟩⟩) (data := data) (by omega) hd.2
  refine ⟨hn, ?_⟩
  have hok : Data.Ok ⟨⟨fileId, ⟨offset⟩⟩, ⟨data.length⟩, data⟩ :=
    Data.built_iff.1 ⟨hn, Offset.built_iff.2 ho⟩
  have := Data.layout hok
  simpa [Data.fields, Offset.fields] using this

/-- C23: writing file data, for non-empty data. For empty data the claim is false, see
`C23_write_file_empty`. -/
theorem C23_write_file_partial (rand : UInt8) (fileId : Int) (data : List Int) (offset : Int)
    (t : InterfaceType) (cfg : Option IfaceConfig) (hf : FitsInterface t cfg) (hne : data ≠ []) :
    let ok := ((0 ≤ fileId ∧ fileId ≤ 255) ∧ (0 ≤ offset ∧ offset ≤ 0x3FFFFFFF)) ∧
      (data.length ≤ 0x3FFFFFFF ∧ ∀ x ∈ data, 0 ≤ x ∧ x ≤ 255)
    (ok → ∃ c, Command.createWithWriteFileAction rand fileId data offset t cfg = .ok c ∧
      HasLayout c.iter (tagFields rand.toNat ++ forwardFields t cfg ++ [(8, 0x04)] ++
        [(8, fileId.toNat)] ++ Length.fields ⟨offset⟩ ++ Length.fields ⟨data.length⟩ ++
        byteFields data)) ∧
    (¬ ok → Command.createWithWriteFileAction rand fileId data offset t cfg =
      .error .valueError) := by
  obtain ⟨c', e, hl⟩ := Command.forward_layout (Command.empty_layout rand) t cfg hf
  have unf : Command.createWithWriteFileAction rand fileId data offset t cfg = (do
      let o ← (do let l ← Length.new offset; Offset.new fileId l)
      let d ← Data.new data o
      return c'.addAction (.regular false false (.writeFileData d))) := by
    unfold Command.createWithWriteFileAction
    rw [e]
    simp only [bind, Except.bind]
    cases Length.new offset <;> rfl
  rw [unf]
  have hlen : data.length ≠ 0 := fun h => hne (List.length_eq_zero_iff.1 h)
  rcases offset_cases fileId offset with ⟨h, eo, ho⟩ | ⟨h, eo⟩
  · rw [eo]
    have hacc := C12_data_accepts data ⟨fileId, ⟨offset⟩⟩
    refine ⟨fun hk => ?_, fun hk => ?_⟩
    · obtain ⟨hd, hlay⟩ := Data.new_layout ho hk.2
      simp only [bind, Except.bind, hd, pure, Except.pure]
      refine ⟨_, rfl, ?_⟩
      have hi : (Operation.writeFileData ⟨⟨fileId, ⟨offset⟩⟩, ⟨data.length⟩, data⟩).iter =
          Data.iter ⟨⟨fileId, ⟨offset⟩⟩, ⟨data.length⟩, data⟩ := by
        simp only [Operation.iter]
        rw [if_neg (by omega)]
      have := Command.addAction_layout hl (a := .regular false false (.writeFileData
        ⟨⟨fileId, ⟨offset⟩⟩, ⟨data.length⟩, data⟩)) (by
          have := opcode_layout (op := 4) (by decide) hlay
          rw [← hi] at this
          exact this)
      simpa using this
    · simp only [bind, Except.bind]
      rw [hacc.2 (fun hx => hk ⟨h, hx⟩)]
  · rw [eo]
    exact ⟨fun hk => absurd hk.1 h, fun _ => rfl⟩

example : Command.createWithWriteFileAction 9 0x40 [1, 256] 0 .HOST none = .error .valueError :=
  (C23_write_file_partial 9 0x40 [1, 256] 0 .HOST none rfl (by decide)).2 (by decide)

/-- C23 is false for empty data: only the opcode is sent, without file id, offset and length. -/
theorem C23_write_file_empty (rand : UInt8) (fileId offset : Int)
    (h : (0 ≤ fileId ∧ fileId ≤ 255) ∧ (0 ≤ offset ∧ offset ≤ 0x3FFFFFFF)) :
    ∃ c, Command.createWithWriteFileAction rand fileId [] offset .HOST none = .ok c ∧
      HasLayout c.iter (tagFields rand.toNat ++ [(8, 0x04)]) := by
  obtain ⟨c', e, hl⟩ := Command.forward_layout (Command.empty_layout rand) .HOST none rfl
  have e1 : Length.new offset = .ok ⟨offset⟩ := validate_of h.2
  have e2 : Offset.new fileId ⟨offset⟩ = .ok ⟨fileId, ⟨offset⟩⟩ := validate_of h.1
  have e3 : Data.new [] ⟨fileId, ⟨offset⟩⟩ = .ok ⟨⟨fileId, ⟨offset⟩⟩, ⟨0⟩, []⟩ := by
    simpa using Data.new_ok (o := ⟨fileId, ⟨offset⟩⟩) (data := []) (by simp) (by simp [isBytes])
  refine ⟨c'.addAction (.regular false false (.writeFileData ⟨⟨fileId, ⟨offset⟩⟩, ⟨0⟩, []⟩)), ?_, ?_⟩
  · unfold Command.createWithWriteFileAction
    rw [e]
    simp only [bind, Except.bind, e1, e2, e3, pure, Except.pure]
  · have := Command.addAction_layout hl (a := .regular false false
      (.writeFileData ⟨⟨fileId, ⟨offset⟩⟩, ⟨0⟩, []⟩)) (opcode_layout (op := 4) (by decide) HasLayout.nil)
    simpa [forwardFields] using this

example : ∃ c, Command.createWithWriteFileAction 9 0x40 [] 0 .HOST none = .ok c ∧
    bytearray c.iter = .ok [0xB4, 9, 4] := ⟨_, rfl, by decide⟩

/-- C23: returning file data (non-empty), with an explicit tag or a random one. -/
theorem C23_return_file_partial (rand : UInt8) (fileId : Int) (data : List Int) (offset : Int)
    (tag : Option Int) (t : InterfaceType) (cfg : Option IfaceConfig) (hf : FitsInterface t cfg)
    (htag : ∀ x, tag = some x → 0 ≤ x ∧ x ≤ 255) (hne : data ≠ []) :
    let ok := ((0 ≤ fileId ∧ fileId ≤ 255) ∧ (0 ≤ offset ∧ offset ≤ 0x3FFFFFFF)) ∧
      (data.length ≤ 0x3FFFFFFF ∧ ∀ x ∈ data, 0 ≤ x ∧ x ≤ 255)
    (ok → ∃ c, Command.createWithReturnFileDataAction rand fileId data offset tag t cfg = .ok c ∧
      HasLayout c.iter (tagFields (match tag with | some x => x.toNat | none => rand.toNat) ++
        forwardFields t cfg ++ [(8, 0x20)] ++
        [(8, fileId.toNat)] ++ Length.fields ⟨offset⟩ ++ Length.fields ⟨data.length⟩ ++
        byteFields data)) ∧
    (¬ ok → Command.createWithReturnFileDataAction rand fileId data offset tag t cfg =
      .error .valueError) := by
  obtain ⟨c0, e0, hl0⟩ : ∃ c0, Command.new [] true tag true rand = .ok c0 ∧
      HasLayout c0.iter (tagFields (match tag with | some x => x.toNat | none => rand.toNat)) := by
    refine ⟨_, rfl, ?_⟩
    cases tag with
    | none => exact tag_layout _ _ (by have := rand.toNat_lt; simp only; omega) rfl rfl rfl rfl rfl
    | some x =>
      have := htag x rfl
      exact tag_layout _ _ (by simp only; omega) rfl rfl rfl
        (by simp [Int.toNat_of_nonneg this.1]) rfl
  obtain ⟨c', e, hl⟩ := Command.forward_layout hl0 t cfg hf
  have unf : Command.createWithReturnFileDataAction rand fileId data offset tag t cfg = (do
      let o ← (do let l ← Length.new offset; Offset.new fileId l)
      let d ← Data.new data o
      return c'.addAction (.regular false false (.returnFileData d))) := by
    unfold Command.createWithReturnFileDataAction
    rw [e0]
    simp only [bind, Except.bind]
    rw [e]
    cases Length.new offset <;> rfl
  rw [unf]
  have hlen : data.length ≠ 0 := fun h => hne (List.length_eq_zero_iff.1 h)
  rcases offset_cases fileId offset with ⟨h, eo, ho⟩ | ⟨h, eo⟩
  · rw [eo]
    have hacc := C12_data_accepts data ⟨fileId, ⟨offset⟩⟩
    refine ⟨fun hk => ?_, fun hk => ?_⟩
    · obtain ⟨hd, hlay⟩ := Data.new_layout ho hk.2
      simp only [bind, Except.bind, hd, pure, Except.pure]
      refine ⟨_, rfl, ?_⟩
      have hi : (Operation.returnFileData ⟨⟨fileId, ⟨offset⟩⟩, ⟨data.length⟩, data⟩).iter =
          Data.iter ⟨⟨fileId, ⟨offset⟩⟩, ⟨data.length⟩, data⟩ := by
        simp only [Operation.iter]
        rw [if_neg (by omega)]
      have := Command.addAction_layout hl (a := .regular false false (.returnFileData
        ⟨⟨fileId, ⟨offset⟩⟩, ⟨data.length⟩, data⟩)) (by
          have := opcode_layout (op := 32) (by decide) hlay
          rw [← hi] at this
          exact this)
      simpa using this
    · simp only [bind, Except.bind]
      rw [hacc.2 (fun hx => hk ⟨h, hx⟩)]
  · rw [eo]
    exact ⟨fun hk => absurd hk.1 h, fun _ => rfl⟩

example : ∃ c, Command.createWithReturnFileDataAction 9 0x40 [1, 255] 0 (some 5) .SERIAL none = .ok c ∧
    bytearray c.iter = .ok [0xB4, 5, 0x32, 1, 0x20, 0x40, 0, 2, 1, 255] := ⟨_, rfl, by decide⟩

/-- C23: reading a file header. -/
theorem C23_read_file_header (rand : UInt8) (fileId : Int) (t : InterfaceType)
    (cfg : Option IfaceConfig) (hf : FitsInterface t cfg) :
    (0 ≤ fileId ∧ fileId ≤ 255 → ∃ c, Command.createWithReadFileHeader rand fileId t cfg = .ok c ∧
      HasLayout c.iter (tagFields rand.toNat ++ forwardFields t cfg ++
        [(8, 0x02), (8, fileId.toNat)])) ∧
    (¬ (0 ≤ fileId ∧ fileId ≤ 255) → Command.createWithReadFileHeader rand fileId t cfg =
      .error .valueError) := by
  obtain ⟨c', e, hl⟩ := Command.forward_layout (Command.empty_layout rand) t cfg hf
  unfold Command.createWithReadFileHeader
  rw [e]
  simp only [bind, Except.bind]
  refine ⟨fun h => ?_, fun h => ?_⟩
  · have : FileIdOperand.new fileId = .ok ⟨fileId⟩ := validate_of h
    rw [this]
    refine ⟨_, rfl, Command.addAction_layout hl (opcode_layout (op := 2) (by decide) (f := [(8, fileId.toNat)]) ?_)⟩
    exact HasLayout.int h
  · have : FileIdOperand.new fileId = .error .valueError := validate_eq_error.2 ⟨h, rfl⟩
    rw [this]

example : ∃ c, Command.createWithReadFileHeader 9 0x40 .HOST none = .ok c ∧ bytearray c.iter = .ok [0xB4, 9, 2, 0x40] :=
  ⟨_, rfl, by decide⟩

private theorem header_layout {fileId : Int} {h : FileHeader} (hb : h.Built)
    (hi : 0 ≤ fileId ∧ fileId ≤ 255) :
    FileHeaderOperand.new fileId h = .ok ⟨fileId, h⟩ ∧
    HasLayout (FileHeaderOperand.iter ⟨fileId, h⟩) ((8, fileId.toNat) :: h.fields) := by
  have hn : FileHeaderOperand.new fileId h = .ok ⟨fileId, h⟩ := validate_of hi
  exact ⟨hn, FileHeaderOperand.layout (FileHeaderOperand.built_iff.1 ⟨hn, hb⟩)⟩

/-- C23: writing a file header. -/
theorem C23_write_file_header (rand : UInt8) (fileId : Int) (h : FileHeader) (hb : h.Built)
    (t : InterfaceType) (cfg : Option IfaceConfig) (hf : FitsInterface t cfg) :
    (0 ≤ fileId ∧ fileId ≤ 255 →
      ∃ c, Command.createWithWriteFileHeader rand fileId h t cfg = .ok c ∧
      HasLayout c.iter (tagFields rand.toNat ++ forwardFields t cfg ++
        ([(8, 0x06), (8, fileId.toNat)] ++ h.fields))) ∧
    (¬ (0 ≤ fileId ∧ fileId ≤ 255) → Command.createWithWriteFileHeader rand fileId h t cfg =
      .error .valueError) := by
  obtain ⟨c', e, hl⟩ := Command.forward_layout (Command.empty_layout rand) t cfg hf
  unfold Command.createWithWriteFileHeader
  rw [e]
  simp only [bind, Except.bind]
  refine ⟨fun hi => ?_, fun hi => ?_⟩
  · obtain ⟨hn, hlay⟩ := header_layout hb hi
    rw [hn]
    exact ⟨_, rfl, Command.addAction_layout hl (opcode_layout (op := 6) (by decide) hlay)⟩
  · have : FileHeaderOperand.new fileId h = .error .valueError := validate_eq_error.2 ⟨hi, rfl⟩
    rw [this]

example : FileHeader.Built ⟨⟨true, false, true, true, true, false, false, true⟩, ⟨false, .READ, .VOLATILE⟩, 1, 2,
    0xDEADBEEF, 0xFFFFFFFF⟩ := by decide

/-- C23: creating a file. -/
theorem C23_create_new_file (rand : UInt8) (fileId : Int) (h : FileHeader) (hb : h.Built)
    (t : InterfaceType) (cfg : Option IfaceConfig) (hf : FitsInterface t cfg) :
    (0 ≤ fileId ∧ fileId ≤ 255 →
      ∃ c, Command.createWithCreateNewFile rand fileId h t cfg = .ok c ∧
      HasLayout c.iter (tagFields rand.toNat ++ forwardFields t cfg ++
        ([(8, 0x11), (8, fileId.toNat)] ++ h.fields))) ∧
    (¬ (0 ≤ fileId ∧ fileId ≤ 255) → Command.createWithCreateNewFile rand fileId h t cfg =
      .error .valueError) := by
  obtain ⟨c', e, hl⟩ := Command.forward_layout (Command.empty_layout rand) t cfg hf
  unfold Command.createWithCreateNewFile
  rw [e]
  simp only [bind, Except.bind]
  refine ⟨fun hi => ?_, fun hi => ?_⟩
  · obtain ⟨hn, hlay⟩ := header_layout hb hi
    rw [hn]
    exact ⟨_, rfl, Command.addAction_layout hl (opcode_layout (op := 17) (by decide) hlay)⟩
  · have : FileHeaderOperand.new fileId h = .error .valueError := validate_eq_error.2 ⟨hi, rfl⟩
    rw [this]

example : ∃ c, Command.createWithCreateNewFile 9 0x40 ⟨⟨true, false, true, true, true, false, false, true⟩,
    ⟨false, .READ, .VOLATILE⟩, 1, 2, 0xDEADBEEF, 0xFFFFFFFF⟩ .HOST none = .ok c ∧
    bytearray c.iter = .ok [0xB4, 9, 0x11, 0x40, 0xB9, 0x11, 1, 2, 0xDE, 0xAD, 0xBE, 0xEF, 0xFF, 0xFF, 0xFF, 0xFF] :=
  ⟨_, rfl, by decide⟩

/-- C23: the host interface takes no configuration, whatever else is given. -/
theorem C23_host_configuration (rand : UInt8) (x : IfaceConfig) (fileId length offset : Int)
    (data : List Int) (tag : Option Int) (h : FileHeader) :
    Command.createWithReadFileAction rand fileId length offset .HOST (some x) = .error .valueError ∧
    Command.createWithWriteFileAction rand fileId data offset .HOST (some x) = .error .valueError ∧
    Command.createWithReturnFileDataAction rand fileId data offset tag .HOST (some x) =
      .error .valueError ∧
    Command.createWithReadFileHeader rand fileId .HOST (some x) = .error .valueError ∧
    Command.createWithWriteFileHeader rand fileId h .HOST (some x) = .error .valueError ∧
    Command.createWithCreateNewFile rand fileId h .HOST (some x) = .error .valueError :=
  ⟨rfl, rfl, rfl, rfl, rfl, rfl⟩

example : Command.createWithReadFileHeader 9 0x40 .HOST (some (.otaa ⟨false, true, 1, 2⟩)) = .error .valueError :=
  (C23_host_configuration 9 _ 0x40 0 0 [] none ⟨⟨true, false, true, true, true, false, false, true⟩,
    ⟨false, .READ, .VOLATILE⟩, 1, 2, 0, 0⟩).2.2.2.1

/-- C23: adding an indirect forward to any command appends opcode 0x33 (0xB3 with an overload
address), the interface file id, and the address. -/
theorem C23_indirect_forward (c : Command) (f : List (Nat × Nat)) (hl : HasLayout c.iter f)
    (fileId : Int) (cfg : Option Addressee) (ha : ∀ a, cfg = some a → a.Built) :
    (0 ≤ fileId ∧ fileId ≤ 255 → ∃ c', c.addIndirectForwardAction fileId cfg.isSome cfg = .ok c' ∧
      HasLayout c'.iter (f ++ ([(8, if cfg.isSome then 0xB3 else 0x33), (8, fileId.toNat)] ++
        match cfg with | some a => a.fields | none => []))) ∧
    (¬ (0 ≤ fileId ∧ fileId ≤ 255) → c.addIndirectForwardAction fileId cfg.isSome cfg =
      .error .valueError) := by
  unfold Command.addIndirectForwardAction
  have hc : (if cfg.isSome = true then cfg else none) = cfg := by cases cfg <;> rfl
  rw [hc]
  simp only [bind, Except.bind]
  refine ⟨fun hi => ?_, fun hi => ?_⟩
  · have hn : IndirectInterfaceOperand.new fileId cfg = .ok ⟨fileId, cfg⟩ := validate_of hi
    rw [hn]
    refine ⟨_, rfl, Command.addAction_layout hl ?_⟩
    have h1 : HasLayout (.int (Action.headerByte cfg.isSome false 51))
        [(8, if cfg.isSome then 0xB3 else 0x33)] := by
      cases cfg.isSome
      · exact HasLayout.int (i := 0x33) (by decide)
      · exact HasLayout.int (i := 0xB3) (by decide)
    have h2 : HasLayout (IndirectInterfaceOperand.iter ⟨fileId, cfg⟩) ([(8, fileId.toNat)] ++
        match cfg with | some a => a.fields | none => []) := by
      refine HasLayout.append (HasLayout.int hi) ?_
      cases cfg with
      | none => exact HasLayout.nil
      | some a => exact Addressee.layout (Addressee.built_iff.1 (ha a rfl))
    have := HasLayout.append h1 h2
    rwa [← List.append_assoc] at this
  · have hn : IndirectInterfaceOperand.new fileId cfg = .error .valueError :=
      validate_eq_error.2 ⟨hi, rfl⟩
    rw [hn]

example : ∃ c, Command.createWithReadFileAction 9 0x40 8 70 .D7ASP none = .ok c ∧
    bytearray c.iter = .ok [0xB4, 9, 0x32, 0xD7, 0, 0, 0x10, 0, 1, 0x40, 0x40, 70, 8] :=
  ⟨_, rfl, by decide⟩
example : FitsInterface .D7ASP (some (.d7asp
    ⟨⟨.ANY, .NO, false, true⟩, ⟨3, 4⟩, ⟨1, .VID, .int 0x1234, .NONE⟩⟩)) := by
  refine ⟨by decide, by decide, ?_⟩; intro c h; cases h
example : ∃ c, Command.createWithWriteFileAction 9 0x40 [1, 255] 0 .SERIAL none = .ok c ∧
    bytearray c.iter = .ok [0xB4, 9, 0x32, 1, 4, 0x40, 0, 2, 1, 255] := ⟨_, rfl, by decide⟩

end Verif
