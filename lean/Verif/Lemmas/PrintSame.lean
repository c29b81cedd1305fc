import Verif.Lemmas.PrintLines

/-! Helper lemmas for C62: objects with the same text. -/

namespace Verif.Print

open Verif

theorem addressee_congr {a b : Addressee} (h : SameAddressee a b) : addressee a = addressee b := by
  obtain ⟨h1, h2, h3⟩ := h
  unfold addressee
  rw [h1, h2, h3]

theorem addressee_same {a b : Addressee} {t : Text} (h : addressee a = .ok t) (h' : addressee b = .ok t) :
    SameAddressee a b := (addressee_append h h' (r := []) (r' := []) (by stops) (by stops) rfl).1

theorem status_congr {a b : Status} (h : SameStatus a b) : status a = status b := by
  obtain ⟨h1, h2, h3, h4, h5, h6, h7, h8, h9, h10, h11, h12⟩ := h
  unfold status
  rw [h1, h2, h3, h4, h5, h6, h7, h8, addressee_congr h9, h10, h11, h12]

theorem status_same {a b : Status} {t : Text} (h : status a = .ok t) (h' : status b = .ok t) :
    SameStatus a b := (status_append h h' (r := []) (r' := []) (by stops) (by stops) rfl).1

theorem fileHeader_congr {a b : FileHeader} (h : SameHeader a b) : fileHeader a = fileHeader b := by
  obtain ⟨h1, h2, h3, h4, h5⟩ := h
  unfold fileHeader
  rw [h1, h2, h3, h4, h5]
  rfl

theorem fileHeaderOperand_congr {a b : FileHeaderOperand} (h : SameHeaderOperand a b) :
    fileHeaderOperand a = fileHeaderOperand b := by
  unfold fileHeaderOperand
  rw [h.1, fileHeader_congr h.2]

theorem fileHeaderOperand_eq (o : FileHeaderOperand) : ∃ p, fileHeader o.fileHeader = .ok p ∧
    fileHeaderOperand o = .ok ("file-id=".toList ++ (dec o.fileId ++ (", header=".toList ++ (p ++ [])))) := by
  obtain ⟨_, _, h⟩ := fileHeader_eq o.fileHeader
  generalize ("permissions=".toList ++ _ : Text) = x at h
  refine ⟨x, h, ?_⟩
  unfold fileHeaderOperand
  rw [h]
  rfl

theorem fileHeaderOperand_same {a b : FileHeaderOperand} {t : Text} (h : fileHeaderOperand a = .ok t)
    (h' : fileHeaderOperand b = .ok t) : SameHeaderOperand a b := by
  obtain ⟨p, hp, ha⟩ := fileHeaderOperand_eq a
  obtain ⟨q, hq, hb⟩ := fileHeaderOperand_eq b
  have e := ha.symm.trans (h.trans (h'.symm.trans hb))
  rw [Except.ok.injEq] at e
  obtain ⟨e1, e⟩ := dec_append (by stops) (by stops) (List.append_cancel_left e)
  exact ⟨e1, (fileHeader_append hp hq (by stops) (by stops) (List.append_cancel_left e)).1⟩

theorem interfaceConfiguration_eq (e : Env) (o : InterfaceConfiguration) :
    interfaceConfiguration e o = .ok ("interface-id=".toList ++ (interfaceType o.interfaceId ++
      (", configuration=".toList ++ (config e o.config ++ [])))) := rfl

theorem interfaceConfiguration_congr {e : Env} {a b : InterfaceConfiguration} (h : SameInterface e a b) :
    interfaceConfiguration e a = interfaceConfiguration e b := by
  unfold interfaceConfiguration
  rw [h.1, h.2]

theorem interfaceConfiguration_same {e : Env} {a b : InterfaceConfiguration} {t : Text}
    (h : interfaceConfiguration e a = .ok t) (h' : interfaceConfiguration e b = .ok t) :
    SameInterface e a b := by
  have e := (interfaceConfiguration_eq _ a).symm.trans (h.trans (h'.symm.trans (interfaceConfiguration_eq _ b)))
  rw [Except.ok.injEq] at e
  obtain ⟨e1, e⟩ := field_append interfaceType_word interfaceType_injective (by stops) (by stops)
    (List.append_cancel_left e)
  exact ⟨e1, List.append_cancel_right (List.append_cancel_left e)⟩

theorem optional_congr {α : Type} {f : α → Except PyErr Text} {r : α → α → Prop}
    (hf : ∀ {a b}, r a b → f a = f b) {o o' : Option α} (h : SameOption r o o') : optional f o = optional f o' := by
  cases o <;> cases o'
  · rfl
  · cases h
  · cases h
  · exact hf h

theorem optional_same {α : Type} {f : α → Except PyErr Text} {r : α → α → Prop}
    (hf : ∀ {a b t}, f a = .ok t → f b = .ok t → r a b) (hn : ∀ a, f a ≠ .ok none) {o o' : Option α} {t : Text}
    (h : optional f o = .ok t) (h' : optional f o' = .ok t) : SameOption r o o' := by
  cases o <;> cases o'
  · trivial
  · cases h; exact absurd h' (hn _)
  · cases h'; exact absurd h (hn _)
  · exact hf h h'

theorem status_none (a : Status) : status a ≠ .ok none := by
  obtain ⟨_, _, _, _, h⟩ := status_ok a
  intro h'
  rw [h', Except.ok.injEq] at h
  exact absurd (List.cons.inj h).1 (by decide)

theorem addressee_none (a : Addressee) : addressee a ≠ .ok none := by
  obtain ⟨_, _, h⟩ := addressee_ok a
  intro h'
  rw [h', Except.ok.injEq] at h
  exact absurd (List.cons.inj h).1 (by decide)

theorem interfaceStatus_eq (o : InterfaceStatusOperand) : ∃ p, optional status o.status = .ok p ∧
    interfaceStatus o = .ok ("interface-id=".toList ++ (dec o.interfaceId ++ (", status=".toList ++
      (p ++ [])))) := by
  obtain ⟨t, ht⟩ := optional_some status_some o.status
  refine ⟨t, ht, ?_⟩
  unfold interfaceStatus
  rw [ht]
  rfl

theorem indirectInterface_eq (o : IndirectInterfaceOperand) : ∃ p, optional addressee o.overload = .ok p ∧
    indirectInterface o = .ok ("interface-file-id=".toList ++ (dec o.interfaceFileId ++
      (", configuration-overload=".toList ++ (p ++ [])))) := by
  obtain ⟨t, ht⟩ := optional_some addressee_some o.overload
  refine ⟨t, ht, ?_⟩
  unfold indirectInterface
  rw [ht]
  rfl

theorem fileId_same {a b : FileIdOperand} {t : Text} (h : fileId a = .ok t) (h' : fileId b = .ok t) : a = b := by
  have e : ∀ o : FileIdOperand, fileId o = .ok ("file-id=".toList ++ (dec o.fileId ++ [])) := fun _ => rfl
  have e := (e a).symm.trans (h.trans (h'.symm.trans (e b)))
  rw [Except.ok.injEq] at e
  have := dec_injective (List.append_cancel_right (List.append_cancel_left e))
  cases a; cases b; simp_all

theorem tagId_same {a b : TagId} {t : Text} (h : tagId a = .ok t) (h' : tagId b = .ok t) : a = b := by
  have e : ∀ o : TagId, tagId o = .ok ("tag_id=".toList ++ (dec o.tagId ++ [])) := fun _ => rfl
  have e := (e a).symm.trans (h.trans (h'.symm.trans (e b)))
  rw [Except.ok.injEq] at e
  have := dec_injective (List.append_cancel_right (List.append_cancel_left e))
  cases a; cases b; simp_all

/-- The number of the class. -/
def operationNumber : Operation → Nat
  | .nop => 0
  | .readFileData _ => 1
  | .readFileHeader _ => 2
  | .writeFileData _ => 3
  | .writeFileHeader _ => 4
  | .breakQuery _ => 5
  | .createNewFile _ => 6
  | .returnFileData _ => 7
  | .returnFileHeader _ => 8
  | .interfaceStatus _ => 9
  | .tagResponse _ => 10
  | .forward _ => 11
  | .indirectForward _ => 12
  | .tagRequest _ => 13

def operationNames : List String := ["NoOperation", "ReadFileData", "ReadFileHeader", "WriteFileData",
  "WriteFileHeader", "BreakQuery", "CreateNewFile", "ReturnFileData",
  "ReturnFileHeader", "InterfaceStatus", "TagResponse", "Forward",
  "IndirectForward", "TagRequest"]

theorem className_number (o : Operation) : (operationNames.map String.toList).idxOf (className o) = operationNumber o :=
  match o with
  | .nop => (by decide +kernel : (operationNames.map String.toList).idxOf "NoOperation".toList = 0)
  | .readFileData _ => (by decide +kernel : (operationNames.map String.toList).idxOf "ReadFileData".toList = 1)
  | .readFileHeader _ => (by decide +kernel : (operationNames.map String.toList).idxOf "ReadFileHeader".toList = 2)
  | .writeFileData _ => (by decide +kernel : (operationNames.map String.toList).idxOf "WriteFileData".toList = 3)
  | .writeFileHeader _ => (by decide +kernel : (operationNames.map String.toList).idxOf "WriteFileHeader".toList = 4)
  | .breakQuery _ => (by decide +kernel : (operationNames.map String.toList).idxOf "BreakQuery".toList = 5)
  | .createNewFile _ => (by decide +kernel : (operationNames.map String.toList).idxOf "CreateNewFile".toList = 6)
  | .returnFileData _ => (by decide +kernel : (operationNames.map String.toList).idxOf "ReturnFileData".toList = 7)
  | .returnFileHeader _ => (by decide +kernel : (operationNames.map String.toList).idxOf "ReturnFileHeader".toList = 8)
  | .interfaceStatus _ => (by decide +kernel : (operationNames.map String.toList).idxOf "InterfaceStatus".toList = 9)
  | .tagResponse _ => (by decide +kernel : (operationNames.map String.toList).idxOf "TagResponse".toList = 10)
  | .forward _ => (by decide +kernel : (operationNames.map String.toList).idxOf "Forward".toList = 11)
  | .indirectForward _ => (by decide +kernel : (operationNames.map String.toList).idxOf "IndirectForward".toList = 12)
  | .tagRequest _ => (by decide +kernel : (operationNames.map String.toList).idxOf "TagRequest".toList = 13)

theorem className_same {o o' : Operation} (h : className o = className o') : operationNumber o = operationNumber o' := by
  rw [← className_number, ← className_number, h]

/-- The number of the class. -/
def fileNumber : SystemFile → Nat
  | .uid _ => 0
  | .factorySettings _ => 1
  | .firmwareVersion _ => 2
  | .engineeringMode _ => 3
  | .vid _ => 4
  | .phyStatus _ => 5
  | .dllConfig _ => 6
  | .dllStatus _ => 7
  | .securityKey _ => 8
  | .rootKey _ => 9
  | .userKey _ => 10
  | .accessProfile _ => 11
  | .interfaceConfiguration _ => 12
  | .notImplemented _ => 13

def fileNames : List String := ["UidFile", "FactorySettingsFile", "FirmwareVersionFile", "EngineeringModeFile",
  "VidFile", "PhyStatusFile", "DllConfigFile", "DllStatusFile",
  "SecurityKeyFile", "RootAuthenticationKeyFile", "UserAuthenticationKeyFile", "AccessProfileFile",
  "InterfaceConfigurationFile", "NotImplementedFile"]

theorem fileClassName_number (o : SystemFile) : (fileNames.map String.toList).idxOf (fileClassName o) = fileNumber o :=
  match o with
  | .uid _ => (by decide +kernel : (fileNames.map String.toList).idxOf "UidFile".toList = 0)
  | .factorySettings _ => (by decide +kernel : (fileNames.map String.toList).idxOf "FactorySettingsFile".toList = 1)
  | .firmwareVersion _ => (by decide +kernel : (fileNames.map String.toList).idxOf "FirmwareVersionFile".toList = 2)
  | .engineeringMode _ => (by decide +kernel : (fileNames.map String.toList).idxOf "EngineeringModeFile".toList = 3)
  | .vid _ => (by decide +kernel : (fileNames.map String.toList).idxOf "VidFile".toList = 4)
  | .phyStatus _ => (by decide +kernel : (fileNames.map String.toList).idxOf "PhyStatusFile".toList = 5)
  | .dllConfig _ => (by decide +kernel : (fileNames.map String.toList).idxOf "DllConfigFile".toList = 6)
  | .dllStatus _ => (by decide +kernel : (fileNames.map String.toList).idxOf "DllStatusFile".toList = 7)
  | .securityKey _ => (by decide +kernel : (fileNames.map String.toList).idxOf "SecurityKeyFile".toList = 8)
  | .rootKey _ => (by decide +kernel : (fileNames.map String.toList).idxOf "RootAuthenticationKeyFile".toList = 9)
  | .userKey _ => (by decide +kernel : (fileNames.map String.toList).idxOf "UserAuthenticationKeyFile".toList = 10)
  | .accessProfile _ => (by decide +kernel : (fileNames.map String.toList).idxOf "AccessProfileFile".toList = 11)
  | .interfaceConfiguration _ => (by decide +kernel : (fileNames.map String.toList).idxOf "InterfaceConfigurationFile".toList = 12)
  | .notImplemented _ => (by decide +kernel : (fileNames.map String.toList).idxOf "NotImplementedFile".toList = 13)

theorem fileClassName_same {o o' : SystemFile} (h : fileClassName o = fileClassName o') : fileNumber o = fileNumber o' := by
  rw [← fileClassName_number, ← fileClassName_number, h]


theorem operand_congr {e : Env} {o o' : Operation} (h : SameOperation e o o') :
    className o = className o' ∧ operand e o = operand e o' := by
  cases o <;> cases o' <;> first | exact (h : False).elim | skip
  case nop.nop => exact ⟨rfl, rfl⟩
  case readFileData.readFileData a b => obtain rfl := (h : a = b); exact ⟨rfl, rfl⟩
  case readFileHeader.readFileHeader a b => obtain rfl := (h : a = b); exact ⟨rfl, rfl⟩
  case writeFileData.writeFileData a b => obtain rfl := (h : a = b); exact ⟨rfl, rfl⟩
  case writeFileHeader.writeFileHeader a b => exact ⟨rfl, fileHeaderOperand_congr h⟩
  case breakQuery.breakQuery a b => exact ⟨rfl, congrArg Except.ok (h : e.query a = e.query b)⟩
  case createNewFile.createNewFile a b => exact ⟨rfl, fileHeaderOperand_congr h⟩
  case returnFileData.returnFileData a b => obtain rfl := (h : a = b); exact ⟨rfl, rfl⟩
  case returnFileHeader.returnFileHeader a b => exact ⟨rfl, fileHeaderOperand_congr h⟩
  case interfaceStatus.interfaceStatus a b =>
    obtain ⟨h1, h2⟩ := h
    exact ⟨rfl, by show interfaceStatus a = interfaceStatus b; unfold interfaceStatus; rw [h1, optional_congr (f := status) (fun h => status_congr h) h2]⟩
  case tagResponse.tagResponse a b => obtain rfl := (h : a = b); exact ⟨rfl, rfl⟩
  case forward.forward a b => exact ⟨rfl, interfaceConfiguration_congr h⟩
  case indirectForward.indirectForward a b =>
    obtain ⟨h1, h2⟩ := h
    exact ⟨rfl, by show indirectInterface a = indirectInterface b; unfold indirectInterface; rw [h1, optional_congr (f := addressee) (fun h => addressee_congr h) h2]⟩
  case tagRequest.tagRequest a b => obtain rfl := (h : a = b); exact ⟨rfl, rfl⟩

theorem operand_same {e : Env} {o o' : Operation} {t : Text} (hn : operationNumber o = operationNumber o')
    (h : operand e o = .ok t) (h' : operand e o' = .ok t) : SameOperation e o o' := by
  cases o <;> cases o' <;> first | cases hn | skip
  case nop.nop => trivial
  case readFileData.readFileData a b =>
    exact (dataRequest_append h h' (r := []) (r' := []) (by stops) (by stops) rfl).1
  case readFileHeader.readFileHeader a b => exact fileId_same h h'
  case writeFileData.writeFileData a b => exact (data_append h h' (r := []) (r' := []) rfl).1
  case writeFileHeader.writeFileHeader a b => exact fileHeaderOperand_same h h'
  case breakQuery.breakQuery a b =>
    have e : Except.ok (ε := PyErr) (e.query a) = .ok (e.query b) := h.trans h'.symm
    rw [Except.ok.injEq] at e
    exact e
  case createNewFile.createNewFile a b => exact fileHeaderOperand_same h h'
  case returnFileData.returnFileData a b => exact (data_append h h' (r := []) (r' := []) rfl).1
  case returnFileHeader.returnFileHeader a b => exact fileHeaderOperand_same h h'
  case interfaceStatus.interfaceStatus a b =>
    obtain ⟨p, hp, ha⟩ := interfaceStatus_eq a
    obtain ⟨q, hq, hb⟩ := interfaceStatus_eq b
    have e := ha.symm.trans (h.trans (h'.symm.trans hb))
    rw [Except.ok.injEq] at e
    obtain ⟨e1, e⟩ := dec_append (by stops) (by stops) (List.append_cancel_left e)
    have := List.append_cancel_right (List.append_cancel_left e)
    subst this
    exact ⟨e1, optional_same status_same status_none hp hq⟩
  case tagResponse.tagResponse a b => exact tagId_same h h'
  case forward.forward a b => exact interfaceConfiguration_same h h'
  case indirectForward.indirectForward a b =>
    obtain ⟨p, hp, ha⟩ := indirectInterface_eq a
    obtain ⟨q, hq, hb⟩ := indirectInterface_eq b
    have e := ha.symm.trans (h.trans (h'.symm.trans hb))
    rw [Except.ok.injEq] at e
    obtain ⟨e1, e⟩ := dec_append (by stops) (by stops) (List.append_cancel_left e)
    have := List.append_cancel_right (List.append_cancel_left e)
    subst this
    exact ⟨e1, optional_same addressee_same addressee_none hp hq⟩
  case tagRequest.tagRequest a b => exact tagId_same h h'

theorem operation_eq {e : Env} {o : Operation} {t : Text} (h : operand e o = .ok t) :
    operation e o = .ok (className o ++ (": ".toList ++ t)) := by
  unfold operation
  rw [h]
  exact congrArg Except.ok (List.append_assoc _ _ _)

theorem operation_same {e : Env} {o o' : Operation} {t : Text} (h : operation e o = .ok t)
    (h' : operation e o' = .ok t) : SameOperation e o o' := by
  obtain ⟨x, hx⟩ := operand_some e o
  obtain ⟨y, hy⟩ := operand_some e o'
  have e := (operation_eq hx).symm.trans (h.trans (h'.symm.trans (operation_eq hy)))
  rw [Except.ok.injEq] at e
  obtain ⟨e1, e2⟩ := word_append (className_word o) (className_word o') (by stops) (by stops) e
  have := List.append_cancel_left e2
  subst this
  exact operand_same (className_same e1) hx hy

/-! ### System files -/

theorem hex_same {v w : Int} (hv : 0 ≤ v) (hw : 0 ≤ w) {r r' : Text} (hr : Stops wordChar r)
    (hr' : Stops wordChar r') (h : hex v ++ r = hex w ++ r') : v = w ∧ r = r' := hex_append hv hw hr hr' h

theorem uid_eq (f : UidFile) : uidFile f = .ok ("uid=".toList ++ (hex f.uid ++ [])) := rfl

theorem vid_eq (f : VidFile) : vidFile f = .ok ("vid=".toList ++ (hex f.vid ++ (", control=".toList ++
    (hex f.control ++ [])))) := rfl

theorem key_eq (k : Int) : keyFile k = .ok ("key=".toList ++ (dec k ++ [])) := rfl

theorem key_same {k k' : Int} {t : Text} (h : keyFile k = .ok t) (h' : keyFile k' = .ok t) : k = k' := by
  have e := (key_eq k).symm.trans (h.trans (h'.symm.trans (key_eq k')))
  rw [Except.ok.injEq] at e
  exact dec_injective (List.append_cancel_right (List.append_cancel_left e))

set_option maxRecDepth 8000 in
theorem mode_eq (f : EngineeringModeFile) : engineeringModeFile f = .ok ("mode=".toList ++ (f.mode.str.toList ++
    (", flags=".toList ++ (hex f.flags ++ (", timeout=".toList ++ (dec f.timeout ++
    (", channel_id={".toList ++ (f.channelId.str ++ ("}, eirp=".toList ++ (dec f.eirp ++ [])))))))))) := rfl

set_option maxRecDepth 8000 in
theorem dllConfig_eq (f : DllConfigFile) : dllConfigFile f = .ok ("active_access_class=".toList ++
    (dec f.activeAccessClass ++ (", lq_filter=".toList ++ (dec f.lqFilter ++ (", nf_ctrl=".toList ++
    (dec f.nfCtrl ++ (", rx_nf_method_parameter, tx_nf_method_parameter".toList ++ []))))))) := rfl

set_option maxRecDepth 8000 in
theorem dllStatus_eq (f : DllStatusFile) : dllStatusFile f = .ok ("last_rx_packet_level=".toList ++
    (dec f.lastRxPacketLevel ++ (", last_rx_packet_link_budget=".toList ++ (dec f.lastRxPacketLinkBudget ++
    (", noise_floor=".toList ++ (dec f.noiseFloor ++ (", channel=".toList ++ (f.channelHeader.str ++
    (dec f.channelIndex ++ (", scan_timeout_ratio=".toList ++ (dec f.scanTimeoutRatio ++
    (", scan_count=".toList ++ (dec f.scanCount ++ (", scan_timeout_count=".toList ++
    (dec f.scanTimeoutCount ++ []))))))))))))))) := rfl

/-- The text of this template does not begin with a character of a number. -/
def parts : List Char → Bool
  | '{' :: '}' :: _ => false
  | '{' :: '{' :: _ => true
  | '}' :: '}' :: _ => true
  | c :: _ => !num c
  | [] => true

/-- Every placeholder is followed by something that ends a number. -/
def separated : List Char → Bool
  | '{' :: '}' :: t => parts t && separated t
  | '{' :: '{' :: t => separated t
  | '}' :: '}' :: t => separated t
  | _ :: t => separated t
  | [] => true

theorem format_cons {c : Char} {t : List Char} (h1 : ∀ t', ¬ (c = '{' ∧ t = '}' :: t'))
    (h2 : ∀ t', ¬ (c = '{' ∧ t = '{' :: t')) (h3 : ∀ t', ¬ (c = '}' ∧ t = '}' :: t')) (bs : List Text) :
    format (c :: t) bs = (c :: ·) <$> format t bs := by
  conv_lhs => unfold format
  split
  · next heq => cases heq; exact (h1 _ ⟨rfl, rfl⟩).elim
  · next heq => cases heq; exact (h1 _ ⟨rfl, rfl⟩).elim
  · next heq => cases heq; exact (h2 _ ⟨rfl, rfl⟩).elim
  · next heq => cases heq; exact (h3 _ ⟨rfl, rfl⟩).elim
  · next heq _ _ => cases heq; rfl
  · next heq => cases heq

theorem parts_stops {t : List Char} {as : List Text} {x : Text} (ht : parts t = true)
    (h : format t as = .ok x) : Stops num x := by
  unfold parts at ht
  split at ht
  · cases ht
  · next t' =>
    unfold format at h
    cases hy : format t' as with
    | error e => simp [hy] at h
    | ok y => simp [hy] at h; rw [← h]; rfl
  · next t' =>
    unfold format at h
    cases hy : format t' as with
    | error e => simp [hy] at h
    | ok y => simp [hy] at h; rw [← h]; rfl
  · next c t' h1 h2 h3 =>
    rw [format_cons (fun t' h => h1 t' h.1 h.2) (fun t' h => h2 t' h.1 h.2) (fun t' h => h3 t' h.1 h.2)] at h
    cases hy : format t' as with
    | error e => rw [hy] at h; cases h
    | ok y =>
      rw [hy] at h
      cases h
      simpa [Stops] using ht
  · cases h; trivial

/-- Numbers put into a template whose placeholders are separated can be read off the text. -/
theorem format_numbers {t : List Char} {as bs : List Text} {x : Text} (ht : separated t = true)
    (ha : ∀ a ∈ as, ∃ v, a = dec v) (hb : ∀ b ∈ bs, ∃ v, b = dec v) (la : as.length = holes t)
    (lb : bs.length = holes t) (h : format t as = .ok x) (h' : format t bs = .ok x) : as = bs := by
  fun_induction format t as generalizing bs x with
  | case1 t a as ih =>
    cases bs with
    | nil => simp [holes] at lb
    | cons b bs =>
      rw [format] at h'
      cases hy : format t as with
      | error e => rw [hy] at h; cases h
      | ok y =>
        cases hz : format t bs with
        | error e => rw [hz] at h'; cases h'
        | ok z =>
          rw [hy] at h
          rw [hz] at h'
          have e : a ++ y = b ++ z := by
            have := h.trans h'.symm
            exact Except.ok.inj this
          simp only [separated, Bool.and_eq_true] at ht
          obtain ⟨v, rfl⟩ := ha a (by simp)
          obtain ⟨w, rfl⟩ := hb b (by simp)
          obtain ⟨e1, e2⟩ := dec_append (parts_stops ht.1 hy) (parts_stops ht.1 hz) e
          subst e1
          subst e2
          rw [ih ht.2 (fun a h => ha a (by simp [h])) (fun a h => hb a (by simp [h]))
            (by simpa [holes] using la) (by simpa [holes] using lb) hy hz]
  | case2 t => cases h
  | case3 t as ih =>
    rw [format] at h'
    cases hy : format t as with
    | error e => rw [hy] at h; cases h
    | ok y =>
      cases hz : format t bs with
      | error e => rw [hz] at h'; cases h'
      | ok z =>
        rw [hy] at h
        rw [hz] at h'
        have e : '{' :: y = '{' :: z := Except.ok.inj (h.trans h'.symm)
        rw [List.cons.injEq] at e
        exact ih (by simpa [separated] using ht) ha hb (by simpa [holes] using la)
          (by simpa [holes] using lb) hy (by rw [hz, e.2])
  | case4 t as ih =>
    rw [format] at h'
    cases hy : format t as with
    | error e => rw [hy] at h; cases h
    | ok y =>
      cases hz : format t bs with
      | error e => rw [hz] at h'; cases h'
      | ok z =>
        rw [hy] at h
        rw [hz] at h'
        have e : '}' :: y = '}' :: z := Except.ok.inj (h.trans h'.symm)
        rw [List.cons.injEq] at e
        exact ih (by simpa [separated] using ht) ha hb (by simpa [holes] using la)
          (by simpa [holes] using lb) hy (by rw [hz, e.2])
  | case5 c t as h1 h2 h3 h4 ih =>
    have hh : ∀ t', ¬ (c = '{' ∧ t = '}' :: t') := by
      rintro t' ⟨rfl, rfl⟩
      cases as with
      | nil => exact h2 t' rfl rfl rfl
      | cons a as => exact h1 t' a as rfl rfl rfl
    have e1 : holes (c :: t) = holes t := by
      conv_lhs => unfold holes
      split
      · next heq => cases heq; exact (hh _ ⟨rfl, rfl⟩).elim
      · next heq => cases heq; exact (h3 _ rfl rfl).elim
      · next heq => cases heq; exact (h4 _ rfl rfl).elim
      · next heq => cases heq; rfl
      · next heq => cases heq
    have e2 : separated (c :: t) = separated t := by
      conv_lhs => unfold separated
      split
      · next heq => cases heq; exact (hh _ ⟨rfl, rfl⟩).elim
      · next heq => cases heq; exact (h3 _ rfl rfl).elim
      · next heq => cases heq; exact (h4 _ rfl rfl).elim
      · next heq => cases heq; rfl
      · next heq => cases heq
    have e3 := format_cons hh (fun t' h => h3 t' h.1 h.2) (fun t' h => h4 t' h.1 h.2) bs
    rw [e3] at h'
    rw [e1] at la lb
    rw [e2] at ht
    cases hy : format t as with
    | error e => rw [hy] at h; cases h
    | ok y =>
      cases hz : format t bs with
      | error e => rw [hz] at h'; cases h'
      | ok z =>
        rw [hy] at h
        rw [hz] at h'
        have e : c :: y = c :: z := Except.ok.inj (h.trans h'.symm)
        rw [List.cons.injEq] at e
        exact ih ht ha hb la lb hy (by rw [hz, e.2])
  | case6 as =>
    have l1 : as = [] := List.eq_nil_of_length_eq_zero (by simpa [holes] using la)
    have l2 : bs = [] := List.eq_nil_of_length_eq_zero (by simpa [holes] using lb)
    rw [l1, l2]

set_option maxRecDepth 8000 in
theorem factory_same {a b : FactorySettingsFile} {t : Text} (h : factorySettingsFile a = .ok t)
    (h' : factorySettingsFile b = .ok t) : a = b := by
  have key := format_numbers (by decide +kernel) (by
      simp only [List.forall_mem_cons, List.not_mem_nil, false_imp_iff, implies_true, and_true]
      refine ⟨?_, ?_, ?_, ?_, ?_, ?_, ?_, ?_, ?_, ?_, ?_, ?_, ?_, ?_, ?_, ?_, ?_, ?_, ?_, ?_, ?_, ?_, ?_, ?_, ?_⟩ <;>
        exact ⟨_, rfl⟩) (by
      simp only [List.forall_mem_cons, List.not_mem_nil, false_imp_iff, implies_true, and_true]
      refine ⟨?_, ?_, ?_, ?_, ?_, ?_, ?_, ?_, ?_, ?_, ?_, ?_, ?_, ?_, ?_, ?_, ?_, ?_, ?_, ?_, ?_, ?_, ?_, ?_, ?_⟩ <;>
        exact ⟨_, rfl⟩)
    (by simp only [List.length_cons, List.length_nil]; decide +kernel)
    (by simp only [List.length_cons, List.length_nil]; decide +kernel) h h'
  simp only [List.cons.injEq, and_true] at key
  obtain ⟨k1, k2, k3, k4, k5, k6, k7, k8, k9, k10, k11, k12, k13, k14, k15, k16, k17, k18, k19, k20, k21, k22, k23, k24, k25⟩ := key
  obtain ⟨⟩ := a
  obtain ⟨⟩ := b
  simp only [FactorySettingsFile.mk.injEq]
  exact ⟨dec_injective k1, dec_injective k2, dec_injective k3, dec_injective k4, dec_injective k5, dec_injective k6, dec_injective k7, dec_injective k8, dec_injective k9, dec_injective k10, dec_injective k11, dec_injective k12, dec_injective k13, dec_injective k14, dec_injective k15, dec_injective k16, dec_injective k17, dec_injective k18, dec_injective k19, dec_injective k20, dec_injective k21, dec_injective k22, dec_injective k23, dec_injective k24, dec_injective k25⟩

theorem phy_eq (f : PhyStatusFile) (h1 : (f.channelStatusIdentifier.length : Int) = f.channelStatusListLength)
    (h2 : (f.channelNoiseFloor.length : Int) = f.channelStatusListLength) :
    ∃ x, x = entries (f.channelStatusIdentifier.zip f.channelNoiseFloor) ∧
      phyStatusFile f = .ok ("up_time=".toList ++ (dec f.upTime ++ (", rx_time=".toList ++ (dec f.rxTime ++
      (", tx_time=".toList ++ (dec f.txTime ++ (", tx_duty_cycle=".toList ++ (dec f.txDutyCycle ++
      (", channel_status_list_length=".toList ++ (dec f.channelStatusListLength ++ (", list=[".toList ++
      (x.take (x.length - 2) ++ ("]".toList ++ []))))))))))))) := by
  have hc := channels_eq f f.channelStatusListLength.toNat 0 (by omega) (by omega)
  rw [← List.range_eq_range', List.drop_zero, List.take_of_length_le (by rw [List.length_zip]; omega)] at hc
  refine ⟨_, rfl, ?_⟩
  unfold phyStatusFile
  rw [hc]
  generalize entries _ = x
  have e1 : ∀ y : Text, format "[{}]".toList [y] = .ok ("[".toList ++ (y ++ ("]".toList ++ []))) := fun _ => rfl
  simp only [e1, bind, Except.bind]
  set_option maxRecDepth 8000 in
  have e2 : ∀ a b c d n y : Text, format ("up_time={}, rx_time={}, tx_time={}, tx_duty_cycle={}, channel_status_list_length={}, "
    ++ "list={}").toList [a, b, c, d, n, y] = .ok ("up_time=".toList ++ (a ++ (", rx_time=".toList ++ (b ++
      (", tx_time=".toList ++ (c ++ (", tx_duty_cycle=".toList ++ (d ++
      (", channel_status_list_length=".toList ++ (n ++ (", list=".toList ++ (y ++ [])))))))))))) :=
    fun _ _ _ _ _ _ => rfl
  rw [e2]
  have e3 : ∀ y : Text, ", list=".toList ++ (("[".toList ++ (y ++ ("]".toList ++ []))) ++ []) =
      ", list=[".toList ++ (y ++ ("]".toList ++ [])) := by
    intro y
    rw [List.append_nil]
    rfl
  rw [e3]

theorem phy_same {a b : PhyStatusFile} {t : Text} (pa : Plain (.phyStatus a)) (pb : Plain (.phyStatus b))
    (h : phyStatusFile a = .ok t) (h' : phyStatusFile b = .ok t) : a = b := by
  obtain ⟨x, hx, ha⟩ := phy_eq a pa.1 pa.2
  obtain ⟨y, hy, hb⟩ := phy_eq b pb.1 pb.2
  have e := ha.symm.trans (h.trans (h'.symm.trans hb))
  rw [Except.ok.injEq] at e
  obtain ⟨e1, e⟩ := dec_append (by stops) (by stops) (List.append_cancel_left e)
  obtain ⟨e2, e⟩ := dec_append (by stops) (by stops) (List.append_cancel_left e)
  obtain ⟨e3, e⟩ := dec_append (by stops) (by stops) (List.append_cancel_left e)
  obtain ⟨e4, e⟩ := dec_append (by stops) (by stops) (List.append_cancel_left e)
  obtain ⟨e5, e⟩ := dec_append (by stops) (by stops) (List.append_cancel_left e)
  have e6 := List.append_cancel_right (List.append_cancel_left e)
  subst hx
  subst hy
  have l1 := pa.1
  have l2 := pa.2
  have l3 := pb.1
  have l4 := pb.2
  have hz := entries_cut (by rw [List.length_zip, List.length_zip]; omega) e6
  have f1 := congrArg (List.map Prod.fst) hz
  have f2 := congrArg (List.map Prod.snd) hz
  rw [List.map_fst_zip (by omega), List.map_fst_zip (by omega)] at f1
  rw [List.map_snd_zip (by omega), List.map_snd_zip (by omega)] at f2
  cases a; cases b; simp_all

theorem accessProfileFile_eq (e : Env) (f : AccessProfileFile) :
    ∃ p, optional (accessProfile e) f.accessProfile = .ok p ∧
      accessProfileFile e f = .ok ("active_specifier=".toList ++ (dec f.accessSpecifier ++
        (", access_profile=".toList ++ (p ++ [])))) := by
  obtain ⟨t, ht⟩ := optional_some (accessProfile_some e) f.accessProfile
  refine ⟨t, ht, ?_⟩
  unfold accessProfileFile
  rw [ht]
  rfl

theorem interfaceFile_eq {e : Env} {f : InterfaceConfigurationFile} {p : Text}
    (h : interfaceConfiguration e f.interfaceConfiguration = .ok p) :
    interfaceConfigurationFile e f = .ok ("interface_configuration = ".toList ++ (p ++ [])) := by
  unfold interfaceConfigurationFile
  rw [h]
  rfl

theorem systemFile_same {e : Env} {f g : SystemFile} {t : Text} (hn : fileNumber f = fileNumber g)
    (pf : Plain f) (pg : Plain g) (h : systemFile e f = .ok t) (h' : systemFile e g = .ok t) :
    SameFile e f g := by
  cases f <;> cases g <;> try cases hn
  case uid.uid a b =>
    have e := (uid_eq a).symm.trans (h.trans (h'.symm.trans (uid_eq b)))
    rw [Except.ok.injEq] at e
    obtain ⟨e1, e⟩ := hex_append pf pg (by stops) (by stops) (List.append_cancel_left e)
    show a = b
    cases a; cases b; simp_all
  case factorySettings.factorySettings a b => exact factory_same h h'
  case firmwareVersion.firmwareVersion a b => exact firmware_injective pf.2.2 pg.2.2 h h'
  case engineeringMode.engineeringMode a b =>
    have e := (mode_eq a).symm.trans (h.trans (h'.symm.trans (mode_eq b)))
    rw [Except.ok.injEq] at e
    obtain ⟨e1, e⟩ := field_append (f := fun m : EngineeringModeMode => m.str.toList) mode_word mode_injective
      (by stops) (by stops) (List.append_cancel_left e)
    obtain ⟨e2, e⟩ := hex_append pf pg (by stops) (by stops) (List.append_cancel_left e)
    obtain ⟨e3, e⟩ := dec_append (by stops) (by stops) (List.append_cancel_left e)
    obtain ⟨e4, e⟩ := channel_append (by stops) (by stops) (List.append_cancel_left e)
    obtain ⟨e5, e⟩ := dec_append (by stops) (by stops) (List.append_cancel_left e)
    exact ⟨e1, e2, e3, e4, e5⟩
  case vid.vid a b =>
    have e := (vid_eq a).symm.trans (h.trans (h'.symm.trans (vid_eq b)))
    rw [Except.ok.injEq] at e
    obtain ⟨e1, e⟩ := hex_append pf.1 pg.1 (by stops) (by stops) (List.append_cancel_left e)
    obtain ⟨e2, e⟩ := hex_append pf.2 pg.2 (by stops) (by stops) (List.append_cancel_left e)
    show a = b
    cases a; cases b; simp_all
  case phyStatus.phyStatus a b => exact phy_same pf pg h h'
  case dllConfig.dllConfig a b =>
    have e := (dllConfig_eq a).symm.trans (h.trans (h'.symm.trans (dllConfig_eq b)))
    rw [Except.ok.injEq] at e
    obtain ⟨e1, e⟩ := dec_append (by stops) (by stops) (List.append_cancel_left e)
    obtain ⟨e2, e⟩ := dec_append (by stops) (by stops) (List.append_cancel_left e)
    obtain ⟨e3, e⟩ := dec_append (by stops) (by stops) (List.append_cancel_left e)
    exact ⟨e1, e2, e3⟩
  case dllStatus.dllStatus a b =>
    have e := (dllStatus_eq a).symm.trans (h.trans (h'.symm.trans (dllStatus_eq b)))
    rw [Except.ok.injEq] at e
    obtain ⟨e1, e⟩ := dec_append (by stops) (by stops) (List.append_cancel_left e)
    obtain ⟨e2, e⟩ := dec_append (by stops) (by stops) (List.append_cancel_left e)
    obtain ⟨e3, e⟩ := dec_append (by stops) (by stops) (List.append_cancel_left e)
    obtain ⟨e4, e⟩ := header_append (List.append_cancel_left e)
    obtain ⟨e5, e⟩ := dec_append (by stops) (by stops) e
    obtain ⟨e6, e⟩ := dec_append (by stops) (by stops) (List.append_cancel_left e)
    obtain ⟨e7, e⟩ := dec_append (by stops) (by stops) (List.append_cancel_left e)
    obtain ⟨e8, e⟩ := dec_append (by stops) (by stops) (List.append_cancel_left e)
    exact ⟨e1, e2, e3, e4, e5, e6, e7, e8⟩
  case securityKey.securityKey a b =>
    have := key_same h h'
    show a = b
    cases a; cases b; simp_all
  case rootKey.rootKey a b =>
    have := key_same h h'
    show a = b
    cases a; cases b; simp_all
  case userKey.userKey a b =>
    have := key_same h h'
    show a = b
    cases a; cases b; simp_all
  case accessProfile.accessProfile a b =>
    obtain ⟨p, hp, ha⟩ := accessProfileFile_eq e a
    obtain ⟨q, hq, hb⟩ := accessProfileFile_eq e b
    have e := ha.symm.trans (h.trans (h'.symm.trans hb))
    rw [Except.ok.injEq] at e
    obtain ⟨e1, e⟩ := dec_append (by stops) (by stops) (List.append_cancel_left e)
    have := List.append_cancel_right (List.append_cancel_left e)
    subst this
    exact ⟨e1, hp.trans hq.symm⟩
  case interfaceConfiguration.interfaceConfiguration a b =>
    have pa := interfaceConfiguration_eq e a.interfaceConfiguration
    have pb := interfaceConfiguration_eq e b.interfaceConfiguration
    generalize ("interface-id=".toList ++ _ : Text) = x at pa
    generalize ("interface-id=".toList ++ _ : Text) = y at pb
    have e := (interfaceFile_eq pa).symm.trans (h.trans (h'.symm.trans (interfaceFile_eq pb)))
    rw [Except.ok.injEq] at e
    have := List.append_cancel_right (List.append_cancel_left e)
    subst this
    exact interfaceConfiguration_same pa pb
  case notImplemented.notImplemented a b => trivial

theorem systemFile_congr {e : Env} {f g : SystemFile} (h : SameFile e f g) :
    fileClassName f = fileClassName g ∧ systemFile e f = systemFile e g := by
  cases f <;> cases g <;> first | exact (h : False).elim | skip
  case uid.uid a b => obtain rfl := (h : a = b); exact ⟨rfl, rfl⟩
  case factorySettings.factorySettings a b => obtain rfl := (h : a = b); exact ⟨rfl, rfl⟩
  case firmwareVersion.firmwareVersion a b => obtain rfl := (h : a = b); exact ⟨rfl, rfl⟩
  case engineeringMode.engineeringMode a b =>
    obtain ⟨h1, h2, h3, h4, h5⟩ := h
    exact ⟨rfl, by
      show engineeringModeFile a = engineeringModeFile b
      unfold engineeringModeFile
      rw [h1, h2, h3, h4, h5]⟩
  case vid.vid a b => obtain rfl := (h : a = b); exact ⟨rfl, rfl⟩
  case phyStatus.phyStatus a b => obtain rfl := (h : a = b); exact ⟨rfl, rfl⟩
  case dllConfig.dllConfig a b =>
    obtain ⟨h1, h2, h3⟩ := h
    exact ⟨rfl, by
      show dllConfigFile a = dllConfigFile b
      rw [dllConfig_eq, dllConfig_eq, h1, h2, h3]⟩
  case dllStatus.dllStatus a b =>
    obtain ⟨h1, h2, h3, h4, h5, h6, h7, h8⟩ := h
    exact ⟨rfl, by
      show dllStatusFile a = dllStatusFile b
      unfold dllStatusFile
      rw [h1, h2, h3, h4, h5, h6, h7, h8]⟩
  case securityKey.securityKey a b => obtain rfl := (h : a = b); exact ⟨rfl, rfl⟩
  case rootKey.rootKey a b => obtain rfl := (h : a = b); exact ⟨rfl, rfl⟩
  case userKey.userKey a b => obtain rfl := (h : a = b); exact ⟨rfl, rfl⟩
  case accessProfile.accessProfile a b =>
    obtain ⟨h1, h2⟩ := h
    exact ⟨rfl, by
      show accessProfileFile e a = accessProfileFile e b
      unfold accessProfileFile
      rw [h1, h2]⟩
  case interfaceConfiguration.interfaceConfiguration a b =>
    exact ⟨rfl, by
      show interfaceConfigurationFile e a = interfaceConfigurationFile e b
      unfold interfaceConfigurationFile
      rw [interfaceConfiguration_congr h]⟩
  case notImplemented.notImplemented a b => exact ⟨rfl, rfl⟩

theorem phy_plain {a b c d n : Int} {ids : List ChannelStatusIdentifier} {floors : List Int} {f : PhyStatusFile}
    (h : PhyStatusFile.new a b c d n ids floors = .ok f) (h1 : (ids.length : Int) ≤ n)
    (h2 : (floors.length : Int) ≤ n) : Plain (.phyStatus f) := by
  have key : ∀ {α : Type} (l : List α) (x : α), (l.length : Int) ≤ n →
      ((PhyStatusFile.extend l n x).length : Int) = n := by
    intro α l x hl
    unfold PhyStatusFile.extend
    split
    · rw [List.length_append, List.length_replicate]
      omega
    · omega
  unfold PhyStatusFile.new at h
  simp only [validate_eq_ok] at h
  obtain ⟨-, rfl⟩ := h
  exact ⟨key _ _ h1, key _ _ h2⟩

theorem replicate_length {α : Type} {p : P α} {n : Nat} {s s' : St} {l : List α}
    (h : P.replicate n p s = .ok l s') : l.length = n := by
  induction n generalizing s s' l with
  | zero =>
    simp only [P.replicate, P.pure_ok] at h
    rw [← h.1]; rfl
  | succ n ih =>
    simp only [P.replicate, P.bind_ok, P.pure_ok] at h
    obtain ⟨a, s1, h1, l', s2, h2, h3, h4⟩ := h
    rw [← h3, List.length_cons, ih h2]

theorem plain_parsed {t f : SystemFile} {s s' : St} (h : t.parse s = .ok f s') : Plain f := by
  cases t
  case uid =>
    obtain ⟨a, rfl, h'⟩ := lift_parsed h
    unfold UidFile.parse UidFile.new at h'
    simp only [P.bind_ok, P.lift_ok, validate_eq_ok] at h'
    obtain ⟨_, _, _, ⟨h', rfl⟩, _⟩ := h'
    exact h'.1
  case vid =>
    obtain ⟨a, rfl, h'⟩ := lift_parsed h
    unfold VidFile.parse VidFile.new at h'
    simp only [P.bind_ok, P.lift_ok, validate_eq_ok] at h'
    obtain ⟨_, _, _, _, _, _, ⟨h', rfl⟩, _⟩ := h'
    exact ⟨h'.1.1, h'.2.1⟩
  case engineeringMode =>
    obtain ⟨a, rfl, h'⟩ := lift_parsed h
    unfold EngineeringModeFile.parse EngineeringModeFile.new at h'
    simp only [P.bind_ok, P.lift_ok, validate_eq_ok] at h'
    obtain ⟨_, _, _, _, _, _, _, _, _, _, _, _, _, _, _, _, _, _, ⟨h', rfl⟩, _⟩ := h'
    exact h'.1.1
  case firmwareVersion =>
    obtain ⟨a, rfl, h'⟩ := lift_parsed h
    exact ⟨(firmware_parsed h').1, (firmware_parsed h').2.1, (firmware_parsed h').2.2.1⟩
  case phyStatus =>
    obtain ⟨a, rfl, h'⟩ := lift_parsed h
    unfold PhyStatusFile.parse at h'
    simp only [P.bind_ok, P.lift_ok] at h'
    obtain ⟨_, _, _, _, _, _, _, _, _, _, _, _, n, _, h5, l, _, h6, h', _⟩ := h'
    have hn := P.uint_ok h5
    have hl := replicate_length h6
    exact phy_plain h' (by rw [List.length_map]; omega) (by rw [List.length_map]; omega)
  all_goals first
    | (obtain ⟨a, rfl, h'⟩ := lift_parsed h
       exact trivial)
    | cases h

theorem class_parsed {t f : SystemFile} {s s' : St} (h : t.parse s = .ok f s') :
    fileClassName t = fileClassName f := by
  cases t
  all_goals first
    | (obtain ⟨a, rfl, h'⟩ := lift_parsed h
       exact rfl)
    | cases h

/-! ### Actions -/

theorem plainAction_cases {e : Env} {o : Operation} {t : Text} (h : plainAction e o = .ok t) :
    operation e o = .ok t ∨ ∃ d r c f x, o = .returnFileData d ∧ ReturnFileData.new d = .ok r ∧
      r.systemfileType = some c ∧ r.fileDataParsed = some f ∧ systemFile e f = .ok x ∧
      t = "Received ".toList ++ (fileClassName c ++ (" content: ".toList ++ (x ++ []))) := by
  cases o
  case returnFileData d =>
    obtain ⟨r, hr⟩ := returned_some d
    unfold plainAction at h
    simp only [hr, bind, Except.bind] at h
    split at h
    · next c f hc hf =>
      obtain ⟨bs, s, hp⟩ := returned_parsed hr hc hf
      obtain ⟨x, hx⟩ := (systemFile_iff e f).2 (file_parsed hp)
      simp only [hx, received_eq] at h
      cases h
      exact .inr ⟨d, r, c, f, x, rfl, hr, hc, hf, hx, rfl⟩
    · exact .inl h
  all_goals exact .inl h

theorem received_not {e : Env} {o : Operation} {t y : Text} (h : operation e o = .ok t)
    (h' : t = "Received ".toList ++ y) : False := by
  obtain ⟨x, hx⟩ := operand_some e o
  have e1 := (operation_eq hx).symm.trans h
  rw [Except.ok.injEq, h'] at e1
  have e2 : "Received ".toList ++ y = "Received".toList ++ (' ' :: y) := rfl
  rw [e2] at e1
  obtain ⟨-, e3⟩ := word_append (p := wordChar) (className_word o) (by decide) (by stops) (by stops) e1
  exact absurd (List.cons.inj e3).1 (by decide)

theorem plainAction_same {e : Env} {o o' : Operation} {t : Text} (h : plainAction e o = .ok t)
    (h' : plainAction e o' = .ok t) : SameOperation e o o' ∨ ∃ d d' r r' f g, o = .returnFileData d ∧
      o' = .returnFileData d' ∧ ReturnFileData.new d = .ok r ∧ ReturnFileData.new d' = .ok r' ∧
      r.fileDataParsed = some f ∧ r'.fileDataParsed = some g ∧ SameFile e f g := by
  rcases plainAction_cases h with h | ⟨d, r, c, f, x, ho, hr, hc, hf, hx, ht⟩ <;>
  rcases plainAction_cases h' with h' | ⟨d', r', c', f', x', ho', hr', hc', hf', hx', ht'⟩
  · exact .inl (operation_same h h')
  · exact (received_not h ht').elim
  · exact (received_not h' ht).elim
  · refine .inr ⟨d, d', r, r', f, f', ho, ho', hr, hr', hf, hf', ?_⟩
    obtain ⟨_, _, p⟩ := returned_parsed hr hc hf
    obtain ⟨_, _, p'⟩ := returned_parsed hr' hc' hf'
    have e := ht.symm.trans ht'
    obtain ⟨e1, e⟩ := word_append (fileClassName_word c) (fileClassName_word c') (by stops) (by stops)
      (List.append_cancel_left e)
    have := List.append_cancel_right (List.append_cancel_left e)
    subst this
    rw [class_parsed p, class_parsed p'] at e1
    exact systemFile_same (fileClassName_same e1) (plain_parsed p) (plain_parsed p') hx hx'

/-! ### Commands that can be printed -/

/-- `completed_with_error` has been set if the execution is completed. -/
theorem foldl_state {l : List (Option Action)} {b b' : Command.Building} (h : l.foldlM Command.addInit b = .ok b')
    (hb : b.executionCompleted = true → b.completedWithError ≠ .none) :
    b'.executionCompleted = true → b'.completedWithError ≠ .none := by
  induction l generalizing b with
  | nil => cases h; exact hb
  | cons a l ih =>
    rw [List.foldlM_cons] at h
    cases hx : Command.addInit b a with
    | error e => rw [hx] at h; cases h
    | ok x =>
      rw [hx] at h
      refine ih h ?_
      unfold Command.addInit at hx
      split at hx
      · split at hx
        · cases hx
        · cases hx; exact hb
      · next r o =>
        split at hx
        · cases hx
        · cases ho : o.tagId with
          | error e => rw [ho] at hx; cases hx
          | ok v => rw [ho] at hx; cases hx; exact hb
      · next r w o =>
        split at hx
        · cases hx
        · cases ho : o.tagId with
          | error e => rw [ho] at hx; cases hx
          | ok v => rw [ho] at hx; cases hx; simp
      · cases hx; exact hb

theorem new_state {l : List (Option Action)} {g : Bool} {tag : Option Int} {s : Bool} {r : UInt8} {c : Command}
    (h : Command.new l g tag s r = .ok c) : c.executionCompleted = true → c.completedWithError ≠ .none := by
  unfold Command.new at h
  cases hb : l.foldlM Command.addInit ⟨[], .none, tag, s, false, .none⟩ with
  | error e => rw [hb] at h; cases h
  | ok b =>
    rw [hb] at h
    have := foldl_state hb (by simp)
    simp only [bind, Except.bind] at h
    split at h
    · cases h
    · cases h; exact this

theorem command_some (e : Env) (c : Command) : (∃ t, command e c = .ok t) ↔
    (c.executionCompleted = true → c.completedWithError ≠ .none) := by
  have hx : (∃ s, execution c = .ok s) ↔ (c.executionCompleted = true → c.completedWithError ≠ .none) := by
    unfold execution
    split
    · next h =>
      split
      · next h2 => exact ⟨fun ⟨_, h⟩ => (nomatch h), fun h3 => absurd h2 (h3 h)⟩
      · next h2 => exact ⟨fun _ _ => by rw [h2]; simp, fun _ => ⟨_, rfl⟩⟩
      · next h2 => exact ⟨fun _ _ => by rw [h2]; simp, fun _ => ⟨_, rfl⟩⟩
    · next h => exact ⟨fun _ h' => absurd h' h, fun _ => ⟨_, rfl⟩⟩
  rw [← hx]
  constructor
  · rintro ⟨t, h⟩
    cases hs : execution c with
    | ok st => exact ⟨st, rfl⟩
    | error x =>
      unfold command at h
      simp only [head_eq, hs, bind, Except.bind] at h
      cases h
  · rintro ⟨s, h⟩
    obtain ⟨_, _, _, _, h⟩ := command_eq e c h
    exact ⟨_, h⟩

theorem described_some (e : Env) (l : List Action) : ∃ t, described e l = .ok t := by
  induction l with
  | nil => exact ⟨_, rfl⟩
  | cons a l ih =>
    obtain ⟨t, ht⟩ := action_some e a
    obtain ⟨r, hr⟩ := ih
    obtain ⟨x, hx⟩ := format_ok "{}, ".toList [t]
      (by simp only [List.length_cons, List.length_nil]; decide +kernel)
    exact ⟨x ++ r, by unfold described; simp only [ht, hx, hr, bind, Except.bind, pure, Except.pure]⟩

end Verif.Print
