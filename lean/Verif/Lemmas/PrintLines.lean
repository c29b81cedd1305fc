import Verif.Lemmas.PrintCommand

/-! Helper lemmas for C62: the lines of a printed command. -/

namespace Verif.Print

open Verif

/-! ### Texts without tabs -/

theorem word_tab {t : Text} (h : ∀ c ∈ t, wordChar c = true) : '\t' ∉ t := fun hc =>
  absurd (h _ hc) (by decide)

theorem dec_tab (v : Int) : '\t' ∉ dec v := word_tab fun c hc => num_word (dec_num v c hc)
theorem hex_tab (v : Int) : '\t' ∉ hex v := word_tab (hex_word v)
theorem bool_tab (v : Bool) : '\t' ∉ bool v := word_tab (bool_word v)
theorem none_tab : '\t' ∉ none := by decide

theorem items_tab (l : List Int) : '\t' ∉ items l := by
  induction l with
  | nil => exact List.not_mem_nil
  | cons v l ih =>
    cases l with
    | nil => exact dec_tab v
    | cons w l =>
      simp only [items, List.mem_append, List.mem_cons, not_or]
      exact ⟨dec_tab v, by decide, by decide, ih⟩

theorem list_tab (l : List Int) : '\t' ∉ list l := by
  simp only [list, List.cons_append, List.mem_cons, List.mem_append, not_or]
  exact ⟨by decide, items_tab l, by decide, List.not_mem_nil⟩

theorem ct_tab {c : CT} {t : Text} (h : ct c = .ok t) : '\t' ∉ t := by
  refine format_not h (by decide +kernel) ?_
  simp [dec_tab]

theorem subBand_tab {c : SubBand} {t : Text} (h : subBand c = .ok t) : '\t' ∉ t := by
  refine format_not h (by decide +kernel) ?_
  simp [dec_tab]

theorem addrId_tab {c : AddrId} {t : Text} (h : addrId c = .ok t) : '\t' ∉ t := by
  cases c
  · cases h; exact none_tab
  · cases h; exact dec_tab _
  · exact ct_tab h

theorem addressee_tab {c : Addressee} {t : Text} (h : addressee c = .ok t) : '\t' ∉ t := by
  obtain ⟨i, hi⟩ := addrId_ok c.id
  unfold addressee at h
  simp only [hi, bind, Except.bind] at h
  refine format_not h (by decide +kernel) ?_
  simp [dec_tab, word_tab (idType_word _), addrId_tab hi]

theorem status_tab {c : Status} {t : Text} (h : status c = .ok t) : '\t' ∉ t := by
  obtain ⟨a, ha⟩ := addressee_some c.addressee
  have hc := ct_eq c.responseTo
  generalize ("exp=".toList ++ _ : Text) = x at hc
  unfold status at h
  simp only [ha, hc, bind, Except.bind] at h
  refine format_not h (by decide +kernel) ?_
  simp [dec_tab, bool_tab, addressee_tab ha, ct_tab hc, word_tab (channel_word _)]

theorem offset_tab {c : Offset} {t : Text} (h : offset c = .ok t) : '\t' ∉ t := by
  refine format_not h (by decide +kernel) ?_
  simp [dec_tab, length]

theorem offset_some (o : Offset) : ∃ t, offset o = .ok t := ⟨_, rfl⟩

theorem data_tab {c : Data} {t : Text} (h : data c = .ok t) : '\t' ∉ t := by
  obtain ⟨a, ha⟩ := offset_some c.offset
  unfold data at h
  simp only [ha, bind, Except.bind] at h
  refine format_not h (by decide +kernel) ?_
  simp [dec_tab, length, offset_tab ha, list_tab]

theorem dataRequest_tab {c : DataRequest} {t : Text} (h : dataRequest c = .ok t) : '\t' ∉ t := by
  obtain ⟨a, ha⟩ := offset_some c.offset
  unfold dataRequest at h
  simp only [ha, bind, Except.bind] at h
  refine format_not h (by decide +kernel) ?_
  simp [dec_tab, length, offset_tab ha]

theorem properties_tab {c : FileProperties} {t : Text} (h : properties c = .ok t) : '\t' ∉ t := by
  refine format_not h (by decide +kernel) ?_
  simp [bool_tab, word_tab (actionCondition_word _), word_tab (storageClass_word _)]

theorem fileHeader_tab {c : FileHeader} {t : Text} (h : fileHeader c = .ok t) : '\t' ∉ t := by
  obtain ⟨a, ha, -⟩ := fileHeader_eq c
  unfold fileHeader at h
  simp only [ha, bind, Except.bind] at h
  refine format_not h (by decide +kernel) ?_
  simp [dec_tab, permissions, properties_tab ha]

theorem fileHeaderOperand_tab {c : FileHeaderOperand} {t : Text} (h : fileHeaderOperand c = .ok t) :
    '\t' ∉ t := by
  obtain ⟨_, _, ha⟩ := fileHeader_eq c.fileHeader
  generalize ("permissions=".toList ++ _ : Text) = x at ha
  unfold fileHeaderOperand at h
  simp only [ha, bind, Except.bind] at h
  refine format_not h (by decide +kernel) ?_
  simp [dec_tab, fileHeader_tab ha]

theorem config_tab {e : Env} (he : e.NoTabs) (c : Option IfaceConfig) : '\t' ∉ config e c := by
  rcases c with _ | c | c | c
  · exact none_tab
  · exact he.configuration c
  · exact he.abp c
  · exact he.otaa c

theorem interfaceConfiguration_tab {e : Env} (he : e.NoTabs) {c : InterfaceConfiguration} {t : Text}
    (h : interfaceConfiguration e c = .ok t) : '\t' ∉ t := by
  refine format_not h (by decide +kernel) ?_
  simp [word_tab (interfaceType_word _), config_tab he]

theorem optional_tab {α : Type} {f : α → Except PyErr Text} (hf : ∀ {a t}, f a = .ok t → '\t' ∉ t)
    {o : Option α} {t : Text} (h : optional f o = .ok t) : '\t' ∉ t := by
  cases o with
  | none => cases h; exact none_tab
  | some a => exact hf h

theorem operand_tab {e : Env} (he : e.NoTabs) {o : Operation} {t : Text} (h : operand e o = .ok t) :
    '\t' ∉ t := by
  cases o with
  | nop => cases h; exact none_tab
  | readFileData o => exact dataRequest_tab h
  | readFileHeader o =>
    refine format_not (h : fileId o = .ok t) (by decide +kernel) ?_
    simp [dec_tab]
  | writeFileData o => exact data_tab h
  | writeFileHeader o => exact fileHeaderOperand_tab h
  | breakQuery o => cases h; exact he.query o
  | createNewFile o => exact fileHeaderOperand_tab h
  | returnFileData o => exact data_tab h
  | returnFileHeader o => exact fileHeaderOperand_tab h
  | interfaceStatus o =>
    obtain ⟨a, ha⟩ := optional_some status_some o.status
    unfold operand interfaceStatus at h
    simp only [ha, bind, Except.bind] at h
    refine format_not h (by decide +kernel) ?_
    simp [dec_tab, optional_tab status_tab ha]
  | tagResponse o =>
    refine format_not (h : tagId o = .ok t) (by decide +kernel) ?_
    simp [dec_tab]
  | forward o => exact interfaceConfiguration_tab he h
  | indirectForward o =>
    obtain ⟨a, ha⟩ := optional_some addressee_some o.overload
    unfold operand indirectInterface at h
    simp only [ha, bind, Except.bind] at h
    refine format_not h (by decide +kernel) ?_
    simp [dec_tab, optional_tab addressee_tab ha]
  | tagRequest o =>
    refine format_not (h : tagId o = .ok t) (by decide +kernel) ?_
    simp [dec_tab]

theorem className_word (o : Operation) : ∀ c ∈ className o, wordChar c = true :=
  match o with
  | .nop => (by decide : ∀ c ∈ "NoOperation".toList, wordChar c = true)
  | .readFileData _ => (by decide : ∀ c ∈ "ReadFileData".toList, wordChar c = true)
  | .readFileHeader _ => (by decide : ∀ c ∈ "ReadFileHeader".toList, wordChar c = true)
  | .writeFileData _ => (by decide : ∀ c ∈ "WriteFileData".toList, wordChar c = true)
  | .writeFileHeader _ => (by decide : ∀ c ∈ "WriteFileHeader".toList, wordChar c = true)
  | .breakQuery _ => (by decide : ∀ c ∈ "BreakQuery".toList, wordChar c = true)
  | .createNewFile _ => (by decide : ∀ c ∈ "CreateNewFile".toList, wordChar c = true)
  | .returnFileData _ => (by decide : ∀ c ∈ "ReturnFileData".toList, wordChar c = true)
  | .returnFileHeader _ => (by decide : ∀ c ∈ "ReturnFileHeader".toList, wordChar c = true)
  | .interfaceStatus _ => (by decide : ∀ c ∈ "InterfaceStatus".toList, wordChar c = true)
  | .tagResponse _ => (by decide : ∀ c ∈ "TagResponse".toList, wordChar c = true)
  | .forward _ => (by decide : ∀ c ∈ "Forward".toList, wordChar c = true)
  | .indirectForward _ => (by decide : ∀ c ∈ "IndirectForward".toList, wordChar c = true)
  | .tagRequest _ => (by decide : ∀ c ∈ "TagRequest".toList, wordChar c = true)

theorem className_tab (o : Operation) : '\t' ∉ className o := word_tab (className_word o)

theorem fileClassName_word (o : SystemFile) : ∀ c ∈ fileClassName o, wordChar c = true :=
  match o with
  | .uid _ => (by decide : ∀ c ∈ "UidFile".toList, wordChar c = true)
  | .factorySettings _ => (by decide : ∀ c ∈ "FactorySettingsFile".toList, wordChar c = true)
  | .firmwareVersion _ => (by decide : ∀ c ∈ "FirmwareVersionFile".toList, wordChar c = true)
  | .engineeringMode _ => (by decide : ∀ c ∈ "EngineeringModeFile".toList, wordChar c = true)
  | .vid _ => (by decide : ∀ c ∈ "VidFile".toList, wordChar c = true)
  | .phyStatus _ => (by decide : ∀ c ∈ "PhyStatusFile".toList, wordChar c = true)
  | .dllConfig _ => (by decide : ∀ c ∈ "DllConfigFile".toList, wordChar c = true)
  | .dllStatus _ => (by decide : ∀ c ∈ "DllStatusFile".toList, wordChar c = true)
  | .securityKey _ => (by decide : ∀ c ∈ "SecurityKeyFile".toList, wordChar c = true)
  | .rootKey _ => (by decide : ∀ c ∈ "RootAuthenticationKeyFile".toList, wordChar c = true)
  | .userKey _ => (by decide : ∀ c ∈ "UserAuthenticationKeyFile".toList, wordChar c = true)
  | .accessProfile _ => (by decide : ∀ c ∈ "AccessProfileFile".toList, wordChar c = true)
  | .interfaceConfiguration _ => (by decide : ∀ c ∈ "InterfaceConfigurationFile".toList, wordChar c = true)
  | .notImplemented _ => (by decide : ∀ c ∈ "NotImplementedFile".toList, wordChar c = true)

theorem fileClassName_tab (o : SystemFile) : '\t' ∉ fileClassName o := word_tab (fileClassName_word o)

theorem operation_tab {e : Env} (he : e.NoTabs) {o : Operation} {t : Text} (h : operation e o = .ok t) :
    '\t' ∉ t := by
  obtain ⟨x, hx⟩ := operand_some e o
  unfold operation at h
  rw [hx] at h
  cases h
  simp only [List.mem_append, not_or]
  exact ⟨⟨className_tab o, by decide⟩, operand_tab he hx⟩

theorem concat_tab {α : Type} {f : α → Except PyErr Text} (hf : ∀ {a t}, f a = .ok t → '\t' ∉ t)
    {l : List α} {t : Text} (h : concat f l = .ok t) : '\t' ∉ t := by
  induction l generalizing t with
  | nil => cases h; exact List.not_mem_nil
  | cons a l ih =>
    unfold concat at h
    cases ha : f a with
    | error e => rw [ha] at h; cases h
    | ok x =>
      cases hr : concat f l with
      | error e => rw [ha, hr] at h; cases h
      | ok y =>
        rw [ha, hr] at h
        cases h
        simp only [List.mem_append, not_or]
        exact ⟨hf ha, ih hr⟩

theorem accessProfile_tab {e : Env} (he : e.NoTabs) {a : AccessProfile} {t : Text}
    (h : accessProfile e a = .ok t) : '\t' ∉ t := by
  obtain ⟨x, hx⟩ := concat_some (f := fun s => .ok (e.subProfile s)) (fun s => ⟨_, rfl⟩) a.subProfiles
  obtain ⟨y, hy⟩ := concat_some (f := subBand) (fun s => ⟨_, subBand_eq s⟩) a.subBands
  unfold accessProfile at h
  simp only [hx, hy, bind, Except.bind] at h
  have h1 : '\t' ∉ x := concat_tab (fun {a t} h => by cases h; exact he.subProfile a) hx
  refine format_not h (by decide +kernel) ?_
  simp [word_tab (header_word _), h1, concat_tab subBand_tab hy]

theorem entries_tab (l : List (ChannelStatusIdentifier × Int)) : '\t' ∉ entries l := by
  induction l with
  | nil => exact List.not_mem_nil
  | cons x l ih =>
    obtain ⟨c, v⟩ := x
    rw [entries_cons]
    simp only [List.mem_append, not_or]
    exact ⟨by decide, by decide, word_tab (band_word _), by decide, word_tab (bandwidth_word _), by decide,
      dec_tab _, by decide, dec_tab _, by decide, ih⟩

theorem systemFile_tab {e : Env} (he : e.NoTabs) {f : SystemFile} {t : Text} (h : systemFile e f = .ok t)
    (hf : ∀ g, f ≠ .firmwareVersion g) : '\t' ∉ t := by
  cases f with
  | firmwareVersion f => exact absurd rfl (hf f)
  | uid f =>
    refine format_not (h : uidFile f = .ok t) (by decide +kernel) ?_
    simp [hex_tab]
  | factorySettings f =>
    refine format_not (h : factorySettingsFile f = .ok t) (by decide +kernel) ?_
    simp [dec_tab]
  | engineeringMode f =>
    refine format_not (h : engineeringModeFile f = .ok t) (by decide +kernel) ?_
    have := word_tab (mode_word f.mode)
    simp only [List.forall_mem_cons, List.not_mem_nil, false_imp_iff, implies_true, and_true]
    exact ⟨this, hex_tab _, dec_tab _, word_tab (channel_word _), dec_tab _⟩
  | vid f =>
    refine format_not (h : vidFile f = .ok t) (by decide +kernel) ?_
    simp [hex_tab]
  | phyStatus f =>
    have hp := (systemFile_iff e _).1 ⟨t, h⟩
    have hc := channels_eq f f.channelStatusListLength.toNat 0 (by have := hp.1; omega)
      (by have := hp.2; omega)
    rw [← List.range_eq_range'] at hc
    have h' : phyStatusFile f = .ok t := h
    unfold phyStatusFile at h'
    generalize hx : entries _ = x at hc
    have hxt : '\t' ∉ x := by rw [← hx]; exact entries_tab _
    obtain ⟨y, hy⟩ := format_ok "[{}]".toList [x.take (x.length - 2)]
      (by simp only [List.length_cons, List.length_nil]; decide +kernel)
    have hyt : '\t' ∉ y := by
      refine format_not hy (by decide +kernel) ?_
      simp only [List.forall_mem_cons, List.not_mem_nil, false_imp_iff, implies_true, and_true]
      exact fun hm => hxt (List.mem_of_mem_take hm)
    simp only [hc, hy, bind, Except.bind] at h'
    refine format_not h' (by decide +kernel) ?_
    simp [dec_tab, hyt]
  | dllConfig f =>
    refine format_not (h : dllConfigFile f = .ok t) (by decide +kernel) ?_
    simp [dec_tab]
  | dllStatus f =>
    refine format_not (h : dllStatusFile f = .ok t) (by decide +kernel) ?_
    simp [dec_tab, word_tab (header_word _)]
  | securityKey f =>
    refine format_not (h : keyFile f.key = .ok t) (by decide +kernel) ?_
    simp [dec_tab]
  | rootKey f =>
    refine format_not (h : keyFile f.key = .ok t) (by decide +kernel) ?_
    simp [dec_tab]
  | userKey f =>
    refine format_not (h : keyFile f.key = .ok t) (by decide +kernel) ?_
    simp [dec_tab]
  | accessProfile f =>
    obtain ⟨x, hx⟩ := optional_some (accessProfile_some e) f.accessProfile
    have h' : accessProfileFile e f = .ok t := h
    unfold accessProfileFile at h'
    simp only [hx, bind, Except.bind] at h'
    refine format_not h' (by decide +kernel) ?_
    simp [dec_tab, optional_tab (accessProfile_tab he) hx]
  | interfaceConfiguration f =>
    have h' : interfaceConfigurationFile e f = .ok t := h
    unfold interfaceConfigurationFile at h'
    cases hx : interfaceConfiguration e f.interfaceConfiguration with
    | error e => rw [hx] at h'; cases h'
    | ok x =>
      simp only [hx, bind, Except.bind] at h'
      refine format_not h' (by decide +kernel) ?_
      simp [interfaceConfiguration_tab he hx]
  | notImplemented f => cases h; exact List.not_mem_nil

/-! ### Separators -/

theorem infix_split {s a b : Text} {c : Char} (h : s <:+: a ++ c :: b) (hc : c ∉ s) : s <:+: a ∨ s <:+: b := by
  obtain ⟨p, q, h⟩ := h
  rw [List.append_assoc] at h
  rcases List.append_eq_append_iff.1 h with ⟨r, ha, hr⟩ | ⟨r, hp, hr⟩
  · rcases List.append_eq_append_iff.1 hr with ⟨r', ha', hr'⟩ | ⟨r', hp', hr'⟩
    · exact .inl ⟨p, r', by rw [ha, ha', List.append_assoc]⟩
    · cases r' with
      | nil => exact .inl ⟨p, [], by rw [ha, hp', List.append_nil, List.append_nil]⟩
      | cons d r' =>
        rw [List.cons_append, List.cons.injEq] at hr'
        exact absurd (by rw [hp', hr'.1]; simp) hc
  · cases r with
    | nil =>
      cases s with
      | nil => exact .inl ⟨[], a, by simp⟩
      | cons d s =>
        rw [List.nil_append, List.cons_append, List.cons.injEq] at hr
        exact absurd (by rw [hr.1]; simp) hc
    | cons d r =>
      rw [List.cons_append, List.cons.injEq] at hr
      exact .inr ⟨r, q, by rw [List.append_assoc, hr.2]⟩

/-- The two texts that begin a line after an action. -/
def seps : List Text := ["\t\taction: ".toList, "\tinterface status: ".toList]

/-- No line break followed by the beginning of another line of the command. -/
def Clean (t : Text) : Prop := ∀ s ∈ seps, ¬ ('\n' :: s) <:+: t

theorem clean_of_tab {t : Text} (h : '\t' ∉ t) : Clean t := by
  intro s hs hi
  apply h
  apply hi.subset
  simp only [seps, List.mem_cons, List.not_mem_nil, or_false] at hs
  rcases hs with rfl | rfl <;> decide

theorem sep_facts {s : Text} (hs : s ∈ seps) : ',' ∉ '\n' :: s ∧ '=' ∉ '\n' :: s ∧ 8 ≤ ('\n' :: s).length ∧
    '\n' ∉ s ∧ '\t' ∈ '\n' :: s := by
  simp only [seps, List.mem_cons, List.not_mem_nil, or_false] at hs
  rcases hs with rfl | rfl <;> decide

theorem clean_firmware {p n s : Text} (hp : '\t' ∉ p) (hn : n.length ≤ 6) (hs : s.length ≤ 7) :
    Clean (p ++ '=' :: (n ++ ',' :: (" git_sha1".toList ++ '=' :: s))) := by
  intro x hx hi
  obtain ⟨h1, h2, h3, -, h4⟩ := sep_facts hx
  rcases infix_split hi h2 with hi | hi
  · exact hp (hi.subset h4)
  rcases infix_split hi h1 with hi | hi
  · have := hi.length_le
    omega
  rcases infix_split hi h2 with hi | hi
  · exact absurd (hi.subset h4) (by decide)
  · have := hi.length_le
    omega

theorem lift_class {t : SystemFile} {s s' : St} {g : FirmwareVersionFile}
    (h : t.parse s = .ok (.firmwareVersion g) s') : FirmwareVersionFile.parse s = .ok g s' := by
  cases t
  case firmwareVersion =>
    obtain ⟨a, ha, h'⟩ := lift_parsed h
    cases ha
    exact h'
  all_goals first
    | (obtain ⟨a, ha, h'⟩ := lift_parsed h
       exact nomatch ha)
    | cases h

theorem received_eq (c t : Text) : format "Received {} content: {}".toList [c, t] =
    .ok ("Received ".toList ++ (c ++ (" content: ".toList ++ (t ++ [])))) := rfl

theorem plainAction_clean {e : Env} (he : e.NoTabs) {o : Operation} {t : Text} (h : plainAction e o = .ok t) :
    Clean t := by
  cases o
  case returnFileData d =>
    obtain ⟨r, hr⟩ := returned_some d
    unfold plainAction at h
    simp only [hr, bind, Except.bind] at h
    split at h
    · next c f hc hf =>
      obtain ⟨bs, s, hp⟩ := returned_parsed hr hc hf
      obtain ⟨x, hx⟩ := (systemFile_iff e f).2 (file_parsed hp)
      simp only [hx, received_eq] at h
      cases h
      by_cases hg : ∃ g, f = .firmwareVersion g
      · obtain ⟨g, rfl⟩ := hg
        obtain ⟨h1, h2, h3, h4⟩ := firmware_parsed (lift_class hp)
        obtain ⟨n, s, hn, hs, rfl⟩ := firmware_eq hx
        have key := clean_firmware (p := "Received ".toList ++ (fileClassName c ++ (" content: ".toList ++
          ("d7ap v".toList ++ (dec g.d7apMajor ++ ('.' :: (dec g.d7apMinor ++ (", filesystem v".toList ++
          (dec g.fsMajor ++ ('.' :: (dec g.fsMinor ++ ", application_name".toList)))))))))))
          (n := n) (s := s) (by
            simp only [List.mem_append, List.mem_cons, not_or]
            exact ⟨by decide, fileClassName_tab _, by decide, by decide, dec_tab _, by decide, dec_tab _,
              by decide, dec_tab _, by decide, dec_tab _, by decide⟩)
          (by rw [ascii_length hn]; exact h3) (by rw [ascii_length hs]; exact h4)
        have e1 : ", application_name=".toList = ", application_name".toList ++ ['='] := rfl
        have e2 : ", git_sha1=".toList = ',' :: (" git_sha1".toList ++ ['=']) := rfl
        rw [e1, e2]
        simp only [List.append_assoc, List.cons_append, List.nil_append, List.append_nil] at key ⊢
        exact key
      · apply clean_of_tab
        simp only [List.mem_append, not_or]
        exact ⟨by decide, fileClassName_tab _, by decide,
          systemFile_tab he hx (fun g hg' => hg ⟨g, hg'⟩), List.not_mem_nil⟩
    · exact clean_of_tab (operation_tab he h)
  all_goals exact clean_of_tab (operation_tab he h)

theorem action_clean {e : Env} (he : e.NoTabs) {a : Action} {t : Text} (h : action e a = .ok t) : Clean t := by
  cases a
  case status x o =>
    obtain ⟨y, hy⟩ := operand_some e o
    unfold action at h
    simp only [hy, bind, Except.bind] at h
    refine clean_of_tab (format_not h (by decide) ?_)
    simpa using operand_tab he hy
  all_goals exact plainAction_clean he h

/-! ### Splitting lines -/

/-- What may follow the line of an action. -/
def Next (x : Text) : Prop := x = [] ∨ ∃ s ∈ seps, s <+: x

theorem prefix_no {s u v : Text} {c : Char} (hc : c ∉ s) (h : s <+: u ++ c :: v) : s <+: u := by
  rcases List.prefix_or_prefix_of_prefix h (List.prefix_append u (c :: v)) with h' | h'
  · exact h'
  · obtain ⟨w, rfl⟩ := h'
    rw [List.prefix_append_right_inj] at h
    cases w with
    | nil => simp
    | cons d w =>
      obtain ⟨z, hz⟩ := h
      rw [List.cons_append, List.cons.injEq] at hz
      exact absurd (by rw [hz.1]; simp) hc

theorem line_split {t t' x x' : Text} (ht : Clean t) (ht' : Clean t') (hx : Next x) (hx' : Next x')
    (h : t ++ '\n' :: x = t' ++ '\n' :: x') : t = t' ∧ x = x' := by
  have key : ∀ {t t' x x' : Text} {d : Char} {u : Text}, Clean t' → Next x → t' = t ++ d :: u →
      t ++ '\n' :: x = t' ++ '\n' :: x' → False := by
    intro t t' x x' d u ht' hx hu h
    subst hu
    rw [List.append_assoc, List.append_right_inj, List.cons_append, List.cons.injEq] at h
    obtain ⟨rfl, rfl⟩ := h
    rcases hx with hx | ⟨s, hs, hx⟩
    · simp at hx
    · obtain ⟨w, rfl⟩ := prefix_no (sep_facts hs).2.2.2.1 hx
      exact ht' s hs ⟨t, w, by simp⟩
  rcases List.append_eq_append_iff.1 h with ⟨r, h1, h2⟩ | ⟨r, h1, h2⟩
  · cases r with
    | nil =>
      rw [List.append_nil] at h1
      subst h1
      exact ⟨rfl, (List.cons.inj h2).2⟩
    | cons d u => exact (key ht' hx h1 h).elim
  · cases r with
    | nil =>
      rw [List.append_nil] at h1
      subst h1
      exact ⟨rfl, (List.cons.inj h2).2.symm⟩
    | cons d u => exact (key ht hx' h1 h.symm).elim

/-- The lines of the actions. -/
def lines : List Text → Text
  | [] => []
  | t :: ts => "\t\taction: ".toList ++ (t ++ '\n' :: lines ts)

theorem lines_cons (t : Text) (ts : List Text) :
    lines (t :: ts) = "\t\taction: ".toList ++ (t ++ '\n' :: lines ts) := rfl

/-- The line of the interface status. -/
def last : Option Text → Text
  | .none => []
  | some t => "\tinterface status: ".toList ++ (t ++ ['\n'])

theorem last_next (o : Option Text) : Next (last o) := by
  cases o with
  | none => exact .inl rfl
  | some t => exact .inr ⟨_, List.mem_cons_of_mem _ List.mem_cons_self, List.prefix_append _ _⟩

theorem lines_next (l : List Text) (o : Option Text) : Next (lines l ++ last o) := by
  cases l with
  | nil => exact last_next o
  | cons t l =>
    refine .inr ⟨_, List.mem_cons_self, ?_⟩
    unfold lines
    rw [List.append_assoc]
    exact List.prefix_append _ _

theorem last_injective {o o' : Option Text} (h : last o = last o') : o = o' := by
  cases o <;> cases o'
  · rfl
  · cases h
  · cases h
  · have := List.append_cancel_right (List.append_cancel_left h)
    rw [this]

theorem lines_injective {l l' : List Text} {o o' : Option Text} (hl : ∀ t ∈ l, Clean t)
    (hl' : ∀ t ∈ l', Clean t) (h : lines l ++ last o = lines l' ++ last o') : l = l' ∧ o = o' := by
  have key : ∀ (t : Text) (r : Text) (o : Option Text), "\t\taction: ".toList ++ (t ++ '\n' :: r) ≠ last o := by
    intro t r o h
    cases o with
    | none => cases h
    | some x =>
      have h' := congrArg (fun l : Text => l[1]?) h
      exact absurd h' (by show some '\t' ≠ some 'i'; decide)
  have assoc : ∀ x y z w : Text, (x ++ (y ++ '\n' :: z)) ++ w = x ++ (y ++ '\n' :: (z ++ w)) := by simp
  induction l generalizing l' with
  | nil =>
    cases l' with
    | nil => exact ⟨rfl, last_injective h⟩
    | cons t l' =>
      rw [lines_cons, assoc] at h
      exact (key _ _ _ h.symm).elim
  | cons t l ih =>
    cases l' with
    | nil =>
      rw [lines_cons, assoc] at h
      exact (key _ _ _ h).elim
    | cons t' l' =>
      rw [lines_cons, lines_cons, assoc, assoc] at h
      obtain ⟨h1, h2⟩ := line_split (hl t (by simp)) (hl' t' (by simp)) (lines_next l o) (lines_next l' o')
        (List.append_cancel_left h)
      obtain ⟨h3, h4⟩ := ih (fun x hx => hl x (by simp [hx])) (fun x hx => hl' x (by simp [hx])) h2
      exact ⟨by rw [h1, h3], h4⟩

/-! ### Commands -/

theorem actionLine_eq (t : Text) : format "\t\taction: {}\n".toList [t] =
    .ok ("\t\taction: ".toList ++ (t ++ ['\n'])) := rfl

theorem statusLine_eq (t : Text) : format "\tinterface status: {}\n".toList [t] = .ok (last (some t)) := rfl

theorem actionLines_eq (e : Env) (l : List Action) :
    ∃ ts, l.mapM (action e) = .ok ts ∧ actionLines e l = .ok (lines ts) := by
  induction l with
  | nil => exact ⟨[], rfl, rfl⟩
  | cons a l ih =>
    obtain ⟨ts, h1, h2⟩ := ih
    obtain ⟨t, ht⟩ := action_some e a
    refine ⟨t :: ts, ?_, ?_⟩
    · rw [List.mapM_cons, ht, h1]; rfl
    · unfold actionLines
      simp only [ht, h2, actionLine_eq, bind, Except.bind, pure, Except.pure]
      rw [lines_cons]
      have key : ∀ x y z : Text, (x ++ (y ++ ['\n'])) ++ z = x ++ (y ++ '\n' :: z) := by simp
      rw [key]

/-- Everything after the state of the execution. -/
def body (ts : List Text) (o : Option Text) : Text :=
  (if ts = [] then [] else "\n\tactions:\n".toList ++ lines ts) ++ last o

theorem mapM_nil {α β : Type} {f : α → Except PyErr β} {l : List α} {ts : List β} (h : l.mapM f = .ok ts) :
    ts = [] ↔ l = [] := by
  cases l with
  | nil => cases h; simp
  | cons a l =>
    rw [List.mapM_cons] at h
    cases h1 : f a with
    | error e => rw [h1] at h; cases h
    | ok x =>
      cases h2 : l.mapM f with
      | error e => rw [h1, h2] at h; cases h
      | ok y => rw [h1, h2] at h; cases h; simp

theorem head_eq (t : Text) : format "Command with tag {} ".toList [t] =
    .ok ("Command with tag ".toList ++ (t ++ [' '])) := rfl

theorem state_eq (t : Text) : format "({})".toList [t] = .ok ('(' :: (t ++ [')'])) := rfl

theorem command_eq (e : Env) (c : Command) {st : Text} (hs : execution c = .ok st) :
    ∃ ts o, c.actions.mapM (action e) = .ok ts ∧ c.interfaceStatus.mapM (action e) = .ok o ∧
      command e c = .ok ("Command with tag ".toList ++ (c.tagId.elim none dec ++
        (' ' :: '(' :: (st ++ (')' :: body ts o))))) := by
  obtain ⟨ts, h1, h2⟩ := actionLines_eq e c.actions
  have h3 := mapM_nil h1
  unfold command
  simp only [head_eq, hs, state_eq, h2, bind, Except.bind, pure, Except.pure]
  have hl : (c.actions.length > 0) ↔ ts ≠ [] := by
    rw [ne_eq, h3]; exact List.length_pos_iff
  have a1 : ∀ p x q b l : Text, (p ++ (x ++ [' '])) ++ '(' :: (q ++ [')']) ++ b ++ l =
      p ++ (x ++ (' ' :: '(' :: (q ++ ')' :: (b ++ l)))) := by simp
  have a2 : ∀ p x q l : Text, (p ++ (x ++ [' '])) ++ '(' :: (q ++ [')']) ++ l =
      p ++ (x ++ (' ' :: '(' :: (q ++ ')' :: l))) := by simp
  have a3 : ∀ p x q b m l : Text, (p ++ (x ++ [' '])) ++ '(' :: (q ++ [')']) ++ b ++ m ++ l =
      p ++ (x ++ (' ' :: '(' :: (q ++ ')' :: ((b ++ m) ++ l)))) := by simp
  cases hi : c.interfaceStatus with
  | none =>
    refine ⟨ts, .none, h1, rfl, ?_⟩
    by_cases ht : ts = []
    · rw [if_neg (by rw [hl]; simpa using ht), body, if_pos ht]
      exact congrArg Except.ok ((List.append_nil _).symm.trans (a2 _ _ _ []))
    · rw [if_pos (by rw [hl]; exact ht), body, if_neg ht]
      exact congrArg Except.ok ((List.append_nil _).symm.trans (a3 _ _ _ _ _ []))
  | some a =>
    obtain ⟨t, ht'⟩ := action_some e a
    refine ⟨ts, some t, h1, ?_, ?_⟩
    · rw [Option.mapM_some, ht']; rfl
    by_cases ht : ts = []
    · rw [if_neg (by rw [hl]; simpa using ht), body, if_pos ht]
      simp only [ht', statusLine_eq]
      exact congrArg Except.ok (a2 _ _ _ _)
    · rw [if_pos (by rw [hl]; exact ht), body, if_neg ht]
      simp only [ht', statusLine_eq]
      exact congrArg Except.ok (a3 _ _ _ _ _ _)

theorem body_injective {l l' : List Text} {o o' : Option Text} (hl : ∀ t ∈ l, Clean t)
    (hl' : ∀ t ∈ l', Clean t) (h : body l o = body l' o') : l = l' ∧ o = o' := by
  have key : ∀ (r : Text) (o : Option Text), "\n\tactions:\n".toList ++ r ≠ last o := by
    intro r o h
    cases o with
    | none => cases h
    | some x => exact absurd (List.cons.inj h).1 (by decide)
  unfold body at h
  split at h <;> split at h
  · next h1 h2 => exact ⟨by rw [h1, h2], last_injective h⟩
  · rw [List.nil_append, List.append_assoc] at h
    exact (key _ _ h.symm).elim
  · rw [List.nil_append, List.append_assoc] at h
    exact (key _ _ h).elim
  · rw [List.append_assoc, List.append_assoc] at h
    exact lines_injective hl hl' (List.append_cancel_left h)

theorem tag_injective {o o' : Option Int} {r r' : Text}
    (h : o.elim none dec ++ ' ' :: r = o'.elim none dec ++ ' ' :: r') : o = o' ∧ r = r' := by
  have hw : ∀ o : Option Int, ∀ c ∈ o.elim none dec, wordChar c = true := by
    intro o
    cases o with
    | none => decide
    | some v => exact fun c hc => num_word (dec_num v c hc)
  obtain ⟨h1, h2⟩ := word_append (hw o) (hw o') (r := ' ' :: r) (r' := ' ' :: r') (by stops) (by stops) h
  refine ⟨?_, (List.cons.inj h2).2⟩
  cases o <;> cases o'
  · rfl
  · next v =>
    exact absurd (show dec v ++ [] = 'N' :: "one".toList by rw [List.append_nil]; exact h1.symm) (dec_ne rfl)
  · next v =>
    exact absurd (show dec v ++ [] = 'N' :: "one".toList by rw [List.append_nil]; exact h1) (dec_ne rfl)
  · rw [dec_injective h1]

theorem state_split {s s' r r' : Text} (hs : ')' ∉ s) (hs' : ')' ∉ s') (h : s ++ ')' :: r = s' ++ ')' :: r') :
    s = s' ∧ r = r' := by
  obtain ⟨h1, h2⟩ := word_append (p := fun c => c != ')') (fun c hc => by
    rw [bne_iff_ne]; rintro rfl; exact hs hc) (fun c hc => by
    rw [bne_iff_ne]; rintro rfl; exact hs' hc) (r := ')' :: r) (r' := ')' :: r') (by stops) (by stops) h
  exact ⟨h1, (List.cons.inj h2).2⟩

theorem execution_cases {c : Command} {t : Text} (h : execution c = .ok t) :
    (c.executionCompleted = false ∧ t = "executing".toList) ∨
    (c.executionCompleted = true ∧ c.completedWithError = some true ∧ t = "completed, with error".toList) ∨
    (c.executionCompleted = true ∧ c.completedWithError = some false ∧
      t = "completed, without error".toList) := by
  unfold execution at h
  split at h
  · next h1 =>
    split at h
    · cases h
    · next h2 => cases h; exact .inr (.inl ⟨h1, h2, rfl⟩)
    · next h2 => cases h; exact .inr (.inr ⟨h1, h2, rfl⟩)
  · next h1 => cases h; exact .inl ⟨by simpa using h1, rfl⟩

theorem mapM_clean {e : Env} (he : e.NoTabs) {l : List Action} {ts : List Text}
    (h : l.mapM (action e) = .ok ts) : ∀ t ∈ ts, Clean t := by
  induction l generalizing ts with
  | nil => cases h; simp
  | cons a l ih =>
    rw [List.mapM_cons] at h
    obtain ⟨t, ht⟩ := action_some e a
    cases h2 : l.mapM (action e) with
    | error e => rw [ht, h2] at h; cases h
    | ok y =>
      rw [ht, h2] at h
      cases h
      intro x hx
      rcases List.mem_cons.1 hx with rfl | hx
      · exact action_clean he ht
      · exact ih h2 x hx

/-- The printed command gives back the tag, the state of the execution and the texts of the actions. -/
theorem command_injective {e : Env} (he : e.NoTabs) {c c' : Command} {t : Text} (h : command e c = .ok t)
    (h' : command e c' = .ok t) :
    c.tagId = c'.tagId ∧ c.executionCompleted = c'.executionCompleted ∧
      (c.executionCompleted = true → c.completedWithError = c'.completedWithError) ∧
      c.actions.mapM (action e) = c'.actions.mapM (action e) ∧
      c.interfaceStatus.mapM (action e) = c'.interfaceStatus.mapM (action e) := by
  have hs : ∀ {c : Command} {t : Text}, command e c = .ok t → ∃ st, execution c = .ok st := by
    intro c t h
    cases hx : execution c with
    | ok st => exact ⟨st, rfl⟩
    | error x =>
      unfold command at h
      simp only [head_eq, hx, bind, Except.bind] at h
      cases h
  obtain ⟨st, hst⟩ := hs h
  obtain ⟨st', hst'⟩ := hs h'
  obtain ⟨ts, o, h1, h2, h3⟩ := command_eq e c hst
  obtain ⟨ts', o', h1', h2', h3'⟩ := command_eq e c' hst'
  rw [h] at h3
  rw [h'] at h3'
  rw [Except.ok.injEq] at h3 h3'
  have e0 := List.append_cancel_left (h3.symm.trans h3')
  obtain ⟨e1, e2⟩ := tag_injective e0
  have hp : ∀ {c : Command} {t : Text}, execution c = .ok t → ')' ∉ t := by
    intro c t h
    rcases execution_cases h with ⟨_, rfl⟩ | ⟨_, _, rfl⟩ | ⟨_, _, rfl⟩ <;> decide
  obtain ⟨e3, e4⟩ := state_split (hp hst) (hp hst') (List.cons.inj e2).2
  obtain ⟨e5, e6⟩ := body_injective (mapM_clean he h1) (mapM_clean he h1') e4
  subst e3
  have hx : c.executionCompleted = c'.executionCompleted ∧
      (c.executionCompleted = true → c.completedWithError = c'.completedWithError) := by
    rcases execution_cases hst with ⟨a, b⟩ | ⟨a, b, d⟩ | ⟨a, b, d⟩ <;>
    rcases execution_cases hst' with ⟨a', b'⟩ | ⟨a', b', d'⟩ | ⟨a', b', d'⟩
    · exact ⟨a.trans a'.symm, fun h => absurd (a.symm.trans h) (by decide)⟩
    · exact absurd (b.symm.trans d') (by decide)
    · exact absurd (b.symm.trans d') (by decide)
    · exact absurd (d.symm.trans b') (by decide)
    · exact ⟨a.trans a'.symm, fun _ => b.trans b'.symm⟩
    · exact absurd (d.symm.trans d') (by decide)
    · exact absurd (d.symm.trans b') (by decide)
    · exact absurd (d.symm.trans d') (by decide)
    · exact ⟨a.trans a'.symm, fun _ => b.trans b'.symm⟩
  exact ⟨e1, hx.1, hx.2, by rw [h1, h1', e5], by rw [h2, h2', e6]⟩

end Verif.Print
