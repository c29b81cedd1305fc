import Verif.Lemmas.PrintFiles
import Verif.Lemmas.Parsed
import Verif.Lemmas.SystemFiles3
import Verif.Spec.Print

/-! Helper lemmas for C61 and C62: actions and commands. -/

namespace Verif.Print

open Verif

/-- The number of placeholders. -/
def holes : List Char → Nat
  | '{' :: '}' :: t => holes t + 1
  | '{' :: '{' :: t => holes t
  | '}' :: '}' :: t => holes t
  | _ :: t => holes t
  | [] => 0

theorem format_ok (t : List Char) (as : List Text) (h : holes t ≤ as.length) : ∃ x, format t as = .ok x := by
  fun_induction format t as with
  | case1 t a as ih =>
    obtain ⟨x, hx⟩ := ih (by simp only [holes, List.length_cons] at h; omega)
    exact ⟨a ++ x, by rw [hx]; rfl⟩
  | case2 t => simp [holes] at h
  | case3 t as ih =>
    obtain ⟨x, hx⟩ := ih (by simpa only [holes] using h)
    exact ⟨'{' :: x, by rw [hx]; rfl⟩
  | case4 t as ih =>
    obtain ⟨x, hx⟩ := ih (by simpa only [holes] using h)
    exact ⟨'}' :: x, by rw [hx]; rfl⟩
  | case5 c t as h1 h2 h3 h4 ih =>
    have : holes (c :: t) = holes t := by
      conv_lhs => unfold holes
      split
      · next heq =>
        cases as with
        | nil => simp_all
        | cons a as => simp_all
      · simp_all
      · simp_all
      · next heq => cases heq; rfl
      · simp_all
    rw [this] at h
    obtain ⟨x, hx⟩ := ih h
    exact ⟨c :: x, by rw [hx]; rfl⟩
  | case6 as => exact ⟨[], rfl⟩

theorem format_mem {t : List Char} {as : List Text} {x : Text} (h : format t as = .ok x) :
    ∀ c ∈ x, c ∈ t ∨ ∃ a ∈ as, c ∈ a := by
  fun_induction format t as generalizing x with
  | case1 t a as ih =>
    cases hy : format t as with
    | error e => rw [hy] at h; cases h
    | ok y =>
      rw [hy] at h
      cases h
      intro c hc
      rcases List.mem_append.1 hc with hc | hc
      · exact .inr ⟨a, by simp, hc⟩
      · rcases ih hy c hc with h | ⟨b, hb, h⟩
        · exact .inl (by simp [h])
        · exact .inr ⟨b, by simp [hb], h⟩
  | case2 t => cases h
  | case3 t as ih =>
    cases hy : format t as with
    | error e => rw [hy] at h; cases h
    | ok y =>
      rw [hy] at h
      cases h
      intro c hc
      rcases List.mem_cons.1 hc with rfl | hc
      · exact .inl (by simp)
      · rcases ih hy c hc with h | h
        · exact .inl (by simp [h])
        · exact .inr h
  | case4 t as ih =>
    cases hy : format t as with
    | error e => rw [hy] at h; cases h
    | ok y =>
      rw [hy] at h
      cases h
      intro c hc
      rcases List.mem_cons.1 hc with rfl | hc
      · exact .inl (by simp)
      · rcases ih hy c hc with h | h
        · exact .inl (by simp [h])
        · exact .inr h
  | case5 d t as h1 h2 h3 h4 ih =>
    cases hy : format t as with
    | error e => rw [hy] at h; cases h
    | ok y =>
      rw [hy] at h
      cases h
      intro c hc
      rcases List.mem_cons.1 hc with rfl | hc
      · exact .inl (by simp)
      · rcases ih hy c hc with h | h
        · exact .inl (by simp [h])
        · exact .inr h
  | case6 as => cases h; simp

theorem format_not {t : List Char} {as : List Text} {x : Text} {c : Char} (h : format t as = .ok x)
    (ht : c ∉ t) (has : ∀ a ∈ as, c ∉ a) : c ∉ x := by
  intro hc
  rcases format_mem h c hc with h | ⟨a, ha, h⟩
  · exact ht h
  · exact has a ha h

/-! ### Printing does not raise -/

/-- Closes `∃ x, format … = .ok x`. -/
macro "fmt" : tactic => `(tactic| exact format_ok _ _ (by simp only [List.length_cons, List.length_nil]; decide +kernel))

theorem addressee_some (a : Addressee) : ∃ t, addressee a = .ok t := by
  obtain ⟨_, _, h⟩ := addressee_ok a; exact ⟨_, h⟩

theorem status_some (a : Status) : ∃ t, status a = .ok t := by
  obtain ⟨_, _, _, _, h⟩ := status_ok a; exact ⟨_, h⟩

theorem fileHeaderOperand_some (o : FileHeaderOperand) : ∃ t, fileHeaderOperand o = .ok t := by
  obtain ⟨_, _, h⟩ := fileHeader_eq o.fileHeader
  unfold fileHeaderOperand
  rw [h]
  exact ⟨_, rfl⟩

theorem optional_some {α : Type} {f : α → Except PyErr Text} (h : ∀ a, ∃ t, f a = .ok t) (o : Option α) :
    ∃ t, optional f o = .ok t := by
  cases o with
  | none => exact ⟨_, rfl⟩
  | some a => exact h a

theorem operand_some (e : Env) (o : Operation) : ∃ t, operand e o = .ok t := by
  cases o with
  | nop => exact ⟨_, rfl⟩
  | readFileData o => exact ⟨_, rfl⟩
  | readFileHeader o => exact ⟨_, rfl⟩
  | writeFileData o => exact ⟨_, rfl⟩
  | writeFileHeader o => exact fileHeaderOperand_some o
  | breakQuery o => exact ⟨_, rfl⟩
  | createNewFile o => exact fileHeaderOperand_some o
  | returnFileData o => exact ⟨_, rfl⟩
  | returnFileHeader o => exact fileHeaderOperand_some o
  | interfaceStatus o =>
    obtain ⟨t, ht⟩ := optional_some status_some o.status
    unfold operand interfaceStatus
    simp only [ht, bind, Except.bind]
    fmt
  | tagResponse o => exact ⟨_, rfl⟩
  | forward o => exact ⟨_, rfl⟩
  | indirectForward o =>
    obtain ⟨t, ht⟩ := optional_some addressee_some o.overload
    unfold operand indirectInterface
    simp only [ht, bind, Except.bind]
    fmt
  | tagRequest o => exact ⟨_, rfl⟩

theorem operation_some (e : Env) (o : Operation) : ∃ t, operation e o = .ok t := by
  obtain ⟨t, ht⟩ := operand_some e o
  exact ⟨_, by unfold operation; rw [ht]; rfl⟩

theorem concat_some {α : Type} {f : α → Except PyErr Text} (h : ∀ a, ∃ t, f a = .ok t) (l : List α) :
    ∃ t, concat f l = .ok t := by
  induction l with
  | nil => exact ⟨_, rfl⟩
  | cons a l ih =>
    obtain ⟨t, ht⟩ := h a
    obtain ⟨r, hr⟩ := ih
    exact ⟨t ++ r, by simp only [concat, ht, hr, bind, Except.bind, pure, Except.pure]⟩

theorem accessProfile_some (e : Env) (a : AccessProfile) : ∃ t, accessProfile e a = .ok t := by
  obtain ⟨t, ht⟩ := concat_some (f := fun s => .ok (e.subProfile s)) (fun s => ⟨_, rfl⟩) a.subProfiles
  obtain ⟨r, hr⟩ := concat_some (f := subBand) (fun s => ⟨_, subBand_eq s⟩) a.subBands
  unfold accessProfile
  simp only [ht, hr, bind, Except.bind]
  fmt

theorem ascii_iff (s : List Nat) : (∃ t, ascii s = .ok t) ↔ ∀ c ∈ s, c < 128 := by
  unfold ascii
  split
  · next h => exact ⟨fun _ => h, fun _ => ⟨_, rfl⟩⟩
  · next h => exact ⟨fun ⟨_, ht⟩ => (nomatch ht), fun h' => absurd h' h⟩

theorem phyStatus_some (f : PhyStatusFile) (t : Text)
    (h : channels f (List.range f.channelStatusListLength.toNat) = .ok t) : ∃ x, phyStatusFile f = .ok x := by
  unfold phyStatusFile
  obtain ⟨y, hy⟩ := format_ok "[{}]".toList [t.take (t.length - 2)]
    (by simp only [List.length_cons, List.length_nil]; decide +kernel)
  simp only [h, hy, bind, Except.bind]
  fmt

theorem systemFile_iff (e : Env) (f : SystemFile) : (∃ t, systemFile e f = .ok t) ↔ Printable f := by
  cases f with
  | uid f => exact ⟨fun _ => trivial, fun _ => by fmt⟩
  | factorySettings f => exact ⟨fun _ => trivial, fun _ => by fmt⟩
  | firmwareVersion f =>
    show (∃ t, firmwareVersionFile f = .ok t) ↔ _
    show _ ↔ (_ ∧ _)
    rw [← ascii_iff, ← ascii_iff]
    constructor
    · rintro ⟨t, h⟩
      obtain ⟨n, s, h1, h2, -⟩ := firmware_eq h
      exact ⟨⟨n, h1⟩, ⟨s, h2⟩⟩
    · rintro ⟨⟨n, h1⟩, ⟨s, h2⟩⟩
      unfold firmwareVersionFile
      simp only [h1, h2, bind, Except.bind]
      fmt
  | engineeringMode f => exact ⟨fun _ => trivial, fun _ => by fmt⟩
  | vid f => exact ⟨fun _ => trivial, fun _ => by fmt⟩
  | phyStatus f =>
    show (∃ t, phyStatusFile f = .ok t) ↔ _
    unfold Printable
    constructor
    · rintro ⟨t, h⟩
      by_contra hc
      have := channels_error f f.channelStatusListLength.toNat 0 (by omega) (by omega)
      rw [← List.range_eq_range'] at this
      unfold phyStatusFile at h
      rw [this] at h
      cases h
    · rintro ⟨h1, h2⟩
      have := channels_eq f f.channelStatusListLength.toNat 0 (by omega) (by omega)
      rw [← List.range_eq_range'] at this
      exact phyStatus_some f _ this
  | dllConfig f => exact ⟨fun _ => trivial, fun _ => by fmt⟩
  | dllStatus f => exact ⟨fun _ => trivial, fun _ => by fmt⟩
  | securityKey f => exact ⟨fun _ => trivial, fun _ => by fmt⟩
  | rootKey f => exact ⟨fun _ => trivial, fun _ => by fmt⟩
  | userKey f => exact ⟨fun _ => trivial, fun _ => by fmt⟩
  | accessProfile f =>
    refine ⟨fun _ => trivial, fun _ => ?_⟩
    obtain ⟨t, ht⟩ := optional_some (accessProfile_some e) f.accessProfile
    show ∃ t, accessProfileFile e f = .ok t
    unfold accessProfileFile
    simp only [ht, bind, Except.bind]
    fmt
  | interfaceConfiguration f => exact ⟨fun _ => trivial, fun _ => ⟨_, rfl⟩⟩
  | notImplemented f => exact ⟨fun _ => trivial, fun _ => ⟨_, rfl⟩⟩

theorem firmware_parsed {s s' : St} {f : FirmwareVersionFile} (h : FirmwareVersionFile.parse s = .ok f s') :
    (∀ c ∈ f.applicationName, c < 128) ∧ (∀ c ∈ f.gitSha1, c < 128) ∧ f.applicationName.length ≤ 6 ∧
      f.gitSha1.length ≤ 7 := by
  unfold FirmwareVersionFile.parse FirmwareVersionFile.new at h
  simp only [P.bind_ok, P.lift_ok, validate_eq_ok] at h
  obtain ⟨_, _, _, _, _, _, _, _, _, _, _, _, n, _, _, n', _, ⟨h1, _⟩, m, _, _, m', _, ⟨h2, _⟩, ⟨h, rfl⟩, _⟩ := h
  have key : ∀ {l : List UInt8} {n : List Nat}, FirmwareVersionFile.decodeAscii l = .ok n →
      ∀ c ∈ n, c < 128 := by
    intro l n h
    unfold FirmwareVersionFile.decodeAscii at h
    split at h
    · next hl =>
      cases h
      intro c hc
      obtain ⟨b, hb, rfl⟩ := List.mem_map.1 hc
      exact hl b hb
    · cases h
  exact ⟨key h1, key h2, h.2.2.2.2.1, h.2.2.2.2.2⟩

theorem extend_length {α : Type} (l : List α) (n : Int) (x : α) :
    n ≤ (PhyStatusFile.extend l n x).length := by
  unfold PhyStatusFile.extend
  split
  · rw [List.length_append, List.length_replicate]
    omega
  · omega

theorem phy_new {a b c d n : Int} {ids : List ChannelStatusIdentifier} {floors : List Int}
    {f : PhyStatusFile} (h : PhyStatusFile.new a b c d n ids floors = .ok f) : Printable (.phyStatus f) := by
  unfold PhyStatusFile.new at h
  simp only [validate_eq_ok] at h
  obtain ⟨-, rfl⟩ := h
  exact ⟨extend_length _ _ _, extend_length _ _ _⟩

theorem phy_parsed {s s' : St} {f : PhyStatusFile} (h : PhyStatusFile.parse s = .ok f s') :
    Printable (.phyStatus f) := by
  unfold PhyStatusFile.parse at h
  simp only [P.bind_ok, P.lift_ok] at h
  obtain ⟨_, _, _, _, _, _, _, _, _, _, _, _, _, _, _, _, _, _, h, _⟩ := h
  exact phy_new h

theorem lift_parsed {α : Type} {c : α → SystemFile} {p : P α} {s s' : St} {f : SystemFile}
    (h : SystemFile.lift c p s = .ok f s') : ∃ a, f = c a ∧ p s = .ok a s' := by
  unfold SystemFile.lift at h
  simp only [P.bind_ok, P.pure_ok] at h
  obtain ⟨a, _, h, rfl, rfl⟩ := h
  exact ⟨a, rfl, h⟩

theorem file_parsed {t f : SystemFile} {s s' : St} (h : t.parse s = .ok f s') : Printable f := by
  cases t
  case firmwareVersion =>
    obtain ⟨a, rfl, h'⟩ := lift_parsed h
    exact ⟨(firmware_parsed h').1, (firmware_parsed h').2.1⟩
  case phyStatus =>
    obtain ⟨a, rfl, h'⟩ := lift_parsed h
    exact phy_parsed h'
  all_goals first
    | (obtain ⟨a, rfl, h⟩ := lift_parsed h
       exact trivial)
    | cases h

/-- A parsed file is a file of the class that parsed it, and can be printed. -/
theorem returned_parsed {d : Data} {r : ReturnFileData} {t f : SystemFile} (hr : ReturnFileData.new d = .ok r)
    (ht : r.systemfileType = some t) (hf : r.fileDataParsed = some f) :
    ∃ bs s, t.parse (stream bs) = .ok f s := by
  unfold ReturnFileData.new at hr
  split at hr
  · cases hr
  · next t' f' h =>
    cases hr
    simp only at ht hf
    subst ht
    subst hf
    unfold ReturnFileData.tryParseSystemFile ReturnFileData.tryParse at h
    repeat' split at h
    all_goals first
      | (next bs hbs f'' s'' hp =>
          cases h
          exact ⟨_, _, hp⟩)
      | cases h

theorem returned_some (d : Data) : ∃ r, ReturnFileData.new d = .ok r := by
  unfold ReturnFileData.new ReturnFileData.tryParseSystemFile
  cases h : SystemFiles.lookup d.offset.id with
  | error e => exact ⟨_, rfl⟩
  | ok t =>
    obtain ⟨n, hn⟩ := lookup_length h
    simp only [hn]
    split
    · next e he => split at he <;> cases he
    · exact ⟨_, rfl⟩

theorem plainAction_some (e : Env) (o : Operation) : ∃ t, plainAction e o = .ok t := by
  cases o
  case returnFileData d =>
    obtain ⟨r, hr⟩ := returned_some d
    unfold plainAction
    simp only [hr, bind, Except.bind]
    split
    · next t f ht hf =>
      obtain ⟨bs, s, hp⟩ := returned_parsed hr ht hf
      obtain ⟨x, hx⟩ := (systemFile_iff e f).2 (file_parsed hp)
      simp only [hx]
      fmt
    · exact operation_some e _
  all_goals exact operation_some e _

theorem action_some (e : Env) (a : Action) : ∃ t, action e a = .ok t := by
  cases a
  case status x o =>
    obtain ⟨t, ht⟩ := operand_some e o
    unfold action
    simp only [ht, bind, Except.bind]
    fmt
  all_goals exact plainAction_some e _

end Verif.Print
