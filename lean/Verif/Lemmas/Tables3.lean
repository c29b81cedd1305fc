import Verif.Lemmas.Tables2

/-! Tables of the ALP actions. -/

namespace Verif.AlpParser

open Verif

theorem parseInterfaceConfig_decodes (i : InterfaceType) : Decodes (parseInterfaceConfig i) fun x t =>
    InterfaceConfiguration.Tables ⟨i, x⟩ ((8, some i.value) :: t) := by
  cases i
  · refine Decodes.cast (Decodes.raise _) ?_
    intro x t _
    rcases x with _ | _ | _ | _ <;> simp [InterfaceConfiguration.Tables]
  · refine Decodes.cast (Decodes.pure _) ?_
    intro x t _
    rcases x with _ | _ | _ | _ <;> simp [InterfaceConfiguration.Tables, InterfaceType.value]
  · refine Decodes.cast (Decodes.bind LoRaWANABP.decodes fun a => Decodes.pure (some (IfaceConfig.abp a))) ?_
    intro x t _
    rcases x with _ | _ | _ | _ <;> simp [InterfaceConfiguration.Tables, InterfaceType.value]
  · refine Decodes.cast (Decodes.bind LoRaWANOTAA.decodes fun a => Decodes.pure (some (IfaceConfig.otaa a))) ?_
    intro x t _
    rcases x with _ | _ | _ | _ <;> simp [InterfaceConfiguration.Tables, InterfaceType.value]
  · refine Decodes.cast (Decodes.bind Configuration.decodes fun a => Decodes.pure (some (IfaceConfig.d7asp a))) ?_
    intro x t _
    rcases x with _ | _ | _ | _ <;> simp [InterfaceConfiguration.Tables, InterfaceType.value]

theorem parseInterfaceStatus_decodes (i l : Int) : Decodes (parseInterfaceStatus i l) fun x t =>
    (i = 0 ∧ x = none ∧ t = []) ∨ (i = 1 ∧ x = some (.interfaceStatus ⟨1, none⟩) ∧ t = []) ∨
    (i = 0xD7 ∧ ∃ s, x = some (.interfaceStatus ⟨0xD7, s⟩) ∧ match s with
      | some s => 0 < l ∧ s.Built ∧ s.Tables t
      | none => ¬ 0 < l ∧ t = []) := by
  unfold parseInterfaceStatus
  split_ifs with h1 h2 h3
  · subst h1
    refine Decodes.cast (Decodes.pure none) ?_
    intro x t _
    simp
  · subst h2
    refine Decodes.cast (Decodes.bind (Decodes.opt Status.decodes _) fun s =>
      Decodes.bind (Decodes.lift (InterfaceStatusOperand.new 0xD7 s)) fun o =>
        Decodes.pure (some (Operation.interfaceStatus o))) ?_
    intro x t _
    constructor
    · rintro ⟨s, _, _, h, ⟨o, _, _, ⟨ho, rfl⟩, ⟨rfl, rfl⟩, rfl⟩, rfl⟩
      cases ho
      refine .inr (.inr ⟨rfl, s, rfl, ?_⟩)
      cases s <;> simpa using h
    · rintro (⟨h, _⟩ | ⟨h, _⟩ | ⟨_, s, rfl, h⟩)
      · cases h
      · cases h
      · refine ⟨s, t, [], ?_, ⟨_, [], [], ⟨rfl, rfl⟩, ⟨rfl, rfl⟩, rfl⟩, (List.append_nil t).symm⟩
        cases s <;> simpa using h
  · subst h3
    refine Decodes.cast (Decodes.bind (Decodes.lift (InterfaceStatusOperand.new 1 none)) fun o =>
      Decodes.pure (some (Operation.interfaceStatus o))) ?_
    intro x t _
    simp [InterfaceStatusOperand.new, validate, isByte]
  · refine Decodes.cast (Decodes.raise _) ?_
    intro x t _
    simp [h1, h2, h3]

theorem parseInterfaceStatusAction_decodes : Decodes parseInterfaceStatusAction fun r t =>
    ∃ o : InterfaceStatusOperand, r = some (.status 1 (.interfaceStatus o)) ∧ o.Tables t := by
  unfold parseInterfaceStatusAction
  refine Decodes.cast (Decodes.bind (Decodes.uint _) fun i => Decodes.bind (Decodes.uint _) fun l =>
    Decodes.bind (parseInterfaceStatus_decodes i l) fun x =>
      Decodes.bind (Decodes.lift (Action.newStatus 1 x)) fun a => Decodes.pure (some a)) ?_
  intro r t ht
  constructor
  · rintro ⟨i, _, _, rfl, ⟨l, _, _, rfl, ⟨x, u, _, h, ⟨a, _, _, ⟨ha, rfl⟩, ⟨rfl, rfl⟩, rfl⟩, rfl⟩, rfl⟩, rfl⟩
    simp only [List.append_nil] at ht ⊢
    have hl := ht 8 l (by simp)
    rcases h with ⟨rfl, rfl, rfl⟩ | ⟨rfl, rfl, rfl⟩ | ⟨rfl, s, rfl, h⟩
    · cases ha
    · cases ha
      exact ⟨_, rfl, l, [], rfl, .inl ⟨rfl, rfl, rfl⟩⟩
    · cases ha
      refine ⟨_, rfl, l, u, rfl, .inr ⟨rfl, ?_⟩⟩
      cases s with
      | none => exact ⟨by have := h.1; omega, h.2⟩
      | some s => exact ⟨by have := h.1; omega, h.2⟩
  · rintro ⟨⟨i, s⟩, rfl, l, u, rfl, h⟩
    have hl := ht 8 l (by simp)
    rcases h with ⟨rfl, rfl, rfl⟩ | ⟨rfl, h⟩
    · exact ⟨1, _, _, rfl, ⟨l, _, _, rfl, ⟨_, [], [], .inr (.inl ⟨rfl, rfl, rfl⟩),
        ⟨_, [], [], ⟨rfl, rfl⟩, ⟨rfl, rfl⟩, rfl⟩, rfl⟩, rfl⟩, rfl⟩
    · refine ⟨0xD7, _, _, rfl, ⟨l, _, _, rfl, ⟨some (.interfaceStatus ⟨0xD7, s⟩), u, [],
        .inr (.inr ⟨rfl, s, rfl, ?_⟩), ⟨.status 1 (.interfaceStatus ⟨0xD7, s⟩), [], [], ⟨rfl, rfl⟩, ⟨rfl, rfl⟩,
          rfl⟩, rfl⟩, rfl⟩, by simp⟩
      cases s with
      | none => exact ⟨by have := h.1; omega, h.2⟩
      | some s => exact ⟨by have := h.1; omega, h.2⟩

theorem tagId_ok {v : Int} {x : TagId} : TagId.new v = .ok x ↔ x.tagId = v ∧ isByte v := by
  unfold TagId.new
  rw [validate_eq_ok]
  constructor
  · rintro ⟨h, rfl⟩; exact ⟨rfl, h⟩
  · rintro ⟨rfl, h⟩; exact ⟨h, rfl⟩

theorem indirect_ok {v : Int} {a : Option Addressee} {x : IndirectInterfaceOperand} :
    IndirectInterfaceOperand.new v a = .ok x ↔ x = ⟨v, a⟩ ∧ isByte v := by
  unfold IndirectInterfaceOperand.new isByte
  rw [validate_eq_ok]
  constructor
  · rintro ⟨h, rfl⟩; exact ⟨rfl, h⟩
  · rintro ⟨rfl, h⟩; exact ⟨h, rfl⟩

theorem Fits.byte {t u : Table} {v : Int} (h : Fits (t ++ (8, some v) :: u)) : isByte v := by
  have := h 8 v (by simp)
  unfold isByte
  omega

theorem header_inj {a b c d : Bool} {m n : Int} {t u : Table} :
    header a b m ++ t = header c d n ++ u ↔ c = a ∧ d = b ∧ n = m ∧ u = t := by
  cases a <;> cases b <;> cases c <;> cases d <;> simp [header, bit, eq_comm]

theorem header_inj_nil {a b c d : Bool} {m n : Int} {t : Table} :
    header a b m ++ t = header c d n ↔ c = a ∧ d = b ∧ n = m ∧ t = [] := by
  have := header_inj (a := a) (b := b) (c := c) (d := d) (m := m) (n := n) (t := t) (u := [])
  rw [List.append_nil] at this
  rw [this, eq_comm (a := ([] : Table))]

/-- The operand with the given operation code. -/
def Body (op : Int) (b7 b6 : Bool) (r : Option Action) (t : Table) : Prop :=
  (op = 1 ∧ ∃ o, r = some (.regular b7 b6 (.readFileData o)) ∧ o.Built ∧ o.Tables t) ∨
  (op = 4 ∧ ∃ o, r = some (.regular b7 b6 (.writeFileData o)) ∧ o.Built ∧ o.Tables t) ∨
  (op = 9 ∧ ∃ o, r = some (.regular b7 b6 (.breakQuery o)) ∧ o.Built ∧ o.Tables t) ∨
  (op = 17 ∧ ∃ o, r = some (.regular b7 b6 (.createNewFile o)) ∧ o.Built ∧ t = o.table) ∨
  (op = 32 ∧ ∃ o, r = some (.regular b7 b6 (.returnFileData o)) ∧ o.Built ∧ o.Tables t) ∨
  (op = 33 ∧ ∃ o, r = some (.regular b7 b6 (.returnFileHeader o)) ∧ o.Built ∧ t = o.table) ∨
  (op = 34 ∧ b7 = false ∧ b6 = false ∧ r = none ∧ t = []) ∨
  (op = 34 ∧ b7 = false ∧ b6 = true ∧ ∃ o, r = some (.status 1 (.interfaceStatus o)) ∧ o.Tables t) ∨
  (op = 35 ∧ ∃ o, r = some (.tagResponse b7 b6 (.tagResponse o)) ∧ t = [(8, some o.tagId)]) ∨
  (op = 50 ∧ b7 = false ∧ ∃ o, r = some (.forward b6 (.forward o)) ∧ o.Tables t) ∨
  (op = 51 ∧ b7 = false ∧ ∃ i, r = some (.indirectForward b7 b6 (.indirectForward ⟨i, none⟩)) ∧
    t = [(8, some i)]) ∨
  (op = 51 ∧ b7 = true ∧ ∃ i a u, r = some (.indirectForward b7 b6 (.indirectForward ⟨i, some a⟩)) ∧
    a.Built ∧ a.Tables u ∧ t = (8, some i) :: u) ∨
  (op = 52 ∧ b6 = false ∧ ∃ o, r = some (.tagRequest b7 (.tagRequest o)) ∧ t = [(8, some o.tagId)])

theorem body_iff {op : Int} {b7 b6 : Bool} {r : Option Action} {t : Table} :
    ActionTables r (header b7 b6 op ++ t) ↔ Body op b7 b6 r t := by
  constructor
  · intro h
    unfold ActionTables at h
    split at h
    · obtain ⟨rfl, rfl, rfl, rfl⟩ := header_inj_nil.1 h
      simp [Body]
    · obtain ⟨hb, u, hu, h⟩ := h
      obtain ⟨rfl, rfl, rfl, rfl⟩ := header_inj.1 h
      simp [Body, hb, hu]
    · obtain ⟨hb, u, hu, h⟩ := h
      obtain ⟨rfl, rfl, rfl, rfl⟩ := header_inj.1 h
      simp [Body, hb, hu]
    · obtain ⟨hb, u, hu, h⟩ := h
      obtain ⟨rfl, rfl, rfl, rfl⟩ := header_inj.1 h
      simp [Body, hb, hu]
    · obtain ⟨hb, h⟩ := h
      obtain ⟨rfl, rfl, rfl, rfl⟩ := header_inj.1 h
      simp [Body, hb]
    · obtain ⟨hb, u, hu, h⟩ := h
      obtain ⟨rfl, rfl, rfl, rfl⟩ := header_inj.1 h
      simp [Body, hb, hu]
    · obtain ⟨hb, h⟩ := h
      obtain ⟨rfl, rfl, rfl, rfl⟩ := header_inj.1 h
      simp [Body, hb]
    · obtain ⟨rfl, u, hu, h⟩ := h
      obtain ⟨rfl, rfl, rfl, rfl⟩ := header_inj.1 h
      simp [Body, hu]
    · obtain ⟨rfl, rfl, rfl, rfl⟩ := header_inj.1 h
      simp [Body]
    · obtain ⟨u, hu, h⟩ := h
      obtain ⟨rfl, rfl, rfl, rfl⟩ := header_inj.1 h
      simp [Body, hu]
    · next o =>
      obtain ⟨i, a⟩ := o
      cases a with
      | none =>
        obtain ⟨rfl, h⟩ := h
        obtain ⟨rfl, rfl, rfl, rfl⟩ := header_inj.1 h
        simp [Body]
      | some a =>
        obtain ⟨rfl, hb, u, hu, h⟩ := h
        rw [List.append_assoc] at h
        obtain ⟨rfl, rfl, rfl, rfl⟩ := header_inj.1 h
        simp [Body, hb, hu]
    · obtain ⟨rfl, rfl, rfl, rfl⟩ := header_inj.1 h
      simp [Body]
    · cases h
  · rintro (⟨rfl, o, rfl, hb, h⟩ | ⟨rfl, o, rfl, hb, h⟩ | ⟨rfl, o, rfl, hb, h⟩ | ⟨rfl, o, rfl, hb, rfl⟩ |
      ⟨rfl, o, rfl, hb, h⟩ | ⟨rfl, o, rfl, hb, rfl⟩ | ⟨rfl, rfl, rfl, rfl, rfl⟩ | ⟨rfl, rfl, rfl, o, rfl, h⟩ |
      ⟨rfl, o, rfl, rfl⟩ | ⟨rfl, rfl, o, rfl, h⟩ | ⟨rfl, rfl, i, rfl, rfl⟩ | ⟨rfl, rfl, i, a, u, rfl, hb, hu, rfl⟩ |
      ⟨rfl, rfl, o, rfl, rfl⟩)
    · exact ⟨hb, t, h, rfl⟩
    · exact ⟨hb, t, h, rfl⟩
    · exact ⟨hb, t, h, rfl⟩
    · exact ⟨hb, rfl⟩
    · exact ⟨hb, t, h, rfl⟩
    · exact ⟨hb, rfl⟩
    · rfl
    · exact ⟨rfl, t, h, rfl⟩
    · rfl
    · exact ⟨t, h, rfl⟩
    · exact ⟨rfl, rfl⟩
    · exact ⟨rfl, hb, u, hu, by simp⟩
    · rfl

set_option maxHeartbeats 2000000 in
theorem dispatch_decodes (op : Int) (b7 b6 : Bool) : Decodes (dispatch op b7 b6) (Body op b7 b6) := by
  unfold dispatch
  split_ifs with h1 h2 h3 h4 h5 h6 h7 h8 h9 h10 h11
  · subst h1
    refine Decodes.cast (Decodes.bind parseFileDataRequestOperand_decodes fun o =>
      Decodes.pure (some (Action.regular b7 b6 (.readFileData o)))) ?_
    intro r t _
    constructor
    · rintro ⟨o, u, _, ⟨hb, hu⟩, ⟨rfl, rfl⟩, rfl⟩
      simp [Body, hb, hu]
    · intro h
      simp only [Body] at h
      norm_num at h
      obtain ⟨o, rfl, hb, hu⟩ := h
      exact ⟨o, t, [], ⟨hb, hu⟩, ⟨rfl, rfl⟩, by simp⟩
  · subst h2
    refine Decodes.cast (Decodes.bind parseReturnFileDataOperand_decodes fun o =>
      Decodes.pure (some (Action.regular b7 b6 (.writeFileData o)))) ?_
    intro r t _
    constructor
    · rintro ⟨o, u, _, ⟨hb, hu⟩, ⟨rfl, rfl⟩, rfl⟩
      simp [Body, hb, hu]
    · intro h
      simp only [Body] at h
      norm_num at h
      obtain ⟨o, rfl, hb, hu⟩ := h
      exact ⟨o, t, [], ⟨hb, hu⟩, ⟨rfl, rfl⟩, by simp⟩
  · subst h3
    refine Decodes.cast (Decodes.bind QueryOperand.decodes fun o =>
      Decodes.pure (some (Action.regular b7 b6 (.breakQuery o)))) ?_
    intro r t _
    constructor
    · rintro ⟨o, u, _, ⟨hb, hu⟩, ⟨rfl, rfl⟩, rfl⟩
      simp [Body, hb, hu]
    · intro h
      simp only [Body] at h
      norm_num at h
      obtain ⟨o, rfl, hb, hu⟩ := h
      exact ⟨o, t, [], ⟨hb, hu⟩, ⟨rfl, rfl⟩, by simp⟩
  · subst h4
    refine Decodes.cast (Decodes.bind FileHeaderOperand.decodes fun o =>
      Decodes.pure (some (Action.regular b7 b6 (.createNewFile o)))) ?_
    intro r t _
    constructor
    · rintro ⟨o, u, _, ⟨hb, hu⟩, ⟨rfl, rfl⟩, rfl⟩
      simp [Body, hb, hu]
    · intro h
      simp only [Body] at h
      norm_num at h
      obtain ⟨o, rfl, hb, hu⟩ := h
      exact ⟨o, t, [], ⟨hb, hu⟩, ⟨rfl, rfl⟩, by simp⟩
  · subst h5
    refine Decodes.cast (Decodes.bind parseReturnFileDataOperand_decodes fun o =>
      Decodes.pure (some (Action.regular b7 b6 (.returnFileData o)))) ?_
    intro r t _
    constructor
    · rintro ⟨o, u, _, ⟨hb, hu⟩, ⟨rfl, rfl⟩, rfl⟩
      simp [Body, hb, hu]
    · intro h
      simp only [Body] at h
      norm_num at h
      obtain ⟨o, rfl, hb, hu⟩ := h
      exact ⟨o, t, [], ⟨hb, hu⟩, ⟨rfl, rfl⟩, by simp⟩
  · subst h6
    refine Decodes.cast (Decodes.bind FileHeaderOperand.decodes fun o =>
      Decodes.pure (some (Action.regular b7 b6 (.returnFileHeader o)))) ?_
    intro r t _
    constructor
    · rintro ⟨o, u, _, ⟨hb, hu⟩, ⟨rfl, rfl⟩, rfl⟩
      simp [Body, hb, hu]
    · intro h
      simp only [Body] at h
      norm_num at h
      obtain ⟨o, rfl, hb, hu⟩ := h
      exact ⟨o, t, [], ⟨hb, hu⟩, ⟨rfl, rfl⟩, by simp⟩
  · subst h7
    unfold parseReturnStatusAction
    split_ifs with g1 g2
    · refine Decodes.cast (Decodes.raise _) ?_
      intro r t _
      simp [Body, g1]
    · refine Decodes.cast parseInterfaceStatusAction_decodes ?_
      intro r t _
      simp [Body, g1, g2]
    · refine Decodes.cast (Decodes.pure none) ?_
      intro r t _
      simp [Body, g1, g2]
  · subst h8
    refine Decodes.cast (Decodes.bind (Decodes.uint 8) fun v => Decodes.bind (Decodes.lift (TagId.new v)) fun o =>
      Decodes.pure (some (Action.tagResponse b7 b6 (.tagResponse o)))) ?_
    intro r t ht
    simp only [tagId_ok]
    constructor
    · rintro ⟨_, _, _, rfl, ⟨o, _, _, ⟨⟨rfl, _⟩, rfl⟩, ⟨rfl, rfl⟩, rfl⟩, rfl⟩
      simp [Body]
    · intro h
      simp only [Body] at h
      norm_num at h
      obtain ⟨o, rfl, rfl⟩ := h
      exact ⟨_, _, _, rfl, ⟨o, [], [], ⟨⟨rfl, Fits.byte (t := []) ht⟩, rfl⟩, ⟨rfl, rfl⟩, rfl⟩, rfl⟩
  · subst h9
    unfold parseForwardAction
    split_ifs with g1
    · refine Decodes.cast (Decodes.raise _) ?_
      intro r t _
      simp [Body, g1]
    · refine Decodes.cast (Decodes.bind (Decodes.uint 8) fun v =>
        Decodes.bind (Decodes.lift (InterfaceType.ofValue v)) fun i =>
        Decodes.bind (parseInterfaceConfig_decodes i) fun c =>
        Decodes.bind (Decodes.lift (Action.newForward b6 (.forward ⟨i, c⟩))) fun a => Decodes.pure (some a)) ?_
      intro r t _
      simp only [InterfaceType.ofValue_ok]
      constructor
      · rintro ⟨_, _, _, rfl, ⟨i, _, _, ⟨rfl, rfl⟩, ⟨c, u, _, hc, ⟨a, _, _, ⟨ha, rfl⟩, ⟨rfl, rfl⟩, rfl⟩, rfl⟩, rfl⟩,
          rfl⟩
        cases ha
        simp [Body, g1, hc]
      · intro h
        simp only [Body] at h
        norm_num at h
        obtain ⟨_, ⟨i, c⟩, rfl, h⟩ := h
        obtain ⟨u, rfl⟩ : ∃ u, t = (8, some i.value) :: u := by
          unfold InterfaceConfiguration.Tables at h
          simp only at h
          split at h
          · exact ⟨_, h⟩
          · exact ⟨_, h⟩
          · exact ⟨_, h⟩
          · exact ⟨_, h.2.choose_spec.2⟩
          · cases h
        exact ⟨_, _, _, rfl, ⟨i, [], u, ⟨rfl, rfl⟩, ⟨c, u, [], h, ⟨_, [], [], ⟨rfl, rfl⟩, ⟨rfl, rfl⟩, rfl⟩, by simp⟩,
          by simp⟩, rfl⟩
  · subst h10
    refine Decodes.cast (Decodes.bind (Decodes.uint 8) fun v =>
      Decodes.bind (Decodes.opt Addressee.decodes b7) fun a =>
      Decodes.bind (Decodes.lift (IndirectInterfaceOperand.new v a)) fun o =>
      Decodes.bind (Decodes.lift (Action.newIndirectForward b7 b6 (.indirectForward o))) fun a =>
        Decodes.pure (some a)) ?_
    intro r t ht
    simp only [indirect_ok]
    constructor
    · rintro ⟨v, _, _, rfl, ⟨a, u, _, ha, ⟨_, _, _, ⟨⟨rfl, _⟩, rfl⟩, ⟨_, _, _, ⟨h, rfl⟩, ⟨rfl, rfl⟩, rfl⟩, rfl⟩, rfl⟩,
        rfl⟩
      cases h
      cases a with
      | none =>
        obtain ⟨rfl, rfl⟩ := ha
        simp [Body]
      | some a =>
        obtain ⟨rfl, ha⟩ := ha
        simp [Body, ha]
    · intro h
      simp only [Body] at h
      norm_num at h
      rcases h with ⟨rfl, v, rfl, rfl⟩ | ⟨rfl, v, a, rfl, hb, u, hu, rfl⟩
      · exact ⟨v, _, _, rfl, ⟨none, [], [], ⟨rfl, rfl⟩, ⟨_, [], [], ⟨⟨rfl, Fits.byte (t := []) ht⟩, rfl⟩,
          ⟨_, [], [], ⟨rfl, rfl⟩, ⟨rfl, rfl⟩, rfl⟩, rfl⟩, rfl⟩, rfl⟩
      · exact ⟨v, _, _, rfl, ⟨some a, u, [], ⟨rfl, hb, hu⟩, ⟨_, [], [], ⟨⟨rfl, Fits.byte (t := []) ht⟩, rfl⟩,
          ⟨_, [], [], ⟨rfl, rfl⟩, ⟨rfl, rfl⟩, rfl⟩, rfl⟩, rfl⟩, by simp⟩
  · subst h11
    unfold parseTagRequestAction
    split_ifs with g1
    · refine Decodes.cast (Decodes.raise _) ?_
      intro r t _
      simp [Body, g1]
    · refine Decodes.cast (Decodes.bind (Decodes.uint 8) fun v =>
        Decodes.bind (Decodes.lift (TagId.new v)) fun o =>
        Decodes.pure (some (Action.tagRequest b7 (.tagRequest o)))) ?_
      intro r t ht
      simp only [tagId_ok]
      constructor
      · rintro ⟨_, _, _, rfl, ⟨o, _, _, ⟨⟨rfl, _⟩, rfl⟩, ⟨rfl, rfl⟩, rfl⟩, rfl⟩
        simp [Body, g1]
      · intro h
        simp only [Body] at h
        norm_num at h
        obtain ⟨_, o, rfl, rfl⟩ := h
        exact ⟨_, _, _, rfl, ⟨o, [], [], ⟨⟨rfl, Fits.byte (t := []) ht⟩, rfl⟩, ⟨rfl, rfl⟩, rfl⟩, rfl⟩
  · refine Decodes.cast (Decodes.raise _) ?_
    intro r t _
    simp [Body, h1, h2, h3, h4, h5, h6, h7, h8, h9, h10, h11]

theorem actionTables_header {r : Option Action} {t : Table} (h : ActionTables r t) :
    ∃ b7 b6 op u, t = header b7 b6 op ++ u := by
  unfold ActionTables at h
  split at h
  · exact ⟨_, _, _, [], by rw [List.append_nil]; exact h⟩
  · obtain ⟨_, u, _, rfl⟩ := h; exact ⟨_, _, _, _, rfl⟩
  · obtain ⟨_, u, _, rfl⟩ := h; exact ⟨_, _, _, _, rfl⟩
  · obtain ⟨_, u, _, rfl⟩ := h; exact ⟨_, _, _, _, rfl⟩
  · exact ⟨_, _, _, _, h.2⟩
  · obtain ⟨_, u, _, rfl⟩ := h; exact ⟨_, _, _, _, rfl⟩
  · exact ⟨_, _, _, _, h.2⟩
  · obtain ⟨_, u, _, rfl⟩ := h; exact ⟨_, _, _, _, rfl⟩
  · exact ⟨_, _, _, _, h⟩
  · obtain ⟨u, _, rfl⟩ := h; exact ⟨_, _, _, _, rfl⟩
  · next o =>
    obtain ⟨i, a⟩ := o
    cases a with
    | none => exact ⟨_, _, _, _, h.2⟩
    | some a => obtain ⟨_, _, u, _, rfl⟩ := h; exact ⟨_, _, _, _, List.append_assoc ..⟩
  · exact ⟨_, _, _, _, h⟩
  · cases h

theorem parseAlpAction_decodes : Decodes parseAlpAction ActionTables := by
  unfold parseAlpAction
  refine Decodes.cast (Decodes.bind Decodes.bool fun b7 => Decodes.bind Decodes.bool fun b6 =>
    Decodes.bind (Decodes.uint 6) fun op => dispatch_decodes op b7 b6) ?_
  intro r t _
  constructor
  · rintro ⟨b7, _, _, rfl, ⟨b6, _, _, rfl, ⟨op, _, u, rfl, h, rfl⟩, rfl⟩, rfl⟩
    exact body_iff.2 h
  · intro h
    obtain ⟨b7, b6, op, u, rfl⟩ := actionTables_header h
    exact ⟨b7, _, _, rfl, ⟨b6, _, _, rfl, ⟨op, _, u, rfl, body_iff.1 h, rfl⟩, rfl⟩, rfl⟩

end Verif.AlpParser
