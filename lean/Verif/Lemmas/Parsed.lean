import Verif.Lemmas.CommandRun

/-! What a parser returns is an object that could have been constructed. -/

namespace Verif

theorem P.opt_ok {α : Type} {c : Bool} {p : P α} {s s' : St} {r : Option α}
    (h : P.opt c p s = .ok r s') : (c = true ∧ ∃ a, r = some a ∧ p s = .ok a s') ∨
      (¬ c = true ∧ r = none ∧ s = s') := by
  unfold P.opt at h
  split at h
  · next hc =>
    left
    simp only [P.bind_ok, P.pure_ok] at h
    obtain ⟨a, _, h, rfl, rfl⟩ := h
    exact ⟨hc, a, rfl, h⟩
  · next hc =>
    right
    rw [P.pure_ok] at h
    exact ⟨hc, h.1.symm, h.2⟩

theorem P.uint_ok {n : Nat} {s s' : St} {v : Int} (h : P.uint n s = .ok v s') :
    0 ≤ v ∧ v < 2 ^ n := by
  unfold P.uint at h
  simp only [P.bind_ok, P.takeBits_ok, P.pure_ok] at h
  obtain ⟨l, _, ⟨hl, _⟩, rfl, _⟩ := h
  have := bitsToNat_lt l
  rw [hl] at this
  refine ⟨by omega, ?_⟩
  exact_mod_cast this

namespace CT
theorem parsed {s s' : St} {x : CT} (h : CT.parse s = .ok x s') : x.Built := by
  unfold CT.parse CT.new at h
  simp only [P.bind_ok, P.lift_ok, validate_eq_ok] at h
  obtain ⟨_, _, _, _, _, _, ⟨h, rfl⟩, _⟩ := h
  exact validate_of h
end CT

theorem ChannelID.parsed {s s' : St} {x : ChannelID} (h : ChannelID.parse s = .ok x s') :
    x.Built := by
  unfold ChannelID.parse ChannelID.new at h
  simp only [P.bind_ok, P.lift_ok, validate_eq_ok] at h
  obtain ⟨_, _, _, _, _, _, ⟨h, rfl⟩, _⟩ := h
  exact validate_of h

theorem FileHeader.parsed {s s' : St} {x : FileHeader} (h : FileHeader.parse s = .ok x s') :
    x.Built := by
  unfold FileHeader.parse FileHeader.new at h
  simp only [P.bind_ok, P.lift_ok, validate_eq_ok] at h
  obtain ⟨_, _, _, _, _, _, _, _, _, _, _, _, _, _, _, _, _, _, ⟨h, rfl⟩, _⟩ := h
  exact validate_of h

theorem FileHeaderOperand.parsed {s s' : St} {x : FileHeaderOperand}
    (h : FileHeaderOperand.parse s = .ok x s') : x.Built := by
  unfold FileHeaderOperand.parse FileHeaderOperand.new at h
  simp only [P.bind_ok, P.lift_ok, validate_eq_ok] at h
  obtain ⟨_, _, _, _, _, hh, ⟨h, rfl⟩, _⟩ := h
  exact ⟨validate_of h, FileHeader.parsed hh⟩

theorem Addressee.parsed {s s' : St} {x : Addressee} (h : Addressee.parse s = .ok x s') :
    x.Built := by
  unfold Addressee.parse Addressee.new at h
  simp only [P.bind_ok, P.lift_ok, validate_eq_ok] at h
  obtain ⟨_, _, _, _, _, _, t, _, _, _, _, _, _, _, _, _, _, _, i, _, hi, j, _, ⟨hj, _⟩,
    ⟨h, rfl⟩, _⟩ := h
  refine ⟨validate_of h, ?_⟩
  rintro c (hc : j = .ct c)
  subst hc
  unfold Addressee.parseRawId at hi
  unfold Addressee.nbidId at hj
  split at hj
  · next v =>
    simp only [Addressee.lengthFor] at hi
    change (P.uint (1 * 8) >>= fun v => Pure.pure (AddrId.int v)) _ = _ at hi
    simp only [P.bind_ok, P.pure_ok] at hi
    obtain ⟨w, _, hw, hv, _⟩ := hi
    injection hv with hv
    subst hv
    obtain ⟨h0, h1⟩ := P.uint_ok hw
    have hc := Addressee.compress_byte w.toNat (by omega)
    rw [Int.toNat_of_nonneg h0] at hc
    rw [hc] at hj
    simp only [Except.ok.injEq, AddrId.ct.injEq] at hj
    subst hj
    have := h
    rw [CT.built_iff]
    unfold CT.Ok
    simp only
    split <;> [skip; split] <;> omega
  · injection hj with hj
    subst hj
    split at hi
    · simp only [P.bind_ok, P.pure_ok] at hi
      obtain ⟨_, _, _, h, _⟩ := hi
      cases h
    · rw [P.pure_ok] at hi
      cases hi.1

theorem Configuration.parsed {s s' : St} {x : Configuration}
    (h : Configuration.parse s = .ok x s') : x.Built := by
  unfold Configuration.parse at h
  simp only [P.bind_ok, P.pure_ok] at h
  obtain ⟨_, _, _, _, _, h1, _, _, h2, rfl, _⟩ := h
  exact ⟨CT.parsed h1, Addressee.parsed h2⟩

theorem Status.parsed {s s' : St} {x : Status} (h : Status.parse s = .ok x s') : x.Built := by
  unfold Status.parse Status.new at h
  simp only [P.bind_ok, P.lift_ok, validate_eq_ok] at h
  obtain ⟨_, _, h1, _, _, _, _, _, _, _, _, _, _, _, _, _, _, _, _, _, _, _, _, _, _, _, _, _, _, _,
    _, _, _, _, _, h2, _, _, h3, ⟨h, rfl⟩, _⟩ := h
  exact ⟨validate_of h, ChannelID.parsed h1, CT.parsed h2, Addressee.parsed h3⟩

theorem Length.parsed {s s' : St} {x : Length} (h : Length.parse s = .ok x s') : x.Built := by
  unfold Length.parse Length.new at h
  simp only [P.bind_ok, P.lift_ok, validate_eq_ok] at h
  obtain ⟨_, _, _, _, _, _, ⟨h, rfl⟩, _⟩ := h
  exact validate_of h

theorem Offset.parsed {s s' : St} {x : Offset} (h : Offset.parse s = .ok x s') : x.Built := by
  unfold Offset.parse Offset.new at h
  simp only [P.bind_ok, P.lift_ok, validate_eq_ok] at h
  obtain ⟨_, _, _, _, _, hl, ⟨h, rfl⟩, _⟩ := h
  exact ⟨validate_of h, Length.parsed hl⟩

theorem QueryOperand.parsed {s s' : St} {x : QueryOperand} (h : QueryOperand.parse s = .ok x s') :
    x.Built := by
  unfold QueryOperand.parse at h
  simp only [P.bind_ok, P.lift_ok, P.assert_ok, QueryOperand.new, validate_eq_ok] at h
  obtain ⟨_, _, _, t, _, _, _, _, _, m, _, _, _, _, _, p, _, _, cl, _, hl, cv, _,
    _, fa, _, hf, ⟨h, rfl⟩, _⟩ := h
  exact ⟨validate_of h, Length.parsed hl, Offset.parsed hf⟩

namespace AlpParser

theorem parseFileDataRequestOperand_parsed {s s' : St} {x : DataRequest}
    (h : parseFileDataRequestOperand s = .ok x s') : x.Built := by
  unfold parseFileDataRequestOperand at h
  simp only [P.bind_ok, P.lift_ok] at h
  obtain ⟨o, _, ho, l, _, hl, h, _⟩ := h
  have hl := Length.parsed hl
  unfold DataRequest.new at h
  unfold Length.Built at hl
  rw [hl] at h
  simp only [bind, Except.bind, pure, Except.pure, Except.ok.injEq] at h
  subst h
  refine ⟨?_, Offset.parsed ho⟩
  unfold DataRequest.new
  simp only [hl, bind, Except.bind, pure, Except.pure]

theorem parseReturnFileDataOperand_parsed {s s' : St} {x : Data}
    (h : parseReturnFileDataOperand s = .ok x s') : x.Built := by
  unfold parseReturnFileDataOperand at h
  simp only [P.bind_ok, P.lift_ok] at h
  obtain ⟨o, _, ho, l, _, hl, _, _, _, h, _⟩ := h
  have h' := h
  unfold Data.new at h
  simp only [bind, Except.bind] at h
  split at h
  · cases h
  · obtain ⟨_, rfl⟩ := validate_eq_ok.1 h
    exact ⟨h', Offset.parsed ho⟩

theorem tagId_parsed {t : Int} {x : TagId} (h : TagId.new t = .ok x) : x.Built := by
  unfold TagId.new at h
  obtain ⟨hv, rfl⟩ := validate_eq_ok.1 h
  exact validate_of hv

/-- What the parser can return for an action: a constructible action, and either an interface
status or the object `received` describes. -/
def Shape (a : Action) : Prop :=
  a.Built ∧ ((∃ o, a = .status 1 (.interfaceStatus o)) ∨
    a = a.operation.received a.flags.1 a.flags.2)

theorem parseInterfaceStatus_parsed {i l : Int} {s s' : St} {o : Option Operation}
    (h : parseInterfaceStatus i l s = .ok o s') :
    o = none ∨ ∃ x : InterfaceStatusOperand, o = some (.interfaceStatus x) ∧ x.Built := by
  unfold parseInterfaceStatus parseInterfaceStatusHost parseInterfaceStatusSerial
    parseInterfaceStatusD7asp InterfaceStatusOperand.new at h
  split at h
  · rw [P.pure_ok] at h; exact .inl h.1.symm
  · right
    split at h
    · simp only [P.bind_ok, P.lift_ok, P.pure_ok, validate_eq_ok] at h
      obtain ⟨st, _, hs, x, _, ⟨⟨hv, rfl⟩, _⟩, rfl, _⟩ := h
      refine ⟨_, rfl, validate_of hv, ?_⟩
      intro y hy
      rcases P.opt_ok hs with ⟨_, a, rfl, ha⟩ | ⟨_, rfl, _⟩
      · cases hy; exact Status.parsed ha
      · cases hy
    · split at h
      · simp only [P.bind_ok, P.lift_ok, P.pure_ok, validate_eq_ok] at h
        obtain ⟨x, _, ⟨⟨hv, rfl⟩, _⟩, rfl, _⟩ := h
        exact ⟨_, rfl, validate_of hv, by rintro y ⟨⟩⟩
      · cases h

theorem dispatch_parsed {op : Int} {b7 b6 : Bool} {s s' : St} {r : Option Action}
    (h : dispatch op b7 b6 s = .ok r s') : ∀ a, r = some a → Shape a := by
  unfold dispatch at h
  repeat' split at h
  · simp only [parseReadFileDataAction, P.bind_ok, P.pure_ok] at h
    obtain ⟨o, _, ho, rfl, _⟩ := h
    rintro a ⟨⟩
    exact ⟨⟨parseFileDataRequestOperand_parsed ho, trivial⟩, .inr rfl⟩
  · simp only [parseWriteFileDataAction, P.bind_ok, P.pure_ok] at h
    obtain ⟨o, _, ho, rfl, _⟩ := h
    rintro a ⟨⟩
    exact ⟨⟨parseReturnFileDataOperand_parsed ho, trivial⟩, .inr rfl⟩
  · simp only [parseBreakQueryAction, P.bind_ok, P.pure_ok] at h
    obtain ⟨o, _, ho, rfl, _⟩ := h
    rintro a ⟨⟩
    exact ⟨⟨QueryOperand.parsed ho, trivial⟩, .inr rfl⟩
  · simp only [parseCreateFileAction, P.bind_ok, P.pure_ok] at h
    obtain ⟨o, _, ho, rfl, _⟩ := h
    rintro a ⟨⟩
    exact ⟨⟨FileHeaderOperand.parsed ho, trivial⟩, .inr rfl⟩
  · simp only [parseReturnFileDataAction, P.bind_ok, P.pure_ok] at h
    obtain ⟨o, _, ho, rfl, _⟩ := h
    rintro a ⟨⟩
    exact ⟨⟨parseReturnFileDataOperand_parsed ho, trivial⟩, .inr rfl⟩
  · simp only [parseReturnFileHeaderAction, P.bind_ok, P.pure_ok] at h
    obtain ⟨o, _, ho, rfl, _⟩ := h
    rintro a ⟨⟩
    exact ⟨⟨FileHeaderOperand.parsed ho, trivial⟩, .inr rfl⟩
  · unfold parseReturnStatusAction at h
    split at h
    · cases h
    · split at h
      · simp only [parseInterfaceStatusAction, P.bind_ok, P.pure_ok, P.lift_ok] at h
        obtain ⟨_, _, _, _, _, _, o, _, ho, x, _, ⟨hx, _⟩, rfl, _⟩ := h
        rintro a ⟨⟩
        rcases parseInterfaceStatus_parsed ho with rfl | ⟨y, rfl, hy⟩
        · cases hx
        · unfold Action.newStatus at hx
          obtain ⟨_, rfl⟩ := validate_eq_ok.1 hx
          exact ⟨⟨hy, .inr rfl⟩, .inl ⟨y, rfl⟩⟩
      · rw [P.pure_ok] at h
        obtain ⟨rfl, _⟩ := h
        rintro a ⟨⟩
  · simp only [parseTagResponseAction, P.bind_ok, P.pure_ok, P.lift_ok] at h
    obtain ⟨_, _, _, o, _, ⟨ho, _⟩, rfl, _⟩ := h
    rintro a ⟨⟩
    exact ⟨⟨tagId_parsed ho, trivial⟩, .inr rfl⟩
  · unfold parseForwardAction at h
    split at h
    · cases h
    · simp only [P.bind_ok, P.pure_ok, P.lift_ok, Action.newForward, Except.ok.injEq] at h
      obtain ⟨_, _, _, t, _, _, c, _, hc, x, _, ⟨rfl, _⟩, rfl, _⟩ := h
      rintro a ⟨⟩
      refine ⟨⟨?_, _, rfl⟩, .inr rfl⟩
      intro d hd
      have hd : c = some (.d7asp d) := hd
      subst hd
      cases t <;> simp only [parseInterfaceConfig, P.bind_ok, P.pure_ok] at hc
      · cases hc
      · cases hc.1
      · obtain ⟨_, _, _, h, _⟩ := hc; cases h
      · obtain ⟨_, _, _, h, _⟩ := hc; cases h
      · obtain ⟨_, _, h', h, _⟩ := hc
        cases h
        exact Configuration.parsed h'
  · simp only [parseIndirectForwardAction, P.bind_ok, P.pure_ok, P.lift_ok,
      IndirectInterfaceOperand.new, Action.newIndirectForward, validate_eq_ok,
      Except.ok.injEq] at h
    obtain ⟨_, _, _, c, _, hc, o, _, ⟨⟨ho, rfl⟩, _⟩, x, _, ⟨rfl, _⟩, rfl, _⟩ := h
    rintro a ⟨⟩
    refine ⟨⟨⟨validate_of ho, ?_⟩, _, rfl⟩, .inr rfl⟩
    intro d hd
    have hd : c = some d := hd
    subst hd
    rcases P.opt_ok hc with ⟨_, a, ha, hp⟩ | ⟨_, ha, _⟩
    · cases ha; exact Addressee.parsed hp
    · cases ha
  · unfold parseTagRequestAction at h
    split at h
    · cases h
    · simp only [P.bind_ok, P.pure_ok, P.lift_ok] at h
      obtain ⟨_, _, _, o, _, ⟨ho, _⟩, rfl, _⟩ := h
      rintro a ⟨⟩
      exact ⟨⟨tagId_parsed ho, trivial⟩, .inr rfl⟩
  · cases h

theorem parseAlpAction_parsed {s s' : St} {r : Option Action}
    (h : parseAlpAction s = .ok r s') : ∀ a, r = some a → Shape a := by
  unfold parseAlpAction at h
  simp only [P.bind_ok] at h
  obtain ⟨_, _, _, _, _, _, _, _, _, h⟩ := h
  exact dispatch_parsed h

end AlpParser
end Verif
