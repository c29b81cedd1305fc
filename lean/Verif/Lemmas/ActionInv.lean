import Verif.Lemmas.ActionCodec

/-! Which actions can come back: inversion of the action parser. -/

namespace Verif

theorem P.uint_pos {n : Nat} {s s' : St} {v : Int} (h : P.uint n s = .ok v s') :
    s'.pos = s.pos + n := by
  unfold P.uint at h
  simp only [P.bind_ok, P.takeBits_ok, P.pure_ok] at h
  obtain ⟨_, _, ⟨_, _, h⟩, _, rfl⟩ := h
  exact h

theorem P.sint_pos {n : Nat} {s s' : St} {v : Int} (h : P.sint n s = .ok v s') :
    s'.pos = s.pos + n := by
  unfold P.sint at h
  simp only [P.bind_ok, P.takeBits_ok, P.pure_ok] at h
  obtain ⟨_, _, ⟨_, _, h⟩, _, rfl⟩ := h
  exact h

theorem P.bool_pos {s s' : St} {v : Bool} (h : P.bool s = .ok v s') : s'.pos = s.pos + 1 := by
  unfold P.bool at h
  simp only [P.bind_ok, P.takeBits_ok, P.pure_ok] at h
  obtain ⟨_, _, ⟨_, _, h⟩, _, rfl⟩ := h
  exact h

theorem P.pad_pos {n : Nat} {s s' : St} {v : Unit} (h : P.pad n s = .ok v s') :
    s'.pos = s.pos + n := by
  unfold P.pad at h
  simp only [P.bind_ok, P.takeBits_ok, P.pure_ok] at h
  obtain ⟨_, _, ⟨_, _, h⟩, _, rfl⟩ := h
  exact h

theorem Addressee.parse_pos {s s' : St} {a : Addressee} (h : Addressee.parse s = .ok a s') :
    s'.pos = s.pos + 16 + 8 * Addressee.lengthFor a.idType := by
  unfold Addressee.parse at h
  simp only [P.bind_ok, P.lift_ok, Addressee.new, validate_eq_ok] at h
  obtain ⟨_, s1, h1, _, s2, h2, t, _, ⟨_, rfl⟩, _, s4, h4, _, _, ⟨_, rfl⟩, _, s6, h6, _, s7, h7,
    _, _, ⟨_, rfl⟩, ⟨_, rfl⟩, rfl⟩ := h
  have := P.pad_pos h1
  have := P.uint_pos h2
  have := P.uint_pos h4
  have := P.uint_pos h6
  have : s7.pos = s6.pos + 8 * Addressee.lengthFor t := by
    unfold Addressee.parseRawId at h7
    split at h7
    · simp only [P.bind_ok, P.pure_ok] at h7
      obtain ⟨_, _, h7, _, rfl⟩ := h7
      have := P.uint_pos h7
      omega
    · simp only [P.pure_ok] at h7
      obtain ⟨_, rfl⟩ := h7
      omega
  simp only
  omega

theorem ChannelID.parse_pos {s s' : St} {a : ChannelID} (h : ChannelID.parse s = .ok a s') :
    s'.pos = s.pos + 24 := by
  unfold ChannelID.parse ChannelHeader.parse at h
  simp only [P.bind_ok, P.lift_ok, P.pure_ok] at h
  obtain ⟨_, s6, ⟨_, s1, h1, _, s2, h2, _, _, ⟨_, rfl⟩, _, s4, h4, _, _, ⟨_, rfl⟩, _, s5, h5,
    _, _, ⟨_, rfl⟩, _, rfl⟩, _, s7, h7, _, rfl⟩ := h
  have := P.pad_pos h1
  have := P.uint_pos h2
  have := P.uint_pos h4
  have := P.uint_pos h5
  have := P.uint_pos h7
  omega

theorem CT.parse_pos {s s' : St} {a : CT} (h : CT.parse s = .ok a s') : s'.pos = s.pos + 8 := by
  unfold CT.parse at h
  simp only [P.bind_ok, P.lift_ok] at h
  obtain ⟨_, s1, h1, _, s2, h2, _, rfl⟩ := h
  have := P.uint_pos h1
  have := P.uint_pos h2
  omega

theorem Status.parse_pos {s s' : St} {a : Status} (h : Status.parse s = .ok a s') :
    s'.pos = s.pos + 96 + 8 * Addressee.lengthFor a.addressee.idType := by
  unfold Status.parse at h
  simp only [P.bind_ok, P.lift_ok, Status.new, validate_eq_ok] at h
  obtain ⟨_, s1, h1, _, s2, h2, _, s3, h3, _, s4, h4, _, s5, h5, _, s6, h6, _, s7, h7, _, s8, h8,
    _, s9, h9, _, s10, h10, _, s11, h11, _, s12, h12, _, s13, h13, ⟨_, rfl⟩, rfl⟩ := h
  have := ChannelID.parse_pos h1
  have := P.sint_pos h2
  have := P.uint_pos h3
  have := P.uint_pos h4
  have := P.bool_pos h5
  have := P.bool_pos h6
  have := P.bool_pos h7
  have := P.bool_pos h8
  have := P.pad_pos h9
  have := P.uint_pos h10
  have := P.uint_pos h11
  have := CT.parse_pos h12
  have := Addressee.parse_pos h13
  simp only
  omega

namespace AlpParser

/-- `o`, sent with `b7 b6`, comes back as `o`. -/
def Back (b7 b6 : Bool) (o : Operation) : Prop :=
  ∃ bs, Emits o.iter bs ∧ ∃ b : Action, b.operation = o ∧ ∀ following,
    dispatch o.op b7 b6 ⟨8, bytesToBits (bs ++ following)⟩ =
      .ok (some b) ⟨8 + 8 * bs.length, bytesToBits following⟩

theorem back_of_roundTrips {b7 b6 : Bool} {o : Operation} {b : Action} {n : Nat}
    (h : RoundTrips (sent b7 b6 o) parseAlpAction (some b) n) (hb : b.operation = o) :
    Back b7 b6 o := by
  obtain ⟨bs, e, l, r⟩ := h
  have hs := Action.header_spec b7 b6 o
  obtain ⟨a, c, ea, ec, rfl⟩ := Emits.append_inv (show Emits _ _ from e)
  have := ea.int_inv.2.2
  subst this
  refine ⟨c, ec, b, hb, fun following => ?_⟩
  have hr := r following
  unfold parseAlpAction at hr
  have h8 : bytesToBits ([UInt8.ofNat (Action.headerByte b7 b6 o.op).toNat] ++ c ++ following) =
      [b7] ++ ([b6] ++ (bitsOf 6 o.op.toNat ++ bytesToBits (c ++ following))) := by
    simp only [List.cons_append, List.nil_append, bytesToBits_cons]
    rw [ofNat_toNat_u8 (by omega), hs.2.2.2.2]
    simp
  rw [stream, h8, P.bind_apply, Reads.bool b7] at hr
  dsimp only at hr
  rw [P.bind_apply, Reads.bool b6] at hr
  dsimp only at hr
  rw [P.bind_apply, Reads.uintI 6 _ hs.2.2.1 hs.2.2.2.1] at hr
  simp only [List.length_cons, List.length_nil, bitsOf_length] at hr
  rw [hr]
  congr 2
  simp at l
  omega

theorem emits_data_nil {b7 b6 : Bool} {d : Data} (h : Back b7 b6 (.writeFileData d)) (hd : d.Ok) :
    d.data ≠ [] := by
  intro hn
  obtain ⟨bs, e, b, hb, r⟩ := h
  have h0 : d.length.value = 0 := by rw [show d.length.value = d.data.length from hd.2.1, hn]; rfl
  simp only [Operation.iter, if_pos h0] at e
  have := e.unique Emits.nil
  subst this
  have := r []
  simp [dispatch, Operation.op, parseWriteFileDataAction, parseReturnFileDataOperand, P.bind_apply,
    Offset.parse, P.uint, P.takeBits] at this

theorem emits_rdata_nil {b7 b6 : Bool} {d : Data} (h : Back b7 b6 (.returnFileData d)) (hd : d.Ok) :
    d.data ≠ [] := by
  intro hn
  obtain ⟨bs, e, b, hb, r⟩ := h
  have h0 : d.length.value = 0 := by rw [show d.length.value = d.data.length from hd.2.1, hn]; rfl
  simp only [Operation.iter, if_pos h0] at e
  have := e.unique Emits.nil
  subst this
  have := r []
  simp [dispatch, Operation.op, parseReturnFileDataAction, parseReturnFileDataOperand, P.bind_apply,
    Offset.parse, P.uint, P.takeBits] at this

theorem status_pos {s s' : St} {l : Int} {o : InterfaceStatusOperand}
    (h : parseInterfaceStatusD7asp l s = .ok (some (.interfaceStatus o)) s') (st : Status)
    (ho : o.status = some st) :
    s'.pos = s.pos + 96 + 8 * Addressee.lengthFor st.addressee.idType := by
  unfold parseInterfaceStatusD7asp P.opt at h
  split at h
  · simp only [P.bind_ok, P.pure_ok, P.lift_ok, InterfaceStatusOperand.new, validate_eq_ok] at h
    obtain ⟨_, _, ⟨_, _, h, rfl, rfl⟩, _, _, ⟨⟨_, rfl⟩, rfl⟩, h2, rfl⟩ := h
    simp only [Option.some.injEq, Operation.interfaceStatus.injEq] at h2
    subst h2
    simp only [Option.some.injEq] at ho
    subst ho
    exact Status.parse_pos h
  · simp only [P.bind_ok, P.pure_ok, P.lift_ok, InterfaceStatusOperand.new, validate_eq_ok] at h
    obtain ⟨_, _, ⟨rfl, rfl⟩, _, _, ⟨⟨_, rfl⟩, rfl⟩, h2, rfl⟩ := h
    simp only [Option.some.injEq, Operation.interfaceStatus.injEq] at h2
    subst h2
    cases ho

theorem no_status {b7 b6 : Bool} {o : InterfaceStatusOperand} (hb : (Operation.interfaceStatus o).Built)
    (h : Back b7 b6 (.interfaceStatus o)) : False := by
  obtain ⟨bs, e, b, hbo, r⟩ := h
  have r := r []
  -- the status is there
  obtain ⟨i, st⟩ := o
  cases st with
  | none =>
    obtain ⟨_, _, _, e2, _⟩ := Emits.append_inv (show Emits (.int i ++ .raise .typeError) bs from e)
    exact e2.raise_inv
  | some st =>
    obtain ⟨a, c, e1, e2, rfl⟩ := Emits.append_inv (show Emits (.int i ++ st.iter) bs from e)
    have h1 := e1.int_inv
    have hst := Status.built_iff.1 (hb.2 st rfl)
    have hl : c.length = 12 + Addressee.lengthFor st.addressee.idType := by
      obtain ⟨cb, ab, _, l1, _, _, l8, _, e⟩ := Status.emits hst
      have := e2.unique e
      subst this
      simp [l1, l8]
      omega
    change parseReturnStatusAction b7 b6 _ = _ at r
    unfold parseReturnStatusAction at r
    split at r
    · cases r
    split at r
    · unfold parseInterfaceStatusAction at r
      simp only [P.bind_ok, P.pure_ok, P.lift_ok] at r
      obtain ⟨id, s1, r1, len, s2, r2, op, s3, r3, act, _, ⟨r4, rfl⟩, r5, r6⟩ := r
      have p1 := P.uint_pos r1
      have p2 := P.uint_pos r2
      cases op with
      | none => cases r4
      | some op =>
        have : act = .status 1 op := (validate_eq_ok.1 r4).2.symm
        subst this
        simp only [Option.some.injEq] at r5
        subst r5
        simp only [Action.operation] at hbo
        subst hbo
        have p3 : s3.pos = s2.pos + 96 + 8 * Addressee.lengthFor st.addressee.idType := by
          unfold parseInterfaceStatus at r3
          split at r3
          · cases r3
          split at r3
          · exact status_pos r3 st rfl
          split at r3
          · unfold parseInterfaceStatusSerial at r3
            simp only [P.bind_ok, P.pure_ok, P.lift_ok, InterfaceStatusOperand.new,
              validate_eq_ok] at r3
            obtain ⟨_, _, ⟨⟨_, rfl⟩, rfl⟩, h2, rfl⟩ := r3
            simp at h2
          · cases r3
        rw [r6] at p3
        simp only at p1 p2 p3
        rw [h1.2.2] at p3
        simp at p3
        omega
    · cases r

theorem addressee_survives {a : Addressee} (ha : a.Built) (h : a.reread = a) : a.Survives := by
  have := (Addressee.codec_reread (Addressee.built_iff.1 ha)).roundTrips
  rw [h] at this
  exact (C09_addressee_round_trip_iff a ha).1 ⟨_, this⟩

theorem forward_survives {b7 b6 : Bool} {o : InterfaceConfiguration}
    (hb : (Operation.forward o).Built) (h : Back b7 b6 (.forward o)) :
    b7 = false ∧ o.Survives := by
  obtain ⟨bs, e, b, hbo, r⟩ := h
  have r := r []
  obtain ⟨t, c⟩ := o
  change parseForwardAction b7 b6 _ = _ at r
  unfold parseForwardAction at r
  split at r
  · cases r
  next hb7 =>
  refine ⟨by simpa using hb7, ?_⟩
  simp only [P.bind_ok, P.pure_ok, P.lift_ok] at r
  obtain ⟨v, s1, r1, t', _, ⟨r2, rfl⟩, cfg, s3, r3, act, _, ⟨r4, rfl⟩, r5, r6⟩ := r
  simp only [Option.some.injEq] at r5
  subst r5
  have : act = .forward b6 (.forward ⟨t', cfg⟩) := by
    unfold Action.newForward at r4
    cases r4; rfl
  subst this
  simp only [Action.operation, Operation.forward.injEq, InterfaceConfiguration.mk.injEq] at hbo
  obtain ⟨rfl, rfl⟩ := hbo
  simp only [Operation.iter, InterfaceConfiguration.iter] at e
  obtain ⟨a1, d, e1, e2, rfl⟩ := Emits.append_inv e
  have ht := e1.int_inv
  obtain ⟨_, _, rfl⟩ := ht
  have hs1 : s1 = ⟨16, bytesToBits d⟩ := by
    have ht : 0 ≤ t'.value ∧ t'.value < 2 ^ 8 := by cases t' <;> decide
    have := Reads.uintI 8 _ ht.1 ht.2 8 (bytesToBits d)
    simp only [List.cons_append, List.nil_append, List.append_nil, bytesToBits_cons] at r1
    rw [ofNat_toNat_u8 (by omega), this] at r1
    injection r1 with _ h
    rw [← h]; simp
  subst hs1
  cases t' with
  | HOST => cases r3
  | SERIAL => cases r3; trivial
  | D7ASP =>
    simp only [parseInterfaceConfig, P.bind_ok, P.pure_ok] at r3
    obtain ⟨c, s4, r7, rfl, rfl⟩ := r3
    have hc := hb c rfl
    obtain ⟨bs, e', l, rd⟩ := Configuration.codec_reread (Configuration.built_iff.1 hc)
    have : d = bs := e2.unique e'
    subst this
    have := rd 16 []
    rw [List.append_nil, r7] at this
    injection this with h1 _
    have : c.addressee = c.addressee.reread := congrArg Configuration.addressee h1
    exact addressee_survives hc.2 this.symm
  | LORAWAN_ABP =>
    simp only [parseInterfaceConfig, P.bind_ok, P.pure_ok] at r3
    obtain ⟨c, s4, r3, rfl, rfl⟩ := r3
    exact LoRaWANABP.inRange_of_emits e2
  | LORAWAN_OTAA =>
    simp only [parseInterfaceConfig, P.bind_ok, P.pure_ok] at r3
    obtain ⟨c, s4, r3, rfl, rfl⟩ := r3
    exact LoRaWANOTAA.inRange_of_emits e2

theorem indirect_survives {b7 b6 : Bool} {o : IndirectInterfaceOperand} (hb : o.Built)
    (h : Back b7 b6 (.indirectForward o)) :
    o.overload.isSome = b7 ∧ ∀ a, o.overload = some a → a.Survives := by
  obtain ⟨bs, e, b, hbo, r⟩ := h
  have r := r []
  obtain ⟨i, ov⟩ := o
  change parseIndirectForwardAction b7 b6 _ = _ at r
  unfold parseIndirectForwardAction at r
  simp only [P.bind_ok, P.pure_ok, P.lift_ok] at r
  obtain ⟨v, s1, r1, ov', s2, r2, o', _, ⟨r3, rfl⟩, act, _, ⟨r4, rfl⟩, r5, r6⟩ := r
  simp only [Option.some.injEq] at r5
  subst r5
  have : act = .indirectForward b7 b6 (.indirectForward o') := by
    unfold Action.newIndirectForward at r4
    cases r4; rfl
  subst this
  simp only [Action.operation, Operation.indirectForward.injEq] at hbo
  subst hbo
  obtain ⟨_, h2⟩ := validate_eq_ok.1 r3
  injection h2 with h2 h3
  subst h2 h3
  simp only [Operation.iter, IndirectInterfaceOperand.iter] at e
  obtain ⟨a1, d, e1, e2, rfl⟩ := Emits.append_inv e
  obtain ⟨hi0, hi1, rfl⟩ := e1.int_inv
  have hs1 : s1 = ⟨16, bytesToBits d⟩ := by
    have := Reads.uintI 8 _ hi0 (by omega) 8 (bytesToBits d)
    simp only [List.cons_append, List.nil_append, List.append_nil, bytesToBits_cons] at r1
    rw [ofNat_toNat_u8 (by omega), this] at r1
    injection r1 with _ h
    rw [← h]; simp
  subst hs1
  cases b7 with
  | false =>
    cases r2
    exact ⟨rfl, by rintro a ⟨⟩⟩
  | true =>
    simp only [P.opt, if_true, P.bind_ok, P.pure_ok] at r2
    obtain ⟨a, s4, r7, rfl, rfl⟩ := r2
    refine ⟨rfl, ?_⟩
    rintro a' ⟨⟩
    have ha := hb.2 a rfl
    obtain ⟨bs, e', l, rd⟩ := Addressee.codec_reread (Addressee.built_iff.1 ha)
    have : d = bs := e2.unique e'
    subst this
    have := rd 16 []
    rw [List.append_nil, r7] at this
    injection this with h1 _
    exact addressee_survives ha h1.symm

theorem survives_of_back {b7 b6 : Bool} {o : Operation} (hb : o.Built) (h : Back b7 b6 o) :
    o.Survives b7 b6 := by
  cases o with
  | nop => obtain ⟨_, _, _, _, r⟩ := h; cases r []
  | readFileHeader o => obtain ⟨_, _, _, _, r⟩ := h; cases r []
  | writeFileHeader o => obtain ⟨_, _, _, _, r⟩ := h; cases r []
  | interfaceStatus o => exact no_status hb h
  | readFileData o => trivial
  | createNewFile o => trivial
  | returnFileHeader o => trivial
  | tagResponse o => trivial
  | writeFileData o => exact emits_data_nil h (Data.built_iff.1 hb)
  | returnFileData o => exact emits_rdata_nil h (Data.built_iff.1 hb)
  | forward o => exact forward_survives hb h
  | indirectForward o => exact indirect_survives hb h
  | tagRequest o =>
    obtain ⟨_, _, _, _, r⟩ := h
    have r := r []
    cases b6
    · rfl
    · cases r
  | breakQuery q =>
    obtain ⟨bs, e, b, hbo, r⟩ := h
    have r := r []
    change parseBreakQueryAction b7 b6 _ = _ at r
    unfold parseBreakQueryAction at r
    simp only [P.bind_ok, P.pure_ok] at r
    obtain ⟨q', s1, r1, r2, r3⟩ := r
    simp only [Option.some.injEq] at r2
    subst r2
    simp only [Action.operation, Operation.breakQuery.injEq] at hbo
    subst hbo
    exact QueryOperand.parse_inv r1

end AlpParser
end Verif
