import Verif.Lemmas.ActionInv

/-! C19: ALP actions. -/

namespace Verif

theorem Operation.received_same (b7 b6 : Bool) (o : Operation) (h : o.Survives b7 b6) :
    (o.received b7 b6).operation = o ∧ (o.received b7 b6).flags = (b7, b6) := by
  cases o <;> simp_all [Operation.received, Action.operation, Action.flags, Operation.Survives]

theorem Action.iter_sent (a : Action) (hb : a.Built) (hi : a.Iterable) :
    a.iter = sent a.flags.1 a.flags.2 a.operation := by
  cases a with
  | forward r o => exact hi.elim
  | base o => exact hi.elim
  | status e o => rcases hb.2 with rfl | rfl <;> rfl
  | _ => rfl

/-- C19 for the actions whose operation `Survives`: they parse back to the same operation, operand
and flag bits, consuming exactly their bytes. What is missing for the full claim (all actions of the
11 parseable opcodes) is false; `C19_action_iff` is the exact characterisation. -/
theorem C19_action_round_trip_partial (a : Action) (hb : a.Built) (hi : a.Iterable)
    (hs : a.operation.Survives a.flags.1 a.flags.2) :
    ∃ b n, RoundTrips a.iter AlpParser.parseAlpAction (some b) n ∧
      b.operation = a.operation ∧ b.flags = a.flags := by
  obtain ⟨n, hc⟩ := AlpParser.survives_codec _ _ _ hb.1 hs
  rw [a.iter_sent hb hi]
  have := (AlpParser.sent_codec hc).roundTrips
  exact ⟨_, _, this, (Operation.received_same _ _ _ hs).1, (Operation.received_same _ _ _ hs).2⟩

/-- A read with a response bit. -/
example : ∃ b n, RoundTrips (Action.regular false true (.readFileData ⟨⟨0x40, ⟨70⟩⟩, ⟨16⟩⟩)).iter
    AlpParser.parseAlpAction (some b) n ∧ b.operation = .readFileData ⟨⟨0x40, ⟨70⟩⟩, ⟨16⟩⟩ ∧ b.flags = (false, true) :=
  C19_action_round_trip_partial _ ⟨show DataRequest.Built ⟨⟨0x40, ⟨70⟩⟩, ⟨16⟩⟩ by decide, trivial⟩ trivial trivial

/-- C19: exactly which actions come back. -/
theorem C19_action_iff (a : Action) (hb : a.Built) :
    a.ComesBack ↔ a.Iterable ∧ a.operation.Survives a.flags.1 a.flags.2 := by
  constructor
  · rintro ⟨b, n, h, ho, hf⟩
    have hi : a.Iterable := by
      obtain ⟨bs, e, -⟩ := h
      cases a with
      | forward r o => cases e
      | base o => cases e
      | _ => trivial
    refine ⟨hi, ?_⟩
    rw [a.iter_sent hb hi] at h
    exact AlpParser.survives_of_back hb.1 (AlpParser.back_of_roundTrips h ho)
  · rintro ⟨hi, hs⟩
    exact C19_action_round_trip_partial a hb hi hs

/-- A read of 16 bytes at offset 70 of file 0x40, with a response. -/
example : (Action.regular false true (.readFileData ⟨⟨0x40, ⟨70⟩⟩, ⟨16⟩⟩)).ComesBack := by
  rw [C19_action_iff]
  · exact ⟨trivial, trivial⟩
  · exact ⟨show DataRequest.Built ⟨⟨0x40, ⟨70⟩⟩, ⟨16⟩⟩ by decide, trivial⟩
example : bytearray (Action.regular false true (.readFileData ⟨⟨0x40, ⟨70⟩⟩, ⟨16⟩⟩)).iter =
    .ok [0x41, 0x40, 0x40, 70, 16] := by decide
/-- A write of no data is sent without its operand and does not come back. -/
example : ¬ (Action.regular false false (.writeFileData ⟨⟨0x40, ⟨0⟩⟩, ⟨0⟩, []⟩)).ComesBack := by
  rw [C19_action_iff]
  · exact fun h => h.2 rfl
  · exact ⟨show Data.Built ⟨⟨0x40, ⟨0⟩⟩, ⟨0⟩, []⟩ by decide, trivial⟩
/-- A forward to a VID over D7ASP, written as a RegularAction, comes back. -/
example : (Action.regular false false (.forward ⟨.D7ASP, some (.d7asp
    ⟨⟨.ANY, .NO, false, true⟩, ⟨3, 4⟩, ⟨1, .VID, .int 0x1234, .NONE⟩⟩)⟩)).ComesBack := by
  rw [C19_action_iff]
  · refine ⟨trivial, rfl, ?_⟩
    rintro c ⟨⟩
  · refine ⟨?_, trivial⟩
    rintro c ⟨⟩
    refine ⟨by decide, by decide, ?_⟩; intro c h; cases h
/-- No interface status comes back: its serialisation has no length byte. -/
example (o : InterfaceStatusOperand) (h : o.Built) :
    ¬ (Action.status 1 (.interfaceStatus o)).ComesBack := by
  rw [C19_action_iff]
  · exact fun h => h.2
  · exact ⟨h, Or.inr rfl⟩

/-- C19: the ForwardAction class itself can never be serialised. -/
theorem C19_forward_action_unserialisable (r : Bool) (o : Operation) :
    bytearray (Action.forward r o).iter = .error .attributeError := rfl

example : bytearray (Action.forward true (.forward ⟨.SERIAL, none⟩)).iter = .error .attributeError :=
  C19_forward_action_unserialisable _ _

/-- C19: what goes wrong. For the remaining operations the outcome of parsing is an exception,
whatever follows (`nop`, file header requests, a forward with the group bit, a tag request with the
response bit). -/
theorem C19_unparseable (b7 b6 : Bool) (o : Operation)
    (ho : o = .nop ∨ (∃ x, o = .readFileHeader x) ∨ (∃ x, o = .writeFileHeader x) ∨
      (b7 = true ∧ ∃ x, o = .forward x) ∨ (b6 = true ∧ ∃ x, o = .tagRequest x))
    (bs : List UInt8) (h : bytearray (Action.regular b7 b6 o).iter = .ok bs)
    (following : List UInt8) :
    ∃ s, AlpParser.parseAlpAction (stream (bs ++ following)) = .err .parseError s := by
  have hs := Action.header_spec b7 b6 o
  obtain ⟨a, c, ea, ec, rfl⟩ := Emits.append_inv (show Emits (.int _ ++ o.iter) bs from h)
  obtain ⟨_, _, rfl⟩ := ea.int_inv
  have key : Fails (AlpParser.dispatch o.op b7 b6) .parseError (bytesToBits (c ++ following)) := by
    rcases ho with rfl | ⟨x, rfl⟩ | ⟨x, rfl⟩ | ⟨rfl, x, rfl⟩ | ⟨rfl, x, rfl⟩ <;>
    exact Fails.raise _
  have : Fails AlpParser.parseAlpAction .parseError
      (bytesToBits ([UInt8.ofNat (Action.headerByte b7 b6 o.op).toNat] ++ c ++ following)) := by
    simp only [List.cons_append, List.nil_append, bytesToBits_cons]
    rw [ofNat_toNat_u8 (by omega), hs.2.2.2.2]
    simp only [List.append_assoc]
    exact .bind (.bool _) (.bind (.bool _) (.bind (Reads.uintI 6 _ hs.2.2.1 hs.2.2.2.1) key))
  have := this 0 []
  simpa [stream] using this

/-- A request for the header of file 0x40. -/
example : ∃ s, AlpParser.parseAlpAction (stream ([0x02, 0x40] ++ [7])) = .err .parseError s :=
  C19_unparseable false false (.readFileHeader ⟨0x40⟩) (.inr (.inl ⟨_, rfl⟩)) _ rfl [7]

end Verif
