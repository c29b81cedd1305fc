import Verif.Spec.Actions
import Verif.Props.Codecs

/-! Codec lemmas for ALP actions. -/

namespace Verif

namespace Action

theorem header_spec (b7 b6 : Bool) (o : Operation) :
    0 ≤ headerByte b7 b6 o.op ∧ headerByte b7 b6 o.op ≤ 255 ∧ 0 ≤ o.op ∧ o.op < 2 ^ 6 ∧
    bitsOf 8 (headerByte b7 b6 o.op).toNat = [b7] ++ ([b6] ++ bitsOf 6 o.op.toNat) := by
  cases o <;> simp only [Operation.op] <;> revert b7 b6 <;> decide

/-- All serialisable actions are a header byte followed by the operand. -/
theorem iter_eq (a : Action) (bs : List UInt8) (h : Emits a.iter bs)
    (hs : ∀ e o, a = .status e o → e = 0 ∨ e = 1) :
    a.iter = .int (headerByte a.flags.1 a.flags.2 a.operation.op) ++ a.operation.iter := by
  cases a with
  | regular g r o => rfl
  | forward r o => exact h.raise_inv.elim
  | indirectForward o r p => rfl
  | status e o =>
    have : e = 0 ∨ e = 1 := hs e o rfl
    rcases this with rfl | rfl <;> rfl
  | tagRequest r o => rfl
  | tagResponse e x o => rfl
  | base o => exact h.raise_inv.elim

end Action

/-- An operation with flag bits, as sent. -/
def sent (b7 b6 : Bool) (o : Operation) : Gen := .int (Action.headerByte b7 b6 o.op) ++ o.iter

namespace AlpParser

theorem parse_header {b7 b6 : Bool} {o : Operation} {r : Option Action} {m : List Bool}
    (h : Reads (dispatch o.op b7 b6) r m) :
    Reads parseAlpAction r (bitsOf 8 (Action.headerByte b7 b6 o.op).toNat ++ m) := by
  have hs := Action.header_spec b7 b6 o
  rw [hs.2.2.2.2]
  simp only [List.append_assoc]
  exact .bind (.bool _) (.bind (.bool _) (.bind (Reads.uintI 6 _ hs.2.2.1 hs.2.2.2.1) h))

theorem sent_codec {b7 b6 : Bool} {o : Operation} {r : Option Action} {n : Nat}
    (h : Codec o.iter (dispatch o.op b7 b6) r n) :
    Codec (sent b7 b6 o) parseAlpAction r (1 + n) := by
  obtain ⟨bs, e, l, rd⟩ := h
  have hs := Action.header_spec b7 b6 o
  refine ⟨_, (Emits.int hs.1 hs.2.1).append e, by simp [l]; omega, ?_⟩
  rw [bytesToBits_append, bytesToBits_cons, ofNat_toNat_u8 (by omega), bytesToBits_nil,
    List.append_nil]
  exact parse_header rd

theorem codec_map {α β : Type} {g : Gen} {p : P α} {a : α} {n : Nat} (f : α → β)
    (h : Codec g p a n) : Codec g (do let x ← p; return f x) (f a) n := by
  obtain ⟨bs, e, l, r⟩ := h
  exact ⟨bs, e, l, Reads.bindr r (Reads.pure _)⟩

theorem TagId.codec {t : TagId} (h : t.Built) : Codec t.iter (P.uint 8) t.tagId 1 :=
  Codec.u8 (validate_eq_ok.1 h).1

theorem TagId.new_ok {t : TagId} (h : t.Built) : TagId.new t.tagId = .ok t := h

/-- Number of bytes of an operand list is not needed: only that there is one. -/
theorem survives_codec (b7 b6 : Bool) (o : Operation) (hb : o.Built) (hs : o.Survives b7 b6) :
    ∃ n, Codec o.iter (dispatch o.op b7 b6) (some (o.received b7 b6)) n := by
  cases o with
  | nop => exact hs.elim
  | readFileHeader o => exact hs.elim
  | writeFileHeader o => exact hs.elim
  | interfaceStatus o => exact hs.elim
  | readFileData o =>
    exact ⟨_, codec_map (fun x => some (Action.regular b7 b6 (.readFileData x)))
      (DataRequest.codec (DataRequest.built_iff.1 hb))⟩
  | writeFileData o =>
    have hok := Data.built_iff.1 hb
    have hne : o.length.value ≠ 0 := by
      rw [show o.length.value = o.data.length from hok.2.1]
      have : o.data.length ≠ 0 := fun h => hs (List.length_eq_zero_iff.1 h)
      omega
    simp only [Operation.iter, if_neg hne]
    exact ⟨_, codec_map (fun x => some (Action.regular b7 b6 (.writeFileData x))) (Data.codec hok)⟩
  | returnFileData o =>
    have hok := Data.built_iff.1 hb
    have hne : o.length.value ≠ 0 := by
      rw [show o.length.value = o.data.length from hok.2.1]
      have : o.data.length ≠ 0 := fun h => hs (List.length_eq_zero_iff.1 h)
      omega
    simp only [Operation.iter, if_neg hne]
    exact ⟨_, codec_map (fun x => some (Action.regular b7 b6 (.returnFileData x))) (Data.codec hok)⟩
  | breakQuery o =>
    exact ⟨_, codec_map (fun x => some (Action.regular b7 b6 (.breakQuery x)))
      (QueryOperand.codec (QueryOperand.built_iff.1 hb) hs)⟩
  | createNewFile o =>
    exact ⟨_, codec_map (fun x => some (Action.regular b7 b6 (.createNewFile x)))
      (FileHeaderOperand.codec (FileHeaderOperand.built_iff.1 hb))⟩
  | returnFileHeader o =>
    exact ⟨_, codec_map (fun x => some (Action.regular b7 b6 (.returnFileHeader x)))
      (FileHeaderOperand.codec (FileHeaderOperand.built_iff.1 hb))⟩
  | tagResponse t =>
    exact ⟨1, Codec.seqr (TagId.codec hb) (.bind0 (.lift (TagId.new_ok hb)) (.pure _))⟩
  | tagRequest t =>
    have hs : b6 = false := hs
    subst hs
    exact ⟨1, Codec.seqr (TagId.codec hb) (.bind0 (.lift (TagId.new_ok hb)) (.pure _))⟩
  | forward o =>
    obtain ⟨rfl, hs⟩ := hs
    obtain ⟨t, c⟩ := o
    have key : ∀ (g : Gen) (n : Nat), Codec g (parseInterfaceConfig t) c n →
        Codec (.int t.value ++ g) (parseForwardAction false b6)
          (some (.forward b6 (.forward ⟨t, c⟩))) (1 + n) := by
      intro g n hg
      have ht : isByte t.value := by cases t <;> decide
      refine Codec.seq (Codec.u8 ht) (Codec.seq0 (a := t) (.lift (by cases t <;> rfl)) ?_)
      exact Codec.seqr hg (.bind0 (.lift rfl) (.pure _))
    cases t <;> cases c <;> try exact hs.elim
    · exact ⟨_, key .nil 0 (Codec.pure _)⟩
    · rename_i c; cases c <;> try exact hs.elim
      exact ⟨_, key _ _ (codec_map (fun x => some (IfaceConfig.abp x)) (LoRaWANABP.codec hs))⟩
    · rename_i c; cases c <;> try exact hs.elim
      exact ⟨_, key _ _ (codec_map (fun x => some (IfaceConfig.otaa x)) (LoRaWANOTAA.codec hs))⟩
    · rename_i c; cases c <;> try exact hs.elim
      rename_i c
      have hc := (C10_configuration_round_trip_iff c (hb c rfl)).2 hs
      have hr := (Configuration.codec_reread (Configuration.built_iff.1 (hb c rfl)))
      rw [← (RoundTrips.unique hc.choose_spec hr.roundTrips).1] at hr
      exact ⟨_, key _ _ (codec_map (fun x => some (IfaceConfig.d7asp x)) hr)⟩
  | indirectForward o =>
    obtain ⟨hs1, hs2⟩ := hs
    obtain ⟨i, ov⟩ := o
    obtain ⟨hb1, hb2⟩ := hb
    have hi : isByte i := (validate_eq_ok.1 hb1).1
    have key : ∀ (g : Gen) (n : Nat), Codec g (P.opt b7 Addressee.parse) ov n →
        Codec (.int i ++ g) (parseIndirectForwardAction b7 b6)
          (some (.indirectForward b7 b6 (.indirectForward ⟨i, ov⟩))) (1 + n) := by
      intro g n hg
      refine Codec.seq (Codec.u8 hi) (Codec.seqr hg (.bind0 (.lift hb1) ?_))
      exact .bind0 (.lift rfl) (.pure _)
    cases ov with
    | none =>
      have : b7 = false := by simpa using hs1.symm
      subst this
      exact ⟨_, key .nil 0 (Codec.pure _)⟩
    | some a =>
      have : b7 = true := by simpa using hs1.symm
      subst this
      have ha := hb2 a rfl
      have hc := (C09_addressee_round_trip_iff a ha).2 (hs2 a rfl)
      have hr := (Addressee.codec_reread (Addressee.built_iff.1 ha))
      rw [← (RoundTrips.unique hc.choose_spec hr.roundTrips).1] at hr
      exact ⟨_, key _ _ (codec_map (fun x => some x) hr)⟩

end AlpParser
end Verif
