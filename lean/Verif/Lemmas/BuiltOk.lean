import Verif.Spec.Built
import Verif.Lemmas.Codec2

/-! `Built` (through the constructors) in terms of the ranges used by the codec lemmas. -/

namespace Verif

theorem CT.built_iff {c : CT} : c.Built ↔ c.Ok := by
  unfold CT.Built CT.new CT.Ok; rw [validate_eq_ok]; simp
theorem ChannelID.built_iff {c : ChannelID} : c.Built ↔ c.Ok := by
  unfold ChannelID.Built ChannelID.new ChannelID.Ok; rw [validate_eq_ok]; simp
theorem ChannelStatusIdentifier.built_iff {c : ChannelStatusIdentifier} : c.Built ↔ c.Ok := by
  unfold ChannelStatusIdentifier.Built ChannelStatusIdentifier.new ChannelStatusIdentifier.Ok
  rw [validate_eq_ok]; simp
theorem SubBand.built_iff {c : SubBand} : c.Built ↔ c.Ok := by
  unfold SubBand.Built SubBand.new SubBand.Ok; rw [validate_eq_ok]; simp
theorem FileHeader.built_iff {c : FileHeader} : c.Built ↔ c.Ok := by
  unfold FileHeader.Built FileHeader.new FileHeader.Ok; rw [validate_eq_ok]; simp
theorem FileHeaderOperand.built_iff {c : FileHeaderOperand} : c.Built ↔ c.Ok := by
  unfold FileHeaderOperand.Built FileHeaderOperand.new FileHeaderOperand.Ok
  rw [validate_eq_ok, FileHeader.built_iff]; simp
theorem Addressee.built_iff {c : Addressee} : c.Built ↔ c.Ok := by
  unfold Addressee.Built Addressee.new Addressee.Ok
  simp only [validate_eq_ok, CT.built_iff, and_true, and_assoc]
theorem Configuration.built_iff {c : Configuration} : c.Built ↔ c.Ok := by
  unfold Configuration.Built Configuration.Ok
  rw [CT.built_iff, Addressee.built_iff]
theorem Status.built_iff {c : Status} : c.Built ↔ c.Ok := by
  unfold Status.Built Status.new Status.Ok
  simp only [validate_eq_ok, CT.built_iff, Addressee.built_iff, ChannelID.built_iff, and_true]
  tauto
theorem Length.built_iff {c : Length} : c.Built ↔ c.Ok := by
  unfold Length.Built Length.new Length.Ok; rw [validate_eq_ok]; simp
theorem Offset.built_iff {c : Offset} : c.Built ↔ c.Ok := by
  unfold Offset.Built Offset.new Offset.Ok; rw [validate_eq_ok, Length.built_iff]; simp
theorem DataRequest.built_iff {c : DataRequest} : c.Built ↔ c.Ok := by
  unfold DataRequest.Built DataRequest.Ok
  rw [Offset.built_iff, and_comm]
  refine and_congr_right fun _ => ?_
  unfold DataRequest.new Length.new Length.Ok validate
  split
  · next h => simp [h, bind, Except.bind, pure, Except.pure]
  · next h => simp [h, bind, Except.bind]
theorem Data.built_iff {c : Data} : c.Built ↔ c.Ok := by
  unfold Data.Built Data.Ok
  rw [Offset.built_iff, and_comm]
  refine and_congr_right fun _ => ?_
  obtain ⟨o, ⟨l⟩, d⟩ := c
  unfold Data.new Length.new Length.Ok
  simp only [bind, Except.bind]
  constructor
  · intro h
    split at h
    · cases h
    · next h1 =>
      obtain ⟨h1a, rfl⟩ := validate_eq_ok.1 h1
      obtain ⟨h2a, h2b⟩ := validate_eq_ok.1 h
      simp only [Data.mk.injEq, Length.mk.injEq, true_and, and_true] at h2b
      subst h2b
      exact ⟨rfl, h1a, h2a⟩
  · rintro ⟨rfl, h1, h2⟩
    rw [validate_of h1]
    exact validate_of h2
theorem QueryOperand.built_iff {c : QueryOperand} : c.Built ↔ c.Ok := by
  unfold QueryOperand.Built QueryOperand.new QueryOperand.Ok
  simp only [validate_eq_ok, Length.built_iff, Offset.built_iff, and_true]
  tauto

end Verif
