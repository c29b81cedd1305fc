import Verif.Lemmas.Good
import Verif.Model.AlpParser

/-! Every sub-parser of the ALP parser is extension stable, raises only the listed exceptions and
consumes a whole number of bytes. -/

namespace Verif

/-- Sequencing of the primitive facts. -/
macro "good" : tactic => `(tactic| with_reducible repeat' first
  | exact Good.uint _ | exact Good.sint _ | exact Good.bool | exact Good.pad _ | exact Good.bytes _
  | exact Good.lift _ | exact Good.pure _ | exact Good.raise _ | exact Good.assert _ _
  | assumption
  | refine Good.bind ?_ (fun _ => ?_) | refine Good.opt _ ?_)

theorem CT.good : Good CT.parse := by unfold CT.parse; good
theorem ChannelHeader.good : Good ChannelHeader.parse := by unfold ChannelHeader.parse; good
theorem ChannelID.good : Good ChannelID.parse := by
  have := ChannelHeader.good; unfold ChannelID.parse; good
theorem ChannelStatusIdentifier.good : Good ChannelStatusIdentifier.parse := by
  unfold ChannelStatusIdentifier.parse; good
theorem SubBand.good : Good SubBand.parse := by unfold SubBand.parse; good
theorem FilePermissions.good : Good FilePermissions.parse := by unfold FilePermissions.parse; good
theorem FileProperties.good : Good FileProperties.parse := by unfold FileProperties.parse; good
theorem FileHeader.good : Good FileHeader.parse := by
  have := FilePermissions.good
  have := FileProperties.good
  unfold FileHeader.parse; good
theorem FileHeaderOperand.good : Good FileHeaderOperand.parse := by
  have := FileHeader.good; unfold FileHeaderOperand.parse; good
theorem Addressee.parseRawId_good (t : IdType) : Good (Addressee.parseRawId t) := by
  unfold Addressee.parseRawId; split <;> good
theorem Addressee.good : Good Addressee.parse := by
  have := Addressee.parseRawId_good
  unfold Addressee.parse; good
  exact this _
theorem QoS.good : Good QoS.parse := by unfold QoS.parse; good
theorem Configuration.good : Good Configuration.parse := by
  have := QoS.good
  have := CT.good
  have := Addressee.good
  unfold Configuration.parse; good
theorem Status.good : Good Status.parse := by
  have := ChannelID.good
  have := CT.good
  have := Addressee.good
  unfold Status.parse; good
theorem Length.good : Good Length.parse := by unfold Length.parse; good
theorem Offset.good : Good Offset.parse := by have := Length.good; unfold Offset.parse; good
theorem ArithQueryParams.good : Good ArithQueryParams.parse := by
  unfold ArithQueryParams.parse; good
theorem QueryOperand.good : Good QueryOperand.parse := by
  have := ArithQueryParams.good
  have := Length.good
  have := Offset.good
  unfold QueryOperand.parse; good
theorem LoRaWANABP.good : Good LoRaWANABP.parse := by unfold LoRaWANABP.parse; good
theorem LoRaWANOTAA.good : Good LoRaWANOTAA.parse := by unfold LoRaWANOTAA.parse; good

namespace AlpParser

theorem parseFileDataRequestOperand_good : Good parseFileDataRequestOperand := by
  have := Length.good
  have := Offset.good
  unfold parseFileDataRequestOperand; good
theorem parseReturnFileDataOperand_good : Good parseReturnFileDataOperand := by
  have := Length.good
  have := Offset.good
  unfold parseReturnFileDataOperand; good
theorem parseInterfaceStatusD7asp_good (l : Int) : Good (parseInterfaceStatusD7asp l) := by
  have := Status.good
  unfold parseInterfaceStatusD7asp; good
theorem parseInterfaceStatus_good (i l : Int) : Good (parseInterfaceStatus i l) := by
  have := parseInterfaceStatusD7asp_good l
  unfold parseInterfaceStatus parseInterfaceStatusHost parseInterfaceStatusSerial
  split
  · good
  split
  · good
  split <;> good
theorem parseInterfaceStatusAction_good : Good parseInterfaceStatusAction := by
  have := parseInterfaceStatus_good
  unfold parseInterfaceStatusAction; good
  exact this _ _
theorem parseInterfaceConfig_good (t : InterfaceType) : Good (parseInterfaceConfig t) := by
  have := Configuration.good
  have := LoRaWANABP.good
  have := LoRaWANOTAA.good
  cases t <;> unfold parseInterfaceConfig <;> good

theorem dispatch_good (op : Int) (b7 b6 : Bool) : Good (dispatch op b7 b6) := by
  have := parseFileDataRequestOperand_good
  have := parseReturnFileDataOperand_good
  have := QueryOperand.good
  have := FileHeaderOperand.good
  have := Addressee.good
  have h1 := parseInterfaceStatusAction_good
  have h2 := parseInterfaceConfig_good
  unfold dispatch
  split; · unfold parseReadFileDataAction; good
  split; · unfold parseWriteFileDataAction; good
  split; · unfold parseBreakQueryAction; good
  split; · unfold parseCreateFileAction; good
  split; · unfold parseReturnFileDataAction; good
  split; · unfold parseReturnFileHeaderAction; good
  split
  · unfold parseReturnStatusAction
    split
    · good
    split <;> good
  split; · unfold parseTagResponseAction; good
  split
  · unfold parseForwardAction
    split
    · good
    · good
      exact h2 _
  split; · unfold parseIndirectForwardAction; good
  split
  · unfold parseTagRequestAction
    split <;> good
  · good

theorem parseAlpAction_good : Good parseAlpAction := by
  have := dispatch_good
  unfold parseAlpAction; good
  exact this _ _ _

end AlpParser

/-! ### Exceptions -/

/-- The exceptions the ALP parser can raise. -/
def AlpErr (e : PyErr) : Prop :=
  e = .readError ∨ e = .parseError ∨ e = .valueError ∨ e = .attributeError ∨ e = .assertion false

theorem validate_err {α : Type} {c : Prop} [Decidable c] {a : α} {e : PyErr}
    (h : validate c a = .error e) : e = .valueError := (validate_eq_error.1 h).2

theorem ErrsIn.validate {α : Type} {c : Prop} [Decidable c] {a : α} :
    ErrsIn AlpErr (P.lift (Verif.validate c a)) :=
  ErrsIn.lift fun e h => by have := validate_err h; simp [this, AlpErr]

/-- Primitive steps of the error-set proofs. -/
macro "errs" : tactic => `(tactic| with_reducible repeat' first
  | exact ErrsIn.uint (by simp [AlpErr]) | exact ErrsIn.sint (by simp [AlpErr])
  | exact ErrsIn.bool (by simp [AlpErr]) | exact ErrsIn.pad (by simp [AlpErr])
  | exact ErrsIn.bytes (by simp [AlpErr])
  | exact ErrsIn.pure _ | exact ErrsIn.raise (by simp [AlpErr])
  | exact ErrsIn.assert (by simp [AlpErr])
  | assumption
  | exact ErrsIn.validate
  | refine ErrsIn.bind ?_ (fun _ => ?_) | refine ErrsIn.opt _ ?_)

/-- An enum lookup raises ValueError only. -/
macro "enumerr" f:ident : tactic => `(tactic| (
  refine ErrsIn.lift fun e h => ?_
  unfold $f at h
  repeat' split at h
  all_goals first | (cases h; simp [AlpErr]; done) | cases h))

theorem CT.new_err {a b : Int} : ErrsIn AlpErr (P.lift (CT.new a b)) := by
  unfold CT.new; errs
theorem CT.errs : ErrsIn AlpErr CT.parse := by
  unfold CT.parse CT.new; errs
theorem ChannelBand.err (x : Int) : ErrsIn AlpErr (P.lift (ChannelBand.ofValue x)) := by
  enumerr ChannelBand.ofValue
theorem ChannelClass.err (x : Int) : ErrsIn AlpErr (P.lift (ChannelClass.ofValue x)) := by
  enumerr ChannelClass.ofValue
theorem ChannelCoding.err (x : Int) : ErrsIn AlpErr (P.lift (ChannelCoding.ofValue x)) := by
  enumerr ChannelCoding.ofValue
theorem ActionCondition.err (x : Int) : ErrsIn AlpErr (P.lift (ActionCondition.ofValue x)) := by
  enumerr ActionCondition.ofValue
theorem StorageClass.err (x : Int) : ErrsIn AlpErr (P.lift (StorageClass.ofValue x)) := by
  enumerr StorageClass.ofValue
theorem IdType.err (x : Int) : ErrsIn AlpErr (P.lift (IdType.ofValue x)) := by
  enumerr IdType.ofValue
theorem NlsMethod.err (x : Int) : ErrsIn AlpErr (P.lift (NlsMethod.ofValue x)) := by
  enumerr NlsMethod.ofValue
theorem ResponseMode.err (x : Int) : ErrsIn AlpErr (P.lift (ResponseMode.ofValue x)) := by
  enumerr ResponseMode.ofValue
theorem RetryMode.err (x : Int) : ErrsIn AlpErr (P.lift (RetryMode.ofValue x)) := by
  enumerr RetryMode.ofValue
theorem QueryType.err (x : Int) : ErrsIn AlpErr (P.lift (QueryType.ofValue x)) := by
  enumerr QueryType.ofValue
theorem ArithComparisonType.err (x : Int) :
    ErrsIn AlpErr (P.lift (ArithComparisonType.ofValue x)) := by
  enumerr ArithComparisonType.ofValue
theorem InterfaceType.err (x : Int) : ErrsIn AlpErr (P.lift (InterfaceType.ofValue x)) := by
  enumerr InterfaceType.ofValue

theorem ChannelHeader.errs : ErrsIn AlpErr ChannelHeader.parse := by
  unfold ChannelHeader.parse; errs
  · exact ChannelBand.err _
  · exact ChannelClass.err _
  · exact ChannelCoding.err _
theorem ChannelID.errs : ErrsIn AlpErr ChannelID.parse := by
  have := ChannelHeader.errs
  unfold ChannelID.parse ChannelID.new; errs
theorem FilePermissions.errs : ErrsIn AlpErr FilePermissions.parse := by
  unfold FilePermissions.parse; errs
theorem FileProperties.errs : ErrsIn AlpErr FileProperties.parse := by
  unfold FileProperties.parse; errs
  · exact ActionCondition.err _
  · exact StorageClass.err _
theorem FileHeader.errs : ErrsIn AlpErr FileHeader.parse := by
  have := FilePermissions.errs
  have := FileProperties.errs
  unfold FileHeader.parse FileHeader.new; errs
theorem FileHeaderOperand.errs : ErrsIn AlpErr FileHeaderOperand.parse := by
  have := FileHeader.errs
  unfold FileHeaderOperand.parse FileHeaderOperand.new; errs

theorem CT.compressFrom_err (v : Int) (c : Bool) (fuel : Nat) : ∀ i e,
    CT.compressFrom v c i fuel = .error e → e = .valueError := by
  induction fuel with
  | zero => intro i e h; cases h
  | succ fuel ih =>
    intro i e h
    unfold CT.compressFrom at h
    split at h
    · simp only at h
      cases hn : CT.new i (if c = true ∧ v % 4 ^ i ≠ 0 then v.tdiv (4 ^ i) + 1
          else v.tdiv (4 ^ i)) with
      | ok x => rw [hn] at h; cases h
      | error x => rw [hn] at h; cases h; exact validate_err hn
    · exact ih _ _ h

theorem Addressee.nbidId_err (t : IdType) (i : AddrId) :
    ErrsIn AlpErr (P.lift (Addressee.nbidId t i)) := by
  refine ErrsIn.lift fun e h => ?_
  unfold Addressee.nbidId at h
  split at h
  · split at h <;> cases h
    next e hc => simp [CT.compressFrom_err _ _ _ _ _ hc, AlpErr]
  · cases h

theorem Addressee.parseRawId_errs (t : IdType) : ErrsIn AlpErr (Addressee.parseRawId t) := by
  unfold Addressee.parseRawId; split <;> errs
theorem Addressee.errs : ErrsIn AlpErr Addressee.parse := by
  unfold Addressee.parse Addressee.new; errs
  · exact IdType.err _
  · exact NlsMethod.err _
  · exact Addressee.parseRawId_errs _
  · exact Addressee.nbidId_err _ _
theorem QoS.errs : ErrsIn AlpErr QoS.parse := by
  unfold QoS.parse; errs
  · exact RetryMode.err _
  · exact ResponseMode.err _
theorem Configuration.errs : ErrsIn AlpErr Configuration.parse := by
  have := QoS.errs
  have := CT.errs
  have := Addressee.errs
  unfold Configuration.parse; errs
theorem Status.errs : ErrsIn AlpErr Status.parse := by
  have := ChannelID.errs
  have := CT.errs
  have := Addressee.errs
  unfold Status.parse Status.new; errs
theorem Length.errs : ErrsIn AlpErr Length.parse := by unfold Length.parse Length.new; errs
theorem Offset.errs : ErrsIn AlpErr Offset.parse := by
  have := Length.errs; unfold Offset.parse Offset.new; errs
theorem ArithQueryParams.errs : ErrsIn AlpErr ArithQueryParams.parse := by
  unfold ArithQueryParams.parse; errs
  exact ArithComparisonType.err _
theorem QueryOperand.errs : ErrsIn AlpErr QueryOperand.parse := by
  have := ArithQueryParams.errs
  have := Length.errs
  have := Offset.errs
  unfold QueryOperand.parse QueryOperand.new; errs
  exact QueryType.err _
theorem LoRaWANABP.errs : ErrsIn AlpErr LoRaWANABP.parse := by unfold LoRaWANABP.parse; errs
theorem LoRaWANOTAA.errs : ErrsIn AlpErr LoRaWANOTAA.parse := by unfold LoRaWANOTAA.parse; errs

theorem DataRequest.new_err (l : Int) (o : Offset) :
    ErrsIn AlpErr (P.lift (DataRequest.new l o)) := by
  refine ErrsIn.lift fun e h => ?_
  unfold DataRequest.new Length.new validate at h
  split at h <;> cases h
  simp [AlpErr]

theorem Data.new_err (l : List Int) (o : Offset) : ErrsIn AlpErr (P.lift (Data.new l o)) := by
  refine ErrsIn.lift fun e h => ?_
  unfold Data.new Length.new at h
  simp only [validate, bind, Except.bind] at h
  split at h
  · next h1 => split at h1 <;> cases h1; cases h; simp [AlpErr]
  · split at h <;> cases h
    simp [AlpErr]

theorem Action.newStatus_err (x : Int) (o : Option Operation) :
    ErrsIn AlpErr (P.lift (Action.newStatus x o)) := by
  refine ErrsIn.lift fun e h => ?_
  unfold Action.newStatus at h
  split at h
  · cases h; simp [AlpErr]
  · simp [validate_err h, AlpErr]

theorem Action.newForward_err (r : Bool) (o : Operation) :
    ErrsIn AlpErr (P.lift (Action.newForward r o)) := by
  refine ErrsIn.lift fun e h => ?_
  unfold Action.newForward at h
  split at h <;> cases h
  simp [AlpErr]

theorem Action.newIndirectForward_err (v r : Bool) (o : Operation) :
    ErrsIn AlpErr (P.lift (Action.newIndirectForward v r o)) := by
  refine ErrsIn.lift fun e h => ?_
  unfold Action.newIndirectForward at h
  split at h <;> cases h
  simp [AlpErr]

namespace AlpParser

theorem parseFileDataRequestOperand_errs : ErrsIn AlpErr parseFileDataRequestOperand := by
  have := Length.errs
  have := Offset.errs
  unfold parseFileDataRequestOperand; errs
  exact DataRequest.new_err _ _
theorem parseReturnFileDataOperand_errs : ErrsIn AlpErr parseReturnFileDataOperand := by
  have := Length.errs
  have := Offset.errs
  unfold parseReturnFileDataOperand; errs
  exact Data.new_err _ _
theorem parseInterfaceStatusD7asp_errs (l : Int) :
    ErrsIn AlpErr (parseInterfaceStatusD7asp l) := by
  have := Status.errs
  unfold parseInterfaceStatusD7asp InterfaceStatusOperand.new; errs
theorem parseInterfaceStatus_errs (i l : Int) : ErrsIn AlpErr (parseInterfaceStatus i l) := by
  have := parseInterfaceStatusD7asp_errs l
  unfold parseInterfaceStatus parseInterfaceStatusHost parseInterfaceStatusSerial
    InterfaceStatusOperand.new
  split
  · errs
  split
  · errs
  split <;> errs
theorem parseInterfaceStatusAction_errs : ErrsIn AlpErr parseInterfaceStatusAction := by
  unfold parseInterfaceStatusAction; errs
  · exact parseInterfaceStatus_errs _ _
  · exact Action.newStatus_err _ _
theorem parseInterfaceConfig_errs (t : InterfaceType) :
    ErrsIn AlpErr (parseInterfaceConfig t) := by
  have := Configuration.errs
  have := LoRaWANABP.errs
  have := LoRaWANOTAA.errs
  cases t <;> unfold parseInterfaceConfig <;> errs

theorem dispatch_errs (op : Int) (b7 b6 : Bool) : ErrsIn AlpErr (dispatch op b7 b6) := by
  have := parseFileDataRequestOperand_errs
  have := parseReturnFileDataOperand_errs
  have := QueryOperand.errs
  have := FileHeaderOperand.errs
  have := Addressee.errs
  have h1 := parseInterfaceStatusAction_errs
  have h2 := parseInterfaceConfig_errs
  unfold dispatch
  split; · unfold parseReadFileDataAction; errs
  split; · unfold parseWriteFileDataAction; errs
  split; · unfold parseBreakQueryAction; errs
  split; · unfold parseCreateFileAction; errs
  split; · unfold parseReturnFileDataAction; errs
  split; · unfold parseReturnFileHeaderAction; errs
  split
  · unfold parseReturnStatusAction
    split
    · errs
    split <;> errs
  split; · unfold parseTagResponseAction TagId.new; errs
  split
  · unfold parseForwardAction
    split
    · errs
    · errs
      · exact InterfaceType.err _
      · exact h2 _
      · exact Action.newForward_err _ _
  split
  · unfold parseIndirectForwardAction IndirectInterfaceOperand.new; errs
    exact Action.newIndirectForward_err _ _ _
  split
  · unfold parseTagRequestAction TagId.new
    split <;> errs
  · errs

theorem parseAlpAction_errs : ErrsIn AlpErr parseAlpAction := by
  unfold parseAlpAction; errs
  exact dispatch_errs _ _ _

end AlpParser
end Verif
