import Verif.Spec.Late
import Verif.Spec.Modem

/-! Specification: what `connect` learns from an answer. Nothing here is code of the repository. -/

namespace Verif.Modem

open Verif

/-- The answer tells this UID and this firmware version, and nothing else about the two files. -/
structure Identifies (x : Command) (u : Nat) (f : FirmwareVersionFile) : Prop where
  proper : ∀ a ∈ x.actions, ¬ ReturnsJunk a
  uid : ∃ a ∈ x.actions, ReturnsUid a u
  uidOnly : ∀ a ∈ x.actions, ∀ v, ReturnsUid a v → v = u
  firmware : ∃ a ∈ x.actions, ReturnsFirmware a f
  firmwareOnly : ∀ a ∈ x.actions, ∀ v, ReturnsFirmware a v → v = f

end Verif.Modem
