import Verif.Spec.UpdateDevice

/-! Specification vocabulary for the configuration programs with a modem and a device that keeps files. -/

namespace Verif.Modem

open Verif Verif.Serial

variable {D : Type}

/-- `connect()` is called (modem/modem.py 89; `tag` is the random tag of its command), other things happen, and the call
has ended: by the exception `r`, if it is one. -/
def Connected (dev : Device D) (tag : UInt8) (s : Loop D) (r : Option PyErr) (s' : Loop D) : Prop :=
  ∃ es o, (∀ e ∈ es, ∀ call, e ≠ .call call) ∧ s.run dev (.call (.connect true tag) :: es) = some s' ∧
    s'.modem.outcomes = s.modem.outcomes ++ [o] ∧
    r = match o with
      | .raised e => some e
      | _ => none

/-- The device tells its identifier and its version. -/
def Identified (dev : Device D) (d : D) : Prop :=
  (dev.read d 0 0 8).length = 8 ∧ (versionOf (dev.read d 2 0 17)).isSome

/-- Between `d` and `d'`, the bytes `bs` have come to the start of the file; nothing else has changed. -/
def Put (file : UInt8) (bs : List UInt8) (d d' : UInt8 → Nat → UInt8) : Prop :=
  (∀ i, (h : i < bs.length) → d' file i = bs[i]) ∧ ∀ f i, ¬ (f = file ∧ i < bs.length) → d' f i = d f i

end Verif.Modem
