import Verif.Spec.Cut

/-! Specification of lines that lose, add or change bytes. -/

namespace Verif.Serial

open Verif

/-- What was sent and what arrived of it, frame by frame: each frame arrives as it was sent, or wherever one looks in what
arrives instead, there is, together with the bytes that follow, no frame. -/
def DamageShows : List (List UInt8 × List UInt8) → Prop
  | [] => True
  | x :: l => (x.2 = x.1 ∨ ∀ s, s ≠ [] → s <:+ x.2 → NoFrame (s ++ (l.map (·.2)).flatten)) ∧ DamageShows l

end Verif.Serial
