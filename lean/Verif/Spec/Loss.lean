import Verif.Spec.Serial

/-! Specification of a line that loses whole frames. -/

namespace Verif.Serial

/-- What arrives: the elements with a `true`. -/
def arrived {α : Type} : List Bool → List α → List α
  | true :: ks, a :: as => a :: arrived ks as
  | false :: ks, _ :: as => arrived ks as
  | _, _ => []

/-- For each frame that arrives, how many frames in a row were lost just before it; `n` have been lost so far. -/
def lostBefore (n : Nat) : List Bool → List Nat
  | [] => []
  | true :: ks => n :: lostBefore 0 ks
  | false :: ks => lostBefore (n + 1) ks

/-- The receiver expects the number that the sender gives the next frame. -/
def InStep (sender receiver : Parser) : Prop :=
  sender.upCounter = if receiver.downCounter ≥ 255 then 0 else receiver.downCounter + 1

/-- How many numbers do not follow the one before; `down` is the number of the last frame. -/
def jumps (down : Int) : List UInt8 → Nat
  | [] => 0
  | c :: cs => (if (c.toNat : Int) = (if down ≥ 255 then 0 else down + 1) then 0 else 1) + jumps c.toNat cs

end Verif.Serial
