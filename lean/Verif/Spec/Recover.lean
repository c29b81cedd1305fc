import Verif.Spec.Retry

/-! Specification vocabulary for what happens after calls that were given up. -/

namespace Verif.Modem

open Verif Verif.Serial

variable {D : Type}

/-- Only steps of the two threads, the device and the line: no new call, no timeout, no callback that raises and no failure of
the line. -/
def Steady (es : List LateEvent) : Prop := ∀ e ∈ es, ∃ x, e = .net x ∧ ∀ call, x ≠ .call call

/-- A program that decides from what its calls have returned so far which command it executes next, if any (`next`). The
device has processed `sent` before, the calls made so far have returned `known`, those made now return the lists `answers`, and
each of these is what the device answers to the command. -/
inductive Net.Talks (g : Gateway D) (d : D) (next : List (List Command) → Option Command) :
    List (List UInt8) → List (List Command) → List (List Command) → Net D → Net D → Prop
  | stop (sent : List (List UInt8)) (known : List (List Command)) (s : Net D) : Net.Talks g d next sent known [] s s
  | call {sent : List (List UInt8)} {known answers : List (List Command)} {s s1 s' : Net D} {c : Command} {tag : Int}
      {bs : List UInt8} {rs : List Command} : next known = some c → Taggable c tag → sendable c = some bs →
      Net.Called g c s (.ok rs) s1 → g.Reply d sent tag bs rs →
      Net.Talks g d next (sent ++ [bs]) (known ++ [rs]) answers s1 s' →
      Net.Talks g d next sent known (rs :: answers) s s'

end Verif.Modem
