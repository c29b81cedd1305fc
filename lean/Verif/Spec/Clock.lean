import Verif.Model.Clock

/-! Specification vocabulary for time. -/

namespace Verif.Modem

open Verif Verif.Serial

/-- Between two moments the clock does not advance by more than the time that passes: it is not set forward. -/
def NotFast (clock : Int → Int) : Prop := ∀ a b, a ≤ b → clock b - clock a ≤ b - a

/-- Between two moments the clock advances by the time that passes at least: it is not set back. -/
def NotSlow (clock : Int → Int) : Prop := ∀ a b, a ≤ b → b - a ≤ clock b - clock a

/-- The steps of Model/Modem in a step with time: the end of the wait loop is one, the other steps in the loop are none. -/
def Timed.visible (s : Timed) : TimedEvent → List Event
  | .other e => [e]
  | .wait => if s.place = .final then [if s.modem.completed then .main else .timeout] else []

/-- The steps of Model/Modem in a sequence of steps with time. -/
def Timed.seen (clock : Int → Int) (s : Timed) : List (Int × TimedEvent) → List Event
  | [] => []
  | (t, e) :: es => s.visible e ++ (match s.step clock t e with | some s' => s'.seen clock es | none => [])

/-- While the application thread is in the wait loop it gets to make its next step at most `d` after it could. -/
def Timed.Prompt (clock : Int → Int) (d : Int) (s : Timed) : List (Int × TimedEvent) → Prop
  | [] => True
  | (t, e) :: es => (s.modem.waiting.isSome → t ≤ s.due + d) ∧
      (match s.step clock t e with | some s' => s'.Prompt clock d es | none => True)

instance Timed.decPrompt (clock : Int → Int) (d : Int) : (s : Timed) → (es : List (Int × TimedEvent)) →
    Decidable (s.Prompt clock d es)
  | _, [] => .isTrue trivial
  | s, (t, e) :: es => by
    unfold Timed.Prompt
    cases s.step clock t e with
    | none => exact inferInstance
    | some s' => exact @instDecidableAnd _ _ inferInstance (Timed.decPrompt clock d s' es)

end Verif.Modem
