import Verif.Spec.Serial
import Verif.Spec.Modem
import Verif.Model.ModemCallers

/-! Specification vocabulary for concurrent callers of `execute_command`. -/

namespace Verif.Modem

open Verif Verif.Serial

/-- The commands thread `i` executes, in order. -/
def callsOf (i : Nat) (es : List CallersEvent) : List Command :=
  es.filterMap fun | .call j cmd _ => if j = i then some cmd else none | _ => none

/-- How the calls of thread `i` ended, in order. -/
def resultsOf (i : Nat) (s : Callers) : List Outcome :=
  s.results.filterMap fun x => if x.1 = i then some x.2 else none

/-- The bytes of a command whose call did not raise. -/
def sentBytes : Command × Outcome → Option (List UInt8)
  | (_, .raised _) => none
  | (cmd, _) => (bytearray cmd.iter).toOption

/-- The bytes of the command in progress, once its frame is being written. -/
def inProgress : Option Thread → List (List UInt8)
  | some (.run (.writing _) _ alp _ _) => [alp]
  | some (.run .wait _ alp _ _) => [alp]
  | some (.run .final _ alp _ _) => [alp]
  | some (.run .ret _ alp _ _) => [alp]
  | _ => []

/-- The bytes a thread still has to write. -/
def restOf : Option Thread → List UInt8
  | some (.run (.writing rest) _ _ _ _) => rest
  | _ => []

/-- What is left of the frame that is just being written. -/
def Callers.unwritten (s : Callers) : List UInt8 :=
  match s.lock with
  | none => []
  | some i => restOf s.threads[i]?

/-- A frame on the line: the thread, the counter, the payload. -/
structure Line where
  thread : Nat
  counter : UInt8
  payload : List UInt8

/-- Its bytes. -/
def Line.bytes (l : Line) : List UInt8 := frame l.counter 1 l.payload

/-- An event that begins a call. -/
def CallersEvent.isCall : CallersEvent → Bool
  | .call _ _ _ => true
  | _ => false

/-- No call begins while another one is in progress. -/
def Alone (s : Callers) : List CallersEvent → Prop
  | [] => True
  | e :: es =>
    (e.isCall = true → ∀ th ∈ s.threads, th = .idle) ∧ ∀ s', s.step e = some s' → Alone s' es

instance Alone.decidable : (s : Callers) → (es : List CallersEvent) → Decidable (Alone s es)
  | _, [] => isTrue trivial
  | s, e :: es =>
    have : Decidable (∀ s', s.step e = some s' → Alone s' es) :=
      match h : s.step e with
      | none => isTrue (fun _ h' => by cases h')
      | some s1 =>
        have := Alone.decidable s1 es
        decidable_of_iff (Alone s1 es) ⟨fun hc s' h' => by cases h'; exact hc, fun hc => hc s1 rfl⟩
    inferInstanceAs (Decidable (_ ∧ _))

/-- The commands of all calls, in order, in a run with many threads and in one with a single thread. -/
def commands (es : List CallersEvent) : List Command :=
  es.filterMap fun | .call _ cmd _ => some cmd | _ => none
def executed (es : List Event) : List Command :=
  es.filterMap fun | .call (.execute cmd _) => some cmd | _ => none

/-- The bytes that arrive, in order, in a run with many threads and in one with a single thread. -/
def arrivals (es : List CallersEvent) : List (List UInt8) := es.filterMap fun | .rx bs => some bs | _ => none
def arrived (es : List Event) : List (List UInt8) := es.filterMap fun | .rx bs => some bs | _ => none

end Verif.Modem
