import Verif.Py

/-! Model of the statistics in tools/modem2mqtt.py and of its main loop. -/

namespace Verif.Stats

open Verif

/-- tools/modem2mqtt.py 59-60: `bridge_count` and `next_report` (microseconds); and what was logged so far: the reading of
the clock in line 141 and the number. -/
structure Stats where
  bridged : Nat
  next : Int
  logged : List (Int × Nat)
  deriving DecidableEq, Repr

/-- tools/modem2mqtt.py 59-60 -/
def Stats.init : Stats := ⟨0, 0, []⟩

/-- tools/modem2mqtt.py 137-138 -/
def Stats.keep (s : Stats) : Stats := { s with bridged := s.bridged + 1 }

/-- tools/modem2mqtt.py 140-145: the clock says `a` in line 141 and `b` in line 145. -/
def Stats.report (s : Stats) (a b : Int) : Stats :=
  if s.next < a then
    if s.bridged > 0 then ⟨0, b + 15000000, s.logged ++ [(a, s.bridged)]⟩
    else { s with next := b + 15000000 }
  else s

/-- A call of one of the two methods. -/
inductive Call
  | keep
  | report (a b : Int)
  deriving DecidableEq, Repr

/-- Calls of the two methods, one after the other. -/
def Stats.run (s : Stats) : List Call → Stats
  | [] => s
  | .keep :: cs => s.keep.run cs
  | .report a b :: cs => (s.report a b).run cs

/-- What ends the waiting in line 128 or 130: a signal (a second, with Windows) or Ctrl-C. -/
inductive Wake | signal | interrupt
  deriving DecidableEq, Repr

/-- tools/modem2mqtt.py 122-135: the main loop; what wakes it up each time, with the two readings of the clock. The result tells whether
the loop has ended, and how many wake-ups are left over. The callback for received messages
(109-120) does not use the statistics. -/
def loop (s : Stats) : List (Wake × Int × Int) → Stats × Option Nat
  | [] => (s, none)
  | (.signal, a, b) :: ws => loop (s.report a b) ws
  | (.interrupt, a, b) :: ws => (s.report a b, some ws.length)

end Verif.Stats
