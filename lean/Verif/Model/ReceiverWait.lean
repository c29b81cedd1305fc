import Verif.Model.Clock
import Verif.Model.Examples

/-! Model of `wait_for_receiver` in examples/throughput_test.py with time: the loop of Model/Examples.lean (`Wait`) with the
moments of its steps, in whole microseconds. -/

namespace Verif.Examples

open Verif

/-- examples/throughput_test.py 218-227. `clock t` is what `time.time()` says at the moment `t` (a float there, whole
microseconds here); `count t` is the number of messages received up to the moment `t`; `msgCount` and `timeout` (seconds) are
arguments of the program; `t0` is the moment of line 222; between two steps the thread is kept waiting by `d` at most.
`Rounds k t total`: after `k` rounds the loop is at its condition at the moment `t`, with the number `total` counted last.
A round: the number does not suffice and the clock, read at `u`, says that there is time left (224); the messages are counted
at `v` (225); two seconds pass (226). -/
inductive Rounds (clock : Int → Int) (count : Int → Nat) (msgCount timeout d t0 : Int) : Nat → Int → Nat → Prop
  | zero : Rounds clock count msgCount timeout d t0 0 t0 0
  | more {k total : Nat} {t u v : Int} : Rounds clock count msgCount timeout d t0 k t total → (total : Int) < msgCount →
      t ≤ u → u ≤ t + d → clock u - clock t0 < Modem.micros timeout → u ≤ v → v ≤ u + d →
      Rounds clock count msgCount timeout d t0 (k + 1) (v + 2000000) (count v)

/-- examples/throughput_test.py 224: the loop ends at the moment `t` with the number `total`: it suffices, or the clock says
that the time is over. -/
inductive Ends (clock : Int → Int) (count : Int → Nat) (msgCount timeout d t0 : Int) : Nat → Int → Prop
  | enough {k total : Nat} {t : Int} : Rounds clock count msgCount timeout d t0 k t total → ¬ (total : Int) < msgCount →
      Ends clock count msgCount timeout d t0 total t
  | late {k total : Nat} {t u : Int} : Rounds clock count msgCount timeout d t0 k t total → (total : Int) < msgCount →
      t ≤ u → u ≤ t + d → ¬ clock u - clock t0 < Modem.micros timeout → Ends clock count msgCount timeout d t0 total u

end Verif.Examples
