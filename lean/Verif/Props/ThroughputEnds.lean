import Verif.Lemmas.ThroughputEnds
import Verif.Props.ThroughputOne

/-! C89, C90, C96: examples/throughput_test.py can always come to an end. -/

namespace Verif.Throughput

open Verif Verif.Serial Verif.Modem Verif.Examples

/-- C89, no deadlock: wherever the set-up of the receiver is, and whatever the device did, the main thread can come to the
end of the set-up or to an exception without anything more from the device. -/
theorem C89_ends {es : List Event} {s : State} (h : init.run es = some s) :
    ∃ es' s', (∀ e ∈ es', (∃ r, e = .main r) ∨ e = .timeout) ∧ s.run es' = some s' ∧
      (s'.stage = .running ∨ s'.stage = .failed) := by
  obtain ⟨s', h1, h2⟩ := En.sets_up _ (Nat.lt_succ_self _) ⟨es, h⟩
  obtain ⟨es', h3, h4⟩ := h1.alone
  exact ⟨es', s', h3, h4, h2⟩

/-- While `connect` waits for its answer; afterwards no UID is known. -/
example : (init.run (mains 6 7)).map (fun s => (s.stage, s.modem.main == .idle)) = some (.connecting, false) ∧
    (init.run (mains 6 7 ++ [.timeout] ++ mains 1 7)).map (fun s => s.stage) = some .profile := by decide +kernel

/-- C90, no deadlock: wherever the program is, and whatever the two devices did, the main thread can come to an end
without anything more from the devices. -/
theorem C90_ends {a : Args} {es : List TestEvent} {s : Test} (h : Test.start.run a es = some s) :
    ∃ es' s', (∀ e ∈ es', Alone e = true) ∧ s.run a es' = some s' ∧ (s'.place = .done ∨ s'.place = .failed) := by
  obtain ⟨s', ⟨es', h1, h2⟩, h3⟩ := En.can_end _ (Nat.lt_succ_self _) ⟨es, h⟩
  refine ⟨es', s', h1, h2, ?_⟩
  cases hp : s'.place <;> rw [hp] at h3 <;> cases h3 <;> simp

/-- While the first message waits for its answer. -/
example : (Test.start.run ⟨1, 2⟩ (tready ++ texec 19 ++ tmains 5 20)).map
    (fun s => (s.place.ended, s.tx.main == .idle)) = some (false, false) := by decide +kernel

/-- C96, no deadlock of the receiver on its own: wherever it is, and whatever the device did, the main thread can come to
its verdict or to an exception without anything more from the device. -/
theorem C96_listen_alone {a : Args} {es : List ListenerEvent} {s : Listener} (h : Listener.start.run a es = some s) :
    ∃ es' s', (∀ e ∈ es', Unheard e = true) ∧ s.run a es' = some s' ∧ s'.place.ended = true := by
  obtain ⟨s', ⟨es', h1, h2⟩, h3⟩ := En.listener_ends h
  exact ⟨es', s', h1, h2, h3⟩

/-- While `connect` waits for its answer. -/
example : (Listener.start.run ⟨1, 2⟩ (lmains 6)).map (fun s => (s.place, s.rx.stage, s.rx.modem.main == .idle)) =
    some (.setup, .connecting, false) := by decide +kernel

end Verif.Throughput
