import Verif.Props.Slip
import Verif.Props.CutModem

/-! C105: the modem and frames that lose or gain bytes. -/

namespace Verif.Modem

open Verif Verif.Serial

/-- C105: the reading thread survives damaged frames, and if the damages show, what it receives are the messages of the others,
in order, whatever is called or sent in between and however the bytes are split. -/
theorem C105_received_partial {config : Config} {es : List Event} {s : State} (h : (init config).run es = some s)
    (l : List (Sent × List UInt8)) (hv : ∀ x ∈ l, x.1.Valid config.skip)
    (hs : DamageShows (l.map fun x => (x.1.bytes, x.2))) (hb : (chunks es).flatten = (l.map (·.2)).flatten)
    (hser : Event.serialError ∉ es) (hcb : Event.callbackRaises ∉ es) :
    s.reader.isDead = false ∧ s.received = (l.filter fun x => x.2 = x.1.bytes).map (fun x => x.1.delivered) := by
  by_cases hne : chunks es = []
  · have hd := not_dead h rfl (Parser.new config.skip) ⟨rfl, rfl⟩ (by rw [hne]; exact ⟨_, rfl⟩) hser hcb
    obtain ⟨p, errs, h1⟩ := C44_received h hd
    rw [hne] at h1 hb
    injection h1 with h1
    refine ⟨hd, ?_⟩
    rw [← show [] = s.received from congrArg (fun x => x.2.1) h1]
    symm
    rw [List.map_eq_nil_iff, List.filter_eq_nil_iff]
    intro x hx hw
    have hz := List.flatten_eq_nil_iff.1 hb.symm x.2 (List.mem_map.2 ⟨x, hx, rfl⟩)
    rw [of_decide_eq_true hw] at hz
    simp [Sent.bytes, frame] at hz
  · obtain ⟨q, errors, hf, -⟩ := C105_line_partial (Parser.new config.skip) rfl l hv hs (chunks es) hne hb
    have hd := not_dead h rfl (Parser.new config.skip) ⟨rfl, rfl⟩ ⟨_, hf⟩ hser hcb
    obtain ⟨p, errs, h1⟩ := C44_received h hd
    rw [hf] at h1
    injection h1 with h1
    exact ⟨hd, (congrArg (fun x => x.2.1) h1).symm⟩

/-- The answer loses its first byte; the call times out, and the answer to the next call arrives. -/
example : DamageShows [(final7, final7.eraseIdx 0), (final9, final9)] ∧
    ((init plain).run ([.call (.execute cmd7 10)] ++ mains 5 ++ [.rx (final7.eraseIdx 0), .reader, .timeout,
      .call (.execute cmd9 10)] ++ mains 5 ++ [.rx final9] ++ reads 5 ++ [.main])).map
      (fun s => (s.outcomes, s.responses, s.received)) =
    some ([.empty, .list 2], [[], [], [cFinal9]], [(1, .command cFinal9)]) := by
  refine ⟨⟨.inr fun s hs hx => no_sync ?_ hs hx, .inl rfl, trivial⟩, by decide +kernel⟩
  decide +kernel

end Verif.Modem
