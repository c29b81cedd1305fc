import Verif.Props.Flips
import Verif.Props.Modem

/-! C98: the modem on a line that flips bits. -/

namespace Verif.Modem

open Verif Verif.Serial

/-- C98: the reading thread survives spoiled frames, and what it receives are the messages of the other ones, in order,
whatever is called or sent in between and however the bytes are cut. -/
theorem C98_received {config : Config} {es : List Event} {s : State} (h : (init config).run es = some s)
    (l : List Passed) (hv : ∀ x ∈ l, x.sent.Valid config.skip)
    (hs : ∀ x ∈ l, ∀ g, x.spoiled = some g → Spoiled x.sent.bytes g)
    (hb : (chunks es).flatten = (l.map Passed.bytes).flatten)
    (hser : Event.serialError ∉ es) (hcb : Event.callbackRaises ∉ es) :
    s.reader.isDead = false ∧ s.received = (l.filter fun x => x.spoiled.isNone).map (fun x => x.sent.delivered) := by
  by_cases hne : chunks es = []
  · have hd := not_dead h rfl (Parser.new config.skip) ⟨rfl, rfl⟩ (by rw [hne]; exact ⟨_, rfl⟩) hser hcb
    obtain ⟨p, errs, h1⟩ := C44_received h hd
    have hl : l = [] := by
      rw [hne] at hb
      cases l with
      | nil => rfl
      | cons x l =>
        exfalso
        have : 0 < x.bytes.length := by
          unfold Passed.bytes
          cases hx : x.spoiled with
          | none => simp [Sent.bytes, frame]
          | some g => simp [(hs x (by simp) g hx).1, Sent.bytes, frame]
        rw [List.map_cons, List.flatten_cons, List.flatten_nil] at hb
        have hb := (List.append_eq_nil_iff.1 hb.symm).1
        rw [hb] at this
        cases this
    rw [hne] at h1
    injection h1 with h1
    rw [hl]
    exact ⟨hd, (congrArg (fun x => x.2.1) h1).symm⟩
  · obtain ⟨q, errors, hf, -⟩ := C98_line (Parser.new config.skip) rfl l hv hs (chunks es) hne hb
    have hd := not_dead h rfl (Parser.new config.skip) ⟨rfl, rfl⟩ ⟨_, hf⟩ hser hcb
    obtain ⟨p, errs, h1⟩ := C44_received h hd
    rw [hf] at h1
    injection h1 with h1
    exact ⟨hd, (congrArg (fun x => x.2.1) h1).symm⟩

/-- C98: so a spoiled answer is a missing answer and never a wrong one: every command in a list that `execute_command`
returns, and every message for the application, was sent like that in a frame that arrived intact. -/
theorem C98_answers {config : Config} {es : List Event} {s : State} (h : (init config).run es = some s)
    (l : List Passed) (hv : ∀ x ∈ l, x.sent.Valid config.skip)
    (hs : ∀ x ∈ l, ∀ g, x.spoiled = some g → Spoiled x.sent.bytes g)
    (hb : (chunks es).flatten = (l.map Passed.bytes).flatten)
    (hser : Event.serialError ∉ es) (hcb : Event.callbackRaises ∉ es) (m : Msg)
    (hm : (∃ n, m ∈ (content s.responses n).map .command) ∨ (∃ n, m ∈ content s.unsolicited n) ∨ m ∈ s.called ∨
      (∃ n, m ∈ content s.rebooted n) ∨ m ∈ s.rebootedCalled) :
    ∃ x ∈ l, x.spoiled = none ∧ x.sent.delivered.2 = m := by
  obtain ⟨o1, o2, o3, o4, o5⟩ := C44_order h
  have hr : m ∈ s.received.map Prod.snd := by
    rcases hm with ⟨n, hm⟩ | ⟨n, hm⟩ | hm | ⟨n, hm⟩ | hm
    · exact (o3 n).subset hm
    · exact (o4 n).subset hm
    · exact o1.subset hm
    · exact (o5 n).subset hm
    · exact o2.subset hm
  rw [(C98_received h l hv hs hb hser hcb).2] at hr
  simp only [List.map_map, List.mem_map, List.mem_filter, Option.isNone_iff_eq_none] at hr
  obtain ⟨x, ⟨hx, hn⟩, e⟩ := hr
  exact ⟨x, hx, hn, e⟩

/-- Two bits of the answer are flipped and the call times out; the answer to the next call arrives intact. -/
example : Spoiled final7 (final7.set 8 (final7.getD 8 0 ^^^ 6)) ∧
    ((init plain).run ([.call (.execute cmd7 10)] ++ mains 5 ++ [.rx (final7.set 8 (final7.getD 8 0 ^^^ 6)), .reader, .timeout,
      .call (.execute cmd9 10)] ++ mains 5 ++ [.rx final9] ++ reads 5 ++ [.main])).map
      (fun s => (s.outcomes, s.responses, s.received)) =
    some ([.empty, .list 2], [[], [], [cFinal9]], [(1, .command cFinal9)]) := by
  refine ⟨⟨by decide, by decide, by decide, .inl ⟨by decide +kernel, 8, by decide, by decide⟩, by decide +kernel⟩, by decide +kernel⟩

end Verif.Modem
