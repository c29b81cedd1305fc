import Verif.Props.Cut
import Verif.Props.FlipsModem
import Verif.Props.ModemFaults
import Verif.Props.ModemWrite

/-! C100: the modem and frames that are cut short. -/

namespace Verif.Modem

open Verif Verif.Serial

/-- C100: the reading thread survives frames that are cut short, and if the cuts show, what it receives are the messages of the
whole ones, in order, whatever is called or sent in between and however the bytes are split. -/
theorem C100_received_partial {config : Config} {es : List Event} {s : State} (h : (init config).run es = some s)
    (l : List (Sent × Option Nat)) (hv : ∀ x ∈ l, x.1.Valid config.skip) (hs : CutsShow (l.map fun x => (x.1.bytes, x.2)))
    (hb : (chunks es).flatten = (l.map fun x => cutBytes (x.1.bytes, x.2)).flatten)
    (hser : Event.serialError ∉ es) (hcb : Event.callbackRaises ∉ es) :
    s.reader.isDead = false ∧
      s.received = (l.filter fun x => isWhole (x.1.bytes, x.2)).map (fun x => x.1.delivered) := by
  by_cases hne : chunks es = []
  · have hd := not_dead h rfl (Parser.new config.skip) ⟨rfl, rfl⟩ (by rw [hne]; exact ⟨_, rfl⟩) hser hcb
    obtain ⟨p, errs, h1⟩ := C44_received h hd
    rw [hne] at h1 hb
    injection h1 with h1
    refine ⟨hd, ?_⟩
    rw [← show [] = s.received from congrArg (fun x => x.2.1) h1]
    symm
    rw [List.map_eq_nil_iff, List.filter_eq_nil_iff]
    intro x hx hw
    have hz := List.flatten_eq_nil_iff.1 hb.symm (cutBytes (x.1.bytes, x.2)) (List.mem_map.2 ⟨x, hx, rfl⟩)
    rw [isWhole_bytes hw] at hz
    simp [Sent.bytes, frame] at hz
  · obtain ⟨q, errors, hf, -⟩ := C100_line_partial (Parser.new config.skip) rfl l hv hs (chunks es) hne hb
    have hd := not_dead h rfl (Parser.new config.skip) ⟨rfl, rfl⟩ ⟨_, hf⟩ hser hcb
    obtain ⟨p, errs, h1⟩ := C44_received h hd
    rw [hf] at h1
    injection h1 with h1
    exact ⟨hd, (congrArg (fun x => x.2.1) h1).symm⟩

/-- The device resets while it sends the answer; the call times out, and the answer to the next call arrives. -/
example : CutsShow [(final7, some 1), (final9, none)] ∧
    ((init plain).run ([.call (.execute cmd7 10)] ++ mains 5 ++ [.rx (final7.take 1), .reader, .timeout,
      .call (.execute cmd9 10)] ++ mains 5 ++ [.rx final9] ++ reads 5 ++ [.main])).map
      (fun s => (s.outcomes, s.responses, s.received)) =
    some ([.empty, .list 2], [[], [], [cFinal9]], [(1, .command cFinal9)]) := by
  refine ⟨?_, by decide +kernel⟩
  have h := C100_beginning 1 1 [0xa3, 7] ⟨1, 1, [0xa3, 9], .bytes []⟩ [] 1 (.inl rfl) trivial
  rwa [show frame 1 1 [0xa3, 7] = final7 by decide +kernel,
    show (⟨1, 1, [0xa3, 9], .bytes []⟩ : Sent).bytes = final9 by decide +kernel] at h

theorem faulty_requested_mem {es : List FaultyEvent} : ∀ {s : Faulty} {c : Command}, c ∈ s.requested es →
    (∃ timeout, FaultyEvent.inner (.call (.execute c timeout)) ∈ es) ∨ ∃ tag, c = question tag := by
  induction es with
  | nil => intro s c h; simp [Faulty.requested] at h
  | cons e es ih =>
    intro s c h
    simp only [Faulty.requested, List.mem_append] at h
    rcases h with h | h
    · split at h
      · unfold asked at h
        split at h
        · simp only [List.mem_singleton] at h
          exact .inl ⟨_, by rw [h]; exact List.mem_cons_self⟩
        · split at h
          · cases h
          · simp only [List.mem_singleton] at h
            exact .inr ⟨_, h⟩
        · cases h
      · cases h
    · split at h
      · rcases ih h with ⟨t, ht⟩ | ht
        · exact .inl ⟨t, List.mem_cons_of_mem _ ht⟩
        · exact .inr ht
      · cases h

theorem cutFrames_numbered : ∀ (xs : List (List UInt8 × Option Nat)) (n : Nat),
    cutFrames n xs = ((numbered n xs).map cutBytes).flatten := by
  intro xs
  induction xs with
  | nil => intro n; rfl
  | cons x xs ih =>
    intro n
    obtain ⟨p, k⟩ := x
    cases k with
    | none => simp only [cutFrames, numbered, List.map_cons, List.flatten_cons, cutBytes, ih]
    | some k => simp only [cutFrames, numbered, List.map_cons, List.flatten_cons, cutBytes, ih]

/-- The frames of commands that survive, and what they mean to the parser. -/
theorem numbered_sent : ∀ (cs : List Command) (xs : List (List UInt8 × Option Nat)) (n : Nat),
    (∀ c ∈ cs, Transmittable c) → cs.filterMap sendable = xs.map Prod.fst →
    ∃ l : List (Sent × Option Nat), (l.map fun x => (x.1.bytes, x.2)) = numbered n xs ∧ (∀ x ∈ l, x.1.Valid false) ∧
      List.Forall₂ (fun c x => ∃ d, x.1.delivered = (1, .command d) ∧ ArrivesAs c d) cs l := by
  intro cs
  induction cs with
  | nil =>
    intro xs n _ h
    have : xs = [] := List.map_eq_nil_iff.1 h.symm
    subst this
    exact ⟨[], rfl, by simp, .nil⟩
  | cons c cs ih =>
    intro xs n hc h
    obtain ⟨bs, d, e1, e2, e3, e4⟩ := (hc c (by simp)).carries
    have hsend : sendable c = some bs := by simp [sendable, e1, e2]
    rw [List.filterMap_cons_some hsend] at h
    cases xs with
    | nil => cases h
    | cons x xs =>
      rw [List.map_cons] at h
      injection h with h1 h2
      obtain ⟨l, k1, k2, k3⟩ := ih xs (n + 1) (fun c' hc' => hc c' (by simp [hc'])) h2
      refine ⟨(⟨UInt8.ofNat n, 1, bs, .command d⟩, x.2) :: l, ?_, ?_, .cons ⟨d, rfl, e3⟩ k3⟩
      · rw [List.map_cons, k1, numbered, ← h1]
        rfl
      · intro y hy
        rcases List.mem_cons.1 hy with rfl | hy
        · exact ⟨e2, e4 1 (by decide) (by decide)⟩
        · exact k2 y hy

/-- C100: the other end of a serial port whose writes fail now and then. If the cuts show, a parser there delivers exactly the
commands whose frame was written as a whole, in order. -/
theorem C100_peer_partial {config : Config} {es : List FaultyEvent} {s : Faulty} (h : (Faulty.init config).run es = some s)
    (hm : s.modem.main = .idle)
    (hes : ∀ c timeout, FaultyEvent.inner (.call (.execute c timeout)) ∈ es → Transmittable c) :
    ∃ xs, ((Faulty.init config).requested es).filterMap sendable = xs.map Prod.fst ∧
      s.modem.written = ((numbered 0 xs).map cutBytes).flatten ∧ (xs.filter fun x => x.2.isSome).length = s.failures ∧
      (CutsShow (numbered 0 xs) → ∀ r : Parser, r.buffer = [] → r.skipAlpParsing = false →
        ∀ pieces : List (List UInt8), pieces ≠ [] → pieces.flatten = s.modem.written →
        ∃ q ds errors, feed r pieces = .ok (q, ds.map (fun d => (1, .command d)), errors) ∧ q.buffer = [] ∧
          List.Forall₂ ArrivesAs (((((Faulty.init config).requested es).zip (numbered 0 xs)).filter
            fun x => isWhole x.2).map Prod.fst) ds) := by
  obtain ⟨xs, rest, h1, h2, h3, -, -, h6⟩ := C99_written h
  rw [h6 hm, List.append_nil] at h1
  refine ⟨xs, h1, h2.trans (cutFrames_numbered xs 0), h3, fun hcut r hr hs pieces hne hp => ?_⟩
  have hcs : ∀ c ∈ (Faulty.init config).requested es, Transmittable c := by
    intro c hc
    rcases faulty_requested_mem hc with ⟨t, ht⟩ | ⟨t, rfl⟩
    · exact hes c t ht
    · exact question_transmittable t
  obtain ⟨l, k1, k2, k3⟩ := numbered_sent _ xs 0 hcs h1
  have hfl : pieces.flatten = (l.map fun x => cutBytes (x.1.bytes, x.2)).flatten := by
    rw [hp, h2, cutFrames_numbered, ← k1, List.map_map]
    rfl
  obtain ⟨q, errors, hf, hq⟩ := C100_line_partial r hr l (by rw [hs]; exact k2) (by rw [k1]; exact hcut) pieces hne hfl
  rw [← k1]
  have : ∀ (cs : List Command) (l : List (Sent × Option Nat)),
      List.Forall₂ (fun c x => ∃ d, x.1.delivered = (1, .command d) ∧ ArrivesAs c d) cs l →
      ∃ ds : List Command, (l.filter fun x => isWhole (x.1.bytes, x.2)).map (fun x => x.1.delivered) =
          ds.map (fun d => ((1 : Int), Msg.command d)) ∧
        List.Forall₂ ArrivesAs (((cs.zip (l.map fun x => (x.1.bytes, x.2))).filter fun x => isWhole x.2).map Prod.fst) ds := by
    intro cs l h
    induction h with
    | nil => exact ⟨[], rfl, .nil⟩
    | @cons c x cs l hd _ ih =>
      obtain ⟨d, e1, e2⟩ := hd
      obtain ⟨ds, i1, i2⟩ := ih
      by_cases hw : isWhole (x.1.bytes, x.2) = true
      · refine ⟨d :: ds, ?_, ?_⟩
        · rw [List.filter_cons_of_pos (by simpa using hw), List.map_cons, i1, e1]; rfl
        · rw [List.map_cons, List.zip_cons_cons, List.filter_cons_of_pos (by simpa using hw), List.map_cons]
          exact .cons e2 i2
      · refine ⟨ds, ?_, ?_⟩
        · rw [List.filter_cons_of_neg (by simpa using hw), i1]
        · rw [List.map_cons, List.zip_cons_cons, List.filter_cons_of_neg (by simpa using hw)]
          exact i2
  obtain ⟨ds, e1, e2⟩ := this _ l k3
  rw [e1] at hf
  exact ⟨q, ds, errors, hf, hq, e2⟩

/-- The write of the question of `connect` fails after the first byte; the command after it arrives. -/
example : Transmittable sampleCommand ∧
    ((Faulty.init plain).run (([Event.call (.connect true 5)] ++ mains 4).map FaultyEvent.inner ++
      [FaultyEvent.writeFails 1] ++ ([Event.call (.execute sampleCommand 0)] ++ mains 5).map FaultyEvent.inner)).map
      (fun s => (s.modem.main, s.failures, s.modem.written)) =
    some (.idle, 1, ((numbered 0 [([0xB4, 5, 1, 0, 0, 8, 1, 2, 0, 17], some 1),
      ((sendable sampleCommand).getD [], none)]).map cutBytes).flatten) ∧
    CutsShow (numbered 0 [([0xB4, 5, 1, 0, 0, 8, 1, 2, 0, 17], some 1), ((sendable sampleCommand).getD [], none)]) ∧
    (feed (Parser.new false) [[0xC0, 0xC0], (frame 1 1 ((sendable sampleCommand).getD [])).tail]).map
      (fun x => x.2.1.map fun y => match y.2 with | .command d => d.actions.map Action.operation | _ => []) =
      .ok [sampleCommand.actions.map Action.operation] :=
  ⟨sampleCommand_transmittable, by decide +kernel, C100_beginning 0 1 _ ⟨1, 1, _, .bytes []⟩ [] 1 (.inl rfl) trivial,
    by decide +kernel⟩

end Verif.Modem
