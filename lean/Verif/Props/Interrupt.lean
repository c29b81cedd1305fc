import Verif.Lemmas.Interrupt
import Verif.Props.ModemCallers
import Verif.Props.Retry

/-! C85: an interrupt (Ctrl-C) while examples/engineering_mode.py is running: the handler executes one more command, which
switches the engineering mode off, and ends the program. -/

namespace Verif.Modem

open Verif Verif.Serial Verif.Examples

/-! ### C85: the handler -/

/-- C85: the handler is started at any moment at which nobody holds the lock and the frame counter is not just being
reset: in the main loop, or anywhere in a call of `execute_command` except in the lines that write. Then it makes at most
so many steps until it ends, it can always make the next one (or its time can be over), and when it ends its command has
been written as a whole frame, behind whole frames, and nothing after it; the call has not raised. -/
theorem C85_off_partial {m : State} {n : Nat} {before : List CallersEvent} {s : Callers}
    (hs : (Callers.start m n).run before = some s) {i : Nat} {c : Command} {t : Int} {bs : List UInt8}
    (hc : sendable c = some bs) (hl : s.lock = none)
    (hu : 0 ≤ s.inner.parser.upCounter ∧ s.inner.parser.upCounter ≤ 255) {es : List CallersEvent}
    (hd : ∀ e ∈ es, During i e) {s' : Callers} (h : s.run (.call i c t :: es) = some s') :
    (∃ order : List Line, s.inner.written = m.written ++ (order.map Line.bytes).flatten) ∧
    (s'.threads[i]? = some .idle →
      s'.inner.written = s.inner.written ++ frame (UInt8.ofNat s.inner.parser.upCounter.toNat) 1 bs ∧
      ∃ o, s'.results = s.results ++ [(i, o)] ∧ (o = .empty ∨ ∃ k, o = .list k)) ∧
    (s'.threads[i]? ≠ some .idle → s'.results = s.results ∧
      ((s'.step (.step i)).isSome = true ∨ (s'.step (.timeout i)).isSome = true)) ∧
    es.countP (Moves i) ≤ 22 + bs.length := by
  refine ⟨?_, ?_⟩
  · obtain ⟨order, h1, -⟩ := C74_frames hs
    rw [unwritten_of_lock hl, List.append_nil] at h1
    exact ⟨order, h1⟩
  obtain ⟨s1, hs1, hr⟩ := Option.bind_eq_some_iff.1 h
  obtain ⟨hi, hb, rfl⟩ := Ir.call_begins hc hs1
  obtain ⟨k, hk, hn⟩ := Ir.inv_run (s := s.goto i (.run .counter c bs [] (if s.inner.config.skip then 0 else t)))
    hb hu.1 hu.2 hd (W := s.inner.written) (R := s.results) (n := 22 + bs.length)
    (.run .counter [] _ (Ir.set_get hi) rfl ⟨rfl, rfl, hl⟩ (fun _ => rfl) (fun hx => absurd rfl hx)) hr
  cases hk with
  | idle o g1 g2 g3 g4 g5 =>
    exact ⟨fun _ => ⟨g4, o, g2, g3⟩, fun hx => absurd g1 hx, by omega⟩
  | run p f k g1 g2 g3 g4 g5 =>
    refine ⟨fun hx => (by rw [g1] at hx; cases hx), fun _ => ⟨g2, ?_⟩, by omega⟩
    cases p with
    | counter =>
      refine .inl ?_
      simp only [Callers.step, Callers.threadStep, g1]
      split <;> rfl
    | wait => exact .inr (by simp only [Callers.step, Callers.timeoutStep, g1]; rfl)
    | check =>
      refine .inl ?_
      simp only [Callers.step, Callers.threadStep, g1]
      split <;> rfl
    | acquire => exact .inl (by simp only [Callers.step, Callers.threadStep, g1, g3.2.2, if_true]; rfl)
    | final =>
      refine .inl ?_
      simp only [Callers.step, Callers.threadStep, g1]
      split <;> rfl
    | writing r =>
      refine .inl ?_
      cases r with
      | cons b r => simp only [Callers.step, Callers.threadStep, g1]; rfl
      | nil =>
        simp only [Callers.step, Callers.threadStep, g1]
        generalize (if s.inner.config.skip = true then (0 : Int) else t) = u
        by_cases ht : u = 0
        · simp [ht]
        · simp [ht]
    | _ => exact .inl (by simp only [Callers.step, Callers.threadStep, g1]; rfl)

/-- The main program waits for its answer, the reading thread is handing it over; the handler
executes its command and takes that answer for its own. -/
def interrupted : List CallersEvent := [.call 1 cmd7 10] ++ steps 1 20 ++ [.rx final7] ++ reading 2

example : (((Callers.start (init plain) 2).run interrupted).map fun s => (s.lock, s.inner.parser.upCounter, s.results)) =
      some (none, 1, []) ∧
    (((Callers.start (init plain) 2).run (interrupted ++ (.call 2 cmd9 10 :: (steps 2 10 ++ reading 3 ++ steps 2 13)))).map fun s => (s.inner.written, s.results)) =
      some (frame 0 1 [0xB4, 7] ++ frame 1 1 [0xB4, 9], [(2, .list 2)]) := by
  decide +kernel

/-- C85 is false when the main program has the lock (it is in modem/modem.py 159-160): the handler waits for it forever, for
the main program does not go on before the handler ends. Nothing more is written, not even the rest of the frame. -/
theorem C85_deadlock {s : Callers} {i j : Nat} {c : Command} {t : Int} {bs : List UInt8}
    (hc : sendable c = some bs) (hl : s.lock = some j)
    (hu : 0 ≤ s.inner.parser.upCounter ∧ s.inner.parser.upCounter ≤ 255) {es : List CallersEvent}
    (hd : ∀ e ∈ es, During i e) {s' : Callers} (h : s.run (.call i c t :: es) = some s') :
    s'.threads[i]? ≠ some .idle ∧ s'.results = s.results ∧ s'.inner.written = s.inner.written := by
  obtain ⟨s1, hs1, hr⟩ := Option.bind_eq_some_iff.1 h
  obtain ⟨hi, hb, rfl⟩ := Ir.call_begins hc hs1
  obtain ⟨g1, g2, -, p, f, g3, -⟩ := Ir.waiting_run (s := s.goto i (.run .counter c bs [] (if s.inner.config.skip then 0 else t)))
    hb hu.1 hu.2 hd (j := j) (W := s.inner.written) (R := s.results)
    ⟨rfl, rfl, hl, .counter, [], Ir.set_get hi, by simp, by simp, by simp, rfl, fun _ => rfl, by simp⟩ hr
  exact ⟨by rw [g3]; simp, g1, g2⟩

/-- Three bytes of the frame have been written when the handler is started. -/
example : (((Callers.start (init plain) 2).run ([.call 1 cmd7 10] ++ steps 1 13)).map fun s =>
      (s.lock, s.inner.parser.upCounter, s.inner.written)) = some (some 1, 1, [0xC0, 0, 0]) ∧
    (((Callers.start (init plain) 2).run ([.call 1 cmd7 10] ++ steps 1 13 ++ [.call 2 cmd9 10] ++ steps 2 9)).map fun s =>
      (s.threads[2]?, s.inner.written, (s.step (.step 2)).isSome, (s.step (.timeout 2)).isSome)) =
      some (some (.run .acquire cmd9 [0xB4, 9] (frame 1 1 [0xB4, 9]) 10), [0xC0, 0, 0], false, false) := by
  decide +kernel

/-- C85 is false when the frame counter has just been counted up to 256 (d7a/serial_modem_interface/parser.py 71-73, at
every 256th command): the handler raises ValueError and writes nothing. -/
theorem C85_overflow {s : Callers} {i : Nat} {c : Command} {t : Int} {bs : List UInt8}
    (hc : sendable c = some bs) (hu : 255 < s.inner.parser.upCounter) {es : List CallersEvent}
    (hd : ∀ e ∈ es, During i e) {s' : Callers} (h : s.run (.call i c t :: es) = some s') :
    s'.inner.written = s.inner.written ∧
    (s'.threads[i]? = some .idle → s'.results = s.results ++ [(i, .raised .valueError)]) := by
  obtain ⟨s1, hs1, hr⟩ := Option.bind_eq_some_iff.1 h
  obtain ⟨hi, hb, rfl⟩ := Ir.call_begins hc hs1
  obtain ⟨g1, g2⟩ := Ir.raising_run (s := s.goto i (.run .counter c bs [] (if s.inner.config.skip then 0 else t)))
    hu hd (W := s.inner.written) (R := s.results)
    ⟨rfl, .inl ⟨Ir.set_get hi, rfl, rfl⟩⟩ hr
  refine ⟨g1, fun hx => ?_⟩
  rcases g2 with ⟨g2, -⟩ | ⟨-, g2⟩
  · rw [g2] at hx; cases hx
  · exact g2

/-- After 255 commands, the main program is counting up when the handler is started. -/
example : ∃ m s, (init plain).run (List.replicate 255 ([.call (.execute cmd7 0)] ++ mains 5)).flatten = some m ∧
    (Callers.start m 2).run ([.call 1 cmd7 0] ++ steps 1 3) = some s ∧ 255 < s.inner.parser.upCounter := by
  obtain ⟨m, hm, h⟩ := exists_of_map (o := (init plain).run (List.replicate 255 ([.call (.execute cmd7 0)] ++ mains 5)).flatten)
    (f := fun m : State => ((Callers.start m 2).run ([.call 1 cmd7 0] ++ steps 1 3)).map (·.inner.parser.upCounter))
    (v := some 256) (by decide +kernel)
  obtain ⟨s, hs, h⟩ := Option.map_eq_some_iff.1 h
  exact ⟨m, s, hm, hs, by rw [h]; decide⟩

/-- C85, the command of the handler: for all options that the program accepts it fits in a frame and writes nine bytes to
file 5, the same as before but with mode 0. -/
theorem C85_command (rand : UInt8) (a : EngineeringArgs) (em : EngineeringModeFile) (h : engineeringFile a = .ok em) :
    ∃ c bs, engineeringCleanup rand em = .ok c ∧ sendable c = some bs ∧
      bytesToBits bs = fieldBits (tagFields rand.toNat ++ ([(8, 0x04), (8, 0x05), (8, 0), (8, 9)] ++
        (SystemFile.engineeringMode { em with mode := .OFF }).fields)) ∧
      EngineeringModeMode.OFF.value = 0 := by
  have hb : em.Built := by
    unfold engineeringFile at h
    cases hch : ChannelID.fromString a.channelId with
    | error e => rw [hch] at h; cases h
    | ok ch =>
      cases hm : EngineeringModeMode.fromString a.mode with
      | error e => rw [hch, hm] at h; cases h
      | ok m =>
        rw [hch, hm] at h
        change EngineeringModeFile.new m 0 _ ch a.eirp = .ok em at h
        have h' := h
        cases (validate_eq_ok.1 h').2
        exact ⟨h, fromString_built hch⟩
  obtain ⟨c, h1, h2⟩ := C70_cleanup rand em hb
  obtain ⟨bs, h3, h4⟩ := Rt.layout_length h2
  obtain ⟨bs', h5, h6, -⟩ := h2
  rw [h3] at h5
  cases h5
  refine ⟨c, bs, h1, ?_, h6, rfl⟩
  unfold sendable
  rw [h3]
  refine if_pos ?_
  have e3 : ((SystemFile.engineeringMode { em with mode := .OFF }).fields.map Prod.fst).sum = 72 := by
    simp [SystemFile.fields, EngineeringModeFile.table, ChannelID.table, ChannelHeader.table, signedInt, Table.fields]
  simp only [List.map_append, List.sum_append] at h4
  rw [e3] at h4
  simp [tagFields] at h4
  omega

example : ∃ em, engineeringFile { channelId := ['8', '6', '8', 'L', 'P', '0', '2', '5'], mode := "PER_TX" } = .ok em ∧
    ((engineeringCleanup 7 em).toOption.bind sendable) = some [0xB4, 7, 4, 5, 0, 9, 0, 0, 255, 0x30, 0, 25, 0, 0, 0] := by
  refine ⟨_, rfl, by decide +kernel⟩

end Verif.Modem
