import Verif.Props.ModemCalls
import Verif.Spec.ModemWrite

/-! What the modem writes to the serial port. -/

namespace Verif.Modem

open Verif Verif.Serial

/-! ### C73: what is written -/

theorem infoCommand_eq (rand : UInt8) : infoCommand rand = .ok (question rand) := rfl

theorem framesFrom_append (ps qs : List (List UInt8)) : ∀ n,
    framesFrom n (ps ++ qs) = framesFrom n ps ++ framesFrom (n + ps.length) qs := by
  induction ps with
  | nil => intro n; simp [framesFrom]
  | cons p ps ih =>
    intro n
    simp only [List.cons_append, framesFrom, ih, List.append_assoc, List.length_cons]
    rw [show n + 1 + ps.length = n + (ps.length + 1) by omega]

/-- The counter of the parser after `n` frames, and what has been written and is about to be. -/
def WriteInv (ps : List (List UInt8)) (s : State) : Prop :=
  s.parser.upCounter = ((ps.length % 256 : Nat) : Int) ∧ s.written ++ unwritten s.main = framesFrom 0 ps

theorem buildSerialFrame_sendable {p : Parser} {n : Nat} (h : p.upCounter = ((n % 256 : Nat) : Int)) (c : Command) :
    match sendable c with
    | some bs => ∃ q, p.buildSerialFrame c.iter = (q, .ok (frame (UInt8.ofNat n) 1 bs)) ∧
        q.upCounter = (((n + 1) % 256 : Nat) : Int)
    | none => ∃ e, p.buildSerialFrame c.iter = (p, .error e) := by
  obtain ⟨c1, c2, c3⟩ := C28_builder p (by omega) (by omega) c.iter
  unfold sendable
  cases hb : bytearray c.iter with
  | error e => exact ⟨e, c3 e hb⟩
  | ok bs =>
    simp only
    by_cases hl : bs.length ≤ 255
    · rw [if_pos hl]
      refine ⟨{ p with upCounter := if p.upCounter = 255 then 0 else p.upCounter + 1 }, ?_, ?_⟩
      · rw [c1 bs hb hl, h, Int.toNat_natCast]
        congr 3
        exact UInt8.toNat_inj.1 (by simp)
      · simp only
        rw [h]
        split <;> omega
    · rw [if_neg hl]
      exact ⟨_, c2 bs hb (by omega)⟩

theorem writeInv_startExecute {ps : List (List UInt8)} {s : State} (h : WriteInv ps s) (hm : s.main = .idle)
    (caller : Caller) (c : Command) (timeout : Int) :
    WriteInv (ps ++ (sendable c).toList) (s.startExecute caller c timeout) := by
  obtain ⟨h1, h2⟩ := h
  have hb := buildSerialFrame_sendable h1 c
  rw [hm] at h2
  simp only [unwritten, List.append_nil] at h2
  unfold State.startExecute
  cases hs : sendable c with
  | none =>
    rw [hs] at hb
    obtain ⟨e, he⟩ := hb
    rw [he]
    simpa [WriteInv, State.finish, unwritten] using ⟨h1, h2⟩
  | some bs =>
    rw [hs] at hb
    obtain ⟨q, he, hq⟩ := hb
    rw [he]
    refine ⟨by simpa using hq, ?_⟩
    simp only [unwritten, Option.toList_some]
    rw [framesFrom_append, h2]
    simp [framesFrom]

theorem unwritten_finishExecute (s : State) (caller : Caller) (l : Option Nat) :
    (s.finishExecute caller l).written = s.written ∧ (s.finishExecute caller l).main = .idle ∧
      (s.finishExecute caller l).parser = s.parser := by
  unfold State.finishExecute
  cases caller with
  | app => exact ⟨rfl, rfl, rfl⟩
  | connectSkip => exact ⟨rfl, rfl, rfl⟩
  | connect =>
    simp only [State.finishConnect]
    split
    · exact ⟨rfl, rfl, rfl⟩
    · exact ⟨rfl, rfl, rfl⟩
    · split <;> exact ⟨rfl, rfl, rfl⟩

theorem writeInv_finishExecute {ps : List (List UInt8)} {s : State}
    (h : s.parser.upCounter = ((ps.length % 256 : Nat) : Int)) (hw : s.written = framesFrom 0 ps)
    (caller : Caller) (l : Option Nat) : WriteInv ps (s.finishExecute caller l) := by
  obtain ⟨a, b, c⟩ := unwritten_finishExecute s caller l
  exact ⟨by rw [c, h], by rw [a, b, hw]; simp [unwritten]⟩

theorem writeInv_step {ps : List (List UInt8)} {s s' : State} {e : Event} (h : WriteInv ps s)
    (hst : s.step e = some s') : WriteInv (ps ++ (asked s e).filterMap sendable) s' := by
  cases e with
  | call c =>
    have hm : s.main = .idle := by
      by_contra hm
      simp only [State.step] at hst
      rw [if_neg hm] at hst; cases hst
    simp only [State.step, if_pos hm, Option.some.injEq] at hst
    subst hst
    have h0 : s.written = framesFrom 0 ps := by
      have := h.2
      rw [hm] at this
      simpa [unwritten] using this
    cases c with
    | execute c timeout =>
      have := writeInv_startExecute h hm .app c timeout
      simp only [State.startCall]
      cases hs : sendable c <;> simpa [hs, asked] using this
    | connect checkAlive rand =>
      cases checkAlive with
      | false =>
        simp only [State.startCall]
        by_cases hcon : s.connected = true
        · simpa [hcon, asked, WriteInv, State.finish, unwritten] using ⟨h.1, h0⟩
        · simpa [hcon, asked, WriteInv, State.finish, unwritten] using ⟨h.1, h0⟩
      | true =>
        simp only [State.startCall]
        by_cases hcon : s.connected = true
        · simpa [hcon, asked, WriteInv, State.finish, unwritten] using ⟨h.1, h0⟩
        · simp only [hcon, if_false, infoCommand_eq, not_true]
          have hq := writeInv_startExecute h hm .connect (question rand) 10
          have hq' : WriteInv (ps ++ (sendable (question rand)).toList)
              ({ s with connected := true }.startExecute .connectSkip (question rand) 0) :=
            writeInv_startExecute (s := { s with connected := true }) h hm .connectSkip (question rand) 0
          have hf : ([question rand] : List Command).filterMap sendable = (sendable (question rand)).toList := by
            cases hs : sendable (question rand) <;> simp [hs]
          simp only [asked, hcon, Bool.false_eq_true, if_false, hf]
          split
          · exact hq'
          · exact hq
    | clearUnsolicited => simpa [State.startCall, asked, WriteInv, State.finish, unwritten] using ⟨h.1, h0⟩
    | clearRebooted => simpa [State.startCall, asked, WriteInv, State.finish, unwritten] using ⟨h.1, h0⟩
  | main =>
    simp only [asked, List.filterMap_nil, List.append_nil]
    simp only [State.step, State.mainStep] at hst
    obtain ⟨h1, h2⟩ := h
    cases hm : s.main with
    | idle => rw [hm] at hst; cases hst
    | run stage caller tag f timeout =>
      rw [hm] at hst h2
      cases stage with
      | resetList => cases hst; exact ⟨h1, h2⟩
      | resetTag => cases hst; exact ⟨h1, h2⟩
      | resetCompleted => cases hst; exact ⟨h1, h2⟩
      | setTag => cases hst; exact ⟨h1, h2⟩
      | write =>
        simp only at hst
        split at hst
        · cases hst
          exact writeInv_finishExecute
            (s := { s with written := s.written ++ f, main := .run .write caller tag f timeout }) h1 h2 _ _
        · cases hst
          exact ⟨h1, by simpa [unwritten] using h2⟩
      | wait =>
        simp only at hst
        split at hst
        · cases hst
          exact writeInv_finishExecute h1 (by simpa [unwritten] using h2) _ _
        · cases hst
  | timeout =>
    simp only [asked, List.filterMap_nil, List.append_nil]
    simp only [State.step, State.timeoutStep] at hst
    obtain ⟨h1, h2⟩ := h
    split at hst
    · next hm =>
      cases hst
      rw [hm] at h2
      exact writeInv_finishExecute h1 (by simpa [unwritten] using h2) _ _
    · cases hst
  | rx bytes =>
    simp only [asked, List.filterMap_nil, List.append_nil]
    simp only [State.step, State.rxStep] at hst
    obtain ⟨h1, h2⟩ := h
    have hup := parse_up s.parser bytes
    split at hst
    · split at hst
      · next hp => rw [hp] at hup; cases hst; exact ⟨by rw [← h1]; exact hup, h2⟩
      · next hp => rw [hp] at hup; cases hst; exact ⟨by rw [← h1]; exact hup, h2⟩
    · cases hst
  | reader =>
    simp only [asked, List.filterMap_nil, List.append_nil]
    simp only [State.step, State.readerStep] at hst
    obtain ⟨h1, h2⟩ := h
    repeat' split at hst
    all_goals first | (cases hst; done) | (cases hst; exact ⟨h1, h2⟩)
  | callbackRaises =>
    simp only [asked, List.filterMap_nil, List.append_nil]
    simp only [State.step, State.raiseStep] at hst
    obtain ⟨h1, h2⟩ := h
    split at hst
    all_goals first | (cases hst; done) | (cases hst; exact ⟨h1, h2⟩)
  | serialError =>
    simp only [asked, List.filterMap_nil, List.append_nil]
    simp only [State.step, State.serialErrorStep] at hst
    obtain ⟨h1, h2⟩ := h
    split at hst
    all_goals first | (cases hst; done) | (cases hst; exact ⟨h1, h2⟩)

theorem writeInv_run {es : List Event} : ∀ {ps : List (List UInt8)} {s s' : State}, WriteInv ps s →
    s.run es = some s' → WriteInv (ps ++ (requested s es).filterMap sendable) s' := by
  induction es with
  | nil => intro ps s s' h hr; cases hr; simpa [requested] using h
  | cons e es ih =>
    intro ps s s' h hr
    unfold State.run at hr
    cases hst : s.step e with
    | none => rw [hst] at hr; cases hr
    | some s1 =>
      rw [hst] at hr
      have h1 := writeInv_step h hst
      have h2 := ih h1 hr
      have : requested s (e :: es) = asked s e ++ requested s1 es := by
        simp only [requested, hst]
      rw [this, List.filterMap_append, ← List.append_assoc]
      exact h2

/-- C73: in every interleaving of the two threads, with whatever arrives in between, the bytes written are one
frame for each command that was asked for and can be sent, in the order of the calls, with the payload the
command serialises to and the counters 0, 1, 2, …; only the frame of the call in progress may still be missing. -/
theorem C73_written {config : Config} {es : List Event} {s : State} (h : (init config).run es = some s) :
    s.written ++ unwritten s.main = framesFrom 0 ((requested (init config) es).filterMap sendable) := by
  have h0 : WriteInv [] (init config) := ⟨rfl, rfl⟩
  simpa using (writeInv_run h0 h).2

/-- A command with a tag that is not a byte cannot be sent; between two that can, while messages arrive. -/
def badTag : Command := { cmd7 with tagId := some 256 }

example : ((init plain).run ([.call (.execute cmd7 0)] ++ mains 3 ++ [.rx push] ++ mains 2 ++
      [.call (.execute badTag 10), .call (.connect true 5)] ++ mains 2 ++ reads 4 ++ mains 2)).map (fun s =>
      (s.written, unwritten s.main, s.outcomes)) =
    some (frame 0 1 [0xB4, 7], frame 1 1 [0xB4, 5, 1, 0, 0, 8, 1, 2, 0, 17], [.empty, .raised .valueError]) := by
  decide +kernel

/-- C73: a command that cannot be sent raises (ValueError if it is too long) and changes nothing. -/
theorem C73_refused {config : Config} {es : List Event} {s : State} (h : (init config).run es = some s)
    (hm : s.main = .idle) {c : Command} (hc : sendable c = none) (timeout : Int) :
    ∃ e, s.step (.call (.execute c timeout)) = some { s with outcomes := s.outcomes ++ [.raised e] } ∧
      ((∃ bs, bytearray c.iter = .ok bs ∧ 255 < bs.length ∧ e = .valueError) ∨ bytearray c.iter = .error e) := by
  have h0 : WriteInv [] (init config) := ⟨rfl, rfl⟩
  have h1 := (writeInv_run h0 h).1
  obtain ⟨-, c2, c3⟩ := C28_builder s.parser (by omega) (by omega) c.iter
  have hst : s.step (.call (.execute c timeout)) = some (s.startExecute .app c timeout) := by
    simp only [State.step, if_pos hm]; rfl
  rw [hst]
  unfold State.startExecute
  unfold sendable at hc
  cases hb : bytearray c.iter with
  | error e =>
    refine ⟨e, ?_, .inr rfl⟩
    rw [c3 e hb]
    simp [State.finish, hm]
  | ok bs =>
    have hl : 255 < bs.length := by
      rw [hb] at hc
      by_contra hl
      simp only at hc
      rw [if_pos (by omega)] at hc
      cases hc
    refine ⟨.valueError, ?_, .inl ⟨bs, rfl, hl, rfl⟩⟩
    rw [c2 bs hb hl]
    simp [State.finish, hm]

example : sendable badTag = none ∧ bytearray badTag.iter = .error .valueError := by decide +kernel

/-- C73: a command that can be sent is written as one frame by five steps of the application thread, whose counter
is the number of frames before it. -/
theorem C73_sent {config : Config} {es : List Event} {s : State} (h : (init config).run es = some s)
    (hm : s.main = .idle) {c : Command} {bs : List UInt8} (hc : sendable c = some bs) (timeout : Int) :
    ∃ s', s.run (.call (.execute c timeout) :: List.replicate 5 .main) = some s' ∧
      s'.written = s.written ++
        frame (UInt8.ofNat ((requested (init config) es).filterMap sendable).length) 1 bs := by
  have h0 : WriteInv [] (init config) := ⟨rfl, rfl⟩
  have h1 := (writeInv_run h0 h).1
  rw [List.nil_append] at h1
  have hb := buildSerialFrame_sendable h1 c
  rw [hc] at hb
  obtain ⟨q, hq, -⟩ := hb
  have hst : s.step (.call (.execute c timeout)) = some (s.startExecute .app c timeout) := by
    simp only [State.step, if_pos hm]; rfl
  have hex : s.startExecute .app c timeout = { s with
      parser := q
      main := .run .resetList .app c.tagId
        (frame (UInt8.ofNat ((requested (init config) es).filterMap sendable).length) 1 bs)
        (if s.config.skip then 0 else timeout) } := by
    unfold State.startExecute
    rw [hq]
  rw [hex] at hst
  unfold State.run
  rw [hst]
  generalize (if s.config.skip then 0 else timeout) = x
  generalize frame (UInt8.ofNat ((requested (init config) es).filterMap sendable).length) 1 bs = f
  by_cases hx : x = 0
  · subst hx
    exact ⟨_, rfl, rfl⟩
  · refine ⟨{ s with
      parser := q, responses := s.responses ++ [[]], completed := false, tag := if x > 0 then c.tagId else none
      written := s.written ++ f, main := .run .wait .app c.tagId f x }, ?_, rfl⟩
    have : ∀ t : State, t.main = .run .write .app c.tagId f x →
        t.step .main = some { t with written := t.written ++ f, main := .run .wait .app c.tagId f x } := by
      intro t ht
      simp only [State.step, State.mainStep, ht, if_neg hx]
    show State.run { s with
      parser := q, responses := s.responses ++ [[]], completed := false, tag := if x > 0 then c.tagId else none
      main := .run .write .app c.tagId f x } [.main] = _
    unfold State.run
    rw [this _ rfl]
    rfl

example : sendable sampleCommand = some [0xB4, 77, 0x32, 1, 0x44, 0x40, 0x40, 70, 3, 1, 2, 255] ∧
    ((init plain).run ([.call (.execute cmd7 0)] ++ mains 5 ++ [.call (.execute sampleCommand 10)] ++
      mains 5)).map (fun s => s.written) =
    some (frame 0 1 [0xB4, 7] ++ frame 1 1 [0xB4, 77, 0x32, 1, 0x44, 0x40, 0x40, 70, 3, 1, 2, 255]) := by
  decide +kernel

theorem question_transmittable (tag : UInt8) : Transmittable (question tag) := by
  have ht := tag.toNat_lt
  refine ⟨?_, fun _ => ⟨tag.toNat, rfl, by omega, by omega⟩, rfl, ?_⟩
  · intro a ha
    simp only [question, List.mem_cons, List.not_mem_nil, or_false] at ha
    rcases ha with rfl | rfl
    · have hb : (Action.regular false false (.readFileData ⟨⟨0, ⟨0⟩⟩, ⟨8⟩⟩)).Built :=
        ⟨show DataRequest.Built ⟨⟨0, ⟨0⟩⟩, ⟨8⟩⟩ by decide, trivial⟩
      exact ⟨hb, (C19_action_iff _ hb).2 ⟨trivial, by simp [Operation.Survives, Action.operation]⟩, id⟩
    · have hb : (Action.regular false false (.readFileData ⟨⟨2, ⟨0⟩⟩, ⟨17⟩⟩)).Built :=
        ⟨show DataRequest.Built ⟨⟨2, ⟨0⟩⟩, ⟨17⟩⟩ by decide, trivial⟩
      exact ⟨hb, (C19_action_iff _ hb).2 ⟨trivial, by simp [Operation.Survives, Action.operation]⟩, id⟩
  · intro bs h
    have h1 : ∀ n : Fin 256, (bytearray (question (UInt8.ofNat n)).iter).map List.length = .ok 10 := by
      decide +kernel
    have := h1 ⟨tag.toNat, ht⟩
    simp only [UInt8.ofNat_toNat] at this
    rw [h] at this
    injection this with this
    omega

theorem requested_mem {es : List Event} : ∀ {s : State} {c : Command}, c ∈ requested s es →
    (∃ timeout, Event.call (.execute c timeout) ∈ es) ∨ ∃ tag, c = question tag := by
  induction es with
  | nil => intro s c h; simp [requested] at h
  | cons e es ih =>
    intro s c h
    simp only [requested, List.mem_append] at h
    rcases h with h | h
    · unfold asked at h
      split at h
      · simp only [List.mem_singleton] at h
        exact .inl ⟨_, by rw [h]; exact List.mem_cons_self⟩
      · split at h
        · cases h
        · simp only [List.mem_singleton] at h
          exact .inr ⟨_, h⟩
      · cases h
    · split at h
      · rcases ih h with ⟨t, ht⟩ | ht
        · exact .inl ⟨t, List.mem_cons_of_mem _ ht⟩
        · exact .inr ht
      · cases h

theorem buildAll_framesFrom (cs : List Command) : ∀ {b b' : Parser} {n : Nat} {fs : List (List UInt8)},
    b.upCounter = ((n % 256 : Nat) : Int) → buildAll b (cs.map Command.iter) = .ok (b', fs) →
    fs.flatten = framesFrom n (cs.filterMap sendable) := by
  induction cs with
  | nil => intro b b' n fs _ h; cases h; rfl
  | cons c cs ih =>
    intro b b' n fs hn h
    have hb := buildSerialFrame_sendable hn c
    simp only [List.map_cons, buildAll] at h
    cases hs : sendable c with
    | none =>
      rw [hs] at hb
      obtain ⟨e, he⟩ := hb
      rw [he] at h
      cases h
    | some bs =>
      rw [hs] at hb
      obtain ⟨q, he, hq⟩ := hb
      rw [he] at h
      simp only at h
      cases hr : buildAll q (cs.map Command.iter) with
      | error e => rw [hr] at h; cases h
      | ok r =>
        obtain ⟨r, gs⟩ := r
        rw [hr] at h
        cases h
        simp only [List.flatten_cons, List.filterMap_cons, hs, framesFrom]
        rw [ih hq hr]

/-- C73: a parser at the other end of the serial line that gets these bytes, in whatever pieces, delivers exactly
the commands that were asked for, in order and without an error, if they are of the kind that survives (C20);
the question of `connect` is. -/
theorem C73_peer {config : Config} {es : List Event} {s : State} (h : (init config).run es = some s)
    (hw : unwritten s.main = []) (hes : ∀ c timeout, Event.call (.execute c timeout) ∈ es → Transmittable c)
    (r : Parser) (hr : r.buffer = []) (hs : r.skipAlpParsing = false) {pieces : List (List UInt8)}
    (hne : pieces ≠ []) (hp : pieces.flatten = s.written) :
    ∃ q ds, feed r pieces = .ok (q, ds.map (fun d => (1, .command d)), []) ∧
      List.Forall₂ ArrivesAs (requested (init config) es) ds ∧ q.buffer = [] := by
  have hcs : ∀ c ∈ requested (init config) es, Transmittable c := by
    intro c hc
    rcases requested_mem hc with ⟨t, ht⟩ | ⟨t, rfl⟩
    · exact hes c t ht
    · exact question_transmittable t
  obtain ⟨b', fs, h1, h2⟩ := C30_link (Parser.new config.skip) r ⟨by simp [Parser.new], by simp [Parser.new]⟩ hr hs
    (requested (init config) es) hcs
  have hf := buildAll_framesFrom _ (b := Parser.new config.skip) (n := 0) rfl h1
  have hwr := C73_written h
  rw [hw, List.append_nil] at hwr
  obtain ⟨q, ds, a, b, c, -⟩ := h2 pieces hne (by rw [hp, hwr, hf])
  exact ⟨q, ds, a, b, c⟩

/-- `connect` and a command; the other end gets the bytes in two pieces. -/
example : ∃ s, (init plain).run ([.call (.connect true 5)] ++ mains 5 ++
      [.timeout, .call (.execute sampleCommand 0)] ++ mains 5) = some s ∧
    ∃ q ds, feed (Parser.new false) [s.written.take 9, s.written.drop 9] =
        .ok (q, ds.map (fun d => (1, .command d)), []) ∧
      List.Forall₂ ArrivesAs [question 5, sampleCommand] ds := by
  obtain ⟨s, h, hs⟩ := Option.map_eq_some_iff.1 (show ((init plain).run ([.call (.connect true 5)] ++ mains 5 ++
      [.timeout, .call (.execute sampleCommand 0)] ++ mains 5)).map (fun s => s.main) = some .idle by decide +kernel)
  refine ⟨s, h, ?_⟩
  obtain ⟨q, ds, a, b, -⟩ := C73_peer h (by rw [hs]; rfl) (by
      intro c t hc
      simp only [mains, List.replicate, List.cons_append, List.nil_append, List.mem_cons, reduceCtorEq, Event.call.injEq,
        Call.execute.injEq, List.not_mem_nil, or_false, false_or] at hc
      rw [hc.1]
      exact sampleCommand_transmittable) (Parser.new false) rfl rfl
    (pieces := [s.written.take 9, s.written.drop 9]) (by simp) (by simp)
  have hreq : requested (init plain) ([.call (.connect true 5)] ++ mains 5 ++
      [.timeout, .call (.execute sampleCommand 0)] ++ mains 5) = [question 5, sampleCommand] := by decide +kernel
  rw [hreq] at b
  exact ⟨q, ds, a, b⟩

end Verif.Modem
