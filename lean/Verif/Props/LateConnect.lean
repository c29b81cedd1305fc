import Verif.Lemmas.LateConnect
import Verif.Lemmas.Site

/-! C83: `connect` when answers come too late. -/

namespace Verif.Modem

open Verif Verif.Serial

variable {D : Type}

/-- A device that answers everything with its UID, which is the number of commands it has got, and a firmware version. -/
def naming : Gateway Nat where
  handle n
    | 0xB4 :: tag :: _ => (n + 1, [answer tag [(0, 0, [0, 0, 0, 0, 0, 0, 0, UInt8.ofNat n]),
        (2, 0, [1, 1, 0, 0, 0x61, 0x70, 0x70, 0x20, 0x20, 0x20, 0x31, 0x32, 0x33, 0x34, 0x35, 0x36, 0x37])]])
    | _ => (n, [])

/-- Its answer. -/
def named (tag n : UInt8) : Command :=
  answered tag [(0, 0, [0, 0, 0, 0, 0, 0, 0, n]),
    (2, 0, [1, 1, 0, 0, 0x61, 0x70, 0x70, 0x20, 0x20, 0x20, 0x31, 0x32, 0x33, 0x34, 0x35, 0x36, 0x37])]

theorem naming_conforms : naming.Conforms := by
  intro d c bs tag h1 h2 h3 h4
  obtain ⟨h5, -⟩ := Gw.sendable_some h4
  obtain ⟨tb, sb, xs, e1, -, -, -, rfl⟩ := (C22_bytes c bs).1 h5
  simp only [Command.tagBytes, h1, h2, h3, if_true] at e1
  split at e1
  · next hb =>
    simp only [Option.some.injEq] at e1
    subst e1
    refine ⟨[named (UInt8.ofNat tag.toNat) (UInt8.ofNat d)], .cons ⟨by simp [answer, returned, encode], .alp 1 _ _ rfl
      (by decide) (by decide) (answer_parses _ _ (by simp) (by simp [answer, returned, encode]))⟩ .nil, ?_, [], _, rfl, rfl,
      by simp⟩
    intro r hr
    rw [List.mem_singleton.1 hr]
    show some (((UInt8.ofNat tag.toNat).toNat : Int)) = some tag
    simp; omega
  · cases e1

/-- The first `connect` times out before the device gets the question. -/
def lateNames : List LateEvent :=
  [.net (.call (.connect true 7)), .net .main, .net .main, .net .main, .net .main, .net .main, .timeout, .net .take]

/-- The second `connect`, and what arrives meanwhile. -/
def secondConnect : List LateEvent :=
  [.net (.call (.connect true 8)), .net .main, .net .main, .net .main, .net .main, .net .main, .net (.send 0), .net .take,
    .net (.send 1), .net (.read 84)] ++ List.replicate 8 (.net .reader)

/-- The firmware version it tells. -/
theorem naming_firmware : ∃ f st, FirmwareVersionFile.parse (stream [1, 1, 0, 0, 0x61, 0x70, 0x70, 0x20, 0x20, 0x20, 0x31, 0x32,
    0x33, 0x34, 0x35, 0x36, 0x37]) = .ok f st := by
  have : (match FirmwareVersionFile.parse (stream [1, 1, 0, 0, 0x61, 0x70, 0x70, 0x20, 0x20, 0x20, 0x31, 0x32,
    0x33, 0x34, 0x35, 0x36, 0x37]) with | .ok _ _ => true | .err _ _ => false) = true := by decide +kernel
  split at this
  · next f st h => exact ⟨f, st, h⟩
  · cases this

theorem named_identifies (tag n : UInt8) : ∃ f, Identifies (named tag n) n.toNat f := by
  obtain ⟨f, st, hf⟩ := naming_firmware
  have hnum : number [0, 0, 0, 0, 0, 0, 0, n] = n.toNat := by simp [number]
  have hu : ReturnsUid (.regular false false (.returnFileData ⟨⟨0, ⟨0⟩⟩, ⟨8⟩,
      [0, 0, 0, 0, 0, 0, 0, n].map fun b : UInt8 => (b.toNat : Int)⟩)) n.toNat :=
    ⟨_, _, _, [0, 0, 0, 0, 0, 0, 0, n], rfl, rfl, rfl, rfl, hnum.symm⟩
  have hw : ReturnsFirmware (.regular false false (.returnFileData ⟨⟨2, ⟨0⟩⟩, ⟨17⟩,
      [1, 1, 0, 0, 0x61, 0x70, 0x70, 0x20, 0x20, 0x20, 0x31, 0x32, 0x33, 0x34, 0x35, 0x36, 0x37].map
        fun b : UInt8 => (b.toNat : Int)⟩)) f := ⟨_, _, _, _, st, rfl, rfl, rfl, hf⟩
  refine ⟨f, ?_, ⟨_, List.mem_cons_self, hu⟩, ?_, ⟨_, List.mem_cons_of_mem _ List.mem_cons_self, hw⟩, ?_⟩
  · intro a ha hj
    rcases List.mem_cons.1 ha with rfl | ha
    · obtain ⟨_, _, _, _, _, h, -⟩ := hj
      exact h _ hu
    · rcases List.mem_cons.1 ha with rfl | ha
      · obtain ⟨_, _, _, _, _, -, h⟩ := hj
        exact h _ hw
      · cases ha
  · intro a ha v hv
    rcases List.mem_cons.1 ha with rfl | ha
    · obtain ⟨_, _, _, bs, h1, -, h2, -, rfl⟩ := hv
      cases h1
      rw [← ords_inj (a := [0, 0, 0, 0, 0, 0, 0, n]) h2, hnum]
    · rcases List.mem_cons.1 ha with rfl | ha
      · obtain ⟨_, _, _, bs, h1, h2, -⟩ := hv
        cases h1
        exact absurd h2 (by decide)
      · cases ha
  · intro a ha v hv
    rcases List.mem_cons.1 ha with rfl | ha
    · obtain ⟨_, _, _, bs, _, h1, h2, -⟩ := hv
      cases h1
      exact absurd h2 (by show ¬ ((0 : Int) = 2); decide)
    · rcases List.mem_cons.1 ha with rfl | ha
      · obtain ⟨_, _, _, bs, _, h1, -, h2, h3⟩ := hv
        cases h1
        rw [← ords_inj h2, hf] at h3
        cases h3; rfl
      · cases ha

theorem lateNames_tagged : ∀ e ∈ lateNames ++ secondConnect.tail, Tagged e := by
  intro e he
  rcases List.mem_append.1 he with he | he
  · simp only [lateNames, List.mem_cons, List.not_mem_nil, or_false] at he
    rcases he with rfl | rfl | rfl | rfl | rfl | rfl | rfl | rfl <;> trivial
  · simp only [secondConnect, List.cons_append, List.nil_append, List.tail_cons, List.mem_cons, List.mem_append,
      List.mem_replicate] at he
    rcases he with rfl | rfl | rfl | rfl | rfl | rfl | rfl | rfl | rfl | ⟨-, rfl⟩ <;> trivial

/-- What `connect` makes of the result of `execute_command`. -/
theorem connect_result {config : Config} {g : Gateway D} {d : D} {before : List LateEvent} {last : LateEvent}
    {s s1 s' : Net D} {r : UInt8} {o : Outcome} (hn : s.modem.connected = false) (ho1 : s1.modem.outcomes = s.modem.outcomes)
    (h2 : s1.stepLate g last = some s') (ho : s'.modem.outcomes = s.modem.outcomes ++ [o]) (a1 : Lt.Knows s.modem s1.modem)
    {st tag f t} (a2 : s1.modem.main = .run st .connect tag f t)
    (hfr : ∀ {z : Net D} {o' : Outcome}, (Lt.Net.asApp s1).stepLate g last = some z →
      z.modem.outcomes = s.modem.outcomes ++ [o'] →
      o' = .empty ∨
      (o' = .list s.modem.responses.length ∧
        g.Reply d (((Net.start config d).requested g before).filterMap sendable) r.toNat [0xB4, r, 1, 0, 0, 8, 1, 2, 0, 17]
          (content z.modem.responses s.modem.responses.length) ∧
        z.data = (g.replies d (((Net.start config d).requested g before).filterMap sendable ++
          [[0xB4, r, 1, 0, 0, 8, 1, 2, 0, 17]])).1)) :
    (o = .bool false ∧ s'.modem.uid = s.modem.uid ∧ s'.modem.firmwareVersion = s.modem.firmwareVersion ∧
      s'.modem.connected = false) ∨
    ∃ x rs, g.Reply d (((Net.start config d).requested g before).filterMap sendable) r.toNat
        [0xB4, r, 1, 0, 0, 8, 1, 2, 0, 17] (x :: rs) ∧
      s'.data = (g.replies d (((Net.start config d).requested g before).filterMap sendable ++
        [[0xB4, r, 1, 0, 0, 8, 1, 2, 0, 17]])).1 ∧
      (∀ u f, Identifies x u f → o = .bool true ∧ s'.modem.uid = some u ∧ s'.modem.firmwareVersion = some f ∧
        s'.modem.connected = true) ∧
      ((∃ a ∈ x.actions, ReturnsJunk a) → (∃ e, o = .raised e) ∧ s'.modem.connected = false) ∧
      ((∀ a ∈ x.actions, ¬ ReturnsJunk a) →
        (s.modem.uid = none ∧ (∀ a ∈ x.actions, ∀ u, ¬ ReturnsUid a u) ∨
          s.modem.firmwareVersion = none ∧ (∀ a ∈ x.actions, ∀ f, ¬ ReturnsFirmware a f)) →
        o = .bool false ∧ s'.modem.connected = false) := by
  rcases Lt.net_step a2 h2 with ⟨b1, -⟩ | ⟨z, l, b1, b2, b3, b4⟩
  · rw [b1, ho1] at ho
    simpa using congrArg List.length ho
  have hz := a1.trans b1
  have hfr := hfr b4 (o' := Lt.returned l) (by
    show z.outcomes ++ [Lt.returned l] = _
    rw [b2, ho1])
  cases l with
  | none =>
    rw [Option.bind_none] at b3
    have e1 : s'.modem = z.finish (.bool false) := b3
    rw [e1] at ho
    simp only [State.finish] at ho
    rw [b2, ho1] at ho
    rw [e1]
    exact .inl ⟨by simpa using ho.symm, hz.uid, hz.firmware, hz.connected.trans hn⟩
  | some n =>
    rcases hfr with hfr | ⟨e1, e2, e3⟩
    · cases hfr
    have e4 : n = s.modem.responses.length := by
      injection (show Outcome.list n = .list _ from e1)
    subst e4
    have e5 : z.responses[s.modem.responses.length]? = some (content z.responses s.modem.responses.length) := by
      obtain ⟨l, y, e6, -⟩ := e2.final
      have e7 : content z.responses s.modem.responses.length = l ++ [y] := e6
      cases e8 : z.responses[s.modem.responses.length]? with
      | none =>
        unfold content at e7
        rw [e8] at e7
        simp at e7
      | some c =>
        unfold content
        rw [e8]
    have e2' : g.Reply d (((Net.start config d).requested g before).filterMap sendable) r.toNat
        [0xB4, r, 1, 0, 0, 8, 1, 2, 0, 17] (content z.responses s.modem.responses.length) := e2
    rw [Option.bind_some, e5] at b3
    cases hc : content z.responses s.modem.responses.length with
    | nil =>
      rw [hc] at e2'
      obtain ⟨l, y, e6, -⟩ := e2'.final
      simp at e6
    | cons x rs =>
      rw [hc] at e2' b3
      have hzc : z.connected = false := hz.connected.trans hn
      have hu : ∀ {w : State} {p : Outcome}, s'.modem = w.finish p → w.outcomes = z.outcomes → o = p := by
        intro w p hw hw'
        rw [hw] at ho
        simp only [State.finish] at ho
        rw [hw', b2, ho1] at ho
        simpa using ho.symm
      refine .inr ⟨x, rs, e2', e3, ?_, ?_, ?_⟩
      · intro u f hi
        simp only [State.finishConnect, Lt.readInfo_identifies hi] at b3
        refine ⟨?_, by rw [b3]; rfl, by rw [b3]; rfl, by rw [b3]; simp [State.finish]⟩
        rw [hu b3 rfl]; simp
      · intro hj
        cases hr : readInfo x.actions z.uid z.firmwareVersion with
        | mk u' y =>
          obtain ⟨f', e⟩ := y
          obtain ⟨i1, -, -⟩ := readInfo_spec hr
          cases e with
          | none =>
            obtain ⟨a, ha, ha'⟩ := hj
            exact absurd ha' (i1.1 rfl a ha)
          | some e =>
            simp only [State.finishConnect, hr] at b3
            exact ⟨⟨e, hu b3 rfl⟩, by rw [b3]; exact hzc⟩
      · intro hj hl
        cases hr : readInfo x.actions z.uid z.firmwareVersion with
        | mk u' y =>
          obtain ⟨f', e⟩ := y
          obtain ⟨i1, i2, i3⟩ := readInfo_spec hr
          have he : e = none := i1.2 hj
          subst he
          simp only [State.finishConnect, hr, hzc, Bool.false_or] at b3
          have hb : (u'.isSome && f'.isSome) = false := by
            rcases hl with ⟨k1, k2⟩ | ⟨k1, k2⟩
            · rcases i2 with ⟨n, -, a, ha, ha'⟩ | ⟨rfl, -⟩
              · exact absurd ha' (k2 a ha n)
              · rw [hz.uid, k1]; rfl
            · rcases i3 with ⟨n, -, a, ha, ha'⟩ | ⟨rfl, -⟩
              · exact absurd ha' (k2 a ha n)
              · rw [hz.firmware, k1]; simp
          rw [hb] at b3
          exact ⟨hu b3 rfl, by rw [b3]; rfl⟩

/-- C83 for `connect`: a `connect` with a tag that no earlier command had, in an interleaving in which no hand-over of an ALP
message overlaps with the lines of `execute_command` that prepare for the responses: it returns False and knows no more
than before, or it goes by the first of the device's answers to its own question, whatever arrives meanwhile that belongs to
earlier calls: it returns True if that tells a UID and a firmware version, which are what the modem knows then; it raises if
that has something else in one of the two files; it returns False if that lacks one of the two files, and nothing was known
of it before. -/
theorem C83_connect_partial {config : Config} (hk : config.skip = false) {g : Gateway D} (hg : g.Conforms) {d : D}
    {before during : List LateEvent} {last : LateEvent} {s s1 s' : Net D} {r : UInt8} {o : Outcome}
    (hn : s.modem.connected = false)
    (hp : ∀ e ∈ before ++ during, Tagged e) (h0 : (Net.start config d).runLate g before = some s)
    (hf : ∀ q ∈ (Net.start config d).requested g before, q.tagId ≠ some (r.toNat : Int))
    (h1 : s.runLate g (.net (.call (.connect true r)) :: during) = some s1)
    (ho1 : s1.modem.outcomes = s.modem.outcomes) (h2 : s1.stepLate g last = some s')
    (ho : s'.modem.outcomes = s.modem.outcomes ++ [o])
    (hcalm : s.Calm g (.net (.call (.connect true r)) :: during)) :
    (o = .bool false ∧ s'.modem.uid = s.modem.uid ∧ s'.modem.firmwareVersion = s.modem.firmwareVersion ∧
      s'.modem.connected = false) ∨
    ∃ x rs, g.Reply d (((Net.start config d).requested g before).filterMap sendable) r.toNat
        [0xB4, r, 1, 0, 0, 8, 1, 2, 0, 17] (x :: rs) ∧
      s'.data = (g.replies d (((Net.start config d).requested g before).filterMap sendable ++
        [[0xB4, r, 1, 0, 0, 8, 1, 2, 0, 17]])).1 ∧
      (∀ u f, Identifies x u f → o = .bool true ∧ s'.modem.uid = some u ∧ s'.modem.firmwareVersion = some f ∧
        s'.modem.connected = true) ∧
      ((∃ a ∈ x.actions, ReturnsJunk a) → (∃ e, o = .raised e) ∧ s'.modem.connected = false) ∧
      ((∀ a ∈ x.actions, ¬ ReturnsJunk a) →
        (s.modem.uid = none ∧ (∀ a ∈ x.actions, ∀ u, ¬ ReturnsUid a u) ∨
          s.modem.firmwareVersion = none ∧ (∀ a ∈ x.actions, ∀ f, ¬ ReturnsFirmware a f)) →
        o = .bool false ∧ s'.modem.connected = false) := by
  obtain ⟨evs0, a0, -, -⟩ := Lt.late_modem h0
  have hks : s.modem.config.skip = false := by rw [Lt.run_config (init_ok config) a0]; exact hk
  obtain ⟨a1, ⟨st, tag, f, t, a2⟩, a3, a4⟩ := Lt.connect_run hks hn h1 ho1 hcalm
  exact connect_result hn ho1 h2 ho a1 a2 fun b4 ho' =>
    C83_fresh_partial hk hg (Lt.question_taggable r) (Mqtt.question_bytes r) (timeout := 10) (by omega) hp h0 hf a3 ho1 b4
      ho' a4

/-- The late answer to the first `connect` says that the UID is 5; the second one learns that it is 6. -/
example : naming.Conforms ∧ (∀ e ∈ lateNames ++ secondConnect.tail, Tagged e) ∧
    (∀ q ∈ (Net.start noCallbacks (5 : Nat)).requested naming lateNames, q.tagId ≠ some 8) ∧
    ((Net.start noCallbacks (5 : Nat)).runLate naming lateNames).bind (fun s =>
      (s.runLate naming secondConnect).bind fun s1 => (s1.stepLate naming (.net .main)).map fun s' =>
        (decide (s1.modem.outcomes = s.modem.outcomes ∧ s.modem.connected = false ∧ s.Calm naming secondConnect ∧
          s'.modem.outcomes = s.modem.outcomes ++ [.bool true]), s'.modem.uid, s'.modem.firmwareVersion.isSome,
          s'.modem.connected, s'.data)) = some (true, some 6, true, true, 7) ∧
    ∃ f, Identifies (named 8 6) 6 f :=
  ⟨naming_conforms, lateNames_tagged, by decide +kernel, by decide +kernel, named_identifies 8 6⟩

/-- C83, `connect` is answered: in such a `connect`, as long as the reading thread is alive, there is always something that
happens next, other than the timeout, until it returns (and this cannot go on for ever, `C83_settles`). -/
theorem C83_connect_answered_partial {config : Config} (hk : config.skip = false) {g : Gateway D} (hg : g.Conforms) {d : D}
    {before during : List LateEvent} {s s1 : Net D} {r : UInt8} (hn : s.modem.connected = false)
    (hp : ∀ e ∈ before ++ during, Tagged e) (h0 : (Net.start config d).runLate g before = some s)
    (hf : ∀ q ∈ (Net.start config d).requested g before, q.tagId ≠ some (r.toNat : Int))
    (h1 : s.runLate g (.net (.call (.connect true r)) :: during) = some s1)
    (ho1 : s1.modem.outcomes = s.modem.outcomes)
    (hcalm : s.Calm g (.net (.call (.connect true r)) :: during)) (hd : ∀ q, s1.modem.reader ≠ .dead q) :
    ∃ e s', s1.step g e = some s' ∧ (∀ c, e ≠ .call c) ∧ noticeBytes [e] = 0 := by
  obtain ⟨evs0, a0, -, -⟩ := Lt.late_modem h0
  have hks : s.modem.config.skip = false := by rw [Lt.run_config (init_ok config) a0]; exact hk
  obtain ⟨-, ⟨st, tag, f, t, a2⟩, a3, a4⟩ := Lt.connect_run hks hn h1 ho1 hcalm
  obtain ⟨e, y, b1, b2, b3⟩ := C83_answered_partial hk hg (Lt.question_taggable r) (Mqtt.question_bytes r) (timeout := 10)
    (by omega) hp h0 hf a3 ho1 a4 hd
  obtain ⟨s', b4⟩ := Lt.net_enabled a2 b1
  exact ⟨e, s', b4, b2, b3⟩

example : ((Net.start noCallbacks (5 : Nat)).runLate naming lateNames).bind (fun s =>
      (s.runLate naming secondConnect).map fun s1 =>
        (decide (s1.modem.outcomes = s.modem.outcomes ∧ s.modem.connected = false ∧ s.Calm naming secondConnect ∧
          ∀ q ∈ [s1.modem.reader], q.isDead = false), (s1.step naming .main).isSome)) = some (true, true) := by
  decide +kernel

end Verif.Modem
