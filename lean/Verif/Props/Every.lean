import Verif.Lemmas.EveryRuns
import Verif.Props.Series
import Verif.Props.LateConnect

/-! C108: programs that start when nothing is going on and give up at the first call that returns nothing, in every
interleaving. -/

namespace Verif.Modem

open Verif Verif.Serial

variable {D : Type}

/-! ### An example of a run -/

/-- A log text is handed over while the call prepares for the responses; then the call gets its answer of 9 bytes. -/
def noisy : List LateEvent :=
  [.net .main, .net .main, .net (.log 0 [104, 105]), .net (.read 9), .net .main, .net .reader, .net .main, .net .reader,
    .net .reader] ++ [.net .main, .net .take, .net (.send 1), .net (.read 9)] ++ List.replicate 5 (.net .reader) ++ [.net .main]

/-- After `connect`, when nothing is going on, two commands with the same tag: the device refuses the first one and does the
second one. Log texts arrive at the worst moments. -/
theorem noisy_calls : ∃ s s', (Net.start updateConfig (fun _ _ => 9, [true, false])).runLate storing updateConnect = some s ∧
    s.AtRest ∧ Net.Series (Net.Called storing) (fun n _ => .ok (if n = 0 then [refused 7] else [answered 7 []])) 0
      [request 7 [.write 199 0 [0]], request 7 [.write 200 0 [5, 6]]] s s' ∧ s'.data.1 200 1 = 6 := by
  have key : ((Net.start updateConfig (fun _ _ => 9, [true, false])).runLate storing updateConnect).bind (fun s =>
      (s.runLate storing (.net (.call (.execute (request 7 [.write 199 0 [0]]) 10)) :: noisy)).bind fun s1 =>
      (s1.runLate storing (.net (.call (.execute (request 7 [.write 200 0 [5, 6]]) 10)) :: noisy)).map fun s2 =>
        decide ((s.modem.main = .idle ∧ s.taken = s.modem.written.length ∧ s.pending = [] ∧ s.modem.reader = .reading ∧
            s.line = []) ∧
          (s1.modem.outcomes = s.modem.outcomes ++ [.list 2] ∧ s2.modem.outcomes = s1.modem.outcomes ++ [.list 3]) ∧
          (callGave s1 (.list 2) = some [refused 7] ∧ callGave s2 (.list 3) = some [answered 7 []]) ∧
          s2.data.1 200 1 = 6)) = some true := by
    decide +kernel
  obtain ⟨s, a1, a2⟩ := Option.bind_eq_some_iff.1 key
  obtain ⟨s1, a3, a4⟩ := Option.bind_eq_some_iff.1 a2
  obtain ⟨s2, a5, a6⟩ := Option.map_eq_some_iff.1 a4
  obtain ⟨⟨c1, c2, c3, c4⟩, ⟨b1, b2⟩, ⟨b3, b4⟩, b5⟩ := of_decide_eq_true a6
  exact ⟨s, s2, a1, ⟨c1, c2, c3, .inl c4⟩, .cons _ _ _ _ s1 _ ⟨noisy, .list 2, by simp [noisy], a3, b1, callGave_ok b3⟩
    (.cons _ _ _ _ s2 _ ⟨noisy, .list 3, by simp [noisy], a5, b2, callGave_ok b4⟩ (.nil _ _)), b5⟩

theorem noisy_update : Update.update (fun _ => 7) (fun n _ => .ok (if n = 0 then [refused 7] else [answered 7 []])) [5, 6] =
    ([request 7 [.write 199 0 [0]], request 7 [.write 200 0 [5, 6]]], .done) := by
  decide +kernel

/-! ### C108 -/

/-- C108: commands are executed one after the other, with any tags, beginning when nothing is going on any more. The program
gives up at the first call that returns nothing. Then, in every interleaving of the two threads and the device, with
timeouts, late answers, failures of the line and callbacks that raise, every call returns exactly the answers of the device
to its own command, given in the state in which the commands before it left the device; only the last call can return
nothing. If the last call returns something, the device has processed all commands, and no other ones, in order. -/
theorem C108_calls {config : Config} (hk : config.skip = false) {g : Gateway D} (hg : g.Conforms) {d : D}
    {before : List LateEvent} {s s' : Net D} (hp : ∀ e ∈ before, Tagged e)
    (h0 : (Net.start config d).runLate g before = some s) (hrest : s.AtRest) (exec : Update.Exec) (cs : List Command)
    (hcs : ∀ c ∈ cs, ∃ tag bs, Taggable c tag ∧ sendable c = some bs)
    (hgive : ∀ i (hi : i + 1 < cs.length), exec i cs[i] ≠ .ok [])
    (h : Net.Series (Net.Called g) exec 0 cs s s') :
    let earlier := (Net.start config d).requested g before
    (∀ i (hi : i < cs.length), ∃ rs, exec i cs[i] = .ok rs ∧ (rs = [] ∧ i + 1 = cs.length ∨
      ∃ tag bs, cs[i].tagId = some tag ∧ sendable cs[i] = some bs ∧
        g.Reply d ((earlier ++ cs.take i).filterMap sendable) tag bs rs)) ∧
    (∀ c ∈ cs.getLast?, exec (cs.length - 1) c ≠ .ok [] → s'.data = (g.replies d ((earlier ++ cs).filterMap sendable)).1) :=
  Ev.calls_ready hk hg hp h0 (Ev.rest_caught hk hg hp h0 hrest) exec cs hcs hgive h

/-- In the run of `noisy_calls`. -/
example : storing.Reply (fun _ _ => 9, [true, false]) (((Net.start updateConfig
      (fun _ _ => 9, [true, false])).requested storing updateConnect ++ [request 7 [.write 199 0 [0]]]).filterMap sendable) 7
      [0xB4, 7, 4, 200, 0, 2, 5, 6] [answered 7 []] := by
  obtain ⟨s, s', h1, hr, h2, -⟩ := noisy_calls
  obtain ⟨rs, e1, ⟨e2, -⟩ | ⟨tag, bs, e2, e3, e4⟩⟩ := (C108_calls rfl storing_conforms
    (by simp [updateConnect, prompt, Tagged]) h1 hr _ _ (by
      intro c hc
      simp only [List.mem_cons, List.not_mem_nil, or_false] at hc
      rcases hc with rfl | rfl
      · exact ⟨7, [0xB4, 7, 4, 199, 0, 1, 0], Upl.request_taggable _ _, by decide +kernel⟩
      · exact ⟨7, [0xB4, 7, 4, 200, 0, 2, 5, 6], Upl.request_taggable _ _, by decide +kernel⟩) (by
      intro i hi
      obtain rfl : i = 0 := by simp at hi; omega
      simp) h2).1 1 (by simp)
  · rw [e2] at e1; simp at e1
  · cases e1
    cases e2
    rw [show bs = [0xB4, 7, 4, 200, 0, 2, 5, 6] from
      Option.some.inj (e3.symm.trans (show sendable (request 7 [.write 200 0 [5, 6]]) = _ by decide +kernel))] at e4
    exact e4

/-- C108: the update program (examples/write_update.py), started when nothing is going on, in every interleaving. If its
first command, whose result it does not look at, is answered in time, the program ends normally only if the device has
confirmed every piece, in order and each of them once, and nothing else has happened in the device; it says "write failed"
only at a piece that the device does not confirm, or when the call has returned nothing; and it raises ValueError only for a
file of more than 1073741916 bytes. The tags are arbitrary. -/
theorem C108_update {config : Config} (hk : config.skip = false) {g : Gateway D} (hg : g.Conforms) {d : D}
    {before : List LateEvent} {s s' : Net D} (hp : ∀ e ∈ before, Tagged e)
    (h0 : (Net.start config d).runLate g before = some s) (hrest : s.AtRest) (rand : Nat → UInt8) (exec : Update.Exec)
    (file : List UInt8) (hfirst : exec 0 (request (rand 0) [.write 199 0 [0]]) ≠ .ok [])
    (h : Net.Series (Net.Called g) exec 0 (Update.update rand exec file).1 s s') :
    let base := ((Net.start config d).requested g before).filterMap sendable
    ∃ k ≤ pieceCount file, (∀ j < k, 239 * j < 2 ^ 30 ∧ g.Stored d base rand file j) ∧
      ((Update.update rand exec file).2 = .done ∧ k = pieceCount file ∧
          s'.data = (g.replies d (base ++ programBytes rand file k)).1 ∨
        (Update.update rand exec file).2 = .failed ∧ k < pieceCount file ∧
          (exec (k + 1) (request (rand (k + 1)) [piece file k]) = .ok [] ∨ ¬ g.Stored d base rand file k) ∨
        (Update.update rand exec file).2 = .raised .valueError ∧ 1073741916 < file.length) :=
  Ev.update_ready hk hg hp h0 (Ev.rest_caught hk hg hp h0 hrest) rand exec file hfirst h

/-- In the run of `noisy_calls`, which is one of the update program. -/
example : ∃ s', (storing.replies (fun _ _ => 9, [true, false]) (((Net.start updateConfig
      (fun _ _ => 9, [true, false])).requested storing updateConnect).filterMap sendable ++
      programBytes (fun _ => 7) [5, 6] 1)).1 = s' ∧ s'.1 200 1 = 6 := by
  obtain ⟨s, s', h1, hr, h2, h6⟩ := noisy_calls
  obtain ⟨k, -, -, ⟨-, rfl, e⟩ | ⟨h, -⟩ | ⟨h, -⟩⟩ := C108_update rfl storing_conforms
    (by simp [updateConnect, prompt, Tagged]) h1 hr (fun _ => 7)
    (fun n _ => .ok (if n = 0 then [refused 7] else [answered 7 []])) [5, 6] (by simp) (by rw [noisy_update]; exact h2)
  · exact ⟨_, e ▸ rfl, h6⟩
  · rw [noisy_update] at h; cases h
  · rw [noisy_update] at h; cases h

/-- C108: what the end means when the device confirms a write only if it has done it: the whole file is in file 200 of the
device, from its start. -/
theorem C108_file {config : Config} (hk : config.skip = false) {g : Gateway D} (hg : g.Conforms) {d : D}
    {before : List LateEvent} {s s' : Net D} (hp : ∀ e ∈ before, Tagged e)
    (h0 : (Net.start config d).runLate g before = some s) (hrest : s.AtRest) (rand : Nat → UInt8) (exec : Update.Exec)
    (file : List UInt8) (hfirst : exec 0 (request (rand 0) [.write 199 0 [0]]) ≠ .ok [])
    (h : Net.Series (Net.Called g) exec 0 (Update.update rand exec file).1 s s')
    (hdone : (Update.update rand exec file).2 = .done) (files : D → UInt8 → Nat → UInt8)
    (hw : ∀ x tag f o data, (FileOp.write f o data).Valid → g.Confirms x (tag : UInt8).toNat
        (requestBytes tag [.write f o data]) →
      files (g.handle x (requestBytes tag [.write f o data])).1 = memory.write (files x) f o data) :
    ∀ i, (hi : i < file.length) → files s'.data 200 i = file[i] := by
  obtain ⟨k, -, h1, h2⟩ := C108_update hk hg hp h0 hrest rand exec file hfirst h
  obtain ⟨-, rfl, h3⟩ : _ ∧ k = pieceCount file ∧ _ := by
    rcases h2 with h2 | ⟨h2, -⟩ | ⟨h2, -⟩
    · exact h2
    · rw [hdone] at h2; cases h2
    · rw [hdone] at h2; cases h2
  intro i hi
  rw [h3]
  exact Upl.stored_file h1 files hw i hi

/-- Such a device and such a run: the one above. -/
example : ∃ s s', Net.Series (Net.Called storing) (fun n _ => .ok (if n = 0 then [refused 7] else [answered 7 []])) 0
      (Update.update (fun _ => 7) (fun n _ => .ok (if n = 0 then [refused 7] else [answered 7 []])) [5, 6]).1 s s' ∧
    s'.data.1 200 0 = 5 ∧ s'.data.1 200 1 = 6 := by
  obtain ⟨s, s', h1, hr, h2, -⟩ := noisy_calls
  have h3 : Net.Series (Net.Called storing) (fun n _ => .ok (if n = 0 then [refused 7] else [answered 7 []])) 0
      (Update.update (fun _ => 7) (fun n _ => .ok (if n = 0 then [refused 7] else [answered 7 []])) [5, 6]).1 s s' := by
    rw [noisy_update]; exact h2
  have := C108_file rfl storing_conforms (by simp [updateConnect, prompt, Tagged]) h1 hr (fun _ => 7) _ [5, 6] (by simp) h3
    (by rw [noisy_update]) Prod.fst storing_writes
  exact ⟨s, s', h3, this 0 (by decide), this 1 (by decide)⟩

/-- C108 for `connect`: started when nothing is going on, with any tag, in every interleaving: it returns False and knows no
more than before, or it goes by the first of the device's answers to its own question: it returns True if that tells a UID
and a firmware version, which are what the modem knows then; it raises if that has something else in one of the two files;
it returns False if that lacks one of the two files, and nothing was known of it before. -/
theorem C108_connect {config : Config} (hk : config.skip = false) {g : Gateway D} (hg : g.Conforms) {d : D}
    {before during : List LateEvent} {last : LateEvent} {s s1 s' : Net D} {r : UInt8} {o : Outcome}
    (hn : s.modem.connected = false) (hp : ∀ e ∈ before, Tagged e) (h0 : (Net.start config d).runLate g before = some s)
    (hrest : s.AtRest) (hnc : ∀ call, .net (.call call) ∉ during)
    (h1 : s.runLate g (.net (.call (.connect true r)) :: during) = some s1)
    (ho1 : s1.modem.outcomes = s.modem.outcomes) (h2 : s1.stepLate g last = some s')
    (ho : s'.modem.outcomes = s.modem.outcomes ++ [o]) :
    (o = .bool false ∧ s'.modem.uid = s.modem.uid ∧ s'.modem.firmwareVersion = s.modem.firmwareVersion ∧
      s'.modem.connected = false) ∨
    ∃ x rs, g.Reply d (((Net.start config d).requested g before).filterMap sendable) r.toNat
        [0xB4, r, 1, 0, 0, 8, 1, 2, 0, 17] (x :: rs) ∧
      s'.data = (g.replies d (((Net.start config d).requested g before).filterMap sendable ++
        [[0xB4, r, 1, 0, 0, 8, 1, 2, 0, 17]])).1 ∧
      (∀ u f, Identifies x u f → o = .bool true ∧ s'.modem.uid = some u ∧ s'.modem.firmwareVersion = some f ∧
        s'.modem.connected = true) ∧
      ((∃ a ∈ x.actions, ReturnsJunk a) → (∃ e, o = .raised e) ∧ s'.modem.connected = false) ∧
      ((∀ a ∈ x.actions, ¬ ReturnsJunk a) →
        (s.modem.uid = none ∧ (∀ a ∈ x.actions, ∀ u, ¬ ReturnsUid a u) ∨
          s.modem.firmwareVersion = none ∧ (∀ a ∈ x.actions, ∀ f, ¬ ReturnsFirmware a f)) →
        o = .bool false ∧ s'.modem.connected = false) := by
  obtain ⟨hq, hca⟩ := Ev.rest_caught hk hg hp h0 hrest
  obtain ⟨evs0, a0, -, -⟩ := Lt.late_modem h0
  have hks : s.modem.config.skip = false := by rw [Lt.run_config (init_ok config) a0]; exact hk
  have hcalm := Ev.calm_start hk hg (call := .connect true r) (c := question r) (by
    show (if s.modem.connected then [] else [question r]) = _
    rw [hn]; rfl) trivial (Mqtt.question_bytes r) hp h0 hca hq hnc
  obtain ⟨a1, ⟨st, tag, f, t, a2⟩, a3, a4⟩ := Lt.connect_run hks hn h1 ho1 hcalm
  refine connect_result hn ho1 h2 ho a1 a2 fun {z o'} b4 ho' => ?_
  rcases hca with hca | hdead
  · rcases Ct.caught_call (qb := []) hk hg (Lt.question_taggable r) (Mqtt.question_bytes r) (timeout := 10) (by decide) (by
      intro e he
      rcases List.mem_append.1 he with he | he
      · exact hp e he
      · cases e with
        | net e =>
          cases e with
          | call call => exact absurd he (hnc call)
          | _ => trivial
        | _ => trivial) h0 (by simp) hca (by simp) a3 ho1 b4 ho' a4 with c1 | ⟨c1, c2, c3, -⟩
    · exact .inl c1
    · exact .inr ⟨c1, by simpa using c2, by simpa using c3⟩
  · left
    refine Rt.dead_call hk hg hp h0 hdead (by rw [Mqtt.question_bytes r]; simp) (es := during ++ [last]) ?_
      (Lt.runLate_append (es := .net (.call (.execute (question r) 10)) :: during) a3 (by
        show Option.bind _ _ = _; rw [b4]; rfl)) ho'
    intro call hx
    rcases List.mem_append.1 hx with hx | hx
    · exact hnc call hx
    · obtain rfl := List.mem_singleton.1 hx
      obtain ⟨m, k1, -⟩ := Option.map_eq_some_iff.1 (show (s1.modem.step (.call call)).map
        (fun m => { s1 with modem := m }) = some s' from h2)
      simp [State.step, a2] at k1

/-- A log text arrives while the first `connect` prepares for its answer. -/
def noisyConnect : List LateEvent :=
  [.net (.call (.connect true 7)), .net .main, .net .main, .net (.log 0 [104, 105]), .net (.read 9), .net .main,
    .net .reader, .net .main, .net .reader, .net .reader, .net .main, .net .take, .net (.send 1), .net (.read 42)] ++
    List.replicate 5 (.net .reader)

example : naming.Conforms ∧ (Net.start noCallbacks (5 : Nat)).AtRest ∧ (∀ call, .net (.call call) ∉ noisyConnect.tail) ∧
    ((Net.start noCallbacks (5 : Nat)).runLate naming noisyConnect).bind (fun s1 =>
      (s1.stepLate naming (.net .main)).map fun s' => (decide (s1.modem.outcomes = [] ∧ s'.modem.outcomes = [.bool true]),
        s'.modem.uid, s'.modem.firmwareVersion.isSome, s'.modem.connected)) = some (true, some 5, true, true) ∧
    ∃ f, Identifies (named 7 5) 5 f :=
  ⟨naming_conforms, ⟨rfl, rfl, rfl, .inl ⟨rfl, rfl⟩⟩, by simp [noisyConnect], by decide +kernel, named_identifies 7 5⟩

end Verif.Modem
