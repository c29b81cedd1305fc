import Verif.Props.Every

/-! C109: programs from the first `connect` to the end, in every interleaving. -/

namespace Verif.Modem

open Verif Verif.Serial

variable {D : Type}

/-! ### An example of a run -/

/-- The device reports that it has been reset while nothing has been called yet. -/
def bootMessage : List LateEvent := [.net (.reboot 0 1), .net (.read 8)]

/-- A log text arrives while `connect` prepares for its answer of 42 bytes; another one after the answer, so that the reading
thread still has something to do when `connect` returns. -/
def noisyStart : List LateEvent :=
  List.replicate 4 (.net .reader) ++ [.net .main, .net .main, .net (.log 0 [104, 105]), .net (.read 9), .net .main,
    .net .reader, .net .main, .net .reader, .net .reader, .net .main, .net .take, .net (.send 1), .net (.log 2 [104, 105]),
    .net (.read 51)] ++ List.replicate 4 (.net .reader) ++ [.net .main]

theorem noisy_program : ∃ s0 s s', (Net.start updateConfig (fun _ _ => 9, [true, false])).runLate storing bootMessage = some s0 ∧
    Net.Connected storing 7 s0 s ∧ ¬ s.AtRest ∧
    Net.Series (Net.Called storing) (fun n _ => .ok (if n = 0 then [refused 7] else [answered 7 []])) 0
      [request 7 [.write 199 0 [0]], request 7 [.write 200 0 [5, 6]]] s s' ∧ s'.data.1 200 1 = 6 := by
  have key : ((Net.start updateConfig (fun _ _ => 9, [true, false])).runLate storing bootMessage).bind (fun s0 =>
      (s0.runLate storing (.net (.call (.connect true 7)) :: noisyStart)).bind fun s =>
      (s.runLate storing (.net (.call (.execute (request 7 [.write 199 0 [0]]) 10)) ::
        (List.replicate 3 (.net .reader) ++ noisy))).bind fun s1 =>
      (s1.runLate storing (.net (.call (.execute (request 7 [.write 200 0 [5, 6]]) 10)) :: noisy)).map fun s2 =>
        decide ((s.modem.outcomes = s0.modem.outcomes ++ [.bool true] ∧ s.modem.reader ≠ .reading ∧
            s.modem.reader.isDead = false) ∧
          (s1.modem.outcomes = s.modem.outcomes ++ [.list 2] ∧ s2.modem.outcomes = s1.modem.outcomes ++ [.list 3]) ∧
          (callGave s1 (.list 2) = some [refused 7] ∧ callGave s2 (.list 3) = some [answered 7 []]) ∧
          s2.data.1 200 1 = 6)) = some true := by
    decide +kernel
  obtain ⟨s0, a1, a2⟩ := Option.bind_eq_some_iff.1 key
  obtain ⟨s, a3, a4⟩ := Option.bind_eq_some_iff.1 a2
  obtain ⟨s1, a5, a6⟩ := Option.bind_eq_some_iff.1 a4
  obtain ⟨s2, a7, a8⟩ := Option.map_eq_some_iff.1 a6
  obtain ⟨⟨c1, c2, c3⟩, ⟨b1, b2⟩, ⟨b3, b4⟩, b5⟩ := of_decide_eq_true a8
  refine ⟨s0, s, s2, a1, ⟨noisyStart, by simp [noisyStart], a3, c1⟩, fun hr => ?_, .cons _ _ _ _ s1 _
    ⟨_, .list 2, by simp [noisy], a5, b1, callGave_ok b3⟩ (.cons _ _ _ _ s2 _ ⟨noisy, .list 3, by simp [noisy], a7, b2,
      callGave_ok b4⟩ (.nil _ _)), b5⟩
  rcases hr.reader with ⟨h, -⟩ | ⟨q, h⟩
  · exact c2 h
  · rw [h] at c3; cases c3

/-! ### C109 -/

/-- C109: a program makes a `Modem` object, calls `connect`, which returns True, and executes commands one after the other,
with any tags; it gives up at the first call that returns nothing. Messages of the device may arrive before `connect` is
called. Then, in every interleaving of the two threads and the device, with timeouts, late answers, failures of the line and
callbacks that raise, every call returns exactly the answers of the device to its own command, given in the state in which the
question of `connect` and the commands before it left the device; only the last call can return nothing. If the last call
returns something, the device has processed that question and all commands, and nothing else, in order. -/
theorem C109_calls {config : Config} (hk : config.skip = false) {g : Gateway D} (hg : g.Conforms) {d : D}
    {boot : List LateEvent} {s0 s s' : Net D} {r : UInt8} (hboot : ∀ call, .net (.call call) ∉ boot)
    (h0 : (Net.start config d).runLate g boot = some s0) (hconn : Net.Connected g r s0 s) (exec : Update.Exec)
    (cs : List Command) (hcs : ∀ c ∈ cs, ∃ tag bs, Taggable c tag ∧ sendable c = some bs)
    (hgive : ∀ i (hi : i + 1 < cs.length), exec i cs[i] ≠ .ok [])
    (h : Net.Series (Net.Called g) exec 0 cs s s') :
    (∀ i (hi : i < cs.length), ∃ rs, exec i cs[i] = .ok rs ∧ (rs = [] ∧ i + 1 = cs.length ∨
      ∃ tag bs, cs[i].tagId = some tag ∧ sendable cs[i] = some bs ∧
        g.Reply d (connectBytes r :: (cs.take i).filterMap sendable) tag bs rs)) ∧
    (∀ c ∈ cs.getLast?, exec (cs.length - 1) c ≠ .ok [] →
      s'.data = (g.replies d (connectBytes r :: cs.filterMap sendable)).1) := by
  obtain ⟨before, a1, a2, a3, a4, a5⟩ := Ev.connected_ready hk hg hboot h0 hconn
  have key := Ev.calls_ready hk hg a1 a2 ⟨a4, .inl a5⟩ exec cs hcs hgive h
  have hq : ∀ l : List Command, ([question r] ++ l).filterMap sendable = connectBytes r :: l.filterMap sendable := by
    intro l
    simp [Mqtt.question_bytes r, connectBytes]
  simpa only [a3, hq] using key

/-- In the run of `noisy_program`. -/
example : storing.Reply (fun _ _ => 9, [true, false]) [connectBytes 7, [0xB4, 7, 4, 199, 0, 1, 0]] 7
      [0xB4, 7, 4, 200, 0, 2, 5, 6] [answered 7 []] := by
  obtain ⟨s0, s, s', h1, h2, -, h3, -⟩ := noisy_program
  obtain ⟨rs, e1, ⟨e2, -⟩ | ⟨tag, bs, e2, e3, e4⟩⟩ := (C109_calls rfl storing_conforms (by simp [bootMessage]) h1 h2 _ _ (by
      intro c hc
      simp only [List.mem_cons, List.not_mem_nil, or_false] at hc
      rcases hc with rfl | rfl
      · exact ⟨7, [0xB4, 7, 4, 199, 0, 1, 0], Upl.request_taggable _ _, by decide +kernel⟩
      · exact ⟨7, [0xB4, 7, 4, 200, 0, 2, 5, 6], Upl.request_taggable _ _, by decide +kernel⟩) (by
      intro i hi
      obtain rfl : i = 0 := by simp at hi; omega
      simp) h3).1 1 (by simp)
  · rw [e2] at e1; simp at e1
  · cases e1
    cases e2
    rw [show bs = [0xB4, 7, 4, 200, 0, 2, 5, 6] from
      Option.some.inj (e3.symm.trans (show sendable (request 7 [.write 200 0 [5, 6]]) = _ by decide +kernel)),
      show ([request 7 [.write 199 0 [0]], request 7 [.write 200 0 [5, 6]]].take 1).filterMap sendable =
        [[0xB4, 7, 4, 199, 0, 1, 0]] by decide +kernel] at e4
    exact e4

/-- C109: the update program (examples/write_update.py 71-117) after a `connect` that returned True, from the making of the
`Modem` object on, in every interleaving. If its first command, whose result it does not look at, is answered in time, the
program ends normally only if the device has confirmed every piece, in order and each of them once; it says "write failed"
only at a piece that the device does not confirm, or when the call has returned nothing; and it raises ValueError only for a
file of more than 1073741916 bytes. The tags are arbitrary. -/
theorem C109_update {config : Config} (hk : config.skip = false) {g : Gateway D} (hg : g.Conforms) {d : D}
    {boot : List LateEvent} {s0 s s' : Net D} {r : UInt8} (hboot : ∀ call, .net (.call call) ∉ boot)
    (h0 : (Net.start config d).runLate g boot = some s0) (hconn : Net.Connected g r s0 s) (rand : Nat → UInt8)
    (exec : Update.Exec) (file : List UInt8) (hfirst : exec 0 (request (rand 0) [.write 199 0 [0]]) ≠ .ok [])
    (h : Net.Series (Net.Called g) exec 0 (Update.update rand exec file).1 s s') :
    ∃ k ≤ pieceCount file, (∀ j < k, 239 * j < 2 ^ 30 ∧ g.Stored d [connectBytes r] rand file j) ∧
      ((Update.update rand exec file).2 = .done ∧ k = pieceCount file ∧
          s'.data = (g.replies d (connectBytes r :: programBytes rand file k)).1 ∨
        (Update.update rand exec file).2 = .failed ∧ k < pieceCount file ∧
          (exec (k + 1) (request (rand (k + 1)) [piece file k]) = .ok [] ∨ ¬ g.Stored d [connectBytes r] rand file k) ∨
        (Update.update rand exec file).2 = .raised .valueError ∧ 1073741916 < file.length) := by
  obtain ⟨before, a1, a2, a3, a4, a5⟩ := Ev.connected_ready hk hg hboot h0 hconn
  have key := Ev.update_ready hk hg a1 a2 ⟨a4, .inl a5⟩ rand exec file hfirst h
  have hq : ([question r] : List Command).filterMap sendable = [connectBytes r] := by
    simp [Mqtt.question_bytes r, connectBytes]
  simpa only [a3, hq, List.singleton_append] using key

/-- In the run of `noisy_program`, which is one of the update program. -/
example : ∃ s', (storing.replies (fun _ _ => 9, [true, false]) (connectBytes 7 :: programBytes (fun _ => 7) [5, 6] 1)).1 = s' ∧
    s'.1 200 1 = 6 := by
  obtain ⟨s0, s, s', h1, h2, -, h3, h6⟩ := noisy_program
  obtain ⟨k, -, -, ⟨-, rfl, e⟩ | ⟨h, -⟩ | ⟨h, -⟩⟩ := C109_update rfl storing_conforms (by simp [bootMessage]) h1 h2 (fun _ => 7)
    (fun n _ => .ok (if n = 0 then [refused 7] else [answered 7 []])) [5, 6] (by simp) (by rw [noisy_update]; exact h3)
  · exact ⟨_, e ▸ rfl, h6⟩
  · rw [noisy_update] at h; cases h
  · rw [noisy_update] at h; cases h

/-- C109: what the end means when the device confirms a write only if it has done it: the whole file is in file 200 of the
device, from its start. -/
theorem C109_file {config : Config} (hk : config.skip = false) {g : Gateway D} (hg : g.Conforms) {d : D}
    {boot : List LateEvent} {s0 s s' : Net D} {r : UInt8} (hboot : ∀ call, .net (.call call) ∉ boot)
    (h0 : (Net.start config d).runLate g boot = some s0) (hconn : Net.Connected g r s0 s) (rand : Nat → UInt8)
    (exec : Update.Exec) (file : List UInt8) (hfirst : exec 0 (request (rand 0) [.write 199 0 [0]]) ≠ .ok [])
    (h : Net.Series (Net.Called g) exec 0 (Update.update rand exec file).1 s s')
    (hdone : (Update.update rand exec file).2 = .done) (files : D → UInt8 → Nat → UInt8)
    (hw : ∀ x tag f o data, (FileOp.write f o data).Valid → g.Confirms x (tag : UInt8).toNat
        (requestBytes tag [.write f o data]) →
      files (g.handle x (requestBytes tag [.write f o data])).1 = memory.write (files x) f o data) :
    ∀ i, (hi : i < file.length) → files s'.data 200 i = file[i] := by
  obtain ⟨k, -, h1, h2⟩ := C109_update hk hg hboot h0 hconn rand exec file hfirst h
  obtain ⟨-, rfl, h3⟩ : _ ∧ k = pieceCount file ∧ _ := by
    rcases h2 with h2 | ⟨h2, -⟩ | ⟨h2, -⟩
    · exact h2
    · rw [hdone] at h2; cases h2
    · rw [hdone] at h2; cases h2
  intro i hi
  rw [h3]
  exact Upl.stored_file h1 files hw i hi

/-- Such a device and such a run: the one above. -/
example : ∃ s s', Net.Series (Net.Called storing) (fun n _ => .ok (if n = 0 then [refused 7] else [answered 7 []])) 0
      (Update.update (fun _ => 7) (fun n _ => .ok (if n = 0 then [refused 7] else [answered 7 []])) [5, 6]).1 s s' ∧
    s'.data.1 200 0 = 5 ∧ s'.data.1 200 1 = 6 := by
  obtain ⟨s0, s, s', h1, h2, -, h3, -⟩ := noisy_program
  have h4 : Net.Series (Net.Called storing) (fun n _ => .ok (if n = 0 then [refused 7] else [answered 7 []])) 0
      (Update.update (fun _ => 7) (fun n _ => .ok (if n = 0 then [refused 7] else [answered 7 []])) [5, 6]).1 s s' := by
    rw [noisy_update]; exact h3
  have := C109_file rfl storing_conforms (by simp [bootMessage]) h1 h2 (fun _ => 7) _ [5, 6] (by simp) h4
    (by rw [noisy_update]) Prod.fst storing_writes
  exact ⟨s, s', h4, this 0 (by decide), this 1 (by decide)⟩

end Verif.Modem
