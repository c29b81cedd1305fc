import Verif.Lemmas.UpdateLate
import Verif.Props.Retry

/-! C106: the update program (examples/write_update.py) when calls time out, answers come late and the callback ends the
reading thread. -/

namespace Verif.Modem

open Verif Verif.Serial

variable {D : Type}

/-! ### An example of a device -/

/-- A device that keeps files and answers every command; its state tells which of the next commands it refuses
(`false`). -/
def storing : Gateway ((UInt8 → Nat → UInt8) × List Bool) where
  handle x
    | 0xB4 :: tag :: bs =>
      match decodeOps bs.length bs with
      | none => ((x.1, x.2.tail), [[0xE3, tag]])
      | some ops =>
        if x.2.head? ≠ some false ∧ (answer tag (memory.results x.1 ops)).length ≤ 255 ∧
            ∀ y ∈ memory.results x.1 ops, y.2.1 < 2 ^ 30 then
          ((memory.after x.1 ops, x.2.tail), [answer tag (memory.results x.1 ops)])
        else ((x.1, x.2.tail), [[0xE3, tag]])
    | _ => (x, [])

theorem storing_answers (x : (UInt8 → Nat → UInt8) × List Bool) (tag : UInt8) (bs : List UInt8) :
    ∃ r, Answers tag.toNat (storing.handle x (0xB4 :: tag :: bs)).2 [r] ∧ (Clean r → ∃ ops,
      decodeOps bs.length bs = some ops ∧ (storing.handle x (0xB4 :: tag :: bs)).1 = (memory.after x.1 ops, x.2.tail)) := by
  have bad : ¬ Clean (refused tag) := fun h => absurd h.2 (by simp [refused])
  simp only [storing]
  split
  · exact ⟨refused tag, refused_answers tag, fun h => absurd h bad⟩
  · rename_i ops hops
    split
    · rename_i hx
      refine ⟨answered tag (memory.results x.1 ops), ⟨.cons ⟨hx.2.1, .alp 1 _ _ rfl (by decide) (by decide)
        (answer_parses tag _ hx.2.2 hx.2.1)⟩ .nil, ?_, ?_⟩, fun _ => ⟨ops, hops, rfl⟩⟩
      · intro r hr
        rw [List.mem_singleton.1 hr]; rfl
      · exact ⟨[], _, rfl, rfl, by simp⟩
    · exact ⟨refused tag, refused_answers tag, fun h => absurd h bad⟩

theorem storing_conforms : storing.Conforms := by
  intro d c bs tag h1 h2 h3 h4
  obtain ⟨h5, -⟩ := Gw.sendable_some h4
  obtain ⟨tb, sb, xs, e1, -, -, -, rfl⟩ := (C22_bytes c bs).1 h5
  simp only [Command.tagBytes, h1, h2, h3, if_true] at e1
  split at e1
  · next hb =>
    simp only [Option.some.injEq] at e1
    subst e1
    obtain ⟨r, this, -⟩ := storing_answers d (UInt8.ofNat tag.toNat) (sb ++ xs.flatten)
    rw [show ((UInt8.ofNat tag.toNat).toNat : Int) = tag by simp; omega] at this
    exact ⟨_, by simpa using this⟩
  · cases e1

/-- It confirms a write only if it has done it. -/
theorem storing_writes (x : (UInt8 → Nat → UInt8) × List Bool) (tag f : UInt8) (o : Nat) (data : List UInt8)
    (hv : (FileOp.write f o data).Valid)
    (h : storing.Confirms x tag.toNat (requestBytes tag [.write f o data])) :
    (storing.handle x (requestBytes tag [.write f o data])).1.1 = memory.write x.1 f o data := by
  obtain ⟨rs, r, h1, h2, h3⟩ := h
  have e : requestBytes tag [.write f o data] = 0xB4 :: tag :: ([FileOp.write f o data].map FileOp.bytes).flatten := rfl
  rw [e] at h1 ⊢
  obtain ⟨r', h4, h5⟩ := storing_answers x tag ([FileOp.write f o data].map FileOp.bytes).flatten
  rw [meaning_unique h1.meaning h4.meaning, List.mem_singleton] at h2
  subst h2
  obtain ⟨ops, h6, h7⟩ := h5 h3
  rw [decodeOps_bytes (by simpa using hv) _ (by simp [FileOp.bytes])] at h6
  cases h6
  rw [h7]
  rfl

/-! ### Examples of runs -/

/-- The modem of the program, with a callback for responses. -/
def updateConfig : Config := ⟨false, true, true⟩

/-- A call that gets its answer of `n` bytes at once. -/
def prompt (n : Nat) : List LateEvent :=
  List.replicate 5 (.net .main) ++ [.net .take, .net (.send 0), .net (.read n)] ++ List.replicate 5 (.net .reader) ++
    [.net .main]

/-- A call that times out before the device gets the command; the answer is on its way when the call has ended. -/
def updateSlow : List LateEvent := List.replicate 5 (.net .main) ++ [.timeout, .net .take, .net (.send 0)]

/-- `connect`, before the program. -/
def updateConnect : List LateEvent := .net (.call (.connect true 3)) :: prompt 42

/-- What a call returned. -/
def callGave (s : Net D) : Outcome → Option (List Command)
  | .list n => some (content s.modem.responses n)
  | .raised _ => none
  | _ => some []

theorem callGave_ok {s : Net D} {o : Outcome} {rs : List Command} : callGave s o = some rs →
    (Except.ok rs : Except PyErr (List Command)) = match o with
      | .list n => .ok (content s.modem.responses n)
      | .raised e => .error e
      | _ => .ok [] := by
  intro h
  cases o <;> simp_all [callGave]

/-- Two calls after each other, from a computation. -/
theorem two_calls {g : Gateway D} {config : Config} {d : D} {before es fs : List LateEvent} {c c' : Command}
    {o o' : Outcome} {rs rs' : List Command} (p : Net D → Prop) [DecidablePred p]
    (h1 : ∀ call, .net (.call call) ∉ es) (h2 : ∀ call, .net (.call call) ∉ fs)
    (key : ((Net.start config d).runLate g before).bind (fun s => (s.runLate g (.net (.call (.execute c 10)) :: es)).bind
      fun s1 => (s1.runLate g (.net (.call (.execute c' 10)) :: fs)).map fun s2 =>
        decide ((s1.modem.outcomes = s.modem.outcomes ++ [o] ∧ s2.modem.outcomes = s1.modem.outcomes ++ [o']) ∧
          (callGave s1 o = some rs ∧ callGave s2 o' = some rs') ∧ (s.Calm g (.net (.call (.execute c 10)) :: es) ∧
          s1.Calm g (.net (.call (.execute c' 10)) :: fs)) ∧ p s2)) = some true) :
    ∃ s s', (Net.start config d).runLate g before = some s ∧
      Net.Series (Net.CalledCalmly g) (fun n _ => .ok (if n = 0 then rs else rs')) 0 [c, c'] s s' ∧ p s' := by
  obtain ⟨s, a1, a2⟩ := Option.bind_eq_some_iff.1 key
  obtain ⟨s1, a3, a4⟩ := Option.bind_eq_some_iff.1 a2
  obtain ⟨s2, a5, a6⟩ := Option.map_eq_some_iff.1 a4
  obtain ⟨⟨b1, b2⟩, ⟨b3, b4⟩, ⟨b5, b6⟩, b7⟩ := of_decide_eq_true a6
  exact ⟨s, s2, a1, .cons _ _ _ _ s1 _ ⟨es, o, h1, a3, b5, b1, callGave_ok b3⟩
    (.cons _ _ _ _ s2 _ ⟨fs, o', h2, a5, b6, b2, callGave_ok b4⟩ (.nil _ _)), b7⟩

/-- The device refuses the first command of the program, which nobody notices; it stores the only piece. -/
theorem update_done : ∃ s s', (Net.start updateConfig (fun _ _ => 9, [true, false])).runLate storing updateConnect = some s ∧
    Net.Series (Net.CalledCalmly storing) (fun n _ => .ok (if n = 0 then [refused 7] else [answered 8 []])) 0
      (Update.update (fun n => if n = 0 then 7 else 8)
        (fun n _ => .ok (if n = 0 then [refused 7] else [answered 8 []])) [5, 6]).1 s s' ∧
    (Update.update (fun n => if n = 0 then 7 else 8)
      (fun n _ => .ok (if n = 0 then [refused 7] else [answered 8 []])) [5, 6]).2 = .done ∧
    (∀ e ∈ updateConnect, Tagged e) ∧
    (∀ q ∈ (Net.start updateConfig (fun _ _ => 9, [true, false])).requested storing updateConnect,
      q.tagId ≠ some ((8 : UInt8).toNat : Int)) ∧
    s'.data.1 199 0 = 9 ∧ s'.data.1 200 0 = 5 ∧ s'.data.1 200 1 = 6 := by
  obtain ⟨s, s', h1, h2, h3⟩ := two_calls (g := storing) (config := updateConfig) (d := (fun _ _ => 9, [true, false]))
    (before := updateConnect) (es := prompt 9) (fs := prompt 9) (c := request 7 [.write 199 0 [0]])
    (c' := request 8 [.write 200 0 [5, 6]]) (o := .list 2) (o' := .list 3) (rs := [refused 7]) (rs' := [answered 8 []])
    (fun s => s.data.1 199 0 = 9 ∧ s.data.1 200 0 = 5 ∧ s.data.1 200 1 = 6) (by simp [prompt]) (by simp [prompt])
    (by decide +kernel)
  have e : Update.update (fun n => if n = 0 then 7 else 8)
      (fun n _ => .ok (if n = 0 then [refused 7] else [answered 8 []])) [5, 6] =
      ([request 7 [.write 199 0 [0]], request 8 [.write 200 0 [5, 6]]], .done) := by
    decide +kernel
  rw [e]
  exact ⟨s, s', h1, h2, rfl, by simp [updateConnect, prompt, Tagged], by decide +kernel, h3⟩

/-! ### C106: what the end of the program means -/

/-- C106: the program with any device that answers properly, after any calls, with timeouts, late answers, failures of the
line and callbacks that raise, in interleavings in which no hand-over of an ALP message overlaps with the lines of
`execute_command` that prepare for the responses (modem/modem.py 152-157). The random tag of the first piece differs from
those of all commands before it; all the other tags are arbitrary. Then the program ends normally only if the device has
confirmed every piece, in order and each of them once, and nothing else has happened in the device; it says "write failed"
only at a piece that the device does not confirm, or when the call has returned nothing; and it raises ValueError only for a
file of more than 1073741916 bytes. -/
theorem C106_outcome_partial {config : Config} (hk : config.skip = false) {g : Gateway D} (hg : g.Conforms) {d : D}
    {before : List LateEvent} {s s' : Net D} (hp : ∀ e ∈ before, Tagged e)
    (h0 : (Net.start config d).runLate g before = some s) (rand : Nat → UInt8) (exec : Update.Exec) (file : List UInt8)
    (hf : ∀ q ∈ (Net.start config d).requested g before, q.tagId ≠ some ((rand 1).toNat : Int)) (h01 : rand 0 ≠ rand 1)
    (h : Net.Series (Net.CalledCalmly g) exec 0 (Update.update rand exec file).1 s s') :
    let base := ((Net.start config d).requested g before).filterMap sendable
    ∃ k ≤ pieceCount file, (∀ j < k, 239 * j < 2 ^ 30 ∧ g.Stored d base rand file j) ∧
      ((Update.update rand exec file).2 = .done ∧ k = pieceCount file ∧
          (file ≠ [] → s'.data = (g.replies d (base ++ programBytes rand file k)).1) ∨
        (Update.update rand exec file).2 = .failed ∧ k < pieceCount file ∧
          (exec (k + 1) (request (rand (k + 1)) [piece file k]) = .ok [] ∨ ¬ g.Stored d base rand file k) ∨
        (Update.update rand exec file).2 = .raised .valueError ∧ 1073741916 < file.length) := by
  intro base
  unfold Update.update at h ⊢
  rw [Upd.first_request] at h ⊢
  simp only at h ⊢
  have key : ∀ {cs : List Command}, Net.Series (Net.CalledCalmly g) exec 0 (request (rand 0) [.write 199 0 [0]] :: cs) s s' →
      ∃ s1, Net.CalledCalmly g (request (rand 0) [.write 199 0 [0]]) s (exec 0 (request (rand 0) [.write 199 0 [0]])) s1 ∧
        Net.Series (Net.CalledCalmly g) exec 1 cs s1 s' := by
    intro cs hx
    cases hx with
    | cons _ _ _ _ s1 _ h1 h2 => exact ⟨s1, h1, h2⟩
  have htag := Upl.request_taggable (rand 0) [.write 199 0 [0]]
  cases hex : exec 0 (request (rand 0) [.write 199 0 [0]]) with
  | error e =>
    exfalso
    simp only [hex] at h
    obtain ⟨s1, ⟨es, o, h1, h2, -, h3, h4⟩, -⟩ := key h
    obtain ⟨done, todo, fs, pr, rs, st⟩ := Lt.stream_reach hk hg hp h0
    rcases Rt.call_end st.write h1 h2 h3 with ⟨b1, -⟩ | ⟨-, rfl | ⟨n, rfl⟩, -⟩
    · rw [Upl.first_sendable] at b1; cases b1
    · rw [hex] at h4; cases h4
    · rw [hex] at h4; cases h4
  | ok rs =>
    simp only [hex] at h ⊢
    obtain ⟨s1, ⟨es, o, h1, h2, -⟩, h3⟩ := key h
    have hreq := Lt.requested_append (fs := .net (.call (.execute (request (rand 0) [.write 199 0 [0]]) 10)) :: es) h0
    rw [Rt.requested_call h1 h2] at hreq
    have hrun := Lt.runLate_append h0 h2
    obtain ⟨k, -, e2, e3, e4⟩ := Upl.loop_late hk hg (base := base) rand exec file 0
      (before := before ++ .net (.call (.execute (request (rand 0) [.write 199 0 [0]]) 10)) :: es) (qa := [])
      (qb := (Net.start config d).requested g before ++ [request (rand 0) [.write 199 0 [0]]]) (s := s1)
      (Nat.zero_le _) (by
        intro e he
        rcases List.mem_append.1 he with he | he
        · exact hp e he
        · exact Rt.tagged_call htag h1 e he) hrun (by rw [hreq]; rfl) (by
        rw [List.nil_append, List.filterMap_append]
        simp [base, Upl.first_sendable, programBytes]) (Ct.caught_nil hrun) (by
        intro q hq
        rcases List.mem_append.1 hq with hq | hq
        · exact hf q hq
        · rw [List.mem_singleton.1 hq]
          intro hx
          refine h01 (UInt8.toNat_inj.1 ?_)
          have hx' : ((rand 0).toNat : Int) = ((rand 1).toNat : Int) := by simpa [request] using hx
          omega) (by simp) h3
    simp only [Nat.mul_zero, List.drop_zero, Nat.zero_add] at e4
    refine ⟨k, e2, fun j hj => e3 j (Nat.zero_le _) hj, ?_⟩
    rcases e4 with ⟨f1, f2, f3⟩ | ⟨f1, f2, f3⟩ | ⟨f1, f2, f3⟩
    · refine .inl ⟨f1, f2, fun hne => f3 ?_⟩
      have := List.length_pos_iff.2 hne
      rw [f2]; unfold pieceCount; omega
    · exact .inr (.inl ⟨f1, f2, f3⟩)
    · refine .inr (.inr ⟨f1, ?_⟩)
      unfold pieceCount at f2
      omega

/-- Its hypotheses hold in the run of `update_done`. -/
example : ∃ s', (storing.replies (fun _ _ => 9, [true, false]) (((Net.start updateConfig
      (fun _ _ => 9, [true, false])).requested storing updateConnect).filterMap sendable ++
      programBytes (fun n => if n = 0 then 7 else 8) [5, 6] 1)).1 = s' ∧ s'.1 200 1 = 6 := by
  obtain ⟨s, s', h1, h2, h3, h4, h5, -, -, h6⟩ := update_done
  obtain ⟨k, -, -, ⟨-, rfl, e⟩ | ⟨h, -⟩ | ⟨h, -⟩⟩ := C106_outcome_partial rfl storing_conforms h4 h1
    (fun n => if n = 0 then 7 else 8) _ [5, 6] h5 (by decide) h2
  · exact ⟨_, e (by decide) ▸ rfl, h6⟩
  · rw [h3] at h; cases h
  · rw [h3] at h; cases h

/-- C106: what the end means when the device confirms a write only if it has done it: the whole file is in file 200 of the
device, from its start. -/
theorem C106_file_partial {config : Config} (hk : config.skip = false) {g : Gateway D} (hg : g.Conforms) {d : D}
    {before : List LateEvent} {s s' : Net D} (hp : ∀ e ∈ before, Tagged e)
    (h0 : (Net.start config d).runLate g before = some s) (rand : Nat → UInt8) (exec : Update.Exec) (file : List UInt8)
    (hf : ∀ q ∈ (Net.start config d).requested g before, q.tagId ≠ some ((rand 1).toNat : Int)) (h01 : rand 0 ≠ rand 1)
    (h : Net.Series (Net.CalledCalmly g) exec 0 (Update.update rand exec file).1 s s')
    (hdone : (Update.update rand exec file).2 = .done) (files : D → UInt8 → Nat → UInt8)
    (hw : ∀ x tag f o data, (FileOp.write f o data).Valid → g.Confirms x (tag : UInt8).toNat
        (requestBytes tag [.write f o data]) →
      files (g.handle x (requestBytes tag [.write f o data])).1 = memory.write (files x) f o data) :
    ∀ i, (hi : i < file.length) → files s'.data 200 i = file[i] := by
  obtain ⟨k, -, h1, h2⟩ := C106_outcome_partial hk hg hp h0 rand exec file hf h01 h
  obtain ⟨-, rfl, h3⟩ : _ ∧ k = pieceCount file ∧ _ := by
    rcases h2 with h2 | ⟨h2, -⟩ | ⟨h2, -⟩
    · exact h2
    · rw [hdone] at h2; cases h2
    · rw [hdone] at h2; cases h2
  intro i hi
  rw [h3 (by rintro rfl; simp at hi)]
  exact Upl.stored_file h1 files hw i hi

/-- Such a device and such a run: the one above. -/
example : ∃ s', s'.data.1 200 0 = 5 ∧ s'.data.1 200 1 = 6 ∧ ∃ s,
    Net.Series (Net.CalledCalmly storing) (fun n _ => .ok (if n = 0 then [refused 7] else [answered 8 []])) 0
      (Update.update (fun n => if n = 0 then 7 else 8)
        (fun n _ => .ok (if n = 0 then [refused 7] else [answered 8 []])) [5, 6]).1 s s' := by
  obtain ⟨s, s', h1, h2, h3, h4, h5, -⟩ := update_done
  have := C106_file_partial rfl storing_conforms h4 h1 (fun n => if n = 0 then 7 else 8) _ [5, 6] h5 (by decide) h2 h3
    Prod.fst storing_writes
  exact ⟨s', this 0 (by decide), this 1 (by decide), s, h2⟩

/-- C106: once the reading thread has ended (the callback of the program ends it by `sys.exit` when it gets a completed
message), in every interleaving, a file that is not empty gives "write failed" at its first piece, whatever the device does;
the device gets this piece. -/
theorem C106_exit {config : Config} (hk : config.skip = false) {g : Gateway D} (hg : g.Conforms) {d : D}
    {before : List LateEvent} {s s' : Net D} (hp : ∀ e ∈ before, Tagged e)
    (h0 : (Net.start config d).runLate g before = some s) (hd : s.modem.reader.isDead = true) (rand : Nat → UInt8)
    (exec : Update.Exec) (file : List UInt8) (hne : file ≠ [])
    (h : Net.Series (Net.Called g) exec 0 (Update.update rand exec file).1 s s') :
    (Update.update rand exec file).2 = .failed ∧
    (Update.update rand exec file).1 = [request (rand 0) [.write 199 0 [0]], request (rand 1) [piece file 0]] := by
  have step : ∀ {before : List LateEvent} {s s1 : Net D} {c : Command} {tag : Int} {n : Nat}, Taggable c tag →
      sendable c ≠ none → (∀ e ∈ before, Tagged e) → (Net.start config d).runLate g before = some s →
      s.modem.reader.isDead = true → Net.Called g c s (exec n c) s1 →
      exec n c = .ok [] ∧ s1.modem.reader.isDead = true ∧ ∃ es, (∀ e ∈ before ++ es, Tagged e) ∧
        (Net.start config d).runLate g (before ++ es) = some s1 := by
    intro before s s1 c tag n hc hb hp h0 hd h
    obtain ⟨es, o, h1, h2, h3, h4⟩ := h
    rw [Rt.dead_call hk hg hp h0 hd hb h1 h2 h3] at h4
    obtain ⟨evs, a1, -⟩ := Lt.late_modem h2
    refine ⟨h4, (C55_dead_forever hd a1).1, _, ?_, Lt.runLate_append h0 h2⟩
    intro e he
    rcases List.mem_append.1 he with he | he
    · exact hp e he
    · exact Rt.tagged_call hc h1 e he
  have head : ∀ {n : Nat} {c : Command} {cs : List Command} {s : Net D}, Net.Series (Net.Called g) exec n (c :: cs) s s' →
      ∃ s1, Net.Called g c s (exec n c) s1 ∧ Net.Series (Net.Called g) exec (n + 1) cs s1 s' := by
    intro n c cs s hx
    cases hx with
    | cons _ _ _ _ s1 _ h1 h2 => exact ⟨s1, h1, h2⟩
  unfold Update.update at h ⊢
  rw [Upd.first_request] at h ⊢
  simp only at h ⊢
  have hfirst := Upl.first_sendable (rand 0)
  obtain ⟨s1, h1, -⟩ : ∃ s1, Net.Called g (request (rand 0) [.write 199 0 [0]]) s
      (exec 0 (request (rand 0) [.write 199 0 [0]])) s1 ∧ True := by
    split at h
    · obtain ⟨s1, h1, -⟩ := head h; exact ⟨s1, h1, trivial⟩
    · obtain ⟨s1, h1, -⟩ := head h; exact ⟨s1, h1, trivial⟩
  obtain ⟨e0, -, -⟩ := step (Upl.request_taggable _ _) (by rw [hfirst]; simp) hp h0 hd h1
  simp only [e0] at h ⊢
  obtain ⟨s1, h1, h2⟩ := head h
  obtain ⟨-, hd1, es, hp1, h01⟩ := step (Upl.request_taggable _ _) (by rw [hfirst]; simp) hp h0 hd h1
  rw [Update.loop, dif_neg hne] at h2 ⊢
  have hl : (file.take 239).length ≤ 239 := by simp
  rw [Upd.chunk_request (rand 1) (by decide) hl] at h2 ⊢
  simp only at h2 ⊢
  rw [show FileOp.write 200 0 (file.take 239) = piece file 0 from rfl] at h2 ⊢
  have hpos := List.length_pos_iff.2 hne
  have hsend := Upl.piece_sendable rand (file := file) (k := 0) (by decide) (by omega)
  obtain ⟨s2, h3⟩ : ∃ s2, Net.Called g (request (rand 1) [piece file 0]) s1
      (exec 1 (request (rand 1) [piece file 0])) s2 := by
    split at h2
    · exact ⟨_, (head h2).choose_spec.1⟩
    · split at h2
      · exact ⟨_, (head h2).choose_spec.1⟩
      · exact ⟨_, (head h2).choose_spec.1⟩
      · exact ⟨_, (head h2).choose_spec.1⟩
  obtain ⟨e1, -⟩ := step (Upl.request_taggable _ _) (by rw [hsend]; simp) hp1 h01 hd1 h3
  simp only [e1]
  exact ⟨rfl, rfl⟩

/-- The device gets the first command too late; its answer is handed over while the second call waits, and the callback
raises: `sys.exit` (examples/write_update.py 51-54). -/
def exitLate : List LateEvent :=
  List.replicate 5 (.net .main) ++
    [.net (.read 9), .net .reader, .net .reader, .callbackRaises, .net .take, .timeout]

/-- The answer to a command of another program came late and has ended the reading thread. -/
def updateBroken : List LateEvent :=
  updateConnect ++ .net (.call (.execute (request 7 [.write 199 0 [0]]) 10)) :: updateSlow ++
    .net (.call (.execute (request 9 [.write 199 0 [0]]) 10)) :: exitLate

/-- A call that ends by its timeout; the device has got the command. -/
def updateUnheard : List LateEvent := List.replicate 5 (.net .main) ++ [.net .take, .timeout]

example : ∃ s s', (Net.start updateConfig (fun _ _ => 9, [])).runLate storing updateBroken = some s ∧
    (∀ e ∈ updateBroken, Tagged e) ∧ s.modem.reader.isDead = true ∧
    Net.Series (Net.CalledCalmly storing) (fun _ _ => .ok []) 0
      (Update.update (fun n => if n = 0 then 7 else 8) (fun _ _ => .ok []) [5, 6]).1 s s' ∧ s'.data.1 200 1 = 6 := by
  obtain ⟨s, s', h1, h2, h3⟩ := two_calls (g := storing) (config := updateConfig) (d := (fun _ _ => 9, []))
    (before := updateBroken) (es := updateUnheard) (fs := updateUnheard) (c := request 7 [.write 199 0 [0]])
    (c' := request 8 [.write 200 0 [5, 6]]) (o := .empty) (o' := .empty) (rs := []) (rs' := [])
    (fun s => s.data.1 200 1 = 6) (by simp [updateUnheard]) (by simp [updateUnheard]) (by decide +kernel)
  have e : Update.update (fun n => if n = 0 then 7 else 8) (fun _ _ => .ok []) [5, 6] =
      ([request 7 [.write 199 0 [0]], request 8 [.write 200 0 [5, 6]]], .failed) := by
    decide +kernel
  have hd : ((Net.start updateConfig (fun _ _ => 9, [])).runLate storing updateBroken).map
      (fun s => s.modem.reader.isDead) = some true := by
    decide +kernel
  rw [h1] at hd
  rw [e]
  refine ⟨s, s', h1, ?_, by simpa using hd, by simpa using h2, h3⟩
  intro e he
  have : (∃ tag ops, e = .net (.call (.execute (request tag ops) 10))) ∨ Tagged e := by
    simp only [updateBroken, updateConnect, prompt, updateSlow, exitLate, List.replicate, List.cons_append,
      List.nil_append, List.mem_cons, List.not_mem_nil, or_false] at he
    casesm* _ ∨ _
    all_goals subst e
    all_goals first
      | exact .inl ⟨_, _, rfl⟩
      | exact .inr trivial
  rcases this with ⟨tag, ops, rfl⟩ | h
  · exact ⟨_, Upl.request_taggable tag ops⟩
  · exact h

/-- C106, not provable: "write failed" does not mean that the piece was not written. The device has stored the whole file and
confirms it, but nobody reads the confirmation: the late answer to the first command has ended the reading thread. -/
theorem C106_failed_refuted : ∃ s s', (Net.start updateConfig (fun _ _ => 9, [])).runLate storing updateConnect = some s ∧
    Net.Series (Net.CalledCalmly storing) (fun _ _ => .ok []) 0
      (Update.update (fun n => if n = 0 then 7 else 8) (fun _ _ => .ok []) [5, 6]).1 s s' ∧
    (Update.update (fun n => if n = 0 then 7 else 8) (fun _ _ => .ok []) [5, 6]).2 = .failed ∧
    s'.modem.reader.isDead = true ∧ s'.data.1 200 0 = 5 ∧ s'.data.1 200 1 = 6 := by
  obtain ⟨s, s', h1, h2, h3⟩ := two_calls (g := storing) (config := updateConfig) (d := (fun _ _ => 9, []))
    (before := updateConnect) (es := updateSlow) (fs := exitLate) (c := request 7 [.write 199 0 [0]])
    (c' := request 8 [.write 200 0 [5, 6]]) (o := .empty) (o' := .empty) (rs := []) (rs' := [])
    (fun s => s.modem.reader.isDead = true ∧ s.data.1 200 0 = 5 ∧ s.data.1 200 1 = 6) (by simp [updateSlow])
    (by simp [exitLate]) (by decide +kernel)
  have e : Update.update (fun n => if n = 0 then 7 else 8) (fun _ _ => .ok []) [5, 6] =
      ([request 7 [.write 199 0 [0]], request 8 [.write 200 0 [5, 6]]], .failed) := by
    decide +kernel
  rw [e]
  exact ⟨s, s', h1, by simpa using h2, rfl, h3⟩

/-- The answer to the first command, which came too late, is handed over to the second call, and only then the device gets
the piece. -/
def mistaken : List LateEvent :=
  List.replicate 5 (.net .main) ++ [.net (.read 9)] ++ List.replicate 4 (.net .reader) ++ [.net .main, .net .take]

/-- C106, not provable without different tags: the two random tags are the same, the first call times out, and its late
answer is taken for the confirmation of the piece, which the device refuses. The program ends normally. -/
theorem C106_done_refuted_tag :
    ∃ s s', (Net.start updateConfig (fun _ _ => 9, [true, true, false])).runLate storing updateConnect = some s ∧
    Net.Series (Net.CalledCalmly storing) (fun n _ => .ok (if n = 0 then [] else [answered 7 []])) 0
      (Update.update (fun _ => 7) (fun n _ => .ok (if n = 0 then [] else [answered 7 []])) [5, 6]).1 s s' ∧
    (Update.update (fun _ => 7) (fun n _ => .ok (if n = 0 then [] else [answered 7 []])) [5, 6]).2 = .done ∧
    s'.line = [] ∧ s'.data.1 200 0 = 9 ∧ s'.data.1 200 1 = 9 := by
  obtain ⟨s, s', h1, h2, h3⟩ := two_calls (g := storing) (config := updateConfig)
    (d := (fun _ _ => 9, [true, true, false])) (before := updateConnect) (es := updateSlow) (fs := mistaken)
    (c := request 7 [.write 199 0 [0]]) (c' := request 7 [.write 200 0 [5, 6]]) (o := .empty) (o' := .list 3) (rs := [])
    (rs' := [answered 7 []]) (fun s => s.line = [] ∧ s.data.1 200 0 = 9 ∧ s.data.1 200 1 = 9) (by simp [updateSlow])
    (by simp [mistaken]) (by decide +kernel)
  have e : Update.update (fun _ => 7) (fun n _ => .ok (if n = 0 then [] else [answered 7 []])) [5, 6] =
      ([request 7 [.write 199 0 [0]], request 7 [.write 200 0 [5, 6]]], .done) := by
    decide +kernel
  rw [e]
  exact ⟨s, s', h1, h2, rfl, h3⟩

/-- The late answer to the first command is already being handed over when the second call begins. -/
def halfWay : List LateEvent := updateSlow ++ [.net (.read 9), .net .reader]

def updateOverlap : List LateEvent :=
  List.replicate 3 (.net .main) ++ List.replicate 3 (.net .reader) ++ List.replicate 3 (.net .main) ++ [.net .take]

/-- C106, not provable for every interleaving: with different tags too, the late answer to the first command is taken for the
confirmation of the piece when its hand-over overlaps with the preparation of the second call. -/
theorem C106_done_refuted_overlap :
    ∃ s s', (Net.start updateConfig (fun _ _ => 9, [true, true, false])).runLate storing updateConnect = some s ∧
    Net.Series (Net.Called storing) (fun n _ => .ok (if n = 0 then [] else [answered 7 []])) 0
      (Update.update (fun n => if n = 0 then 7 else 8) (fun n _ => .ok (if n = 0 then [] else [answered 7 []])) [5, 6]).1
      s s' ∧
    (Update.update (fun n => if n = 0 then 7 else 8) (fun n _ => .ok (if n = 0 then [] else [answered 7 []])) [5, 6]).2 =
      .done ∧ s'.data.1 200 0 = 9 ∧ s'.data.1 200 1 = 9 := by
  have key : ((Net.start updateConfig (fun _ _ => 9, [true, true, false])).runLate storing updateConnect).bind (fun s =>
      (s.runLate storing (.net (.call (.execute (request 7 [.write 199 0 [0]]) 10)) :: halfWay)).bind fun s1 =>
      (s1.runLate storing (.net (.call (.execute (request 8 [.write 200 0 [5, 6]]) 10)) :: updateOverlap)).map fun s2 =>
        decide ((s1.modem.outcomes = s.modem.outcomes ++ [.empty] ∧ s2.modem.outcomes = s1.modem.outcomes ++ [.list 3]) ∧
          (callGave s1 .empty = some [] ∧ callGave s2 (.list 3) = some [answered 7 []]) ∧
          s2.data.1 200 0 = 9 ∧ s2.data.1 200 1 = 9)) = some true := by
    decide +kernel
  obtain ⟨s, a1, a2⟩ := Option.bind_eq_some_iff.1 key
  obtain ⟨s1, a3, a4⟩ := Option.bind_eq_some_iff.1 a2
  obtain ⟨s2, a5, a6⟩ := Option.map_eq_some_iff.1 a4
  obtain ⟨⟨b1, b2⟩, ⟨b3, b4⟩, b5⟩ := of_decide_eq_true a6
  have e : Update.update (fun n => if n = 0 then 7 else 8) (fun n _ => .ok (if n = 0 then [] else [answered 7 []])) [5, 6] =
      ([request 7 [.write 199 0 [0]], request 8 [.write 200 0 [5, 6]]], .done) := by
    decide +kernel
  rw [e]
  exact ⟨s, s2, a1, .cons _ _ _ _ s1 _ ⟨halfWay, .empty, by simp [halfWay, updateSlow], a3, b1, callGave_ok b3⟩
    (.cons _ _ _ _ s2 _ ⟨updateOverlap, .list 3, by simp [updateOverlap], a5, b2, callGave_ok b4⟩ (.nil _ _)), rfl, b5⟩

/-- C106: in every interleaving and whatever the end of the program, the device has processed its commands in order, each at
most once, and nothing else. -/
theorem C106_order {config : Config} (hk : config.skip = false) {g : Gateway D} (hg : g.Conforms) {d : D}
    {before : List LateEvent} {s s' : Net D} (hp : ∀ e ∈ before, Tagged e)
    (h0 : (Net.start config d).runLate g before = some s) (rand : Nat → UInt8) (exec : Update.Exec) (file : List UInt8)
    (h : Net.Series (Net.Called g) exec 0 (Update.update rand exec file).1 s s') :
    ∃ done, done <+: ((Net.start config d).requested g before).filterMap sendable ++
        programBytes rand file (pieceCount file) ∧ s'.data = (g.replies d done).1 := by
  obtain ⟨m, h1, h2, h3⟩ := Upl.update_commands rand exec file
  obtain ⟨es, b1, b2, b3⟩ := Upl.series_run h3 h
  obtain ⟨done, todo, fs, pr, rs, st⟩ := Lt.stream_reach hk hg (es := before ++ es) (by
    intro e he
    rcases List.mem_append.1 he with he | he
    · exact hp e he
    · exact b2 e he) (Lt.runLate_append h0 b1)
  refine ⟨done, ?_, st.data⟩
  have := (List.prefix_append done todo).trans (Lt.split_prefix st)
  rw [Lt.requested_append h0, b3, List.filterMap_append, h2] at this
  refine this.trans ?_
  rw [List.prefix_append_right_inj]
  exact Upl.program_prefix rand file h1

/-- In the run of `C106_done_refuted_overlap`. -/
example : ∃ s' : Net ((UInt8 → Nat → UInt8) × List Bool), s'.data.1 200 0 = 9 ∧ ∃ done, done <+: ((Net.start updateConfig
      (fun _ _ => 9, [true, true, false])).requested storing updateConnect).filterMap sendable ++
      programBytes (fun n => if n = 0 then 7 else 8) [5, 6] 1 ∧
    s'.data = (storing.replies (fun _ _ => 9, [true, true, false]) done).1 := by
  obtain ⟨s, s', h1, h2, -, h3, -⟩ := C106_done_refuted_overlap
  exact ⟨s', h3, C106_order rfl storing_conforms (by simp [updateConnect, prompt, Tagged]) h1
    (fun n => if n = 0 then 7 else 8) _ [5, 6] h2⟩

end Verif.Modem
