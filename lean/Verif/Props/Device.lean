import Verif.Lemmas.Device
import Verif.Lemmas.SystemFiles3
import Verif.Lemmas.Dll

/-! The modem together with a device that keeps files: reading and writing from end to end. -/

namespace Verif.Modem

open Verif Verif.Serial

variable {D : Type}

/-! ### The state in which a call is made -/

theorem run_cons {dev : Device D} {s s' : Loop D} {e : LoopEvent} {es : List LoopEvent}
    (h : s.run dev (e :: es) = some s') : ∃ s1, s.step dev e = some s1 ∧ s1.run dev es = some s' :=
  Option.bind_eq_some_iff.1 h

/-- A call is only made when no other is in progress. -/
theorem called_idle {config : Config} (hk : config.skip = false) {dev : Device D} {d : D} {before : List LoopEvent}
    {s s1 : Loop D} {c : Call} (hp : ∀ e ∈ before, Proper e) (h0 : (Loop.start config d).run dev before = some s)
    (h1 : s.step dev (.call c) = some s1) : Idle s ∧ s1 = { s with modem := s.modem.startCall c } := by
  rcases reachable (.inl (start_idle hk d)) hp h0 with h | ⟨j, h⟩
  · rcases idle_step h h1 with ⟨h2, -⟩ | ⟨c', h2, h3⟩
    · cases h2
    · cases h2; exact ⟨h, h3⟩
  · obtain ⟨-, cn, t, -, hph⟩ := h
    exfalso
    cases hph with
    | before stage hm => exact busy_call hm h1
    | sent hm => exact busy_call hm h1
    | stuck hm => exact busy_call hm h1
    | coming k hm => exact busy_call hm h1
    | got hm => exact busy_call hm h1
    | appended hm => exact busy_call hm h1
    | done hm => exact busy_call hm h1

/-- The whole of a call. -/
theorem whole_call {dev : Device D} {j : Job D} {s s1 s' : Loop D} {during : List LoopEvent} {last : LoopEvent}
    {o : Outcome} (h : Serving dev j s) (h1 : s.run dev during = some s1)
    (hu : s1.modem.outcomes = s.modem.outcomes) (h2 : s1.step dev last = some s')
    (ho : s'.modem.outcomes = s.modem.outcomes ++ [o]) : Kept j s1 ∧ Ends dev j s1 s' := by
  obtain ⟨h3, -⟩ := serving_run h h1 hu
  rcases serving_step h3 h2 with ⟨h4, -⟩ | ⟨-, h4⟩
  · rw [h4.1.outcomes, ← h.1.outcomes] at ho
    exact absurd (congrArg List.length ho) (by simp)
  · exact ⟨h3.1, h4⟩

/-! ### C75: reading and writing files -/

/-- C75, executing a command of file operations, in every interleaving of the two threads and the device and for every
way the bytes of the answer are split, after any number of other calls: the call returns the list with exactly
one message, which contains what the device holds, and the device has executed the operations. -/
theorem C75_execute {config : Config} (hk : config.skip = false) (dev : Device D) {d : D}
    {before during : List LoopEvent} {last : LoopEvent} {s s1 s' : Loop D} {tag : UInt8} {ops : List FileOp}
    {timeout : Int} {o : Outcome} (ht : 0 < timeout) (hv : ∀ op ∈ ops, op.Valid) (hp : ∀ e ∈ before, Proper e)
    (h0 : (Loop.start config d).run dev before = some s)
    (h1 : s.run dev (.call (.execute (request tag ops) timeout) :: during) = some s1)
    (hu : s1.modem.outcomes = s.modem.outcomes)
    (h2 : s1.step dev last = some s') (ho : s'.modem.outcomes = s.modem.outcomes ++ [o]) :
    o = .list s.modem.responses.length ∧
      content s'.modem.responses s.modem.responses.length = [answered tag (dev.results s.data ops)] ∧
      s'.data = dev.after s.data ops := by
  obtain ⟨s2, h3, h4⟩ := run_cons h1
  obtain ⟨hi, rfl⟩ := called_idle hk hp h0 h3
  obtain ⟨e1, e2⟩ := execute_step hi .app dev (tag := tag) hv ht
  by_cases hl : (requestBytes tag ops).length ≤ 255
  · have hsv := (e1 hl).1
    have hout : (s.modem.startCall (.execute (request tag ops) timeout)).outcomes = s.modem.outcomes := hsv.1.outcomes
    obtain ⟨hkept, hend⟩ := whole_call hsv h4 (by rw [hu]; exact hout.symm) h2 (by rw [ho]; exact congrArg (· ++ [o]) hout.symm)
    obtain ⟨-, f2, f3, -⟩ := ends_idle hend
    obtain ⟨-, -, -, -, -, rfl⟩ := hend
    refine ⟨?_, ?_, f2⟩
    · have h5 : s1.modem.outcomes ++ [.list s.modem.responses.length] = s.modem.outcomes ++ [o] := ho
      rw [hu] at h5
      simpa using h5.symm
    · rw [f3]
      simp [content]
  · exfalso
    have hx : s.modem.startCall (.execute (request tag ops) timeout) = s.modem.finish (.raised .valueError) :=
      e2 (by omega)
    obtain ⟨l, hl'⟩ := run_outcomes_loop h4
    rw [hx, hu] at hl'
    exact absurd (congrArg List.length hl') (by simp [State.finish])

/-- A modem for the examples. -/
def noCallbacks : Config := ⟨false, false, false⟩

/-- The first call writes three bytes to file 0x40; the answer is read in two pieces. -/
def writing : List LoopEvent :=
  [.call (.execute (request 7 [.write 0x40 3 [1, 2, 3]]) 10), .main, .main, .main, .main, .main, .device 5, .read 4,
    .reader, .read 5] ++ List.replicate 5 .reader

/-- The second one reads four bytes there. -/
def fetching : List LoopEvent :=
  [.main, .main, .main, .main, .main, .device 6, .read 17, .reader, .reader, .reader, .reader]

example : ((Loop.start noCallbacks (fun _ _ => 0)).run memory (writing ++ [.main, .call (.execute
      (request 7 [.read 0x40 2 4]) 10)] ++ fetching)).map (fun s => (s.modem.outcomes, s.modem.responses.length,
        (s.step memory .main).map fun s => (s.modem.outcomes, content s.modem.responses 2))) =
    some ([.list 1], 3, some ([.list 1, .list 2], [answered 7 [(0x40, 2, [0, 1, 2, 3])]])) := by
  decide +kernel

/-- C75, a command that does not fit in a frame: the call raises ValueError at once, nothing is written and nothing
else changes. -/
theorem C75_too_long {config : Config} (hk : config.skip = false) (dev : Device D) {d : D}
    {before : List LoopEvent} {s s' : Loop D} {tag : UInt8} {ops : List FileOp} {timeout : Int} (ht : 0 < timeout)
    (hv : ∀ op ∈ ops, op.Valid) (hp : ∀ e ∈ before, Proper e)
    (h0 : (Loop.start config d).run dev before = some s)
    (h1 : s.step dev (.call (.execute (request tag ops) timeout)) = some s')
    (hl : 255 < (requestBytes tag ops).length) :
    s' = { s with modem := { s.modem with outcomes := s.modem.outcomes ++ [.raised .valueError] } } := by
  obtain ⟨hi, rfl⟩ := called_idle hk hp h0 h1
  have hx : s.modem.startCall (.execute (request tag ops) timeout) = s.modem.finish (.raised .valueError) :=
    (execute_step hi .app dev (tag := tag) hv ht).2 hl
  rw [hx]
  simp only [State.finish, hi.main]

example : 255 < (requestBytes 7 [.write 0x40 0 (List.replicate 250 1)]).length ∧
    ((Loop.start noCallbacks (fun _ _ => 0)).run memory [.call (.execute
      (request 7 [.write 0x40 0 (List.replicate 250 1)]) 10)]).map (fun s => (s.modem.outcomes, s.modem.written)) =
    some ([.raised .valueError], []) := by
  decide +kernel

/-! ### connect -/

theorem ints_emit (bs : List UInt8) :
    bytearray (.concat ((bs.map fun b => (b.toNat : Int)).map Gen.int)) = .ok bs := by
  have h : Emits (.concat ((bs.map fun b => (b.toNat : Int)).map Gen.int)) ((bs.map fun b => [b]).flatten) := by
    apply emits_flatten
    induction bs with
    | nil => exact .nil
    | cons b bs ih => exact .cons (emits_byte b) ih
  have hf : ∀ l : List UInt8, (l.map fun b => [b]).flatten = l := by
    intro l
    induction l with
    | nil => rfl
    | cons b l ih => simp only [List.map_cons, List.flatten_cons, ih]; rfl
  rwa [hf] at h

theorem version_reads {a b c d : UInt8} {n m : List UInt8} (hn : n.length = 6) (hm : m.length = 7)
    (h1 : ∀ x ∈ n, x.toNat < 128) (h2 : ∀ x ∈ m, x.toNat < 128) :
    Reads FirmwareVersionFile.parse ⟨a.toNat, b.toNat, c.toNat, d.toNat, n.map UInt8.toNat, m.map UInt8.toNat⟩
      (bytesToBits ([a, b, c, d] ++ n ++ m)) := by
  have ha := a.toNat_lt
  have hb := b.toNat_lt
  have hc := c.toNat_lt
  have hd := d.toNat_lt
  have hnew : FirmwareVersionFile.new (a.toNat : Int) b.toNat c.toNat d.toNat (n.map UInt8.toNat) (m.map UInt8.toNat) =
      .ok ⟨a.toNat, b.toNat, c.toNat, d.toNat, n.map UInt8.toNat, m.map UInt8.toNat⟩ :=
    validate_of ⟨⟨by omega, by omega⟩, ⟨by omega, by omega⟩, ⟨by omega, by omega⟩, ⟨by omega, by omega⟩, by simp [hn],
      by simp [hm]⟩
  have e1 : FirmwareVersionFile.decodeAscii n = .ok (n.map UInt8.toNat) := if_pos h1
  have e2 : FirmwareVersionFile.decodeAscii m = .ok (m.map UInt8.toNat) := if_pos h2
  rw [show bytesToBits ([a, b, c, d] ++ n ++ m) = bitsOf 8 a.toNat ++ (bitsOf 8 b.toNat ++ (bitsOf 8 c.toNat ++
    (bitsOf 8 d.toNat ++ (bytesToBits n ++ bytesToBits m)))) by simp]
  unfold FirmwareVersionFile.parse
  refine Reads.bind (Reads.u8 a) (Reads.bind (Reads.u8 b) ?_)
  refine Reads.bind (Reads.u8 c) (Reads.bind (Reads.u8 d) ?_)
  refine Reads.bind (Reads.bytes n 6 hn) (Reads.bind0 (Reads.lift e1) ?_)
  exact Reads.bindr (Reads.bytes m 7 hm) (Reads.bind0 (Reads.lift e2) (Reads.lift hnew))

theorem version_fails {a b c d : UInt8} {n m : List UInt8} (hn : n.length = 6) (hm : m.length = 7)
    (h : ¬ ((∀ x ∈ n, x.toNat < 128) ∧ ∀ x ∈ m, x.toNat < 128)) :
    Fails FirmwareVersionFile.parse .valueError (bytesToBits ([a, b, c, d] ++ n ++ m)) := by
  by_cases h1 : ∀ x ∈ n, x.toNat < 128
  · have h2 : ¬ ∀ x ∈ m, x.toNat < 128 := fun h2 => h ⟨h1, h2⟩
    have e1 : FirmwareVersionFile.decodeAscii n = .ok (n.map UInt8.toNat) := if_pos h1
    have e2 : FirmwareVersionFile.decodeAscii m = .error .valueError := if_neg h2
    rw [show bytesToBits ([a, b, c, d] ++ n ++ m) = bitsOf 8 a.toNat ++ (bitsOf 8 b.toNat ++ (bitsOf 8 c.toNat ++
      (bitsOf 8 d.toNat ++ (bytesToBits n ++ (bytesToBits m ++ []))))) by simp]
    unfold FirmwareVersionFile.parse
    refine Fails.bind (Reads.u8 a) (Fails.bind (Reads.u8 b) ?_)
    refine Fails.bind (Reads.u8 c) (Fails.bind (Reads.u8 d) ?_)
    refine Fails.bind (Reads.bytes n 6 hn) (Fails.bind0 (Reads.lift e1) ?_)
    exact Fails.bind (Reads.bytes m 7 hm) (Fails.here (Fails.lift e2 _))
  · have e1 : FirmwareVersionFile.decodeAscii n = .error .valueError := if_neg h1
    rw [show bytesToBits ([a, b, c, d] ++ n ++ m) = bitsOf 8 a.toNat ++ (bitsOf 8 b.toNat ++ (bitsOf 8 c.toNat ++
      (bitsOf 8 d.toNat ++ (bytesToBits n ++ bytesToBits m)))) by simp]
    unfold FirmwareVersionFile.parse
    refine Fails.bind (Reads.u8 a) (Fails.bind (Reads.u8 b) ?_)
    refine Fails.bind (Reads.u8 c) (Fails.bind (Reads.u8 d) ?_)
    exact Fails.bind (Reads.bytes n 6 hn) (Fails.here (Fails.lift e1 _))

/-- Reading the version file. -/
theorem version_parse (v : List UInt8) :
    match versionOf v with
    | some f => ∃ s, FirmwareVersionFile.parse (stream v) = .ok f s
    | none => ∃ e s, FirmwareVersionFile.parse (stream v) = .err e s := by
  by_cases hl : 17 ≤ v.length
  · obtain ⟨a, b, c, d, n, m, rest, hn, hm, rfl⟩ : ∃ a b c d n m rest, n.length = 6 ∧ m.length = 7 ∧
        v = a :: b :: c :: d :: (n ++ m ++ rest) := by
      match v, hl with
      | a :: b :: c :: d :: bs, hl =>
        simp only [List.length_cons] at hl
        refine ⟨a, b, c, d, bs.take 6, (bs.drop 6).take 7, (bs.drop 6).drop 7, ?_, ?_, ?_⟩
        · simp; omega
        · simp; omega
        · rw [List.append_assoc, List.take_append_drop, List.take_append_drop]
      | [], hl => simp at hl
      | [_], hl => simp at hl
      | [_, _], hl => simp at hl
      | [_, _, _], hl => simp at hl
    have t1 : (n ++ m ++ rest).take 13 = n ++ m := by
      rw [List.take_append_of_le_length (by simp; omega), List.take_of_length_le (by simp; omega)]
    have t2 : (n ++ m ++ rest).take 6 = n := by
      rw [List.append_assoc, List.take_append_of_le_length (by omega), List.take_of_length_le (by omega)]
    have t3 : ((n ++ m ++ rest).drop 6).take 7 = m := by
      rw [List.append_assoc, List.drop_append_of_le_length (by omega), List.drop_of_length_le (by omega),
        List.nil_append, List.take_append_of_le_length (by omega), List.take_of_length_le (by omega)]
    have hs : ∀ (x : List UInt8), stream (a :: b :: c :: d :: (n ++ m ++ x)) =
        ⟨0, bytesToBits ([a, b, c, d] ++ n ++ m) ++ bytesToBits x⟩ := by
      intro x; simp [stream]
    by_cases hc : (∀ x ∈ n, x.toNat < 128) ∧ ∀ x ∈ m, x.toNat < 128
    · have hv : versionOf (a :: b :: c :: d :: (n ++ m ++ rest)) =
          some ⟨a.toNat, b.toNat, c.toNat, d.toNat, n.map UInt8.toNat, m.map UInt8.toNat⟩ := by
        simp only [versionOf, t1, t2, t3]
        rw [if_pos]
        refine ⟨by simp; omega, ?_⟩
        intro x hx
        rcases List.mem_append.1 hx with hx | hx
        · exact hc.1 x hx
        · exact hc.2 x hx
      rw [hv, hs]
      exact ⟨_, version_reads hn hm hc.1 hc.2 _ _⟩
    · have hv : versionOf (a :: b :: c :: d :: (n ++ m ++ rest)) = none := by
        simp only [versionOf, t1]
        rw [if_neg]
        rintro ⟨-, h⟩
        exact hc ⟨fun x hx => h x (by simp [hx]), fun x hx => h x (by simp [hx])⟩
      rw [hv, hs]
      obtain ⟨s, h⟩ := version_fails hn hm hc 0 (bytesToBits rest)
      exact ⟨_, s, h⟩
  · have hv : versionOf v = none := by
      unfold versionOf
      split
      · rw [if_neg]
        rintro ⟨h, -⟩
        simp only [List.length_cons] at hl
        omega
      · rfl
    rw [hv]
    cases hp : FirmwareVersionFile.parse (stream v) with
    | err e s => exact ⟨e, s, rfl⟩
    | ok f s =>
      have := FirmwareVersionFile.takes _ _ _ hp
      simp only [stream, bytesToBits_length] at this
      omega

/-- The actions of the answer to `connect`. -/
theorem readInfo_answer (u v : List UInt8) (tag : UInt8) (uid : Option Nat) (fw : Option FirmwareVersionFile) :
    (u.length ≠ 8 → readInfo (answered tag [(0, 0, u), (2, 0, v)]).actions uid fw = (uid, fw, some .structError)) ∧
    (u.length = 8 → ∀ f, versionOf v = some f →
      readInfo (answered tag [(0, 0, u), (2, 0, v)]).actions uid fw = (some (number u), some f, none)) ∧
    (u.length = 8 → versionOf v = none →
      ∃ e, readInfo (answered tag [(0, 0, u), (2, 0, v)]).actions uid fw = (some (number u), fw, some e)) := by
  simp only [answered, List.map_cons, List.map_nil, readInfo, ints_emit]
  refine ⟨?_, ?_, ?_⟩
  · intro h
    simp [unpackQ, h]
  · intro h f hf
    have hv := version_parse v
    rw [hf] at hv
    obtain ⟨s, hv⟩ := hv
    simp [unpackQ, h, hv, number]
  · intro h hf
    have hv := version_parse v
    rw [hf] at hv
    obtain ⟨e, s, hv⟩ := hv
    exact ⟨e, by simp [unpackQ, h, hv, number]⟩

/-- C75, `connect`: if the device's UID file gives 8 bytes and its version file a version, `connect` returns True, the
modem is connected and knows both; otherwise it raises and the modem is not connected. The files are as before. -/
theorem C75_connect {config : Config} (hk : config.skip = false) (dev : Device D) {d : D}
    {before during : List LoopEvent} {last : LoopEvent} {s s1 s' : Loop D} {tag : UInt8} {o : Outcome}
    (hp : ∀ e ∈ before, Proper e) (h0 : (Loop.start config d).run dev before = some s)
    (hc : s.modem.connected = false)
    (h1 : s.run dev (.call (.connect true tag) :: during) = some s1) (hu : s1.modem.outcomes = s.modem.outcomes)
    (h2 : s1.step dev last = some s') (ho : s'.modem.outcomes = s.modem.outcomes ++ [o]) :
    ((dev.read s.data 0 0 8).length ≠ 8 → o = .raised .structError ∧ s'.modem.connected = false) ∧
    ((dev.read s.data 0 0 8).length = 8 → ∀ f, versionOf (dev.read s.data 2 0 17) = some f →
      o = .bool true ∧ s'.modem.connected = true ∧ s'.modem.uid = some (number (dev.read s.data 0 0 8)) ∧
      s'.modem.firmwareVersion = some f) ∧
    ((dev.read s.data 0 0 8).length = 8 → versionOf (dev.read s.data 2 0 17) = none →
      (∃ e, o = .raised e) ∧ s'.modem.connected = false) ∧
    s'.data = s.data := by
  obtain ⟨s2, h3, h4⟩ := run_cons h1
  obtain ⟨hi, rfl⟩ := called_idle hk hp h0 h3
  have hsv := ((execute_step hi .connect dev (tag := tag) identification_valid (timeout := 10) (by decide)).1
    (identification_fits tag)).1
  rw [← connect_step hi hc] at hsv
  have hout : (s.modem.startCall (.connect true tag)).outcomes = s.modem.outcomes := hsv.1.outcomes
  obtain ⟨hkept, hend⟩ := whole_call hsv h4 (by rw [hu]; exact hout.symm) h2 (by rw [ho]; exact congrArg (· ++ [o]) hout.symm)
  obtain ⟨-, f2, f3, -⟩ := ends_idle hend
  obtain ⟨-, -, -, hr, -, rfl⟩ := hend
  have hcn : s1.modem.connected = false := hkept.connected.trans hc
  have hx : s1.modem.finishExecute .connect (some s.modem.responses.length) =
      s1.modem.finishConnect (some [answered tag [(0, 0, dev.read s.data 0 0 8), (2, 0, dev.read s.data 2 0 17)]]) := by
    simp only [State.finishExecute, Option.bind_some, hr]
    rw [List.getElem?_append_right (le_refl _), Nat.sub_self]
    rfl
  simp only [hx] at ho ⊢
  obtain ⟨r1, r2, r3⟩ := readInfo_answer (dev.read s.data 0 0 8) (dev.read s.data 2 0 17) tag s1.modem.uid
    s1.modem.firmwareVersion
  refine ⟨?_, ?_, ?_, f2⟩
  · intro h
    simp only [State.finishConnect, r1 h, State.finish, hu] at ho ⊢
    exact ⟨by simpa using ho.symm, hcn⟩
  · intro h f hf
    simp only [State.finishConnect, r2 h f hf, State.finish, hu] at ho ⊢
    simp only [Option.isSome_some, Bool.and_self, Bool.or_true] at ho ⊢
    exact ⟨by simpa using ho.symm, trivial, trivial, trivial⟩
  · intro h hf
    obtain ⟨e, r3⟩ := r3 h hf
    simp only [State.finishConnect, r3, State.finish, hu] at ho ⊢
    exact ⟨⟨e, by simpa using ho.symm⟩, hcn⟩

/-- A device with UID 0x0102030405060708 and a version. -/
def node : Device Unit where
  read _ file _ _ := if file = 0 then [1, 2, 3, 4, 5, 6, 7, 8]
    else [1, 2, 3, 4] ++ [97, 98, 99, 100, 101, 102] ++ [48, 49, 50, 51, 52, 53, 54]
  write _ _ _ _ := ()

def connecting (n : Nat) : List LoopEvent :=
  [.call (.connect true 9), .main, .main, .main, .main, .main, .device 0, .read n, .reader, .reader, .reader, .reader]

example : versionOf (node.read () 2 0 17) =
      some ⟨1, 2, 3, 4, [97, 98, 99, 100, 101, 102], [48, 49, 50, 51, 52, 53, 54]⟩ ∧
    ((Loop.start noCallbacks ()).run node (connecting 42)).map (fun s => (s.modem.outcomes,
      (s.step node .main).map fun s => (s.modem.outcomes, s.modem.connected, s.modem.uid))) =
    some ([], some ([.bool true], true, some 0x0102030405060708)) := by
  decide +kernel

/-! ### What the device holds -/

theorem after_append (dev : Device D) (d : D) (a b : List FileOp) :
    dev.after d (a ++ b) = dev.after (dev.after d a) b := List.foldl_append

/-- Only calls to execute a command change the files. -/
theorem other_step {s s' : Loop D} {dev : Device D} {e : LoopEvent} (h : Idle s) (he : ∀ c t, e ≠ .call (.execute c t))
    (hs : s.step dev e = some s') :
    s'.data = s.data ∧ (Idle s' ∨ ∃ j : Job D, Serving dev j s' ∧ dev.after j.old.data j.ops = s.data) := by
  rcases idle_step h hs with ⟨-, h1, rfl⟩ | ⟨c, rfl, rfl⟩
  · exact ⟨rfl, .inl h1⟩
  · refine ⟨rfl, ?_⟩
    have hp : Proper (.call c) := by
      cases c with
      | execute c t => exact absurd rfl (he c t)
      | _ => exact trivial
    rcases call_step (dev := dev) h hp with h1 | ⟨caller, tag, ops, ha, -, h1⟩
    · exact .inl h1.1
    · cases ha with
      | execute _ _ t => exact absurd rfl (he _ t)
      | connect => exact .inr ⟨_, h1, rfl⟩

theorem data_run {dev : Device D} {s s' : Loop D} {es : List LoopEvent} {ops : List FileOp} {d : D}
    (h : (Idle s ∧ d = s.data) ∨ ∃ j : Job D, Serving dev j s ∧ d = dev.after j.old.data j.ops)
    (hc : Commanded es ops) (hs : s.run dev es = some s') (hm : s'.modem.main = .idle) :
    s'.data = dev.after d ops := by
  induction hc generalizing s d with
  | nil =>
    simp only [Loop.run, Option.some.injEq] at hs
    subst hs
    rcases h with ⟨-, rfl⟩ | ⟨j, h, -⟩
    · rfl
    · exact absurd hm (serving_main h)
  | execute tag ops timeout es rest ht hv hl _ ih =>
    obtain ⟨s1, h1, h2⟩ := run_cons hs
    rcases h with ⟨h, rfl⟩ | ⟨j, h, -⟩
    · rcases idle_step h h1 with ⟨h3, -⟩ | ⟨c, h3, rfl⟩
      · cases h3
      · cases h3
        rw [after_append]
        exact ih (.inr ⟨_, ((execute_step h .app dev hv ht).1 hl).1, rfl⟩) h2
    · rcases serving_step h h1 with h3 | ⟨h3, -⟩
      · exfalso
        simp only [Loop.step, State.step, if_neg (serving_main h)] at h1
        cases h1
      · cases h3
  | long tag ops timeout es rest ht hv hl _ ih =>
    obtain ⟨s1, h1, h2⟩ := run_cons hs
    rcases h with ⟨h, rfl⟩ | ⟨j, h, -⟩
    · rcases idle_step h h1 with ⟨h3, -⟩ | ⟨c, h3, rfl⟩
      · cases h3
      · cases h3
        have hx : s.modem.startCall (.execute (request tag ops) timeout) = s.modem.finish (.raised .valueError) :=
          (execute_step h .app dev (tag := tag) hv ht).2 hl
        rw [hx] at h2
        exact ih (.inl ⟨idle_finish h _, rfl⟩) h2
    · exfalso
      simp only [Loop.step, State.step, if_neg (serving_main h)] at h1
      cases h1
  | other e es rest he _ ih =>
    obtain ⟨s1, h1, h2⟩ := run_cons hs
    rcases h with ⟨h, rfl⟩ | ⟨j, h, rfl⟩
    · obtain ⟨hd, h3 | ⟨j, h3, h4⟩⟩ := other_step h he h1
      · exact ih (.inl ⟨h3, hd.symm⟩) h2
      · exact ih (.inr ⟨j, h3, h4.symm⟩) h2
    · rcases serving_step h h1 with h3 | ⟨-, h3⟩
      · exact ih (.inr ⟨j, h3.1, rfl⟩) h2
      · obtain ⟨g1, g2, -⟩ := ends_idle h3
        exact ih (.inl ⟨g1, g2.symm⟩) h2

/-- C75, the files: whenever no call is in progress, the device has executed exactly the operations of the commands
that fit in a frame, each once, in the order of the calls. -/
theorem C75_data {config : Config} (hk : config.skip = false) (dev : Device D) {d : D} {es : List LoopEvent}
    {ops : List FileOp} {s : Loop D} (hc : Commanded es ops) (h : (Loop.start config d).run dev es = some s)
    (hm : s.modem.main = .idle) : s.data = dev.after d ops :=
  data_run (.inl ⟨start_idle hk d, rfl⟩) hc h hm

theorem writing_commanded : Commanded (writing ++ [.main]) [.write 0x40 3 [1, 2, 3]] := by
  refine .execute 7 [.write 0x40 3 [1, 2, 3]] 10 _ [] (by decide) (by simp [FileOp.Valid]) (by decide +kernel) ?_
  simp only [List.replicate]
  repeat' first | exact .nil | refine .other _ _ _ (by simp) ?_

example : Commanded (writing ++ [.main]) [.write 0x40 3 [1, 2, 3]] ∧
    ((Loop.start noCallbacks (fun _ _ => 0)).run memory (writing ++ [.main])).map (fun s => (s.modem.main, s.data 0x40 4)) =
      some (.idle, 2) :=
  ⟨writing_commanded, by decide +kernel⟩

/-- The content of a part of a file of the memory that was written, and not since. -/
theorem memory_kept (d : UInt8 → Nat → UInt8) (file : UInt8) (offset : Nat) (data : List UInt8) (mid : List FileOp)
    (hm : ∀ op ∈ mid, op.Apart file offset data.length) :
    memory.results (memory.after d (.write file offset data :: mid)) [.read file offset data.length] =
      [(file, offset, data)] := by
  have key : ∀ (d : UInt8 → Nat → UInt8), (∀ i (h : i < data.length), d file (offset + i) = data[i]) →
      ∀ i (h : i < data.length), memory.after d mid file (offset + i) = data[i] := by
    induction mid with
    | nil => exact fun d h => h
    | cons op mid ih =>
      intro d h
      refine ih (fun x hx => hm x (by simp [hx])) _ ?_
      intro i hi
      have h0 := hm op (by simp)
      cases op with
      | read f o l => exact h i hi
      | write f o b =>
        show (if file = f ∧ o ≤ offset + i ∧ offset + i < o + b.length then _ else d file (offset + i)) = _
        rw [if_neg]
        · exact h i hi
        · rintro ⟨rfl, h1, h2⟩
          rcases h0 with h0 | h0 | h0
          · exact h0 rfl
          · omega
          · omega
  have h1 := key (memory.write d file offset data) (by
    intro i hi
    show (if file = file ∧ offset ≤ offset + i ∧ offset + i < offset + data.length then _ else _) = _
    rw [if_pos ⟨rfl, by omega, by omega⟩]
    simp [hi])
  have h2 : (List.range data.length).map (fun i => memory.after (memory.write d file offset data) mid file (offset + i)) =
      data := by
    apply List.ext_getElem (by simp)
    intro i g1 g2
    simp only [List.getElem_map, List.getElem_range]
    exact h1 i g2
  simp only [Device.results, List.cons.injEq, Prod.mk.injEq, true_and, and_true]
  exact h2

/-- C75, what was written is read: data written to a file in one call and not overwritten in between are what a later
call returns. -/
theorem C75_read_back {config : Config} (hk : config.skip = false) {d : UInt8 → Nat → UInt8}
    {before during : List LoopEvent} {last : LoopEvent} {s s1 s' : Loop (UInt8 → Nat → UInt8)} {tag file : UInt8}
    {offset : Nat} {data : List UInt8} {earlier mid : List FileOp} {timeout : Int} {o : Outcome} (ht : 0 < timeout)
    (hof : offset < 2 ^ 30) (hlen : data.length < 2 ^ 30)
    (hb : Commanded before (earlier ++ .write file offset data :: mid))
    (hm : ∀ op ∈ mid, op.Apart file offset data.length)
    (h0 : (Loop.start config d).run memory before = some s)
    (h1 : s.run memory (.call (.execute (request tag [.read file offset data.length]) timeout) :: during) = some s1)
    (hu : s1.modem.outcomes = s.modem.outcomes)
    (h2 : s1.step memory last = some s') (ho : s'.modem.outcomes = s.modem.outcomes ++ [o]) :
    o = .list s.modem.responses.length ∧
      content s'.modem.responses s.modem.responses.length = [answered tag [(file, offset, data)]] := by
  have hp : ∀ e ∈ before, Proper e := by
    clear hm h0 h1
    generalize earlier ++ .write file offset data :: mid = l at hb
    induction hb with
    | nil => simp
    | execute tag ops timeout es rest ht hv hl _ ih =>
      intro e he
      rcases List.mem_cons.1 he with rfl | he
      · exact ⟨ht, tag, ops, hv, rfl⟩
      · exact ih e he
    | long tag ops timeout es rest ht hv hl _ ih =>
      intro e he
      rcases List.mem_cons.1 he with rfl | he
      · exact ⟨ht, tag, ops, hv, rfl⟩
      · exact ih e he
    | other e es rest hne _ ih =>
      intro x hx
      rcases List.mem_cons.1 hx with rfl | hx
      · cases x with
        | call c =>
          cases c with
          | execute c t => exact absurd rfl (hne c t)
          | _ => exact trivial
        | _ => exact trivial
      · exact ih x hx
  obtain ⟨e1, e2, -⟩ := C75_execute hk memory ht (by
    intro op hop
    rw [List.mem_singleton] at hop
    subst hop
    exact ⟨hof, hlen⟩) hp h0 h1 hu h2 ho
  obtain ⟨s2, h3, -⟩ := run_cons h1
  have hi := (called_idle hk hp h0 h3).1
  have hd := C75_data hk memory hb h0 hi.main
  refine ⟨e1, ?_⟩
  rw [e2, hd, after_append, memory_kept _ _ _ _ _ hm]

example : Commanded (writing ++ [.main]) ([] ++ [.write 0x40 3 [1, 2, 3]]) ∧
    ((Loop.start noCallbacks (fun _ _ => 0)).run memory (writing ++ [.main, .call (.execute
      (request 7 [.read 0x40 3 3]) 10), .main, .main, .main, .main, .main, .device 6, .read 16, .reader, .reader,
      .reader, .reader, .main])).map (fun s => (s.modem.outcomes, content s.modem.responses 2)) =
    some ([.list 1, .list 2], [answered 7 [(0x40, 3, [1, 2, 3])]]) :=
  ⟨writing_commanded, by decide +kernel⟩

/-! ### Nothing else -/

/-- C75, nothing is taken for an unsolicited message: no callback is called and the lists of unsolicited and reboot
messages stay empty. -/
theorem C75_quiet {config : Config} (hk : config.skip = false) (dev : Device D) {d : D} {es : List LoopEvent}
    {s : Loop D} (hp : ∀ e ∈ es, Proper e) (h : (Loop.start config d).run dev es = some s) :
    s.modem.called = [] ∧ s.modem.rebootedCalled = [] ∧ (∀ l ∈ s.modem.unsolicited, l = []) ∧
      ∀ l ∈ s.modem.rebooted, l = [] := by
  have hb : Base s := by
    rcases reachable (.inl (start_idle hk d)) hp h with h | ⟨j, h⟩
    · exact h.base
    · exact h.1.base
  exact ⟨hb.called, hb.rebootedCalled, hb.unsolicited, hb.rebooted⟩

example : (∀ e ∈ writing ++ [.main], Proper e) ∧
    ((Loop.start ⟨false, true, true⟩ (fun _ _ => 0)).run memory (writing ++ [.main])).map (fun s =>
      (s.modem.received.length, s.modem.called, s.modem.unsolicited)) = some (1, [], [[]]) := by
  refine ⟨?_, by decide +kernel⟩
  intro e he
  simp only [writing, List.mem_append, List.mem_cons, List.mem_replicate, List.not_mem_nil, or_false] at he
  rcases he with ((rfl | rfl | rfl | rfl | rfl | rfl | rfl | rfl | rfl | rfl) | ⟨-, rfl⟩) | rfl
  · exact ⟨by decide, 7, _, by simp [FileOp.Valid], rfl⟩
  all_goals trivial

/-! ### Calls return -/

/-- C75, calls return: a call whose request and answer fit in a frame can go on for at most 3006 steps, and until it
has returned there is always a step that can be made. -/
theorem C75_returns {config : Config} (hk : config.skip = false) (dev : Device D) {d : D}
    {before during : List LoopEvent} {s s1 : Loop D} {tag : UInt8} {ops : List FileOp} {c : Call}
    (ha : Asks c tag ops) (hf : ∀ r, c = .connect true r → s.modem.connected = false)
    (hp : ∀ e ∈ before, Proper e) (h0 : (Loop.start config d).run dev before = some s)
    (hl : (requestBytes tag ops).length ≤ 255) (hr : (answer tag (dev.results s.data ops)).length ≤ 255)
    (h1 : s.run dev (.call c :: during) = some s1) (hu : s1.modem.outcomes = s.modem.outcomes) :
    during.length ≤ 3006 ∧ ∃ e s2, s1.step dev e = some s2 ∧ ∀ c, e ≠ .call c := by
  obtain ⟨s2, h3, h4⟩ := run_cons h1
  obtain ⟨hi, rfl⟩ := called_idle hk hp h0 h3
  obtain ⟨caller, hsv, hw⟩ : ∃ caller, Serving dev ⟨caller, tag, ops, s⟩ { s with modem := s.modem.startCall c } ∧
      Loop.work { s with modem := s.modem.startCall c } ≤ 3006 := by
    cases ha with
    | execute _ _ t ht hv => exact ⟨.app, (execute_step hi .app dev hv ht).1 hl⟩
    | connect =>
      rw [connect_step hi (hf _ rfl)]
      exact ⟨.connect, (execute_step hi .connect dev identification_valid (by decide)).1 hl⟩
  have hout : (s.modem.startCall c).outcomes = s.modem.outcomes := hsv.1.outcomes
  obtain ⟨h5, h6⟩ := serving_run hsv h4 (by rw [hu]; exact hout.symm)
  refine ⟨by omega, ?_⟩
  rcases serving_enabled h5 hr with h | h | h | h
  · obtain ⟨x, hx⟩ := Option.isSome_iff_exists.1 h
    exact ⟨_, x, hx, by simp⟩
  · obtain ⟨x, hx⟩ := Option.isSome_iff_exists.1 h
    exact ⟨_, x, hx, by simp⟩
  · obtain ⟨x, hx⟩ := Option.isSome_iff_exists.1 h
    exact ⟨_, x, hx, by simp⟩
  · obtain ⟨x, hx⟩ := Option.isSome_iff_exists.1 (h 0)
    exact ⟨_, x, hx, by simp⟩

example : Asks (.execute (request 7 [.write 0x40 3 [1, 2, 3]]) 10) 7 [.write 0x40 3 [1, 2, 3]] ∧
    (requestBytes 7 [.write 0x40 3 [1, 2, 3]]).length ≤ 255 ∧
    (answer 7 (memory.results (fun _ _ => 0) [.write 0x40 3 [1, 2, 3]])).length ≤ 255 ∧
    ((Loop.start noCallbacks (fun _ _ => 0)).run memory writing).map (fun s => s.modem.outcomes) = some [] :=
  ⟨.execute 7 _ 10 (by decide) (by simp [FileOp.Valid]), by decide +kernel, by decide +kernel, by decide +kernel⟩

/-- C75, an answer that does not fit in a frame: the device sends none, and the call never returns by itself. -/
theorem C75_answer_too_long {config : Config} (hk : config.skip = false) (dev : Device D) {d : D}
    {before during : List LoopEvent} {s s1 : Loop D} {tag : UInt8} {ops : List FileOp} {timeout : Int}
    (ht : 0 < timeout) (hv : ∀ op ∈ ops, op.Valid)
    (hp : ∀ e ∈ before, Proper e) (h0 : (Loop.start config d).run dev before = some s)
    (hl : (requestBytes tag ops).length ≤ 255) (hr : 255 < (answer tag (dev.results s.data ops)).length)
    (h1 : s.run dev (.call (.execute (request tag ops) timeout) :: during) = some s1) :
    s1.modem.outcomes = s.modem.outcomes := by
  obtain ⟨s2, h3, h4⟩ := run_cons h1
  obtain ⟨hi, rfl⟩ := called_idle hk hp h0 h3
  have hsv := ((execute_step hi .app dev (tag := tag) hv ht).1 hl).1
  have key : ∀ (es : List LoopEvent) (a b : Loop D), Serving dev ⟨.app, tag, ops, s⟩ a → a.run dev es = some b →
      Serving dev ⟨.app, tag, ops, s⟩ b := by
    intro es
    induction es with
    | nil => intro a b ha hab; simp only [Loop.run, Option.some.injEq] at hab; exact hab ▸ ha
    | cons e es ih =>
      intro a b ha hab
      obtain ⟨x, hx, hy⟩ := run_cons hab
      rcases serving_step ha hx with hz | hz
      · exact ih x b hz.1 hy
      · have ha : (answer tag (dev.results s.data ops)).length ≤ 255 := hz.2.2.2.2.2.1
        omega
  exact (key _ _ _ hsv h4).1.outcomes

example : (requestBytes 7 [.read 0x40 0 300]).length ≤ 255 ∧
    255 < (answer 7 (memory.results (fun _ _ => 0) [.read 0x40 0 300])).length ∧
    ((Loop.start noCallbacks (fun _ _ => 0)).run memory [.call (.execute (request 7 [.read 0x40 0 300]) 10), .main,
      .main, .main, .main, .main, .device 6]).map (fun s => (s.modem.outcomes, s.line)) = some ([], []) := by
  decide +kernel

/-! ### The commands of the library -/

/-- C75 covers the commands that `create_with_read_file_action` and `create_with_write_file_action` make for the modem
itself. -/
theorem C75_factory (tag file : UInt8) (offset length : Nat) (data : List UInt8) (ho : offset < 2 ^ 30)
    (hl : length < 2 ^ 30) (hd : data.length < 2 ^ 30) :
    Command.createWithReadFileAction tag file.toNat length offset .HOST none =
      .ok (request tag [.read file offset length]) ∧
    Command.createWithWriteFileAction tag file.toNat (data.map fun b => (b.toNat : Int)) offset .HOST none =
      .ok (request tag [.write file offset data]) := by
  have hf := file.toNat_lt
  have h1 : ∀ n : Nat, n < 2 ^ 30 → Length.new (n : Int) = .ok ⟨n⟩ := fun n hn => validate_of ⟨by omega, by omega⟩
  have h2 : Offset.new (file.toNat : Int) ⟨offset⟩ = .ok ⟨file.toNat, ⟨offset⟩⟩ := validate_of ⟨by omega, by omega⟩
  constructor
  · simp only [Command.createWithReadFileAction, Command.addForwardAction, h1 offset ho, h2, DataRequest.new,
      h1 length hl, bind, Except.bind]
    rfl
  · have h3 : Data.new (data.map fun b => (b.toNat : Int)) ⟨file.toNat, ⟨offset⟩⟩ =
        .ok ⟨⟨file.toNat, ⟨offset⟩⟩, ⟨data.length⟩, data.map fun b => (b.toNat : Int)⟩ := by
      simp only [Data.new, List.length_map, h1 _ hd, bind, Except.bind]
      exact validate_of (isBytes_map data)
    simp only [Command.createWithWriteFileAction, Command.addForwardAction, h1 offset ho, h2, h3, bind, Except.bind]
    rfl

example : Command.createWithReadFileAction 7 0x40 4 2 .HOST none = .ok (request 7 [.read 0x40 2 4]) :=
  (C75_factory 7 0x40 2 4 [] (by decide) (by decide) (by decide)).1

end Verif.Modem
