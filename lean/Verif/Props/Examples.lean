import Verif.Lemmas.Examples
import Verif.Props.SystemCommands
import Verif.Props.Tables
import Verif.Props.CT

/-! C67: storing objects in files. C69: the verdict of the throughput test. C70: the command line programs that
configure a device. -/

namespace Verif.Examples

/-! ### C67 -/

/-- C67: a system file, whatever its class, is stored byte for byte. Missing: a file without content
(`C54_write_empty`). -/
theorem C67_system_file_partial (f : SystemFile) (id : Int) (bs : List UInt8) (h : bytearray f.iter = .ok bs)
    (hne : bs ≠ []) :
    ((0 ≤ id ∧ id ≤ 255) ∧ bs.length ≤ 0x3FFFFFFF →
      ∃ a, writeObject (.int id) f.iter = .ok a ∧ HasLayout a.iter (writeFields id bs)) ∧
    (¬ ((0 ≤ id ∧ id ≤ 255) ∧ bs.length ≤ 0x3FFFFFFF) →
      writeObject (.int id) f.iter = .error .valueError) :=
  writeObject_ints f.ints h hne id

/-- A VID file stored as file 0x41. -/
example : ∃ a, writeObject (.int 0x41) (SystemFile.iter (.vid ⟨0xABCD, 1⟩)) = .ok a ∧
    HasLayout a.iter (writeFields 0x41 [0xAB, 0xCD, 1]) :=
  (C67_system_file_partial _ _ _ (by decide) (by decide)).1 (by decide)

/-- C67: a command is stored byte for byte, provided it carries no file data and no interface status. -/
theorem C67_command_partial (c : Command) (id : Int) (bs : List UInt8) (h : bytearray c.iter = .ok bs)
    (hne : bs ≠ []) (ht : ¬ CarriesText c) :
    ((0 ≤ id ∧ id ≤ 255) ∧ bs.length ≤ 0x3FFFFFFF →
      ∃ a, writeObject (.int id) c.iter = .ok a ∧ HasLayout a.iter (writeFields id bs)) ∧
    (¬ ((0 ≤ id ∧ id ≤ 255) ∧ bs.length ≤ 0x3FFFFFFF) →
      writeObject (.int id) c.iter = .error .valueError) :=
  writeObject_ints ((command_ints c (bytearray_exc h)).2 ht) h hne id

/-- The read action that switch_to_push_notification.py intends to store in file 0x41. -/
example : ∃ a, writeObject (.int 0x41) (Command.iter ⟨[.regular false false (.readFileData ⟨⟨0x40, ⟨0⟩⟩, ⟨2⟩⟩)], none,
    false, none, false, false, none⟩) = .ok a ∧ HasLayout a.iter (writeFields 0x41 [1, 0x40, 0, 2]) := by
  refine (C67_command_partial _ _ _ (by decide) (by decide) ?_).1 (by decide)
  rintro ⟨a, h | h, ht⟩
  · cases h
  · rw [List.mem_singleton.1 h] at ht
    exact ht

/-- C67 is false for every other command: `list(command)` then has characters in it, which are not accepted. -/
theorem C67_text (c : Command) (id : FileIdArg) (bs : List UInt8) (h : bytearray c.iter = .ok bs)
    (ht : CarriesText c) : writeObject id c.iter = .error .valueError :=
  writeObject_text (fun hi => (command_ints c (bytearray_exc h)).1 hi ht) (bytearray_exc h) id

/-- Reading file 0x40 can be stored, writing to it cannot. -/
example :
    (let c : Command := ⟨[.regular false false (.readFileData ⟨⟨0x40, ⟨0⟩⟩, ⟨2⟩⟩)], none, false, none, false, false,
      none⟩
     bytearray c.iter = .ok [1, 0x40, 0, 2]) ∧
    (let c : Command := ⟨[.regular false false (.writeFileData ⟨⟨0x40, ⟨0⟩⟩, ⟨2⟩, [7, 8]⟩)], none, false, none, false,
      false, none⟩
     bytearray c.iter = .ok [4, 0x40, 0, 2, 7, 8] ∧ CarriesText c) :=
  ⟨by decide, by decide, _, .inr (List.mem_singleton.2 rfl), by decide, by decide⟩

/-- Hypothesis of `C67_command_partial`. -/
example : ¬ CarriesText ⟨[.regular false false (.readFileData ⟨⟨0x40, ⟨0⟩⟩, ⟨2⟩⟩)], none, false, none, false, false,
    none⟩ := by
  rintro ⟨a, h | h, ht⟩
  · cases h
  · rw [List.mem_singleton.1 h] at ht
    exact ht

/-! ### C69 -/

/-- The data that the first action of a command carries. -/
private theorem firstData_ok {c : Command} {data : List Int} : firstData c = .ok data ↔ FirstData c data := by
  unfold firstData FirstData
  constructor
  · intro h
    split at h
    · cases h
    · next a as ha =>
      split at h
      · next d hd => cases h; exact ⟨a, by simp [ha], d, .inr hd, rfl⟩
      · next d hd => cases h; exact ⟨a, by simp [ha], d, .inl hd, rfl⟩
      · cases h
  · rintro ⟨a, ha, d, hd, rfl⟩
    cases hc : c.actions with
    | nil => rw [hc] at ha; cases ha
    | cons x xs =>
      rw [hc] at ha
      simp only [List.head?_cons, Option.some.injEq] at ha
      subst ha
      rcases hd with hd | hd <;> simp only [hd]

private theorem payload_ok {payload : List Int} {cmds : List Command} :
    (payloadHasErrors payload cmds = .ok false ↔ ∀ c ∈ cmds, FirstData c payload) ∧
    ((∃ b, payloadHasErrors payload cmds = .ok b) ↔ ∀ c ∈ cmds, ∃ data, FirstData c data) := by
  induction cmds with
  | nil => simp [payloadHasErrors]
  | cons c cs ih =>
    unfold payloadHasErrors
    cases h : firstData c with
    | error e =>
      have hn : ∀ data, ¬ FirstData c data := fun data hd => by
        rw [firstData_ok.2 hd] at h; cases h
      refine ⟨⟨fun h => (by cases h), fun h => absurd (h c (by simp)) (hn _)⟩, ⟨fun ⟨b, h⟩ => (by cases h), fun h => ?_⟩⟩
      obtain ⟨d, hd⟩ := h c (by simp)
      exact absurd hd (hn d)
    | ok data =>
      have hd := firstData_ok.1 h
      have hu : ∀ data', FirstData c data' → data' = data := fun data' h' => by
        have := firstData_ok.2 h'
        rw [h] at this
        cases this
        rfl
      simp only [bind, Except.bind]
      cases hp : payloadHasErrors payload cs with
      | error e =>
        rw [hp] at ih
        refine ⟨⟨fun h => (by cases h), fun h => ?_⟩, ⟨fun ⟨b, h⟩ => (by cases h), fun h => ?_⟩⟩
        · have := ih.1.2 fun x hx => h x (by simp [hx])
          cases this
        · obtain ⟨b, hb⟩ := ih.2.2 fun x hx => h x (by simp [hx])
          cases hb
      | ok b =>
        rw [hp] at ih
        constructor
        · simp only [pure, Except.pure, Except.ok.injEq, List.mem_cons, forall_eq_or_imp] at ih ⊢
          rw [Bool.or_eq_false_iff, ih.1, decide_eq_false_iff_not, not_not]
          exact and_congr ⟨fun e => e ▸ hd, fun e => (hu _ e).symm⟩ Iff.rfl
        · refine ⟨fun _ x hx => ?_, fun _ => ⟨_, rfl⟩⟩
          rcases List.mem_cons.1 hx with rfl | hx
          · exact ⟨data, hd⟩
          · exact ih.2.1 ⟨b, rfl⟩ x hx

/-- C69: "OK" is printed exactly if the number counted last is the number of messages, and every command received
until then or later carries the payload in its first action. -/
theorem C69_verdict_partial (payload : List Int) (msgCount : Int) (total : Nat) (cmds : List Command) :
    verdict payload msgCount total cmds = .ok true ↔
      (total : Int) = msgCount ∧ ∀ c ∈ cmds, FirstData c payload := by
  unfold verdict
  rw [← (payload_ok (payload := payload) (cmds := cmds)).1]
  cases h : payloadHasErrors payload cmds with
  | error e => simp [bind, Except.bind]
  | ok b => cases b <;> simp [bind, Except.bind, pure, Except.pure]

/-- One message was expected and came. -/
example : verdict [0, 1] 1 1 [⟨[.regular false false (.returnFileData ⟨⟨0x40, ⟨0⟩⟩, ⟨2⟩, [0, 1]⟩)], none, false, none,
    false, false, none⟩] = .ok true := by
  rw [C69_verdict_partial]
  exact ⟨rfl, fun c hc => by rw [List.mem_singleton.1 hc]; exact ⟨_, rfl, _, .inl rfl, rfl⟩⟩

/-- C69: the number counted last is zero, if nothing had to be waited for, or one of the numbers that were counted;
it is the number at the first check where it suffices or the time is over. -/
theorem C69_wait (late : Nat → Bool) (count : Nat → Nat) (msgCount : Int) (total : Nat) :
    Wait late count msgCount 0 0 total ↔
      ∃ n, total = (if n = 0 then 0 else count (n - 1)) ∧ ((total : Int) < msgCount → late n = true) ∧
        ∀ i < n, late i = false ∧ ((if i = 0 then 0 else count (i - 1) : Nat) : Int) < msgCount := by
  have key : ∀ k t, Wait late count msgCount k t total ↔
      ∃ n, k ≤ n ∧ total = (if n = k then t else count (n - 1)) ∧ ((total : Int) < msgCount → late n = true) ∧
        ∀ i, k ≤ i → i < n → late i = false ∧ ((if i = k then t else count (i - 1) : Nat) : Int) < msgCount := by
    intro k t
    constructor
    · intro h
      induction h with
      | stop i t h =>
        refine ⟨i, Nat.le_refl _, by simp, fun h' => ?_, fun j h1 h2 => absurd h1 (by omega)⟩
        by_contra hc
        exact h ⟨h', by simpa using hc⟩
      | poll i t r h1 h2 _ ih =>
        obtain ⟨n, hn, h3, h4, h5⟩ := ih
        refine ⟨n, by omega, ?_, h4, fun j hj1 hj2 => ?_⟩
        · rw [h3, if_neg (show n ≠ i by omega)]
          split
          · next h => rw [h]; rfl
          · rfl
        · by_cases hji : j = i
          · subst hji; rw [if_pos rfl]; exact ⟨h2, h1⟩
          · obtain ⟨h6, h7⟩ := h5 j (by omega) hj2
            refine ⟨h6, ?_⟩
            rw [if_neg hji]
            split at h7
            · next h => rw [h]; exact h7
            · exact h7
    · rintro ⟨n, hn, h1, h2, h3⟩
      obtain ⟨d, rfl⟩ := Nat.exists_eq_add_of_le hn
      clear hn
      induction d generalizing k t with
      | zero =>
        simp only [Nat.add_zero, if_true] at h1
        subst h1
        exact .stop _ _ fun h => by have := h2 h.1; rw [Nat.add_zero] at this; rw [this] at h; exact absurd h.2 (by decide)
      | succ d ih =>
        obtain ⟨h4, h5⟩ := h3 k (Nat.le_refl _) (by omega)
        rw [if_pos rfl] at h5
        refine .poll _ _ _ h5 h4 (ih (k + 1) (count k) ?_ ?_ ?_)
        · rw [h1, if_neg (by omega)]
          split
          · next h => congr 1; omega
          · congr 1; omega
        · rw [show k + 1 + d = k + (d + 1) by omega]; exact h2
        · intro i hi1 hi2
          obtain ⟨h6, h7⟩ := h3 i (by omega) (by omega)
          rw [if_neg (by omega)] at h7
          refine ⟨h6, ?_⟩
          split
          · next h => subst h; simpa using h7
          · exact h7
  have := key 0 0
  simpa using this

/-- Two of three messages have come when the time is over. -/
example : Wait (fun i => i == 2) (fun i => i + 1) 3 0 0 2 :=
  (C69_wait _ _ _ _).2 ⟨2, rfl, fun _ => rfl, by decide⟩

/-- C69: a command that carries no data makes the test end with an exception instead of a verdict. -/
theorem C69_raises (payload : List Int) (msgCount : Int) (total : Nat) (cmds : List Command) :
    (∃ e, verdict payload msgCount total cmds = .error e) ↔ ∃ c ∈ cmds, ∀ data, ¬ FirstData c data := by
  have h := (payload_ok (payload := payload) (cmds := cmds)).2
  unfold verdict
  constructor
  · rintro ⟨e, he⟩
    by_contra hc
    obtain ⟨b, hb⟩ := h.2 fun c hc' => by
      by_contra h'
      exact hc ⟨c, hc', fun data hd => h' ⟨data, hd⟩⟩
    rw [hb] at he
    cases he
  · rintro ⟨c, hc, hn⟩
    cases hp : payloadHasErrors payload cmds with
    | error e => exact ⟨e, rfl⟩
    | ok b =>
      obtain ⟨d, hd⟩ := h.1 ⟨b, hp⟩ c hc
      exact absurd hd (hn d)

example : ∃ e, verdict [0, 1] 1 1 [⟨[.regular false false .nop], none, false, none, false, false, none⟩] = .error e :=
  ⟨_, rfl⟩

/-- C69: the callback keeps every command with a status, in the order of arrival, and ignores the others. -/
theorem C69_received (l cmds : List Command)
    (h : ∀ c ∈ cmds, ∀ a, c.interfaceStatus = some a → ∃ o s, a.operation = .interfaceStatus o ∧ o.status = some s) :
    cmds.foldlM received l = .ok (l ++ cmds.filter fun c => c.interfaceStatus.isSome) := by
  induction cmds generalizing l with
  | nil => simp [pure, Except.pure]
  | cons c cs ih =>
    rw [List.foldlM_cons, show received l c = match c.interfaceStatus with
      | none => .ok l
      | some a => match a.operation with
        | .interfaceStatus o => match o.status with
          | some _ => .ok (l ++ [c])
          | none => .error .attributeError
        | _ => .error .attributeError from rfl]
    cases hi : c.interfaceStatus with
    | none =>
      simp only [bind, Except.bind]
      rw [ih l fun x hx => h x (by simp [hx])]
      simp [hi]
    | some a =>
      obtain ⟨o, s, ho, hs⟩ := h c (by simp) a hi
      simp only [ho, hs, bind, Except.bind]
      rw [ih _ fun x hx => h x (by simp [hx])]
      simp [hi]

example (c : Command) (s : Status) (h : c.interfaceStatus = some (.status 1 (.interfaceStatus ⟨0xD7, some s⟩))) :
    [c, { c with interfaceStatus := none }].foldlM received [] = .ok [c] := by
  rw [C69_received]
  · simp [h]
  · intro d hd a ha
    simp only [List.mem_cons, List.not_mem_nil, or_false] at hd
    rcases hd with rfl | rfl
    · rw [h] at ha; cases ha; exact ⟨_, s, rfl, rfl⟩
    · cases ha

/-- C69, full statement: "OK" means that every command returns the payload. This is false: a command that writes
the payload to a file is counted as well, since the type test compares a number with a class. -/
theorem C69_type_refuted : ∃ c : Command, (∀ d, c.actions.head?.map Action.operation ≠ some (.returnFileData d)) ∧
    verdict [0, 1] 1 1 [c] = .ok true := by
  refine ⟨⟨[.regular false false (.writeFileData ⟨⟨0x40, ⟨0⟩⟩, ⟨2⟩, [0, 1]⟩)], none, false, none, false, false, none⟩,
    fun d h => by simp [Action.operation] at h, ?_⟩
  rw [C69_verdict_partial]
  refine ⟨rfl, fun c hc => ?_⟩
  rw [List.mem_singleton.1 hc]
  exact ⟨_, rfl, _, .inr rfl, rfl⟩

/-- C69, full statement: if all messages arrive before the time is over, "OK" is printed. This is false: those
that arrive during the last two seconds are not counted. -/
theorem C69_stale_refuted : ∃ late count, Wait late count 1 0 0 0 ∧ late 0 = false ∧ count 1 = 1 ∧
    ∀ payload cmds, verdict payload 1 0 cmds ≠ .ok true := by
  refine ⟨fun i => i == 1, fun i => i, .poll _ _ _ (by decide) rfl (.stop _ _ (by simp)), rfl, rfl, ?_⟩
  intro payload cmds h
  rw [C69_verdict_partial] at h
  cases h.1

/-- Two commands with the payload, and the count 1, then 2. -/
example : (∃ cmds : List Command, cmds.length = 2 ∧ ∀ c ∈ cmds, FirstData c [0, 1, 2]) ∧
    Wait (fun _ => false) (fun i => i + 1) 2 0 0 2 := by
  refine ⟨⟨List.replicate 2 ⟨[.regular false false (.returnFileData ⟨⟨0x40, ⟨0⟩⟩, ⟨3⟩, [0, 1, 2]⟩)], none, false, none,
    false, false, none⟩, rfl, fun c hc => ?_⟩, ?_⟩
  · rw [List.eq_of_mem_replicate hc]
    exact ⟨_, rfl, _, .inl rfl, rfl⟩
  · exact .poll _ _ _ (by decide) rfl (.poll _ _ _ (by decide) rfl (.stop _ _ (by simp)))

/-! ### C70 -/

private theorem broadcast_built : broadcast.Built :=
  ⟨rfl, rfl, fun c h => by cases h; rfl⟩

private theorem forward_option {c : Command} {f : List (Nat × Nat)} (h : HasLayout c.iter f) (forward : Bool) :
    ∃ c', forwardIf forward c = .ok c' ∧
      HasLayout c'.iter (f ++ forwardOption forward) := by
  cases forward with
  | false => exact ⟨c, rfl, by simpa [forwardOption] using h⟩
  | true =>
    obtain ⟨c', h1, bs, e, l, w⟩ :=
      Command.forward_layout h .D7ASP (some (.d7asp broadcast)) broadcast_built
    refine ⟨c', h1, bs, e, ?_, fun x hx => ?_⟩
    · rw [l, fieldBits_append, fieldBits_append]
      congr 1
    · rcases List.mem_append.1 hx with hx | hx
      · exact w x (List.mem_append.2 (.inl hx))
      · have : ∀ x ∈ forwardOption true, x.2 < 2 ^ x.1 := by decide
        exact this x hx

private theorem engineering_layout {f : EngineeringModeFile} (h : f.Built) :
    ∃ a, writeObject (.int 5) (SystemFile.engineeringMode f).iter = .ok a ∧
      HasLayout a.iter ([(8, 0x04), (8, 0x05), (8, 0), (8, 9)] ++ (SystemFile.engineeringMode f).fields) := by
  refine writeObject_layout (SystemFile.ints (.engineeringMode f)) (EngineeringModeFile.layout h) ?_ (by decide) (by decide)
    (by decide)
  simp [SystemFile.fields, EngineeringModeFile.table, ChannelID.table, ChannelHeader.table, signedInt,
    Table.fields, fieldBits]

private theorem factory_layout {f : FactorySettingsFile} (h : f.Valid) (hf : f.Fits) :
    ∃ a, writeObject (.int 1) (SystemFile.factorySettings f).iter = .ok a ∧
      HasLayout a.iter ([(8, 0x04), (8, 0x01), (8, 0), (8, 56)] ++ (SystemFile.factorySettings f).fields) := by
  refine writeObject_layout (SystemFile.ints (.factorySettings f)) (FactorySettingsFile.layout h hf) ?_ (by decide) (by decide)
    (by decide)
  simp [SystemFile.fields, FactorySettingsFile.table, signedInt, Table.fields, fieldBits]

theorem fromString_built {s : List Char} {ch : ChannelID} (h : ChannelID.fromString s = .ok ch) :
    ch.Built := by
  unfold ChannelID.fromString at h
  cases h1 : ChannelHeader.fromString (s.take 5) with
  | error e => rw [h1] at h; cases h
  | ok hd =>
    rw [h1] at h
    cases h2 : pyInt ((s.drop 5).take 3) with
    | error e => simp only [h2, bind, Except.bind] at h; cases h
    | ok i =>
      simp only [h2, bind, Except.bind] at h
      have := (validate_eq_ok.1 h).2
      subst this
      exact h

private theorem listOf_of_layout {g : Gen} {f : List (Nat × Nat)} (hg : Ints g) (h : HasLayout g f) :
    ∃ l, listOf g = .ok l := by
  obtain ⟨bs, e, -⟩ := h
  exact ⟨_, listOf_bytes hg e⟩

/-- C70: what the engineering mode program sends: behind the forward header if asked for, and behind the write of
the factory settings if one of them is given, one write of nine bytes to file 5: mode, flags 0, timeout, channel,
power, two zeros. The timeout is the given one, but for the PER transmitter 255 if none is given. Everything out
of range raises ValueError. -/
theorem C70_engineering_partial (rand : UInt8) (a : EngineeringArgs) (m : EngineeringModeMode) (ch : ChannelID)
    (hch : ChannelID.fromString a.channelId = .ok ch) (hm : EngineeringModeMode.fromString a.mode = .ok m) :
    let timeout := if m = .PER_TX ∧ a.timeout = 0 then 255 else a.timeout
    let factory := a.factoryGaussian ≠ 0xFF ∨ a.factoryParamp ≠ 0xFF
    let ok := (0 ≤ timeout ∧ timeout ≤ 255) ∧ (-128 ≤ a.eirp ∧ a.eirp ≤ 127) ∧
      (factory → (0 ≤ a.factoryGaussian ∧ a.factoryGaussian ≤ 3) ∧
        (0 ≤ a.factoryParamp ∧ a.factoryParamp ≤ 0xFFFF))
    (ok → ∃ c, engineeringCommand rand a = .ok c ∧ HasLayout c.iter (tagFields rand.toNat ++
      forwardOption a.forward ++
      (if factory then [(8, 0x04), (8, 0x01), (8, 0), (8, 56)] ++
        (SystemFile.factorySettings { SystemFiles.defaultFactorySettings with
          gaussian := a.factoryGaussian, paramp := a.factoryParamp }).fields else []) ++
      ([(8, 0x04), (8, 0x05), (8, 0), (8, 9)] ++
      (SystemFile.engineeringMode ⟨m, 0, timeout, ch, a.eirp⟩).fields))) ∧
    (¬ ok → engineeringCommand rand a = .error .valueError) := by
  intro timeout factory ok
  have hb : ch.Built := fromString_built hch
  have ef : engineeringFile a = EngineeringModeFile.new m 0 timeout ch a.eirp := by
    unfold engineeringFile
    rw [hch, hm]
    rfl
  unfold engineeringCommand
  rw [ef]
  by_cases h1 : (0 ≤ timeout ∧ timeout ≤ 255) ∧ (-128 ≤ a.eirp ∧ a.eirp ≤ 127)
  · have en : EngineeringModeFile.new m 0 timeout ch a.eirp = .ok ⟨m, 0, timeout, ch, a.eirp⟩ :=
      validate_of ⟨by decide, h1.1, h1.2⟩
    have hbuilt : EngineeringModeFile.Built ⟨m, 0, timeout, ch, a.eirp⟩ := ⟨en, hb⟩
    rw [en]
    simp only [bind, Except.bind]
    obtain ⟨l, hl⟩ := listOf_of_layout (SystemFile.ints (.engineeringMode ⟨m, 0, timeout, ch, a.eirp⟩))
      (EngineeringModeFile.layout hbuilt)
    rw [hl]
    obtain ⟨w, hw, hwl⟩ := engineering_layout hbuilt
    obtain ⟨c, hc, hcl⟩ := forward_option (Command.empty_layout rand) a.forward
    simp only
    rw [hc]
    simp only
    by_cases h2 : factory
    · have ee : engineeringFactory a = (FactorySettingsFile.new { FactorySettingsFile.defaultArgs with
          gaussian := a.factoryGaussian, paramp := a.factoryParamp }).map some := by
        unfold engineeringFactory
        rw [if_pos h2, if_pos h2]
      rw [ee]
      by_cases h3 : (0 ≤ a.factoryGaussian ∧ a.factoryGaussian ≤ 3) ∧
          (0 ≤ a.factoryParamp ∧ a.factoryParamp ≤ 0xFFFF)
      · refine ⟨fun _ => ?_, fun hk => absurd ⟨h1.1, h1.2, fun _ => h3⟩ hk⟩
        have hv : FactorySettingsFile.Valid { SystemFiles.defaultFactorySettings with
            gaussian := a.factoryGaussian, paramp := a.factoryParamp } := by
          have hd : SystemFiles.defaultFactorySettings.Valid := by decide
          obtain ⟨d1, d2, d3, d4, d5, d6, d7, d8, d9, d10, d11, d12, d13, d14, d15, d16, d17, d18, d19, d20, -⟩ := hd
          exact ⟨d1, d2, d3, d4, d5, d6, d7, d8, d9, d10, d11, d12, d13, d14, d15, d16, d17, d18, d19, d20, h3⟩
        have hn : FactorySettingsFile.new { FactorySettingsFile.defaultArgs with
            gaussian := a.factoryGaussian, paramp := a.factoryParamp } =
            .ok { SystemFiles.defaultFactorySettings with
              gaussian := a.factoryGaussian, paramp := a.factoryParamp } := by
          unfold FactorySettingsFile.new
          have : FactorySettingsFile.smoothing 8 = .ok 2 := by decide
          show (do let sm ← FactorySettingsFile.smoothing 8; _) = _
          rw [this]
          exact validate_of hv
        obtain ⟨w', hw', hwl'⟩ := factory_layout hv
          (show SystemFiles.defaultFactorySettings.Fits from ⟨by decide, by decide, by decide, by decide, by decide⟩)
        rw [hn]
        have ha : addFactory c (some { SystemFiles.defaultFactorySettings with
            gaussian := a.factoryGaussian, paramp := a.factoryParamp }) = .ok (c.addAction w') := by
          simp only [addFactory, SystemFile.id, bind, Except.bind]
          rw [hw']
          rfl
        simp only [Except.map, SystemFile.id]
        rw [ha]
        simp only [pure, Except.pure]
        rw [hw]
        refine ⟨_, rfl, ?_⟩
        rw [if_pos h2]
        exact Command.addAction_layout (Command.addAction_layout hcl hwl') hwl
      · refine ⟨fun hk => absurd (hk.2.2 h2) h3, fun _ => ?_⟩
        have hn : FactorySettingsFile.new { FactorySettingsFile.defaultArgs with
            gaussian := a.factoryGaussian, paramp := a.factoryParamp } = .error .valueError := by
          unfold FactorySettingsFile.new
          have : FactorySettingsFile.smoothing 8 = .ok 2 := by decide
          show (do let sm ← FactorySettingsFile.smoothing 8; _) = _
          rw [this]
          refine validate_eq_error.2 ⟨fun hv => h3 ?_, rfl⟩
          obtain ⟨-, -, -, -, -, -, -, -, -, -, -, -, -, -, -, -, -, -, -, -, x, y⟩ := hv
          exact ⟨x, y⟩
        rw [hn]
        rfl
    · have ee : engineeringFactory a = .ok none := by
        unfold engineeringFactory
        rw [if_neg h2]
      rw [ee]
      refine ⟨fun _ => ?_, fun hk => absurd ⟨h1.1, h1.2, fun h => absurd h h2⟩ hk⟩
      simp only [addFactory, pure, Except.pure, SystemFile.id]
      rw [hw]
      refine ⟨_, rfl, ?_⟩
      rw [if_neg h2]
      have := Command.addAction_layout hcl hwl
      simpa using this
  · have en : EngineeringModeFile.new m 0 timeout ch a.eirp = .error .valueError :=
      validate_eq_error.2 ⟨fun h => h1 ⟨h.2.1, h.2.2⟩, rfl⟩
    rw [en]
    exact ⟨fun hk => absurd ⟨hk.1, hk.2.1⟩ h1, fun _ => rfl⟩

/-- Hypotheses of `C70_engineering_partial`: the PER transmitter on a channel, with the factory options. -/
example :
    let a : EngineeringArgs :=
      { channelId := ['8', '6', '8', 'L', 'P', '0', '2', '5'], mode := "PER_TX", eirp := -4
        forward := true, factoryGaussian := 1, factoryParamp := 50 }
    ChannelID.fromString a.channelId = .ok ⟨⟨.PN9, .LO_RATE, .BAND_868⟩, 25⟩ ∧
    EngineeringModeMode.fromString a.mode = .ok .PER_TX ∧
    (engineeringCommand 7 a).isOk = true := by
  refine ⟨by rfl, by decide, by decide +kernel⟩

/-- C70, full statement: an option that is not given leaves its default. This is false: with only the Gaussian
filter given, the ramp is set to 255 instead of 40. -/
theorem C70_gaussian_refuted (a : EngineeringArgs) (hg : a.factoryGaussian ≠ 0xFF) (hp : a.factoryParamp = 0xFF)
    (f : FactorySettingsFile) (h : engineeringFactory a = .ok (some f)) :
    f.paramp = 255 ∧ FactorySettingsFile.defaultArgs.paramp = 40 := by
  refine ⟨?_, rfl⟩
  unfold engineeringFactory at h
  rw [if_pos (.inl hg), if_pos (.inl hg), hp] at h
  cases hn : FactorySettingsFile.new { FactorySettingsFile.defaultArgs with
      gaussian := a.factoryGaussian, paramp := 0xFF } with
  | error e => rw [hn] at h; cases h
  | ok g =>
    rw [hn] at h
    simp only [Except.map, Except.ok.injEq, Option.some.injEq] at h
    subst h
    unfold FactorySettingsFile.new at hn
    have : FactorySettingsFile.smoothing 8 = .ok 2 := by decide
    replace hn : (do let sm ← FactorySettingsFile.smoothing 8; _) = _ := hn
    rw [this] at hn
    have := (validate_eq_ok.1 hn).2
    rw [← this]

/-- C70 is also false with only the ramp given: the filter is then 255, which is not accepted, so that nothing is
sent at all. -/
theorem C70_paramp_refuted (rand : UInt8) (a : EngineeringArgs) (m : EngineeringModeMode) (ch : ChannelID)
    (hch : ChannelID.fromString a.channelId = .ok ch) (hm : EngineeringModeMode.fromString a.mode = .ok m)
    (hg : a.factoryGaussian = 0xFF) (hp : a.factoryParamp ≠ 0xFF) :
    engineeringCommand rand a = .error .valueError := by
  refine (C70_engineering_partial rand a m ch hch hm).2 fun h => ?_
  have := h.2.2 (.inr hp)
  rw [hg] at this
  omega

/-- Hypotheses of `C70_gaussian_refuted` and of `C70_paramp_refuted`: one option each. -/
example :
    let a : EngineeringArgs := { channelId := ['8', '6', '8', 'L', 'P', '0', '2', '5'], mode := "PER_TX" }
    ((engineeringFactory { a with factoryGaussian := 1 }).toOption.bind id).isSome = true ∧
    EngineeringModeMode.fromString a.mode = .ok .PER_TX ∧
    (engineeringCommand 7 { a with factoryGaussian := 1 }).isOk = true ∧
    (engineeringCommand 7 { a with factoryParamp := 50 }).isOk = false := by
  refine ⟨by decide +kernel, by decide, by decide +kernel, by decide +kernel⟩

/-- C70: on an interrupt the same file is written again, with the mode off. -/
theorem C70_cleanup (rand : UInt8) (em : EngineeringModeFile) (h : em.Built) :
    ∃ c, engineeringCleanup rand em = .ok c ∧ HasLayout c.iter (tagFields rand.toNat ++
      ([(8, 0x04), (8, 0x05), (8, 0), (8, 9)] ++ (SystemFile.engineeringMode { em with mode := .OFF }).fields)) := by
  have hb : EngineeringModeFile.Built { em with mode := .OFF } := by
    refine ⟨?_, h.2⟩
    have := (validate_eq_ok.1 h.1).1
    exact validate_of this
  obtain ⟨w, hw, hwl⟩ := engineering_layout hb
  refine ⟨(Command.empty rand).addAction w, ?_, Command.addAction_layout (Command.empty_layout rand) hwl⟩
  unfold engineeringCleanup
  simp only [SystemFile.id, bind, Except.bind]
  rw [hw]
  rfl

/-- Hypothesis of `C70_cleanup`. -/
example : EngineeringModeFile.Built ⟨.PER_TX, 0, 255, ⟨⟨.PN9, .LO_RATE, .BAND_868⟩, 25⟩, -4⟩ :=
  ⟨rfl, rfl⟩

/-- C70: the factory settings program writes the 56 bytes of the file, behind the forward header if asked for.
Settings that the constructor rejects, a negative gain or offset, and tolerances that are no bytes raise
ValueError. -/
theorem C70_factory (rand : UInt8) (args : FactorySettingsFile) (forward : Bool) :
    (∀ f, FactorySettingsFile.new args = .ok f → 0 ≤ f.gain ∧ 0 ≤ f.rssiOffset ∧
      (0 ≤ f.preambleTolLo ∧ f.preambleTolLo ≤ 255) ∧ (0 ≤ f.preambleTolNormal ∧ f.preambleTolNormal ≤ 255) ∧
      (0 ≤ f.preambleTolHi ∧ f.preambleTolHi ≤ 255) →
      ∃ c, factoryCommand rand args forward = .ok c ∧ HasLayout c.iter (tagFields rand.toNat ++
        forwardOption forward ++ ([(8, 0x04), (8, 0x01), (8, 0), (8, 56)] ++ (SystemFile.factorySettings f).fields))) ∧
    ((∀ f, FactorySettingsFile.new args = .ok f → ¬ (0 ≤ f.gain ∧ 0 ≤ f.rssiOffset ∧
      (0 ≤ f.preambleTolLo ∧ f.preambleTolLo ≤ 255) ∧ (0 ≤ f.preambleTolNormal ∧ f.preambleTolNormal ≤ 255) ∧
      (0 ≤ f.preambleTolHi ∧ f.preambleTolHi ≤ 255))) → factoryCommand rand args forward = .error .valueError) := by
  constructor
  · intro f hn hf
    have hv := FactorySettingsFile.built_valid ⟨args, hn⟩
    obtain ⟨w, hw, hwl⟩ := factory_layout hv hf
    obtain ⟨l, hl⟩ := listOf_of_layout (SystemFile.ints (.factorySettings f)) (FactorySettingsFile.layout hv hf)
    obtain ⟨c, hc, hcl⟩ := forward_option (Command.empty_layout rand) forward
    refine ⟨c.addAction w, ?_, Command.addAction_layout hcl hwl⟩
    unfold factoryCommand
    rw [hn]
    simp only [bind, Except.bind]
    rw [hl]
    simp only
    rw [hc]
    simp only
    rw [hw]
    rfl
  · intro h
    unfold factoryCommand
    cases hn : FactorySettingsFile.new args with
    | error e =>
      have : e = .valueError := by
        unfold FactorySettingsFile.new at hn
        cases hs : FactorySettingsFile.smoothing args.rssiSmoothing with
        | error e' =>
          rw [hs] at hn
          unfold FactorySettingsFile.smoothing at hs
          split at hs
          · cases hs; cases hn; rfl
          · cases hs
        | ok s => rw [hs] at hn; exact (validate_eq_error.1 hn).2
      subst this
      rfl
    | ok f =>
      have hv := FactorySettingsFile.built_valid ⟨args, hn⟩
      have hf := h f hn
      have he : ∃ e, bytearray (SystemFile.factorySettings f).iter = .error e := by
        cases hb : bytearray (SystemFile.factorySettings f).iter with
        | error e => exact ⟨e, rfl⟩
        | ok bs => exact absurd ((FactorySettingsFile.serIff hv).1.1 ⟨bs, hb⟩) hf
      obtain ⟨e, he⟩ := he
      obtain ⟨c, hc, -⟩ := forward_option (Command.empty_layout rand) forward
      simp only [bind, Except.bind]
      rw [hc]
      have hx : (SystemFile.factorySettings f).iter.exc = none := by
        have p4 : ∀ {v : Int}, isU32 v → (Gen.ofBytes (packU 4 v)).exc = none := fun hv => by
          obtain ⟨bs, e, -⟩ := HasLayout.u32 hv
          exact bytearray_exc e
        have p2 : ∀ {v : Int}, isU16 v → (Gen.ofBytes (packU 2 v)).exc = none := fun hv => by
          obtain ⟨bs, e, -⟩ := HasLayout.u16 hv
          exact bytearray_exc e
        have pa : ∀ {g h : Gen}, g.exc = none → h.exc = none → (g ++ h).exc = none := fun h1 h2 => by
          show (Gen.append _ _).exc = none
          unfold Gen.append
          rw [h1]
          exact h2
        obtain ⟨-, v2, v3, v4, v5, v6, v7, v8, v9, v10, -, -, -, -, -, -, -, -, v19, -, -, v22⟩ := hv
        have := p4 v2; have := p4 v3; have := p4 v4; have := p4 v5; have := p4 v6; have := p4 v7
        have := p4 v8; have := p4 v9; have := p4 v10; have := p4 v19; have := p2 v22
        simp only [SystemFile.iter, FactorySettingsFile.iter]
        repeat' apply pa
        all_goals first | rfl | assumption
      obtain ⟨l, hl, hn⟩ : ∃ l, listOf (SystemFile.factorySettings f).iter = .ok (l.map Item.int) ∧ ¬ isBytes l := by
        rcases listOf_error he (SystemFile.ints _) with ⟨e', h'⟩ | h'
        · unfold listOf at h'
          rw [hx] at h'
          cases h'
        · exact h'
      have hw : writeObject (.int 1) (SystemFile.factorySettings f).iter = .error .valueError := by
        unfold writeObject
        have ho : Offset.newFor (.int 1) ⟨0⟩ = .ok ⟨1, ⟨0⟩⟩ := rfl
        rw [hl, ho]
        simp only [bind, Except.bind]
        rw [Data.newItems_ints, (C12_data_accepts l ⟨1, ⟨0⟩⟩).2 fun hx => hn hx.2]
      simp only [hl, hw]

/-- Hypotheses of `C70_factory`: the defaults; and a negative gain, which is refused. -/
example : (factoryCommand 7 FactorySettingsFile.defaultArgs true).isOk = true ∧
    (FactorySettingsFile.new { FactorySettingsFile.defaultArgs with gain := -1 }).isOk = true ∧
    (factoryCommand 7 { FactorySettingsFile.defaultArgs with gain := -1 } true).isOk = false := by
  refine ⟨by decide +kernel, by decide +kernel, by decide +kernel⟩

/-- The same layout with the fields of an object in place of its bytes. -/
private theorem layout_subst {c g : Gen} {p f : List (Nat × Nat)} {bs : List UInt8}
    (h : HasLayout c (p ++ bs.map fun b => (8, b.toNat))) (eg : bytearray g = .ok bs) (hg : HasLayout g f) :
    HasLayout c (p ++ f) := by
  obtain ⟨b, e, l, w⟩ := h
  obtain ⟨b', e', l', w'⟩ := hg
  rw [eg] at e'
  cases e'
  have hb : ∀ l : List UInt8, fieldBits (l.map fun b => (8, b.toNat)) = bytesToBits l := by
    intro l
    induction l with
    | nil => rfl
    | cons x l ih => rw [List.map_cons, fieldBits_cons, ih, bytesToBits_cons]
  refine ⟨b, e, ?_, fun x hx => ?_⟩
  · rw [l, fieldBits_append, fieldBits_append, hb, l']
  · rcases List.mem_append.1 hx with hx | hx
    · exact w x (List.mem_append.2 (.inl hx))
    · exact w' x hx

/-- C70: the access profile program writes the 65 bytes of a profile to the file 0x20 + specifier: the channel
header of the given channel, four equal subprofiles with the given bitmap and the compressed period, and eight
equal subbands with the channel's index as both bounds and the given power. Everything out of range raises
ValueError. -/
theorem C70_profile (rand : UInt8) (a : ProfileArgs) (ch : ChannelID)
    (hch : ChannelID.fromString a.channelId = .ok ch) :
    let ok := (0 ≤ a.scanAutomationPeriod ∧ a.scanAutomationPeriod ≤ 507904) ∧
      (0 ≤ a.subbandBitmap ∧ a.subbandBitmap ≤ 255) ∧ (-128 ≤ a.eirp ∧ a.eirp ≤ 127) ∧
      (0 ≤ a.specifier ∧ a.specifier ≤ 14)
    (ok → ∃ c period, CT.compress a.scanAutomationPeriod = .ok (some period) ∧
      profileCommand rand a = .ok c ∧ HasLayout c.iter (tagFields rand.toNat ++
        [(8, 0x04), (8, 0x20 + a.specifier.toNat), (8, 0), (2, 1), (14, 65)] ++
        (Table.fields (ch.channelHeader.table ++
          (List.replicate 4 ((8, some a.subbandBitmap) :: period.table)).flatten ++
          (List.replicate 8 [(16, some ch.channelIndex), (16, some ch.channelIndex), signedInt 8 a.eirp,
            (8, some 86), (8, some 255)]).flatten)))) ∧
    (¬ ok → profileCommand rand a = .error .valueError) := by
  intro ok
  have hb := fromString_built hch
  have hi : 0 ≤ ch.channelIndex ∧ ch.channelIndex ≤ 0xFFFF := ChannelID.built_iff.1 hb
  unfold profileCommand
  rw [hch]
  simp only [bind, Except.bind]
  by_cases h1 : 0 ≤ a.scanAutomationPeriod ∧ a.scanAutomationPeriod ≤ 507904
  · obtain ⟨period, hp, hpb, -⟩ := C03_compress_tightest a.scanAutomationPeriod h1.1 h1.2
    rw [hp]
    simp only
    by_cases h2 : 0 ≤ a.subbandBitmap ∧ a.subbandBitmap ≤ 255
    · have e2 : SubProfile.new a.subbandBitmap period = .ok ⟨a.subbandBitmap, period⟩ := validate_of h2
      rw [e2]
      simp only
      by_cases h3 : -128 ≤ a.eirp ∧ a.eirp ≤ 127
      · have e3 : SubBand.new ch.channelIndex ch.channelIndex a.eirp 86 255 =
            .ok ⟨ch.channelIndex, ch.channelIndex, a.eirp, 86, 255⟩ :=
          validate_of ⟨hi, hi, h3, by decide, by decide⟩
        rw [e3]
        simp only
        generalize hpr : (⟨ch.channelHeader, List.replicate 4 ⟨a.subbandBitmap, period⟩,
          List.replicate 8 ⟨ch.channelIndex, ch.channelIndex, a.eirp, 86, 255⟩⟩ : AccessProfile) = p
        have e4 : AccessProfile.new ch.channelHeader (List.replicate 4 ⟨a.subbandBitmap, period⟩)
            (List.replicate 8 ⟨ch.channelIndex, ch.channelIndex, a.eirp, 86, 255⟩) = .ok p := by
          rw [← hpr]
          exact validate_of (by simp)
        have hbp : p.Built := by
          subst hpr
          refine ⟨e4, fun x hx => ?_, fun x hx => ?_⟩
          · rw [List.eq_of_mem_replicate hx]
            exact ⟨e2, hpb⟩
          · rw [List.eq_of_mem_replicate hx]
            exact e3
        rw [show (⟨ch.channelHeader.channelCoding, ch.channelHeader.channelClass,
          ch.channelHeader.channelBand⟩ : ChannelHeader) = ch.channelHeader from rfl]
        rw [e4]
        simp only
        by_cases h4 : 0 ≤ a.specifier ∧ a.specifier ≤ 14
        · have e5 : AccessProfileFile.new a.specifier (some p) = .ok ⟨a.specifier, some p⟩ := validate_of h4
          rw [e5]
          refine ⟨fun _ => ?_, fun hk => absurd ⟨h1, h2, h3, h4⟩ hk⟩
          have hl := AccessProfile.layout (AccessProfile.built_iff.1 hbp)
          have hlen : (fieldBits p.table.fields).length = 8 * 65 := by
            subst hpr
            simp [AccessProfile.table, ChannelHeader.table, SubProfile.table, SubBand.table, CT.table, signedInt,
              Table.fields, fieldBits, List.replicate]
          obtain ⟨bs, eb, lb, -⟩ := id hl
          have h65 : bs.length = 65 := by
            have := congrArg List.length lb
            rw [bytesToBits_length, hlen] at this
            omega
          have hid : (SystemFile.accessProfile ⟨a.specifier, some p⟩).id = .ok (.int (0x20 + a.specifier)) := rfl
          obtain ⟨c, hc, hcl⟩ := (C54_write_partial rand (.accessProfile ⟨a.specifier, some p⟩) .HOST none rfl _ hid
            bs eb (by rintro rfl; simp at h65)).1 ⟨by omega, by omega⟩
          refine ⟨c, period, rfl, hc, ?_⟩
          obtain ⟨b, e, l, w⟩ := layout_subst hcl eb hl
          have hf : Length.fields ⟨(bs.length : Int)⟩ = [(2, 1), (14, 65)] := by rw [h65]; rfl
          have ht : p.table = ch.channelHeader.table ++
              (List.replicate 4 ((8, some a.subbandBitmap) :: period.table)).flatten ++
              (List.replicate 8 [(16, some ch.channelIndex), (16, some ch.channelIndex), signedInt 8 a.eirp,
                (8, some 86), (8, some 255)]).flatten := by
            subst hpr
            rfl
          rw [hf] at l w
          rw [← ht]
          have hs : (0x20 + a.specifier).toNat = 0x20 + a.specifier.toNat := by omega
          rw [hs] at l w
          refine ⟨b, e, ?_, fun x hx => ?_⟩
          · rw [l]
            simp only [fieldBits_append, forwardFields, List.append_nil]
            simp only [fieldBits_cons, List.append_assoc, fieldBits_nil]
            rfl
          · by_cases hx8 : x = (8, 0)
            · subst hx8; decide
            · refine w x ?_
              simp only [List.mem_append, List.mem_cons, List.not_mem_nil, or_false, forwardFields] at hx ⊢
              tauto
        · refine ⟨fun hk => absurd hk.2.2.2 h4, fun _ => ?_⟩
          have e5 : AccessProfileFile.new a.specifier (some p) = .error .valueError :=
            validate_eq_error.2 ⟨h4, rfl⟩
          rw [e5]
      · refine ⟨fun hk => absurd hk.2.2.1 h3, fun _ => ?_⟩
        have e3 : SubBand.new ch.channelIndex ch.channelIndex a.eirp 86 255 = .error .valueError :=
          validate_eq_error.2 ⟨fun h => h3 h.2.2.1, rfl⟩
        rw [e3]
    · refine ⟨fun hk => absurd hk.2.1 h2, fun _ => ?_⟩
      have e2 : SubProfile.new a.subbandBitmap period = .error .valueError := validate_eq_error.2 ⟨h2, rfl⟩
      rw [e2]
  · refine ⟨fun hk => absurd hk.1 h1, fun _ => ?_⟩
    by_cases h0 : 0 ≤ a.scanAutomationPeriod
    · rw [C03_compress_none _ (by omega)]
    · rw [C03_compress_negative _ (by omega)]

/-- Hypothesis of `C70_profile`; the last specifier, and one too many. -/
example :
    let a : ProfileArgs :=
      { channelId := ['8', '6', '8', 'L', 'P', '0', '2', '5'], scanAutomationPeriod := 1024, subbandBitmap := 1 }
    ChannelID.fromString a.channelId = .ok ⟨⟨.PN9, .LO_RATE, .BAND_868⟩, 25⟩ ∧
    (profileCommand 7 { a with specifier := 14 }).isOk = true ∧
    (profileCommand 7 { a with specifier := 15 }).isOk = false := by
  refine ⟨by rfl, by decide +kernel, by decide +kernel⟩

end Verif.Examples
