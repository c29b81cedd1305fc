import Verif.Props.UpdateDevice
import Verif.Props.DeviceFiles
import Verif.Props.Examples
import Verif.Props.Nodes
import Verif.Model.Programs
import Verif.Spec.Programs

/-! Helper lemmas: the configuration programs with a device. -/

namespace Verif.Modem

open Verif Verif.Serial

variable {D : Type}

namespace Prg

/-- After a call of `connect`. -/
structure Over (dev : Device D) (j : Job D) (s : Loop D) : Prop where
  idle : Idle s
  data : s.data = dev.after j.old.data j.ops
  known : ∃ o, s.modem.outcomes = j.old.modem.outcomes ++ [o] ∧
    ((dev.read j.old.data 0 0 8).length = 8 ∧ (versionOf (dev.read j.old.data 2 0 17)).isSome → o = .bool true) ∧
    (¬ ((dev.read j.old.data 0 0 8).length = 8 ∧ (versionOf (dev.read j.old.data 2 0 17)).isSome) → ∃ e, o = .raised e)

theorem over_run {dev : Device D} {j : Job D} {s s' : Loop D} {es : List LoopEvent} (h : Over dev j s)
    (hn : ∀ e ∈ es, ∀ c, e ≠ .call c) (hr : s.run dev es = some s') : Over dev j s' := by
  induction es generalizing s with
  | nil => simp only [Loop.run, Option.some.injEq] at hr; exact hr ▸ h
  | cons e es ih =>
    obtain ⟨s1, h1, h2⟩ := run_cons hr
    refine ih ?_ (fun x hx => hn x (by simp [hx])) h2
    rcases idle_step h.idle h1 with ⟨-, h3, rfl⟩ | ⟨c, h3, -⟩
    · exact ⟨h3, h.data, h.known⟩
    · exact absurd h3 (hn e (by simp) c)

theorem ends_over {dev : Device D} {j : Job D} {s s' : Loop D} (h : Serving dev j s) (hj : j.caller = .connect)
    (ho : j.ops = identification) (he : Ends dev j s s') : Over dev j s' := by
  obtain ⟨f1, f2, f3, -⟩ := ends_idle he
  refine ⟨f1, f2, ?_⟩
  obtain ⟨-, -, -, hr, -, rfl⟩ := he
  have hx : s.modem.finishExecute .connect (some j.old.modem.responses.length) =
      s.modem.finishConnect (some [answered j.tag [(0, 0, dev.read j.old.data 0 0 8), (2, 0, dev.read j.old.data 2 0 17)]]) := by
    simp only [State.finishExecute, Option.bind_some, hr]
    rw [List.getElem?_append_right (le_refl _), Nat.sub_self]
    simp only [Job.results, ho]
    rfl
  rw [hj, hx]
  obtain ⟨r1, r2, r3⟩ := readInfo_answer (dev.read j.old.data 0 0 8) (dev.read j.old.data 2 0 17) j.tag s.modem.uid
    s.modem.firmwareVersion
  have hou : s.modem.outcomes = j.old.modem.outcomes := h.1.outcomes
  by_cases h8 : (dev.read j.old.data 0 0 8).length = 8
  · cases hv : versionOf (dev.read j.old.data 2 0 17) with
    | some f =>
      refine ⟨.bool true, ?_, fun _ => rfl, fun hc => absurd ⟨h8, rfl⟩ hc⟩
      simp [State.finishConnect, r2 h8 f hv, State.finish, hou]
    | none =>
      obtain ⟨e, r3⟩ := r3 h8 hv
      refine ⟨.raised e, ?_, fun hc => absurd hc.2 (by simp), fun _ => ⟨e, rfl⟩⟩
      simp [State.finishConnect, r3, State.finish, hou]
  · refine ⟨.raised .structError, ?_, fun hc => absurd hc.1 h8, fun _ => ⟨_, rfl⟩⟩
    simp [State.finishConnect, r1 h8, State.finish, hou]

theorem serving_over {dev : Device D} {j : Job D} {s s' : Loop D} {es : List LoopEvent} (h : Serving dev j s)
    (hj : j.caller = .connect) (ho : j.ops = identification) (hn : ∀ e ∈ es, ∀ c, e ≠ .call c)
    (hr : s.run dev es = some s') : Serving dev j s' ∨ Over dev j s' := by
  induction es generalizing s with
  | nil => simp only [Loop.run, Option.some.injEq] at hr; exact .inl (hr ▸ h)
  | cons e es ih =>
    obtain ⟨s1, h1, h2⟩ := run_cons hr
    have hn' : ∀ x ∈ es, ∀ c, x ≠ .call c := fun x hx => hn x (by simp [hx])
    rcases serving_step h h1 with ⟨h3, -⟩ | ⟨-, h3⟩
    · exact ih h3 hn' h2
    · exact .inr (over_run (ends_over h hj ho h3) hn' h2)

/-- The call of `connect`. -/
theorem serving_connect {dev : Device D} {s : Loop D} (h : Idle s) (hc : s.modem.connected = false) (tag : UInt8) :
    Serving dev ⟨.connect, tag, identification, s⟩ { s with modem := s.modem.startCall (.connect true tag) } := by
  have hsv := ((execute_step h .connect dev (tag := tag) identification_valid (timeout := 10) (by decide)).1
    (identification_fits tag)).1
  rwa [← connect_step h hc] at hsv

/-- `connect` has ended. -/
theorem connected {dev : Device D} {s s' : Loop D} {tag : UInt8} {r : Option PyErr} (h : Idle s)
    (hc : s.modem.connected = false) (hr : Connected dev tag s r s') :
    Idle s' ∧ s'.data = s.data ∧ (r = none ↔ Identified dev s.data) := by
  obtain ⟨es, o, hn, h1, h2, h3⟩ := hr
  obtain ⟨s1, h4, h5⟩ := run_cons h1
  rcases idle_step h h4 with ⟨h6, -⟩ | ⟨c, h6, rfl⟩
  · cases h6
  · cases h6
    rcases serving_over (serving_connect h hc tag) rfl rfl hn h5 with h7 | h7
    · have := h7.1.outcomes
      rw [h2] at this
      exact absurd (congrArg List.length this) (by simp)
    · obtain ⟨o', h8, h9, h10⟩ := h7.known
      rw [h2] at h8
      obtain rfl : o = o' := by simpa using h8
      refine ⟨h7.idle, h7.data, ?_⟩
      by_cases hi : Identified dev s.data
      · rw [h3, h9 hi]; simp [hi]
      · obtain ⟨e, he⟩ := h10 hi
        rw [h3, he]; simp [hi]

/-- `connect` can be brought to its end. -/
theorem connects {dev : Device D} {s : Loop D} (h : Idle s) (hc : s.modem.connected = false) (tag : UInt8)
    (ha : (answer tag (dev.results s.data identification)).length ≤ 255) : ∃ r s', Connected dev tag s r s' := by
  have key : ∀ (n : Nat) (s1 : Loop D), Serving dev ⟨.connect, tag, identification, s⟩ s1 → s1.work ≤ n →
      ∃ es s', (∀ e ∈ es, ∀ c, e ≠ .call c) ∧ s1.run dev es = some s' ∧ Over dev ⟨.connect, tag, identification, s⟩ s' := by
    intro n
    induction n with
    | zero =>
      intro s1 h1 hw
      obtain ⟨e, s2, hn, h2⟩ := Upd.progress h1 ha
      rcases serving_step h1 h2 with ⟨-, h3⟩ | ⟨-, h3⟩
      · omega
      · exact ⟨[e], s2, by simpa using hn, by simp [Loop.run, h2], ends_over h1 rfl rfl h3⟩
    | succ n ih =>
      intro s1 h1 hw
      obtain ⟨e, s2, hn, h2⟩ := Upd.progress h1 ha
      rcases serving_step h1 h2 with ⟨h3, h4⟩ | ⟨-, h3⟩
      · obtain ⟨es, s', e1, e2, e3⟩ := ih s2 h3 (by omega)
        refine ⟨e :: es, s', ?_, by simp [Loop.run, h2, e2], e3⟩
        intro x hx
        rcases List.mem_cons.1 hx with rfl | hx
        · exact hn
        · exact e1 x hx
      · exact ⟨[e], s2, by simpa using hn, by simp [Loop.run, h2], ends_over h1 rfl rfl h3⟩
  obtain ⟨es, s', h1, h2, h3⟩ := key _ _ (serving_connect h hc tag) (Nat.le_refl _)
  obtain ⟨o, h4, -⟩ := h3.known
  refine ⟨_, s', es, o, h1, ?_, h4, rfl⟩
  show (s.step dev _).bind _ = _
  simp only [Loop.step, State.step]
  rw [if_pos h.main]
  exact h2

/-- A memory always tells eight bytes. -/
theorem memory_length (d : UInt8 → Nat → UInt8) (f : UInt8) (o n : Nat) : (memory.read d f o n).length = n := by
  simp [memory]

/-- The bits of what is written, from those of the command. -/
theorem written_bits {tag file : UInt8} {bs : List UInt8} {pre fs : List (Nat × Nat)} {k : Nat} (hne : bs ≠ [])
    (hl : bs.length < 2 ^ 30) (h : HasLayout (request tag [.write file 0 bs]).iter (pre ++ fs))
    (hp : (fieldBits pre).length = 8 * k) (hk : (requestBytes tag [.write file 0 bs]).length = k + bs.length) :
    bytesToBits bs = fieldBits fs := by
  obtain ⟨b, h1, h2, -⟩ := h
  have he := request_emits tag (ops := [.write file 0 bs]) (by
    intro op hop
    rw [List.mem_singleton] at hop
    subst hop
    exact ⟨by decide, hne, hl⟩)
  rw [he.symm.trans h1 |> Except.ok.inj |> Eq.symm] at h2
  obtain ⟨x, hx⟩ : ∃ x, requestBytes tag [.write file 0 bs] = x ++ bs := by
    simp only [requestBytes, FileOp.bytes, List.map_cons, List.map_nil, List.flatten_cons, List.flatten_nil, List.append_nil]
    exact ⟨[0xB4, tag] ++ ([4, file] ++ encode 0 ++ encode bs.length), by simp⟩
  rw [hx, List.length_append] at hk
  rw [hx, bytesToBits_append, fieldBits_append] at h2
  exact (List.append_inj h2 (by rw [bytesToBits_length, hp]; omega)).2

open Verif.Examples

/-- The command of the access profile program. -/
theorem profile_request (rand : UInt8) (a : ProfileArgs) (ch : ChannelID)
    (hch : ChannelID.fromString a.channelId = .ok ch)
    (hok : (0 ≤ a.scanAutomationPeriod ∧ a.scanAutomationPeriod ≤ 507904) ∧
      (0 ≤ a.subbandBitmap ∧ a.subbandBitmap ≤ 255) ∧ (-128 ≤ a.eirp ∧ a.eirp ≤ 127) ∧
      (0 ≤ a.specifier ∧ a.specifier ≤ 14)) :
    ∃ period bs, CT.compress a.scanAutomationPeriod = .ok (some period) ∧
      profileCommand rand a = .ok (request rand [.write (UInt8.ofNat (0x20 + a.specifier.toNat)) 0 bs]) ∧
      bs.length = 65 ∧
      bytesToBits bs = fieldBits (Table.fields (ch.channelHeader.table ++
          (List.replicate 4 ((8, some a.subbandBitmap) :: period.table)).flatten ++
          (List.replicate 8 [(16, some ch.channelIndex), (16, some ch.channelIndex), signedInt 8 a.eirp,
            (8, some 86), (8, some 255)]).flatten)) := by
  obtain ⟨c, period, h1, h2, h3⟩ := (C70_profile rand a ch hch).1 hok
  have hc : ∃ f : AccessProfileFile, f.accessSpecifier = a.specifier ∧
      Command.createWithWriteSystemFile rand (.accessProfile f) .HOST none = .ok c := by
    unfold profileCommand at h2
    rw [hch, h1] at h2
    simp only [bind, Except.bind] at h2
    split at h2
    · cases h2
    · split at h2
      · cases h2
      · split at h2
        · cases h2
        · split at h2
          · cases h2
          · next f hf =>
            refine ⟨f, ?_, h2⟩
            have := (validate_eq_ok.1 hf).2
            rw [← this]
  obtain ⟨f, hf1, hf2⟩ := hc
  obtain ⟨b, e1, e2, -⟩ := id h3
  have hlen : b.length = 7 + 65 := by
    have := congrArg List.length e2
    rw [bytesToBits_length] at this
    simp [ChannelHeader.table, CT.table, signedInt, Table.fields, fieldBits, List.replicate, tagFields] at this
    omega
  cases hb : bytearray (SystemFile.accessProfile f).iter with
  | error e =>
    exfalso
    obtain ⟨e', he'⟩ := C54_write_error rand _ .HOST none e hb
    rw [he'] at hf2
    cases hf2
  | ok bs =>
    have hid : (SystemFile.accessProfile f).id = .ok (.int (0x20 + a.specifier)) := by
      rw [← hf1]; rfl
    have hl : bs.length < 2 ^ 30 := by
      by_cases hne : bs = []
      · simp [hne]
      · by_contra hx
        have := (C54_write_partial rand _ .HOST none rfl _ hid bs hb hne).2 (by omega)
        rw [this] at hf2
        cases hf2
    obtain ⟨file, g1, rfl⟩ := write_command hf2 hb hl
    rw [hid] at g1
    have hfile : file = UInt8.ofNat (0x20 + a.specifier.toNat) := by
      apply UInt8.toNat.inj
      injection g1 with g1
      injection g1 with g1
      rw [UInt8.toNat_ofNat']
      omega
    by_cases hne : bs = []
    · exfalso
      subst hne
      obtain ⟨c', i1, b', i2, i3, -⟩ := C54_write_empty rand _ _ hid (by omega) hb
      rw [hf2] at i1
      injection i1 with i1
      rw [← i1, e1] at i2
      injection i2 with i2
      have := congrArg List.length i3
      rw [bytesToBits_length, ← i2, hlen] at this
      simp [tagFields, fieldBits] at this
    have he := request_emits rand (ops := [.write file 0 bs]) (by
      intro op hop
      rw [List.mem_singleton] at hop
      subst hop
      exact ⟨by decide, hne, hl⟩)
    have hb' := he.symm.trans e1
    injection hb' with hb'
    have h65 : bs.length = 65 ∧ (requestBytes rand [.write file 0 bs]).length = 7 + bs.length := by
      rw [hb', hlen]
      rw [← hb'] at hlen
      simp only [requestBytes, FileOp.bytes, List.map_cons, List.map_nil, List.flatten_cons, List.flatten_nil,
        List.append_nil, List.length_append, List.length_cons, List.length_nil] at hlen
      have h0 : (encode 0).length = 1 := rfl
      rw [h0] at hlen
      unfold encode at hlen
      split_ifs at hlen <;> simp only [List.length_cons, List.length_nil] at hlen <;> omega
    refine ⟨period, bs, h1, ?_, h65.1, ?_⟩
    · rw [h2, hfile]
    · exact written_bits hne hl h3 rfl h65.2

/-- Writing an object. -/
theorem writeObject_action {file : UInt8} {g : Gen} (hg : Ints g) {bs : List UInt8} (hb : bytearray g = .ok bs)
    (hl : bs.length < 2 ^ 30) : writeObject (.int file.toNat) g = .ok (FileOp.write file 0 bs).action := by
  have hf := file.toNat_lt
  have h2 : Offset.newFor (.int file.toNat) ⟨0⟩ = .ok ⟨file.toNat, ⟨0⟩⟩ := validate_of ⟨by omega, by omega⟩
  have h3 : Data.new (bs.map fun b => (b.toNat : Int)) ⟨file.toNat, ⟨0⟩⟩ =
      .ok ⟨⟨file.toNat, ⟨0⟩⟩, ⟨bs.length⟩, bs.map fun b => (b.toNat : Int)⟩ := by
    have h1 : Length.new (bs.length : Int) = .ok ⟨bs.length⟩ := validate_of ⟨by omega, by omega⟩
    simp only [Data.new, List.length_map, h1, bind, Except.bind]
    exact validate_of (isBytes_map bs)
  have h4 : Data.newItems ((ords bs).map Item.int) ⟨file.toNat, ⟨0⟩⟩ =
      .ok ⟨⟨file.toNat, ⟨0⟩⟩, ⟨bs.length⟩, bs.map fun b => (b.toNat : Int)⟩ := by
    rw [Data.newItems_ints]
    exact h3
  unfold writeObject
  rw [listOf_bytes hg hb]
  simp only [h2, h4, bind, Except.bind]
  rfl

/-- The factory settings of the file, in bytes. -/
theorem factory_bytes {f : FactorySettingsFile} (h : f.Valid) (hf : f.Fits) :
    ∃ bs, bs.length = 56 ∧ bytesToBits bs = fieldBits (SystemFile.factorySettings f).fields ∧
      listOf (SystemFile.factorySettings f).iter = .ok ((ords bs).map Item.int) ∧
      writeObject (.int 1) (SystemFile.factorySettings f).iter = .ok (FileOp.write 1 0 bs).action := by
  obtain ⟨bs, h1, h2, -⟩ := FactorySettingsFile.layout h hf
  have hl : bs.length = 56 := by
    have := congrArg List.length h2
    rw [bytesToBits_length] at this
    simp [FactorySettingsFile.table, signedInt, Table.fields, fieldBits] at this
    omega
  have hi := SystemFile.ints (.factorySettings f)
  exact ⟨bs, hl, h2, listOf_bytes hi h1, writeObject_action (file := 1) hi h1 (by omega)⟩

/-- The engineering mode file, in bytes. -/
theorem engineering_bytes {f : EngineeringModeFile} (h : f.Built) :
    ∃ bs, bs.length = 9 ∧ bytesToBits bs = fieldBits (SystemFile.engineeringMode f).fields ∧
      listOf (SystemFile.engineeringMode f).iter = .ok ((ords bs).map Item.int) ∧
      writeObject (.int 5) (SystemFile.engineeringMode f).iter = .ok (FileOp.write 5 0 bs).action := by
  obtain ⟨bs, h1, h2, -⟩ := EngineeringModeFile.layout h
  have hl : bs.length = 9 := by
    have := congrArg List.length h2
    rw [bytesToBits_length] at this
    simp [SystemFile.fields, EngineeringModeFile.table, ChannelID.table, ChannelHeader.table, signedInt,
      Table.fields, fieldBits] at this
    omega
  have hi := SystemFile.ints (.engineeringMode f)
  exact ⟨bs, hl, h2, listOf_bytes hi h1, writeObject_action (file := 5) hi h1 (by omega)⟩

/-- The command of the factory settings program. -/
theorem factory_request (rand : UInt8) {args f : FactorySettingsFile} (hn : FactorySettingsFile.new args = .ok f)
    (hf : f.Fits) :
    ∃ bs, bs.length = 56 ∧ bytesToBits bs = fieldBits (SystemFile.factorySettings f).fields ∧
      factoryCommand rand args false = .ok (request rand [.write 1 0 bs]) := by
  obtain ⟨bs, h1, h2, h3, h4⟩ := factory_bytes (FactorySettingsFile.built_valid ⟨args, hn⟩) hf
  refine ⟨bs, h1, h2, ?_⟩
  unfold factoryCommand
  rw [hn]
  simp only [bind, Except.bind, h3, h4]
  rfl

/-- Its command with `-f`. -/
theorem factory_asking (rand : UInt8) {args f : FactorySettingsFile} (hn : FactorySettingsFile.new args = .ok f)
    (hf : f.Fits) :
    ∃ bs, bs.length = 56 ∧ bytesToBits bs = fieldBits (SystemFile.factorySettings f).fields ∧
      factoryCommand rand args true = .ok (asking rand broadcast [.write 1 0 bs]) := by
  obtain ⟨bs, h1, h2, h3, h4⟩ := factory_bytes (FactorySettingsFile.built_valid ⟨args, hn⟩) hf
  refine ⟨bs, h1, h2, ?_⟩
  unfold factoryCommand
  rw [hn]
  simp only [bind, Except.bind, h3, h4]
  rfl

/-- The file of the engineering mode program. -/
theorem engineering_file (a : EngineeringArgs) (m : EngineeringModeMode) (ch : ChannelID)
    (hch : ChannelID.fromString a.channelId = .ok ch) (hm : EngineeringModeMode.fromString a.mode = .ok m) :
    engineeringFile a =
      EngineeringModeFile.new m 0 (if m = .PER_TX ∧ a.timeout = 0 then 255 else a.timeout) ch a.eirp := by
  unfold engineeringFile
  rw [hch, hm]
  rfl

/-- The command of the engineering mode program. -/
theorem engineering_request (rand : UInt8) (a : EngineeringArgs) (m : EngineeringModeMode) (ch : ChannelID)
    (ha : a.forward = false)
    (hch : ChannelID.fromString a.channelId = .ok ch) (hm : EngineeringModeMode.fromString a.mode = .ok m)
    (ht : 0 ≤ (if m = .PER_TX ∧ a.timeout = 0 then 255 else a.timeout) ∧
      (if m = .PER_TX ∧ a.timeout = 0 then 255 else a.timeout) ≤ 255)
    (he : -128 ≤ a.eirp ∧ a.eirp ≤ 127)
    (hfa : a.factoryGaussian ≠ 0xFF ∨ a.factoryParamp ≠ 0xFF →
      (0 ≤ a.factoryGaussian ∧ a.factoryGaussian ≤ 3) ∧ (0 ≤ a.factoryParamp ∧ a.factoryParamp ≤ 0xFFFF)) :
    ∃ eb fb, eb.length = 9 ∧ fb.length = 56 ∧
      bytesToBits eb = fieldBits (SystemFile.engineeringMode
        ⟨m, 0, if m = .PER_TX ∧ a.timeout = 0 then 255 else a.timeout, ch, a.eirp⟩).fields ∧
      (a.factoryGaussian ≠ 0xFF ∨ a.factoryParamp ≠ 0xFF →
        bytesToBits fb = fieldBits (SystemFile.factorySettings { SystemFiles.defaultFactorySettings with
          gaussian := a.factoryGaussian, paramp := a.factoryParamp }).fields) ∧
      engineeringCommand rand a = .ok (request rand
        ((if a.factoryGaussian ≠ 0xFF ∨ a.factoryParamp ≠ 0xFF then [.write 1 0 fb] else []) ++ [.write 5 0 eb])) := by
  have hef := engineering_file a m ch hch hm
  have en : EngineeringModeFile.new m 0 (if m = .PER_TX ∧ a.timeout = 0 then 255 else a.timeout) ch a.eirp =
      .ok ⟨m, 0, if m = .PER_TX ∧ a.timeout = 0 then 255 else a.timeout, ch, a.eirp⟩ :=
    validate_of ⟨by decide, ht, he⟩
  rw [en] at hef
  obtain ⟨eb, e1, e2, e3, e4⟩ := engineering_bytes
    (f := ⟨m, 0, if m = .PER_TX ∧ a.timeout = 0 then 255 else a.timeout, ch, a.eirp⟩) ⟨en, fromString_built hch⟩
  unfold engineeringCommand
  rw [hef, ha]
  simp only [bind, Except.bind, e3, e4, forwardIf, Bool.false_eq_true, if_false, SystemFile.id]
  by_cases h2 : a.factoryGaussian ≠ 0xFF ∨ a.factoryParamp ≠ 0xFF
  · have hv : FactorySettingsFile.Valid { SystemFiles.defaultFactorySettings with
        gaussian := a.factoryGaussian, paramp := a.factoryParamp } := by
      have hd : SystemFiles.defaultFactorySettings.Valid := by decide
      obtain ⟨d1, d2, d3, d4, d5, d6, d7, d8, d9, d10, d11, d12, d13, d14, d15, d16, d17, d18, d19, d20, -⟩ := hd
      exact ⟨d1, d2, d3, d4, d5, d6, d7, d8, d9, d10, d11, d12, d13, d14, d15, d16, d17, d18, d19, d20, hfa h2⟩
    have hn : FactorySettingsFile.new { FactorySettingsFile.defaultArgs with
        gaussian := a.factoryGaussian, paramp := a.factoryParamp } =
        .ok { SystemFiles.defaultFactorySettings with
          gaussian := a.factoryGaussian, paramp := a.factoryParamp } := by
      unfold FactorySettingsFile.new
      have : FactorySettingsFile.smoothing 8 = .ok 2 := by decide
      show (do let sm ← FactorySettingsFile.smoothing 8; _) = _
      rw [this]
      exact validate_of hv
    have hf : engineeringFactory a = .ok (some { SystemFiles.defaultFactorySettings with
          gaussian := a.factoryGaussian, paramp := a.factoryParamp }) := by
      unfold engineeringFactory
      rw [if_pos h2, if_pos h2, hn]
      rfl
    obtain ⟨fb, g1, g2, g3, g4⟩ := factory_bytes hv
      (show SystemFiles.defaultFactorySettings.Fits from ⟨by decide, by decide, by decide, by decide, by decide⟩)
    refine ⟨eb, fb, e1, g1, e2, fun _ => g2, ?_⟩
    rw [hf, if_pos h2]
    simp only [addFactory, SystemFile.id, bind, Except.bind, g4]
    rfl
  · refine ⟨eb, List.replicate 56 0, e1, by simp, e2, fun h => absurd h h2, ?_⟩
    have hf : engineeringFactory a = .ok none := by
      unfold engineeringFactory
      rw [if_neg h2]
    rw [hf, if_neg h2]
    rfl

/-- With `-f`, the same operations behind a forward action. -/
theorem engineering_asking (rand : UInt8) (a : EngineeringArgs) {ops : List FileOp}
    (h : engineeringCommand rand { a with forward := false } = .ok (request rand ops)) (ha : a.forward = true) :
    engineeringCommand rand a = .ok (asking rand broadcast ops) := by
  have e1 : engineeringFile { a with forward := false } = engineeringFile a := rfl
  have e2 : engineeringFactory { a with forward := false } = engineeringFactory a := rfl
  unfold engineeringCommand at h ⊢
  rw [e1, e2] at h
  rw [ha]
  cases h1 : engineeringFile a with
  | error e => rw [h1] at h; cases h
  | ok em =>
    rw [h1] at h
    simp only [bind, Except.bind] at h ⊢
    cases h2 : listOf (SystemFile.engineeringMode em).iter with
    | error e => rw [h2] at h; cases h
    | ok l =>
      rw [h2] at h
      simp only at h ⊢
      have e3 : forwardIf true (Command.empty rand) = .ok ((Command.empty rand).addAction
        (.regular false false (.forward ⟨.D7ASP, some (.d7asp broadcast)⟩))) := rfl
      have e4 : forwardIf false (Command.empty rand) = .ok (Command.empty rand) := rfl
      rw [e3]
      rw [e4] at h
      simp only at h ⊢
      cases h3 : engineeringFactory a with
      | error e => rw [h3] at h; cases h
      | ok fact =>
        rw [h3] at h
        simp only at h ⊢
        have hops : ∀ {c : Command}, c.actions = (request rand ops).actions → c.actions = ops.map FileOp.action := fun hc => hc
        cases fact with
        | none =>
          simp only [addFactory, SystemFile.id] at h ⊢
          cases h4 : writeObject (.int 5) (SystemFile.engineeringMode em).iter with
          | error e => rw [h4] at h; cases h
          | ok w =>
            rw [h4] at h
            simp only [pure, Except.pure, Except.ok.injEq] at h ⊢
            have := hops (congrArg Command.actions h)
            simp only [asking, ← this]
            rfl
        | some fact =>
          simp only [addFactory, SystemFile.id, bind, Except.bind] at h ⊢
          cases h5 : writeObject (.int 1) (SystemFile.factorySettings fact).iter with
          | error e => rw [h5] at h; cases h
          | ok w1 =>
            rw [h5] at h
            simp only [pure, Except.pure] at h ⊢
            cases h4 : writeObject (.int 5) (SystemFile.engineeringMode em).iter with
            | error e => rw [h4] at h; cases h
            | ok w =>
              rw [h4] at h
              simp only [Except.ok.injEq] at h ⊢
              have := hops (congrArg Command.actions h)
              simp only [asking, ← this]
              rfl

/-- The command of the PHY status program. -/
theorem phy_request (rand : UInt8) : readPhyCommand rand = .ok (request rand [.read 9 0 45]) :=
  rfl

theorem put_write (file : UInt8) (bs : List UInt8) (d : UInt8 → Nat → UInt8) : Put file bs d (memory.write d file 0 bs) := by
  constructor
  · intro i h
    simp only [memory]
    rw [if_pos ⟨trivial, by omega, by omega⟩, Nat.sub_zero, List.getElem?_eq_getElem h]
    rfl
  · intro f i h
    simp only [memory]
    rw [if_neg]
    rintro ⟨h1, -, h2⟩
    exact h ⟨h1, by omega⟩

/-- A program that connects and executes one command. -/
theorem once {dev : Device D} {s s' : Loop D} {tag : UInt8} {command : Except PyErr Command}
    {r : Except PyErr (List Command)} (h : Idle s) (hc : s.modem.connected = false)
    (ho : Once (Connected dev tag) (Returned dev) command s r s') :
    (∀ rand ops, command = .ok (request rand ops) → (∀ op ∈ ops, op.Valid) → (requestBytes rand ops).length ≤ 255 →
      Identified dev s.data → r = .ok [answered rand (dev.results s.data ops)] ∧ s'.data = dev.after s.data ops) ∧
    (¬ Identified dev s.data → (∃ e, r = .error e) ∧ s'.data = s.data) ∧
    ∀ e, command = .error e → (∃ e, r = .error e) ∧ s'.data = s.data := by
  cases ho with
  | unconnected _ e h1 =>
    obtain ⟨-, h2, h3⟩ := connected h hc h1
    exact ⟨fun _ _ _ _ _ hi => (absurd (h3.2 hi) (by simp)), fun _ => ⟨⟨e, rfl⟩, h2⟩, fun _ _ => ⟨⟨e, rfl⟩, h2⟩⟩
  | unmade _ e h1 h2 =>
    obtain ⟨-, h3, -⟩ := connected h hc h1
    exact ⟨fun _ _ hx => (absurd (h2.symm.trans hx) (by simp)), fun _ => ⟨⟨e, rfl⟩, h3⟩, fun _ _ => ⟨⟨e, rfl⟩, h3⟩⟩
  | executed s1 _ c _ h1 h2 h3 =>
    obtain ⟨h4, h5, h6⟩ := connected h hc h1
    refine ⟨fun rand ops hx hv hl _ => ?_, fun hi => absurd (h6.1 rfl) hi, fun e hx => absurd (h2.symm.trans hx) (by simp)⟩
    rw [h2] at hx
    injection hx with hx
    subst hx
    obtain ⟨e1, e2, -⟩ := Upd.returned h4 hv hl h3
    rw [e1, e2, h5]
    exact ⟨rfl, rfl⟩

/-- Such a program can be run to its end. -/
theorem once_ends {dev : Device D} {s : Loop D} (tag : UInt8) {command : Except PyErr Command} (h : Idle s)
    (hc : s.modem.connected = false) (hi : (answer tag (dev.results s.data identification)).length ≤ 255)
    (ho : ∀ c, command = .ok c → ∃ rand ops, c = request rand ops ∧ (∀ op ∈ ops, op.Valid) ∧
      (requestBytes rand ops).length ≤ 255 ∧ (answer rand (dev.results s.data ops)).length ≤ 255) :
    ∃ r s', Once (Connected dev tag) (Returned dev) command s r s' := by
  obtain ⟨r, s1, h1⟩ := connects h hc tag hi
  obtain ⟨h2, h3, -⟩ := connected h hc h1
  cases r with
  | some e => exact ⟨_, s1, .unconnected _ _ e h1⟩
  | none =>
    cases command with
    | error e => exact ⟨_, s1, .unmade _ _ e h1 rfl⟩
    | ok c =>
      obtain ⟨rand, ops, rfl, g1, g2, g3⟩ := ho c rfl
      obtain ⟨s', h4, -⟩ := Upd.returns h2 g1 g2 (by rw [h3]; exact g3)
      exact ⟨_, s', .executed _ s1 _ _ _ h1 rfl h4⟩

theorem memory_identifies (tag : UInt8) (d : UInt8 → Nat → UInt8) :
    (answer tag (memory.results d identification)).length ≤ 255 := by
  simp [answer, identification, Device.results, Modem.returned, memory, encode]

end Prg

end Verif.Modem
