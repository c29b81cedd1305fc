import Verif.Props.Device
import Verif.Props.SystemCommands
import Verif.Spec.DeviceFiles
import Verif.Lemmas.Tables5

/-! System files written to a device and read from it, with the commands of the library. -/

namespace Verif.Modem

open Verif Verif.Serial

/-! ### The commands -/

/-- The write command. -/
theorem write_command {tag : UInt8} {f : SystemFile} {w : Command} {bs : List UInt8}
    (hw : Command.createWithWriteSystemFile tag f .HOST none = .ok w) (hb : bytearray f.iter = .ok bs)
    (hl : bs.length < 2 ^ 30) :
    ∃ file : UInt8, f.id = .ok (.int file.toNat) ∧ w = request tag [.write file 0 bs] := by
  unfold Command.createWithWriteSystemFile at hw
  simp only [Command.addForwardAction, bind, Except.bind] at hw
  cases hid : f.id with
  | error e => simp [hid] at hw
  | ok a =>
    cases a with
    | enum v => simp [hid, Offset.newFor] at hw
    | int i =>
      have hi : 0 ≤ i ∧ i ≤ 255 := by
        by_contra hc
        have : Offset.new i ⟨0⟩ = .error .valueError := if_neg hc
        simp [hid, Offset.newFor, this] at hw
      refine ⟨UInt8.ofNat i.toNat, ?_, ?_⟩
      · simp only [UInt8.toNat_ofNat', Except.ok.injEq, FileIdArg.int.injEq]
        omega
      · have hf := (C75_factory tag (UInt8.ofNat i.toNat) 0 0 bs (by decide) (by decide) hl).2
        have hi' : ((UInt8.ofNat i.toNat).toNat : Int) = i := by
          simp only [UInt8.toNat_ofNat']; omega
        have : Command.createWithWriteSystemFile tag f .HOST none =
            Command.createWithWriteFileAction tag i (ords bs) 0 .HOST none := by
          unfold Command.createWithWriteSystemFile Command.createWithWriteFileAction
          rw [hid, listOf_bytes f.ints hb]
          simp only [bind, Except.bind]
          simp only [Data.newItems_ints]
          rfl
        rw [hi'] at hf
        have h1 : Command.createWithWriteSystemFile tag f .HOST none = .ok w := by
          unfold Command.createWithWriteSystemFile
          simp only [Command.addForwardAction, bind, Except.bind]
          exact hw
        rw [this] at h1
        have h2 := h1.symm.trans hf
        injection h2

/-- The read command. -/
theorem read_command {tag : UInt8} {f : SystemFile} {r : Command} {file : UInt8}
    (hr : Command.createWithReadSystemFile tag f .HOST none = .ok r) (hid : f.id = .ok (.int file.toNat)) :
    ∃ n : Nat, f.length = .ok (n : Int) ∧ n < 2 ^ 30 ∧ r = request tag [.read file 0 n] := by
  cases hn : f.length with
  | error e =>
    exfalso
    unfold Command.createWithReadSystemFile at hr
    rw [hid, hn] at hr
    simp only [Command.addForwardAction, bind, Except.bind] at hr
    repeat' split at hr
    all_goals cases hr
  | ok n =>
    have e : Command.createWithReadSystemFile tag f .HOST none =
        Command.createWithReadFileAction tag file.toNat n 0 .HOST none := by
      unfold Command.createWithReadSystemFile Command.createWithReadFileAction
      rw [hid, hn]
      rfl
    have hk : 0 ≤ n ∧ n ≤ 0x3FFFFFFF := by
      by_contra hc
      have := (C54_read tag f .HOST none rfl _ _ hid hn).2 fun h => hc h.2
      rw [this] at hr
      cases hr
    refine ⟨n.toNat, by simp only [Except.ok.injEq]; omega, by omega, ?_⟩
    have hf := (C75_factory tag file 0 n.toNat [] (by decide) (by omega) (by decide)).1
    rw [show ((n.toNat : Nat) : Int) = n by omega] at hf
    rw [e] at hr
    have h2 := hr.symm.trans hf
    injection h2

/-! ### The calls -/

theorem Commanded.append {a b : List LoopEvent} {x y : List FileOp} (h : Commanded a x) (h' : Commanded b y) :
    Commanded (a ++ b) (x ++ y) := by
  induction h with
  | nil => exact h'
  | execute tag ops timeout es rest ht hv hl _ ih => rw [List.append_assoc]; exact .execute _ _ _ _ _ ht hv hl ih
  | long tag ops timeout es rest ht hv hl _ ih => exact .long _ _ _ _ _ ht hv hl ih
  | other e es rest he _ ih => exact .other _ _ _ he ih

theorem Commanded.proper {es : List LoopEvent} {ops : List FileOp} (h : Commanded es ops) : ∀ e ∈ es, Proper e := by
  induction h with
  | nil => simp
  | execute tag ops timeout es rest ht hv hl _ ih =>
    intro e he
    rcases List.mem_cons.1 he with rfl | he
    · exact ⟨ht, tag, ops, hv, rfl⟩
    · exact ih e he
  | long tag ops timeout es rest ht hv hl _ ih =>
    intro e he
    rcases List.mem_cons.1 he with rfl | he
    · exact ⟨ht, tag, ops, hv, rfl⟩
    · exact ih e he
  | other e es rest hne _ ih =>
    intro x hx
    rcases List.mem_cons.1 hx with rfl | hx
    · cases x with
      | call c =>
        cases c with
        | execute c t => exact absurd rfl (hne c t)
        | _ => exact trivial
      | _ => exact trivial
    · exact ih x hx

/-- What is read at the beginning of a file of the memory that was written, and not since. -/
theorem memory_prefix (d : UInt8 → Nat → UInt8) (file : UInt8) (data : List UInt8) (mid : List FileOp) (n : Nat)
    (hm : ∀ op ∈ mid, op.Apart file 0 data.length) :
    ∃ rest, memory.results (memory.after d (.write file 0 data :: mid)) [.read file 0 n] =
      [(file, 0, data.take n ++ rest)] ∧ (data.take n ++ rest).length = n := by
  have h := memory_kept d file 0 data mid hm
  simp only [Device.results, List.cons.injEq, Prod.mk.injEq, true_and, and_true] at h
  generalize memory.after d (.write file 0 data :: mid) = e at h
  have h' : (List.range data.length).map (fun i => e file (0 + i)) = data := h
  refine ⟨((List.range n).map fun i => e file (0 + i)).drop data.length, ?_, ?_⟩
  · have hx : (List.range n).map (fun i => e file (0 + i)) =
        data.take n ++ ((List.range n).map fun i => e file (0 + i)).drop data.length := by
      rw [← h', List.length_map, List.length_range, ← List.map_take, ← List.map_drop, ← List.map_append]
      congr 1
      rw [List.take_range, Nat.min_comm, ← List.take_range, List.take_append_drop]
    show [(file, 0, (List.range n).map fun i => e file (0 + i))] = _
    exact congrArg (fun x => [(file, 0, x)]) hx
  · simp only [List.length_append, List.length_take, List.length_drop, List.length_map, List.length_range]
    omega

/-! ### C77 -/

/-- C77, what comes back: a file is written with the command made for it, any other calls are made that do not touch
what was written, and it is read with the command made for it. The data returned have the length that the file declares
and begin with its serialisation, as far as that fits. -/
theorem C77_content {config : Config} (hk : config.skip = false) {d : UInt8 → Nat → UInt8}
    {before between during : List LoopEvent} {last : LoopEvent} {s s1 s' : Loop (UInt8 → Nat → UInt8)} {t1 t2 : UInt8}
    {f : SystemFile} {w r : Command} {bs : List UInt8} {earlier mid : List FileOp} {timeout1 timeout2 : Int} {o : Outcome}
    (hw : Command.createWithWriteSystemFile t1 f .HOST none = .ok w)
    (hr : Command.createWithReadSystemFile t2 f .HOST none = .ok r)
    (hb : bytearray f.iter = .ok bs) (hne : bs ≠ []) (hl : bs.length ≤ 248)
    (ht1 : 0 < timeout1) (ht2 : 0 < timeout2) (he : Commanded before earlier) (hm : Commanded between mid)
    (ha : ∀ op ∈ mid, ∀ file : UInt8, f.id = .ok (.int file.toNat) → op.Apart file 0 bs.length)
    (h0 : (Loop.start config d).run memory (before ++ .call (.execute w timeout1) :: between) = some s)
    (h1 : s.run memory (.call (.execute r timeout2) :: during) = some s1) (hu : s1.modem.outcomes = s.modem.outcomes)
    (h2 : s1.step memory last = some s') (ho : s'.modem.outcomes = s.modem.outcomes ++ [o]) :
    o = .list s.modem.responses.length ∧ ∃ (file : UInt8) (data rest : List UInt8), f.id = .ok (.int file.toNat) ∧
      content s'.modem.responses s.modem.responses.length = [answered t2 [(file, 0, data)]] ∧
      f.length = .ok (data.length : Int) ∧ data = bs.take data.length ++ rest := by
  obtain ⟨file, hid, rfl⟩ := write_command hw hb (by omega)
  obtain ⟨n, hn, hn', rfl⟩ := read_command hr hid
  have hfit : (requestBytes t1 [.write file 0 bs]).length ≤ 255 := by
    have : (encode 0).length = 1 := by decide
    have h2 : (encode bs.length).length ≤ 2 := by
      unfold encode
      split_ifs <;> simp only [List.length_cons, List.length_nil] <;> omega
    simp only [requestBytes, FileOp.bytes, List.map_cons, List.map_nil, List.flatten_cons, List.flatten_nil,
      List.length_append, List.length_cons, List.length_nil, this]
    omega
  have hc : Commanded (before ++ .call (.execute (request t1 [.write file 0 bs]) timeout1) :: between)
      (earlier ++ (.write file 0 bs :: mid)) :=
    he.append (.execute t1 [.write file 0 bs] timeout1 between mid ht1 (by
      intro op hop
      rw [List.mem_singleton] at hop
      subst hop
      exact ⟨by decide, hne, by omega⟩) hfit hm)
  obtain ⟨e1, e2, -⟩ := C75_execute hk memory ht2 (by
    intro op hop
    rw [List.mem_singleton] at hop
    subst hop
    exact ⟨by decide, hn'⟩) hc.proper h0 h1 hu h2 ho
  obtain ⟨s2, h3, -⟩ := run_cons h1
  have hi := (called_idle hk hc.proper h0 h3).1
  have hd := C75_data hk memory hc h0 hi.main
  obtain ⟨rest, m1, m2⟩ := memory_prefix (memory.after d earlier) file bs mid n fun op hop => ha op hop file hid
  refine ⟨e1, file, bs.take n ++ rest, rest, hid, ?_, ?_, ?_⟩
  · rw [e2, hd, after_append, m1]
  · rw [m2]; exact hn
  · rw [m2]

/-- The commands for a VID file: its three bytes are written to file 6, and three bytes of file 6 are read. -/
def vidFile : SystemFile := .vid ⟨0xABCD, 0x12⟩

theorem vidFile_built : vidFile.Built := validate_of (by decide)

def writingVid : List LoopEvent :=
  [.call (.execute (request 7 [.write 6 0 [0xAB, 0xCD, 0x12]]) 10), .main, .main, .main, .main, .main, .device 5, .read 9] ++
    List.replicate 5 .reader ++ [.main]

example : Command.createWithWriteSystemFile 7 vidFile .HOST none = .ok (request 7 [.write 6 0 [0xAB, 0xCD, 0x12]]) ∧
    Command.createWithReadSystemFile 8 vidFile .HOST none = .ok (request 8 [.read 6 0 3]) ∧
    bytearray vidFile.iter = .ok [0xAB, 0xCD, 0x12] ∧ vidFile.length = .ok 3 ∧
    ((Loop.start noCallbacks (fun _ _ => 0)).run memory (writingVid ++ [.call (.execute (request 8 [.read 6 0 3]) 10), .main,
      .main, .main, .main, .main, .device 6, .read 16, .reader, .reader, .reader, .reader, .main])).map
        (fun s => (s.modem.outcomes, content s.modem.responses 2)) =
      some ([.list 1, .list 2], [answered 8 [(6, 0, [0xAB, 0xCD, 0x12])]]) := by
  decide +kernel

theorem lift_ok {α : Type} {c : α → SystemFile} {p : P α} {s st : St} {a : α} (h : p s = .ok a st) :
    SystemFile.lift c p s = .ok (c a) st := by
  show P.bind p (fun a => P.pure (c a)) s = _
  simp only [P.bind, h, P.pure]

theorem lift_inv {α : Type} {c : α → SystemFile} (hc : ∀ a b, c a = c b → a = b) {p : P α} {s st : St} {a : α}
    (h : SystemFile.lift c p s = .ok (c a) st) : p s = .ok a st := by
  have h : P.bind p (fun a => P.pure (c a)) s = .ok (c a) st := h
  simp only [P.bind, P.pure] at h
  cases hp : p s with
  | err e t => simp [hp] at h
  | ok b t =>
    simp only [hp, Res.ok.injEq] at h
    rw [hc _ _ h.1, h.2]

/-- Whatever follows the serialisation. -/
theorem reread {α : Type} {g : Gen} {p : P α} {y : α} {n m : Nat} {bs data rest : List UInt8}
    (h : RoundTripsReading g p y n m) (hb : bytearray g = .ok bs) (hd : data = bs.take data.length ++ rest)
    (hn : n ≤ data.length) : ∃ st, p (stream data) = .ok y st := by
  obtain ⟨bs', e, l, r⟩ := h
  rw [hb] at e
  injection e with e
  subst e
  rw [List.take_of_length_le (by omega)] at hd
  rw [hd]
  exact ⟨_, r rest⟩

theorem roundTrips_reading {α : Type} {g : Gen} {p : P α} {y : α} {n : Nat} (h : RoundTrips g p y n) :
    RoundTripsReading g p y n n := by
  obtain ⟨bs, e, l, r⟩ := h
  refine ⟨bs, e, l, fun following => ?_⟩
  rw [r, List.drop_of_length_le (by omega), List.nil_append]

/-- Which file objects are parsed from what is read. -/
theorem reread_iff {f : SystemFile} {bs data rest : List UInt8} (hf : f.Built) (hb : bytearray f.iter = .ok bs)
    (hn : f.length = .ok (data.length : Int)) (hd : data = bs.take data.length ++ rest) :
    (∃ st, f.parse (stream data) = .ok f st) ↔ f.Survives := by
  cases f with
  | uid f =>
    simp only [SystemFile.length, Except.ok.injEq] at hn
    obtain ⟨st, h⟩ := reread (roundTrips_reading (C15_uid f hf)) hb hd (by omega)
    exact ⟨fun _ => trivial, fun _ => ⟨st, lift_ok h⟩⟩
  | vid f =>
    simp only [SystemFile.length, Except.ok.injEq] at hn
    obtain ⟨st, h⟩ := reread (roundTrips_reading (C15_vid f hf)) hb hd (by omega)
    exact ⟨fun _ => trivial, fun _ => ⟨st, lift_ok h⟩⟩
  | dllStatus f =>
    simp only [SystemFile.length, Except.ok.injEq] at hn
    obtain ⟨st, h⟩ := reread (roundTrips_reading (C15_dll_status f hf)) hb hd (by omega)
    exact ⟨fun _ => trivial, fun _ => ⟨st, lift_ok h⟩⟩
  | engineeringMode f =>
    simp only [SystemFile.length, Except.ok.injEq] at hn
    obtain ⟨st, h⟩ := reread (C15_engineering_mode f hf) hb hd (by omega)
    exact ⟨fun _ => trivial, fun _ => ⟨st, lift_ok h⟩⟩
  | dllConfig f =>
    simp only [SystemFile.length, Except.ok.injEq] at hn
    have hs := (C15_dll_config_serialises f hf).1.1 ⟨bs, hb⟩
    obtain ⟨st, h⟩ := reread (roundTrips_reading (C15_dll_config_partial f hf hs)) hb hd (by omega)
    exact ⟨fun _ => trivial, fun _ => ⟨st, lift_ok h⟩⟩
  | firmwareVersion f =>
    simp only [SystemFile.length, Except.ok.injEq] at hn
    obtain ⟨a1, a2⟩ := (C15_firmware_serialises f hf).1.1 ⟨bs, hb⟩
    have hv := (validate_eq_ok.1 hf).1
    obtain ⟨st, h⟩ := reread (roundTrips_reading (C15_firmware_padded f hf a1 a2)) hb hd (by omega)
    constructor
    · rintro ⟨st', h'⟩
      have h' := lift_inv (fun a b h => by injection h) h'
      rw [h] at h'
      injection h' with h' _
      have h1 := congrArg (fun g => g.applicationName.length) h'
      have h2 := congrArg (fun g => g.gitSha1.length) h'
      simp only [padded, List.length_append, List.length_replicate] at h1 h2
      have h3 := hv.2.2.2.2.1
      have h4 := hv.2.2.2.2.2
      exact ⟨by omega, by omega⟩
    · rintro ⟨l1, l2⟩
      obtain ⟨st, h⟩ := reread (roundTrips_reading (C15_firmware_partial f hf a1 a2 l1 l2)) hb hd (by omega)
      exact ⟨st, lift_ok h⟩
  | phyStatus f =>
    simp only [SystemFile.length, Except.ok.injEq] at hn
    have hs := (C15_phy_status_serialises f hf).1.1 ⟨bs, hb⟩
    have hnn : 0 ≤ f.channelStatusListLength := (PhyStatusFile.built_iff.1 hf).1.2.2.2.2.1.1
    constructor
    · rintro ⟨st', h'⟩
      have h' := lift_inv (fun a b h => by injection h) h'
      have hc := PhyStatusFile.reads_count h'
      have hl : (stream data).rest.length = 8 * data.length := by simp [stream]
      obtain ⟨t, bits, ⟨-, g1, g2, -⟩, -⟩ := (PhyStatusFile.decodes _ _ _).1 h'
      exact ⟨by omega, g1, g2⟩
    · rintro ⟨l0, l1, l2⟩
      rw [List.take_of_length_le (by omega)] at hs
      obtain ⟨st, h⟩ := reread (roundTrips_reading (C15_phy_status_partial f hf l1 l2 hs)) hb hd (by omega)
      exact ⟨st, lift_ok h⟩
  | accessProfile f =>
    simp only [SystemFile.length, Except.ok.injEq] at hn
    constructor
    · rintro ⟨st', h'⟩
      have h' := lift_inv (fun a b h => by injection h) h'
      obtain ⟨t, bits, ⟨g1, p, g2, -, g3, -⟩, -⟩ := (AccessProfileFile.decodes _ _ _).1 h'
      exact ⟨g1, p, g2, g3⟩
    · rintro ⟨l0, p, l1, l2⟩
      obtain ⟨st, h⟩ := reread (roundTrips_reading (C15_access_profile_partial f hf p l1 l2 l0)) hb hd (by omega)
      exact ⟨st, lift_ok h⟩
  | factorySettings f =>
    simp only [SystemFile.length, Except.ok.injEq] at hn
    refine ⟨?_, False.elim⟩
    rintro ⟨st', h'⟩
    have h' := lift_inv (fun a b h => by injection h) h'
    have hl : bs.length = 56 := C16_size (.factorySettings f) hf bs hb
    rw [List.take_of_length_le (by omega)] at hd
    by_cases hs : 2 ≤ f.rssiSmoothing
    · rw [hd, (C18_reread_partial f hf bs hb hs).2] at h'
      injection h' with h' _
      have := congrArg FactorySettingsFile.rssiSmoothing h'
      simp only at this
      have := FactorySettingsFile.clog_ne f.rssiSmoothing.toNat (by omega)
      omega
    · rw [hd, C18_small_exponent f hf bs hb (by omega)] at h'
      cases h'
  | securityKey f =>
    refine ⟨?_, False.elim⟩
    rintro ⟨st', h'⟩
    have h' := lift_inv (fun a b h => by injection h) h'
    obtain ⟨s, h⟩ := (C17_parse data).1
    rw [h] at h'
    cases h'
  | rootKey f =>
    refine ⟨?_, False.elim⟩
    rintro ⟨st', h'⟩
    have h' := lift_inv (fun a b h => by injection h) h'
    obtain ⟨s, h⟩ := (C17_parse data).2.1
    rw [h] at h'
    cases h'
  | userKey f =>
    refine ⟨?_, False.elim⟩
    rintro ⟨st', h'⟩
    have h' := lift_inv (fun a b h => by injection h) h'
    obtain ⟨s, h⟩ := (C17_parse data).2.2
    rw [h] at h'
    cases h'
  | interfaceConfiguration f => exact ⟨fun ⟨_, h⟩ => (by cases h), False.elim⟩
  | notImplemented f => exact ⟨fun ⟨_, h⟩ => (by cases h), False.elim⟩

/-- C77, for all files and in every interleaving: the file object parsed from the returned data is the one that was
written exactly if it is one of those that survive. Missing: the other objects, which no execution gives back. -/
theorem C77_same_partial {config : Config} (hk : config.skip = false) {d : UInt8 → Nat → UInt8}
    {before between during : List LoopEvent} {last : LoopEvent} {s s1 s' : Loop (UInt8 → Nat → UInt8)} {t1 t2 : UInt8}
    {f : SystemFile} {w r : Command} {bs : List UInt8} {earlier mid : List FileOp} {timeout1 timeout2 : Int} {o : Outcome}
    (hf : f.Built) (hw : Command.createWithWriteSystemFile t1 f .HOST none = .ok w)
    (hr : Command.createWithReadSystemFile t2 f .HOST none = .ok r)
    (hb : bytearray f.iter = .ok bs) (hne : bs ≠ []) (hl : bs.length ≤ 248)
    (ht1 : 0 < timeout1) (ht2 : 0 < timeout2) (he : Commanded before earlier) (hm : Commanded between mid)
    (ha : ∀ op ∈ mid, ∀ file : UInt8, f.id = .ok (.int file.toNat) → op.Apart file 0 bs.length)
    (h0 : (Loop.start config d).run memory (before ++ .call (.execute w timeout1) :: between) = some s)
    (h1 : s.run memory (.call (.execute r timeout2) :: during) = some s1) (hu : s1.modem.outcomes = s.modem.outcomes)
    (h2 : s1.step memory last = some s') (ho : s'.modem.outcomes = s.modem.outcomes ++ [o]) :
    o = .list s.modem.responses.length ∧ ∃ (file : UInt8) (data : List UInt8), f.id = .ok (.int file.toNat) ∧
      content s'.modem.responses s.modem.responses.length = [answered t2 [(file, 0, data)]] ∧
      ((∃ st, f.parse (stream data) = .ok f st) ↔ f.Survives) := by
  obtain ⟨e1, file, data, rest, e2, e3, e4, e5⟩ :=
    C77_content hk hw hr hb hne hl ht1 ht2 he hm ha h0 h1 hu h2 ho
  exact ⟨e1, file, data, e2, e3, reread_iff hf hb e4 e5⟩

/-- The file of the example above survives, and is parsed from what was read there. -/
example : vidFile.Built ∧ vidFile.Survives ∧
    vidFile.parse (stream [0xAB, 0xCD, 0x12]) = .ok vidFile ⟨24, []⟩ := ⟨vidFile_built, trivial, rfl⟩

/-- C77 is false: files accepted by their constructors and by both commands, written and read in a frame, that do not
survive: a key, factory settings, a version with a short name, a PHY status with 11 channels, the second access profile. -/
theorem C77_refuted : ∀ f ∈ [SystemFile.securityKey ⟨5⟩, .factorySettings SystemFiles.defaultFactorySettings,
      .firmwareVersion ⟨1, 2, 3, 4, [97], [98]⟩,
      .phyStatus ⟨0, 0, 0, 0, 11, List.replicate 11 .default, List.replicate 11 0⟩, .accessProfile ⟨1, some sampleProfile⟩],
    f.Built ∧ (∃ w, Command.createWithWriteSystemFile 7 f .HOST none = .ok w) ∧
      (∃ r, Command.createWithReadSystemFile 7 f .HOST none = .ok r) ∧
      (∃ bs, bytearray f.iter = .ok bs ∧ bs ≠ [] ∧ bs.length ≤ 248) ∧ ¬ f.Survives := by
  have key : ∀ f : SystemFile, (match bytearray f.iter with | .ok bs => decide (bs ≠ [] ∧ bs.length ≤ 248) | .error _ => false) = true →
      (Command.createWithWriteSystemFile 7 f .HOST none).isOk = true →
      (Command.createWithReadSystemFile 7 f .HOST none).isOk = true →
      (∃ w, Command.createWithWriteSystemFile 7 f .HOST none = .ok w) ∧
      (∃ r, Command.createWithReadSystemFile 7 f .HOST none = .ok r) ∧
      (∃ bs, bytearray f.iter = .ok bs ∧ bs ≠ [] ∧ bs.length ≤ 248) := by
    intro f h1 h2 h3
    have ok : ∀ {α : Type} {x : Except PyErr α}, x.isOk = true → ∃ a, x = .ok a := by
      intro α x h
      cases x with
      | ok a => exact ⟨a, rfl⟩
      | error e => cases h
    refine ⟨ok h2, ok h3, ?_⟩
    cases hb : bytearray f.iter with
    | error e => simp [hb] at h1
    | ok bs =>
      rw [hb] at h1
      exact ⟨bs, rfl, of_decide_eq_true h1⟩
  have key2 : ∀ (f : SystemFile), f.Built → ¬ f.Survives →
      (match bytearray f.iter with | .ok bs => decide (bs ≠ [] ∧ bs.length ≤ 248) | .error _ => false) = true →
      (Command.createWithWriteSystemFile 7 f .HOST none).isOk = true →
      (Command.createWithReadSystemFile 7 f .HOST none).isOk = true → _ :=
    fun f hb hs h1 h2 h3 => And.intro hb ((key f h1 h2 h3).imp_right fun x => And.intro x.1 (And.intro x.2 hs))
  intro f hf
  simp only [List.mem_cons, List.not_mem_nil, or_false] at hf
  rcases hf with rfl | rfl | rfl | rfl | rfl
  · exact key2 _ (validate_of (by decide)) id (by decide +kernel) (by decide +kernel) (by decide +kernel)
  · exact key2 _ ⟨FactorySettingsFile.defaultArgs, by decide⟩ id (by decide +kernel) (by decide +kernel) (by decide +kernel)
  · exact key2 _ (validate_of (by decide)) (fun h => absurd h.1 (by decide)) (by decide +kernel) (by decide +kernel)
      (by decide +kernel)
  · refine key2 _ ⟨List.replicate 11 .default, List.replicate 11 0, by decide +kernel, ?_⟩ (fun h => absurd h.1 (by decide))
      (by decide +kernel) (by decide +kernel) (by decide +kernel)
    intro i hi
    rw [List.mem_replicate] at hi
    rw [hi.2]
    decide
  · exact key2 _ ⟨validate_of (by decide), fun p hp => by cases hp; exact sampleProfile_built⟩
      (fun h => absurd h.1 (by decide)) (by decide +kernel) (by decide +kernel) (by decide +kernel)

/-! ### connect -/

theorem number_beBytes (k n : Nat) : number (beBytes k n) = n % 256 ^ k := by
  have key : ∀ k a, (beBytes k n).foldl (fun n b => n * 256 + b.toNat) a = a * 256 ^ k + n % 256 ^ k := by
    intro k
    induction k with
    | zero => intro a; simp [beBytes, Nat.mod_one]
    | succ k ih =>
      intro a
      simp only [beBytes, List.foldl_cons, ih, UInt8.toNat_ofNat']
      rw [show 2 ^ 8 = 256 from rfl, Nat.mod_mod, Nat.add_mul, Nat.pow_succ 256 k, Nat.mod_mul]
      ring
  simpa [number] using key k 0

/-- C77, `connect` reads the two files: if the device holds the serialisations of a UID file and of a version file,
`connect` returns True and the modem knows that UID and that version, with its names filled up with spaces. -/
theorem C77_connect {D : Type} {config : Config} (hk : config.skip = false) (dev : Device D) {d : D}
    {before during : List LoopEvent} {last : LoopEvent} {s s1 s' : Loop D} {tag : UInt8} {o : Outcome}
    {u : UidFile} {v : FirmwareVersionFile} (hu : u.Built) (hv : v.Built)
    (b1 : bytearray u.iter = .ok (dev.read s.data 0 0 8)) (b2 : bytearray v.iter = .ok (dev.read s.data 2 0 17))
    (hp : ∀ e ∈ before, Proper e) (h0 : (Loop.start config d).run dev before = some s)
    (hc : s.modem.connected = false)
    (h1 : s.run dev (.call (.connect true tag) :: during) = some s1) (hq : s1.modem.outcomes = s.modem.outcomes)
    (h2 : s1.step dev last = some s') (ho : s'.modem.outcomes = s.modem.outcomes ++ [o]) :
    o = .bool true ∧ s'.modem.connected = true ∧ s'.modem.uid = some u.uid.toNat ∧
      s'.modem.firmwareVersion =
        some { v with applicationName := padded v.applicationName 6, gitSha1 := padded v.gitSha1 7 } := by
  obtain ⟨a1, a2⟩ := (C15_firmware_serialises v hv).1.1 ⟨_, b2⟩
  obtain ⟨bs, e, l, r⟩ := C15_firmware_padded v hv a1 a2
  rw [b2] at e
  injection e with e
  subst e
  have hver : versionOf (dev.read s.data 2 0 17) =
      some { v with applicationName := padded v.applicationName 6, gitSha1 := padded v.gitSha1 7 } := by
    have h := version_parse (dev.read s.data 2 0 17)
    have r := r []
    rw [List.append_nil] at r
    cases hx : versionOf (dev.read s.data 2 0 17) with
    | none =>
      rw [hx] at h
      obtain ⟨e, st, h⟩ := h
      rw [h] at r
      cases r
    | some f =>
      rw [hx] at h
      obtain ⟨st, h⟩ := h
      rw [h] at r
      injection r with r _
      rw [r]
  obtain ⟨⟨g1, g2⟩, -⟩ := validate_eq_ok.1 hu
  have hbe : dev.read s.data 0 0 8 = beBytes 8 u.uid.toNat := by
    have : bytearray u.iter = .ok (beBytes 8 u.uid.toNat) := by
      unfold UidFile.iter packU
      rw [if_pos ⟨g1, by omega⟩]
      exact Emits.ofBytes _
    rw [this] at b1
    injection b1 with b1
    exact b1.symm
  obtain ⟨-, hmain, -, -⟩ := C75_connect hk dev hp h0 hc h1 hq h2 ho
  obtain ⟨r1, r2, r3, r4⟩ := hmain (by rw [hbe, beBytes_length]) _ hver
  refine ⟨r1, r2, ?_, r4⟩
  rw [r3, hbe, number_beBytes, Nat.mod_eq_of_lt (by omega)]

example : UidFile.Built ⟨0x0102030405060708⟩ ∧
    FirmwareVersionFile.Built ⟨1, 2, 3, 4, [97, 98, 99, 100, 101, 102], [48, 49, 50, 51, 52, 53, 54]⟩ ∧
    bytearray (UidFile.iter ⟨0x0102030405060708⟩) = .ok (node.read () 0 0 8) ∧
    bytearray (FirmwareVersionFile.iter ⟨1, 2, 3, 4, [97, 98, 99, 100, 101, 102], [48, 49, 50, 51, 52, 53, 54]⟩) =
      .ok (node.read () 2 0 17) ∧
    ((Loop.start noCallbacks ()).run node (connecting 42)).map (fun s => (s.modem.outcomes,
      (s.step node .main).map fun s => (s.modem.outcomes, s.modem.connected, s.modem.uid))) =
    some ([], some ([.bool true], true, some 0x0102030405060708)) :=
  ⟨validate_of (by decide), validate_of (by decide), by decide +kernel, by decide +kernel, by decide +kernel⟩

end Verif.Modem
