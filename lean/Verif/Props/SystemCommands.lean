import Verif.Props.Factories
import Verif.Props.SystemFiles
import Verif.Lemmas.SystemCommands

/-! C54: the factories that take a system file object. -/

namespace Verif

private theorem host_ok (rand : UInt8) (t : InterfaceType) (cfg : Option IfaceConfig)
    (hf : FitsInterface t cfg) : ∃ c, (Command.empty rand).addForwardAction t cfg = .ok c := by
  cases h : (Command.empty rand).addForwardAction t cfg with
  | ok c => exact ⟨c, rfl⟩
  | error e =>
    obtain ⟨c, hc, -⟩ := (C23_read_file rand 0 0 0 t cfg hf).1 (by decide)
    unfold Command.createWithReadFileAction at hc
    rw [h] at hc
    cases hc

/-- C54: for every system file object whose id is a byte, the read command asks for as many bytes as the
file declares, from the start of that file. -/
theorem C54_read (rand : UInt8) (f : SystemFile) (t : InterfaceType) (cfg : Option IfaceConfig)
    (hf : FitsInterface t cfg) (id n : Int) (hid : f.id = .ok (.int id)) (hn : f.length = .ok n) :
    ((0 ≤ id ∧ id ≤ 255) ∧ (0 ≤ n ∧ n ≤ 0x3FFFFFFF) →
      ∃ c, Command.createWithReadSystemFile rand f t cfg = .ok c ∧
        HasLayout c.iter (tagFields rand.toNat ++ forwardFields t cfg ++
          [(8, 0x01), (8, id.toNat), (2, 0), (6, 0)] ++ Length.fields ⟨n⟩)) ∧
    (¬ ((0 ≤ id ∧ id ≤ 255) ∧ (0 ≤ n ∧ n ≤ 0x3FFFFFFF)) →
      Command.createWithReadSystemFile rand f t cfg = .error .valueError) := by
  have e : Command.createWithReadSystemFile rand f t cfg =
      Command.createWithReadFileAction rand id n 0 t cfg := by
    unfold Command.createWithReadSystemFile Command.createWithReadFileAction
    rw [hid, hn]
    rfl
  have h := C23_read_file rand id n 0 t cfg hf
  rw [e]
  refine ⟨fun hk => ?_, fun hk => h.2 fun hx => hk ⟨hx.1.1, hx.2⟩⟩
  obtain ⟨c, hc, hl⟩ := h.1 ⟨⟨hk.1, by decide⟩, hk.2⟩
  refine ⟨c, hc, ?_⟩
  have : Length.fields ⟨0⟩ = [(2, 0), (6, 0)] := by decide
  rw [this] at hl
  simpa using hl

example : (Command.createWithReadSystemFile 7 (.dllConfig ⟨0x21, 100, 10, 20, 30⟩) .HOST none).toOption.map
    (fun c => bytearray c.iter) = some (.ok [0xB4, 7, 0x01, 0x0A, 0, 7]) := by decide

/-- C54: the write command carries exactly the file's serialisation, at the start of that file. Missing:
a file without content, see `C54_write_empty`. -/
theorem C54_write_partial (rand : UInt8) (f : SystemFile) (t : InterfaceType)
    (cfg : Option IfaceConfig) (hf : FitsInterface t cfg) (id : Int) (hid : f.id = .ok (.int id))
    (bs : List UInt8) (hb : bytearray f.iter = .ok bs) (hne : bs ≠ []) :
    ((0 ≤ id ∧ id ≤ 255) ∧ bs.length ≤ 0x3FFFFFFF →
      ∃ c, Command.createWithWriteSystemFile rand f t cfg = .ok c ∧
        HasLayout c.iter (tagFields rand.toNat ++ forwardFields t cfg ++
          [(8, 0x04), (8, id.toNat), (2, 0), (6, 0)] ++ Length.fields ⟨bs.length⟩ ++
          bs.map fun b => (8, b.toNat))) ∧
    (¬ ((0 ≤ id ∧ id ≤ 255) ∧ bs.length ≤ 0x3FFFFFFF) →
      Command.createWithWriteSystemFile rand f t cfg = .error .valueError) := by
  have e : Command.createWithWriteSystemFile rand f t cfg =
      Command.createWithWriteFileAction rand id (ords bs) 0 t cfg := by
    unfold Command.createWithWriteSystemFile Command.createWithWriteFileAction
    rw [hid, listOf_bytes f.ints hb]
    simp only [bind, Except.bind]
    simp only [Data.newItems_ints]
    rfl
  have h := C23_write_file_partial rand id (ords bs) 0 t cfg hf (by simpa [ords] using hne)
  have hl : (ords bs).length = bs.length := by simp [ords]
  have hB : ∀ x ∈ ords bs, 0 ≤ x ∧ x ≤ 255 := isBytes_ords bs
  rw [e]
  rw [hl] at h
  refine ⟨fun hk => ?_, fun hk => h.2 fun hx => hk ⟨hx.1.1, hx.2.1⟩⟩
  obtain ⟨c, hc, hy⟩ := h.1 ⟨⟨hk.1, by decide⟩, hk.2, hB⟩
  refine ⟨c, hc, ?_⟩
  have h0 : Length.fields ⟨0⟩ = [(2, 0), (6, 0)] := by decide
  have h1 : byteFields (ords bs) = bs.map fun b => (8, b.toNat) := by
    simp [byteFields, ords]
  rw [h0, h1] at hy
  simpa using hy

example : (Command.createWithWriteSystemFile 7 (.dllConfig ⟨0x21, 100, 10, 20, 30⟩) .HOST none).toOption.map
    (fun c => bytearray c.iter) = some (.ok [0xB4, 7, 0x04, 0x0A, 0, 7, 0x21, 0, 0, 100, 10, 20, 30]) := by decide

/-- C54: no command comes out of a file that cannot be serialised. -/
theorem C54_write_error (rand : UInt8) (f : SystemFile) (t : InterfaceType)
    (cfg : Option IfaceConfig) (e : PyErr) (hb : bytearray f.iter = .error e) :
    ∃ e', Command.createWithWriteSystemFile rand f t cfg = .error e' := by
  unfold Command.createWithWriteSystemFile
  cases (Command.empty rand).addForwardAction t cfg with
  | error e => exact ⟨e, rfl⟩
  | ok c =>
    cases f.id with
    | error e => exact ⟨e, rfl⟩
    | ok id =>
      simp only [bind, Except.bind]
      cases Offset.newFor id ⟨0⟩ with
      | error e => exact ⟨e, rfl⟩
      | ok o =>
        rcases listOf_error hb f.ints with ⟨e', h⟩ | ⟨l, h, hl⟩
        · exact ⟨e', by simp only [h]⟩
        · simp only [h, Data.newItems_ints]
          have := (C12_data_accepts l o).2 fun hx => hl hx.2
          exact ⟨.valueError, by simp only [this]⟩

/-- An access profile file made without a profile. -/
example : bytearray (SystemFile.accessProfile ⟨0, none⟩).iter = .error .typeError := by decide

/-- C54 is false for a file without content: only the opcode is sent, so nothing says which file. -/
theorem C54_write_empty (rand : UInt8) (f : SystemFile) (id : Int) (hid : f.id = .ok (.int id))
    (hr : 0 ≤ id ∧ id ≤ 255) (hb : bytearray f.iter = .ok []) :
    ∃ c, Command.createWithWriteSystemFile rand f .HOST none = .ok c ∧
      HasLayout c.iter (tagFields rand.toNat ++ [(8, 0x04)]) := by
  have e : Command.createWithWriteSystemFile rand f .HOST none =
      Command.createWithWriteFileAction rand id (ords []) 0 .HOST none := by
    unfold Command.createWithWriteSystemFile Command.createWithWriteFileAction
    rw [hid, listOf_bytes f.ints hb]
    simp only [bind, Except.bind]
    simp only [Data.newItems_ints]
    rfl
  rw [e]
  exact C23_write_file_empty rand id 0 ⟨hr, by decide⟩

example : (SystemFile.notImplemented ⟨.int 0x40, 0, []⟩).id = .ok (.int 0x40) ∧
    bytearray (SystemFile.notImplemented ⟨.int 0x40, 0, []⟩).iter = .ok [] := by decide

/-- C54 is false for a file object made with an enum member as its id: neither command can be built. -/
theorem C54_enum_id (rand : UInt8) (f : SystemFile) (t : InterfaceType) (cfg : Option IfaceConfig)
    (hf : FitsInterface t cfg) (v : Int) (hid : f.id = .ok (.enum v)) :
    Command.createWithReadSystemFile rand f t cfg = .error .valueError ∧
    Command.createWithWriteSystemFile rand f t cfg = .error .valueError := by
  obtain ⟨c, hc⟩ := host_ok rand t cfg hf
  unfold Command.createWithReadSystemFile Command.createWithWriteSystemFile
  rw [hc, hid]
  exact ⟨rfl, rfl⟩

example : FitsInterface .D7ASP none ∧ SystemFiles.files 0x04 = .ok (SystemFiles.unimplemented 0x04 9) ∧
    (SystemFiles.unimplemented 0x04 9).id = .ok (.enum 0x04) := ⟨trivial, rfl, rfl⟩

/-- The files whose table entry can be read: those with a class of their own, and the device capacity
file. -/
def Readable (key : Int) : Prop :=
  key ∈ [0x00, 0x01, 0x02, 0x03, 0x05, 0x06, 0x09, 0x0A, 0x0B, 0x0E, 0x18, 0x19] ∨
    (0x20 ≤ key ∧ key ≤ 0x2E)

instance (key : Int) : Decidable (Readable key) := by unfold Readable; infer_instance

/-- C54: which entries of the system file table the read factory accepts. -/
theorem C54_table (rand : UInt8) (key : Int) (f : SystemFile) (h : SystemFiles.files key = .ok f)
    (t : InterfaceType) (cfg : Option IfaceConfig) (hf : FitsInterface t cfg) :
    (Readable key → ∃ c n, f.length = .ok n ∧
      Command.createWithReadSystemFile rand f t cfg = .ok c ∧
      HasLayout c.iter (tagFields rand.toNat ++ forwardFields t cfg ++
          [(8, 0x01), (8, key.toNat), (2, 0), (6, 0)] ++ Length.fields ⟨n⟩)) ∧
    (¬ Readable key → Command.createWithReadSystemFile rand f t cfg = .error .valueError) := by
  have key1 : (Readable key → f.id = .ok (.int key) ∧ (0 ≤ key ∧ key ≤ 255) ∧
      ∃ n, f.length = .ok n ∧ (0 ≤ n ∧ n ≤ 0x3FFFFFFF)) ∧
      (¬ Readable key → ∃ v, f.id = .ok (.enum v)) := by
    have hk : 0 ≤ key ∧ key ≤ 0x2F := by
      by_contra hc
      revert h
      unfold SystemFiles.files
      repeat rw [if_neg (by omega)]
      intro h
      cases h
    obtain ⟨h0, h1⟩ := hk
    interval_cases key
    all_goals first
      | cases h
        first
          | exact ⟨fun _ => ⟨rfl, by decide, _, rfl, by decide⟩, fun hn => absurd (by decide) hn⟩
          | exact ⟨fun hn => absurd hn (by decide), fun _ => ⟨_, rfl⟩⟩
      | cases h
  refine ⟨fun hr => ?_, fun hr => ?_⟩
  · obtain ⟨h1, h2, n, h3, h4⟩ := key1.1 hr
    obtain ⟨c, hc, hl⟩ := (C54_read rand f t cfg hf key n h1 h3).1 ⟨h2, h4⟩
    exact ⟨c, n, h3, hc, hl⟩
  · obtain ⟨v, hv⟩ := key1.2 hr
    exact (C54_enum_id rand f t cfg hf v hv).1

example : SystemFiles.files 0x04 = .ok (SystemFiles.unimplemented 0x04 9) ∧ ¬ Readable 0x04 ∧
    SystemFiles.files 0x03 = .ok (.notImplemented (.new (.int 0x03) 19 none)) ∧ Readable 0x03 := by decide

end Verif
