import Verif.Spec.Examples
import Verif.Lemmas.SystemCommands
import Verif.Lemmas.Tables4

/-! Lemmas about the example programs: which generators yield integers only, and the action that stores an
object. -/

namespace Verif

theorem Gen.exc_append {g h : Gen} (e : (g ++ h).exc = none) : g.exc = none ∧ h.exc = none := by
  change (Gen.append g h).exc = none at e
  unfold Gen.append at e
  split at e
  · cases e
  · rename_i hx; exact ⟨hx, e⟩

theorem Gen.items_append {g h : Gen} (e : g.exc = none) : (g ++ h).items = g.items ++ h.items := by
  change (Gen.append g h).items = _
  unfold Gen.append
  rw [e]

theorem Ints.append_iff {g h : Gen} (e : (g ++ h).exc = none) : Ints (g ++ h) ↔ Ints g ∧ Ints h := by
  refine ⟨fun hi => ⟨fun i hm => hi i ?_, fun i hm => hi i ?_⟩, fun hi => hi.1.append hi.2⟩
  all_goals rw [Gen.items_append (Gen.exc_append e).1]; simp [hm]

theorem Ints.concat_iff {l : List Gen} (e : (Gen.concat l).exc = none) :
    Ints (.concat l) ↔ ∀ g ∈ l, Ints g := by
  induction l with
  | nil => simp [Gen.concat, Ints.nil]
  | cons g l ih =>
    rw [Gen.concat, Ints.append_iff e, ih (Gen.exc_append e).2]
    simp

theorem Gen.exc_concat {l : List Gen} (e : (Gen.concat l).exc = none) : ∀ g ∈ l, g.exc = none := by
  induction l with
  | nil => simp
  | cons g l ih =>
    have := Gen.exc_append e
    intro x hx
    rcases List.mem_cons.1 hx with rfl | hx
    · exact this.1
    · exact ih this.2 x hx

theorem Ints.chr_not {i : Int} (e : (Gen.chr i).exc = none) : ¬ Ints (.chr i) := by
  intro h
  unfold Gen.chr at e h
  split at e
  · next hc =>
    rw [if_pos hc] at h
    obtain ⟨n, hn⟩ := h _ (List.mem_singleton.2 rfl)
    cases hn
  · cases e

theorem bytearray_exc {g : Gen} {bs : List UInt8} (h : bytearray g = .ok bs) : g.exc = none := by
  unfold bytearray at h
  split at h
  · cases h
  · split at h
    · cases h
    · assumption

theorem Length.ints (l : Length) : Ints l.iter := by
  unfold Length.iter
  split
  · ints
  · split
    · ints
    · simp only
      split <;> ints

theorem Offset.ints (o : Offset) : Ints o.iter := (Ints.int _).append o.offset.ints

theorem FilePermissions.ints (p : FilePermissions) : Ints p.iter := by unfold FilePermissions.iter; ints
theorem FileProperties.ints (p : FileProperties) : Ints p.iter := by unfold FileProperties.iter; ints
theorem FileHeader.ints (h : FileHeader) : Ints h.iter := by
  have := h.permissions.ints
  have := h.properties.ints
  unfold FileHeader.iter; ints

theorem QueryOperand.ints (q : QueryOperand) : Ints q.iter := by
  have := q.compareLength.ints
  have := q.fileAOffset.ints
  have : Ints (.concat (q.compareValue.map Gen.int)) := Ints.concatMap fun _ _ => Ints.int _
  unfold QueryOperand.iter
  split <;> ints

theorem Data.ints_iff (d : Data) (e : d.iter.exc = none) : Ints d.iter ↔ d.data = [] := by
  unfold Data.iter at e ⊢
  rw [Ints.append_iff e, Ints.concat_iff (Gen.exc_append e).2]
  have he := Gen.exc_concat (Gen.exc_append e).2
  constructor
  · rintro ⟨-, h⟩
    rcases hd : d.data with _ | ⟨x, l⟩
    · rfl
    · rw [hd] at h he
      exact absurd (h (.chr x) (by simp)) (Ints.chr_not (he _ (by simp)))
  · intro h
    rw [h]
    exact ⟨d.offset.ints.append d.length.ints, by simp⟩

namespace Examples

theorem operation_ints (o : Operation) (e : o.iter.exc = none) : Ints o.iter ↔ ¬ Text o := by
  have yes : ∀ {g : Gen} {p : Prop}, Ints g → ¬ p → (Ints g ↔ ¬ p) := fun h1 h2 => by simp [h1, h2]
  cases o with
  | nop => exact yes Ints.nil id
  | readFileData o => exact yes (o.offset.ints.append o.length.ints) id
  | readFileHeader o => exact yes (Ints.int _) id
  | writeFileData o =>
    simp only [Operation.iter, Text] at e ⊢
    split at e
    · next h => simp [h, Ints.nil]
    · next h => rw [if_neg h, Data.ints_iff o e]; simp [h]
  | writeFileHeader o => exact yes ((Ints.int _).append o.fileHeader.ints) id
  | breakQuery o => exact yes o.ints id
  | createNewFile o => exact yes ((Ints.int _).append o.fileHeader.ints) id
  | returnFileData o =>
    simp only [Operation.iter, Text] at e ⊢
    split at e
    · next h => simp [h, Ints.nil]
    · next h => rw [if_neg h, Data.ints_iff o e]; simp [h]
  | returnFileHeader o => exact yes ((Ints.int _).append o.fileHeader.ints) id
  | interfaceStatus o =>
    simp only [Operation.iter, Text, not_true_eq_false, iff_false] at e ⊢
    unfold InterfaceStatusOperand.iter at e ⊢
    rw [Ints.append_iff e]
    replace e := (Gen.exc_append e).2
    rintro ⟨-, h⟩
    split at e
    · next s hs =>
      rw [hs] at h
      unfold Status.iter at e h
      simp only at e h
      have e1 := (Gen.exc_append e).1
      have e2 := (Gen.exc_append e1).1
      rw [Ints.append_iff e, Ints.append_iff e1, Ints.append_iff e2] at h
      exact Ints.chr_not (Gen.exc_append e2).2 h.1.1.2
    · cases e
  | tagResponse o => exact yes (Ints.int _) id
  | forward o =>
    refine yes ?_ id
    simp only [Operation.iter]
    unfold InterfaceConfiguration.iter
    refine (Ints.int _).append ?_
    split
    · exact IfaceConfig.ints _
    · exact Ints.nil
  | indirectForward o =>
    refine yes ?_ id
    simp only [Operation.iter]
    unfold IndirectInterfaceOperand.iter
    refine (Ints.int _).append ?_
    split
    · exact Addressee.ints _
    · exact Ints.nil
  | tagRequest o => exact yes (Ints.int _) id

theorem action_ints (a : Action) (e : a.iter.exc = none) : Ints a.iter ↔ ¬ Text a.operation := by
  cases a with
  | forward | base => cases e
  | _ =>
    simp only [Action.iter, Action.operation] at e ⊢
    rw [Ints.append_iff e, operation_ints _ (Gen.exc_append e).2]
    simp [Ints.int]

theorem command_ints (c : Command) (e : c.iter.exc = none) : Ints c.iter ↔ ¬ CarriesText c := by
  unfold Command.iter at e ⊢
  have e1 := (Gen.exc_append e).1
  have e2 := Gen.exc_concat (Gen.exc_append e).2
  rw [Ints.append_iff e, Ints.append_iff e1, Ints.concat_iff (Gen.exc_append e).2]
  have ht : Ints (if c.generateTagRequestAction then c.tagRequestGen else .nil) := by
    split
    · unfold Command.tagRequestGen
      split
      · exact Ints.raise _
      · split
        · exact Ints.raise _
        · simp only [Action.iter, Operation.iter, TagId.iter]
          ints
    · exact Ints.nil
  have hs : Ints (match c.interfaceStatus with
      | some a => a.iter
      | none => .nil) ↔ ∀ a, c.interfaceStatus = some a → ¬ Text a.operation := by
    have := (Gen.exc_append e1).2
    cases hi : c.interfaceStatus with
    | none => simp [Ints.nil]
    | some a =>
      rw [hi] at this
      rw [action_ints a this]
      simp
  have ha : (∀ g ∈ c.actions.map Action.iter, Ints g) ↔ ∀ a ∈ c.actions, ¬ Text a.operation := by
    simp only [List.mem_map, forall_exists_index, and_imp, forall_apply_eq_imp_iff₂] at e2 ⊢
    exact forall₂_congr fun a ha => action_ints a (e2 a ha)
  refine (and_congr (and_congr Iff.rfl hs) ha).trans ?_
  unfold CarriesText
  constructor
  · rintro ⟨⟨-, h1⟩, h2⟩ ⟨a, h | h, h3⟩
    · exact h1 a h h3
    · exact h2 a h h3
  · intro h
    exact ⟨⟨ht, fun a h1 h2 => h ⟨a, .inl h1, h2⟩⟩, fun a h1 h2 => h ⟨a, .inr h1, h2⟩⟩

/-- The action that stores an object made of integers. -/
theorem writeObject_ints {g : Gen} (hg : Ints g) {bs : List UInt8} (h : bytearray g = .ok bs) (hne : bs ≠ [])
    (id : Int) :
    ((0 ≤ id ∧ id ≤ 255) ∧ bs.length ≤ 0x3FFFFFFF →
      ∃ a, writeObject (.int id) g = .ok a ∧ HasLayout a.iter (writeFields id bs)) ∧
    (¬ ((0 ≤ id ∧ id ≤ 255) ∧ bs.length ≤ 0x3FFFFFFF) → writeObject (.int id) g = .error .valueError) := by
  unfold writeObject
  rw [listOf_bytes hg h]
  by_cases hi : 0 ≤ id ∧ id ≤ 255
  · have ho : Offset.newFor (.int id) ⟨0⟩ = .ok ⟨id, ⟨0⟩⟩ := validate_of hi
    rw [ho]
    simp only [bind, Except.bind]
    rw [Data.newItems_ints]
    have hl : (ords bs).length = bs.length := by simp [ords]
    refine ⟨fun hk => ?_, fun hk => ?_⟩
    · obtain ⟨hd, hlay⟩ := Data.new_layout (fileId := id) (offset := 0) (data := ords bs) ⟨hi, by simp [Length.Ok]⟩
        ⟨by rw [hl]; exact hk.2, isBytes_ords bs⟩
      rw [hd]
      refine ⟨_, rfl, ?_⟩
      have hn : ¬ ((ords bs).length : Int) = 0 := by
        rw [hl]
        have := List.length_pos_iff.2 hne
        omega
      have hx := opcode_layout (op := 4) (by decide) hlay
      have h0 : Length.fields ⟨0⟩ = [(2, 0), (6, 0)] := by decide
      have h1 : byteFields (ords bs) = bs.map fun b => (8, b.toNat) := by simp [byteFields, ords]
      rw [h0, h1, hl] at hx
      have hi : (Operation.writeFileData ⟨⟨id, ⟨0⟩⟩, ⟨(ords bs).length⟩, ords bs⟩).iter =
          Data.iter ⟨⟨id, ⟨0⟩⟩, ⟨bs.length⟩, ords bs⟩ := by
        simp only [Operation.iter]
        rw [if_neg hn, hl]
      simp only [Action.iter, hi, Operation.op, writeFields]
      simpa using hx
    · rw [(C12_data_accepts (ords bs) ⟨id, ⟨0⟩⟩).2 fun hx => hk ⟨hi, by rw [hl] at hx; exact hx.1⟩]
  · have ho : Offset.newFor (.int id) ⟨0⟩ = .error .valueError := validate_eq_error.2 ⟨hi, rfl⟩
    rw [ho]
    exact ⟨fun hk => absurd hk.1 hi, fun _ => rfl⟩

/-- An object with a character in it cannot be stored. -/
theorem writeObject_text {g : Gen} (hg : ¬ Ints g) (e : g.exc = none) (id : FileIdArg) :
    writeObject id g = .error .valueError := by
  unfold writeObject
  cases ho : Offset.newFor id ⟨0⟩ with
  | error e =>
    unfold Offset.newFor at ho
    split at ho
    · have := (validate_eq_error.1 ho).2
      subst this; rfl
    · cases ho; rfl
  | ok o =>
    simp only [bind, Except.bind, listOf, e]
    unfold Data.newItems
    cases hl : Length.new g.items.length with
    | error e =>
      have := (validate_eq_error.1 hl).2
      subst this; rfl
    | ok l =>
      simp only [bind, Except.bind]
      rw [validate_eq_error.2 ⟨?_, rfl⟩]
      rintro ⟨h, -⟩
      apply hg
      intro i hi
      by_contra hc
      have : Item.int? i = none := by
        cases i with
        | int n => exact absurd ⟨n, rfl⟩ hc
        | chr | obj => rfl
      have hlt : (g.items.filterMap Item.int?).length < g.items.length := by
        clear h e hg
        revert hi
        induction g.items with
        | nil => simp
        | cons x xs ih =>
          intro hi
          have hle := List.length_filterMap_le Item.int? xs
          rcases List.mem_cons.1 hi with rfl | hi
          · rw [List.filterMap_cons_none this]; simp; omega
          · have := ih hi
            cases hx : Item.int? x with
            | none => rw [List.filterMap_cons_none hx]; simp; omega
            | some y => rw [List.filterMap_cons_some hx]; simp only [List.length_cons]; omega
      omega

/-- The same for an object with a known table of up to 63 bytes. -/
theorem writeObject_layout {g : Gen} (hg : Ints g) {fs : List (Nat × Nat)} (h : HasLayout g fs) {n : Nat}
    (hn : (fieldBits fs).length = 8 * n) (h0 : 0 < n) (h63 : n ≤ 63) {id : Int} (hid : 0 ≤ id ∧ id ≤ 255) :
    ∃ a, writeObject (.int id) g = .ok a ∧
      HasLayout a.iter ([(8, 0x04), (8, id.toNat), (8, 0), (8, n)] ++ fs) := by
  obtain ⟨bs, e, l, w⟩ := h
  have hlen : bs.length = n := by
    have := congrArg List.length l
    rw [bytesToBits_length, hn] at this
    omega
  have hne : bs ≠ [] := by rintro rfl; simp at hlen; omega
  obtain ⟨a, ha, b, eb, lb, wb⟩ := (writeObject_ints hg e hne id).1 ⟨hid, by omega⟩
  refine ⟨a, ha, b, eb, ?_, ?_⟩
  · rw [lb]
    have hb : ∀ l : List UInt8, fieldBits (l.map fun b => (8, b.toNat)) = bytesToBits l := by
      intro l
      induction l with
      | nil => rfl
      | cons x l ih => rw [List.map_cons, fieldBits_cons, ih, bytesToBits_cons]
    have h8 : fieldBits [(2, 0), (6, n)] = fieldBits [(8, n)] := by
      have : ∀ k ≤ 63, fieldBits [(2, 0), (6, k)] = fieldBits [(8, k)] := by decide
      exact this n h63
    have hf : Length.fields ⟨bs.length⟩ = [(2, 0), (6, n)] := by
      rw [hlen]
      unfold Length.fields
      rw [if_pos (by simp only; omega)]
      simp
    unfold writeFields
    rw [hf, fieldBits_append, fieldBits_append, hb, l, h8]
    rw [fieldBits_append]
    rfl
  · intro x hx
    rcases List.mem_append.1 hx with hx | hx
    · simp only [List.mem_cons, List.not_mem_nil, or_false] at hx
      rcases hx with rfl | rfl | rfl | rfl
      · decide
      · simp only; omega
      · decide
      · simp only; omega
    · exact w x hx

end Examples
end Verif
