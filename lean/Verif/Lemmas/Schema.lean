import Verif.Spec.Schema

/-! What each rule set of `Types` accepts. -/

namespace Verif.Schema

theorem int_check (bi : Bool) (lo hi : Int) (v : PyVal) :
    (Types.INTEGER lo hi).check bi v = true ↔ IntIn bi lo hi v := by
  cases v <;> simp [Types.INTEGER, Rule.check, Rule0.check, Rule0.others, absentOr, hasType,
    PyVal.num?, PyVal.len?, IntIn]
  case bool b => cases b <;> simp [and_assoc]

theorem byte_check (bi : Bool) (v : PyVal) : Types.BYTE.check bi v = true ↔ IntIn bi 0 255 v :=
  int_check bi 0 255 v

theorem bits_check (bi : Bool) (n : Nat) (v : PyVal) :
    (Types.BITS n).check bi v = true ↔ IntIn bi 0 (Types.bitsMax n) v :=
  int_check bi 0 _ v

theorem raw_check (bi : Bool) (lo hi : Int) (v : PyVal) :
    ({ type := some .integer, min := some lo, max := some hi } : Rule).check bi v = true ↔
      IntIn bi lo hi v :=
  int_check bi lo hi v

theorem bool_check (bi : Bool) (v : PyVal) : Types.BOOLEAN.check bi v = true ↔ IsBool v := by
  cases v <;> simp [Types.BOOLEAN, Rule.check, Rule0.check, Rule0.others, absentOr, hasType, IsBool]

theorem string_check (bi : Bool) (n : Nat) (v : PyVal) :
    (Types.STRING n).check bi v = true ↔ StrMax n v := by
  cases v <;> simp [Types.STRING, Rule.check, Rule0.check, Rule0.others, absentOr, hasType,
    PyVal.len?, StrMax]

theorem enum_check (bi : Bool) (c : EnumCls) (v : PyVal) :
    (Types.ENUM c).check bi v = true ↔ Member c v := by
  cases v <;> simp [Types.ENUM, Rule.check, Rule0.check, Rule0.others, absentOr, isinstance, Member]

theorem object_enum_check (bi : Bool) (c : EnumCls) (v : PyVal) :
    (Types.OBJECT (some (.enum c))).check bi v = true ↔ Member c v := by
  cases v <;> simp [Types.OBJECT, Rule.check, Rule0.check, Rule0.others, absentOr, isinstance, Member]

theorem members_check (bi : Bool) (c : EnumCls) (l : List Int) (v : PyVal) :
    (Types.ENUM c (some l)).check bi v = true ↔ ∃ x ∈ l, v = .enum c x := by
  cases v <;> simp [Types.ENUM, Rule.check, Rule0.check, Rule0.others, absentOr, isinstance, pyEq]

theorem obj_check (bi : Bool) (c : Cls) (v : PyVal) :
    (OBJ c).check bi v = true ↔ ∃ d, v = .obj d ∧ d.sub c = true := by
  cases v <;> simp [OBJ, Types.OBJECT, Rule.check, Rule0.check, Rule0.others, absentOr, isinstance]

theorem obj_null_check (bi : Bool) (c : Cls) (v : PyVal) :
    (OBJ c true).check bi v = true ↔ v = .none ∨ ∃ d, v = .obj d ∧ d.sub c = true := by
  cases v <;> simp [OBJ, Types.OBJECT, Rule.check, Rule0.check, Rule0.others, absentOr, isinstance]

theorem any_check (bi : Bool) (v : PyVal) : (Types.OBJECT none true).check bi v = true := by
  cases v <;> simp [Types.OBJECT, Rule.check, Rule0.check, Rule0.others, absentOr]

/-- Classes without subclasses. -/
theorem sub_leaf (c : Cls) (h : c ≠ .Validatable) (h1 : c ≠ .Operation) (h2 : c ≠ .Action) (d : Cls) :
    d.sub c = true ↔ d = c := by
  have hb : d.base = none ∨ d.base = some .Operation ∨ d.base = some .Action ∨
      d.base = some .Validatable := by cases d <;> simp [Cls.base]
  have o : Cls.base .Operation = some .Validatable := rfl
  have a : Cls.base .Action = some .Validatable := rfl
  have v : Cls.base .Validatable = none := rfl
  rcases hb with hb | hb | hb | hb <;> simp [Cls.sub, hb, o, a, v, h.symm, h1.symm, h2.symm]

theorem leaf_check (bi : Bool) (c : Cls) (v : PyVal) (h : c ≠ .Validatable) (h1 : c ≠ .Operation)
    (h2 : c ≠ .Action) : (OBJ c).check bi v = true ↔ Is c v := by
  rw [obj_check]
  simp only [sub_leaf c h h1 h2, Is]
  exact ⟨fun ⟨_, e, e2⟩ => e2 ▸ e, fun e => ⟨c, e, rfl⟩⟩

theorem leaf_null_check (bi : Bool) (c : Cls) (v : PyVal) (h : c ≠ .Validatable) (h1 : c ≠ .Operation)
    (h2 : c ≠ .Action) : (OBJ c true).check bi v = true ↔ OrNone (Is c) v := by
  rw [obj_null_check]
  simp only [sub_leaf c h h1 h2, Is, OrNone]
  exact or_congr Iff.rfl ⟨fun ⟨_, e, e2⟩ => e2 ▸ e, fun e => ⟨c, e, rfl⟩⟩

theorem sub_operation (d : Cls) : d.sub .Operation = true ↔
    d ∈ [Cls.Operation, .NoOperation, .ReadFileData, .ReadFileHeader, .WriteFileData,
    .WriteFileHeader, .BreakQuery, .CreateNewFile, .ReturnFileData, .ReturnFileHeader,
    .InterfaceStatus, .TagResponse, .Forward, .IndirectForward, .TagRequest] := by
  cases d <;> decide

theorem sub_action (d : Cls) : d.sub .Action = true ↔
    d ∈ [Cls.Action, .RegularAction, .ForwardAction, .IndirectForwardAction, .StatusAction,
    .TagRequestAction, .TagResponseAction] := by
  cases d <;> decide

theorem sub_validatable (d : Cls) : d.sub .Validatable = true := by
  cases d <;> decide

theorem operation_check (bi : Bool) (v : PyVal) :
    (OBJ .Operation).check bi v = true ↔ IsOperation v := by
  rw [obj_check]
  simp only [sub_operation, IsOperation]
  exact ⟨fun ⟨d, e, h⟩ => ⟨d, h, e⟩, fun ⟨d, h, e⟩ => ⟨d, e, h⟩⟩

theorem validatable_check (bi : Bool) (v : PyVal) :
    (OBJ .Validatable true).check bi v = true ↔ OrNone (fun v => ∃ c, v = .obj c) v := by
  rw [obj_null_check]
  simp [sub_validatable, OrNone]

theorem bytes_check (bi : Bool) (v : PyVal) :
    Types.BYTES.check bi v = true ↔ ListOf 0 none (IntIn bi 0 255) v := by
  have hitem : ∀ x : PyVal, ({ type := some .integer, min := some 0, max := some 0xFF } : Rule0).check
      bi x = true ↔ IntIn bi 0 255 x := by
    intro x
    cases x <;> simp [Rule0.check, Rule0.others, absentOr, hasType, PyVal.num?, PyVal.len?, IntIn]
    case bool b => cases b <;> simp [and_assoc]
  cases v <;> simp [Types.BYTES, Rule.check, ListOf, absentOr, hitem]
  all_goals simp [Rule0.check, Rule0.others, absentOr, hasType]

theorem list_check (bi : Bool) (c : Cls) (lo hi : Nat) (v : PyVal) :
    (Types.LIST (some c) lo hi).check bi v = true ↔
      ListOf lo (if hi = 0 then none else some hi) (fun x => ∃ d, x = .obj d ∧ d.sub c = true) v := by
  have hitem : ∀ x : PyVal, ({ isinstance := some (.cls c) } : Rule0).check bi x = true ↔
      ∃ d, x = .obj d ∧ d.sub c = true := by
    intro x
    cases x <;> simp [Rule0.check, Rule0.others, absentOr, isinstance]
  by_cases h0 : hi = 0 <;>
    cases v <;> simp [Types.LIST, Rule.check, ListOf, absentOr, hitem, h0] <;>
    simp [Rule0.check, Rule0.others, absentOr, hasType, PyVal.len?, and_assoc]

theorem list_leaf_check (bi : Bool) (c : Cls) (lo hi : Nat) (v : PyVal) (h : c ≠ .Validatable)
    (h1 : c ≠ .Operation) (h2 : c ≠ .Action) : (Types.LIST (some c) lo hi).check bi v = true ↔
      ListOf lo (if hi = 0 then none else some hi) (Is c) v := by
  rw [list_check]
  have : (fun x => ∃ d, x = PyVal.obj d ∧ d.sub c = true) = Is c := by
    funext x
    simp only [sub_leaf c h h1 h2, Is]
    exact propext ⟨fun ⟨_, e, e2⟩ => e2 ▸ e, fun e => ⟨c, e, rfl⟩⟩
  rw [this]

theorem list_action_check (bi : Bool) (lo hi : Nat) (v : PyVal) :
    (Types.LIST (some .Action) lo hi).check bi v = true ↔
      ListOf lo (if hi = 0 then none else some hi) IsAction v := by
  rw [list_check]
  have : (fun x => ∃ d, x = PyVal.obj d ∧ d.sub .Action = true) = IsAction := by
    funext x
    simp only [sub_action, IsAction]
    exact propext ⟨fun ⟨d, e, h⟩ => ⟨d, h, e⟩, fun ⟨d, h, e⟩ => ⟨d, e, h⟩⟩
  rw [this]

theorem list_any_check (bi : Bool) (lo hi : Nat) (v : PyVal) :
    (Types.LIST none lo hi).check bi v = true ↔
      ListOf lo (if hi = 0 then none else some hi) Anything v := by
  by_cases h0 : hi = 0 <;>
    cases v <;> simp [Types.LIST, Rule.check, ListOf, absentOr, h0, Anything] <;>
    simp [Rule0.check, Rule0.others, absentOr, hasType, PyVal.len?]

theorem none_check (bi : Bool) (v : PyVal) :
    (Types.INTEGERof [.none]).check bi v = true ↔ v = .none := by
  cases v <;> simp [Types.INTEGERof, Rule.check, Rule0.check, Rule0.others, absentOr, hasType, pyEq,
    PyVal.num?, PyVal.len?]

theorem values_check (bi : Bool) (v : PyVal) :
    (Types.INTEGERof [.int 0, .int 1]).check bi v = true ↔ IntIn bi 0 1 v := by
  cases v <;> simp [Types.INTEGERof, Rule.check, Rule0.check, Rule0.others, absentOr, hasType, pyEq,
    PyVal.num?, PyVal.len?, IntIn]
  case bool b => cases b <;> simp
  case int i => omega

/-! Validation with one alternative. -/

theorem validate_one (bi : Bool) (alt : List (String × Rule)) (attrs : Attrs) :
    Schema.validate bi [alt] attrs = .ok () ↔ altOk bi alt attrs = true := by
  by_cases h : altOk bi alt attrs = true <;> simp [Schema.validate, h]

theorem validate_error (bi : Bool) (sch : Sch) (attrs : Attrs) :
    Schema.validate bi sch attrs = .ok () ∨ Schema.validate bi sch attrs = .error .valueError := by
  unfold Schema.validate; split <;> simp

/-- From the acceptance condition to the outcome of the constructor. -/
theorem new_eq {α : Type} {bi : Bool} {sch : Sch} {attrs : Attrs} {P : Prop} [Decidable P] (a : α)
    (h : Schema.validate bi sch attrs = .ok () ↔ P) :
    Verif.validate P a = (Schema.validate bi sch attrs).map fun _ => a := by
  unfold Verif.validate
  rcases validate_error bi sch attrs with h' | h'
  · rw [if_pos (h.1 h'), h']; rfl
  · rw [if_neg (fun hp => by rw [h.2 hp] at h'; cases h'), h']; rfl

/-! Typed values. -/

@[simp] theorem intIn_int (bi : Bool) (lo hi i : Int) : IntIn bi lo hi (.int i) ↔ lo ≤ i ∧ i ≤ hi := by
  simp [IntIn]

@[simp] theorem isBool_bool (b : Bool) : IsBool (.bool b) := by cases b <;> simp [IsBool]

@[simp] theorem member_enum (c : EnumCls) (x : Int) : Member c (.enum c x) := ⟨x, rfl⟩

@[simp] theorem is_obj (c : Cls) : Is c (.obj c) := rfl

@[simp] theorem orNone_opt {α : Type} (c : Cls) (o : Option α) : OrNone (Is c) (opt c o) := by
  cases o <;> simp [OrNone, opt]

@[simp] theorem strMax_str (n k : Nat) : StrMax n (.str k) ↔ k ≤ n := by simp [StrMax]

@[simp] theorem listOf_ints (bi : Bool) (l : List Int) :
    ListOf 0 none (IntIn bi 0 255) (ints l) ↔ ∀ x ∈ l, 0 ≤ x ∧ x ≤ 255 := by
  simp [ListOf, ints]

@[simp] theorem listOf_any (lo : Nat) (hi : Option Nat) (l : List Int) :
    ListOf lo hi Anything (ints l) ↔ lo ≤ l.length ∧ ∀ n, hi = some n → l.length ≤ n := by
  simp [ListOf, ints, Anything]

theorem listOf_objs {α : Type} (c : Cls) (lo : Nat) (hi : Option Nat) (l : List α) :
    ListOf lo hi (Is c) (objs c l) ↔ lo ≤ l.length ∧ ∀ n, hi = some n → l.length ≤ n := by
  constructor
  · rintro ⟨l', (h | h), h1, h2, h3⟩
    · simp only [objs, PyVal.list.injEq] at h
      subst h
      simp only [List.length_map] at h1 h2
      exact ⟨h1, h2⟩
    · cases h
  · rintro ⟨h1, h2⟩
    exact ⟨_, .inl rfl, by simpa using h1, by simpa using h2, by simp⟩

end Verif.Schema
