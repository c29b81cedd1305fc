import Verif.Model.Schema

/-! What the rules of a schema mean: predicates on Python values, used by the statements in
Props/Schema.lean. -/

namespace Verif.Schema

/-- An integer of a range; with `bi` a bool counts as the integer 0 or 1. -/
def IntIn (bi : Bool) (lo hi : Int) (v : PyVal) : Prop :=
  ∃ i, (v = .int i ∨ bi = true ∧ ((v = .bool false ∧ i = 0) ∨ (v = .bool true ∧ i = 1))) ∧
    lo ≤ i ∧ i ≤ hi

/-- A bool. -/
def IsBool (v : PyVal) : Prop := v = .bool false ∨ v = .bool true

/-- A member of an enum class. -/
def Member (c : EnumCls) (v : PyVal) : Prop := ∃ x, v = .enum c x

/-- An object of exactly this class. -/
def Is (c : Cls) (v : PyVal) : Prop := v = .obj c

/-- None or … -/
def OrNone (p : PyVal → Prop) (v : PyVal) : Prop := v = .none ∨ p v

/-- A string of at most so many characters. -/
def StrMax (n : Nat) (v : PyVal) : Prop := ∃ k, v = .str k ∧ k ≤ n

/-- A list or tuple, with a bound on its length, all of whose items satisfy a predicate. -/
def ListOf (lo : Nat) (hi : Option Nat) (p : PyVal → Prop) (v : PyVal) : Prop :=
  ∃ l : List PyVal, (v = .list l ∨ v = .tuple l) ∧ lo ≤ l.length ∧ (∀ n, hi = some n → l.length ≤ n) ∧
    ∀ x ∈ l, p x

/-- An object of an operation class. -/
def IsOperation (v : PyVal) : Prop :=
  ∃ c ∈ [Cls.Operation, .NoOperation, .ReadFileData, .ReadFileHeader, .WriteFileData,
    .WriteFileHeader, .BreakQuery, .CreateNewFile, .ReturnFileData, .ReturnFileHeader,
    .InterfaceStatus, .TagResponse, .Forward, .IndirectForward, .TagRequest], v = .obj c

/-- An object of an action class. -/
def IsAction (v : PyVal) : Prop :=
  ∃ c ∈ [Cls.Action, .RegularAction, .ForwardAction, .IndirectForwardAction, .StatusAction,
    .TagRequestAction, .TagResponseAction], v = .obj c

/-- Any value but None. -/
def NotNone (v : PyVal) : Prop := v ≠ .none

/-- Any value. -/
def Anything (_ : PyVal) : Prop := True

/-! Typed values of the model as Python values. -/

/-- An optional object. -/
def opt {α : Type} (c : Cls) : Option α → PyVal
  | none => .none
  | some _ => .obj c

/-- A list of ints. -/
def ints (l : List Int) : PyVal := .list (l.map .int)

/-- A list of objects of a class. -/
def objs {α : Type} (c : Cls) (l : List α) : PyVal := .list (l.map fun _ => .obj c)

/-- The class of an operation of the model. -/
def operationCls : Operation → Cls
  | .nop => .NoOperation
  | .readFileData _ => .ReadFileData
  | .readFileHeader _ => .ReadFileHeader
  | .writeFileData _ => .WriteFileData
  | .writeFileHeader _ => .WriteFileHeader
  | .breakQuery _ => .BreakQuery
  | .createNewFile _ => .CreateNewFile
  | .returnFileData _ => .ReturnFileData
  | .returnFileHeader _ => .ReturnFileHeader
  | .interfaceStatus _ => .InterfaceStatus
  | .tagResponse _ => .TagResponse
  | .forward _ => .Forward
  | .indirectForward _ => .IndirectForward
  | .tagRequest _ => .TagRequest

/-- The operand of an operation of the model. -/
def operandVal : Operation → PyVal
  | .nop => .none
  | .readFileData _ => .obj .DataRequest
  | .readFileHeader _ => .obj .FileIdOperand
  | .writeFileData _ => .obj .Data
  | .writeFileHeader _ => .obj .FileHeaderOperand
  | .breakQuery _ => .obj .QueryOperand
  | .createNewFile _ => .obj .FileHeaderOperand
  | .returnFileData _ => .obj .Data
  | .returnFileHeader _ => .obj .FileHeaderOperand
  | .interfaceStatus _ => .obj .InterfaceStatusOperand
  | .tagResponse _ => .obj .TagId
  | .forward _ => .obj .InterfaceConfiguration
  | .indirectForward _ => .obj .IndirectInterfaceOperand
  | .tagRequest _ => .obj .TagId

/-- The class of an action of the model. -/
def actionCls : Action → Cls
  | .regular .. => .RegularAction
  | .forward .. => .ForwardAction
  | .indirectForward .. => .IndirectForwardAction
  | .status .. => .StatusAction
  | .tagRequest .. => .TagRequestAction
  | .tagResponse .. => .TagResponseAction
  | .base .. => .Action

end Verif.Schema
