import Verif.Spec.RoundTrip
import Verif.Spec.Built
import Verif.Model.AlpParser

/-! Vocabulary for actions: their two flag bits, and which operations survive transmission. -/

namespace Verif

/-- The two most significant bits of the first byte of an action. -/
def Action.flags : Action → Bool × Bool
  | .regular g r _ => (g, r)
  | .forward r _ => (false, r)
  | .indirectForward o r _ => (o, r)
  | .status e _ => (false, e = 1)
  | .tagRequest r _ => (r, false)
  | .tagResponse e x _ => (e, x)
  | .base _ => (false, false)

/-- The operand is an object a user can construct. -/
def Operation.Built : Operation → Prop
  | .nop => True
  | .readFileData o => o.Built
  | .readFileHeader o => o.Built
  | .writeFileData o => o.Built
  | .writeFileHeader o => o.Built
  | .breakQuery o => o.Built
  | .createNewFile o => o.Built
  | .returnFileData o => o.Built
  | .returnFileHeader o => o.Built
  | .interfaceStatus o => o.Built
  | .tagResponse o => o.Built
  | .forward o => ∀ c, o.config = some (.d7asp c) → c.Built
  | .indirectForward o => o.Built
  | .tagRequest o => o.Built

/-- Addressees that survive serialisation (see C09). -/
def Addressee.Survives (a : Addressee) : Prop := ∀ c, a.id = .ct c → c.exp = 0 ∨ c = ⟨1, 11⟩

/-- The configuration is of the class of the interface (none for the serial interface), with
numbers in range and an addressee that survives. -/
def InterfaceConfiguration.Survives (o : InterfaceConfiguration) : Prop :=
  match o.interfaceId, o.config with
  | .SERIAL, none => True
  | .D7ASP, some (.d7asp c) => c.addressee.Survives
  | .LORAWAN_ABP, some (.abp c) =>
    (0 ≤ c.appPort ∧ c.appPort ≤ 255) ∧ (0 ≤ c.dataRate ∧ c.dataRate ≤ 255) ∧
    (0 ≤ c.devAddr ∧ c.devAddr < 2 ^ 32) ∧ (0 ≤ c.netwId ∧ c.netwId < 2 ^ 32)
  | .LORAWAN_OTAA, some (.otaa c) =>
    (0 ≤ c.appPort ∧ c.appPort ≤ 255) ∧ (0 ≤ c.dataRate ∧ c.dataRate ≤ 255)
  | _, _ => False

/-- The operations that, sent with flag bits `b7 b6`, are received as the same operation. -/
def Operation.Survives (b7 b6 : Bool) : Operation → Prop
  | .readFileData _ => True
  | .writeFileData o => o.data ≠ []
  | .breakQuery q => q.type = .ARITH_COMP_WITH_VALUE ∧ q.maskPresent = false ∧
      q.compareLength.value = q.compareValue.length
  | .createNewFile _ => True
  | .returnFileData o => o.data ≠ []
  | .returnFileHeader _ => True
  | .tagResponse _ => True
  | .tagRequest _ => b6 = false
  | .forward o => b7 = false ∧ o.Survives
  | .indirectForward o => o.overload.isSome = b7 ∧ ∀ a, o.overload = some a → a.Survives
  | .nop | .readFileHeader _ | .writeFileHeader _ | .interfaceStatus _ => False

/-- The action object the parser makes of an operation received with flag bits `b7 b6`. -/
def Operation.received (b7 b6 : Bool) : Operation → Action
  | .tagRequest t => .tagRequest b7 (.tagRequest t)
  | .tagResponse t => .tagResponse b7 b6 (.tagResponse t)
  | .forward c => .forward b6 (.forward c)
  | .indirectForward o => .indirectForward b7 b6 (.indirectForward o)
  | o => .regular b7 b6 o

end Verif

namespace Verif

/-- The action is an object a user can construct: see the constructors `Action.newForward`,
`newIndirectForward`, `newStatus`. -/
def Action.Built (a : Action) : Prop :=
  a.operation.Built ∧
  match a with
  | .forward _ o => ∃ c, o = .forward c
  | .indirectForward _ _ o => ∃ c, o = .indirectForward c
  | .status e _ => e = 0 ∨ e = 1
  | _ => True

/-- The action class can be serialised at all (`ForwardAction.__iter__` raises AttributeError, the
base class is not iterable). -/
def Action.Iterable : Action → Prop
  | .forward _ _ => False
  | .base _ => False
  | _ => True

/-- The action is received with the same operation, operand and flag bits (the class of the action
object may differ, e.g. RegularAction(Forward) is received as ForwardAction). -/
def Action.ComesBack (a : Action) : Prop :=
  ∃ b n, RoundTrips a.iter AlpParser.parseAlpAction (some b) n ∧
    b.operation = a.operation ∧ b.flags = a.flags

end Verif
