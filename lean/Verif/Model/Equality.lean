import Verif.Model.Operands

/-! Model of the `__eq__` and `__ne__` methods of the library (five classes define them) and of Python 2's
`==` and `!=` between any two values. -/

namespace Verif.Equality

open Verif

/-- Python values as these methods tell them apart. `other` stands for everything whose class defines no
comparison (all other objects of the library, None, ...), known by identity. Strings, floats and classes of the
user with their own `__eq__` are left out. -/
inductive Val
  | int (v : Int)
  | long (v : Int)
  | bool (b : Bool)
  | length (l : Length)
  | permissions (p : FilePermissions)
  | properties (p : FileProperties)
  | header (h : FileHeader)
  | channel (c : ChannelHeader)
  | other (id : Nat)
  deriving DecidableEq, Repr

/-- The value of a number; bool is a subclass of int. -/
def number : Val → Option Int
  | .int v => some v
  | .long v => some v
  | .bool b => some (if b then 1 else 0)
  | _ => none

/-- d7a/alp/operands/length.py 74-80; `isinstance(x, int)` holds for int and bool, not for long -/
def lengthEq (self : Length) : Val → Bool
  | .length o => self.value == o.value
  | .int v => self.value == v
  | .bool b => self.value == if b then 1 else 0
  | _ => false

/-- d7a/fs/file_permissions.py 81-85: the dictionaries are compared attribute by attribute -/
def permissionsEq (self : FilePermissions) : Val → Bool
  | .permissions o =>
    self.encrypted == o.encrypted && self.executable == o.executable &&
    self.userReadable == o.userReadable && self.userWriteable == o.userWriteable &&
    self.userExecuteable == o.userExecuteable && self.guestReadable == o.guestReadable &&
    self.guestWriteable == o.guestWriteable && self.guestExecuteable == o.guestExecuteable
  | _ => false

/-- d7a/fs/file_properties.py 79-83 -/
def propertiesEq (self : FileProperties) : Val → Bool
  | .properties o => self.actEnabled == o.actEnabled && self.actCondition == o.actCondition &&
    self.storageClass == o.storageClass
  | _ => false

/-- d7a/fs/file_header.py 75-79: comparing the dictionaries uses `==` of the permissions and properties -/
def headerEq (self : FileHeader) : Val → Bool
  | .header o => permissionsEq self.permissions (.permissions o.permissions) &&
    propertiesEq self.properties (.properties o.properties) &&
    self.alpCommandFileId == o.alpCommandFileId && self.interfaceFileId == o.interfaceFileId &&
    self.fileSize == o.fileSize && self.allocatedSize == o.allocatedSize
  | _ => false

/-- d7a/phy/channel_header.py 124-127 -/
def channelEq (self : ChannelHeader) : Val → Bool
  | .channel o => self.channelCoding == o.channelCoding && self.channelClass == o.channelClass &&
    self.channelBand == o.channelBand
  | _ => false

/-- The `__eq__` of an object, if its class has one. -/
def method : Val → Option (Val → Bool)
  | .length l => some (lengthEq l)
  | .permissions p => some (permissionsEq p)
  | .properties p => some (propertiesEq p)
  | .header h => some (headerEq h)
  | .channel c => some (channelEq c)
  | _ => none

/-- d7a/phy/channel_header.py 129-132 -/
def channelNe (self : ChannelHeader) : Val → Bool
  | .channel o => !channelEq self (.channel o)
  | _ => false

/-- The `__ne__` of an object, if its class has one: d7a/alp/operands/length.py 82-83,
d7a/fs/file_permissions.py 87-88, file_properties.py 85-86, file_header.py 81-82. -/
def neMethod : Val → Option (Val → Bool)
  | .length l => some fun o => !lengthEq l o
  | .permissions p => some fun o => !permissionsEq p o
  | .properties p => some fun o => !propertiesEq p o
  | .header h => some fun o => !headerEq h o
  | .channel c => some (channelNe c)
  | _ => none

/-- Comparison without methods: numbers by value, other objects by identity. -/
def plain (a b : Val) : Bool :=
  match number a, number b with
  | some x, some y => x == y
  | _, _ => match a, b with
    | .other i, .other j => i == j
    | _, _ => false

/-- Python 2's `a == b`: the method of the left operand, else the one of the right operand, else the plain
comparison. (No class here is a subclass of another.) -/
def eq (a b : Val) : Bool :=
  match method a with
  | some m => m b
  | none => match method b with
    | some m => m a
    | none => plain a b

/-- Python 2's `a != b`. -/
def ne (a b : Val) : Bool :=
  match neMethod a with
  | some m => m b
  | none => match neMethod b with
    | some m => m a
    | none => !plain a b

end Verif.Equality
