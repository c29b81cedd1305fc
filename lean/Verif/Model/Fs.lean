import Verif.Model.CT

/-! Model of d7a/fs/file_permissions.py, file_properties.py, file_header.py -/

namespace Verif

/-- d7a/fs/file_permissions.py 27-50. All arguments are booleans; every combination is accepted. -/
structure FilePermissions where
  encrypted : Bool
  executable : Bool
  userReadable : Bool
  userWriteable : Bool
  userExecuteable : Bool
  guestReadable : Bool
  guestWriteable : Bool
  guestExecuteable : Bool
  deriving DecidableEq, Repr

namespace FilePermissions

/-- d7a/fs/file_permissions.py 52-64 -/
def parse : P FilePermissions := do
  let encrypted ← P.bool
  let executeable ← P.bool
  let userReadable ← P.bool
  let userWriteable ← P.bool
  let userExecutable ← P.bool
  let guestReadable ← P.bool
  let guestWriteable ← P.bool
  let guestExecutable ← P.bool
  return ⟨encrypted, executeable, userReadable, userWriteable, userExecutable, guestReadable,
    guestWriteable, guestExecutable⟩

/-- d7a/fs/file_permissions.py 66-76 -/
def iter (p : FilePermissions) : Gen :=
  let byte : Int := 0
  let byte := if p.encrypted then byte + 1 <<ₚ 7 else byte
  let byte := if p.executable then byte + 1 <<ₚ 6 else byte
  let byte := if p.userReadable then byte + 1 <<ₚ 5 else byte
  let byte := if p.userWriteable then byte + 1 <<ₚ 4 else byte
  let byte := if p.userExecuteable then byte + 1 <<ₚ 3 else byte
  let byte := if p.guestReadable then byte + 1 <<ₚ 2 else byte
  let byte := if p.guestWriteable then byte + 1 <<ₚ 1 else byte
  let byte := if p.guestExecuteable then byte + 1 else byte
  .int byte

end FilePermissions

/-- d7a/fs/file_properties.py 29-33 -/
inductive ActionCondition | LIST | READ | WRITE | WRITE_FLUSH
  deriving DecidableEq, Repr

/-- d7a/fs/file_properties.py 30-33: `.value` -/
def ActionCondition.value : ActionCondition → Int
  | .LIST => 0 | .READ => 1 | .WRITE => 2 | .WRITE_FLUSH => 3

/-- d7a/fs/file_properties.py 60: `ActionCondition(x)` -/
def ActionCondition.ofValue (x : Int) : Except PyErr ActionCondition :=
  if x = 0 then .ok .LIST else if x = 1 then .ok .READ else if x = 2 then .ok .WRITE
  else if x = 3 then .ok .WRITE_FLUSH else .error .valueError

/-- d7a/fs/file_properties.py 36-40 -/
inductive StorageClass | TRANSIENT | VOLATILE | RESTORABLE | PERMANENT
  deriving DecidableEq, Repr

/-- d7a/fs/file_properties.py 37-40: `.value` -/
def StorageClass.value : StorageClass → Int
  | .TRANSIENT => 0 | .VOLATILE => 1 | .RESTORABLE => 2 | .PERMANENT => 3

/-- d7a/fs/file_properties.py 62: `StorageClass(x)` -/
def StorageClass.ofValue (x : Int) : Except PyErr StorageClass :=
  if x = 0 then .ok .TRANSIENT else if x = 1 then .ok .VOLATILE else if x = 2 then .ok .RESTORABLE
  else if x = 3 then .ok .PERMANENT else .error .valueError

/-- d7a/fs/file_properties.py 43-55 (every well-typed triple is accepted) -/
structure FileProperties where
  actEnabled : Bool
  actCondition : ActionCondition
  storageClass : StorageClass
  deriving DecidableEq, Repr

namespace FileProperties

/-- d7a/fs/file_properties.py 57-63 -/
def parse : P FileProperties := do
  let en ← P.bool
  let cond ← P.uint 3
  let cond ← P.lift (ActionCondition.ofValue cond)
  P.pad 2
  let sc ← P.uint 2
  let sc ← P.lift (StorageClass.ofValue sc)
  return ⟨en, cond, sc⟩

/-- d7a/fs/file_properties.py 65-70 -/
def iter (p : FileProperties) : Gen :=
  let byte : Int := 0
  let byte := if p.actEnabled then byte + 1 <<ₚ 7 else byte
  let byte := byte + p.actCondition.value <<ₚ 4
  let byte := byte + p.storageClass.value
  .int byte

end FileProperties

/-- d7a/fs/file_header.py 31-48 -/
structure FileHeader where
  permissions : FilePermissions
  properties : FileProperties
  alpCommandFileId : Int
  interfaceFileId : Int
  fileSize : Int
  allocatedSize : Int
  deriving DecidableEq, Repr

namespace FileHeader

/-- d7a/fs/file_header.py 32-48 -/
def new (perm : FilePermissions) (props : FileProperties) (alpId ifId size alloc : Int) :
    Except PyErr FileHeader :=
  validate (isByte alpId ∧ isByte ifId ∧ (0 ≤ size ∧ size ≤ 0xFFFFFFFF) ∧
    (0 ≤ alloc ∧ alloc ≤ 0xFFFFFFFF)) ⟨perm, props, alpId, ifId, size, alloc⟩

/-- d7a/fs/file_header.py 50-58 -/
def parse : P FileHeader := do
  let perm ← FilePermissions.parse
  let props ← FileProperties.parse
  let alpId ← P.uint 8
  let ifId ← P.uint 8
  let size ← P.uint 32
  let alloc ← P.uint 32
  P.lift (new perm props alpId ifId size alloc)

/-- d7a/fs/file_header.py 60-73 -/
def iter (h : FileHeader) : Gen :=
  h.permissions.iter ++ h.properties.iter ++ .int h.alpCommandFileId ++ .int h.interfaceFileId ++
  .ofBytes (packU 4 h.fileSize) ++ .ofBytes (packU 4 h.allocatedSize)

end FileHeader
end Verif
