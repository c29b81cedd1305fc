import Verif.Model.SystemTable
import Verif.Model.Alp

/-! Model of the system file factories in d7a/alp/command.py. -/

namespace Verif

/-- d7a/alp/operands/offset.py 32-42 with the `id` attribute of a file object: the schema rejects an enum
member, which is not an integer. -/
def Offset.newFor (id : FileIdArg) (offset : Length) : Except PyErr Offset :=
  match id with
  | .int i => Offset.new i offset
  | .enum _ => .error .valueError

/-- `list(obj)` for an object with the given `__iter__`. -/
def listOf (g : Gen) : Except PyErr (List Item) :=
  match g.exc with
  | some e => .error e
  | none => .ok g.items

/-- The integer items, for the `Types.BYTES()` schema (d7a/support/schema.py 108-112). -/
def Item.int? : Item → Option Int
  | .int i => some i
  | _ => none

/-- d7a/alp/operands/file.py 34-44 with a list of any items: the schema (`Types.BYTES()`) only accepts
integers 0..255. -/
def Data.newItems (data : List Item) (offset : Offset) : Except PyErr Data := do
  let length ← Length.new data.length
  let ints := data.filterMap Item.int?
  validate (ints.length = data.length ∧ isBytes ints) ⟨offset, length, ints⟩

namespace Command

/-- d7a/alp/command.py 170-185 -/
def createWithReadSystemFile (rand : UInt8) (f : SystemFile) (t : InterfaceType)
    (cfg : Option IfaceConfig) : Except PyErr Command := do
  let c ← (empty rand).addForwardAction t cfg
  let id ← f.id
  let l ← Length.new 0
  let o ← Offset.newFor id l
  let n ← f.length
  let d ← DataRequest.new n o
  return c.addAction (.regular false false (.readFileData d))

/-- d7a/alp/command.py 224-239 -/
def createWithWriteSystemFile (rand : UInt8) (f : SystemFile) (t : InterfaceType)
    (cfg : Option IfaceConfig) : Except PyErr Command := do
  let c ← (empty rand).addForwardAction t cfg
  let id ← f.id
  let o ← Offset.newFor id ⟨0⟩
  let data ← listOf f.iter
  let d ← Data.newItems data o
  return c.addAction (.regular false false (.writeFileData d))

end Command
end Verif
