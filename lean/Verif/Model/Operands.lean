import Verif.Model.Sp
import Verif.Model.Fs

/-! Model of d7a/alp/operands/*.py and d7a/alp/interface.py -/

namespace Verif

/-- d7a/alp/operands/length.py 29-39 -/
structure Length where
  value : Int
  deriving DecidableEq, Repr

namespace Length

/-- d7a/alp/operands/length.py 31-39 -/
def new (value : Int) : Except PyErr Length :=
  validate (0 ≤ value ∧ value ≤ 0x3FFFFFFF) ⟨value⟩

/-- d7a/alp/operands/length.py 41-45 -/
def parse : P Length := do
  let size ← P.uint 2
  let value ← P.uint (6 + size.toNat * 8)
  P.lift (new value)

/-- d7a/alp/operands/length.py 48-55: number of bytes used -/
def size (l : Length) : Nat :=
  let size := 1
  let size := if l.value > 0x3F then 2 else size
  let size := if l.value > 0x3FFF then 3 else size
  let size := if l.value > 0x3FFFFF then 4 else size
  size

/-- d7a/alp/operands/length.py 47-69 -/
def iter (l : Length) : Gen :=
  let byte : Int := ((l.size : Int) - 1) <<ₚ 6
  if l.size = 1 then .int (byte + l.value)
  else match packU 4 l.value with
    | .error e => .raise e
    | .ok lengthBytes =>
      let lengthBytes :=
        if l.size = 2 then lengthBytes.drop 2
        else if l.size = 3 then lengthBytes.drop 1
        else lengthBytes
      match lengthBytes with
      | [] => .raise .indexError
      | b :: bs => .int (byte + b.toNat) ++ .ofBytes (.ok bs)

end Length

/-- d7a/alp/operands/offset.py 30-42 -/
structure Offset where
  id : Int
  offset : Length
  deriving DecidableEq, Repr

namespace Offset

/-- d7a/alp/operands/offset.py 32-42 -/
def new (id : Int) (offset : Length) : Except PyErr Offset := validate (isByte id) ⟨id, offset⟩

/-- d7a/alp/operands/offset.py 44-48 -/
def parse : P Offset := do
  let id ← P.uint 8
  let offset ← Length.parse
  P.lift (new id offset)

/-- d7a/alp/operands/offset.py 50-52 -/
def iter (o : Offset) : Gen := .int o.id ++ o.offset.iter

end Offset

/-- `Types.BYTES()` (d7a/support/schema.py 107-112): a list of ints 0..255. -/
def isBytes (l : List Int) : Prop := ∀ x ∈ l, 0 ≤ x ∧ x ≤ 0xFF

instance (l : List Int) : Decidable (isBytes l) :=
  inferInstanceAs (Decidable (∀ x ∈ l, 0 ≤ x ∧ x ≤ 0xFF))

/-- `map(ord, bytes)` -/
def ords (bs : List UInt8) : List Int := bs.map fun b => (b.toNat : Int)

/-- d7a/alp/operands/file.py 32-44 -/
structure Data where
  offset : Offset
  length : Length
  data : List Int
  deriving DecidableEq, Repr

namespace Data

/-- d7a/alp/operands/file.py 34-44 -/
def new (data : List Int) (offset : Offset) : Except PyErr Data := do
  let length ← Length.new data.length
  validate (isBytes data) ⟨offset, length, data⟩

/-- d7a/alp/operands/file.py 55-58 -/
def iter (d : Data) : Gen :=
  d.offset.iter ++ d.length.iter ++ .concat (d.data.map Gen.chr)

end Data

/-- d7a/alp/operands/file.py 64-74 -/
structure DataRequest where
  offset : Offset
  length : Length
  deriving DecidableEq, Repr

namespace DataRequest

/-- d7a/alp/operands/file.py 66-74 -/
def new (length : Int) (offset : Offset) : Except PyErr DataRequest := do
  let length ← Length.new length
  return ⟨offset, length⟩

/-- d7a/alp/operands/file.py 76-78 -/
def iter (d : DataRequest) : Gen := d.offset.iter ++ d.length.iter

end DataRequest

/-- d7a/alp/operands/file.py 84-92 -/
structure FileIdOperand where
  fileId : Int
  deriving DecidableEq, Repr

namespace FileIdOperand

/-- d7a/alp/operands/file.py 86-92 -/
def new (fileId : Int) : Except PyErr FileIdOperand := validate (isByte fileId) ⟨fileId⟩

/-- d7a/alp/operands/file.py 94-95 -/
def iter (o : FileIdOperand) : Gen := .int o.fileId

end FileIdOperand

/-- d7a/alp/operands/file_header.py 28-38 -/
structure FileHeaderOperand where
  fileId : Int
  fileHeader : FileHeader
  deriving DecidableEq, Repr

namespace FileHeaderOperand

/-- d7a/alp/operands/file_header.py 30-38 -/
def new (fileId : Int) (h : FileHeader) : Except PyErr FileHeaderOperand :=
  validate (isByte fileId) ⟨fileId, h⟩

/-- d7a/alp/operands/file_header.py 40-42 -/
def iter (o : FileHeaderOperand) : Gen := .int o.fileId ++ o.fileHeader.iter

/-- d7a/alp/operands/file_header.py 44-48 -/
def parse : P FileHeaderOperand := do
  let id ← P.uint 8
  let h ← FileHeader.parse
  P.lift (new id h)

end FileHeaderOperand

/-- d7a/alp/operands/query.py 30-36 -/
inductive QueryType
  | NON_VOID_CHECK | ARITH_COMP_WITH_ZERO | ARITH_COMP_WITH_VALUE | ARITH_COMP_BETWEEN_FILES
  | RANGE_COMP | STRING_TOKEN
  deriving DecidableEq, Repr

/-- d7a/alp/operands/query.py 31-36: `.value` -/
def QueryType.value : QueryType → Int
  | .NON_VOID_CHECK => 0 | .ARITH_COMP_WITH_ZERO => 1 | .ARITH_COMP_WITH_VALUE => 2
  | .ARITH_COMP_BETWEEN_FILES => 3 | .RANGE_COMP => 4 | .STRING_TOKEN => 7

/-- d7a/alp/operands/query.py 100: `QueryType(x)` -/
def QueryType.ofValue (x : Int) : Except PyErr QueryType :=
  if x = 0 then .ok .NON_VOID_CHECK else if x = 1 then .ok .ARITH_COMP_WITH_ZERO
  else if x = 2 then .ok .ARITH_COMP_WITH_VALUE else if x = 3 then .ok .ARITH_COMP_BETWEEN_FILES
  else if x = 4 then .ok .RANGE_COMP else if x = 7 then .ok .STRING_TOKEN
  else .error .valueError

/-- d7a/alp/operands/query.py 38-44 -/
inductive ArithComparisonType
  | INEQUALITY | EQUALITY | LESS_THAN | LESS_THAN_OR_EQUAL_TO | GREATER_THAN
  | GREATER_THAN_OR_EQUAL_TO
  deriving DecidableEq, Repr

/-- d7a/alp/operands/query.py 39-44: `.value` -/
def ArithComparisonType.value : ArithComparisonType → Int
  | .INEQUALITY => 0 | .EQUALITY => 1 | .LESS_THAN => 2 | .LESS_THAN_OR_EQUAL_TO => 3
  | .GREATER_THAN => 4 | .GREATER_THAN_OR_EQUAL_TO => 5

/-- d7a/alp/operands/query.py 60: `ArithComparisonType(x)` -/
def ArithComparisonType.ofValue (x : Int) : Except PyErr ArithComparisonType :=
  if x = 0 then .ok .INEQUALITY else if x = 1 then .ok .EQUALITY else if x = 2 then .ok .LESS_THAN
  else if x = 3 then .ok .LESS_THAN_OR_EQUAL_TO else if x = 4 then .ok .GREATER_THAN
  else if x = 5 then .ok .GREATER_THAN_OR_EQUAL_TO else .error .valueError

/-- d7a/alp/operands/query.py 46-55 -/
structure ArithQueryParams where
  signedDataType : Bool
  compType : ArithComparisonType
  deriving DecidableEq, Repr

namespace ArithQueryParams

/-- d7a/alp/operands/query.py 57-61 -/
def parse : P ArithQueryParams := do
  let signed ← P.bool
  let c ← P.uint 3
  let c ← P.lift (ArithComparisonType.ofValue c)
  return ⟨signed, c⟩

/-- d7a/alp/operands/query.py 63-66 -/
def iter (p : ArithQueryParams) : Gen :=
  .int ((p.signedDataType.toNat : Int) <<ₚ 3 + p.compType.value)

end ArithQueryParams

/-- d7a/alp/operands/query.py 69-86 -/
structure QueryOperand where
  type : QueryType
  maskPresent : Bool
  params : ArithQueryParams
  compareLength : Length
  compareValue : List Int
  fileAOffset : Offset
  deriving DecidableEq, Repr

namespace QueryOperand

/-- d7a/alp/operands/query.py 70-86 -/
def new (type : QueryType) (mask : Bool) (params : ArithQueryParams) (cl : Length)
    (cv : List Int) (fa : Offset) : Except PyErr QueryOperand :=
  validate (isBytes cv) ⟨type, mask, params, cl, cv, fa⟩

/-- d7a/alp/operands/query.py 88-95 -/
def iter (q : QueryOperand) : Gen :=
  match bytearray q.params.iter with
  | .error e => .raise e
  | .ok [] => .raise .indexError
  | .ok (b :: _) =>
    let byte := q.type.value <<ₚ 5
    let byte := byte + (q.maskPresent.toNat : Int) <<ₚ 4
    let byte := byte + (b.toNat : Int)
    .int byte ++ q.compareLength.iter ++ .concat (q.compareValue.map Gen.int) ++
    q.fileAOffset.iter

/-- d7a/alp/operands/query.py 98-109; the two `assert`s carry no message. -/
def parse : P QueryOperand := do
  let t ← P.uint 3
  let t ← P.lift (QueryType.ofValue t)
  P.assert (t = .ARITH_COMP_WITH_VALUE) false
  let mask ← P.bool
  P.assert (mask = false) false
  let params ← ArithQueryParams.parse
  let cl ← Length.parse
  let cv ← P.bytes cl.value.toNat
  let fa ← Offset.parse
  P.lift (new t mask params cl (ords cv) fa)

end QueryOperand

/-- d7a/alp/operands/tag_id.py 27-35 -/
structure TagId where
  tagId : Int
  deriving DecidableEq, Repr

namespace TagId

/-- d7a/alp/operands/tag_id.py 29-35 -/
def new (t : Int) : Except PyErr TagId := validate (isByte t) ⟨t⟩

/-- d7a/alp/operands/tag_id.py 37-38 -/
def iter (t : TagId) : Gen := .int t.tagId

end TagId

/-- d7a/alp/interface.py 27-32 -/
inductive InterfaceType | HOST | SERIAL | LORAWAN_ABP | LORAWAN_OTAA | D7ASP
  deriving DecidableEq, Repr

/-- d7a/alp/interface.py 28-32: `.value` -/
def InterfaceType.value : InterfaceType → Int
  | .HOST => 0 | .SERIAL => 1 | .LORAWAN_ABP => 2 | .LORAWAN_OTAA => 3 | .D7ASP => 0xD7

/-- d7a/alp/parser.py (`InterfaceType(int(s.read("uint:8")))`): ValueError for unknown ids -/
def InterfaceType.ofValue (x : Int) : Except PyErr InterfaceType :=
  if x = 0 then .ok .HOST else if x = 1 then .ok .SERIAL else if x = 2 then .ok .LORAWAN_ABP
  else if x = 3 then .ok .LORAWAN_OTAA else if x = 0xD7 then .ok .D7ASP else .error .valueError

/-- d7a/alp/operands/lorawan_interface_configuration_abp.py 29-50 (empty schema: every value is
accepted) -/
structure LoRaWANABP where
  adrEnabled : Bool
  requestAck : Bool
  appPort : Int
  dataRate : Int
  devAddr : Int
  netwId : Int
  deriving DecidableEq, Repr

namespace LoRaWANABP

/-- d7a/alp/operands/lorawan_interface_configuration_abp.py 52-68 -/
def iter (c : LoRaWANABP) : Gen :=
  let byte : Int := 0
  let byte := if c.requestAck then Int.lor byte (1 <<ₚ 1) else byte
  let byte := if c.adrEnabled then Int.lor byte (1 <<ₚ 2) else byte
  .int byte ++ .int c.appPort ++ .int c.dataRate ++ .ofBytes (packU 4 c.devAddr) ++
  .ofBytes (packU 4 c.netwId)

/-- d7a/alp/operands/lorawan_interface_configuration_abp.py 73-91 -/
def parse : P LoRaWANABP := do
  P.pad 5
  let adr ← P.bool
  let ack ← P.bool
  P.pad 1
  let port ← P.uint 8
  let rate ← P.uint 8
  let addr ← P.uint 32
  let netw ← P.uint 32
  return ⟨adr, ack, port, rate, addr, netw⟩

end LoRaWANABP

/-- d7a/alp/operands/lorawan_interface_configuration_otaa.py 29-47 (empty schema) -/
structure LoRaWANOTAA where
  adrEnabled : Bool
  requestAck : Bool
  appPort : Int
  dataRate : Int
  deriving DecidableEq, Repr

namespace LoRaWANOTAA

/-- d7a/alp/operands/lorawan_interface_configuration_otaa.py 49-59 -/
def iter (c : LoRaWANOTAA) : Gen :=
  let byte : Int := 0
  let byte := if c.requestAck then Int.lor byte (1 <<ₚ 1) else byte
  let byte := if c.adrEnabled then Int.lor byte (1 <<ₚ 2) else byte
  .int byte ++ .int c.appPort ++ .int c.dataRate

/-- d7a/alp/operands/lorawan_interface_configuration_otaa.py 65-79 -/
def parse : P LoRaWANOTAA := do
  P.pad 5
  let adr ← P.bool
  let ack ← P.bool
  P.pad 1
  let port ← P.uint 8
  let rate ← P.uint 8
  return ⟨adr, ack, port, rate⟩

end LoRaWANOTAA

/-- The objects used as `interface_configuration`. The schema allows any Validatable
(d7a/alp/operands/interface_configuration.py 31); modelled are the three configuration classes. -/
inductive IfaceConfig
  | d7asp (c : Configuration)
  | abp (c : LoRaWANABP)
  | otaa (c : LoRaWANOTAA)
  deriving DecidableEq, Repr

/-- `__iter__` of the configuration object. -/
def IfaceConfig.iter : IfaceConfig → Gen
  | .d7asp c => c.iter
  | .abp c => c.iter
  | .otaa c => c.iter

/-- d7a/alp/operands/interface_configuration.py 28-37 -/
structure InterfaceConfiguration where
  interfaceId : InterfaceType
  config : Option IfaceConfig
  deriving DecidableEq, Repr

/-- d7a/alp/operands/interface_configuration.py 39-42 -/
def InterfaceConfiguration.iter (c : InterfaceConfiguration) : Gen :=
  .int c.interfaceId.value ++
  match c.config with
  | some x => x.iter
  | none => .nil

/-- d7a/alp/operands/interface_status.py 28-38 -/
structure InterfaceStatusOperand where
  interfaceId : Int
  status : Option Status
  deriving DecidableEq, Repr

namespace InterfaceStatusOperand

/-- d7a/alp/operands/interface_status.py 30-38 -/
def new (id : Int) (st : Option Status) : Except PyErr InterfaceStatusOperand :=
  validate (isByte id) ⟨id, st⟩

/-- d7a/alp/operands/interface_status.py 40-42; iterating `None` is a TypeError. -/
def iter (o : InterfaceStatusOperand) : Gen :=
  .int o.interfaceId ++
  match o.status with
  | some s => s.iter
  | none => .raise .typeError

end InterfaceStatusOperand

/-- d7a/alp/operands/indirect_interface_operand.py 30-40 -/
structure IndirectInterfaceOperand where
  interfaceFileId : Int
  overload : Option Addressee
  deriving DecidableEq, Repr

namespace IndirectInterfaceOperand

/-- d7a/alp/operands/indirect_interface_operand.py 32-40 -/
def new (id : Int) (o : Option Addressee) : Except PyErr IndirectInterfaceOperand :=
  validate (0 ≤ id ∧ id ≤ 0xFF) ⟨id, o⟩

/-- d7a/alp/operands/indirect_interface_operand.py 42-45 -/
def iter (o : IndirectInterfaceOperand) : Gen :=
  .int o.interfaceFileId ++
  match o.overload with
  | some a => a.iter
  | none => .nil

end IndirectInterfaceOperand
end Verif
