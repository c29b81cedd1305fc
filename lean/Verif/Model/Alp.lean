import Verif.Model.Operands

/-! Model of d7a/alp/operations/*.py, d7a/alp/*action.py and d7a/alp/command.py -/

namespace Verif

/-- The operation classes with their operand. The class check of `Operation.__init__`
(d7a/alp/operations/operation.py 35-46) is expressed by the operand types.
* `nop` d7a/alp/operations/nop.py 30-34
* `readFileData`, `readFileHeader` d7a/alp/operations/requests.py 29-40
* `writeFileData`, `writeFileHeader` d7a/alp/operations/write_operations.py 28-39
* `breakQuery` d7a/alp/operations/break_query.py 28-32
* `createNewFile` d7a/alp/operations/file_management.py 28-32
* `returnFileData`, `returnFileHeader` d7a/alp/operations/responses.py 38-67 (the parsed system
  file attached to ReturnFileData is a function of the operand, see Model/SystemTable.lean)
* `interfaceStatus` d7a/alp/operations/status.py 28-32
* `tagResponse`, `tagRequest` d7a/alp/operations/tag_response.py, tag_request.py 28-32
* `forward`, `indirectForward` d7a/alp/operations/forward.py, indirect_forward.py 28-32 -/
inductive Operation
  | nop
  | readFileData (o : DataRequest)
  | readFileHeader (o : FileIdOperand)
  | writeFileData (o : Data)
  | writeFileHeader (o : FileHeaderOperand)
  | breakQuery (o : QueryOperand)
  | createNewFile (o : FileHeaderOperand)
  | returnFileData (o : Data)
  | returnFileHeader (o : FileHeaderOperand)
  | interfaceStatus (o : InterfaceStatusOperand)
  | tagResponse (o : TagId)
  | forward (o : InterfaceConfiguration)
  | indirectForward (o : IndirectInterfaceOperand)
  | tagRequest (o : TagId)
  deriving DecidableEq, Repr

namespace Operation

/-- The `op` attribute set in the constructors cited at `Operation`. -/
def op : Operation → Int
  | nop => 0
  | readFileData _ => 1
  | readFileHeader _ => 2
  | writeFileData _ => 4
  | writeFileHeader _ => 6
  | breakQuery _ => 9
  | createNewFile _ => 17
  | returnFileData _ => 32
  | returnFileHeader _ => 33
  | interfaceStatus _ => 34
  | tagResponse _ => 35
  | forward _ => 50
  | indirectForward _ => 51
  | tagRequest _ => 52

/-- d7a/alp/operations/operation.py 48-50: `if self.operand:` is false for `None` and for an
operand with `__len__() == 0`, i.e. a Data operand without data. -/
def iter : Operation → Gen
  | nop => .nil
  | readFileData o => o.iter
  | readFileHeader o => o.iter
  | writeFileData o => if o.length.value = 0 then .nil else o.iter
  | writeFileHeader o => o.iter
  | breakQuery o => o.iter
  | createNewFile o => o.iter
  | returnFileData o => if o.length.value = 0 then .nil else o.iter
  | returnFileHeader o => o.iter
  | interfaceStatus o => o.iter
  | tagResponse o => o.iter
  | forward o => o.iter
  | indirectForward o => o.iter
  | tagRequest o => o.iter

/-- `action.operand.tag_id`: AttributeError unless the operand is a TagId. -/
def tagId : Operation → Except PyErr Int
  | tagResponse o => .ok o.tagId
  | tagRequest o => .ok o.tagId
  | _ => .error .attributeError

end Operation

/-- The action classes.
* `regular` d7a/alp/regular_action.py 32-44
* `forward` d7a/alp/forward_action.py 31-41
* `indirectForward` d7a/alp/indirect_forward_action.py 31-43
* `status` d7a/alp/status_action.py 41-51
* `tagRequest` d7a/alp/tag_request_action.py 29-39
* `tagResponse` d7a/alp/tag_response_action.py 29-41
* `base` the class Action itself, d7a/alp/action.py 37-47 -/
inductive Action
  | regular (group resp : Bool) (operation : Operation)
  | forward (resp : Bool) (operation : Operation)
  | indirectForward (overload resp : Bool) (operation : Operation)
  | status (ext : Int) (operation : Operation)
  | tagRequest (respondWhenCompleted : Bool) (operation : Operation)
  | tagResponse (eop error : Bool) (operation : Operation)
  | base (operation : Operation)
  deriving DecidableEq, Repr

namespace Action

/-- d7a/alp/forward_action.py 32-41: the operation must be a Forward. -/
def newForward (resp : Bool) (o : Operation) : Except PyErr Action :=
  match o with
  | .forward _ => .ok (.forward resp o)
  | _ => .error .valueError

/-- d7a/alp/indirect_forward_action.py 32-43: the operation must be an IndirectForward. -/
def newIndirectForward (overload resp : Bool) (o : Operation) : Except PyErr Action :=
  match o with
  | .indirectForward _ => .ok (.indirectForward overload resp o)
  | _ => .error .valueError

/-- d7a/alp/status_action.py 42-51: extension 0 or 1; `none` is an `operation=None` argument, on
which reading `self.op` during validation raises AttributeError. -/
def newStatus (ext : Int) (o : Option Operation) : Except PyErr Action :=
  match o with
  | none => .error .attributeError
  | some o => validate (ext = 0 ∨ ext = 1) (.status ext o)

/-- The action header byte of d7a/alp/regular_action.py 47-50 (and the same lines of
indirect_forward_action.py 46-49, tag_request_action.py 42-44, tag_response_action.py 44-47). -/
def headerByte (b7 b6 : Bool) (op : Int) : Int :=
  let byte : Int := 0
  let byte := if b7 then Int.lor byte (1 <<ₚ 7) else byte
  let byte := if b6 then Int.lor byte (1 <<ₚ 6) else byte
  byte + op

/-- `__iter__` of the action classes: d7a/alp/regular_action.py 46-53, forward_action.py 43-50
(`self.group` does not exist: AttributeError), indirect_forward_action.py 45-52,
status_action.py 53-59, tag_request_action.py 41-47, tag_response_action.py 43-50; the class Action
itself is not iterable (TypeError). -/
def iter : Action → Gen
  | regular group resp o => .int (headerByte group resp o.op) ++ o.iter
  | forward _ _ => .raise .attributeError
  | indirectForward overload resp o => .int (headerByte overload resp o.op) ++ o.iter
  | status ext o => .int (Int.lor 0 (ext <<ₚ 6) + o.op) ++ o.iter
  | tagRequest r o => .int (headerByte r false o.op) ++ o.iter
  | tagResponse eop error o => .int (headerByte eop error o.op) ++ o.iter
  | base _ => .raise .typeError

/-- d7a/alp/action.py 45-47: the `operation` attribute. -/
def operation : Action → Operation
  | regular _ _ o => o
  | forward _ o => o
  | indirectForward _ _ o => o
  | status _ o => o
  | tagRequest _ o => o
  | tagResponse _ _ o => o
  | base o => o

end Action

/-- d7a/alp/command.py 58-71. `completedWithError` is `none` while the attribute does not exist. -/
structure Command where
  actions : List Action
  interfaceStatus : Option Action
  generateTagRequestAction : Bool
  tagId : Option Int
  sendTagResponseWhenCompleted : Bool
  executionCompleted : Bool
  completedWithError : Option Bool
  deriving DecidableEq, Repr

namespace Command

/-- The state of the loop in `__init__`; list items may be `None`. -/
structure Building where
  actions : List (Option Action)
  interfaceStatus : Option Action
  tagId : Option Int
  sendTagResponseWhenCompleted : Bool
  executionCompleted : Bool
  completedWithError : Option Bool

/-- d7a/alp/command.py 73-88: one iteration of the loop. -/
def addInit (b : Building) (action : Option Action) : Except PyErr Building :=
  match action with
  | some (.status 1 o) =>
    if b.interfaceStatus ≠ none then .error .parseError
    else .ok { b with interfaceStatus := some (.status 1 o) }
  | some (.tagRequest r o) =>
    if b.tagId ≠ none then .error .parseError
    else do
      let t ← o.tagId
      return { b with tagId := some t, sendTagResponseWhenCompleted := r }
  | some (.tagResponse eop error o) =>
    if b.tagId ≠ none then .error .parseError
    else do
      let t ← o.tagId
      return { b with tagId := some t, completedWithError := some error, executionCompleted := eop }
  | a => .ok { b with actions := b.actions ++ [a] }

/-- All items if none of them is `None`. -/
def allSome : List (Option Action) → Option (List Action)
  | [] => some []
  | none :: _ => none
  | some a :: as => (allSome as).map (a :: ·)

/-- d7a/alp/command.py 65-93. `rand` is the value `random.randint(0, 255)` would return. -/
def new (actions : List (Option Action)) (generateTagRequestAction : Bool) (tagId : Option Int)
    (sendTagResponseWhenCompleted : Bool) (rand : UInt8) : Except PyErr Command := do
  let b ← actions.foldlM addInit
    ⟨[], none, tagId, sendTagResponseWhenCompleted, false, none⟩
  let tag := if generateTagRequestAction ∧ b.tagId = none then some (rand.toNat : Int) else b.tagId
  match allSome b.actions with
  | none => .error .valueError
  | some as => .ok ⟨as, b.interfaceStatus, generateTagRequestAction, tag,
      b.sendTagResponseWhenCompleted, b.executionCompleted, b.completedWithError⟩

/-- `Command()`, d7a/alp/command.py 65 with all defaults. -/
def empty (rand : UInt8) : Command := ⟨[], none, true, some rand.toNat, true, false, none⟩

/-- d7a/alp/command.py 95-96 -/
def addAction (c : Command) (a : Action) : Command := { c with actions := c.actions ++ [a] }

/-- d7a/alp/command.py 98-151 -/
def addForwardAction (c : Command) (t : InterfaceType) (cfg : Option IfaceConfig) :
    Except PyErr Command :=
  if cfg ≠ none ∧ t = .HOST then .error .valueError
  else match t with
    | .D7ASP =>
      let cfg := match cfg with
        | none => some (.d7asp .default)
        | some x => some x
      .ok (c.addAction (.regular false false (.forward ⟨.D7ASP, cfg⟩)))
    | .SERIAL => .ok (c.addAction (.regular false false (.forward ⟨.SERIAL, none⟩)))
    | .LORAWAN_ABP => .ok (c.addAction (.regular false false (.forward ⟨.LORAWAN_ABP, cfg⟩)))
    | .LORAWAN_OTAA => .ok (c.addAction (.regular false false (.forward ⟨.LORAWAN_OTAA, cfg⟩)))
    | .HOST => .ok c

/-- d7a/alp/command.py 153-167 (`interface_file_id=None` is not modelled). -/
def addIndirectForwardAction (c : Command) (fileId : Int) (overload : Bool)
    (cfg : Option Addressee) : Except PyErr Command := do
  let cfg := if overload then cfg else none
  let o ← IndirectInterfaceOperand.new fileId cfg
  let a ← Action.newIndirectForward overload false (.indirectForward o)
  return c.addAction a

/-- d7a/alp/command.py 188-203; `rand` as in `new`. The arguments of the operand are evaluated
after `add_forward_action`, as in the code. -/
def createWithReadFileAction (rand : UInt8) (fileId length offset : Int) (t : InterfaceType)
    (cfg : Option IfaceConfig) : Except PyErr Command := do
  let c ← (empty rand).addForwardAction t cfg
  let l ← Length.new offset
  let o ← Offset.new fileId l
  let d ← DataRequest.new length o
  return c.addAction (.regular false false (.readFileData d))

/-- d7a/alp/command.py 205-221 -/
def createWithWriteFileAction (rand : UInt8) (fileId : Int) (data : List Int) (offset : Int)
    (t : InterfaceType) (cfg : Option IfaceConfig) : Except PyErr Command := do
  let c ← (empty rand).addForwardAction t cfg
  let l ← Length.new offset
  let o ← Offset.new fileId l
  let d ← Data.new data o
  return c.addAction (.regular false false (.writeFileData d))

/-- d7a/alp/command.py 241-257 -/
def createWithReturnFileDataAction (rand : UInt8) (fileId : Int) (data : List Int) (offset : Int)
    (tagId : Option Int) (t : InterfaceType) (cfg : Option IfaceConfig) :
    Except PyErr Command := do
  let c ← new [] true tagId true rand
  let c ← c.addForwardAction t cfg
  let l ← Length.new offset
  let o ← Offset.new fileId l
  let d ← Data.new data o
  return c.addAction (.regular false false (.returnFileData d))

/-- d7a/alp/command.py 259-273 -/
def createWithReadFileHeader (rand : UInt8) (fileId : Int) (t : InterfaceType)
    (cfg : Option IfaceConfig) : Except PyErr Command := do
  let c ← (empty rand).addForwardAction t cfg
  let o ← FileIdOperand.new fileId
  return c.addAction (.regular false false (.readFileHeader o))

/-- d7a/alp/command.py 276-291 -/
def createWithWriteFileHeader (rand : UInt8) (fileId : Int) (h : FileHeader) (t : InterfaceType)
    (cfg : Option IfaceConfig) : Except PyErr Command := do
  let c ← (empty rand).addForwardAction t cfg
  let o ← FileHeaderOperand.new fileId h
  return c.addAction (.regular false false (.writeFileHeader o))

/-- d7a/alp/command.py 293-308 -/
def createWithCreateNewFile (rand : UInt8) (fileId : Int) (h : FileHeader) (t : InterfaceType)
    (cfg : Option IfaceConfig) : Except PyErr Command := do
  let c ← (empty rand).addForwardAction t cfg
  let o ← FileHeaderOperand.new fileId h
  return c.addAction (.regular false false (.createNewFile o))

/-- d7a/alp/command.py 312-317: the generated tag request; a tag that is not a byte (or is missing)
makes `TagId(...)` raise ValueError. -/
def tagRequestGen (c : Command) : Gen :=
  match c.tagId with
  | none => .raise .valueError
  | some t =>
    match TagId.new t with
    | .error e => .raise e
    | .ok t => (Action.tagRequest c.sendTagResponseWhenCompleted (.tagRequest t)).iter

/-- d7a/alp/command.py 310-327 -/
def iter (c : Command) : Gen :=
  (if c.generateTagRequestAction then c.tagRequestGen else .nil) ++
  (match c.interfaceStatus with
    | some a => a.iter
    | none => .nil) ++
  .concat (c.actions.map Action.iter)

/-- d7a/alp/command.py 336-340. The outer `none` of the result is the Python `None`; the inner one
an interface status operand without status. AttributeError if the operation of the interface
status action has no `interface_id`. -/
def getD7aspInterfaceStatus (c : Command) : Except PyErr (Option Status) :=
  match c.interfaceStatus with
  | none => .ok none
  | some a =>
    match a.operation with
    | .interfaceStatus o => if o.interfaceId ≠ 0xD7 then .ok none else .ok o.status
    | .forward _ => .ok none  -- InterfaceConfiguration.interface_id is an enum member, != 0xD7
    | _ => .error .attributeError

end Command
end Verif
