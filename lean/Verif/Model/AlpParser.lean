import Verif.Model.Alp

/-! Model of d7a/alp/parser.py -/

namespace Verif.AlpParser

open Verif

/-- d7a/alp/parser.py 115-118 (and 223-224) -/
def parseFileDataRequestOperand : P DataRequest := do
  let offset ← Offset.parse
  let length ← Length.parse
  P.lift (DataRequest.new length.value offset)

/-- d7a/alp/parser.py 141-145 -/
def parseReturnFileDataOperand : P Data := do
  let offset ← Offset.parse
  let length ← Length.parse
  let data ← P.bytes length.value.toNat
  P.lift (Data.new (ords data) offset)

/-- d7a/alp/parser.py 103-107 -/
def parseReadFileDataAction (b7 b6 : Bool) : P (Option Action) := do
  let operand ← parseFileDataRequestOperand
  return some (.regular b7 b6 (.readFileData operand))

/-- d7a/alp/parser.py 109-113 -/
def parseWriteFileDataAction (b7 b6 : Bool) : P (Option Action) := do
  let operand ← parseReturnFileDataOperand
  return some (.regular b7 b6 (.writeFileData operand))

/-- d7a/alp/parser.py 120-121 -/
def parseBreakQueryAction (b7 b6 : Bool) : P (Option Action) := do
  let operand ← QueryOperand.parse
  return some (.regular b7 b6 (.breakQuery operand))

/-- d7a/alp/parser.py 123-127 -/
def parseCreateFileAction (b7 b6 : Bool) : P (Option Action) := do
  let operand ← FileHeaderOperand.parse
  return some (.regular b7 b6 (.createNewFile operand))

/-- d7a/alp/parser.py 129-133 -/
def parseReturnFileDataAction (b7 b6 : Bool) : P (Option Action) := do
  let operand ← parseReturnFileDataOperand
  return some (.regular b7 b6 (.returnFileData operand))

/-- d7a/alp/parser.py 135-139 -/
def parseReturnFileHeaderAction (b7 b6 : Bool) : P (Option Action) := do
  let operand ← FileHeaderOperand.parse
  return some (.regular b7 b6 (.returnFileHeader operand))

/-- d7a/alp/parser.py 208-209 -/
def parseInterfaceStatusHost (_length : Int) : P (Option Operation) := return none

/-- d7a/alp/parser.py 211-218 -/
def parseInterfaceStatusD7asp (length : Int) : P (Option Operation) := do
  let status ← P.opt (length > 0) Status.parse
  let o ← P.lift (InterfaceStatusOperand.new 0xD7 status)
  return some (.interfaceStatus o)

/-- d7a/alp/parser.py 220-221 -/
def parseInterfaceStatusSerial (_length : Int) : P (Option Operation) := do
  let o ← P.lift (InterfaceStatusOperand.new 0x01 none)
  return some (.interfaceStatus o)

/-- d7a/alp/parser.py 155-159, 162-163: the table of interface status parsers; KeyError becomes
ParseError. -/
def parseInterfaceStatus (interfaceId length : Int) : P (Option Operation) :=
  if interfaceId = 0x00 then parseInterfaceStatusHost length
  else if interfaceId = 0xD7 then parseInterfaceStatusD7asp length
  else if interfaceId = 0x01 then parseInterfaceStatusSerial length
  else P.raise .parseError

/-- d7a/alp/parser.py 151-163 -/
def parseInterfaceStatusAction : P (Option Action) := do
  let interfaceId ← P.uint 8
  let length ← P.uint 8
  let operation ← parseInterfaceStatus interfaceId length
  let a ← P.lift (Action.newStatus 1 operation)
  return some a

/-- d7a/alp/parser.py 147-165. An action status (neither bit set) falls through: `None`. -/
def parseReturnStatusAction (b7 b6 : Bool) : P (Option Action) :=
  if b7 then P.raise .parseError
  else if b6 then parseInterfaceStatusAction
  else return none

/-- d7a/alp/parser.py 167-172 -/
def parseTagRequestAction (b7 b6 : Bool) : P (Option Action) :=
  if b6 then P.raise .parseError
  else do
    let tag ← P.uint 8
    let t ← P.lift (TagId.new tag)
    return some (.tagRequest b7 (.tagRequest t))

/-- d7a/alp/parser.py 174-176 -/
def parseTagResponseAction (b7 b6 : Bool) : P (Option Action) := do
  let tag ← P.uint 8
  let t ← P.lift (TagId.new tag)
  return some (.tagResponse b7 b6 (.tagResponse t))

/-- d7a/alp/parser.py 178-187 -/
def parseIndirectForwardAction (b7 b6 : Bool) : P (Option Action) := do
  let fileId ← P.uint 8
  let cfg ← P.opt b7 Addressee.parse
  let o ← P.lift (IndirectInterfaceOperand.new fileId cfg)
  let a ← P.lift (Action.newIndirectForward b7 b6 (.indirectForward o))
  return some a

/-- d7a/alp/parser.py 193-204: the configuration part; `assert(False)` for HOST. -/
def parseInterfaceConfig (t : InterfaceType) : P (Option IfaceConfig) :=
  match t with
  | .D7ASP => do let c ← Configuration.parse; return some (.d7asp c)
  | .SERIAL => return none
  | .LORAWAN_ABP => do let c ← LoRaWANABP.parse; return some (.abp c)
  | .LORAWAN_OTAA => do let c ← LoRaWANOTAA.parse; return some (.otaa c)
  | .HOST => P.raise (.assertion false)

/-- d7a/alp/parser.py 189-207 -/
def parseForwardAction (b7 b6 : Bool) : P (Option Action) :=
  if b7 then P.raise .parseError
  else do
    let t ← P.uint 8
    let t ← P.lift (InterfaceType.ofValue t)
    let cfg ← parseInterfaceConfig t
    let a ← P.lift (Action.newForward b6 (.forward ⟨t, cfg⟩))
    return some a

/-- d7a/alp/parser.py 86-101: the opcode table; an unknown opcode is a KeyError turned into
ParseError. -/
def dispatch (op : Int) (b7 b6 : Bool) : P (Option Action) :=
  if op = 1 then parseReadFileDataAction b7 b6
  else if op = 4 then parseWriteFileDataAction b7 b6
  else if op = 9 then parseBreakQueryAction b7 b6
  else if op = 17 then parseCreateFileAction b7 b6
  else if op = 32 then parseReturnFileDataAction b7 b6
  else if op = 33 then parseReturnFileHeaderAction b7 b6
  else if op = 34 then parseReturnStatusAction b7 b6
  else if op = 35 then parseTagResponseAction b7 b6
  else if op = 50 then parseForwardAction b7 b6
  else if op = 51 then parseIndirectForwardAction b7 b6
  else if op = 52 then parseTagRequestAction b7 b6
  else P.raise .parseError

/-- d7a/alp/parser.py 81-101; `none` is a returned `None`. -/
def parseAlpAction : P (Option Action) := do
  let b7 ← P.bool
  let b6 ← P.bool
  let op ← P.uint 6
  dispatch op b7 b6

/-- d7a/alp/parser.py 72-76: the while loop, with a step budget. -/
def parseLoop (cmdLength : Int) : Nat → Int → List (Option Action) → P (List (Option Action))
  | 0, parsed, actions => if parsed < cmdLength then P.raise .nonTermination else return actions
  | fuel + 1, parsed, actions =>
    if parsed < cmdLength then do
      let startpos ← P.bytepos
      let action ← parseAlpAction
      let endpos ← P.bytepos
      parseLoop cmdLength fuel (parsed + ((endpos : Int) - startpos)) (actions ++ [action])
    else return actions

/-- d7a/alp/parser.py 69-76. The step budget is one more than the number of unread bits. -/
def parseActions (cmdLength : Int) : P (List (Option Action)) := fun s =>
  if cmdLength ≠ 0 then parseLoop cmdLength (s.rest.length + 1) 0 [] s else .ok [] s

/-- d7a/alp/parser.py 68-79. No random tag is drawn because `generate_tag_request_action=False`. -/
def parse (cmdLength : Int) : P Command := do
  let actions ← parseActions cmdLength
  P.lift (Command.new actions false none true 0)

end Verif.AlpParser
