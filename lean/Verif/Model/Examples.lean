import Verif.Model.SystemCommands
import Verif.Model.PhyStr

/-! Model of the command line programs examples/engineering_mode.py, examples/change_access_profile.py and
examples/write_factory_settings.py, of the verdict of examples/throughput_test.py, and of the way the examples
store an object in a file. The argument parser, the printing, the modem itself (see Model/Modem) and the endless loops at
the end are not modelled. -/

namespace Verif.Examples

/-- `RegularAction(operation=WriteFileData(operand=Data(offset=Offset(id=...), data=list(obj))))`:
examples/engineering_mode.py 67-74, 139-146, 150-157, examples/switch_to_push_notification.py 111-118; `g` is the
`__iter__` of the object. -/
def writeObject (id : FileIdArg) (g : Gen) : Except PyErr Action := do
  let o ← Offset.newFor id ⟨0⟩
  let data ← listOf g
  let d ← Data.newItems data o
  return .regular false false (.writeFileData d)

/-- The interface configuration of the option `-f`: examples/engineering_mode.py 121-128,
examples/write_factory_settings.py 94-101. `CT.compress(2)` is `CT(0, 2)`; the constructors accept these
arguments. -/
def broadcast : Configuration :=
  { qos := { QoS.default with respMod := .PREFERRED, retryMod := .NO }
    dormTo := ⟨0, 0⟩
    addressee := ⟨0x11, .NBID, .ct ⟨0, 2⟩, .NONE⟩ }

/-! ### examples/engineering_mode.py -/

/-- examples/engineering_mode.py 84-92: the options that are used (`-d`, `-r`, `-v` and `-x` are not modelled). -/
structure EngineeringArgs where
  channelId : List Char
  mode : String
  eirp : Int := 0
  timeout : Int := 0
  forward : Bool := false
  factoryParamp : Int := 0xFF
  factoryGaussian : Int := 0xFF

/-- examples/engineering_mode.py 96-103 -/
def engineeringFile (a : EngineeringArgs) : Except PyErr EngineeringModeFile := do
  let ch ← ChannelID.fromString a.channelId
  let mode ← EngineeringModeMode.fromString a.mode
  let timeout := if mode = .PER_TX ∧ a.timeout = 0 then 255 else a.timeout
  EngineeringModeFile.new mode 0 timeout ch a.eirp

/-- examples/engineering_mode.py 131-137. The conditions of lines 132 and 131 are the same. -/
def engineeringFactory (a : EngineeringArgs) : Except PyErr (Option FactorySettingsFile) :=
  if a.factoryGaussian ≠ 0xFF ∨ a.factoryParamp ≠ 0xFF then
    if a.factoryGaussian ≠ 0xFF ∨ a.factoryParamp ≠ 0xFF then
      (FactorySettingsFile.new { FactorySettingsFile.defaultArgs with
        gaussian := a.factoryGaussian, paramp := a.factoryParamp }).map some
    else if a.factoryGaussian ≠ 0xFF then
      (FactorySettingsFile.new { FactorySettingsFile.defaultArgs with gaussian := a.factoryGaussian }).map some
    else (FactorySettingsFile.new { FactorySettingsFile.defaultArgs with paramp := a.factoryParamp }).map some
  else .ok none

/-- examples/engineering_mode.py 118-129, examples/write_factory_settings.py 89-101 -/
def forwardIf (forward : Bool) (c : Command) : Except PyErr Command :=
  if forward then c.addForwardAction .D7ASP (some (.d7asp broadcast)) else .ok c

/-- examples/engineering_mode.py 138-147 -/
def addFactory (c : Command) : Option FactorySettingsFile → Except PyErr Command
  | some fact => do
    let id ← (SystemFile.factorySettings fact).id
    let w ← writeObject id (SystemFile.factorySettings fact).iter
    return c.addAction w
  | none => .ok c

/-- examples/engineering_mode.py 96-158: the command that is executed (again and again until it is confirmed);
`rand` is the random tag. -/
def engineeringCommand (rand : UInt8) (a : EngineeringArgs) : Except PyErr Command := do
  let em ← engineeringFile a
  let _ ← listOf (SystemFile.engineeringMode em).iter  -- line 109
  let c ← forwardIf a.forward (Command.empty rand)
  let fact ← engineeringFactory a
  let c ← addFactory c fact
  let id ← (SystemFile.engineeringMode em).id
  let w ← writeObject id (SystemFile.engineeringMode em).iter
  return c.addAction w

/-- examples/engineering_mode.py 168-172: the loop over the answers. The attribute `completed_with_error` may be missing; it
is used in line 169 if the execution is completed and in line 172, for the log text, if it is not. The log text itself is left
out. -/
def confirm (done : Bool) : List Command → Except PyErr Bool
  | [] => .ok done
  | a :: as =>
    match a.completedWithError with
    | none => .error .attributeError
    | some e => confirm (if a.executionCompleted && !e then true else done) as

/-- examples/engineering_mode.py 160-172: the loop that executes the command until it is confirmed. `call s r s'`: a call
of `execute_command` in state `s` has ended with `r` in state `s'`. `Repeat call s n r s'`: the loop makes `n` calls and
ends, by an exception if `r` is one. -/
inductive Repeat {S : Type} (call : S → Except PyErr (List Command) → S → Prop) : S → Nat → Option PyErr → S → Prop
  | raised (s s' : S) (e : PyErr) : call s (.error e) s' → Repeat call s 1 (some e) s'
  | done (s s' : S) (as : List Command) : call s (.ok as) s' → confirm false as = .ok true → Repeat call s 1 none s'
  | broken (s s' : S) (as : List Command) (e : PyErr) : call s (.ok as) s' → confirm false as = .error e →
      Repeat call s 1 (some e) s'
  | again (s s1 s' : S) (as : List Command) (n : Nat) (r : Option PyErr) : call s (.ok as) s1 →
      confirm false as = .ok false → Repeat call s1 n r s' → Repeat call s (n + 1) r s'

/-- examples/engineering_mode.py 63-77: the command sent on an interrupt. -/
def engineeringCleanup (rand : UInt8) (em : EngineeringModeFile) : Except PyErr Command := do
  let em := { em with mode := .OFF }
  let id ← (SystemFile.engineeringMode em).id
  let w ← writeObject id (SystemFile.engineeringMode em).iter
  return (Command.empty rand).addAction w

/-! ### examples/change_access_profile.py -/

/-- examples/change_access_profile.py 56-60 -/
structure ProfileArgs where
  channelId : List Char
  eirp : Int := 14
  specifier : Int := 0
  scanAutomationPeriod : Int := 0
  subbandBitmap : Int := 0

/-- examples/change_access_profile.py 64-84. `CT.compress` may return `None`, which the schema of SubProfile
rejects. -/
def profileCommand (rand : UInt8) (a : ProfileArgs) : Except PyErr Command := do
  let ch ← ChannelID.fromString a.channelId
  let header : ChannelHeader := ⟨ch.channelHeader.channelCoding, ch.channelHeader.channelClass,
    ch.channelHeader.channelBand⟩
  let sp ← match ← CT.compress a.scanAutomationPeriod with
    | some period => SubProfile.new a.subbandBitmap period
    | none => .error .valueError
  let sb ← SubBand.new ch.channelIndex ch.channelIndex a.eirp 86 255
  let p ← AccessProfile.new header (List.replicate 4 sp) (List.replicate 8 sb)
  let f ← AccessProfileFile.new a.specifier (some p)
  Command.createWithWriteSystemFile rand (.accessProfile f) .HOST none

/-! ### examples/write_factory_settings.py -/

/-- examples/write_factory_settings.py 67-110 with d7a/alp/command.py 205-221. The options are given as a record.
The list of line 106 is made in `writeObject`, after the forward action instead of before it. -/
def factoryCommand (rand : UInt8) (args : FactorySettingsFile) (forward : Bool) : Except PyErr Command := do
  let fs ← FactorySettingsFile.new args
  let _ ← listOf (SystemFile.factorySettings fs).iter  -- line 87
  let c ← forwardIf forward (Command.empty rand)
  let w ← writeObject (.int 1) (SystemFile.factorySettings fs).iter
  return c.addAction w

/-! ### examples/throughput_test.py -/

/-- `cmd.actions[0].operand.data` (examples/throughput_test.py 233): IndexError without an action,
AttributeError for an operand without data. -/
def firstData (c : Command) : Except PyErr (List Int) :=
  match c.actions with
  | [] => .error .indexError
  | a :: _ =>
    match a.operation with
    | .writeFileData d => .ok d.data
    | .returnFileData d => .ok d.data
    | _ => .error .attributeError

/-- examples/throughput_test.py 230-235: `type(cmd.actions[0].op) != ReturnFileData` always holds, `op` being a
number. -/
def payloadHasErrors (payload : List Int) : List Command → Except PyErr Bool
  | [] => .ok false
  | c :: cs => do
    let data ← firstData c
    let e ← payloadHasErrors payload cs
    return data ≠ payload || e

/-- examples/throughput_test.py 246-252: the commands that have been received, in a list instead of a dictionary
of lists; nothing depends on the keys but the order. AttributeError if the status has no addressee. -/
def received (l : List Command) (c : Command) : Except PyErr (List Command) :=
  match c.interfaceStatus with
  | none => .ok l
  | some a =>
    match a.operation with
    | .interfaceStatus o =>
      match o.status with
      | some _ => .ok (l ++ [c])
      | none => .error .attributeError
    | _ => .error .attributeError

/-- examples/throughput_test.py 222-227: the loop. `late i` tells whether the time is over at the `i`th check,
`count i` is the number of commands received when they are counted for the `i`th time. `Wait i t r`: from the
`i`th check on, with the number `t` counted last, the loop ends with the number `r`. -/
inductive Wait (late : Nat → Bool) (count : Nat → Nat) (msgCount : Int) : Nat → Nat → Nat → Prop
  | stop (i t : Nat) : ¬ ((t : Int) < msgCount ∧ late i = false) → Wait late count msgCount i t t
  | poll (i t r : Nat) : (t : Int) < msgCount → late i = false → Wait late count msgCount (i + 1) (count i) r →
      Wait late count msgCount i t r

/-- examples/throughput_test.py 230-237: whether "OK" is printed. -/
def verdict (payload : List Int) (msgCount : Int) (total : Nat) (cmds : List Command) : Except PyErr Bool := do
  let e ← payloadHasErrors payload cmds
  return !e && (total : Int) = msgCount

end Verif.Examples
