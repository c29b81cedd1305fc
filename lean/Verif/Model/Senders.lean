import Verif.Model.Serial
import Verif.Model.Alp

/-! Model of the commands that examples/throughput_test.py sends. -/

namespace Verif.Examples

/-- The four runs of examples/throughput_test.py 136-187. -/
inductive Phase | broadcastQos | broadcast | unicastQos | unicast
  deriving DecidableEq, Repr

/-- examples/throughput_test.py 138-145, 152-158, 164-171, 177-184 -/
def Phase.configuration (uid : Int) : Phase → Except PyErr Configuration
  | .broadcastQos => do
    let id ← CT.new 0 1
    let a ← Addressee.new 0x01 .NBID (.ct id) .NONE
    return ⟨{ QoS.default with respMod := .ANY }, ⟨0, 0⟩, a⟩
  | .broadcast => do
    let a ← Addressee.new 0x01 .NOID .none .NONE
    return ⟨{ QoS.default with respMod := .NO }, ⟨0, 0⟩, a⟩
  | .unicastQos => do
    let a ← Addressee.new 0x01 .UID (.int uid) .NONE
    return ⟨{ QoS.default with respMod := .ANY }, ⟨0, 0⟩, a⟩
  | .unicast => do
    let a ← Addressee.new 0x01 .UID (.int uid) .NONE
    return ⟨{ QoS.default with respMod := .NO }, ⟨0, 0⟩, a⟩

/-- examples/throughput_test.py 127: `range(n)`; empty if `n` is negative. -/
def payload (n : Int) : List Int := (List.range n.toNat).map Int.ofNat

/-- examples/throughput_test.py 127-132, 138-203: the command of a run; `rand` is its random tag. -/
def Phase.command (phase : Phase) (rand : UInt8) (uid n : Int) : Except PyErr Command := do
  let cfg ← phase.configuration uid
  Command.createWithReturnFileDataAction rand 0x40 (payload n) 0 none .D7ASP (some (.d7asp cfg))

/-- modem/modem.py 151, 159 for this command (examples/throughput_test.py 210): the bytes written to the serial
port, or the exception; with the parser afterwards. -/
def Phase.send (phase : Phase) (p : Serial.Parser) (rand : UInt8) (uid n : Int) :
    Serial.Parser × Except PyErr (List UInt8) :=
  match phase.command rand uid n with
  | .error e => (p, .error e)
  | .ok c => p.buildSerialFrame c.iter

end Verif.Examples
