import Verif.Spec.Gateway
import Verif.Spec.Layout

/-! Specification of a gateway that sends commands to other nodes by radio and passes on their answers. Nothing here is
code of the repository: the messages are written from the ALP format. -/

namespace Verif.Modem

open Verif Verif.Serial

/-- The bytes are this D7ASP configuration (format table in Spec/Layout.lean). -/
def Describes (raw : List UInt8) (cfg : Configuration) : Prop :=
  cfg.Built ∧ bytesToBits raw = fieldBits cfg.fields

/-- The bytes are this D7ASP status (format table in Spec/Layout.lean). -/
def Reports (raw : List UInt8) (st : Status) : Prop :=
  st.Built ∧ bytesToBits raw = fieldBits st.fields

/-- The command with these operations for the nodes that the configuration addresses. -/
def asking (tag : UInt8) (cfg : Configuration) (ops : List FileOp) : Command where
  actions := .regular false false (.forward ⟨.D7ASP, some (.d7asp cfg)⟩) :: ops.map FileOp.action
  interfaceStatus := none
  generateTagRequestAction := true
  tagId := some tag.toNat
  sendTagResponseWhenCompleted := true
  executionCompleted := false
  completedWithError := none

/-- Its bytes: tag request (0xB4), forward (0x32) to the interface 0xD7 with the configuration, operations. -/
def askingBytes (tag : UInt8) (raw : List UInt8) (ops : List FileOp) : List UInt8 :=
  [0xB4, tag, 0x32, 0xD7] ++ raw ++ (ops.map FileOp.bytes).flatten

/-- The answer of a node: the status under which it was received, and what was read (file, offset and data). -/
structure NodeAnswer where
  status : List UInt8
  results : List (UInt8 × Nat × List UInt8)

/-- The message that brings it: the tag, execution goes on (0x23); the interface status (0x62) of the interface 0xD7,
its length and its bytes; the data. -/
def NodeAnswer.message (tag : UInt8) (x : NodeAnswer) : List UInt8 :=
  [0x23, tag, 0x62, 0xD7, UInt8.ofNat x.status.length] ++ x.status ++ (x.results.map returned).flatten

/-- The message as the application sees it. -/
def heard (tag : UInt8) (st : Status) (rs : List (UInt8 × Nat × List UInt8)) : Command where
  actions := rs.map fun x => .regular false false (.returnFileData
    ⟨⟨x.1.toNat, ⟨x.2.1⟩⟩, ⟨x.2.2.length⟩, x.2.2.map fun b => (b.toNat : Int)⟩)
  interfaceStatus := some (.status 1 (.interfaceStatus ⟨0xD7, some st⟩))
  generateTagRequestAction := false
  tagId := some tag.toNat
  sendTagResponseWhenCompleted := true
  executionCompleted := false
  completedWithError := some false

/-- The message fits in a frame; the status is one with a receive level of at most 127, of a node with a unique
or virtual identifier or none. -/
def NodeAnswer.Readable (x : NodeAnswer) : Prop :=
  (∃ st, Reports x.status st ∧ st.rxLevel ≤ 127 ∧ st.addressee.idType ≠ .NBID) ∧
    (∀ r ∈ x.results, r.2.1 < 2 ^ 30) ∧ (x.message 0).length ≤ 255

/-- What goes over the air: from configuration and operations to the answers of the nodes, in the order in which they
are received. -/
abbrev Air (D : Type) := D → Configuration → List FileOp → D × List NodeAnswer

/-- The gateway sends the operations to the nodes, passes on one message for each answer, and says at the end that the
execution is completed. -/
def Gateway.Forwards {D : Type} (g : Gateway D) (air : Air D) : Prop :=
  ∀ d tag cfg raw ops, Describes raw cfg → (∀ op ∈ ops, op.Valid) → g.handle d (askingBytes tag raw ops) =
    ((air d cfg ops).1, (air d cfg ops).2.map (NodeAnswer.message tag) ++ [answer tag []])

/-- The list consists of these answers, each with its status, and the message that the execution is completed. -/
def Brings (tag : UInt8) (xs : List NodeAnswer) (cs : List Command) : Prop :=
  ∃ l, cs = l ++ [answered tag []] ∧
    List.Forall₂ (fun c x => ∃ st, Reports x.status st ∧ c = heard tag st x.results) l xs

end Verif.Modem
