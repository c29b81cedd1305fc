import Verif.Model.Alp

/-! An object is `Built` if calling its constructor with its attribute values succeeds, and the same
holds for the objects among its attributes: exactly the objects a user can construct. -/

namespace Verif

def CT.Built (c : CT) : Prop := CT.new c.exp c.mant = .ok c
def ChannelID.Built (c : ChannelID) : Prop := ChannelID.new c.channelHeader c.channelIndex = .ok c
def ChannelStatusIdentifier.Built (c : ChannelStatusIdentifier) : Prop :=
  ChannelStatusIdentifier.new c.channelBand c.channelBandwidth c.channelIndex = .ok c
def SubBand.Built (b : SubBand) : Prop :=
  SubBand.new b.channelIndexStart b.channelIndexEnd b.eirp b.cca b.duty = .ok b
def FileHeader.Built (h : FileHeader) : Prop :=
  FileHeader.new h.permissions h.properties h.alpCommandFileId h.interfaceFileId h.fileSize
    h.allocatedSize = .ok h
def FileHeaderOperand.Built (o : FileHeaderOperand) : Prop :=
  FileHeaderOperand.new o.fileId o.fileHeader = .ok o ∧ o.fileHeader.Built
def Addressee.Built (a : Addressee) : Prop :=
  Addressee.new a.accessClass a.idType a.id a.nlsMethod = .ok a ∧ ∀ c, a.id = .ct c → c.Built
def Configuration.Built (c : Configuration) : Prop := c.dormTo.Built ∧ c.addressee.Built
def Status.Built (s : Status) : Prop :=
  Status.new s.channelId s.rxLevel s.linkBudget s.targetRxLevel s.nls s.missed s.retry s.unicast
    s.fifoToken s.seqNr s.responseTo s.addressee = .ok s ∧
  s.channelId.Built ∧ s.responseTo.Built ∧ s.addressee.Built
def Length.Built (l : Length) : Prop := Length.new l.value = .ok l
def Offset.Built (o : Offset) : Prop := Offset.new o.id o.offset = .ok o ∧ o.offset.Built
def Data.Built (d : Data) : Prop := Data.new d.data d.offset = .ok d ∧ d.offset.Built
def DataRequest.Built (d : DataRequest) : Prop :=
  DataRequest.new d.length.value d.offset = .ok d ∧ d.offset.Built
def FileIdOperand.Built (o : FileIdOperand) : Prop := FileIdOperand.new o.fileId = .ok o
def QueryOperand.Built (q : QueryOperand) : Prop :=
  QueryOperand.new q.type q.maskPresent q.params q.compareLength q.compareValue q.fileAOffset = .ok q
  ∧ q.compareLength.Built ∧ q.fileAOffset.Built
def TagId.Built (t : TagId) : Prop := TagId.new t.tagId = .ok t
def InterfaceStatusOperand.Built (o : InterfaceStatusOperand) : Prop :=
  InterfaceStatusOperand.new o.interfaceId o.status = .ok o ∧ ∀ s, o.status = some s → s.Built
def IndirectInterfaceOperand.Built (o : IndirectInterfaceOperand) : Prop :=
  IndirectInterfaceOperand.new o.interfaceFileId o.overload = .ok o ∧
  ∀ a, o.overload = some a → a.Built

instance (c : CT) : Decidable c.Built := inferInstanceAs (Decidable (_ = _))
instance (c : ChannelID) : Decidable c.Built := inferInstanceAs (Decidable (_ = _))
instance (c : ChannelStatusIdentifier) : Decidable c.Built := inferInstanceAs (Decidable (_ = _))
instance (c : SubBand) : Decidable c.Built := inferInstanceAs (Decidable (_ = _))
instance (c : FileHeader) : Decidable c.Built := inferInstanceAs (Decidable (_ = _))
instance (c : FileHeaderOperand) : Decidable c.Built := inferInstanceAs (Decidable (_ ∧ _))
instance (c : Length) : Decidable c.Built := inferInstanceAs (Decidable (_ = _))
instance (c : Offset) : Decidable c.Built := inferInstanceAs (Decidable (_ ∧ _))
instance (c : Data) : Decidable c.Built := inferInstanceAs (Decidable (_ ∧ _))
instance (c : DataRequest) : Decidable c.Built := inferInstanceAs (Decidable (_ ∧ _))
instance (c : FileIdOperand) : Decidable c.Built := inferInstanceAs (Decidable (_ = _))
instance (c : QueryOperand) : Decidable c.Built := inferInstanceAs (Decidable (_ ∧ _))
instance (c : TagId) : Decidable c.Built := inferInstanceAs (Decidable (_ = _))

end Verif
