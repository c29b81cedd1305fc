import Verif.Model.CT

/-! Model of d7a/d7anp/addressee.py -/

namespace Verif

/-- d7a/d7anp/addressee.py 36-40 -/
inductive IdType | NBID | NOID | UID | VID
  deriving DecidableEq, Repr

/-- d7a/d7anp/addressee.py 37-40: `.value` -/
def IdType.value : IdType → Int
  | .NBID => 0 | .NOID => 1 | .UID => 2 | .VID => 3

/-- d7a/d7anp/addressee.py 122: `IdType(x)` -/
def IdType.ofValue (x : Int) : Except PyErr IdType :=
  if x = 0 then .ok .NBID else if x = 1 then .ok .NOID else if x = 2 then .ok .UID
  else if x = 3 then .ok .VID else .error .valueError

/-- d7a/d7anp/addressee.py 42-50 -/
inductive NlsMethod
  | NONE | AES_CTR | AES_CBC_MAC_128 | AES_CBC_MAC_64 | AES_CBC_MAC_32
  | AES_CCM_128 | AES_CCM_64 | AES_CCM_32
  deriving DecidableEq, Repr

/-- d7a/d7anp/addressee.py 43-50: `.value` -/
def NlsMethod.value : NlsMethod → Int
  | .NONE => 0 | .AES_CTR => 1 | .AES_CBC_MAC_128 => 2 | .AES_CBC_MAC_64 => 3
  | .AES_CBC_MAC_32 => 4 | .AES_CCM_128 => 5 | .AES_CCM_64 => 6 | .AES_CCM_32 => 7

/-- d7a/d7anp/addressee.py 123: `NlsMethod(x)` -/
def NlsMethod.ofValue (x : Int) : Except PyErr NlsMethod :=
  if x = 0 then .ok .NONE else if x = 1 then .ok .AES_CTR else if x = 2 then .ok .AES_CBC_MAC_128
  else if x = 3 then .ok .AES_CBC_MAC_64 else if x = 4 then .ok .AES_CBC_MAC_32
  else if x = 5 then .ok .AES_CCM_128 else if x = 6 then .ok .AES_CCM_64
  else if x = 7 then .ok .AES_CCM_32 else .error .valueError

/-- The dynamically typed `id` attribute of an addressee: `None`, an int or a CT. -/
inductive AddrId
  | none
  | int (i : Int)
  | ct (c : CT)
  deriving DecidableEq, Repr

/-- d7a/d7anp/addressee.py 52, 101-105 -/
structure Addressee where
  accessClass : Int
  idType : IdType
  id : AddrId
  nlsMethod : NlsMethod
  deriving DecidableEq, Repr

namespace Addressee

/-- d7a/d7anp/addressee.py 60-89: the `id` part of the four schema alternatives. -/
def idOk : IdType → AddrId → Bool
  | .NBID, .ct _ => true
  | .NOID, .none => true
  | .VID, .int i => 0 ≤ i ∧ i ≤ 0xFFFF
  | .UID, .int i => 0 ≤ i ∧ i ≤ 0xFFFFFFFFFFFFFFFF
  | _, _ => false

/-- d7a/d7anp/addressee.py 60-106 -/
def new (accessClass : Int) (idType : IdType) (id : AddrId) (nls : NlsMethod) :
    Except PyErr Addressee :=
  validate (isByte accessClass ∧ idOk idType id = true) ⟨accessClass, idType, id, nls⟩

/-- d7a/d7anp/addressee.py 101: `Addressee()` -/
def default : Addressee := ⟨0, .NOID, .none, .NONE⟩

/-- d7a/d7anp/addressee.py 55-58, 112-117 -/
def lengthFor : IdType → Nat
  | .NBID => 1
  | .NOID => 0
  | .VID => 2
  | .UID => 8

/-- d7a/d7anp/addressee.py 126 -/
def parseRawId (idType : IdType) : P AddrId :=
  if lengthFor idType > 0 then do
    let v ← P.uint (lengthFor idType * 8)
    return .int v
  else return .none

/-- d7a/d7anp/addressee.py 127-128: an NBID byte is passed through `CT().compress`. -/
def nbidId (idType : IdType) (id : AddrId) : Except PyErr AddrId :=
  match idType, id with
  | .NBID, .int v =>
    match CT.compress v with
    | .error e => .error e
    | .ok (some c) => .ok (.ct c)
    | .ok none => .ok .none
  | _, i => .ok i

/-- d7a/d7anp/addressee.py 119-130 -/
def parse : P Addressee := do
  P.pad 2
  let idType ← P.uint 2
  let idType ← P.lift (IdType.ofValue idType)
  let nls ← P.uint 4
  let nls ← P.lift (NlsMethod.ofValue nls)
  let cl ← P.uint 8
  let id ← parseRawId idType
  let id ← P.lift (nbidId idType id)
  P.lift (new cl idType id nls)

/-- d7a/d7anp/addressee.py 140-145: the integer handed to `struct.pack(">Q", ...)`;
`None` is rejected by struct, an int has no `compressed_value`. -/
def idValue (a : Addressee) : Except PyErr Int :=
  match a.idType, a.id with
  | .NBID, .ct c => .ok c.compressedValue
  | .NBID, _ => .error .attributeError
  | _, .int i => .ok i
  | _, _ => .error .structError

/-- d7a/d7anp/addressee.py 132-146 -/
def iter (a : Addressee) : Gen :=
  let byte : Int := 0
  let byte := Int.lor byte (a.idType.value <<ₚ 4)
  let byte := byte + a.nlsMethod.value
  .int byte ++ .int a.accessClass ++
  (if lengthFor a.idType > 0 then
    .ofBytes do
      let v ← a.idValue
      let bs ← packU 8 v
      return bs.drop (8 - lengthFor a.idType)
   else .nil)

end Addressee
end Verif
