import Verif.Model.Phy

/-! Model of the string notation in d7a/phy/channel_header.py and d7a/phy/channel_id.py. Strings are
lists of characters. -/

namespace Verif

/-- d7a/phy/channel_header.py 30-33: `.name` -/
def ChannelCoding.name : ChannelCoding → List Char
  | .PN9 => ['P', 'N', '9']
  | .RFU => ['R', 'F', 'U']
  | .FEC_PN9 => ['F', 'E', 'C', '_', 'P', 'N', '9']
  | .CW => ['C', 'W']

/-- d7a/phy/channel_header.py 35-36 -/
def ChannelCoding.toChar (c : ChannelCoding) : List Char := c.name.take 1

/-- d7a/phy/channel_header.py 38-44 -/
def ChannelCoding.fromChar (c : Char) : Except PyErr ChannelCoding :=
  if c = 'P' then .ok .PN9
  else if c = 'F' then .ok .FEC_PN9
  else if c = 'C' then .ok .CW
  else .error .notImplemented

/-- d7a/phy/channel_header.py 47-50: `.name` -/
def ChannelClass.name : ChannelClass → List Char
  | .LO_RATE => ['L', 'O', '_', 'R', 'A', 'T', 'E']
  | .LORA => ['L', 'O', 'R', 'A']
  | .NORMAL_RATE => ['N', 'O', 'R', 'M', 'A', 'L', '_', 'R', 'A', 'T', 'E']
  | .HI_RATE => ['H', 'I', '_', 'R', 'A', 'T', 'E']

/-- d7a/phy/channel_header.py 54: `self.value == ChannelClass.LORA` compares an integer with an Enum
member, which is False for every member. -/
def ChannelClass.valueEqMember (_value : Int) (_member : ChannelClass) : Bool := false

/-- d7a/phy/channel_header.py 52-57 -/
def ChannelClass.toChar (c : ChannelClass) : List Char :=
  if ChannelClass.valueEqMember c.value .LORA then ['R'] else c.name.take 1

/-- d7a/phy/channel_header.py 59-66 -/
def ChannelClass.fromChar (c : Char) : Except PyErr ChannelClass :=
  if c = 'L' then .ok .LO_RATE
  else if c = 'N' then .ok .NORMAL_RATE
  else if c = 'H' then .ok .HI_RATE
  else if c = 'R' then .ok .LORA
  else .error .notImplemented

/-- d7a/phy/channel_header.py 69-72: `.name` -/
def ChannelBand.name : ChannelBand → List Char
  | .NOT_IMPL => ['N', 'O', 'T', '_', 'I', 'M', 'P', 'L']
  | .BAND_433 => ['B', 'A', 'N', 'D', '_', '4', '3', '3']
  | .BAND_868 => ['B', 'A', 'N', 'D', '_', '8', '6', '8']
  | .BAND_915 => ['B', 'A', 'N', 'D', '_', '9', '1', '5']

/-- d7a/phy/channel_header.py 74-80 -/
def ChannelBand.fromString (s : List Char) : Except PyErr ChannelBand :=
  if s = ['4', '3', '3'] then .ok .BAND_433
  else if s = ['8', '6', '8'] then .ok .BAND_868
  else if s = ['9', '1', '5'] then .ok .BAND_915
  else .error .notImplemented

/-- d7a/phy/channel_header.py 111: `s.lstrip("BAND_")` removes all leading characters that occur in
the argument. -/
def lstrip (s chars : List Char) : List Char := s.dropWhile fun c => chars.contains c

/-- d7a/phy/channel_header.py 110-115 -/
def ChannelHeader.str (h : ChannelHeader) : List Char :=
  lstrip h.channelBand.name ['B', 'A', 'N', 'D', '_'] ++ h.channelClass.toChar ++
  h.channelCoding.toChar

/-- d7a/phy/channel_header.py 120-121: `s[i]` -/
def charAt (s : List Char) (i : Nat) : Except PyErr Char :=
  match s[i]? with
  | some c => .ok c
  | none => .error .indexError

/-- d7a/phy/channel_header.py 117-122 -/
def ChannelHeader.fromString (s : List Char) : Except PyErr ChannelHeader := do
  let band ← ChannelBand.fromString (s.take 3)
  let c ← charAt s 3
  let cl ← ChannelClass.fromChar c
  let c ← charAt s 4
  let coding ← ChannelCoding.fromChar c
  return ⟨coding, cl, band⟩

/-- d7a/phy/channel_id.py 54: `"{0:0>3}".format(i)` for a non-negative integer: decimal notation, filled
with zeros on the left to three characters. -/
def format3 (i : Nat) : List Char :=
  List.replicate (3 - (Nat.toDigits 10 i).length) '0' ++ Nat.toDigits 10 i

/-- d7a/phy/channel_id.py 53-54. Only for a non-negative index, which construction guarantees. -/
def ChannelID.str (c : ChannelID) : List Char :=
  c.channelHeader.str ++ format3 c.channelIndex.toNat

/-- White space of C's `isspace`, used by `int(s)` of Python 2 (d7a/phy/channel_id.py 59). -/
def isWhite (c : Char) : Bool :=
  c == ' ' || c == '\t' || c == '\n' || c == '\x0b' || c == '\x0c' || c == '\r'

/-- The sign at the beginning of `int`'s argument (d7a/phy/channel_id.py 59), and the characters after it. -/
def splitSign : List Char → Bool × List Char
  | '+' :: r => (false, r)
  | '-' :: r => (true, r)
  | r => (false, r)

/-- d7a/phy/channel_id.py 59: `int(s)` of Python 2, whose `PyOS_strtol` and `PyOS_strtoul` both skip white
space: white space, a sign, white space, digits, white space. -/
def pyInt (s : List Char) : Except PyErr Int :=
  let p := splitSign (s.dropWhile isWhite)
  let s := p.2.dropWhile isWhite
  let digits := s.takeWhile Char.isDigit
  if digits ≠ [] ∧ (s.dropWhile Char.isDigit).all isWhite then
    .ok (if p.1 then -(Nat.ofDigitChars 10 digits 0 : Int) else Nat.ofDigitChars 10 digits 0)
  else .error .valueError

/-- d7a/phy/channel_id.py 56-60 -/
def ChannelID.fromString (s : List Char) : Except PyErr ChannelID := do
  let h ← ChannelHeader.fromString (s.take 5)
  let i ← pyInt ((s.drop 5).take 3)
  ChannelID.new h i

end Verif
