import Verif.Py

/-! Model of d7a/support/Crc.py. The function `crcmod.predefined.mkCrcFun('crc-ccitt-false')` is a
library function; it is modelled by the definition of that CRC: polynomial 0x11021, initial value
0xFFFF, bits most significant first, no final xor. -/

namespace Verif.Crc

/-- One message bit shifted into the register. -/
def stepBit (crc : BitVec 16) (b : Bool) : BitVec 16 :=
  if crc.msb ^^ b then (crc <<< 1) ^^^ 0x1021#16 else crc <<< 1

/-- The CRC register after a bit string. -/
def bits (crc : BitVec 16) (l : List Bool) : BitVec 16 := l.foldl stepBit crc

/-- d7a/support/Crc.py 29-30: the number `crc`. -/
def crc16 (bs : List UInt8) : BitVec 16 := bits 0xFFFF#16 (bytesToBits bs)

/-- d7a/support/Crc.py 28-31 (`hexlify(...).decode('hex')` is the identity on byte strings). -/
def calculateCrc (bs : List UInt8) : UInt8 × UInt8 :=
  (UInt8.ofNat (((crc16 bs).toNat >>> 8) &&& 0xff), UInt8.ofNat ((crc16 bs).toNat &&& 0xff))

/-- The published check value of CRC-16/CCITT-FALSE, and the two values in
d7a/serial_modem_interface/test/parser.py. -/
example : crc16 [0x31, 0x32, 0x33, 0x34, 0x35, 0x36, 0x37, 0x38, 0x39] = 0x29B1#16 := by decide +kernel
example : calculateCrc [0x20, 0x40, 0, 4, 0, 0xf3, 0, 0] = (0xA4, 0xBE) := by decide +kernel
example : calculateCrc [0x20, 0x40, 0, 4, 0, 0xf3, 0, 0, 0x20, 0x40, 0, 4, 0, 0xf3, 0, 0] =
    (0xDC, 0xF8) := by decide +kernel

end Verif.Crc
