import Verif.Model.AlpParser
import Verif.Model.Serial
import Verif.Model.Dll
import Verif.Model.SystemTable
import Verif.Model.Print

/-! Model of tools/parse_hexstring.py: which objects are printed (`main`), and the text that appears (`stdout`). -/

namespace Verif.HexTool

open Verif

/-- tools/parse_hexstring.py 34: the values of `--type`. -/
inductive Kind | fg | bg | alp | serial | systemfile
  deriving DecidableEq, Repr

/-- Python 2's whitespace characters in `str.strip`. Characters stand for the bytes of the argument. -/
def isSpace (c : Char) : Bool :=
  c == ' ' || c == '\t' || c == '\n' || c == '\x0b' || c == '\x0c' || c == '\r'

/-- `s.strip()` -/
def strip (s : List Char) : List Char := ((s.dropWhile isSpace).reverse.dropWhile isSpace).reverse

/-- `s.replace(' ', '')` -/
def removeSpaces (s : List Char) : List Char := s.filter (· != ' ')

/-- The value of a hexadecimal digit. -/
def hexDigit (c : Char) : Option Nat :=
  if '0' ≤ c ∧ c ≤ '9' then some (c.toNat - '0'.toNat)
  else if 'a' ≤ c ∧ c ≤ 'f' then some (c.toNat - 'a'.toNat + 10)
  else if 'A' ≤ c ∧ c ≤ 'F' then some (c.toNat - 'A'.toNat + 10)
  else none

/-- `s.decode("hex")` of Python 2: TypeError for an odd number of characters and for other characters. -/
def decodeHex : List Char → Except PyErr (List UInt8)
  | [] => .ok []
  | [_] => .error .typeError
  | a :: b :: r =>
    match hexDigit a, hexDigit b, decodeHex r with
    | some h, some l, .ok bs => .ok (UInt8.ofNat (16 * h + l) :: bs)
    | _, _, _ => .error .typeError

/-- tools/parse_hexstring.py 41-42 -/
def bytes (data : List Char) : Except PyErr (List UInt8) := decodeHex (removeSpaces (strip data))

/-- What is printed: a command, a file, or the messages and `info`. -/
inductive Printed
  | command (c : Command)
  | file (f : SystemFile)
  | messages (o : Serial.Output)
  deriving DecidableEq

/-- The result of a parser function. -/
def value {α : Type} : Res α → Except PyErr α
  | .ok a _ => .ok a
  | .err e _ => .error e

/-- tools/parse_hexstring.py 57: `msgtype, cmds, info = parser.parse(data)` with the pair that the DLL parser
returns is a ValueError. -/
def unpackPair : Except PyErr Dll.Output → Except PyErr Printed
  | .error e => .error e
  | .ok _ => .error .valueError

/-- tools/parse_hexstring.py 41-61. `fileId` is `none` if the option is not given; `SystemFileIds(None)` is a
ValueError. -/
def main (kind : Kind) (fileId : Option Int) (data : List Char) : Except PyErr Printed := do
  let data ← bytes data
  match kind with
  | .alp => (value (AlpParser.parse data.length (stream data))).map .command
  | .systemfile =>
    match fileId with
    | none => .error .valueError
    | some id => do
      let fileType ← SystemFiles.lookup id
      (value (fileType.parse (stream data))).map .file
  | .serial => ((Serial.Parser.new false).parse data).2.map .messages
  | .fg => unpackPair ((Dll.Parser.new .FOREGROUND).parse data).2
  | .bg => unpackPair ((Dll.Parser.new .BACKGROUND).parse data).2

/-- The text of a message, tools/parse_hexstring.py 59: a byte string is shown as it is, a byte as the character with
its number. -/
def msgText (e : Print.Env) : Serial.Msg → Except PyErr Print.Text
  | .command c => Print.command e c
  | .bytes b => .ok (b.map fun x => Char.ofNat x.toNat)
  | .rebooted reason => .ok (Print.dec reason)

/-- tools/parse_hexstring.py 58-59: one line per message. -/
def lines (e : Print.Env) : List (Int × Serial.Msg) → Except PyErr Print.Text
  | [] => .ok []
  | (_, m) :: ms => do
    let t ← msgText e m
    let r ← lines e ms
    return t ++ '\n' :: r

/-- tools/parse_hexstring.py 44, 54, 58-61: what appears for an object. `info` is the text of the dictionary of line 61
(its order is that of the hash table). -/
def Printed.text (e : Print.Env) (info : Serial.Output → Print.Text) : Printed → Except PyErr Print.Text
  | .command c => (· ++ ['\n']) <$> Print.command e c
  | .file f => (· ++ ['\n']) <$> Print.systemFile e f
  | .messages o => (· ++ info o ++ ['\n']) <$> lines e o.cmds

/-- tools/parse_hexstring.py 41-61: everything that is printed. -/
def stdout (e : Print.Env) (info : Serial.Output → Print.Text) (kind : Kind) (fileId : Option Int) (data : List Char) :
    Except PyErr Print.Text :=
  main kind fileId data >>= fun p => p.text e info

end Verif.HexTool
