/-!
# The fragment of the Python 2.7 runtime and of `bitstring` that pyd7a relies on

Nothing in this file mirrors a file of /repo; it models the language and library behaviour used by
all of them.  Exceptions are values, streams keep their position, generators are lists of items
with an optional final exception.
-/

namespace Verif

/-- Exceptions raised by the modelled code.
* `readError`  `bitstring.ReadError`
* `parseError` `d7a.parse_error.ParseError` (d7a/parse_error.py)
* `assertion hasArg` an `AssertionError`; `hasArg` tells whether it carries a message
  (`assert c, "msg"`) or has an empty `args` tuple (`assert c`)
* `structError` `struct.error`
* `nonTermination` is not a Python exception: loops are modelled with a step budget, and this value
  marks an exhausted budget, i.e. a loop that would run on. It is proved never to occur.
* the others are the Python builtins. -/
inductive PyErr
  | readError
  | parseError
  | valueError
  | assertion (hasArg : Bool)
  | attributeError
  | typeError
  | keyError
  | indexError
  | structError
  | notImplemented
  | nonTermination
  deriving DecidableEq, Repr

/-! ## Integers -/

/-- Python `a << k` for a non-negative count. -/
def shl (a : Int) (k : Nat) : Int := a * 2 ^ k

/-- Python `a >> k` (rounds towards minus infinity). -/
def shr (a : Int) (k : Nat) : Int := a / 2 ^ k

@[inherit_doc] infixl:75 " <<ₚ " => shl
@[inherit_doc] infixl:75 " >>ₚ " => shr

/-! ## Bits and bytes -/

/-- The `w` low bits of `n`, most significant first. -/
def bitsOf : Nat → Nat → List Bool
  | 0, _ => []
  | w + 1, n => n.testBit w :: bitsOf w n

/-- Big-endian value of a bit string. -/
def bitsToNat (l : List Bool) : Nat := l.foldl (fun a b => 2 * a + b.toNat) 0

/-- Two's complement value of a bit string (bitstring's `int:n`). -/
def bitsToInt (l : List Bool) : Int :=
  match l with
  | true :: _ => (bitsToNat l : Int) - 2 ^ l.length
  | _ => bitsToNat l

/-- The bits of a byte string, in wire order. -/
def bytesToBits (bs : List UInt8) : List Bool := bs.flatMap fun b => bitsOf 8 b.toNat

/-- Groups bits into bytes (a trailing partial byte is dropped; never used on one). -/
def bitsToBytes (l : List Bool) : List UInt8 :=
  if 8 ≤ l.length then UInt8.ofNat (bitsToNat (l.take 8)) :: bitsToBytes (l.drop 8) else []
termination_by l.length
decreasing_by simp; omega

/-! ## `bitstring.ConstBitStream` -/

/-- A bit stream: the position (`s.pos`, in bits) and the bits not yet read. -/
structure St where
  pos : Nat
  rest : List Bool
  deriving DecidableEq, Repr

/-- `ConstBitStream(bytes)`. -/
def stream (bs : List UInt8) : St := ⟨0, bytesToBits bs⟩

/-- Outcome of a parser; the stream state is also kept on an exception. -/
inductive Res (α : Type) where
  | ok (a : α) (s : St)
  | err (e : PyErr) (s : St)
  deriving DecidableEq, Repr

/-- A function reading from a stream. -/
def P (α : Type) : Type := St → Res α

namespace P

def pure {α : Type} (a : α) : P α := fun s => .ok a s

def bind {α β : Type} (p : P α) (f : α → P β) : P β := fun s =>
  match p s with
  | .ok a s' => f a s'
  | .err e s' => .err e s'

instance : Monad P where
  pure := P.pure
  bind := P.bind

/-- `raise e`. -/
def raise {α : Type} (e : PyErr) : P α := fun s => .err e s

/-- `assert c` (`hasArg = false`) or `assert c, "message"` (`hasArg = true`). -/
def assert (c : Prop) [Decidable c] (hasArg : Bool) : P Unit := fun s =>
  if c then .ok () s else .err (.assertion hasArg) s

/-- A computation not touching the stream (e.g. a constructor call). -/
def lift {α : Type} (x : Except PyErr α) : P α := fun s =>
  match x with
  | .ok a => .ok a s
  | .error e => .err e s

/-- Reads the next `n` bits; `ReadError`, without moving, if there are not enough. -/
def takeBits (n : Nat) : P (List Bool) := fun s =>
  if n ≤ s.rest.length then .ok (s.rest.take n) ⟨s.pos + n, s.rest.drop n⟩
  else .err .readError s

/-- `s.read("uint:n")`. -/
def uint (n : Nat) : P Int := do
  let l ← takeBits n
  return (bitsToNat l : Int)

/-- `s.read("int:n")`. -/
def sint (n : Nat) : P Int := do
  let l ← takeBits n
  return bitsToInt l

/-- `s.read("bool")`. -/
def bool : P Bool := do
  let l ← takeBits 1
  return bitsToNat l == 1

/-- `s.read("pad:n")`, or a `bits:n` / `uint:n` whose value is not used. -/
def pad (n : Nat) : P Unit := do
  let _ ← takeBits n
  return ()

/-- `s.read("bytes:n")`. -/
def bytes (n : Nat) : P (List UInt8) := do
  let l ← takeBits (8 * n)
  return bitsToBytes l

/-- `x = None; if c: x = p(s)` -/
def opt {α : Type} (c : Bool) (p : P α) : P (Option α) :=
  if c then (do let a ← p; return some a) else return none

/-- `s.bytepos`: raises `ByteAlignError` (a `bitstring.Error`, modelled as `ValueError`) when the
position is not a multiple of 8. -/
def bytepos : P Nat := fun s =>
  if s.pos % 8 = 0 then .ok (s.pos / 8) s else .err .valueError s

end P

/-! ## Generators and `bytearray` -/

/-- An item yielded by an `__iter__` generator: an int, a one-character `str`, or some other
object (which `bytearray` rejects). -/
inductive Item
  | int (i : Int)
  | chr (b : UInt8)
  | obj
  deriving DecidableEq, Repr

/-- A generator: what it yields, and the exception raised after that, if any. -/
structure Gen where
  items : List Item
  exc : Option PyErr
  deriving DecidableEq, Repr

namespace Gen

/-- A generator that yields nothing. -/
def nil : Gen := ⟨[], none⟩

/-- `yield i` -/
def int (i : Int) : Gen := ⟨[.int i], none⟩

/-- `raise e` -/
def raise (e : PyErr) : Gen := ⟨[], some e⟩

/-- First one generator, then the other (not started if the first one raises). -/
def append (g h : Gen) : Gen :=
  match g.exc with
  | some e => ⟨g.items, some e⟩
  | none => ⟨g.items ++ h.items, h.exc⟩

instance : Append Gen := ⟨append⟩

/-- `for byte in bytearray(...): yield byte` where computing the argument may raise. -/
def ofBytes (x : Except PyErr (List UInt8)) : Gen :=
  match x with
  | .ok bs => ⟨bs.map fun b => .int b.toNat, none⟩
  | .error e => raise e

/-- `yield chr(i)`: `ValueError` outside 0..255. -/
def chr (i : Int) : Gen :=
  if 0 ≤ i ∧ i ≤ 255 then ⟨[.chr (UInt8.ofNat i.toNat)], none⟩ else raise .valueError

/-- Concatenation of a list of generators. -/
def concat : List Gen → Gen
  | [] => nil
  | g :: gs => g ++ concat gs

end Gen

/-- What `bytearray(iterable)` does with one item. -/
def Item.toByte : Item → Except PyErr UInt8
  | .int i => if 0 ≤ i ∧ i ≤ 255 then .ok (UInt8.ofNat i.toNat) else .error .valueError
  | .chr b => .ok b
  | .obj => .error .typeError

/-- Converts items in order, stopping at the first bad one. -/
def itemsToBytes : List Item → Except PyErr (List UInt8)
  | [] => .ok []
  | i :: is =>
    match i.toByte with
    | .error e => .error e
    | .ok b =>
      match itemsToBytes is with
      | .error e => .error e
      | .ok bs => .ok (b :: bs)

/-- `bytearray(obj)` for an object with the given `__iter__`. -/
def bytearray (g : Gen) : Except PyErr (List UInt8) :=
  match itemsToBytes g.items with
  | .error e => .error e
  | .ok bs =>
    match g.exc with
    | some e => .error e
    | none => .ok bs

/-! ## `struct.pack` -/

/-- Big-endian bytes of `n` in `k` bytes. -/
def beBytes : Nat → Nat → List UInt8
  | 0, _ => []
  | k + 1, n => UInt8.ofNat (n / 256 ^ k % 256) :: beBytes k n

/-- `struct.pack(">H"/">I"/">Q", v)` with `k` = 2/4/8 bytes. -/
def packU (k : Nat) (v : Int) : Except PyErr (List UInt8) :=
  if 0 ≤ v ∧ v.toNat < 256 ^ k then .ok (beBytes k v.toNat) else .error .structError

/-- `struct.pack("b", v)`. -/
def packS8 (v : Int) : Except PyErr (List UInt8) :=
  if -128 ≤ v ∧ v ≤ 127 then .ok [UInt8.ofNat (v % 256).toNat] else .error .structError

/-! ## Cerberus checks -/

/-- `raise ValueError` unless the validation condition holds; the object otherwise. -/
def validate {α : Type} (c : Prop) [Decidable c] (a : α) : Except PyErr α :=
  if c then .ok a else .error .valueError

/-- `Types.BYTE()` (d7a/support/schema.py 95-97). -/
def isByte (v : Int) : Prop := 0 ≤ v ∧ v ≤ 0xFF

instance (v : Int) : Decidable (isByte v) := inferInstanceAs (Decidable (_ ∧ _))

end Verif
