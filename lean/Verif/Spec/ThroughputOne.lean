import Verif.Model.ThroughputOne
import Verif.Spec.ThroughputRun
import Verif.Spec.HexTool
import Mathlib.Data.Nat.Digits.Defs

/-! Specification vocabulary for examples/throughput_test.py with one device. -/

namespace Verif.Throughput

open Verif Verif.Serial Verif.Modem Verif.Examples

/-- The text is a hexadecimal number: digits (lower or upper case), possibly after `0x` or `0X`, possibly after a sign;
blanks before and after the sign and at the end. -/
def Hexadecimal (s : List Char) (v : Int) : Prop :=
  ∃ before sign gap mark digits after, ∃ ns : List Nat, s = before ++ sign ++ gap ++ mark ++ digits ++ after ∧
    HexTool.Blank before ∧ HexTool.Blank gap ∧ HexTool.Blank after ∧ sign ∈ [[], ['+'], ['-']] ∧
    mark ∈ [[], ['0', 'x'], ['0', 'X']] ∧ List.Forall₂ HexTool.IsDigit digits ns ∧ digits ≠ [] ∧
    v = (if sign = ['-'] then -1 else 1) * ((Nat.ofDigits 16 ns.reverse : Nat) : Int)

/-- What is sent before the runs with unicast messages. -/
def broadcasts (a : Args) (t : Tags) : List (List UInt8) :=
  preparation t ++ [activation t.class1] ++ messages a 0 t .broadcastQos ++
  [activation t.class2] ++ messages a 0 t .broadcast

/-- Only the main thread makes steps, and its wait loop times out: nothing comes from the device. -/
def Unanswered : SenderEvent → Bool
  | .main _ | .timeout => true
  | _ => false

/-- Only the main thread makes steps, its wait loop times out, and the time for waiting (224) passes: nothing comes from the
device. -/
def Unheard : ListenerEvent → Bool
  | .main _ | .late | .timeout => true
  | _ => false

/-- The bytes that arrive. -/
def heard : List ListenerEvent → List (List UInt8)
  | [] => []
  | .rx bytes :: es => bytes :: heard es
  | _ :: es => heard es

/-- The time for waiting is not over, and the serial line does not fail. -/
def Quiet : ListenerEvent → Prop
  | .late => False
  | .serialError => False
  | _ => True

end Verif.Throughput
