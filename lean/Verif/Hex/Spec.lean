import Verif.Go.Basic

/-!
Specification vocabulary for hex digits, written without reference to the parser's
table: a digit's value, a byte's value, how a byte is printed.
-/

namespace Verif.Hex.Spec

open Verif.Go

def upperDigits : List Char := ['0','1','2','3','4','5','6','7','8','9','A','B','C','D','E','F']
def lowerDigits : List Char := ['0','1','2','3','4','5','6','7','8','9','a','b','c','d','e','f']

/-- The value of a digit is its place in the upper-case or lower-case row. -/
def digitVal (c : Char) : Option Nat :=
  match upperDigits.findIdx? (· == c) with
  | some i => some i
  | none => lowerDigits.findIdx? (· == c)

/-- The two digits are both in the upper-case row or both in the lower-case row. -/
def sameCase (a b : Char) : Prop :=
  (a ∈ upperDigits ∧ b ∈ upperDigits) ∨ (a ∈ lowerDigits ∧ b ∈ lowerDigits)

instance (a b : Char) : Decidable (sameCase a b) := by unfold sameCase; infer_instance

/-- The byte value of two hex digits, of any case. -/
def byteVal : Str → Option Nat
  | [a, b] =>
    match digitVal a, digitVal b with
    | some x, some y => some (16 * x + y)
    | _, _ => none
  | _ => none

/-- The byte value of two hex digits of the same letter case. -/
def specByte : Str → Option Nat
  | [a, b] => if sameCase a b then byteVal [a, b] else none
  | _ => none

/-- How an encoder prints a byte: two digits, all upper case or all lower case. -/
inductive Case | upper | lower
  deriving DecidableEq

def Case.digits : Case → List Char
  | .upper => upperDigits
  | .lower => lowerDigits

def printByte (c : Case) (b : Nat) : Str :=
  [c.digits.getD (b / 16) '?', c.digits.getD (b % 16) '?']

/-- Big-endian digits of a 16-bit number. -/
def print16 (c : Case) (a : Nat) : Str := printByte c (a / 256) ++ printByte c (a % 256)

/-- Big-endian digits of a 32-bit number. -/
def print32 (c : Case) (a : Nat) : Str := print16 c (a / 65536) ++ print16 c (a % 65536)

end Verif.Hex.Spec
