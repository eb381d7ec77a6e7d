import Verif.Calib.Model
import Verif.Hex.Spec

/-!
Specification vocabulary for the evaluation helpers, written from the ASAP2 standard and
the documentation of the functions, without the model's functions. (The model's plain
data types, such as `DataType` and `Align`, are shared.)
-/

namespace Verif.Calib.Spec

open Verif.Go

/-! ### Data types -/

/-- Size of a data type in bytes (ASAP2 1.6, table of data types). -/
def size : DataType → Nat
  | .ubyte | .sbyte => 1
  | .uword | .sword | .float16 => 2
  | .ulong | .slong | .float32 => 4
  | .aUint64 | .aInt64 | .float64 => 8
  | .undefined => 0

def isSigned : DataType → Bool
  | .sbyte | .sword | .slong | .aInt64 => true
  | _ => false

def isInteger : DataType → Bool
  | .ubyte | .sbyte | .uword | .sword | .ulong | .slong | .aUint64 | .aInt64 => true
  | _ => false

/-- The number a sequence of bytes denotes, most significant byte first. -/
def bigEndian : List Nat → Nat
  | [] => 0
  | b :: bs => b * 256 ^ bs.length + bigEndian bs

/-- The number a sequence of bytes denotes, least significant byte first. -/
def littleEndian : List Nat → Nat
  | [] => 0
  | b :: bs => b + 256 * littleEndian bs

/-- Two's complement reading of an `8 * bytes` bit number. -/
def twosComplement (bytes n : Nat) : Int :=
  if 2 * n < 256 ^ bytes then (n : Int) else (n : Int) - (256 : Int) ^ bytes

/-- Which way round the bytes are read. -/
inductive Endian | big | little
  deriving DecidableEq

def Endian.number : Endian → List Nat → Nat
  | .big, bs => bigEndian bs
  | .little, bs => littleEndian bs

/-- The byte order a module asks for: big endian unless BYTE_ORDER says otherwise; `none`
for the mixed orders and for an unknown one. -/
def endianOf (mc : ModCommon) : Option Endian :=
  match mc.byteOrderSet, mc.byteOrder with
  | false, _ => some .big
  | true, .bigEndian => some .big
  | true, .msbFirst => some .big
  | true, .littleEndian => some .little
  | true, .msbLast => some .little
  | true, _ => none

/-- The integer that `bytes` represent as data type `d`. -/
def intValue (e : Endian) (d : DataType) (bytes : List Nat) : Int :=
  if isSigned d then twosComplement (size d) (e.number bytes) else (e.number bytes : Int)

def IsBytes (bs : List Nat) : Prop := ∀ b ∈ bs, b < 256

/-! ### Address strings -/

/-- The four bytes written by eight hex digits. -/
def eightDigits (s : Str) : Option (List Nat) :=
  match s with
  | [a, b, c, d, e, f, g, h] =>
    match Hex.Spec.byteVal [a, b], Hex.Spec.byteVal [c, d], Hex.Spec.byteVal [e, f],
        Hex.Spec.byteVal [g, h] with
    | some w, some x, some y, some z => some [w, x, y, z]
    | _, _, _, _ => none
  | _ => none

/-! ### Alignment -/

/-- The alignment entry that applies to a data type. -/
def alignEntry : DataType → Align → Option Nat
  | .ubyte, a | .sbyte, a => a.byte
  | .uword, a | .sword, a => a.word
  | .ulong, a | .slong, a => a.long
  | .aUint64, a | .aInt64, a => a.int64
  | .float16, a => a.float16
  | .float32, a => a.float32
  | .float64, a => a.float64
  | .undefined, _ => none

/-- Border in force: that of the record layout, else that of the module, else the size of
the data type. -/
def border (rl : RecordLayout) (mc : ModCommon) (d : DataType) : Nat :=
  match alignEntry d rl.align, alignEntry d mc.align with
  | some b, _ => b
  | none, some b => b
  | none, none => size d

/-- `r` is the least address at or after `a` that is divisible by `b`. -/
def IsNextAligned (a b r : Nat) : Prop :=
  a ≤ r ∧ b ∣ r ∧ ∀ r', a ≤ r' → b ∣ r' → r ≤ r'

/-! ### Bytes -/

/-- The bytes at the `n` addresses from `address` on, if all are there. -/
def bytesAt (hex : Nat → Option Nat) (address : Nat) : Nat → Option (List Nat)
  | 0 => some []
  | n + 1 =>
    match hex address, bytesAt hex (address + 1) n with
    | some b, some bs => some (b :: bs)
    | _, _ => none

/-! ### Conversion tables -/

/-- First row whose key satisfies `p`. -/
def firstRow {κ α : Type} (p : κ → Bool) : List (κ × α) → Option α
  | [] => none
  | (k, v) :: rows => if p k then some v else firstRow p rows

/-- What a table conversion must deliver: the entry of the row, else the default, else an
error. -/
def tableResult {α : Type} (row dflt : Option α) : Res α :=
  match row, dflt with
  | some v, _ => .ok v
  | none, some d => .ok d
  | none, none => .err

/-- `p` is a physical value of `x` under the rational function. -/
def RatSolution (a b c d e f x p : Rat) : Prop :=
  d * p * p + e * p + f ≠ 0 ∧ (a * p * p + b * p + c) = x * (d * p * p + e * p + f)

/-- A square root function on exact numbers: the root of a square, nothing for negative
numbers (`none` is `NaN`). -/
structure IsSqrt (sqrt : Rat → Option Rat) : Prop where
  square : ∀ r : Rat, 0 ≤ r → sqrt (r * r) = some r
  neg : ∀ x : Rat, x < 0 → sqrt x = none

end Verif.Calib.Spec
