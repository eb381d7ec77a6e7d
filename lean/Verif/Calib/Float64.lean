import Verif.Calib.Model

/-!
The arithmetic of `float64` (IEEE 754 binary64) and the conversion methods of compu_methods.go with it. In `Model.lean`
these conversions are modelled with exact rationals; here every operation is rounded as the machine does it.

Every finite `float64` is an integral multiple of 2^-1074, so a finite number is a sign and a number of these units.

Trusted here, because the sources of the Go library are not at hand: `math.Sqrt` is correctly rounded, and `math.Pow(x, 2)`
squares the significand, rounds it and then scales the result, which rounds again if the result is subnormal (`pow2`).
Products and sums are not fused. The language allows a compiler to fuse them and some architectures do it (`fusedLinear`).
-/

namespace Verif.Calib
open Verif.Go

/-- A `float64`: `fin neg n` is `± n * 2^-1074`. -/
inductive F64 where
  | nan
  | inf (neg : Bool)
  | fin (neg : Bool) (n : Nat)
  deriving DecidableEq, Repr

namespace F64

/-- `p / q` rounded to an integer with at most 53 significant bits, half to even. -/
def rnd (p q : Nat) : Nat :=
  let e := (p / q).log2 + 1 - 53
  let d := q * 2 ^ e
  let k := p / d
  let r := p % d
  let up := decide (d < 2 * r) || (decide (2 * r = d) && decide (k % 2 = 1))
  (if up then k + 1 else k) * 2 ^ e

/-- `± p / q` units, rounded; too large numbers become infinite. -/
def ofQuot (neg : Bool) (p q : Nat) : F64 :=
  if rnd p q < 2 ^ 2098 then .fin neg (rnd p q) else .inf neg

def neg : F64 → F64
  | .nan => .nan
  | .inf s => .inf (!s)
  | .fin s n => .fin (!s) n

def add : F64 → F64 → F64
  | .nan, _ => .nan
  | _, .nan => .nan
  | .inf s, .inf t => if s = t then .inf s else .nan
  | .inf s, .fin _ _ => .inf s
  | .fin _ _, .inf t => .inf t
  | .fin s a, .fin t b =>
    if s = t then ofQuot s (a + b) 1
    else if b < a then ofQuot s (a - b) 1
    else if a < b then ofQuot t (b - a) 1
    else .fin false 0

def sub (x y : F64) : F64 := add x (neg y)

def mul : F64 → F64 → F64
  | .nan, _ => .nan
  | _, .nan => .nan
  | .inf s, .inf t => .inf (s != t)
  | .inf s, .fin t b => if b = 0 then .nan else .inf (s != t)
  | .fin s a, .inf t => if a = 0 then .nan else .inf (s != t)
  | .fin s a, .fin t b => ofQuot (s != t) (a * b) (2 ^ 1074)

def div : F64 → F64 → F64
  | .nan, _ => .nan
  | _, .nan => .nan
  | .inf _, .inf _ => .nan
  | .inf s, .fin t _ => .inf (s != t)
  | .fin s _, .inf t => .fin (s != t) 0
  | .fin s a, .fin t b =>
    if b = 0 then (if a = 0 then .nan else .inf (s != t)) else ofQuot (s != t) (a * 2 ^ 1074) b

/-- The integral square root, one binary digit of the result per round. -/
def isqrt : Nat → Nat → Nat
  | 0, _ => 0
  | n + 1, m =>
    let s := 2 * isqrt n (m / 4)
    if (s + 1) * (s + 1) ≤ m then s + 1 else s

/-- `math.Sqrt`: the correctly rounded square root. The root of `n * 2^1074` is the number of units; if it is no
integer, a half is added, which is rounded like the fraction. -/
def sqrt : F64 → F64
  | .nan => .nan
  | .inf s => if s then .nan else .inf false
  | .fin s n =>
    if n = 0 then .fin s 0
    else if s then .nan
    else
      let m := n * 2 ^ 1074
      let r := isqrt (m.log2 + 1) m
      ofQuot false (2 * r + (if r * r = m then 0 else 1)) 2

/-- `math.Pow(x, 2)`: the square of the significand is rounded to 53 bits, then scaled and rounded to a multiple of the unit. -/
def pow2 : F64 → F64
  | .nan => .nan
  | .inf _ => .inf false
  | .fin _ n => ofQuot false (rnd (n * n) 1) (2 ^ 1074)

/-- `==`. -/
def eq : F64 → F64 → Bool
  | .inf s, .inf t => s = t
  | .fin s a, .fin t b => a = b && (s = t || a = 0)
  | _, _ => false

/-- The constants `0`, `2` and `4` and integers in general. -/
def ofInt (i : Int) : F64 := ofQuot (decide (i < 0)) (i.natAbs * 2 ^ 1074) 1

/-- The number with the given bit pattern (`math.Float64frombits`). -/
def ofBits (b : Nat) : F64 :=
  let s := decide (b / 2 ^ 63 % 2 = 1)
  let e := b / 2 ^ 52 % 2 ^ 11
  let m := b % 2 ^ 52
  if e = 2047 then (if m = 0 then .inf s else .nan)
  else if e = 0 then .fin s m
  else .fin s ((2 ^ 52 + m) * 2 ^ (e - 1))

/-- `float64` of the `float32` with the given bit pattern (`math.Float32frombits`). -/
def ofBits32 (b : Nat) : F64 :=
  let s := decide (b / 2 ^ 31 % 2 = 1)
  let e := b / 2 ^ 23 % 2 ^ 8
  let m := b % 2 ^ 23
  if e = 255 then (if m = 0 then .inf s else .nan)
  else if e = 0 then .fin s (m * 2 ^ 925)
  else .fin s ((2 ^ 23 + m) * 2 ^ (e - 1 + 925))

end F64

/-- The `float64` that `convertByteSliceToDatatype` returns (record_manager.go:154-228); integers have been rounded by
`toF64` already, `float64` of a `float32` is exact. -/
def Val.toFloat : Val → F64
  | .num i => F64.ofInt i
  | .f32 b => F64.ofBits32 b
  | .f64 b => F64.ofBits b

/-- a2l/compu_tab.go (`CompuTab`) with `float64` columns. -/
structure Tab64 where
  inVal : List F64 := []
  inValSet : Bool := false
  outVal : List F64 := []
  outValSet : Bool := false
  defaultValue : Option F64 := none

/-- The part of a2l/compu_method.go (`CompuMethod`) used by the conversion, as in `CompuMethod` but with `float64` numbers. -/
structure Method64 where
  conversionType : ConversionType := .undefined
  a : Option F64 := none
  b : Option F64 := none
  c : Option F64 := none
  d : Option F64 := none
  e : Option F64 := none
  f : Option F64 := none
  linA : Option F64 := none
  linB : Option F64 := none

open F64 in
/-- compu_methods.go:124-162 (`calcRatFunc`), operation by operation. -/
def calcRatFunc64 (a b c d e f dec : F64) : Res F64 :=
  let two := ofInt 2
  let four := ofInt 4
  let firstDivisor := mul two (sub a (mul d dec))
  if eq firstDivisor (ofInt 0) then .err
  else
    let root := F64.sqrt (sub (pow2 (sub (mul e dec) b))
      (mul (mul four (sub (mul d dec) a)) (sub (mul f dec) c)))
    let secondPos := add (mul two (sub a (mul d dec))) (div root firstDivisor)
    let secondNeg := sub (mul two (sub a (mul d dec))) (div root firstDivisor)
    if !eq secondPos (ofInt 0) && !eq secondNeg (ofInt 0) then
      let plusVal := div (sub (mul e dec) b) secondPos
      let minusVal := div (sub (mul e dec) b) secondNeg
      let testVal := div (add (add (mul (mul a plusVal) plusVal) (mul b plusVal)) c)
        (add (add (mul (mul d plusVal) plusVal) (mul e plusVal)) f)
      if eq testVal dec then .ok plusVal else .ok minusVal
    else if !eq secondPos (ofInt 0) then .ok (div (sub (mul e dec) b) secondPos)
    else if !eq secondNeg (ofInt 0) then .ok (div (sub (mul e dec) b) secondNeg)
    else .err

/-- The loop of compu_methods.go:175-179. -/
def lookupLoop64 (dec : F64) (outVal : List F64) : List F64 → Nat → Option (Res F64)
  | [], _ => none
  | k :: ks, i =>
    if F64.eq dec k then some (orPanic (index? outVal i) id) else lookupLoop64 dec outVal ks (i + 1)

/-- compu_methods.go:164-193 (`calcTabNoIntp`), `found` is the entry of `CompuTabs` under the name in the method; as in
`calcTabNoIntp` a missing table is used as the empty one. -/
def calcTabNoIntp64 (dec : F64) (found : Option Tab64) : Res F64 :=
  let tab := found.getD {}
  if tab.inValSet && tab.outValSet then
    match lookupLoop64 dec tab.outVal tab.inVal 0 with
    | some r => r
    | none =>
      match tab.defaultValue with
      | none => .err
      | some d => .ok d
  else
    match tab.defaultValue with
    | some d => .ok d
    | none => .err

/-- compu_methods.go:11-58 (`convDecToPhy`); `found` is the conversion table of the current module (the index of the
module is in range here, the other case is in `convDecToPhy`). -/
def convDecToPhy64 (found : Option Tab64) (dec : F64) (cm : Method64) : Res F64 :=
  match cm.conversionType with
  | .identical => .ok dec
  | .form => .err
  | .linear =>
    match cm.linA, cm.linB with
    | some a, some b => .ok (F64.add (F64.mul a dec) b)
    | _, _ => .err
  | .ratFunc =>
    match cm.a, cm.b, cm.c, cm.d, cm.e, cm.f with
    | some a, some b, some c, some d, some e, some f => calcRatFunc64 a b c d e f dec
    | _, _, _, _, _, _ => .err
  | .tabIntp => .ok (F64.ofInt 0)
  | .tabNointp => calcTabNoIntp64 dec found
  | .tabVerb => .err
  | .undefined => .err

/-- The linear formula if the compiler fuses product and sum: one rounding. -/
def fusedLinear (a b dec : F64) : F64 :=
  match a, b, dec with
  | .fin s x, .fin t y, .fin u z =>
    let p := x * z
    let q := y * 2 ^ 1074
    if (s != u) = t then F64.ofQuot t (p + q) (2 ^ 1074)
    else if q < p then F64.ofQuot (s != u) (p - q) (2 ^ 1074)
    else if p < q then F64.ofQuot t (q - p) (2 ^ 1074)
    else .fin false 0
  | _, _, _ => F64.add (F64.mul a dec) b

end Verif.Calib
