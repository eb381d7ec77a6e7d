import Verif.Calib.Float64
import Verif.A2l.Lang

/-!
`strconv.ParseFloat(s, 64)`, called at 43 places of the A2L parser (a2l/coeffs.go:41-91, a2l/coeffs_linear.go,
a2l/compu_tab.go, a2l/compu_vtab.go, a2l/compu_vtab_range.go, the limits of all measurements and characteristics and so on).

Trusted: this is written from the documentation of the library, whose sources are not at hand (`special`, `readFloat` and
`underscoreOK` of strconv/atof.go and strconv/atoi.go): decimal and hexadecimal numbers as in Go, underscores between
digits, the names NaN, Inf and Infinity in upper or lower case, the nearest `float64` (halves to even), an error if the number is
too large. The digits of the exponent are ignored after the fifth significant one.
-/

namespace Verif.Calib
open Verif.Go

/-- What the call gives. -/
inductive Parsed where
  | ok (x : F64)
  /-- `ErrSyntax` -/
  | syntaxErr
  /-- `ErrRange`, together with an infinite value -/
  | rangeErr (neg : Bool)
  deriving DecidableEq

namespace ParseFloat

/-- strconv `lower`, for letters. -/
def lower (c : Char) : Char := if 65 ≤ c.toNat ∧ c.toNat ≤ 90 then Char.ofNat (c.toNat + 32) else c

/-- The value of a digit. -/
def digit? (hex : Bool) (c : Char) : Option Nat :=
  if 48 ≤ c.toNat ∧ c.toNat ≤ 57 then some (c.toNat - 48)
  else if hex ∧ 97 ≤ (lower c).toNat ∧ (lower c).toNat ≤ 102 then some ((lower c).toNat - 87)
  else none

/-- The loop over the digits of `readFloat`: the digits read so far as a number, how many of them follow the point, whether
there was a point, whether there was a digit; what is left. -/
def scan (hex : Bool) : Str → Nat → Nat → Bool → Bool → Nat × Nat × Bool × Str
  | [], mant, frac, _, seen => (mant, frac, seen, [])
  | c :: cs, mant, frac, dot, seen =>
    if c = '_' then scan hex cs mant frac dot seen
    else if c = '.' then
      if dot then (mant, frac, seen, c :: cs) else scan hex cs mant frac true seen
    else match digit? hex c with
      | some d => scan hex cs (mant * (if hex then 16 else 10) + d) (if dot then frac + 1 else frac) dot true
      | none => (mant, frac, seen, c :: cs)

/-- The loop over the digits of the exponent. -/
def expLoop : Str → Nat → Nat × Str
  | [], e => (e, [])
  | c :: cs, e =>
    if c = '_' then expLoop cs e
    else match digit? false c with
      | some d => expLoop cs (if e < 10000 then e * 10 + d else e)
      | none => (e, c :: cs)

/-- The last character seen by `underscoreOK`. -/
inductive Saw where
  | start | digit | underscore | other
  deriving DecidableEq

/-- The loop of `underscoreOK`. -/
def underscoreLoop (hex : Bool) : Saw → Str → Bool
  | saw, [] => decide (saw ≠ .underscore)
  | saw, c :: cs =>
    if (digit? hex c).isSome then underscoreLoop hex .digit cs
    else if c = '_' then
      if saw = .digit then underscoreLoop hex .underscore cs else false
    else if saw = .underscore then false
    else underscoreLoop hex .other cs

/-- A sign, if there is one. -/
def sign : Str → Bool × Str
  | '+' :: cs => (false, cs)
  | '-' :: cs => (true, cs)
  | cs => (false, cs)

/-- Is there a prefix `0x` with something behind it. -/
def isHex : Str → Bool
  | c :: d :: _ :: _ => c = '0' && lower d = 'x'
  | _ => false

/-- `underscoreOK` on the text behind the sign (the prefixes `0b` and `0o` are no part of a number that `readFloat` reads). -/
def underscoreOK (s : Str) : Bool :=
  if isHex s then underscoreLoop true .digit (s.drop 2) else underscoreLoop false .start s

/-- The exponent of `readFloat` behind the letter; `none` if it is malformed or something follows. -/
def exponent (s : Str) : Option Int :=
  let (neg, r) := sign s
  match r with
  | [] => none
  | c :: _ =>
    if (digit? false c).isSome then
      match expLoop r 0 with
      | (e, []) => some (if neg then -(e : Int) else e)
      | _ => none
    else none

/-- `readFloat` on the text behind the sign: digits as a number, digits behind the point, exponent, hexadecimal. The digits are
kept as they are; the library keeps 19 of them and reads the others again if they matter. -/
def readFloat (s : Str) : Option (Nat × Nat × Int × Bool) :=
  let hex := isHex s
  let (mant, frac, seen, rest) := scan hex (if hex then s.drop 2 else s) 0 0 false false
  if !seen then none
  else match rest with
    | [] => if hex then none else if underscoreOK s then some (mant, frac, 0, hex) else none
    | c :: cs =>
      if lower c = (if hex then 'p' else 'e') then
        (exponent cs).bind fun e => if underscoreOK s then some (mant, frac, e, hex) else none
      else none

/-- The library function `special`, for a name that is the whole text. -/
def special (s : Str) : Option F64 :=
  if s.map lower = str! "nan" then some .nan
  else
    let (neg, r) := sign s
    if r.map lower = str! "inf" ∨ r.map lower = str! "infinity" then some (.inf neg) else none

/-- The number `mant * base^-frac * b^e` rounded, where `b` is 10 for decimal and 2 for hexadecimal numbers. -/
def value (neg : Bool) (mant frac : Nat) (e : Int) (hex : Bool) : F64 :=
  let b := if hex then 2 else 10
  F64.ofQuot neg (mant * b ^ e.toNat * 2 ^ 1074) ((if hex then 16 else 10) ^ frac * b ^ (-e).toNat)

/-- `strconv.ParseFloat` with the given function for the value of sign, digits, digits behind the point, exponent and base. -/
def parseWith (value : Bool → Nat → Nat → Int → Bool → F64) (s : Str) : Parsed :=
  match special s with
  | some x => .ok x
  | none =>
    match readFloat (sign s).2 with
    | none => .syntaxErr
    | some (mant, frac, e, hex) =>
      match value (sign s).1 mant frac e hex with
      | .inf neg => .rangeErr neg
      | x => .ok x

end ParseFloat

/-- `strconv.ParseFloat(s, 64)`. -/
def parseFloat (s : Str) : Parsed := ParseFloat.parseWith ParseFloat.value s

namespace Props
open F64

-- 0.1, -1.5e3, 0x1.8p1, the names, underscores, and what is refused
example : parseFloat (str! "0.1") = .ok (ofBits 0x3fb999999999999a) := by decide +kernel
example : parseFloat (str! "-1.5e3") = .ok (ofBits 0xc097700000000000) := by decide +kernel
example : parseFloat (str! "+.5") = .ok (ofBits 0x3fe0000000000000) := by decide +kernel
example : parseFloat (str! "0x1.8p1") = .ok (ofBits 0x4008000000000000) := by decide +kernel
example : parseFloat (str! "1_0.5_0") = .ok (ofBits 0x4025000000000000) := by decide +kernel
example : parseFloat (str! "-InF") = .ok (.inf true) := by decide +kernel
example : parseFloat (str! "NaN") = .ok .nan := by decide +kernel
example : parseFloat (str! "1e309") = .rangeErr false := by decide +kernel
example : ∀ t ∈ [(str! ""), (str! "-"), (str! "."), (str! "1e"), (str! "1e+"), (str! "1__0"), (str! "_1"), (str! "1_"), (str! "1_.5"), (str! "1._5"), (str! "1e_5"),
    (str! "0x10"), (str! "0x"), (str! "0xp1"), (str! "1.2.3"), (str! "1f"), (str! "-nan"), (str! "in"), (str! "infin"), (str! "1,5"), (str! "0x_.8p1")],
    parseFloat t = .syntaxErr := by decide +kernel
example : parseFloat (str! "0x_1p0") = .ok (ofBits 0x3ff0000000000000) := by decide +kernel

end Props
end Verif.Calib
