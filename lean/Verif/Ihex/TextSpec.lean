import Verif.Ihex.ExactSpec

/-!
Specification of what is stored for an ARBITRARY text (C77), without the assumption that its lines are well formed: what any
line says, which upper half of the address applies to it, and what becomes of a list of address/value pairs.
-/

namespace Verif.Ihex.Spec

open Verif.Go Verif.Hex.Spec

/-- The number written by four hex digits of any case. -/
def half (s : Str) : Option Nat :=
  match byteVal (s.take 2), byteVal (s.drop 2) with
  | some x, some y => some (x * 256 + y)
  | _, _ => none

/-- The two characters that give the type of a line. -/
def typeText (l : Str) : Str := (l.drop 7).take 2

/-- The four characters a segment line gives as the upper half. -/
def upperText (l : Str) : Str := (l.drop 9).take 4

/-- The upper half selected last by the lines `[a, i)`. -/
def selectedText (ls : List Str) (a i : Nat) : Option Str :=
  (((ls.take i).drop a).filter (fun l => typeText l = ['0', '4'])).getLast?.map upperText

/-- Reading from line `a` on, line `i` is arrived at with a segment known. -/
def ArrivesText (ls : List Str) (a i : Nat) : Prop :=
  (selectedText ls a i).isSome = true ∧
    ∀ b, b < i → ls[b]?.map typeText = some ['0', '0'] → selectedText ls a b ≠ some ['0', '0', '0', '0']

instance (ls : List Str) (a i : Nat) : Decidable (ArrivesText ls a i) := by unfold ArrivesText; infer_instance

/-- The upper half used for line `i`. -/
def usedText (starts : List Nat) (ls : List Str) (i : Nat) : Str :=
  if ∃ a ∈ starts, ArrivesText ls a i then (selectedText ls 0 i).getD ['0', '0', '0', '0'] else ['0', '0', '0', '0']

/-- The pairs of a data line in the segment written `seg`: nothing if `seg` or the address is not a number. -/
def lineBytes (seg l : Str) : List (Nat × Nat) :=
  match half seg, half ((l.drop 3).take 4) with
  | some s, some a =>
    ((payloadPairs (l.drop 9)).filterMap specByte).zipIdx.map fun (b, j) => (s * 65536 + (a + j) % 65536, b)
  | _, _ => []

/-- The pairs of a list of lines. -/
def linesBytes (starts : List Nat) (ls : List Str) : List (Nat × Nat) :=
  ls.zipIdx.flatMap fun (l, i) => if typeText l = ['0', '0'] then lineBytes (usedText starts ls i) l else []

/-- The pairs of a text on `n` CPUs. -/
def textBytes (n : Nat) (lines : List Str) : List (Nat × Nat) :=
  linesBytes (startsOf n (recognised n lines).length) (recognised n lines)

/-- `v` is the value found, `w` the value to be stored when address `a` comes up the second time; `pre` are the pairs
before. -/
def Clash (ps pre : List (Nat × Nat)) (a v w : Nat) : Prop :=
  (pre.map Prod.fst).Nodup ∧ (a, v) ∈ pre ∧ ∃ post, ps = pre ++ (a, w) :: post

end Verif.Ihex.Spec
