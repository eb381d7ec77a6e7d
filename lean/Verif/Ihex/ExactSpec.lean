import Verif.Ihex.SegSpec
import Verif.Ihex.Spec

/-!
Specification of the records and bytes the reader delivers for EVERY file, also those for which it is wrong (C01), written
without reference to workers or interleavings. A part of the list starting at position `a` "arrives" at a later data record
if a segment is selected in between and no data on the way lies in a segment selected with the upper half 0.
-/

namespace Verif.Ihex
open Verif.Go

namespace Seg

/-- The upper half selected last in positions `[a, i)`, if any. -/
def selected (recs : List Record) (a i : Nat) : Option Str :=
  (((recs.take i).drop a).filter (fun r => r.recordType = ['0', '4'])).getLast?.map (·.offset)

/-- Position `b` holds data. -/
def DataAt (recs : List Record) (b : Nat) : Prop := recs[b]?.map (·.recordType) = some ['0', '0']

instance (recs : List Record) (b : Nat) : Decidable (DataAt recs b) := by unfold DataAt; infer_instance

/-- Reading from `a` on, `i` is arrived at with a segment known. -/
def Arrives (recs : List Record) (a i : Nat) : Prop :=
  (selected recs a i).isSome = true ∧ ∀ b, b < i → DataAt recs b → selected recs a b ≠ some ['0', '0', '0', '0']

instance (recs : List Record) (a i : Nat) : Decidable (Arrives recs a i) := by unfold Arrives; infer_instance

/-- The upper half data record `i` ends up with. -/
def delivered (starts : List Nat) (recs : List Record) (i : Nat) : Str :=
  if ∃ a ∈ starts, Arrives recs a i then (selected recs 0 i).getD ['0', '0', '0', '0'] else ['0', '0', '0', '0']

/-- The whole list of records as delivered. -/
def deliver (starts : List Nat) (recs : List Record) : List Record :=
  recs.mapIdx fun i r => if r.recordType = ['0', '0'] then { r with offset := delivered starts recs i } else r

end Seg

namespace Spec

/-- The segment (upper half of the address) a line of type 04 selects. -/
def Rec.upper (r : Rec) : Nat := r.data.getD 0 0 * 256 + r.data.getD 1 0

/-- The segment selected last by the lines `[a, i)`. -/
def selected (rs : List Rec) (a i : Nat) : Option Nat :=
  (((rs.take i).drop a).filter (fun r => r.typ = 4)).getLast?.map Rec.upper

/-- Reading from line `a` on, line `i` is arrived at with a segment known. -/
def Arrives (rs : List Rec) (a i : Nat) : Prop :=
  (selected rs a i).isSome = true ∧ ∀ b, b < i → rs[b]?.map (·.typ) = some 0 → selected rs a b ≠ some 0

instance (rs : List Rec) (a i : Nat) : Decidable (Arrives rs a i) := by unfold Arrives; infer_instance

/-- The segment the data of line `i` is stored in. -/
def storedSeg (starts : List Nat) (rs : List Rec) (i : Nat) : Nat :=
  if ∃ a ∈ starts, Arrives rs a i then (selected rs 0 i).getD 0 else 0

/-- Address/value pairs stored for a list of lines, given where reading starts. -/
def storedBytes (starts : List Nat) (rs : List Rec) : List (Nat × Nat) :=
  rs.zipIdx.flatMap fun (r, i) =>
    if r.typ = 0 then
      r.data.zipIdx.map fun (b, j) => (storedSeg starts rs i * 65536 + (r.addr + j) % 65536, b)
    else []

/-- `n` CPUs start at the multiples of the number of lines divided by `n`, rounded down. -/
def startsOf (n len : Nat) : List Nat := (List.range n).map fun k => len / n * k

/-- Address/value pairs stored for a file on `n` CPUs. -/
def storedFile (n : Nat) (lines : List Str) : List (Nat × Nat) :=
  storedBytes (startsOf n (recs lines).length) (recs lines)

end Spec

end Verif.Ihex
