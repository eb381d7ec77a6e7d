import Verif.Hex.Spec

/-!
Specification of Intel HEX files, written without reference to the parser: what a line
means, what a file means, how a memory image is encoded.
-/

namespace Verif.Ihex.Spec

open Verif.Go Verif.Hex.Spec

/-! ### Lines -/

/-- The bytes written in a string of digit pairs. -/
def pairBytes : Str → Option (List Nat)
  | [] => some []
  | [_] => none
  | a :: b :: rest =>
    match specByte [a, b], pairBytes rest with
    | some x, some xs => some (x :: xs)
    | _, _ => none

/-- A decoded line. -/
structure Rec where
  count : Nat
  addr : Nat
  typ : Nat
  data : List Nat
  ck : Nat
  deriving DecidableEq, Repr

/-- `:` count address(2) type data* checksum. -/
def decodeLine : Str → Option Rec
  | ':' :: body =>
    match pairBytes body with
    | some (cnt :: ah :: al :: ty :: d :: rest) =>
      some ⟨cnt, ah * 256 + al, ty, (d :: rest).dropLast, (d :: rest).getLast (by simp)⟩
    | _ => none
  | _ => none

/-- All bytes of the line, checksum included, sum to zero. -/
def Rec.SumOk (r : Rec) : Prop :=
  (r.count + r.addr / 256 + r.addr % 256 + r.typ + r.data.sum + r.ck) % 256 = 0

instance (r : Rec) : Decidable r.SumOk := by unfold Rec.SumOk; infer_instance

/-! ### Files -/

/-- Lines shorter than the shortest record (`:00000001FF`, 11 characters) carry nothing. -/
def significant (lines : List Str) : List Str := lines.filter (fun l => 11 ≤ l.length)

/-- A well-formed line: digit pairs throughout, and a segment line has its two bytes. -/
def WellFormedLine (l : Str) : Prop :=
  ∃ r, decodeLine l = some r ∧ (r.typ = 4 → 2 ≤ r.data.length)

/-- A well-formed file: every significant line is well formed. (Checksums may be wrong.) -/
def WellFormed (lines : List Str) : Prop := ∀ l ∈ significant lines, WellFormedLine l

/-- The decoded lines of a file. -/
def recs (lines : List Str) : List Rec := (significant lines).filterMap decodeLine

/-- The bytes a file defines, in order: `seg` is the upper half of the address in force. -/
def bytesFrom : (seg : Nat) → List Rec → List (Nat × Nat)
  | _, [] => []
  | seg, r :: rs =>
    if r.typ = 4 then bytesFrom (r.data.getD 0 0 * 256 + r.data.getD 1 0) rs
    else if r.typ = 0 then
      (r.data.zipIdx.map fun (b, i) => (seg * 65536 + (r.addr + i) % 65536, b)) ++ bytesFrom seg rs
    else bytesFrom seg rs

/-- The bytes a file defines. -/
def fileBytes (lines : List Str) : List (Nat × Nat) := bytesFrom 0 (recs lines)

/-- The segment in force at each data line: `none` if no segment line came before. -/
def dataSegs : Option Nat → List Rec → List (Option Nat)
  | _, [] => []
  | seg, r :: rs =>
    if r.typ = 4 then dataSegs (some (r.data.getD 0 0 * 256 + r.data.getD 1 0)) rs
    else if r.typ = 0 then seg :: dataSegs seg rs
    else dataSegs seg rs

/-- Once a data line is in an explicitly selected segment 0, so are all later data lines. -/
def ZeroSegmentLast (rs : List Rec) : Prop :=
  (dataSegs none rs).Pairwise fun a b => a = some 0 → b = some 0

instance (rs : List Rec) : Decidable (ZeroSegmentLast rs) := by
  unfold ZeroSegmentLast; infer_instance

/-- The file has a meaning: every sum is right and no address is defined twice. -/
def Consistent (lines : List Str) : Prop :=
  (∀ r ∈ recs lines, r.SumOk) ∧ ((fileBytes lines).map Prod.fst).Nodup

instance (lines : List Str) : Decidable (Consistent lines) := by
  unfold Consistent; infer_instance

/-! ### Encoding a memory image -/

/-- A record with its checksum, as printed. -/
def printLine (c : Case) (bytes : List Nat) : Str :=
  ':' :: ((bytes ++ [(256 - bytes.sum % 256) % 256]).map (printByte c)).flatten

/-- A block of the image: upper half of the address, lower half, bytes. `sel`: write the
segment line even if the segment is already selected. -/
structure Block where
  sel : Bool
  seg : Nat
  addr : Nat
  bytes : List Nat
  deriving DecidableEq, Repr

def segLine (c : Case) (seg : Nat) : Str := printLine c [2, 0, 0, 4, seg / 256, seg % 256]

def dataLine (c : Case) (b : Block) : Str :=
  printLine c ([b.bytes.length, b.addr / 256, b.addr % 256, 0] ++ b.bytes)

/-- The lines of the blocks: a segment line where the segment changes or the block asks
for it, then the data line. `cur` is the segment selected so far. -/
def encodeBlocks (c : Case) : (cur : Nat) → List Block → List Str
  | _, [] => []
  | cur, b :: bs =>
    (if b.sel ∨ b.seg ≠ cur then [segLine c b.seg] else []) ++ dataLine c b :: encodeBlocks c b.seg bs

def eofLine (c : Case) : Str := printLine c [0, 0, 0, 1]

/-- The lines of an image. -/
def encode (c : Case) (bs : List Block) : List Str := encodeBlocks c 0 bs ++ [eofLine c]

/-- The segment each block's data line is in: `none` while no segment line was written. -/
def blockSegs : Option Nat → List Block → List (Option Nat)
  | _, [] => []
  | cur, b :: bs =>
    let s := if b.sel ∨ b.seg ≠ cur.getD 0 then some b.seg else cur
    s :: blockSegs s bs

/-- No block follows, in another segment, a block for which segment 0 was selected
explicitly. -/
def ZeroBlocksLast (bs : List Block) : Prop :=
  (blockSegs none bs).Pairwise fun a b => a = some 0 → b = some 0

instance (bs : List Block) : Decidable (ZeroBlocksLast bs) := by
  unfold ZeroBlocksLast; infer_instance

/-- Block fits: 16-bit halves, byte values, at most 255 bytes, and no wrap at the end of
the segment. -/
def Block.Fits (b : Block) : Prop :=
  b.seg < 65536 ∧ (∀ x ∈ b.bytes, x < 256) ∧ b.bytes.length < 256 ∧
    b.addr < 65536 ∧ b.addr + b.bytes.length ≤ 65536

instance (b : Block) : Decidable b.Fits := by unfold Block.Fits; infer_instance

/-- The (address, byte) pairs of an image. -/
def imageBytes (bs : List Block) : List (Nat × Nat) :=
  (bs.map fun b => b.bytes.zipIdx.map fun (x, i) => (b.seg * 65536 + b.addr + i, x)).flatten

/-! ### Arbitrary lines -/

/-- The characters of a line that its checksum covers, for any line: count, address, type,
then pairs from the left while more than three characters are left, then the last two
characters. (For a line of odd length these are all its characters, see
`fields_of_odd`.) -/
def payloadPairs : Str → List Str
  | a :: b :: c :: d :: rest => [a, b] :: payloadPairs (c :: d :: rest)
  | _ => []

def fields (l : Str) : List Str :=
  [(l.drop 1).take 2, (l.drop 3).take 2, (l.drop 5).take 2, (l.drop 7).take 2]
    ++ payloadPairs (l.drop 9) ++ [l.drop (l.length - 2)]

/-- Every covered pair is a byte and they sum to zero. -/
def LineSumOk (l : Str) : Prop :=
  ∃ bs, (fields l).mapM specByte = some bs ∧ bs.sum % 256 = 0

/-- A line the parser gives up on: long enough, but not starting with a colon, or a
segment line without room for the segment. -/
def Malformed (l : Str) : Prop :=
  11 ≤ l.length ∧ (l.head? ≠ some ':' ∨ (l.drop 7).take 2 = ['0', '4'] ∧ l.length < 13)

instance (l : Str) : Decidable (Malformed l) := by unfold Malformed; infer_instance

/-- The lines worker `i` of `n` is responsible for. -/
def workerLines (n : Nat) (lines : List Str) (i : Nat) : List Str :=
  if i + 1 = n then lines.drop (lines.length / n * i)
  else (lines.drop (lines.length / n * i)).take (lines.length / n)

/-- The lines the parser recognises as records: per worker, the significant lines before
the first malformed one. -/
def recognised (n : Nat) (lines : List Str) : List Str :=
  (List.range n).flatMap fun i =>
    significant ((workerLines n lines i).takeWhile fun l => ¬ Malformed l)

end Verif.Ihex.Spec
