import Verif.Ihex.Spec

/-!
Specification of S19 files (S3 records), independent of the parser. `pairBytes`,
`payloadPairs`, `significant`, `workerLines` and the byte printer are those of the Intel
HEX specification.
-/

namespace Verif.Srec.Spec

open Verif.Go Verif.Hex.Spec
open Verif.Ihex.Spec (pairBytes payloadPairs significant workerLines)

/-- A decoded S3 line. -/
structure Rec where
  count : Nat
  addr : Nat
  data : List Nat
  ck : Nat
  deriving DecidableEq, Repr

/-- `S3` count address(4) data* checksum. -/
def decodeLine : Str → Option Rec
  | 'S' :: '3' :: body =>
    match pairBytes body with
    | some (cnt :: a :: b :: c :: d :: e :: rest) =>
      some ⟨cnt, ((a * 256 + b) * 256 + c) * 256 + d, (e :: rest).dropLast, (e :: rest).getLast (by simp)⟩
    | _ => none
  | _ => none

/-- The bytes sum to 255. -/
def Rec.SumOk (r : Rec) : Prop :=
  (r.count + r.addr / 16777216 + r.addr / 65536 % 256 + r.addr / 256 % 256 + r.addr % 256
    + r.data.sum + r.ck) % 256 = 255

instance (r : Rec) : Decidable r.SumOk := by unfold Rec.SumOk; infer_instance

/-- The bytes a line defines; the 32-bit address wraps. -/
def Rec.bytes (r : Rec) : List (Nat × Nat) :=
  r.data.zipIdx.map fun (b, i) => ((r.addr + i) % 4294967296, b)

/-- The bytes a list of lines defines. -/
def bytesOf (rs : List Rec) : List (Nat × Nat) := (rs.map Rec.bytes).flatten

/-! ### Arbitrary lines -/

/-- The covered characters of any line: count, address, then pairs while more than three
characters are left, then the last two. -/
def fields (l : Str) : List Str :=
  [(l.drop 2).take 2, (l.drop 4).take 2, (l.drop 6).take 2, (l.drop 8).take 2, (l.drop 10).take 2]
    ++ payloadPairs (l.drop 12) ++ [l.drop (l.length - 2)]

def LineSumOk (l : Str) : Prop :=
  ∃ bs, (fields l).mapM specByte = some bs ∧ bs.sum % 256 = 255

/-- A line the parser gives up on: long enough to be looked at, but not an `S3` line of at
least 12 characters. -/
def Malformed (l : Str) : Prop :=
  11 ≤ l.length ∧ ¬ (l.take 2 = ['S', '3'] ∧ 12 ≤ l.length)

instance (l : Str) : Decidable (Malformed l) := by unfold Malformed; infer_instance

/-- The lines the parser recognises: per worker, the significant lines before the first
malformed one. -/
def recognised (n : Nat) (lines : List Str) : List Str :=
  (List.range n).flatMap fun i =>
    significant ((workerLines n lines i).takeWhile fun l => ¬ Malformed l)

/-! ### Encoding -/

/-- A record with its checksum, as printed. `ty` is the record type digit. -/
def printLine (ty : Char) (c : Case) (bytes : List Nat) : Str :=
  'S' :: ty :: ((bytes ++ [255 - bytes.sum % 256]).map (printByte c)).flatten

structure Block where
  addr : Nat
  bytes : List Nat
  deriving DecidableEq, Repr

/-- 32-bit address, byte values, count fits a byte, no wrap at the end of memory. -/
def Block.Fits (b : Block) : Prop :=
  b.addr < 4294967296 ∧ (∀ x ∈ b.bytes, x < 256) ∧ b.bytes.length + 5 < 256 ∧
    b.addr + b.bytes.length ≤ 4294967296

instance (b : Block) : Decidable b.Fits := by unfold Block.Fits; infer_instance

def addrBytes (a : Nat) : List Nat := [a / 16777216, a / 65536 % 256, a / 256 % 256, a % 256]

def dataLine (c : Case) (b : Block) : Str :=
  printLine '3' c ((b.bytes.length + 5) :: addrBytes b.addr ++ b.bytes)

/-- The image as S3 lines. -/
def encode (c : Case) (bs : List Block) : List Str := bs.map (dataLine c)

/-- The (address, byte) pairs of an image. -/
def imageBytes (bs : List Block) : List (Nat × Nat) :=
  (bs.map fun b => b.bytes.zipIdx.map fun (x, i) => (b.addr + i, x)).flatten

/-- An S0 header line with the given text, as every S19 writer puts first. -/
def headerLine (c : Case) (text : List Nat) : Str :=
  printLine '0' c ((text.length + 3) :: 0 :: 0 :: text)

/-- The S7 terminator line with a start address. -/
def endLine (c : Case) (start : Nat) : Str := printLine '7' c (5 :: addrBytes start)

/-- A standard S19 file. -/
def standardFile (c : Case) (text : List Nat) (bs : List Block) (start : Nat) : List Str :=
  headerLine c text :: encode c bs ++ [endLine c start]

end Verif.Srec.Spec
