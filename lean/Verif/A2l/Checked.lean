import Verif.A2l.Analysis
import Verif.A2l.BlockSpec

/-!
The static analysis evaluated on all parse functions.
-/

namespace Verif.A2l.Props
open Verif.Go Verif.A2l Lang Analysis

/-- The functions that can succeed without moving the cursor: keywords without parameters,
`parseMatrixDim` and `parseFrameMeasurement` (they step back), `parseFrame` (at end of file). -/
def stays : List PName := [.parseConsistentExchangeKeyword, .parseDiscrete, .parseFrame,
  .parseFrameMeasurement, .parseGuardRails, .parseMatrixDim, .parseReadOnly, .parseReadWrite,
  .parseRoot, .parseSignExtend, .parseStaticAddressOffsets, .parseStaticRecordLayout,
  .parseModuleMultithreaded, .parseA2l]

def adv (p : PName) : Nat := if stays.contains p then 0 else 1

def okFor (p q : PName) : Bool := decide (rank q < rank p) && decide (q ≠ .parseModuleMultithreaded)

/-- Every path through the function that may end without error has moved the cursor and, if
the function reads a block, stands on the closing token of that block. -/
def pathOk (p : PName) (o : Abs × Ctl) : Bool :=
  decide (o.1.err = some true) || (decide (adv p ≤ o.1.lo) &&
    match Spec.endToken p with
    | some e => decide (o.1.cur = some e) ||
        (decide (p = .parseFrame) && decide (o.1.cur = some emptyToken))
    | none => true)

def checked (p : PName) : Bool :=
  match absexec (okFor p) adv (body p) Abs.init with
  | some outs => outs.all (pathOk p)
  | none => false

theorem checked_all (p : PName) (hp : p ≠ .parseModuleMultithreaded) : checked p = true := by
  cases p <;> first | exact absurd rfl hp | decide +kernel

theorem rank_pos (p : PName) (hp : p ≠ .parseModuleMultithreaded) : 0 < rank p := by
  cases p <;> first | exact absurd rfl hp | decide

theorem rank_lt (p : PName) : rank p < maxDepth := by cases p <;> decide

theorem block_adv (p : PName) (hp : p ≠ .parseModuleMultithreaded) (hf : p ≠ .parseFrame)
    (ht : (Spec.endToken p).isSome = true) : adv p = 1 := by
  revert ht
  cases p <;> first | exact absurd rfl hp | exact absurd rfl hf | decide

end Verif.A2l.Props
