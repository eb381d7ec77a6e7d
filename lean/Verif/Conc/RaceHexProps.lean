import Verif.Conc.RaceHexProofs
import Verif.Conc.RaceCheck

/-! Data races of the hex parsers (C90). -/

namespace Verif.Conc.Race.Hex

open Verif.Go Verif.Conc.HexRun

/-- C90: no execution of `parseHex` of package ihex32, whatever the lines, the number of goroutines and the order of their steps, has a data
race: not among the goroutines that parse lines, check sums, add offsets and compute bytes, and not with the one that collects; and not
with those of them that still run after the return. -/
theorem C90_ihex (cap : Sy → Nat) (n : Nat) (lines : List Str) (os : List Op) : ¬ Racy cap (trace (ihex n) (ihexAccess n) n lines os) :=
  not_racy (ihexDisc n) n lines os

/-- C90: the same for package srec19. -/
theorem C90_s19 (cap : Sy → Nat) (n : Nat) (lines : List Str) (os : List Op) : ¬ Racy cap (trace srec srecAccess n lines os) :=
  not_racy srecDisc n lines os

/-- Two lines: an address and four bytes. -/
def someLines : List Str := [":020000040001F9".toList, ":0400000001020304F2".toList]

/-- The lines are parsed by two goroutines, and both add offsets; the first one, in the share of the second one too. -/
def someOps : List Op :=
  [.chan (.send 0), .chan .recv, .chan (.close 0), .chan .advance, .chan (.send 1), .chan .recv, .chan (.close 1), .chan .advance, .main,
    .off 0, .off 0, .off 0, .off 0, .off 0, .off 0, .off 0, .off 0, .off 1, .off 1]

/-- The order of steps is possible; in it the first goroutine changes the offset of the second record and the second one looks at it, which
is no race because of the mutex. -/
example : (run (ihex 2) 2 (HexRun.init (ihex 2) 2 someLines) someOps).isSome = true ∧
    (trace (ihex 2) (ihexAccess 2) 2 someLines someOps)[47]? = some ⟨.off 0, .write (.offs 1)⟩ ∧
    (trace (ihex 2) (ihexAccess 2) 2 someLines someOps)[56]? = some ⟨.off 1, .read (.offs 1)⟩ ∧
    ¬ Racy (fun _ => 1) (trace (ihex 2) (ihexAccess 2) 2 someLines someOps) :=
  ⟨by decide +kernel, by decide +kernel, by decide +kernel, C90_ihex _ _ _ _⟩

/-- `addOffsets` without the mutexes of the records. -/
def ihexBare (n : Nat) : Access (ihex n) where
  workers := n
  acts := fun s k => ((ihexAccess n).acts s k).filter fun a => match a with | .lock _ | .unlock _ => false | _ => true

/-- The mutexes are needed: without them the same steps are a data race. -/
theorem C90_mutex_needed : ∃ n lines os, Racy (fun _ => 1) (trace (ihex n) (ihexBare n) n lines os) :=
  ⟨2, someLines, someOps, racy_of_races (i := 44) (j := 51) (by decide +kernel)⟩

/-- All sums are right, and the bytes are computed. -/
def moreOps : List Op :=
  someOps ++ [.off 1, .off 1, .check (.work 0), .check (.work 0), .check (.work 1), .check (.work 1), .check .main, .main, .main, .chan (.send 0), .chan .recv,
    .chan (.send 1)]

/-- Waiting for `wgOffset` (ihex32/hex.go:171) is needed: without it the goroutine that computes bytes reads the offset while another one
writes it. -/
theorem C90_wait_needed : ∃ n lines os, Racy (fun _ => 1) ((trace (ihex n) (ihexAccess n) n lines os).filter fun e => decide (e.act ≠ .wait .wgOff)) :=
  ⟨2, someLines, moreOps, racy_of_races (i := 47) (j := 91) (by decide +kernel)⟩

/-- In `moreOps` bytes are computed from records that other goroutines have made and changed. -/
example : (run (ihex 2) 2 (HexRun.init (ihex 2) 2 someLines) moreOps).isSome = true ∧
    (trace (ihex 2) (ihexAccess 2) 2 someLines moreOps)[92]? = some ⟨.data 1, .read (.offs 1)⟩ :=
  ⟨by decide +kernel, by decide +kernel⟩

/-- Two S19 lines on two goroutines. -/
def someS19 : List Str := ["S307000010000102E5".toList, "S307000020000304D1".toList]

def s19Ops : List Op :=
  [.chan (.send 1), .chan (.send 0), .chan .recv, .chan (.close 0), .chan .advance, .chan .recv, .chan (.close 1), .chan .advance, .main,
    .check (.work 1), .check (.work 0), .check (.work 1), .check (.work 0), .check .main, .main, .main, .chan (.send 0), .chan .recv]

/-- What one goroutine has written, another one reads. -/
example : (run srec 2 (HexRun.init srec 2 someS19) s19Ops).isSome = true ∧
    ⟨.line 0, .write (.fixed 0)⟩ ∈ trace srec srecAccess 2 someS19 s19Ops ∧ ⟨.chk 0, .read (.fixed 0)⟩ ∈ trace srec srecAccess 2 someS19 s19Ops ∧
    ⟨.data 0, .read (.fixed 0)⟩ ∈ trace srec srecAccess 2 someS19 s19Ops ∧ ¬ Racy (fun _ => 1) (trace srec srecAccess 2 someS19 s19Ops) :=
  ⟨by decide +kernel, by decide +kernel, by decide +kernel, by decide +kernel, C90_s19 _ _ _ _⟩

end Verif.Conc.Race.Hex
