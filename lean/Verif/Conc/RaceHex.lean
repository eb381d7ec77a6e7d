import Verif.Conc.RacePipe
import Verif.Conc.HexRunInst

/-!
What the goroutines of the hex parsers do to memory, step by step of `Conc/HexRun.lean`: the accesses to memory that goroutines share,
and the operations they synchronise with. The accesses of a goroutine between two such operations are put directly before the second
one; which of them happen before accesses of other goroutines does not depend on their place between the two.
-/

namespace Verif.Conc.Race

/-- The goroutines of a call of `ReadCalibration`. -/
inductive G
  /-- the caller (calib_data.go:45-98) -/
  | caller
  /-- `readA2L` (calib_data.go:102-115), which executes `a2l.ParseFromFile` -/
  | rdA
  /-- `readHex` (calib_data.go:119-159), which executes `parseHex` -/
  | rdH
  /-- `parseRecordRoutine` (ihex32/hex.go:124, srec19/hex.go:124) -/
  | line (k : Nat)
  /-- `validateChecksumsRoutine` (ihex32/hex.go:154, srec19/hex.go:145) -/
  | chk (k : Nat)
  /-- `addOffsets` (ihex32/hex.go:137) -/
  | off (k : Nat)
  /-- `calcDataRoutine` (ihex32/hex.go:183, srec19/hex.go:172) -/
  | data (k : Nat)
  /-- `tokenBuilderRoutine` (a2l/token_generator.go:64) -/
  | tok (k : Nat)
  /-- `parseModuleMainLoop` (a2l/module.go:428), in the call number `i` of `parseModuleMultithreaded` -/
  | par (i k : Nat)
  /-- `closeChannelsAfterParsing` (a2l/module.go:434) -/
  | closer (i : Nat)
  /-- the collector of channel `c` (a2l/module.go:468-655) -/
  | coll (i c : Nat)
  deriving DecidableEq, Repr

/-- Memory that is used by more than one goroutine. -/
inductive Loc
  /-- the lines of the hex file; the strings in the records are parts of them -/
  | hexLines
  /-- `recs` of `parseHex` -/
  | hexRecs
  /-- the list of records that goroutine `k` sends when `m` batches are left -/
  | batch (k m : Nat)
  /-- the fields of record `r` other than `offset` and the mutex -/
  | fixed (r : Nat)
  /-- the field `offset` of record `r` (in an S19 record no such field is used) -/
  | offs (r : Nat)
  /-- the list of bytes that goroutine `k` sends when `m` batches are left -/
  | bytes (k m : Nat)
  /-- `h` of `parseHex` -/
  | hexMap
  /-- the lines of the A2L file -/
  | a2lLines
  /-- the list of tokens that goroutine `k` of the tokenizer makes -/
  | piece (k m : Nat)
  /-- `tokenList` (a2l/token_generator.go:14) -/
  | tokenList
  /-- `moduleCount` (a2l/token_generator.go:15) -/
  | moduleCount
  /-- `useMultithreading` (a2l/a2l.go:21) -/
  | multithreading
  /-- the characters of the tokens that goroutine `k` of the tokenizer makes, where they are no parts of lines -/
  | chars (k : Nat)
  /-- message number `m` on channel `c` in the call number `i` of `parseModuleMultithreaded`: what was parsed, with all it refers to -/
  | object (i c m : Nat)
  /-- the field of `myModule` with the name `f`, with the map it refers to -/
  | field (i : Nat) (f : String)
  /-- the result of `parseA2l` -/
  | a2l
  /-- `log.Logger` of zerolog, set by `configureLogger` (calib_data.go:162-179) -/
  | logger
  deriving DecidableEq, Repr

/-- Channels, mutexes and wait groups. -/
inductive Sy
  | recs (k : Nat) | vcs | dat (k : Nat) | wgSum | wgOff | mut (r : Nat)
  | tokens (k : Nat) | chan (i c : Nat) | wgPar (i : Nat) | wgCol (i : Nat)
  | errChan | a2lChan | hexChan | wgReaders
  deriving DecidableEq, Repr

abbrev A := Act G Loc Sy
abbrev Ev := Event G Loc Sy
abbrev Trace := List Ev

namespace Hex
open Verif.Go Verif.Conc.HexRun
open Verif.Ihex (DataByte)

variable {R : Type}

/-- The goroutines that work on the shared records: how many, and what their steps do. -/
structure Access (P : Prog R) where
  workers : Nat
  acts : P.shared.S → Nat → List A

/-- The records of the goroutines that parse lines. -/
def parsed (P : Prog R) (n : Nat) (lines : List Str) : List (List R) := ((shares? lines n).bind fun parts => parts.mapM P.parse).getD []

/-- The records that goroutine `k` makes, by their place in `recs` later. -/
def made (rss : List (List R)) (k : Nat) : List Nat := List.range' (rss.take k).flatten.length (rss[k]?.getD []).length

/-- The goroutines that parse lines, and the one that collects the records (ihex32/hex.go:109-130). -/
def recPipe : Pipe G Loc Sy := ⟨.line, .rdH, .recs, .batch⟩

/-- The goroutines that compute bytes, and the one that collects them (ihex32/hex.go:173-200). -/
def datPipe : Pipe G Loc Sy := ⟨.data, .rdH, .dat, .bytes⟩

/-- `parseRecordRoutine` (ihex32/hex.go:241-257, srec19/hex.go:230-245) before it sends. -/
def lineActs (rss : List (List R)) (k : Nat) : List A := .read .logger :: .read .hexLines :: (made rss k).flatMap fun r => [.write (.fixed r), .write (.offs r)]

/-- `append(recs, r...)` (ihex32/hex.go:128). -/
def recGot : List A := [.read .hexRecs, .write .hexRecs]

/-- `validateChecksumsRoutine` (ihex32/record.go:85-97, srec19/record.go:47-59) on share `k` of `len` records. -/
def chkActs (len n k : Nat) (w : FanIn.Worker) : List A :=
  if w.done then []
  else if w.sending then [.send .vcs, .done .wgSum]
  else match w.todo with
    | [] => [.done .wgSum]
    | _ :: _ => [.read .hexRecs, .read (.fixed (shareEnd len n k - w.todo.length)), .read .hexLines, .read .logger]

/-- `calcDataRoutine` (ihex32/record.go:154-171, srec19/record.go:121-136) on share `k` of `len` records, before it sends. -/
def dataActs (len n k : Nat) : List A :=
  .read .logger :: .read .hexLines :: .read .hexRecs ::
    (List.range' (shareStart len n k) (shareEnd len n k - shareStart len n k)).flatMap fun r => [.read (.fixed r), .read (.offs r)]

/-- ihex32/hex.go:190-198. -/
def datGot : List A := [.read .hexMap, .write .hexMap]

/-- ihex32/hex.go:105-125, with the split into lines (line 225). -/
def startEvents (n : Nat) : Trace := acts .rdH ([.write .hexLines, .write .hexMap, .write .hexRecs] ++ (List.range n).map fun k => .go (.line k))

/-- What happens in a step of `HexRun.step`. -/
def events (P : Prog R) (M : Access P) (n : Nat) (lines : List Str) : State P → Op → Trace
  | .parsing p, .chan o => recPipe.events (lineActs (parsed P n lines)) recGot p o
  | .parsing _, .main => acts .rdH (.read .hexRecs :: ((List.range M.workers).map G.off ++ (List.range n).map G.chk).map .go)
  | .checking f _, .check (.work k) =>
    match f.ws[k]? with
    | some w => acts (.chk k) (chkActs (parsed P n lines).flatten.length n k w)
    | none => []
  | .checking f _, .check .main => acts .rdH ([.wait .wgSum, .close .vcs] ++ if f.buf = [] then [] else [.recv .vcs])
  | .checking _ s, .off k => acts (.off k) (M.acts s k)
  | .waiting s, .off k => acts (.off k) (M.acts s k)
  | .waiting _, .main => acts .rdH ((if M.workers = 0 then [] else [.wait .wgOff]) ++ .read .hexRecs :: ((List.range n).map G.data).map .go)
  | .collecting p _, .chan o => datPipe.events (dataActs (parsed P n lines).flatten.length n) datGot p o
  | .returned _ (.offsets s), .off k => acts (.off k) (M.acts s k)
  | .returned _ (.data p), .chan o => datPipe.events (dataActs (parsed P n lines).flatten.length n) datGot p o
  | _, _ => []

/-- The execution that belongs to a run. -/
def traceFrom (P : Prog R) (M : Access P) (n : Nat) (lines : List Str) : State P → List Op → Trace
  | _, [] => []
  | s, o :: os =>
    match step P n s o with
    | none => []
    | some s' => events P M n lines s o ++ traceFrom P M n lines s' os

def trace (P : Prog R) (M : Access P) (n : Nat) (lines : List Str) (os : List Op) : Trace :=
  startEvents n ++ traceFrom P M n lines (init P n lines) os

/-- `addOffsets` (ihex32/record.go:56-81), step by step of `Ihex.Locks.step`. -/
def ihexAccess (n : Nat) : Access (ihex n) where
  workers := n
  acts := fun s k =>
    match (Ihex.Locks.LState.workers s)[k]? with
    | none => []
    | some w =>
      match w.pc with
      | .top => if w.pos < (Ihex.Locks.LState.locks s).length then [.read .hexRecs, .lock (.mut w.pos)] else [.read .hexRecs, .done .wgOff]
      | .locked => [.read .hexRecs, .read (.fixed w.pos), .read (.offs w.pos)]
      | .store => [.read .hexRecs, .write (.offs w.pos)]
      | .unlock brk => [.read .hexRecs, .unlock (.mut w.pos)] ++ if brk then [.done .wgOff] else []
      | .done => []

/-- An S19 record has no offset: no goroutine changes records. -/
def srecAccess : Access srec where
  workers := 0
  acts := fun _ _ => []

end Hex
end Verif.Conc.Race
