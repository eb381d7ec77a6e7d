import Verif.Hex.Table

/-!
Model of package ihex32 (the Intel HEX parser).

A Go function returning `(value, error)` becomes a function into `Except`/`Option`
or a structure with an error field; a possible run-time panic becomes an outer
`Option` whose `none` is the panic. Bytes are naturals below 256, 16/32-bit values
are naturals with explicit wrap-around.
-/

namespace Verif.Ihex

open Verif.Go Verif.Hex

/-- ihex32/tokens.go:4 `beginLineToken` -/
def beginLineToken : Char := ':'
/-- ihex32/tokens.go:5 `dataRecordToken` -/
def dataRecordToken : Str := ['0', '0']
/-- ihex32/tokens.go:11 `extendedLinearAddressRecordToken` -/
def extendedLinearAddressRecordToken : Str := ['0', '4']
/-- The literal "0000" of ihex32/record.go:45,61,75. -/
def zeroOffset : Str := ['0', '0', '0', '0']

/-- ihex32/record.go:10-25 (`record`; the mutex is part of the step relation of
`addOffsets`, not of the data). -/
structure Record where
  byteCount : Str
  addressField : Str
  recordType : Str
  data : List Str
  checksum : Str
  offset : Str
  deriving DecidableEq, Repr

/-- The errors of `parseRecord` (ihex32/record.go:42,50). -/
inductive RecordError
  | elaTooShort
  | noBeginOrTooShort
  deriving DecidableEq, Repr

/-- ihex32/record.go:34-36: `for i := 9; i < len(line)-3; i += 2 { data = append(data, line[i:i+2]) }`.
`fuel` bounds the number of iterations (the caller passes `len(line)`, more than enough,
see `dataLoop_fuel`); in Go `len(line)-3` is a signed number, here `i + 3 < len`. -/
def dataLoop (line : Str) : (fuel : Nat) → (i : Nat) → Option (List Str)
  | 0, _ => some []
  | fuel + 1, i =>
    if i + 3 < line.length then do
      let d ← slice? line i (i + 2)
      let ds ← dataLoop line fuel (i + 2)
      pure (d :: ds)
    else some []

/-- ihex32/record.go:28-54 (`parseRecord`). Outer `none`: panic. -/
def parseRecord (line : Str) : Option (Except RecordError Record) := do
  let c0 ← index? line 0
  if c0 = beginLineToken ∧ 11 ≤ line.length then
    let byteCount ← slice? line 1 3
    let addressField ← slice? line 3 7
    let recordType ← slice? line 7 9
    let data ← dataLoop line line.length 9
    if recordType = extendedLinearAddressRecordToken then
      if 13 ≤ line.length then
        let offset ← slice? line 9 13
        let checksum ← slice? line (line.length - 2) line.length
        pure (.ok { byteCount, addressField, recordType, data, checksum, offset })
      else pure (.error .elaTooShort)
    else
      let checksum ← slice? line (line.length - 2) line.length
      pure (.ok { byteCount, addressField, recordType, data, checksum, offset := zeroOffset })
  else pure (.error .noBeginOrTooShort)

/-- ihex32/hex.go:241-256 (`parseRecordRoutine`): lines shorter than 11 bytes are
skipped; the first line that does not parse ends the loop, and the records so far are
sent (no error is reported). -/
def parseRecordRoutine : List Str → Option (List Record)
  | [] => some []
  | l :: ls =>
    if 11 ≤ l.length then do
      match ← parseRecord l with
      | .error _ => pure []
      | .ok r =>
        let rs ← parseRecordRoutine ls
        pure (r :: rs)
    else parseRecordRoutine ls

/-- ihex32/hex.go:112-130: one worker per share, results collected in worker order.
(That the collection order is the worker order for every schedule is
`Verif.Conc.Pipeline`.) -/
def parseRecords (n : Nat) (lines : List Str) : Option (List Record) := do
  let parts ← shares? lines n
  let rss ← parts.mapM parseRecordRoutine
  pure rss.flatten

/-- Sum of the bytes of a list of two-digit fields in `uint8` arithmetic, `none` if one
of them is not in the digit table. ihex32/record.go:108-144: `sum = sum + buf` for each
field in turn, returning the error as soon as a field does not convert. -/
def sumFields : List Str → (sum : Nat) → Option Nat
  | [], sum => some sum
  | f :: fs, sum =>
    match hexToByte f with
    | none => none
    | some b => sumFields fs ((sum + b) % 256)

/-- ihex32/record.go:100-151 (`validateChecksum`): byte count, the two address bytes,
the type, the data and the checksum itself must sum to 0. Outer `none`: panic of the
address slices; inner `none`: conversion error; `some false`: wrong sum. -/
def validateChecksum (r : Record) : Option (Option Bool) := do
  let a0 ← slice? r.addressField 0 2
  let a1 ← slice? r.addressField 2 4
  pure <| match sumFields ([r.byteCount, a0, a1, r.recordType] ++ r.data ++ [r.checksum]) 0 with
    | none => none
    | some s => some (s == 0)

/-- ihex32/record.go:85-97 (`validateChecksumsRoutine`): `true` if the worker reports
`false` on the verdict channel, i.e. finds a record with an error or an invalid sum. -/
def checksumFailure : List Record → Option Bool
  | [] => some false
  | r :: rs => do
    match ← validateChecksum r with
    | some true => checksumFailure rs
    | _ => pure true

/-- ihex32/hex.go:141-168: the verdict over all shares (see `Verif.Conc.FanIn` for the
schedules): some worker reported `false`. -/
def anyChecksumFailure (n : Nat) (recs : List Record) : Option Bool := do
  let parts ← shares? recs n
  let vs ← parts.mapM checksumFailure
  pure (vs.any id)

/-! ### addOffsets: the workers share the records -/

/-- Local variables of one run of `addOffsets` (ihex32/record.go:58-81): loop index,
`offs`, `firstRecordAfterNewOffset`, and whether the loop has ended. -/
structure Worker where
  pos : Nat
  offs : Str
  first : Bool
  done : Bool
  deriving DecidableEq, Repr

/-- Shared records plus the workers' local states. -/
structure OffState where
  recs : List Record
  workers : List Worker
  deriving DecidableEq, Repr

/-- ihex32/record.go:60-62: the local variables of a worker before its loop. -/
def initWorker (start : Nat) : Worker := { pos := start, offs := zeroOffset, first := false, done := false }

/-- The workers are started at the given positions. -/
def initAt (starts : List Nat) (recs : List Record) : OffState :=
  { recs, workers := starts.map initWorker }

/-- ihex32/hex.go:132-138: one worker per CPU, worker `i` starts at `(len(recs)/numProc)*i`. -/
def initOffsets (n : Nat) (recs : List Record) : OffState :=
  initAt ((List.range n).map fun i => shareStart recs.length n i) recs

/-- One iteration of the loop ihex32/record.go:63-80 of a worker, executed atomically
(it runs under the record's mutex and touches only that record and the worker's local
variables). The loop ends when `i` reaches `len(recs)` or at the `break`. -/
def workerStep (recs : List Record) (w : Worker) : List Record × Worker :=
  if w.done then (recs, w)
  else match recs[w.pos]? with
    | none => (recs, { w with done := true })
    | some r =>
      if r.recordType = extendedLinearAddressRecordToken then
        (recs, { w with offs := r.offset, first := true, pos := w.pos + 1 })
      else if r.recordType = dataRecordToken then
        if w.first ∧ r.offset = w.offs then
          (recs, { w with done := true })
        else if w.first ∧ r.offset ≠ w.offs then
          (recs.set w.pos { r with offset := w.offs }, { w with first := false, pos := w.pos + 1 })
        else if r.offset ≠ w.offs ∧ w.offs ≠ zeroOffset then
          (recs.set w.pos { r with offset := w.offs }, { w with pos := w.pos + 1 })
        else (recs, { w with pos := w.pos + 1 })
      else (recs, { w with pos := w.pos + 1 })

/-- The scheduler lets worker `k` do one iteration (no effect if there is no such
worker). -/
def offStep (s : OffState) (k : Nat) : OffState :=
  match s.workers[k]? with
  | none => s
  | some w =>
    let (recs, w') := workerStep s.recs w
    { recs, workers := s.workers.set k w' }

/-- A schedule is the sequence of worker numbers that get to run. -/
def runOffsets (s : OffState) (sched : List Nat) : OffState := sched.foldl offStep s

/-- `wgOffset.Wait()` (ihex32/hex.go:171) returns when all workers are done. -/
def OffState.allDone (s : OffState) : Bool := s.workers.all (·.done)

/-! ### Data -/

/-- ihex32/data.go:6-9 (`dataByte`). -/
structure DataByte where
  address : Nat
  value : Nat
  deriving DecidableEq, Repr

/-- `binary.BigEndian.Uint16` (panics on fewer than 2 bytes). -/
def uint16BE? : List Nat → Option Nat
  | a :: b :: _ => some (a * 256 + b)
  | _ => none

/-- `binary.BigEndian.Uint32` (panics on fewer than 4 bytes). -/
def uint32BE? : List Nat → Option Nat
  | a :: b :: c :: d :: _ => some (((a * 256 + b) * 256 + c) * 256 + d)
  | _ => none

/-- `binary.BigEndian.PutUint16`. -/
def putUint16BE (v : Nat) : List Nat := [v / 256 % 256, v % 256]

/-- Result of `calcDataEntries`: entries so far and whether it ended with an error. -/
structure Entries where
  bytes : List DataByte
  failed : Bool
  deriving DecidableEq, Repr

/-- ihex32/record.go:178-205: the loop over the data fields, `i` is the index of the
next field. Outer `none`: panic. -/
def calcDataLoop (r : Record) : (i : Nat) → List Str → Option Entries
  | _, [] => some ⟨[], false⟩
  | i, s :: ss =>
    match decodeString r.addressField with
    | none => some ⟨[], true⟩
    | some bs => do
      let lineAddress ← uint16BE? bs
      let lineAddress := (lineAddress + i % 65536) % 65536
      match decodeString r.offset with
      | none => pure ⟨[], true⟩
      | some bs =>
        let bs := bs ++ putUint16BE lineAddress
        match hexToByte s with
        | none => pure ⟨[], true⟩
        | some b =>
          let address ← uint32BE? bs
          let rest ← calcDataLoop r (i + 1) ss
          pure ⟨⟨address, b⟩ :: rest.bytes, rest.failed⟩

/-- ihex32/record.go:171-207 (`calcDataEntries`). -/
def calcDataEntries (r : Record) : Option Entries := calcDataLoop r 0 r.data

/-- ihex32/record.go:153-168 (`calcDataRoutine`): the batches the worker sends, in order:
an empty batch for every failing record and finally everything collected (partial entries
of failing records included). -/
def calcDataRoutine (recs : List Record) : Option (List (List DataByte)) := do
  let es ← (recs.filter (fun r => r.recordType = dataRecordToken)).mapM calcDataEntries
  pure ((es.filter (·.failed)).map (fun _ => []) ++ [(es.map (·.bytes)).flatten])

/-- A Go `map[uint32]byte`. -/
abbrev Mem := Nat → Option Nat

def Mem.empty : Mem := fun _ => none
def Mem.insert (m : Mem) (a v : Nat) : Mem := fun x => if x = a then some v else m x

/-- The errors of `parseHex` (ihex32/hex.go:163,194). -/
inductive ParseError
  | invalidChecksums
  | collision (address value1 value2 : Nat)
  deriving DecidableEq, Repr

/-- What `parseHex` returns: the map and the error (`none` = nil). -/
structure Outcome where
  map : Mem
  err : Option ParseError

/-- ihex32/hex.go:190-199: insert the bytes one by one, stop at the first address that
already exists. -/
def insertBytes (h : Mem) : List DataByte → Outcome
  | [] => ⟨h, none⟩
  | d :: ds =>
    match h d.address with
    | some v => ⟨h, some (.collision d.address v d.value)⟩
    | none => insertBytes (h.insert d.address d.value) ds

/-- ihex32/hex.go:174-203 (`parseHex` after the offsets are applied): one worker per
share, batches collected in worker order, inserted into the map. -/
def collectData (n : Nat) (recs : List Record) : Option Outcome := do
  let parts ← shares? recs n
  let batches ← parts.mapM calcDataRoutine
  pure (insertBytes Mem.empty batches.flatten.flatten)

/-- ihex32/hex.go:101-202 (`parseHex`) on `n` CPUs under the schedule `sched` of the
offset workers. Outer `none`: panic. Inner `none`: the schedule ends before all offset
workers are done, so `parseHex` has not returned. -/
def parseHex (n : Nat) (sched : List Nat) (lines : List Str) : Option (Option Outcome) := do
  let recs ← parseRecords n lines
  if ← anyChecksumFailure n recs then
    pure (some ⟨Mem.empty, some .invalidChecksums⟩)
  else
    let s := runOffsets (initOffsets n recs) sched
    if s.allDone then
      let o ← collectData n s.recs
      pure (some o)
    else pure none

/-- `strings.Split(text, sep)` for a separator of one or two bytes. -/
def splitOn1 (c : Char) : Str → List Str
  | [] => [[]]
  | x :: xs =>
    if x = c then [] :: splitOn1 c xs
    else match splitOn1 c xs with
      | [] => [[x]]
      | l :: ls => (x :: l) :: ls

def splitOn2 (c d : Char) : Str → List Str
  | [] => [[]]
  | [x] => [[x]]
  | x :: y :: xs =>
    if x = c ∧ y = d then [] :: splitOn2 c d xs
    else match splitOn2 c d (y :: xs) with
      | [] => [[x]]
      | l :: ls => (x :: l) :: ls

/-- ihex32/hex.go:227-232: split on CRLF, and on LF if there is no CRLF. -/
def splitLines (text : Str) : List Str :=
  let lines := splitOn2 '\r' '\n' text
  if lines.length = 1 then splitOn1 '\n' text else lines

/-- ihex32/hex.go:216-238 (`ParseFromFile`) for a readable file with content `text`. -/
def parseFromText (n : Nat) (sched : List Nat) (text : Str) : Option (Option Outcome) :=
  parseHex n sched (splitLines text)

end Verif.Ihex
