import Verif.Ihex.Model

/-!
Model of package srec19 (the Motorola S-record parser). The code is a copy of ihex32
without segments. Shared with the model of ihex32 because the Go code is the same text:
the digit table and `hexToByte`/`hexToByteSlice` (`Verif.Hex.Table`), the data loop, the
summation of fields, the map with the duplicate check, line splitting.
-/

namespace Verif.Srec

open Verif.Go Verif.Hex
open Verif.Ihex (DataByte Mem Outcome ParseError Entries uint32BE? splitLines)

/-- srec19/tokens.go:4 `beginLineToken` -/
def beginLineToken : Char := 'S'
/-- srec19/tokens.go:5 `dataRecordToken` -/
def dataRecordToken : Str := ['3']

/-- srec19/record.go:10-24 (`record`). -/
structure Record where
  byteCount : Str
  addressField : Str
  recordType : Str
  data : List Str
  checksum : Str
  deriving DecidableEq, Repr

/-- srec19/record.go:27-43 (`parseRecord`). Outer `none`: panic; inner `none`: the error
"entry has no begin line symbol or is too short". The loop of lines 33-35 is that of
ihex32/record.go:34-36 with start 12 (`Ihex.dataLoop`). -/
def parseRecord (line : Str) : Option (Option Record) := do
  let recordType ← slice? line 1 2
  let c0 ← index? line 0
  if c0 = beginLineToken ∧ recordType = ['3'] ∧ 12 ≤ line.length then
    let byteCount ← slice? line 2 4
    let addressField ← slice? line 4 12
    let data ← Ihex.dataLoop line line.length 12
    let checksum ← slice? line (line.length - 2) line.length
    pure (some { byteCount, addressField, recordType, data, checksum })
  else pure none

/-- srec19/hex.go:229-245 (`parseRecordRoutine`): lines shorter than 11 are skipped, the
first line that does not parse ends the loop, and the records so far are sent. -/
def parseRecordRoutine : List Str → Option (List Record)
  | [] => some []
  | l :: ls =>
    if 11 ≤ l.length then do
      match ← parseRecord l with
      | none => pure []
      | some r =>
        let rs ← parseRecordRoutine ls
        pure (r :: rs)
    else parseRecordRoutine ls

/-- srec19/hex.go:110-132: one worker per share, collected in worker order. -/
def parseRecords (n : Nat) (lines : List Str) : Option (List Record) := do
  let parts ← shares? lines n
  let rss ← parts.mapM parseRecordRoutine
  pure rss.flatten

/-- srec19/record.go:62-119 (`validateChecksum`): count, four address bytes, data and
checksum must sum to 255 in `uint8`. Outer `none`: panic; inner `none`: conversion error. -/
def validateChecksum (r : Record) : Option (Option Bool) := do
  let a0 ← slice? r.addressField 0 2
  let a1 ← slice? r.addressField 2 4
  let a2 ← slice? r.addressField 4 6
  let a3 ← slice? r.addressField 6 8
  pure <| match Ihex.sumFields ([r.byteCount, a0, a1, a2, a3] ++ r.data ++ [r.checksum]) 0 with
    | none => none
    | some s => some (s == 255)

/-- srec19/record.go:47-59 (`validateChecksumsRoutine`): `true` if the worker sends
`false` on the verdict channel. -/
def checksumFailure : List Record → Option Bool
  | [] => some false
  | r :: rs => do
    match ← validateChecksum r with
    | some true => checksumFailure rs
    | _ => pure true

/-- srec19/hex.go:134-160. -/
def anyChecksumFailure (n : Nat) (recs : List Record) : Option Bool := do
  let parts ← shares? recs n
  let vs ← parts.mapM checksumFailure
  pure (vs.any id)

/-- srec19/record.go:146-162: the loop over the data fields. -/
def calcDataLoop (r : Record) : (i : Nat) → List Str → Option Entries
  | _, [] => some ⟨[], false⟩
  | i, s :: ss =>
    match hexToByte s with
    | none => some ⟨[], true⟩
    | some val =>
      match decodeString r.addressField with
      | none => some ⟨[], true⟩
      | some bs => do
        let lineAddress ← uint32BE? bs
        let lineAddress := (lineAddress + i % 4294967296) % 4294967296
        let rest ← calcDataLoop r (i + 1) ss
        pure ⟨⟨lineAddress, val⟩ :: rest.bytes, rest.failed⟩

/-- srec19/record.go:139-164 (`calcDataEntries`). -/
def calcDataEntries (r : Record) : Option Entries := calcDataLoop r 0 r.data

/-- srec19/record.go:121-136 (`calcDataRoutine`): the batches the worker sends. -/
def calcDataRoutine (recs : List Record) : Option (List (List DataByte)) := do
  let es ← (recs.filter (fun r => r.recordType = dataRecordToken)).mapM calcDataEntries
  pure ((es.filter (·.failed)).map (fun _ => []) ++ [(es.map (·.bytes)).flatten])

/-- srec19/hex.go:162-190: data workers, batches collected in worker order and inserted
into the map; the loop of lines 178-188 is that of ihex32/hex.go:190-199. -/
def collectData (n : Nat) (recs : List Record) : Option Outcome := do
  let parts ← shares? recs n
  let batches ← parts.mapM calcDataRoutine
  pure (Ihex.insertBytes Mem.empty batches.flatten.flatten)

/-- srec19/hex.go:101-191 (`parseHex`) on `n` CPUs. `none`: panic. -/
def parseHex (n : Nat) (lines : List Str) : Option Outcome := do
  let recs ← parseRecords n lines
  if ← anyChecksumFailure n recs then
    pure ⟨Mem.empty, some .invalidChecksums⟩
  else collectData n recs

/-- srec19/hex.go:205-227 (`ParseFromFile`) for a readable file with content `text`. -/
def parseFromText (n : Nat) (text : Str) : Option Outcome := parseHex n (splitLines text)

end Verif.Srec
