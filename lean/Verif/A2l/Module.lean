import Verif.A2l.Run
import Verif.Conc.Collect

/-!
Model of the parallel module parser, a2l/module.go:327-1005. What the goroutines send is
computed by `worker`; how the messages get to the module is `Verif.Conc.Collect`.

Simplification: as everywhere in the parser model, error values are only "nil" or "not
nil"; the collected errors are represented by `Val.zero`.
-/

namespace Verif.A2l
open Verif.Go Lang Verif.Conc

/-- One kind of object of a module: its opening token and its parse function (the `case` of
`parseModuleMainLoop`), the field of `Module` its collector writes and the key under which it
is stored there (`none`: the field holds a single value), the capacity of its channel. -/
structure ModCase where
  tok : Str
  parser : PName
  field : String
  key : Option String
  cap : Nat

/-- The kinds of objects, in the order in which their channels are closed
(module.go:678-703). Per line: `case` of `parseModuleMainLoop`, collector, channel. The cases
of the `switch` exclude each other, so their order does not matter. -/
def channels : List ModCase := [
  /- module.go:752, 478, 374 -/
  ⟨beginA2mlToken, .parseA2ML, "a2ml", none, 1⟩,
  /- module.go:762, 485, 375 -/
  ⟨beginAxisPtsToken, .parseAxisPts, "AxisPts", some "name", 100⟩,
  /- module.go:771, 492, 376 -/
  ⟨beginBlobToken, .parseBlob, "blobs", some "name", 5⟩,
  /- module.go:780, 499, 377 -/
  ⟨beginCharacteristicToken, .parseCharacteristic, "Characteristics", some "Name", 1000⟩,
  /- module.go:789, 506, 378 -/
  ⟨beginCompuMethodToken, .parseCompuMethod, "CompuMethods", some "Name", 100⟩,
  /- module.go:798, 513, 379 -/
  ⟨beginCompuTabToken, .parseCompuTab, "CompuTabs", some "Name", 100⟩,
  /- module.go:807, 520, 380 -/
  ⟨beginCompuVtabToken, .parseCompuVtab, "CompuVTabs", some "Name", 100⟩,
  /- module.go:816, 527, 381 -/
  ⟨beginCompuVtabRangeToken, .parseCompuVtabRange, "CompuVTabRanges", some "Name", 100⟩,
  /- module.go:825, 534, 382 -/
  ⟨beginFrameToken, .parseFrame, "frame", none, 1⟩,
  /- module.go:835, 541, 383 -/
  ⟨beginFunctionToken, .parseFunction, "Functions", some "name", 1000⟩,
  /- module.go:844, 548, 384 -/
  ⟨beginGroupToken, .parseGroup, "Groups", some "groupName", 100⟩,
  /- module.go:853, 555, 385 -/
  ⟨beginIfDataToken, .parseIfData, "ifData", some "name", 100⟩,
  /- module.go:862, 590, 386 -/
  ⟨beginInstanceToken, .parseInstance, "instances", some "name", 10⟩,
  /- module.go:871, 562, 387 -/
  ⟨beginMeasurementToken, .parseMeasurement, "Measurements", some "name", 1000⟩,
  /- module.go:880, 569, 388 -/
  ⟨beginModCommonToken, .parseModCommon, "ModCommon", none, 1⟩,
  /- module.go:890, 576, 389 -/
  ⟨beginModParToken, .parseModPar, "ModPar", none, 1⟩,
  /- module.go:900, 583, 390 -/
  ⟨beginRecordLayoutToken, .parseRecordLayout, "RecordLayouts", some "Name", 100⟩,
  /- module.go:909, 597, 391 -/
  ⟨beginTransformerToken, .parseTransformer, "transformers", some "name", 10⟩,
  /- module.go:918, 604, 392 -/
  ⟨beginTypeDefAxisToken, .parseTypeDefAxis, "typeDefAxis", some "name", 10⟩,
  /- module.go:927, 611, 393 -/
  ⟨beginTypeDefBlobToken, .parseTypeDefBlob, "typeDefBlobs", some "name", 10⟩,
  /- module.go:936, 618, 394 -/
  ⟨beginTypeDefCharacteristicToken, .parseTypeDefCharacteristic, "typeDefCharacteristics", some "name", 10⟩,
  /- module.go:945, 625, 395 -/
  ⟨beginTypeDefMeasurementToken, .parseTypeDefMeasurement, "typeDefMeasurements", some "name", 10⟩,
  /- module.go:954, 632, 396 -/
  ⟨beginTypeDefStructureToken, .parseTypeDefStructure, "typeDefStructures", some "name", 10⟩,
  /- module.go:963, 639, 397 -/
  ⟨beginUnitToken, .parseUnit, "Units", some "name", 100⟩,
  /- module.go:972, 646, 398 -/
  ⟨beginUserRightsToken, .parseUserRights, "userRights", some "userLevelId", 10⟩,
  /- module.go:981, 653, 399 -/
  ⟨beginVariantCodingToken, .parseVariantCoding, "variantCoding", none, 1⟩]

/-- The `case` for a token, with the number of its channel (0 is `cError`). -/
def findCase (t : Str) : (k : Nat) → List ModCase → Option (Nat × ModCase)
  | _, [] => none
  | k, c :: cs => if c.tok = t then some (k, c) else findCase t (k + 1) cs

/-- Number of `cError`, which is closed first (module.go:677). -/
def errChan : Nat := 0

/-- The capacities of all channels (module.go:373-399); `cError` has room for one message of
each worker. -/
def capacities (np : Nat) : List Nat := np :: channels.map (·.cap)

/-- `tok.next()`, a2l/token_generator.go:29-37: the index after it. -/
def nextIdx (E : Env) (i : Nat) : Nat := if E.hasNext i then i + 1 else i

/-- `tok.next()`: the token it returns. -/
def nextTok (E : Env) (i : Nat) : Str := if E.hasNext i then E.current (i + 1) else emptyToken

/-- module.go:708-1005 (`parseModuleMainLoop`): what the worker that starts at index `i` and
ends at `max` sends, with channel numbers; `none` if it does not return (a parse function
crashes or does not return). `max` can be negative. -/
def worker (E : Env) (max : Int) : (fuel : Nat) → (i : Nat) → Option (List (Nat × Val))
  | 0, _ => none
  | fuel + 1, i =>
    if max ≤ (i : Int) then some []
    else
      match findCase (nextTok E i) 1 channels with
      | some (k, c) =>
        match parse E c.parser (nextIdx E i) with
        | .ok j v e =>
          if e then some [(errChan, .zero)]
          else (worker E max fuel j).map fun l => (k, v) :: l
        | _ => none
      | none =>
        if E.current (nextIdx E i) = emptyToken then some [(errChan, .zero)]
        else if E.current (nextIdx E i) = endModuleToken then some []
        else if max ≤ (nextIdx E i : Int) then some []
        else worker E max fuel (nextIdx E i)

/-- module.go:417: first index of worker `k` of `np`. -/
def minIndex (start stop np k : Nat) : Nat := start + ((stop - start) / np) * k

/-- module.go:418-421: last index of worker `k` of `np`. -/
def maxIndex (start stop np k : Nat) : Int :=
  if k + 1 = np then (stop : Int)
  else (minIndex start stop np k : Int) + ((stop - start) / np : Nat) - 1

/-- module.go:331-351: the maps of the module. -/
def mapFields : List String := ["AxisPts", "blobs", "Characteristics", "CompuMethods", "CompuTabs",
  "CompuVTabs", "CompuVTabRanges", "Functions", "Groups", "ifData", "instances", "Measurements",
  "RecordLayouts", "transformers", "typeDefAxis", "typeDefBlobs", "typeDefCharacteristics",
  "typeDefMeasurements", "typeDefStructures", "Units", "userRights"]

/-- The module with empty maps. -/
def newModule : Obj := mapFields.foldl (fun o f => o.set f (.map fun _ => none)) Obj.empty

/-- module.go:354-371: name and long identifier; the index after it, the module and the
error. -/
def header (E : Env) (i : Nat) : Nat × Obj × Bool :=
  let i1 := nextIdx E i
  if E.current i1 = emptyToken then (i1, newModule, true)
  else
    let o1 := (newModule.set "Name" (.str (E.current i1))).set "nameSet" (.bool true)
    let i2 := nextIdx E i1
    if E.current i2 = emptyToken then (i2, o1, true)
    else (i2, (o1.set "longIdentifier" (.str (E.current i2))).set "longIdentifierSet" (.bool true), false)

/-- module.go:410-414: the loop runs down over the whole list, so the first token wins; 0 if
there is none. -/
def endIndex (E : Env) : Nat := (E.toks.findIdx? (· = endModuleToken)).getD 0

/-- The map in field `f`. -/
def Lang.Obj.map (o : Obj) (f : String) : Str → Option Val :=
  match o f with
  | .map m => m
  | _ => fun _ => none

/-- module.go:473-654: what a collector does with one object. -/
def collectOne (c : ModCase) (o : Obj) (v : Val) : Obj :=
  match c.key with
  | some key => o.set c.field (.map (mapSet (o.map c.field) (v.strField key) v))
  | none => o.set c.field v

/-- The collectors write different fields (`channels_fields`), so their work can be done
channel by channel. `k` is the number of the first channel of the list. -/
def collectAll (acc : Nat → List Val) : (k : Nat) → List ModCase → Obj → Obj
  | _, [], o => o
  | k, c :: cs, o => collectAll acc (k + 1) cs ((acc k).foldl (collectOne c) o)

/-- What the collector of channel `k` has received. -/
def received (s : Collect.State Val) (k : Nat) : List Val :=
  match s.chans[k]? with
  | some c => c.acc.map (·.2)
  | none => []

/-- The messages of the workers; `none` if one of them does not return. -/
def scripts (E : Env) (np start stop : Nat) : Option (List (List (Nat × Val))) :=
  (List.range np).mapM fun k =>
    worker E (maxIndex start stop np k) (E.toks.length + 1) (minIndex start stop np k)

/-- module.go:327-450 (`parseModuleMultithreaded`) with `np` workers under the schedule
`sched`; `timeout` if the schedule ends before all collectors have returned or contains an
operation that is not enabled. -/
def mtModule (E : Env) (np : Nat) (sched : List Collect.Op) (i : Nat) : PRes :=
  let (start, o, err) := header E i
  let stop := endIndex E
  if stop ≤ start then .ok start (.obj o) true
  else match scripts E np start stop with
    | none => .panic
    | some ss =>
      match Collect.run (Collect.init (capacities np) ss) sched with
      | none => .timeout
      | some s =>
        if s.crashed then .panic
        else if s.finished then
          let errs := received s errChan
          let o1 := collectAll (received s) 1 channels o
          let o2 := if errs = [] then o1 else o1.set "errors" (.list errs)
          .ok stop (.obj o2) (err || !errs.isEmpty)
        else .timeout

/-- The environment of a multithreaded parse: `E` with `useMultithreading` set; `sched` gives the
schedule of a call of `parseModuleMultithreaded` at an index. -/
def mtEnv (E : Env) (np : Nat) (sched : Nat → List Collect.Op) : Env :=
  { E with multi := true, mtModule := fun i => mtModule E np (sched i) i }

end Verif.A2l
